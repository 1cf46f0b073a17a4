import Verif.Proofs.Stateless
import Verif.Proofs.BruteDimacs

/-!
# Property C12: stateless solver front-ends
-/

namespace Verif.Props

open Dimacs (intOf)

/-- C12 (CaDiCaL): with a correct back-end the front-end returns, and its answer is right and values every variable.
The bound on the largest variable is needed: `max_variable() + 1` overflows an `i32` at 2^31-1. -/
theorem C12_cadical (dbg : Bool) (be : List (List Int) → CadicalAnswer) (hb : CadicalOK be) (f : CNF) (hg : f.Good)
    (hw : f.WF) (hm : f.getMaxVar < 2 ^ 31 - 1) :
    ∃ r, cadicalSolveCnf dbg be f = .ok r ∧ AnswerOK f r := by
  have hz := inI32_convert hg
  unfold cadicalSolveCnf
  rw [convertCnf_ok hg]
  simp only [bind, Except.bind]
  generalize hcls : f.iter.map (fun c => c.iter.map intOf) = cls at hz
  have hsem : ∀ v, intClausesHold v cls ↔ f.holds v := fun v => hcls ▸ intClausesHold_iff hg
  have hmax : (be cls).maxVariable = f.maxVar := by
    obtain ⟨h1, h2⟩ := hb.maxVar cls hz
    apply Nat.le_antisymm
    · rcases h2 with h2 | ⟨d, hd, x, hx, e⟩
      · omega
      · rw [← e]
        rw [← hcls] at hd
        obtain ⟨c, hc, rfl⟩ := List.mem_map.1 hd
        obtain ⟨l, hl, rfl⟩ := List.mem_map.1 hx
        rw [natAbs_intOf]
        exact hw.le_max c hc l hl
    · rcases hw.attained with h0 | ⟨c, hc, l, hl, e⟩
      · omega
      · rw [← e, ← natAbs_intOf l]
        apply h1 (c.iter.map intOf)
        · rw [← hcls]; exact List.mem_map.2 ⟨c, hc, rfl⟩
        · exact List.mem_map.2 ⟨l, hl, rfl⟩
  cases hr : (be cls).result with
  | none => exact absurd hr (hb.decided cls hz)
  | some b =>
    cases b with
    | false =>
      refine ⟨_, rfl, ?_⟩
      intro v hv
      exact hb.unsat cls hz hr v ((hsem v).2 hv)
    | true =>
      have hm' : f.maxVar < 2 ^ 31 - 1 := hm
      simp only [hmax]
      rw [if_pos (by omega)]
      let v : Val := fun n => match (be cls).value n with | some b => b | none => true
      have hv : ∀ n b, (be cls).value n = some b → v n = b := by
        intro n b h; simp [v, h]
      have hmem : ∀ x ∈ (List.range' 1 f.maxVar).map (cadicalDimacsLit (be cls).value), x ≠ 0 ∧ -2 ^ 31 < x ∧ intHolds v x := by
        intro x hx
        obtain ⟨n, hn, rfl⟩ := List.mem_map.1 hx
        rw [List.mem_range'_1] at hn
        unfold cadicalDimacsLit intHolds
        cases he : (be cls).value n with
        | none => simp [v, he]; omega
        | some b =>
          cases b
          · simp [v, he]; omega
          · simp [v, he]; omega
      obtain ⟨a, ha, hag, htot⟩ := fromDimacs_agrees dbg hmem
      refine ⟨.sat a, by rw [ha]; rfl, ⟨v, (hsem v).1 (hb.sat cls hz hr v hv), hag⟩, ?_⟩
      intro n h1 h2
      apply htot n h1
      have : cadicalDimacsLit (be cls).value n = (n : Int) ∨ cadicalDimacsLit (be cls).value n = -(n : Int) := by
        unfold cadicalDimacsLit
        cases (be cls).value n with
        | none => exact .inl rfl
        | some b => cases b <;> simp
      have hmem' : cadicalDimacsLit (be cls).value n ∈ (List.range' 1 f.maxVar).map (cadicalDimacsLit (be cls).value) :=
        List.mem_map.2 ⟨n, by rw [List.mem_range'_1]; exact ⟨h1, by have : n ≤ f.maxVar := h2; omega⟩, rfl⟩
      rcases this with e | e
      · left; rwa [e] at hmem'
      · right; rwa [e] at hmem'

/-- C12 (CaDiCaL), the excluded point: a satisfiable CNF using variable 2^31-1 makes a debug build panic. -/
theorem C12_cadical_overflow (be : List (List Int) → CadicalAnswer) (hb : CadicalOK be) :
    ∃ s, cadicalSolveCnf true be (CNF.new.addClause (Clause.new [⟨4294967294⟩])) = .error (.panic s) := by
  have hc : convertCnf "stateless/cadical_solver.rs:28" (CNF.new.addClause (Clause.new [⟨4294967294⟩])) = .ok [[2147483647]] := by
    decide
  have hz : InI32 [[2147483647]] := by intro c hc x hx; simp at hc; subst hc; simp at hx; omega
  unfold cadicalSolveCnf
  rw [hc]
  simp only [bind, Except.bind]
  have hmax : (be [[2147483647]]).maxVariable = 2147483647 := by
    obtain ⟨h1, h2⟩ := hb.maxVar _ hz
    have := h1 [2147483647] (by simp) 2147483647 (by simp)
    rcases h2 with h2 | ⟨c, hc, x, hx, e⟩
    · omega
    · simp at hc; subst hc; simp at hx; omega
  cases hr : (be [[2147483647]]).result with
  | none => exact absurd hr (hb.decided _ hz)
  | some b =>
    cases b with
    | false =>
      exfalso
      apply hb.unsat _ hz hr (fun _ => true)
      intro c hc
      simp at hc; subst hc
      exact ⟨2147483647, by simp, by simp [intHolds]⟩
    | true => exact ⟨_, by simp only [hmax]; rfl⟩

/-- C12 (Splr): right answers; total when the back-end's models are. -/
theorem C12_splr (dbg : Bool) (be : List (List Int) → SplrAnswer) (hb : SplrOK be) (f : CNF) (hg : f.Good) (hw : f.WF) :
    ∃ r, splrSolveCnf dbg be f = .ok r ∧ AnswerCorrect f r ∧
      (SplrTotal be → AnswerOK f r) := by
  have hz := inI32_convert hg
  unfold splrSolveCnf
  rw [convertCnf_ok hg]
  simp only [bind, Except.bind]
  generalize hcls : f.iter.map (fun c => c.iter.map intOf) = cls at hz
  have hsem : ∀ v, intClausesHold v cls ↔ f.holds v := fun v => hcls ▸ intClausesHold_iff hg
  cases hr : be cls with
  | unsat =>
    refine ⟨_, rfl, ?_, ?_⟩
    · intro v hv; exact hb.unsat cls hz hr v ((hsem v).2 hv)
    · intro _ v hv; exact hb.unsat cls hz hr v ((hsem v).2 hv)
  | errOther => exact absurd hr (hb.noErr cls hz)
  | errEmptyClause =>
    have he := hb.empty cls hz hr
    have hu : ∀ v, ¬ f.holds v := by
      intro v hv
      obtain ⟨x, hx, _⟩ := (hsem v).2 hv [] he
      simp at hx
    exact ⟨_, rfl, hu, fun _ => hu⟩
  | sat m =>
    obtain ⟨v, hv, hm⟩ := hb.sat cls m hz hr
    obtain ⟨a, ha, hag, htot⟩ := fromDimacs_agrees dbg hm
    refine ⟨.sat a, by simp only [ha]; rfl, ⟨v, (hsem v).1 hv, hag⟩, ?_⟩
    intro ht
    refine ⟨⟨v, (hsem v).1 hv, hag⟩, ?_⟩
    intro n h1 h2
    apply htot n h1
    apply ht cls m hz hr n h1
    have h2' : n ≤ f.maxVar := h2
    rcases hw.attained with h0 | ⟨c, hc, l, hl, e⟩
    · omega
    · refine ⟨c.iter.map intOf, ?_, intOf l, List.mem_map.2 ⟨l, hl, rfl⟩, ?_⟩
      · rw [← hcls]; exact List.mem_map.2 ⟨c, hc, rfl⟩
      · rw [natAbs_intOf]; omega

/-- C12 (Varisat): right answers; total when the back-end's models are. -/
theorem C12_varisat (dbg : Bool) (be : List (List Int) → VarisatAnswer) (hb : VarisatOK be) (f : CNF) (hg : f.Good)
    (hw : f.WF) :
    ∃ r, varisatSolveCnf dbg be f = .ok r ∧ AnswerCorrect f r ∧
      (VarisatTotal be → AnswerOK f r) := by
  have hz := inI32_convert hg
  unfold varisatSolveCnf
  rw [convertCnf_ok hg]
  simp only [bind, Except.bind]
  generalize hcls : f.iter.map (fun c => c.iter.map intOf) = cls at hz
  have hsem : ∀ v, intClausesHold v cls ↔ f.holds v := fun v => hcls ▸ intClausesHold_iff hg
  cases hr : be cls with
  | unsat =>
    refine ⟨_, rfl, ?_, ?_⟩
    · intro v hv; exact hb.unsat cls hz hr v ((hsem v).2 hv)
    · intro _ v hv; exact hb.unsat cls hz hr v ((hsem v).2 hv)
  | err => exact absurd hr (hb.noErr cls hz).1
  | sat om =>
    cases om with
    | none => exact absurd hr (hb.noErr cls hz).2
    | some m =>
      obtain ⟨v, hv, hm⟩ := hb.sat cls m hz hr
      have hmap : m.mapM (fun x => if -2147483648 ≤ x ∧ x < 2147483648 then (.ok x : Res Int) else panicR "varisat_solver.rs:39 try_into")
          = .ok (m.map id) := by
        apply mapM_ok
        intro x hx
        have := hm x hx
        rw [if_pos (by omega)]; rfl
      obtain ⟨a, ha, hag, htot⟩ := fromDimacs_agrees dbg (m := m) (v := v) (fun x hx => ⟨(hm x hx).1, (hm x hx).2.1, (hm x hx).2.2.2⟩)
      refine ⟨.sat a, ?_, ⟨v, (hsem v).1 hv, hag⟩, ?_⟩
      · simp only [unwrapR, hmap, List.map_id, ha]; rfl
      intro ht
      refine ⟨⟨v, (hsem v).1 hv, hag⟩, ?_⟩
      intro n h1 h2
      apply htot n h1
      apply ht cls m hz hr n h1
      have h2' : n ≤ f.maxVar := h2
      rcases hw.attained with h0 | ⟨c, hc, l, hl, e⟩
      · omega
      · refine ⟨c.iter.map intOf, ?_, intOf l, List.mem_map.2 ⟨l, hl, rfl⟩, ?_⟩
        · rw [← hcls]; exact List.mem_map.2 ⟨c, hc, rfl⟩
        · rw [natAbs_intOf]; omega

/-! ### The back-end contracts can be met, on a CNF that meets the hypotheses -/

example : (CNF.new.addClause (Clause.new [⟨2⟩, ⟨5⟩])).WF := CNF.WF.new.addClause (Clause.sorted_new _)
example : (CNF.new.addClause (Clause.new [⟨2⟩, ⟨5⟩])).Good := by
  intro c hc l hl
  rcases CNF.mem_addClause.1 hc with hc | rfl
  · simp [CNF.new] at hc
  · simp [Clause.iter] at hl
    rcases hl with rfl | rfl <;> exact ⟨by decide, by decide⟩
example : CadicalOK Brute.cadical := Brute.cadical_ok
example : SplrOK Brute.splr ∧ SplrTotal Brute.splr := ⟨Brute.splr_ok, Brute.splr_total⟩
example : VarisatOK Brute.varisat ∧ VarisatTotal Brute.varisat := ⟨Brute.varisat_ok, Brute.varisat_total⟩
example : cadicalSolveCnf true Brute.cadical (CNF.new.addClause (Clause.new [⟨2⟩, ⟨7⟩])) = .ok (.sat ⟨[1, 2, 3], []⟩) := by decide +kernel
example : splrSolveCnf true Brute.splr (CNF.new.addClause (Clause.new [])) = .ok .unsat := by decide +kernel

end Verif.Props
