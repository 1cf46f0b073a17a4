import Verif.Spec.History
import Verif.Proofs.Stateful

/-!
# C13, C14: stateful front-ends
-/

namespace Verif.Props

open Verif

/-- Any implementation meeting the trait contract answers every history correctly. -/
theorem C13_contract_history {I : StatefulImpl} (ok : I.OK) (ops : List Op) (hv : ∀ op ∈ ops, op.Valid 2147483647)
    (added : List Clause) (t : Nat) (s : I.S) (hs : ok.Rep s added) :
    ∃ rs s', I.run ops t s = .ok (rs, s') ∧ HistoryCorrect added ops rs := by
  induction ops generalizing added t s with
  | nil => exact ⟨[], s, rfl, rfl⟩
  | cons op ops ih =>
    have hop := hv op (by simp)
    have hv' := fun o ho => hv o (List.mem_cons_of_mem _ ho)
    cases op with
    | addCnf f =>
      obtain ⟨s1, h1, h2⟩ := (ok.addCnf s added f hs hop.1 hop.2.1 (by have := hop.2.2; omega)).ok
      obtain ⟨rs, s', h3, h4⟩ := ih hv' _ t s1 h2
      exact ⟨rs, s', by simp only [StatefulImpl.run, h1]; exact h3, h4⟩
    | solve cube clause =>
      obtain ⟨⟨r, s1⟩, h1, h2, h3, _⟩ := (ok.solve t s added cube clause hs
        (by cases cube with
          | none => trivial
          | some c => exact hop.1.1)
        (by cases clause with
          | none => trivial
          | some c => exact hop.2.1)
        (by cases clause with
          | none => trivial
          | some c => exact hop.2.2.1)).ok
      obtain ⟨rs, s', h4, h5⟩ := ih hv' _ (t + 1) s1 h2
      refine ⟨r :: rs, s', ?_, h3, h5⟩
      simp only [StatefulImpl.run, h1, bind, Except.bind, h4]; rfl

/-- MiniSat: with a back-end that decides its database under assumptions, in either build profile, every history of
`add_cnf`/`solve` calls over any literals runs without panic, and each `solve` answers exactly for the CNFs added so far
and its own temporaries. -/
theorem C13_minisat (dbg : Bool) {be : MsBackend} (hb : MsOK be) (ops : List Op) (hv : ∀ op ∈ ops, op.Valid 2147483647)
    (t : Nat) : ∃ rs s', (MiniSat.impl dbg be).run ops t MiniSat.new = .ok (rs, s') ∧ HistoryCorrect [] ops rs :=
  C13_contract_history (MiniSat.implOK dbg hb) ops hv [] t _ MiniSat.rep_new

/-- Moreover every `Sat` answer of MiniSat values every variable up to the largest one mentioned so far. -/
theorem C13_minisat_total (dbg : Bool) {be : MsBackend} (hb : MsOK be) (ops : List Op)
    (hv : ∀ op ∈ ops, op.Valid 2147483647) (t : Nat) (cube : Option Cube) (clause : Option Clause)
    (hq : (Op.solve cube clause).Valid 2147483647) :
    ∃ rs s r s', (MiniSat.impl dbg be).run ops t MiniSat.new = .ok (rs, s) ∧
      MiniSat.solve dbg be (t + rs.length) cube clause s = .ok (r, s') ∧
      QueryTotal (ops.flatMap (fun o => match o with | .addCnf f => f.iter | .solve _ _ => [])) cube clause r := by
  have run_rep : ∀ (ops : List Op) (_ : ∀ op ∈ ops, op.Valid 2147483647) (added : List Clause) (t : Nat) (s : MiniSat)
      (_ : s.Rep added), ∃ rs s', (MiniSat.impl dbg be).run ops t s = .ok (rs, s') ∧
        s'.Rep (added ++ ops.flatMap (fun o => match o with | .addCnf f => f.iter | .solve _ _ => [])) := by
    intro ops
    induction ops with
    | nil => intro _ added t s hs; exact ⟨[], s, rfl, by simpa using hs⟩
    | cons op ops ih =>
      intro hv added t s hs
      have hop := hv op (by simp)
      have hv' := fun o ho => hv o (List.mem_cons_of_mem _ ho)
      cases op with
      | addCnf f =>
        obtain ⟨s1, h1, h2⟩ := MiniSat.addCnf_rep hs (show f.maxVar < _ by have := hop.2.2; unfold CNF.getMaxVar at this; omega) hop.2.1
        obtain ⟨rs, s', h3, h4⟩ := ih hv' _ t s1 h2
        refine ⟨rs, s', ?_, by simpa using h4⟩
        simp only [StatefulImpl.run]
        show Except.bind (MiniSat.addCnf f s) _ = _
        rw [h1]; exact h3
      | solve cube clause =>
        obtain ⟨r, s1, h1, h2, _, _⟩ := MiniSat.solve_ok dbg hb t hs cube clause
          (by cases cube with
            | none => trivial
            | some c => exact hop.1.1)
          (by cases clause with
            | none => trivial
            | some c => exact hop.2.1)
          (by cases clause with
            | none => trivial
            | some c => exact hop.2.2.1)
        obtain ⟨rs, s', h4, h5⟩ := ih hv' _ (t + 1) s1 h2
        refine ⟨r :: rs, s', ?_, by simpa using h5⟩
        simp only [StatefulImpl.run]
        show Except.bind (MiniSat.solve dbg be t cube clause s) _ = _
        rw [h1]
        simp only [Except.bind, bind, h4]; rfl
  obtain ⟨rs, s, h1, h2⟩ := run_rep ops hv [] t _ MiniSat.rep_new
  obtain ⟨r, s', h3, _, _, h4⟩ := MiniSat.solve_ok dbg hb (t + rs.length) h2 cube clause
    (by cases cube with
      | none => trivial
      | some c => exact hq.1.1)
    (by cases clause with
      | none => trivial
      | some c => exact hq.2.1)
    (by cases clause with
      | none => trivial
      | some c => exact hq.2.2.1)
  exact ⟨rs, s, r, s', h1, h3, by simpa using h4⟩

/-- CaDiCaL, exactly: the counter of back-end variables starts at 1 and is used up by one for each entry of the literal table and each
temporary clause.  If it stays in `i32` over the whole history, the history runs without panic in both build profiles and each answer is
right; otherwise the history panics with the overflow in a debug build. -/
theorem C14_exact {be : CdBackend} (hb : CdOK be) (ops : List Op) (hv : ∀ op ∈ ops, op.Valid 2147483647) (t : Nat) :
    (1 + tableSize ops + temporaries ops < 2147483648 → ∀ dbg,
      ∃ rs s', (CaDiCal.impl dbg be).run ops t CaDiCal.new = .ok (rs, s') ∧ HistoryCorrect [] ops rs) ∧
    (¬ 1 + tableSize ops + temporaries ops < 2147483648 →
      (CaDiCal.impl true be).run ops t CaDiCal.new = .error (.panic "stateful/cadical_solver.rs:35 overflow")) := by
  have := CaDiCal.run_exact hb ops hv 0 [] t _ CaDiCal.rep_new
  have e : 1 + max CaDiCal.new.lits.length (tableSize ops) + (0 + temporaries ops) = 1 + tableSize ops + temporaries ops := by
    show 1 + max 0 _ + _ = _; omega
  rw [e] at this
  exact this

/-- The table never needs more entries than one for each number up to the largest variable. -/
theorem tableSize_le {V : Nat} (ops : List Op) (hv : ∀ op ∈ ops, op.Valid V) : tableSize ops ≤ V + 1 := by
  have top : ∀ ls : List Literal, (∀ l ∈ ls, l.number ≤ V) → litsTop ls ≤ V := by
    intro ls h
    rcases CaDiCal.litsTop_attained ls with h0 | ⟨l, hl, e⟩
    · omega
    · rw [← e]; exact h l hl
  induction ops with
  | nil => exact Nat.zero_le _
  | cons op ops ih =>
    have h1 := ih fun o ho => hv o (List.mem_cons_of_mem _ ho)
    have h2 : op.slots ≤ V + 1 := by
      have hop := hv op (by simp)
      cases op with
      | addCnf f => exact Nat.succ_le_succ hop.2.2
      | solve cube clause =>
        refine Nat.max_le.2 ⟨?_, ?_⟩
        · cases cube with
          | none => exact Nat.zero_le _
          | some c => exact Nat.succ_le_succ (top _ hop.1.2)
        · cases clause with
          | none => exact Nat.zero_le _
          | some c => exact Nat.succ_le_succ (top _ hop.2.2.2)
    show max op.slots (tableSize ops) ≤ V + 1
    omega

/-- In particular it is enough that the largest variable plus the number of temporary clauses is below 2^31 - 2. -/
theorem C14_cadical (dbg : Bool) {be : CdBackend} (hb : CdOK be) (V : Nat) (ops : List Op) (hv : ∀ op ∈ ops, op.Valid V)
    (hV : V + 2 + temporaries ops < 2147483648) (t : Nat) :
    ∃ rs s', (CaDiCal.impl dbg be).run ops t CaDiCal.new = .ok (rs, s') ∧ HistoryCorrect [] ops rs := by
  have hle := tableSize_le ops hv
  refine (C14_exact hb ops (fun op hop => ?_) t).1 (by omega) dbg
  have := hv op hop
  cases op with
  | addCnf f => exact ⟨this.1, this.2.1, Nat.le_trans this.2.2 (by omega)⟩
  | solve cube clause =>
    refine ⟨?_, ?_⟩
    · cases cube with
      | none => trivial
      | some c => exact ⟨this.1.1, fun l hl => Nat.le_trans (this.1.2 l hl) (by omega)⟩
    · cases clause with
      | none => trivial
      | some c => exact ⟨this.2.1, this.2.2.1, fun l hl => Nat.le_trans (this.2.2.2 l hl) (by omega)⟩

/-- Counter overflow is real: with the counter at its last value a temporary clause panics in a debug build, and in a
release build the next back-end variable handed out is `i32::MIN`. -/
theorem C14_counter_overflow :
    (⟨[], [], 2147483647⟩ : CaDiCal).newLit true = .error (.panic "stateful/cadical_solver.rs:35 overflow") ∧
    (⟨[], [], 2147483647⟩ : CaDiCal).newLit false = .ok (2147483647, ⟨[], [], -2147483648⟩) := by decide

/-! ## The hypotheses are satisfiable -/

open Classical in
/-- A correct MiniSat back-end exists. -/
noncomputable def idealMs : MsBackend := fun _ db asm =>
  if h : ∃ β, bClausesHold β db ∧ ∀ l ∈ asm, l.holds β then some h.choose else none

theorem idealMs_ok : MsOK idealMs where
  unsat := by
    intro t db asm h β hβ
    unfold idealMs at h
    rw [dif_pos ⟨β, hβ⟩] at h
    cases h
  sat := by
    intro t db asm m h
    unfold idealMs at h
    split at h
    · rename_i hex
      cases h
      exact hex.choose_spec
    · cases h

open Classical in
/-- A correct incremental CaDiCaL back-end exists. -/
noncomputable def idealCd : CdBackend := fun _ db asm =>
  if h : ∃ β, intClausesHold β db ∧ ∀ x ∈ asm, intHolds β x then
    (some true, fun x => some (decide (intHolds h.choose x)))
  else (some false, fun _ => none)

theorem idealCd_ok : CdOK idealCd where
  decided := by intro t db asm _ _; unfold idealCd; split <;> simp
  unsat := by
    intro t db asm _ _ h β hβ
    unfold idealCd at h
    rw [dif_pos ⟨β, hβ⟩] at h
    simp at h
  sat := by
    intro t db asm _ hnz h β hβ
    unfold idealCd at h hβ
    split at h
    · rename_i hex
      rw [dif_pos hex] at hβ
      have h1 : ∀ x, (intHolds β x ↔ intHolds hex.choose x) := by
        intro x
        have := hβ x _ rfl
        simpa using this
      have hs := hex.choose_spec
      refine ⟨fun c hc => ?_, fun x hx => (h1 x).2 (hs.2 x hx)⟩
      obtain ⟨x, hx, hh⟩ := hs.1 c hc
      exact ⟨x, hx, (h1 x).2 hh⟩
    · simp at h
  consistent := by
    intro t db asm _ _ h
    unfold idealCd at h ⊢
    split at h
    · rename_i hex
      rw [dif_pos hex]
      exact ⟨hex.choose, by intro x b hb; simp at hb; simp [← hb]⟩
    · simp at h

theorem idealCd_total : CdTotal idealCd := by
  intro t db asm _ _ h n _ c _ y _ _
  unfold idealCd at h ⊢
  split at h
  · rename_i hex
    rw [dif_pos hex]; rfl
  · simp at h

/-- A history with a permanent CNF, a temporary clause over an unseen variable, and a query after it. -/
def sampleOps : List Op :=
  [.addCnf (CNF.new.addClause (Clause.new [⟨2⟩, ⟨5⟩])), .solve (some (Cube.new [⟨3⟩])) (some (Clause.new [⟨4⟩, ⟨14⟩])),
   .solve none none, .solve (some (Cube.new [⟨4⟩, ⟨3⟩])) none]

theorem sampleOps_valid : ∀ op ∈ sampleOps, op.Valid 7 := by
  have hg : ∀ ls : List Literal, (∀ l ∈ ls, 1 ≤ l.number ∧ l.number ≤ 2147483647) → ∀ l ∈ ls, l.Good := fun _ h => h
  intro op hop
  simp only [sampleOps, List.mem_cons, List.not_mem_nil, or_false] at hop
  rcases hop with rfl | rfl | rfl | rfl
  · refine ⟨?_, by decide, by decide⟩
    intro c hc
    exact hg _ (by revert c; decide)
  · refine ⟨⟨hg _ (by decide), by decide⟩, hg _ (by decide), ?_, by decide⟩
    unfold Clause.Ascending; decide
  · exact ⟨trivial, trivial⟩
  · exact ⟨⟨hg _ (by decide), by decide⟩, trivial⟩

/-- In the sample history the last query is unsatisfiable (¬x1 ∧ x2 contradicts x1 ∨ ¬x2) although the earlier ones are
satisfiable: the theorems really distinguish answers. -/
example (t : Nat) : ∃ rs s', (MiniSat.impl true idealMs).run sampleOps t MiniSat.new = .ok (rs, s') ∧
    HistoryCorrect [] sampleOps rs ∧ rs.getLast? = some .unsat := by
  obtain ⟨rs, s', h1, h2⟩ := C13_minisat true idealMs_ok sampleOps
    (fun op hop => by
      have := sampleOps_valid op hop
      simp only [sampleOps, List.mem_cons, List.not_mem_nil, or_false] at hop
      rcases hop with rfl | rfl | rfl | rfl
      · exact ⟨this.1, this.2.1, by decide⟩
      · exact ⟨⟨this.1.1, by decide⟩, this.2.1, this.2.2.1, by decide⟩
      · exact this
      · exact ⟨⟨this.1.1, by decide⟩, trivial⟩) t
  refine ⟨rs, s', h1, h2, ?_⟩
  match rs, h2 with
  | [_, _, .unsat], _ => rfl
  | [_, _, .sat a], h2 =>
    exfalso
    obtain ⟨_, _, h3, _⟩ := h2
    obtain ⟨v, ⟨ha, hc, _⟩, _⟩ := h3
    have hc1 := hc ⟨4⟩ (by decide)
    have hc2 := hc ⟨3⟩ (by decide)
    obtain ⟨l, hl, hh⟩ := ha (Clause.new [⟨2⟩, ⟨5⟩]) (by decide)
    have hl' : l = ⟨2⟩ ∨ l = ⟨5⟩ := by simpa [Clause.iter] using hl
    simp only [Literal.holds, Literal.number, Literal.isNegated] at hc1 hc2 hh
    rcases hl' with rfl | rfl <;> simp at hc1 hc2 hh <;> simp_all

example (t : Nat) : ∃ rs s', (CaDiCal.impl false idealCd).run sampleOps t CaDiCal.new = .ok (rs, s') ∧
    HistoryCorrect [] sampleOps rs :=
  C14_cadical false idealCd_ok 7 sampleOps sampleOps_valid (by decide) t

/-- The sample history uses 9 back-end variables: eight entries (0 to 7) and one temporary clause. -/
example : 1 + tableSize sampleOps + temporaries sampleOps = 10 := by decide

/-- One clause over the largest possible variable is already too much. -/
example (t : Nat) : (CaDiCal.impl true idealCd).run [.addCnf (CNF.new.addClause (Clause.new [⟨4294967294⟩]))] t CaDiCal.new =
    .error (.panic "stateful/cadical_solver.rs:35 overflow") := by
  refine (C14_exact idealCd_ok _ ?_ t).2 (by decide)
  intro op hop
  rw [List.mem_singleton] at hop
  subst hop
  refine ⟨?_, by decide, by decide⟩
  intro c hc
  have : c = Clause.new [⟨4294967294⟩] := by revert c; decide
  subst this
  show ∀ l ∈ [(⟨4294967294⟩ : Literal)], 1 ≤ l.number ∧ l.number ≤ 2147483647
  decide

end Verif.Props
