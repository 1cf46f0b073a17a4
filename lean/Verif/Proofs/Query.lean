import Verif.Proofs.Ic3
import Verif.Spec.SolverContract

/-! # One-step solver queries over latches, and what their answers mean -/

namespace Verif

open Fsts

variable {f : Fsts} {c : Circuit} {bads : List Nat}

/-- The system `f` was built from the circuit `c`, and fits the representation twice. -/
structure SmallSys (f : Fsts) (c : Circuit) (bads : List Nat) : Prop where
  laws : Laws f c bads
  wf : c.WF
  bad : BadsOK c bads
  small : c.Small

/-- An answer about the set `H` of valuations that gives every latch a value. -/
def Ans (c : Circuit) (H : Val → Prop) : SatResponse → Prop
  | .unsat => ∀ w, ¬ H w
  | .sat a => ∃ w, H w ∧ a.Agrees w ∧ ∀ i, i < c.latches.length → (a.getValue (c.latchVar i)).isSome

theorem Ans.congr {H H' : Val → Prop} {r : SatResponse} (h : Ans c H r) (he : ∀ w, H w ↔ H' w) : Ans c H' r := by
  cases r with
  | unsat => exact fun w hw => h w ((he w).2 hw)
  | sat a =>
    obtain ⟨w, h1, h2⟩ := h
    exact ⟨w, (he w).1 h1, h2⟩

theorem Ans.values {a : Assignment} {w : Val} (hag : a.Agrees w) (ht : ∀ i, i < c.latches.length → (a.getValue (c.latchVar i)).isSome) :
    IC3.Values c a w := by
  intro i hi
  obtain ⟨b, hb⟩ := Option.isSome_iff_exists.1 (ht i hi)
  rw [hb, hag _ _ hb]

/-- The transition relation mentions every next-state variable. -/
theorem transition_mentions (h : Laws f c bads) {i : Nat} (hi : i < c.latches.length) :
    ∃ d ∈ f.transition.clauses, ∃ l ∈ d.lits, l.number = c.latchVar i + c.maxVar := by
  have hp := List.getElem?_eq_getElem hi
  generalize c.latches[i] = p at hp
  have key : ∃ d ∈ latchClauses (c.latchVar i + c.maxVar) p.1, ∃ l ∈ d.lits, l.number = c.latchVar i + c.maxVar := by
    unfold latchClauses
    repeat' split
    · exact ⟨_, List.mem_singleton.2 rfl, (⟨2 * (c.latchVar i + c.maxVar)⟩ : Literal).not, by simp [Clause.mem_new], by
        rw [Literal.number_not, literal_number_mk]; omega⟩
    · exact ⟨_, List.mem_singleton.2 rfl, (⟨2 * (c.latchVar i + c.maxVar)⟩ : Literal), by simp [Clause.mem_new], by
        rw [literal_number_mk]; omega⟩
    · exact ⟨_, List.mem_cons_self, (⟨2 * (c.latchVar i + c.maxVar)⟩ : Literal).not, by simp [Clause.mem_new], by
        rw [Literal.number_not, literal_number_mk]; omega⟩
  obtain ⟨d, hd, l, hl, e⟩ := key
  exact ⟨d, (h.trans_mem d).2 (.inl ⟨i, p, hp, hd⟩), l, hl, e⟩

/-- A formula that contains the transition relation. -/
theorem Ans.of_answer (h : Laws f c bads) {g : CNF} {r : SatResponse} (hr : g.Ready) (ht : ∀ d ∈ f.transition.clauses, d ∈ g.clauses)
    (ha : AnswerOK g r) : Ans c (fun w => g.holds w) r := by
  cases r with
  | unsat => exact ha
  | sat a =>
    obtain ⟨⟨w, h1, h2⟩, h3⟩ := ha
    refine ⟨w, h1, h2, fun i hi => h3 _ (latchVar_le c hi).1 ?_⟩
    obtain ⟨d, hd, l, hl, e⟩ := transition_mentions h hi
    have := hr.le_max d (ht d hd) l hl
    show _ ≤ g.maxVar
    omega

/-- A query of a stateful solver that contains the transition relation. -/
theorem Ans.of_query (h : Laws f c bads) {cs : List Clause} {cube : Option Cube} {clause : Option Clause} {r : SatResponse}
    (ht : ∀ d ∈ f.transition.clauses, d ∈ cs) (ha : QueryCorrect cs cube clause r) (hb : QueryTotal cs cube clause r) :
    Ans c (QueryHolds cs cube clause) r := by
  cases r with
  | unsat => exact ha
  | sat a =>
    obtain ⟨w, h1, h2⟩ := ha
    refine ⟨w, h1, h2, fun i hi => ?_⟩
    obtain ⟨d, hd, l, hl, e⟩ := transition_mentions h hi
    exact hb l (.inl ⟨d, ht d hd, hl⟩) _ (latchVar_le c hi).1 (by omega)

/-- One-step queries. -/
theorem Ans.step (h : Laws f c bads) (hw : c.WF) {g q : CNF} {P Q H : Val → Prop} (hg : Enc c g P) (hq : Enc c q Q)
    (hH : ∀ w, H w ↔ g.holds w ∧ f.transition.holds w ∧ (q.shift c.maxVar).holds w) {r : SatResponse} (ha : Ans c H r) :
    (r = .unsat → ∀ v v', P v → c.Trans v v' → ¬ Q v') ∧
      ∀ a, r = .sat a → ∃ v v', P v ∧ c.Trans v v' ∧ Q v' ∧ IC3.Values c a v := by
  cases r with
  | unsat =>
    refine ⟨fun _ v v' h1 h2 h3 => ha _ ((hH _).2 (query_complete h hw hg hq h1 h2 h3)), fun a h => by simp at h⟩
  | sat a =>
    refine ⟨fun h => by simp at h, fun a' e => ?_⟩
    cases e
    obtain ⟨w, h1, h2, h3⟩ := ha
    obtain ⟨h4, h5, h6⟩ := (hH w).1 h1
    obtain ⟨h7, h8, h9⟩ := query_sound h hw hg hq h4 h5 h6
    exact ⟨w, _, h7, h8, h9, Ans.values h2 h3⟩

/-- The yes/no form. -/
theorem Ans.step_iff (h : Laws f c bads) (hw : c.WF) {g q : CNF} {P Q H : Val → Prop} (hg : Enc c g P) (hq : Enc c q Q)
    (hH : ∀ w, H w ↔ g.holds w ∧ f.transition.holds w ∧ (q.shift c.maxVar).holds w) {r : SatResponse} (ha : Ans c H r) :
    r = .unsat ↔ ∀ v v', P v → c.Trans v v' → ¬ Q v' := by
  obtain ⟨h1, h2⟩ := Ans.step h hw hg hq hH ha
  refine ⟨h1, fun hn => ?_⟩
  cases r with
  | unsat => rfl
  | sat a =>
    obtain ⟨v, v', h3, h4, h5, _⟩ := h2 a rfl
    exact absurd h5 (hn v v' h3 h4)

/-- One-frame queries. -/
theorem AnswerOK.enc {g : CNF} {P : Val → Prop} (hg : Enc c g P) {r : SatResponse} (ha : AnswerOK g r) :
    r = .unsat ↔ ∀ v, ¬ P v := by
  cases r with
  | unsat => exact ⟨fun _ v hv => ha _ (hg.complete v _ hv (fun x _ _ => rfl)), fun _ => rfl⟩
  | sat a =>
    obtain ⟨⟨w, h1, _⟩, _⟩ := ha
    exact ⟨fun h => by simp at h, fun h => absurd (hg.sound w h1) (h w)⟩

/-! ## Encodings of frames, cubes and clauses over latches -/

namespace IC3

theorem LatchCube.enc {s : Cube} (h : LatchCube c s) : Enc c s.toCnf (fun v => s.holds v) := by
  refine (Enc.base (Cube.toCnf_wf _) ?_).congr (fun v => Cube.toCnf_holds)
  intro d hd l hl
  obtain ⟨m, hm, rfl⟩ := Cube.mem_toCnf.1 hd
  simp at hl; subst hl
  exact (h.lits _ hm).base

theorem LatchClause.enc {d : Clause} (h : LatchClause c d) : Enc c d.toCnf (fun v => d.holds v) := by
  refine (Enc.base (Clause.toCnf_wf h.sorted) ?_).congr (fun v => Clause.toCnf_holds)
  intro e he l hl
  have : e = d := by simpa [Clause.toCnf, CNF.mem_addClause, CNF.new] using he
  subst this
  exact (h.lits l hl).base

theorem Enc.addClause {g : CNF} {P : Val → Prop} (hg : Enc c g P) {d : Clause} (h : LatchClause c d) :
    Enc c (g.addClause d) (fun v => P v ∧ d.holds v) where
  wf := hg.wf.addClause h.sorted
  num := by
    intro e he l hl
    rcases CNF.mem_addClause.1 he with he | rfl
    · exact hg.num e he l hl
    · exact (h.lits l hl).base.le
  sound := by
    intro w hw
    rw [CNF.holds_addClause] at hw
    exact ⟨hg.sound w hw.1, hw.2⟩
  complete := by
    intro v w hp hv
    rw [CNF.holds_addClause]
    exact ⟨hg.complete v w hp.1 hv, (h.holds_congr (sameState_symm hv.base.sameState)) hp.2⟩

theorem LatchCube.good (hs : c.Small) {s : Cube} (h : LatchCube c s) {V : Nat} (hV : 2147483646 ≤ V := by decide) : s.Good V := by
  intro l hl
  have := (h.lits l hl).base.le
  unfold Circuit.Small at hs
  exact ⟨this.1, by omega⟩

theorem LatchClause.good (hs : c.Small) {d : Clause} (h : LatchClause c d) {V : Nat} (hV : 2147483646 ≤ V := by decide) : d.Good V := by
  intro l hl
  have := (h.lits l hl).base.le
  unfold Circuit.Small at hs
  exact ⟨this.1, by omega⟩

theorem LatchCube.shift_ok (dbg : Bool) (hm : f.maxLiteral = c.maxVar) (hs : c.Small) {s : Cube} (h : LatchCube c s) :
    f.addTagsToCube dbg s 1 = .ok (s.shift c.maxVar) := by
  have := addTagsToCube_ok dbg f (c := s) (tags := 1) h.sorted (by unfold Circuit.Small at hs; omega) (fun l hl => by
    have := (h.lits l hl).base.le
    unfold Circuit.Small at hs
    exact ⟨this.1, by omega⟩)
  rw [Nat.mul_one, hm] at this
  exact this

theorem LatchCube.shift_good (hs : c.Small) {s : Cube} (h : LatchCube c s) : (s.shift c.maxVar).Good := by
  intro l hl
  obtain ⟨m, hm, rfl⟩ := List.mem_map.1 hl
  have := (h.lits m hm).base.le
  unfold Circuit.Small at hs
  exact ⟨by rw [Literal.number_shift]; omega, by rw [Literal.number_shift]; omega⟩

theorem Cube.shift_toCnf_holds {s : Cube} {n : Nat} {w : Val} : (s.toCnf.shift n).holds w ↔ (s.shift n).holds w := by
  rw [CNF.holds_shift, Cube.toCnf_holds, Cube.holds_shift]

/-- What `new` computes. -/
structure FormsOK (f : Fsts) (c : Circuit) (bads : List Nat) (fm : Formulas) : Prop where
  initial : fm.initial = f.initialStates.toCnf
  transition : fm.transition = f.transition
  p0_eq : fm.p0 = f.stateToSafety.append f.getSafetyProperty.toCnf
  p0 : Enc c fm.p0 (fun v => ¬ c.BadAt bads v)
  notP0 : Enc c fm.notP0 (c.BadAt bads)
  notP1 : fm.notP1 = fm.notP0.shift c.maxVar

theorem formulas_ok (dbg : Bool) (S : SmallSys f c bads) : ∃ fm, formulas dbg f = .ok fm ∧ FormsOK f c bads fm := by
  have hn : Enc c (f.stateToSafety.append f.unsafety.toCnf) (c.BadAt bads) :=
    Enc.bad S.laws S.wf S.bad (S.laws.safety_wf.append (Clause.toCnf_wf (unsafety_sorted S.laws)))
      (fun d => by rw [CNF.mem_append]; simp [Clause.toCnf, CNF.mem_addClause, CNF.new])
  have hp : Enc c (f.stateToSafety.append f.getSafetyProperty.toCnf) (fun v => ¬ c.BadAt bads v) :=
    Enc.good S.laws S.wf S.bad (S.laws.safety_wf.append (Cube.toCnf_wf _))
      (fun d => by rw [CNF.mem_append, Cube.mem_toCnf]; rfl)
  refine ⟨⟨f.initialStates.toCnf, f.transition, f.stateToSafety.append f.getSafetyProperty.toCnf, f.stateToSafety.append f.unsafety.toCnf,
    (f.stateToSafety.append f.unsafety.toCnf).shift c.maxVar⟩, ?_, ⟨rfl, rfl, rfl, hp, hn, rfl⟩⟩
  unfold formulas
  dsimp only
  have := hn.shift_ok (f := f) dbg S.small S.laws.maxLit
  show (f.addTagsToRelation dbg (f.stateToSafety.append f.unsafety.toCnf) 1 >>= _) = _
  rw [this]
  rfl

/-- The formula of `get_fk` encodes `F_k`. -/
theorem FormsOK.enc {fm : Formulas} (hfm : FormsOK f c bads fm) (h : Laws f c bads) {fs : List CNF} (hok : FsOK c fs) (k : Nat) :
    Enc c ((fr fs k).append (if k = 0 then fm.initial else fm.p0)) (InF c bads fs k) := by
  have h1 : Enc c (fr fs k) (fun v => (fr fs k).holds v) := Enc.base (hok.wf k) fun d hd l hl => (hok.lits k d hd l hl).base
  unfold InF
  by_cases h0 : k = 0
  · rw [if_pos h0]
    refine (h1.append (by rw [hfm.initial]; exact Enc.initial h)).congr fun v => ?_
    rw [if_pos h0]
  · rw [if_neg h0]
    refine (h1.append hfm.p0).congr fun v => ?_
    rw [if_neg h0]

end IC3

end Verif
