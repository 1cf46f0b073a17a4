import Verif.Proofs.Stateless
import Verif.Proofs.Ends
import Verif.Spec.History

/-! # Stateful front-ends: the activation-literal scheme -/

namespace Verif

theorem Literal.holds_congr {v w : Val} {l : Literal} (h : v l.number = w l.number) : l.holds v ↔ l.holds w := by
  unfold Literal.holds; rw [h]

theorem Clause.holds_congr {v w : Val} {c : Clause} (h : ∀ l ∈ c.lits, v l.number = w l.number) :
    c.holds v ↔ c.holds w := by
  unfold Clause.holds Clause.iter
  constructor
  · rintro ⟨l, hl, hv⟩; exact ⟨l, hl, (Literal.holds_congr (h l hl)).1 hv⟩
  · rintro ⟨l, hl, hv⟩; exact ⟨l, hl, (Literal.holds_congr (h l hl)).2 hv⟩

theorem Cube.holds_congr {v w : Val} {c : Cube} (h : ∀ l ∈ c.lits, v l.number = w l.number) :
    c.holds v ↔ c.holds w := by
  unfold Cube.holds Cube.iter
  constructor
  · intro hh l hl; exact (Literal.holds_congr (h l hl)).1 (hh l hl)
  · intro hh l hl; exact (Literal.holds_congr (h l hl)).2 (hh l hl)

theorem CNF.holds_congr {v w : Val} {f : CNF} (h : ∀ c ∈ f.clauses, ∀ l ∈ c.lits, v l.number = w l.number) :
    f.holds v ↔ f.holds w := by
  unfold CNF.holds CNF.iter
  constructor
  · intro hh c hc; exact (Clause.holds_congr (h c hc)).1 (hh c hc)
  · intro hh c hc; exact (Clause.holds_congr (h c hc)).2 (hh c hc)

/-- Common abstraction of both front-ends: back-end variables below `n` are in use, variable `i < len` is represented by
back-end variable `x i`, and `H` is what the back-end database says. -/
structure Core where
  n : Nat
  len : Nat
  x : Nat → Nat
  H : (Nat → Bool) → Prop

structure Core.Inv (k : Core) (cs : List Clause) : Prop where
  bound : ∀ i, i < k.len → k.x i < k.n
  inj : ∀ i j, i < k.len → j < k.len → k.x i = k.x j → i = j
  vars : ∀ c ∈ cs, ∀ l ∈ c.lits, l.number < k.len
  sound : ∀ β, k.H β → ∀ c ∈ cs, c.holds (fun i => β (k.x i))
  complete : ∀ (v : Val) (β : Nat → Bool), (∀ c ∈ cs, c.holds v) → (∀ i, i < k.len → β (k.x i) = v i) →
    (∀ y, y < k.n → (∀ i, i < k.len → k.x i ≠ y) → β y = false) → k.H β

namespace Core

theorem Inv.extend {k k' : Core} {cs : List Clause} (h : k.Inv cs) (hn : k'.n = k.n + 1) (hl : k'.len = k.len + 1)
    (hx : ∀ i, i < k.len → k'.x i = k.x i) (hx' : k'.x k.len = k.n) (hH : ∀ β, k'.H β ↔ k.H β) : k'.Inv cs where
  bound := by
    intro i hi
    rcases Nat.lt_or_ge i k.len with h1 | h1
    · rw [hx i h1]; have := h.bound i h1; omega
    · have : i = k.len := by omega
      subst this; rw [hx']; omega
  inj := by
    intro i j hi hj e
    rcases Nat.lt_or_ge i k.len with h1 | h1 <;> rcases Nat.lt_or_ge j k.len with h2 | h2
    · rw [hx i h1, hx j h2] at e; exact h.inj i j h1 h2 e
    · have : j = k.len := by omega
      subst this
      rw [hx i h1, hx'] at e
      have := h.bound i h1; omega
    · have : i = k.len := by omega
      subst this
      rw [hx j h2, hx'] at e
      have := h.bound j h2; omega
    · omega
  vars := fun c hc l hl' => by have := h.vars c hc l hl'; omega
  sound := by
    intro β hβ c hc
    have := h.sound β ((hH β).1 hβ) c hc
    refine (Clause.holds_congr ?_).1 this
    intro l hl'
    rw [hx _ (h.vars c hc l hl')]
  complete := by
    intro v β hv h1 h2
    apply (hH β).2
    apply h.complete v β hv
    · intro i hi; rw [← hx i hi]; exact h1 i (by omega)
    · intro y hy hne
      apply h2 y (by omega)
      intro i hi
      rcases Nat.lt_or_ge i k.len with h3 | h3
      · rw [hx i h3]; exact hne i h3
      · have : i = k.len := by omega
        subst this; rw [hx']; omega

theorem Inv.add {k k' : Core} {cs : List Clause} (h : k.Inv cs) {c : Clause} (hc : ∀ l ∈ c.lits, l.number < k.len)
    (hn : k'.n = k.n) (hl : k'.len = k.len) (hx : k'.x = k.x)
    (hH : ∀ β, k'.H β ↔ k.H β ∧ c.holds (fun i => β (k.x i))) : k'.Inv (cs ++ [c]) where
  bound := by rw [hn, hl, hx]; exact h.bound
  inj := by rw [hl, hx]; exact h.inj
  vars := by
    intro d hd l hl'
    rw [hl]
    rcases List.mem_append.1 hd with hd | hd
    · exact h.vars d hd l hl'
    · simp at hd; subst hd; exact hc l hl'
  sound := by
    intro β hβ d hd
    rw [hx]
    rcases List.mem_append.1 hd with hd | hd
    · exact h.sound β ((hH β).1 hβ).1 d hd
    · simp at hd; subst hd; exact ((hH β).1 hβ).2
  complete := by
    intro v β hv h1 h2
    rw [hn, hl, hx] at *
    rw [hH]
    refine ⟨h.complete v β (fun d hd => hv d (by simp [hd])) h1 h2, ?_⟩
    refine (Clause.holds_congr ?_).1 (hv c (by simp))
    intro l hl'
    exact (h1 _ (hc l hl')).symm

/-- After the temporary clause has been added with activation variable `k.n` and then cancelled. -/
theorem Inv.temp {k k' : Core} {cs : List Clause} (h : k.Inv cs) (hn : k'.n = k.n + 1) (hl : k'.len = k.len)
    (hx : k'.x = k.x) {T : (Nat → Bool) → Prop}
    (hH : ∀ β, k'.H β ↔ (k.H β ∧ (T β ∨ β k.n = false)) ∧ β k.n = false) : k'.Inv cs where
  bound := by rw [hn, hl, hx]; intro i hi; have := h.bound i hi; omega
  inj := by rw [hl, hx]; exact h.inj
  vars := by rw [hl]; exact h.vars
  sound := by intro β hβ; rw [hx]; exact h.sound β ((hH β).1 hβ).1.1
  complete := by
    intro v β hv h1 h2
    rw [hl, hx] at h1
    rw [hn, hl, hx] at h2
    have h0 : β k.n = false := h2 k.n (by omega) (fun i hi => by have := h.bound i hi; omega)
    rw [hH]
    exact ⟨⟨h.complete v β hv h1 (fun y hy hne => h2 y (by omega) hne), .inr h0⟩, h0⟩

open Classical in
/-- A back-end valuation representing `v`, with `b` on the next fresh variable. -/
theorem Inv.lift {k : Core} {cs : List Clause} (h : k.Inv cs) (v : Val) (b : Bool) (hv : ∀ c ∈ cs, c.holds v) :
    ∃ β : Nat → Bool, k.H β ∧ (∀ i, i < k.len → β (k.x i) = v i) ∧ β k.n = b := by
  let β : Nat → Bool := fun y =>
    if hy : ∃ i, i < k.len ∧ k.x i = y then v hy.choose else if y = k.n then b else false
  have h1 : ∀ i, i < k.len → β (k.x i) = v i := by
    intro i hi
    have hy : ∃ j, j < k.len ∧ k.x j = k.x i := ⟨i, hi, rfl⟩
    simp only [β, dif_pos hy]
    have hs := hy.choose_spec
    rw [h.inj _ _ hs.1 hi hs.2]
  refine ⟨β, h.complete v β hv h1 ?_, h1, ?_⟩
  · intro y hy hne
    have hy' : ¬ ∃ i, i < k.len ∧ k.x i = y := by rintro ⟨i, hi, e⟩; exact hne i hi e
    simp only [β, dif_neg hy']
    rw [if_neg (by omega)]
  · have hy' : ¬ ∃ i, i < k.len ∧ k.x i = k.n := by rintro ⟨i, hi, e⟩; have := h.bound i hi; omega
    simp only [β, dif_neg hy', if_true]

end Core

/-! ## MiniSat -/

namespace MiniSat

def core (s : MiniSat) : Core := ⟨s.numVars, s.lits.length, fun i => ((s.lits[i]?).map BLit.var).getD 0,
  fun β => bClausesHold β s.db⟩

/-- Representation invariant: `s` holds the clauses `cs`. -/
structure Rep (s : MiniSat) (cs : List Clause) : Prop where
  inv : s.core.Inv cs
  pos : ∀ l ∈ s.lits, l.neg = false
  small : s.lits.length ≤ 2147483648

theorem rep_new : new.Rep [] where
  inv := by
    refine ⟨?_, ?_, ?_, ?_, ?_⟩
    · intro i hi; simp [core, new] at hi
    · intro i j hi; simp [core, new] at hi
    · intro c hc; simp at hc
    · intro _ _ c hc; simp at hc
    · intro _ _ _ _ _ c hc; simp [new] at hc
  pos := by simp [new]
  small := by simp [new]

theorem extendBy_rep (k : Nat) {s : MiniSat} {cs : List Clause} (h : s.Rep cs) (hk : s.lits.length + k ≤ 2147483648) :
    (extendBy k s).Rep cs ∧ (extendBy k s).lits.length = s.lits.length + k := by
  induction k generalizing s with
  | zero => exact ⟨h, rfl⟩
  | succ k ih =>
    unfold extendBy
    simp only [newLit]
    have hr : Rep { numVars := s.numVars + 1, db := s.db, lits := s.lits ++ [⟨s.numVars, false⟩] } cs := by
      refine ⟨?_, ?_, ?_⟩
      · refine h.inv.extend rfl (by simp [core]) ?_ ?_ (fun β => Iff.rfl)
        · intro i hi
          have hi' : i < s.lits.length := hi
          simp only [core]
          rw [List.getElem?_append_left hi']
        · simp [core]
      · intro l hl
        rcases List.mem_append.1 hl with hl | hl
        · exact h.pos l hl
        · simp at hl; subst hl; rfl
      · simp; omega
    have := ih hr (by simp; omega)
    refine ⟨this.1, ?_⟩
    rw [this.2]; simp; omega

theorem extendIfNeeded_rep {s : MiniSat} {cs : List Clause} (h : s.Rep cs) {f : CNF} (hf : f.maxVar < 2147483648) :
    (s.extendIfNeeded f).Rep cs ∧ f.maxVar < (s.extendIfNeeded f).lits.length ∧
      s.lits.length ≤ (s.extendIfNeeded f).lits.length := by
  by_cases hm : f.maxVar ≥ s.lits.length
  · have e : s.extendIfNeeded f = extendBy (f.maxVar - s.lits.length + 1) s := if_pos hm
    rw [e]
    have := extendBy_rep (f.maxVar - s.lits.length + 1) h (by omega)
    exact ⟨this.1, by omega, by omega⟩
  · have e : s.extendIfNeeded f = s := if_neg hm
    rw [e]
    exact ⟨h, by omega, by omega⟩

/-- The translated literal. -/
def tr (s : MiniSat) (l : Literal) : BLit := ⟨s.core.x l.number, l.isNegated⟩

theorem literal_ok {s : MiniSat} (h : ∀ l ∈ s.lits, l.neg = false) {l : Literal} (hl : l.number < s.lits.length) :
    s.literal l = .ok (s.tr l) := by
  unfold literal indexR
  have hg : s.lits[l.number]? = some s.lits[l.number] := List.getElem?_eq_getElem hl
  rw [hg]
  have hp := h _ (List.getElem_mem hl)
  simp only [unwrapR, bind, Except.bind, pure, Except.pure, tr, core, hg, Option.map_some, Option.getD_some]
  congr 1
  cases hn : l.isNegated
  · simp
    cases hs : s.lits[l.number] with
    | mk a b => rw [hs] at hp; simp at hp; simp [hp]
  · simp [BLit.not, hp]

theorem translate_ok {s : MiniSat} (h : ∀ l ∈ s.lits, l.neg = false) {ls : List Literal}
    (hl : ∀ l ∈ ls, l.number < s.lits.length) : s.translate ls = .ok (ls.map s.tr) :=
  mapM_ok ls (fun l hm => literal_ok h (hl l hm))

theorem holds_tr {s : MiniSat} {β : Nat → Bool} {l : Literal} :
    (s.tr l).holds β ↔ l.holds (fun i => β (s.core.x i)) := Iff.rfl

theorem dimacsOfModel_ok (m : Nat → Bool) (ls : List BLit) (i : Nat) (hp : ∀ l ∈ ls, l.neg = false)
    (hi : i + ls.length ≤ 2147483648) :
    ∃ R, dimacsOfModel m i ls = .ok R ∧
      (∀ y ∈ R, ∃ j l, ls[j]? = some l ∧ y = if m l.var then ((i + j : Nat) : Int) else -((i + j : Nat) : Int)) ∧
      (∀ j, j < ls.length → ((i + j : Nat) : Int) ∈ R ∨ -((i + j : Nat) : Int) ∈ R) := by
  induction ls generalizing i with
  | nil => exact ⟨[], rfl, by simp, by simp⟩
  | cons l ls ih =>
    obtain ⟨R, hR, h1, h2⟩ := ih (i + 1) (fun x hx => hp x (by simp [hx])) (by simp at hi; omega)
    refine ⟨(if m l.var then (i : Int) else -(i : Int)) :: R, ?_, ?_, ?_⟩
    · unfold dimacsOfModel
      rw [toI32_ok (by simp at hi; omega), hR]
      have hn := hp l (by simp)
      simp [bind, Except.bind, pure, Except.pure, hn]
    · intro y hy
      rcases List.mem_cons.1 hy with rfl | hy
      · exact ⟨0, l, rfl, rfl⟩
      · obtain ⟨j, l', hj, e⟩ := h1 y hy
        refine ⟨j + 1, l', by simpa using hj, ?_⟩
        rw [e]
        have : i + 1 + j = i + (j + 1) := by omega
        rw [this]
    · intro j hj
      cases j with
      | zero =>
        simp only [Nat.add_zero]
        cases m l.var <;> simp
      | succ j =>
        have := h2 j (by simpa using hj)
        have e : i + 1 + j = i + (j + 1) := by omega
        rw [e] at this
        rcases this with h | h
        · exact .inl (List.mem_cons_of_mem _ h)
        · exact .inr (List.mem_cons_of_mem _ h)

theorem solveTranslated_ok (dbg : Bool) {be : MsBackend} (hb : MsOK be) (t : Nat) {s : MiniSat}
    (hpos : ∀ l ∈ s.lits, l.neg = false) (hsmall : s.lits.length ≤ 2147483648) (asm : List BLit) :
    ∃ r, s.solveTranslated dbg be t asm = .ok r ∧
      (match r with
       | .unsat => ∀ β, ¬ (bClausesHold β s.db ∧ ∀ l ∈ asm, l.holds β)
       | .sat a => (∃ β, (bClausesHold β s.db ∧ ∀ l ∈ asm, l.holds β) ∧ a.Agrees (fun i => β (s.core.x i))) ∧
          ∀ n, 1 ≤ n → n < s.lits.length → (a.getValue n).isSome) := by
  unfold solveTranslated
  cases hr : be t s.db asm with
  | none => exact ⟨_, rfl, hb.unsat t s.db asm hr⟩
  | some m =>
    obtain ⟨R, hR, h1, h2⟩ := dimacsOfModel_ok m (s.lits.drop 1) 1
      (fun l hl => hpos l (List.mem_of_mem_drop hl)) (by simp; omega)
    have hmem : ∀ x ∈ R, x ≠ 0 ∧ -2 ^ 31 < x ∧ intHolds (fun i => m (s.core.x i)) x := by
      intro y hy
      obtain ⟨j, l, hj, e⟩ := h1 y hy
      have hj' : s.lits[1 + j]? = some l := by rw [← hj]; simp [Nat.add_comm]
      have hlt : 1 + j < s.lits.length := (List.getElem?_eq_some_iff.1 hj').1
      have hx : s.core.x (1 + j) = l.var := by simp [core, hj']
      subst e
      refine ⟨by split <;> omega, by split <;> omega, ?_⟩
      show m (s.core.x (Int.natAbs _)) = _
      by_cases hb : m l.var = true
      · rw [if_pos hb, Int.natAbs_natCast, hx, hb]
        exact (decide_eq_true (by omega)).symm
      · rw [if_neg hb, Int.natAbs_neg, Int.natAbs_natCast, hx]
        simp only [Bool.not_eq_true] at hb
        rw [hb]
        exact (decide_eq_false (by omega)).symm
    obtain ⟨a, ha, hag, htot⟩ := fromDimacs_agrees dbg hmem
    refine ⟨.sat a, ?_, ⟨m, hb.sat t s.db asm m hr, hag⟩, ?_⟩
    · simp only [hR, bind, Except.bind, ha]; rfl
    · intro n hn1 hn2
      apply htot n hn1
      have := h2 (n - 1) (by simp; omega)
      have e : 1 + (n - 1) = n := by omega
      rwa [e] at this

theorem addClauses_rep (cl : List Clause) {s : MiniSat} {cs : List Clause} (h : s.Rep cs)
    (hv : ∀ c ∈ cl, ∀ l ∈ c.lits, l.number < s.lits.length) :
    ∃ s', cl.foldlM (fun s c => do
      let mc ← s.translate c.iter
      return s.backendAdd mc) s = (.ok s' : Res MiniSat) ∧ s'.Rep (cs ++ cl) := by
  induction cl generalizing s cs with
  | nil => exact ⟨s, rfl, by simpa using h⟩
  | cons c cl ih =>
    have hc := hv c (by simp)
    have hr : Rep (s.backendAdd (c.iter.map s.tr)) (cs ++ [c]) := by
      refine ⟨?_, h.pos, h.small⟩
      refine h.inv.add hc rfl rfl rfl ?_
      intro β
      show bClausesHold β (s.db ++ [_]) ↔ bClausesHold β s.db ∧ _
      unfold bClausesHold
      constructor
      · intro hh
        refine ⟨fun d hd => hh d (by simp [hd]), ?_⟩
        obtain ⟨y, hy, hh⟩ := hh _ (List.mem_append.2 (.inr (List.mem_singleton.2 rfl)))
        obtain ⟨l, hl, rfl⟩ := List.mem_map.1 hy
        exact ⟨l, hl, holds_tr.1 hh⟩
      · rintro ⟨h1, l, hl, h2⟩ d hd
        rcases List.mem_append.1 hd with hd | hd
        · exact h1 d hd
        · simp at hd; subst hd
          exact ⟨_, List.mem_map.2 ⟨l, hl, rfl⟩, holds_tr.2 h2⟩
    obtain ⟨s', hs', hr'⟩ := ih hr (fun d hd l hl => hv d (by simp [hd]) l hl)
    refine ⟨s', ?_, by simpa using hr'⟩
    rw [List.foldlM_cons]
    have := translate_ok h.pos (ls := c.iter) hc
    rw [this]
    exact hs'

theorem addCnf_rep {s : MiniSat} {cs : List Clause} (h : s.Rep cs) {f : CNF} (hm : f.maxVar < 2147483648)
    (hle : ∀ c ∈ f.clauses, ∀ l ∈ c.lits, l.number ≤ f.maxVar) :
    ∃ s', addCnf f s = .ok s' ∧ s'.Rep (cs ++ f.iter) := by
  obtain ⟨h1, h2, _⟩ := extendIfNeeded_rep h hm
  exact addClauses_rep f.iter h1 (fun c hc l hl => by have := hle c hc l hl; omega)

/-- The translated optional cube. -/
theorem cube_ok {s : MiniSat} (hp : ∀ l ∈ s.lits, l.neg = false) (cube : Option Cube)
    (hcube : ∀ c, cube = some c → ∀ l ∈ c.lits, l.number < s.lits.length) :
    ∃ asm : List BLit, (∀ c, cube = some c → s.translate c.iter = .ok asm) ∧ (cube = none → asm = []) ∧
        ∀ β, (∀ l ∈ asm, l.holds β) ↔ optHolds (fun c : Cube => c.holds (fun i => β (s.core.x i))) cube := by
  cases cube with
  | none => exact ⟨[], by simp, by simp, by simp [optHolds]⟩
  | some c =>
    refine ⟨c.iter.map s.tr, ?_, by simp, ?_⟩
    · intro c' hc'; cases hc'
      exact translate_ok hp (hcube c rfl)
    intro β
    simp only [List.mem_map, forall_exists_index, and_imp, forall_apply_eq_imp_iff₂, optHolds, Cube.holds]
    exact Iff.rfl

theorem optCube_congr {cube : Option Cube} {v w : Val} (h : ∀ c, cube = some c → ∀ l ∈ c.lits, v l.number = w l.number) :
    optHolds (fun c : Cube => c.holds v) cube ↔ optHolds (fun c : Cube => c.holds w) cube := by
  cases cube with
  | none => exact Iff.rfl
  | some c => exact Cube.holds_congr (h c rfl)

theorem solveJustCube_ok {s : MiniSat} {cs : List Clause} (dbg : Bool) {be : MsBackend} (hb : MsOK be) (t : Nat)
    (h : s.Rep cs) (cube : Option Cube)
    (hcube : ∀ c, cube = some c → ∀ l ∈ c.lits, l.number < s.lits.length) :
    ∃ r, s.solveJustCube dbg be t cube = .ok (r, s) ∧ QueryCorrect cs cube none r ∧
      (∀ a, r = .sat a → ∀ n, 1 ≤ n → n < s.lits.length → (a.getValue n).isSome) := by
  obtain ⟨asm, h1, h2, hsem⟩ := cube_ok h.pos cube hcube
  obtain ⟨r, hr, hspec⟩ := solveTranslated_ok dbg hb t h.pos h.small asm
  refine ⟨r, ?_, ?_, ?_⟩
  · unfold solveJustCube
    cases cube with
    | none => simp only [pure_bind, ← h2 rfl, hr]; rfl
    | some c => simp only [h1 c rfl]; simp only [bind, Except.bind, hr]; rfl
  · cases r with
    | unsat =>
      intro v hv
      obtain ⟨β, hβ, hβx, _⟩ := h.inv.lift v false hv.1
      refine hspec β ⟨hβ, (hsem β).2 ?_⟩
      refine (optCube_congr ?_).1 hv.2.1
      intro c hc l hl; exact (hβx _ (hcube c hc l hl)).symm
    | sat a =>
      obtain ⟨⟨β, ⟨h1, h2⟩, hag⟩, _⟩ := hspec
      exact ⟨_, ⟨h.inv.sound β h1, (hsem β).1 h2, trivial⟩, hag⟩
  · rintro a rfl; exact hspec.2

theorem handleTemporary_ok {s : MiniSat} {cs : List Clause} (dbg : Bool) {be : MsBackend} (hb : MsOK be) (t : Nat)
    (h : s.Rep cs) (cube : Option Cube) (extra : Clause)
    (hcube : ∀ c, cube = some c → ∀ l ∈ c.lits, l.number < s.lits.length)
    (hex : ∀ l ∈ extra.lits, l.number < s.lits.length) :
    ∃ r s', s.handleTemporaryExtraClause dbg be t extra cube = .ok (r, s') ∧ s'.Rep cs ∧ s'.lits = s.lits ∧
      QueryCorrect cs cube (some extra) r ∧
      (∀ a, r = .sat a → ∀ n, 1 ≤ n → n < s.lits.length → (a.getValue n).isSome) := by
  let s1 : MiniSat := { numVars := s.numVars + 1, db := s.db ++ [extra.iter.map s.tr ++ [⟨s.numVars, true⟩]], lits := s.lits }
  have hdb1 : ∀ β, bClausesHold β s1.db ↔
      bClausesHold β s.db ∧ (extra.holds (fun i => β (s.core.x i)) ∨ β s.numVars = false) := by
    intro β
    show bClausesHold β (s.db ++ [_]) ↔ _
    unfold bClausesHold
    constructor
    · intro hh
      refine ⟨fun d hd => hh d (by simp [hd]), ?_⟩
      obtain ⟨y, hy, hh⟩ := hh _ (List.mem_append.2 (.inr (List.mem_singleton.2 rfl)))
      rcases List.mem_append.1 hy with hy | hy
      · obtain ⟨l, hl, rfl⟩ := List.mem_map.1 hy
        exact .inl ⟨l, hl, holds_tr.1 hh⟩
      · simp at hy; subst hy; exact .inr hh
    · rintro ⟨h1, h2⟩ d hd
      rcases List.mem_append.1 hd with hd | hd
      · exact h1 d hd
      · simp at hd; subst hd
        rcases h2 with ⟨l, hl, h2⟩ | h2
        · exact ⟨s.tr l, List.mem_append.2 (.inl (List.mem_map.2 ⟨l, hl, rfl⟩)), holds_tr.2 h2⟩
        · exact ⟨⟨s.numVars, true⟩, by simp, h2⟩
  obtain ⟨asm, h1, h2, hsem⟩ := cube_ok (s := s1) h.pos cube hcube
  obtain ⟨r, hr, hspec⟩ := solveTranslated_ok (s := s1) dbg hb t h.pos h.small (⟨s.numVars, false⟩ :: asm)
  refine ⟨r, s1.backendAdd [⟨s.numVars, true⟩], ?_, ?_, rfl, ?_, ?_⟩
  · unfold handleTemporaryExtraClause
    rw [translate_ok h.pos (ls := extra.iter) hex]
    simp only [newLit, backendAdd, BLit.not, bind, Except.bind, pure, Except.pure, Bool.not_false]
    cases cube with
    | none => simp only [h2 rfl] at hr; simp only [s1] at hr; simp only [hr]; rfl
    | some c =>
      have e := h1 c rfl
      simp only [s1] at e hr
      simp only [e, List.singleton_append, hr]; rfl
  · refine ⟨?_, h.pos, h.small⟩
    refine h.inv.temp (T := fun β => extra.holds (fun i => β (s.core.x i))) rfl rfl rfl ?_
    intro β
    show bClausesHold β (s1.db ++ [_]) ↔ (bClausesHold β s.db ∧ (_ ∨ β s.numVars = false)) ∧ β s.numVars = false
    rw [← hdb1 β]
    unfold bClausesHold
    constructor
    · intro hh
      refine ⟨fun d hd => hh d (by simp [hd]), ?_⟩
      obtain ⟨y, hy, hh⟩ := hh _ (List.mem_append.2 (.inr (List.mem_singleton.2 rfl)))
      simp at hy; subst hy; exact hh
    · rintro ⟨h1, h2⟩ d hd
      rcases List.mem_append.1 hd with hd | hd
      · exact h1 d hd
      · simp at hd; subst hd
        exact ⟨⟨s.numVars, true⟩, by simp, h2⟩
  · cases r with
    | unsat =>
      intro v hv
      obtain ⟨β, hβ, hβx, hβn⟩ := h.inv.lift v true hv.1
      refine hspec β ⟨(hdb1 β).2 ⟨hβ, .inl ?_⟩, ?_⟩
      · refine (Clause.holds_congr ?_).1 hv.2.2
        intro l hl; exact (hβx _ (hex l hl)).symm
      · intro l hl
        rcases List.mem_cons.1 hl with rfl | hl
        · exact hβn
        · refine (hsem β).2 ?_ l hl
          refine (optCube_congr ?_).1 hv.2.1
          intro c hc l hl; exact (hβx _ (hcube c hc l hl)).symm
    | sat a =>
      obtain ⟨⟨β, ⟨h1, h2⟩, hag⟩, _⟩ := hspec
      have h3 := (hdb1 β).1 h1
      have h4 : β s.numVars = true := h2 ⟨s.numVars, false⟩ (by simp)
      refine ⟨_, ⟨h.inv.sound β h3.1, (hsem β).1 (fun l hl => h2 l (by simp [hl])), ?_⟩, hag⟩
      rcases h3.2 with h5 | h5
      · exact h5
      · rw [h4] at h5; cases h5
  · rintro a rfl; exact hspec.2

/-- Extension for the temporary cube. -/
def extCube (s : MiniSat) (cube : Option Cube) : MiniSat :=
  match cube with | some c => s.extendIfNeeded c.toCnf | none => s

/-- Extension for the temporary clause. -/
def extClause (s : MiniSat) (clause : Option Clause) : MiniSat :=
  match clause with | some c => s.extendIfNeeded c.toCnf | none => s

theorem extendCube_rep {s : MiniSat} {cs : List Clause} (h : s.Rep cs) {cube : Option Cube} (hc : optHolds Cube.Good cube) :
    let s' := s.extCube cube
    s'.Rep cs ∧ s.lits.length ≤ s'.lits.length ∧ ∀ c, cube = some c → ∀ l ∈ c.lits, l.number < s'.lits.length := by
  cases cube with
  | none => exact ⟨h, Nat.le_refl _, by simp⟩
  | some c =>
    have hr := Cube.toCnf_ready hc
    obtain ⟨h1, h2, h3⟩ := extendIfNeeded_rep h (Nat.lt_succ_of_le hr.max_le)
    refine ⟨h1, h3, ?_⟩
    intro c' hc' l hl; cases hc'
    exact Nat.lt_of_le_of_lt (hr.le_max (Clause.new [l]) (Cube.mem_toCnf.2 ⟨l, hl, rfl⟩) l (by simp)) h2

theorem extendClause_rep {s : MiniSat} {cs : List Clause} (h : s.Rep cs) {clause : Option Clause}
    (hc : optHolds Clause.Good clause) (hs : optHolds (fun c : Clause => c.Sorted) clause) :
    let s' := s.extClause clause
    s'.Rep cs ∧ s.lits.length ≤ s'.lits.length ∧ ∀ c, clause = some c → ∀ l ∈ c.lits, l.number < s'.lits.length := by
  cases clause with
  | none => exact ⟨h, Nat.le_refl _, by simp⟩
  | some c =>
    have hr := Clause.toCnf_ready hs hc
    obtain ⟨h1, h2, h3⟩ := extendIfNeeded_rep h (Nat.lt_succ_of_le hr.max_le)
    refine ⟨h1, h3, ?_⟩
    intro c' hc' l hl; cases hc'
    exact Nat.lt_of_le_of_lt (hr.le_max c (by simp [Clause.toCnf, CNF.mem_addClause]) l hl) h2

theorem solve_ok {s : MiniSat} {cs : List Clause} (dbg : Bool) {be : MsBackend} (hb : MsOK be) (t : Nat)
    (h : s.Rep cs) (cube : Option Cube) (clause : Option Clause) (hc : optHolds Cube.Good cube)
    (hk : optHolds Clause.Good clause) (hs : optHolds (fun c : Clause => c.Sorted) clause) :
    ∃ r s', solve dbg be t cube clause s = .ok (r, s') ∧ s'.Rep cs ∧ QueryCorrect cs cube clause r ∧
      QueryTotal cs cube clause r := by
  show ∃ r s', (match clause with
    | none => ((s.extCube cube).extClause clause).solveJustCube dbg be t cube
    | some extra => ((s.extCube cube).extClause clause).handleTemporaryExtraClause dbg be t extra cube) = .ok (r, s') ∧ _
  obtain ⟨h1, hl1, hcube⟩ := extendCube_rep h hc
  generalize s.extCube cube = s1 at *
  obtain ⟨h2, hl2, hclause⟩ := extendClause_rep h1 hk hs
  generalize s1.extClause clause = s2 at *
  have hcube' : ∀ c, cube = some c → ∀ l ∈ c.lits, l.number < s2.lits.length :=
    fun c e l hl => Nat.lt_of_lt_of_le (hcube c e l hl) hl2
  have htot : ∀ r, (∀ a, r = SatResponse.sat a → ∀ n, 1 ≤ n → n < s2.lits.length → (a.getValue n).isSome) →
      QueryTotal cs cube clause r := by
    intro r hr
    cases r with
    | unsat => trivial
    | sat a =>
      intro l hm n hn1 hn2
      apply hr a rfl n hn1
      apply Nat.lt_of_le_of_lt hn2
      rcases hm with ⟨c, hc, hl⟩ | ⟨c, hc, hl⟩ | ⟨c, hc, hl⟩
      · exact h2.inv.vars c hc l hl
      · exact hcube' c hc l hl
      · exact hclause c hc l hl
  cases clause with
  | none =>
    obtain ⟨r, hr, hq, ht⟩ := solveJustCube_ok dbg hb t h2 cube hcube'
    exact ⟨r, s2, hr, h2, hq, htot r ht⟩
  | some extra =>
    obtain ⟨r, s', hr, hr', hl, hq, ht⟩ := handleTemporary_ok dbg hb t h2 cube extra hcube' (hclause extra rfl)
    exact ⟨r, s', hr, hr', hq, htot r ht⟩

end MiniSat

/-- The MiniSat front-end meets the trait contract. -/
def MiniSat.implOK (dbg : Bool) {be : MsBackend} (hb : MsOK be) : (MiniSat.impl dbg be).OK where
  Rep := MiniSat.Rep
  new := MiniSat.rep_new
  addCnf := fun _ _ _ h _ hm hlt => let ⟨_, h1, h2⟩ := MiniSat.addCnf_rep h hlt hm; Ends.of_ok h1 h2
  solve := fun t _ _ cube clause h hc hk hs =>
    let ⟨_, _, h1, h2⟩ := MiniSat.solve_ok dbg hb t h cube clause hc hk hs; Ends.of_ok h1 h2

/-! ## CaDiCaL -/

namespace CaDiCal

def core (s : CaDiCal) : Core := ⟨s.newLiteral.toNat, s.lits.length, fun i => ((s.lits[i]?).map Int.natAbs).getD 0,
  fun β => intClausesHold β s.db⟩

/-- The panic of `new_lit` at the end of the `i32` range. -/
def overflow : Err := .panic "stateful/cadical_solver.rs:35 overflow"

/-- Representation invariant: `s` holds the clauses `cs`, `k` activation variables so far. -/
structure Rep (k : Nat) (s : CaDiCal) (cs : List Clause) : Prop where
  inv : s.core.Inv cs
  pos : ∀ l ∈ s.lits, 0 < l
  mono : ∀ i j, i ≤ j → j < s.lits.length → s.core.x i ≤ s.core.x j
  fresh : s.newLiteral = 1 + s.lits.length + k
  top : s.newLiteral < 2147483648
  range : InI32 s.db
  mentioned : ∀ c ∈ cs, ∀ l ∈ c.lits, ∃ d ∈ s.db, ∃ y ∈ d, y.natAbs = s.core.x l.number

theorem rep_new : new.Rep 0 [] where
  inv := by
    refine ⟨?_, ?_, ?_, ?_, ?_⟩
    · intro i hi; simp [core, new] at hi
    · intro i j hi; simp [core, new] at hi
    · intro c hc; simp at hc
    · intro _ _ c hc; simp at hc
    · intro _ _ _ _ _ c hc; simp [new] at hc
  pos := by simp [new]
  mono := by intro i j _ hj; simp [new] at hj
  fresh := by simp [new]
  top := by simp [new]
  range := by intro c hc; simp [new] at hc
  mentioned := by simp

theorem Rep.lt_new {k : Nat} {s : CaDiCal} {cs : List Clause} (h : s.Rep k cs) {i : Nat} (hi : i < s.lits.length) :
    (s.core.x i : Int) < s.newLiteral := by
  have h1 := h.inv.bound i hi
  have h2 : s.core.n = s.newLiteral.toNat := rfl
  have := h.fresh
  omega

theorem newLit_ok (dbg : Bool) {s : CaDiCal} (h : s.newLiteral + 1 < 2147483648) :
    s.newLit dbg = .ok (s.newLiteral, { s with newLiteral := s.newLiteral + 1 }) := by
  unfold newLit; simp only [if_pos h]

theorem newLit_overflow {s : CaDiCal} (h : ¬ s.newLiteral + 1 < 2147483648) : s.newLit true = .error overflow := by
  unfold newLit; simp only [if_neg h]; rfl

theorem extendBy_rep (dbg : Bool) {k : Nat} (m : Nat) {s : CaDiCal} {cs : List Clause} (h : s.Rep k cs)
    (hm : 1 + s.lits.length + m + k < 2147483648) :
    ∃ s', extendBy dbg m s = .ok s' ∧ s'.Rep k cs ∧ s'.lits.length = s.lits.length + m := by
  induction m generalizing s with
  | zero => exact ⟨s, rfl, h, rfl⟩
  | succ m ih =>
    have hf := h.fresh
    have hx : ∀ i, i < s.lits.length → (((s.lits ++ [s.newLiteral])[i]?).map Int.natAbs).getD 0 = s.core.x i := by
      intro i hi
      rw [List.getElem?_append_left hi]; rfl
    have hx' : (((s.lits ++ [s.newLiteral])[s.lits.length]?).map Int.natAbs).getD 0 = s.newLiteral.natAbs := by simp
    have hr : Rep k { db := s.db, newLiteral := s.newLiteral + 1, lits := s.lits ++ [s.newLiteral] } cs := by
      refine ⟨?_, ?_, ?_, ?_, ?_, h.range, ?_⟩
      · refine h.inv.extend ?_ (by simp [core]) hx ?_ (fun β => Iff.rfl)
        · show (s.newLiteral + 1).toNat = s.newLiteral.toNat + 1; omega
        · simp [core]; omega
      · intro l hl
        rcases List.mem_append.1 hl with hl | hl
        · exact h.pos l hl
        · simp at hl; subst hl; omega
      · intro i j hij hj
        simp only [List.length_append, List.length_singleton] at hj
        show (((s.lits ++ [s.newLiteral])[i]?).map Int.natAbs).getD 0 ≤ (((s.lits ++ [s.newLiteral])[j]?).map Int.natAbs).getD 0
        by_cases hj' : j < s.lits.length
        · rw [hx i (by omega), hx j hj']; exact h.mono i j hij hj'
        · have e : j = s.lits.length := by omega
          rw [e, hx']
          by_cases hi : i < s.lits.length
          · rw [hx i hi]; have := h.lt_new hi; omega
          · have : i = s.lits.length := by omega
            rw [this, hx']; exact Nat.le_refl _
      · simp; omega
      · show s.newLiteral + 1 < _; omega
      · intro c hc l hl
        obtain ⟨d, hd, y, hy, e⟩ := h.mentioned c hc l hl
        exact ⟨d, hd, y, hy, e.trans (hx _ (h.inv.vars c hc l hl)).symm⟩
    obtain ⟨s', h1, h2, h3⟩ := ih hr (by simp; omega)
    refine ⟨s', ?_, h2, ?_⟩
    · unfold extendBy
      rw [newLit_ok dbg (by omega)]
      exact h1
    · rw [h3]; simp; omega

theorem extendBy_overflow (m : Nat) {s : CaDiCal} (h : ¬ s.newLiteral + m < 2147483648) (ht : s.newLiteral < 2147483648) :
    extendBy true m s = .error overflow := by
  induction m generalizing s with
  | zero => exact absurd ht (by simpa using h)
  | succ m ih =>
    unfold extendBy
    by_cases h1 : s.newLiteral + 1 < 2147483648
    · rw [newLit_ok true h1]
      exact ih (s := { s with newLiteral := s.newLiteral + 1, lits := s.lits ++ [s.newLiteral] })
        (show ¬ s.newLiteral + 1 + (m : Int) < _ by omega) h1
    · rw [newLit_overflow h1]; rfl

/-- Length of the table once variables up to `m` are in it. -/
def size (s : CaDiCal) (m : Nat) : Nat := max s.lits.length (m + 1)

theorem extendIfNeeded_rep (dbg : Bool) {k : Nat} {s : CaDiCal} {cs : List Clause} (h : s.Rep k cs) {f : CNF}
    (hV : 1 + s.size f.maxVar + k < 2147483648) :
    ∃ s', s.extendIfNeeded dbg f = .ok s' ∧ s'.Rep k cs ∧ s'.lits.length = s.size f.maxVar := by
  unfold size at *
  by_cases hm : f.maxVar ≥ s.lits.length
  · have e : s.extendIfNeeded dbg f = extendBy dbg (f.maxVar - s.lits.length + 1) s := if_pos hm
    rw [e]
    obtain ⟨s', h1, h2, h3⟩ := extendBy_rep dbg (f.maxVar - s.lits.length + 1) h (by omega)
    exact ⟨s', h1, h2, by omega⟩
  · have e : s.extendIfNeeded dbg f = .ok s := if_neg hm
    rw [e]
    exact ⟨s, rfl, h, by omega⟩

theorem extendIfNeeded_overflow {k : Nat} {s : CaDiCal} {cs : List Clause} (h : s.Rep k cs) {f : CNF}
    (hV : ¬ 1 + s.size f.maxVar + k < 2147483648) : s.extendIfNeeded true f = .error overflow := by
  have hf := h.fresh
  have ht := h.top
  unfold size at *
  have hm : f.maxVar ≥ s.lits.length := by omega
  have e : s.extendIfNeeded true f = extendBy true (f.maxVar - s.lits.length + 1) s := if_pos hm
  rw [e]
  exact extendBy_overflow _ (by omega) h.top

/-- The translated literal. -/
def tr (s : CaDiCal) (l : Literal) : Int := if l.isNegated then -(s.core.x l.number : Int) else (s.core.x l.number : Int)

theorem x_pos {s : CaDiCal} (h : ∀ l ∈ s.lits, 0 < l) {i : Nat} (hi : i < s.lits.length) :
    0 < s.core.x i ∧ (s.core.x i : Int) = s.lits[i] := by
  have hg : s.lits[i]? = some s.lits[i] := List.getElem?_eq_getElem hi
  have hp := h _ (List.getElem_mem hi)
  simp only [core, hg, Option.map_some, Option.getD_some]
  omega

theorem negI32_pos {x : Int} (h : 0 < x) : negI32 x = -x := by
  unfold negI32
  rw [if_neg (by omega)]

theorem literal_ok {s : CaDiCal} (h : ∀ l ∈ s.lits, 0 < l) {l : Literal} (hl : l.number < s.lits.length) :
    s.literal l = .ok (s.tr l) := by
  unfold literal indexR
  have hg : s.lits[l.number]? = some s.lits[l.number] := List.getElem?_eq_getElem hl
  rw [hg]
  simp only [unwrapR, bind, Except.bind, pure, Except.pure, tr, (x_pos h hl).2, negI32_pos (h _ (List.getElem_mem hl))]

theorem translate_ok {s : CaDiCal} (h : ∀ l ∈ s.lits, 0 < l) {ls : List Literal}
    (hl : ∀ l ∈ ls, l.number < s.lits.length) : s.translate ls = .ok (ls.map s.tr) :=
  mapM_ok ls (fun l hm => literal_ok h (hl l hm))

theorem holds_tr {s : CaDiCal} (h : ∀ l ∈ s.lits, 0 < l) {β : Nat → Bool} {l : Literal} (hl : l.number < s.lits.length) :
    intHolds β (s.tr l) ↔ l.holds (fun i => β (s.core.x i)) := by
  have hx := (x_pos h hl).1
  unfold intHolds tr Literal.holds
  cases l.isNegated
  · simp only [Bool.false_eq_true, if_false, Int.natAbs_natCast]
    rw [decide_eq_true (by omega)]; rfl
  · simp only [if_true, Int.natAbs_neg, Int.natAbs_natCast]
    rw [decide_eq_false (by omega)]; rfl

theorem tr_abs {s : CaDiCal} (l : Literal) : (s.tr l).natAbs = s.core.x l.number := by
  unfold tr; split <;> simp

theorem Rep.tr_range {k : Nat} {s : CaDiCal} {cs : List Clause} (h : s.Rep k cs) {l : Literal} (hl : l.number < s.lits.length) :
    s.tr l ≠ 0 ∧ (s.tr l).natAbs < 2147483648 := by
  have h1 := (x_pos h.pos hl).1
  have h2 := h.lt_new hl
  have h3 := h.top
  rw [tr_abs]
  refine ⟨?_, by omega⟩
  unfold tr; split <;> omega

theorem dimacsOfModel_ok (value : Int → Option Bool) (ls : List Int) (i : Nat) (hi : i + ls.length ≤ 2147483648) :
    ∃ R, dimacsOfModel value i ls = .ok R ∧
      (∀ y ∈ R, ∃ j l b, ls[j]? = some l ∧ value l = some b ∧
        y = if b then ((i + j : Nat) : Int) else -((i + j : Nat) : Int)) ∧
      (∀ j l, ls[j]? = some l → (value l).isSome → ((i + j : Nat) : Int) ∈ R ∨ -((i + j : Nat) : Int) ∈ R) := by
  induction ls generalizing i with
  | nil => exact ⟨[], rfl, by simp, by simp⟩
  | cons l ls ih =>
    obtain ⟨R, hR, h1, h2⟩ := ih (i + 1) (by simp at hi; omega)
    have e : ∀ j, i + 1 + j = i + (j + 1) := fun j => by omega
    have h1' : ∀ y ∈ R, ∃ j l' b, (l :: ls)[j]? = some l' ∧ value l' = some b ∧
        y = if b then ((i + j : Nat) : Int) else -((i + j : Nat) : Int) := by
      intro y hy
      obtain ⟨j, l', b, hj, hb, hy⟩ := h1 y hy
      rw [e] at hy
      exact ⟨j + 1, l', b, by simpa using hj, hb, hy⟩
    unfold dimacsOfModel
    rw [toI32_ok (by simp at hi; omega), hR]
    simp only [bind, Except.bind, pure, Except.pure]
    cases hv : value l with
    | none =>
      refine ⟨R, rfl, h1', ?_⟩
      intro j l' hj hl'
      cases j with
      | zero => simp at hj; subst hj; simp [hv] at hl'
      | succ j => have := h2 j l' (by simpa using hj) hl'; rwa [e] at this
    | some b =>
      refine ⟨_, rfl, ?_, ?_⟩
      · intro y hy
        rcases List.mem_cons.1 hy with rfl | hy
        · exact ⟨0, l, b, rfl, hv, rfl⟩
        · exact h1' y hy
      · intro j l' hj hl'
        cases j with
        | zero => cases b <;> simp
        | succ j =>
          have := h2 j l' (by simpa using hj) hl'
          rw [e] at this
          rcases this with h | h
          · exact .inl (List.mem_cons_of_mem _ h)
          · exact .inr (List.mem_cons_of_mem _ h)

theorem solveTranslated_ok (dbg : Bool) {be : CdBackend} (hb : CdOK be) (t : Nat) {s : CaDiCal}
    (hpos : ∀ l ∈ s.lits, 0 < l) (hsmall : s.lits.length ≤ 2147483648) (hnz : InI32 s.db) (asm : List Int) (hna : InI32 [asm]) :
    ∃ r, s.solveTranslated dbg be t asm = .ok r ∧
      (match r with
       | .unsat => ∀ β, ¬ (intClausesHold β s.db ∧ ∀ l ∈ asm, intHolds β l)
       | .sat a => (∃ β, (intClausesHold β s.db ∧ ∀ l ∈ asm, intHolds β l) ∧ a.Agrees (fun i => β (s.core.x i))) ∧
          ∀ n, 1 ≤ n → n < s.lits.length → ((be t s.db asm).2 (s.core.x n)).isSome → (a.getValue n).isSome) := by
  unfold solveTranslated
  cases hr : (be t s.db asm).1 with
  | none => exact absurd hr (hb.decided t s.db asm hnz hna)
  | some b =>
    cases b with
    | false => simp only [hr]; exact ⟨_, rfl, hb.unsat t s.db asm hnz hna hr⟩
    | true =>
      obtain ⟨β, hβ⟩ := hb.consistent t s.db asm hnz hna hr
      obtain ⟨R, hR, h1, h2⟩ := dimacsOfModel_ok (be t s.db asm).2 (s.lits.drop 1) 1 (by simp; omega)
      have hmem : ∀ x ∈ R, x ≠ 0 ∧ -2 ^ 31 < x ∧ intHolds (fun i => β (s.core.x i)) x := by
        intro y hy
        obtain ⟨j, l, b, hj, hv, e⟩ := h1 y hy
        have hj' : s.lits[1 + j]? = some l := by rw [← hj]; simp [Nat.add_comm]
        obtain ⟨hlt, hl⟩ := List.getElem?_eq_some_iff.1 hj'
        have hx := x_pos hpos hlt
        rw [hl] at hx
        have hβl := hβ l b hv
        have hnat : l.natAbs = s.core.x (1 + j) := by omega
        unfold intHolds at hβl
        rw [hnat, decide_eq_true (by omega)] at hβl
        subst e
        refine ⟨by split <;> omega, by split <;> omega, ?_⟩
        show β (s.core.x (Int.natAbs _)) = _
        cases b with
        | true =>
          simp only [if_true, Int.natAbs_natCast]
          rw [hβl.2 rfl, decide_eq_true (by omega)]
        | false =>
          simp only [Bool.false_eq_true, if_false, Int.natAbs_neg, Int.natAbs_natCast]
          rw [decide_eq_false (by omega)]
          simpa using hβl
      obtain ⟨a, ha', hag, hget⟩ := fromDimacs_agrees dbg hmem
      refine ⟨.sat a, ?_, ⟨β, hb.sat t s.db asm hnz hna hr β hβ, hag⟩, ?_⟩
      · simp only [hr, hR, bind, Except.bind, ha']; rfl
      · intro n hn hlt hv
        have hx := x_pos hpos hlt
        rw [hx.2] at hv
        refine hget n hn ?_
        have := h2 (n - 1) s.lits[n] (by rw [List.getElem?_drop, show 1 + (n - 1) = n by omega]; exact List.getElem?_eq_getElem hlt) hv
        rwa [show 1 + (n - 1) = n by omega] at this

theorem solveTranslated_sat {dbg : Bool} {be : CdBackend} {t : Nat} {s : CaDiCal} {asm : List Int} {a : Assignment}
    (h : s.solveTranslated dbg be t asm = .ok (.sat a)) : (be t s.db asm).1 = some true := by
  unfold solveTranslated at h
  cases hr : (be t s.db asm).1 with
  | none => simp only [hr] at h; cases h
  | some b =>
    cases b with
    | true => rfl
    | false => simp only [hr] at h; cases h

theorem addClauses_rep {k : Nat} (cl : List Clause) {s : CaDiCal} {cs : List Clause} (h : s.Rep k cs)
    (hv : ∀ c ∈ cl, ∀ l ∈ c.lits, l.number < s.lits.length) :
    ∃ s', cl.foldlM (fun s c => do
      let mc ← s.translate c.iter
      return s.backendAdd mc) s = (.ok s' : Res CaDiCal) ∧ s'.Rep k (cs ++ cl) ∧ s'.lits = s.lits := by
  induction cl generalizing s cs with
  | nil => exact ⟨s, rfl, by simpa using h, rfl⟩
  | cons c cl ih =>
    have hc := hv c (by simp)
    have hr : Rep k (s.backendAdd (c.iter.map s.tr)) (cs ++ [c]) := by
      refine ⟨?_, h.pos, h.mono, h.fresh, h.top, ?_, ?_⟩
      · refine h.inv.add hc rfl rfl rfl ?_
        intro β
        show intClausesHold β (s.db ++ [_]) ↔ intClausesHold β s.db ∧ _
        unfold intClausesHold
        constructor
        · intro hh
          refine ⟨fun d hd => hh d (by simp [hd]), ?_⟩
          obtain ⟨y, hy, hh⟩ := hh _ (List.mem_append.2 (.inr (List.mem_singleton.2 rfl)))
          obtain ⟨l, hl, rfl⟩ := List.mem_map.1 hy
          exact ⟨l, hl, (holds_tr h.pos (hc l hl)).1 hh⟩
        · rintro ⟨h1, l, hl, h2⟩ d hd
          rcases List.mem_append.1 hd with hd | hd
          · exact h1 d hd
          · simp at hd; subst hd
            exact ⟨_, List.mem_map.2 ⟨l, hl, rfl⟩, (holds_tr h.pos (hc l hl)).2 h2⟩
      · intro d hd x hx
        rcases List.mem_append.1 hd with hd | hd
        · exact h.range d hd x hx
        · simp at hd; subst hd
          obtain ⟨l, hl, rfl⟩ := List.mem_map.1 hx
          exact h.tr_range (hc l hl)
      · intro e he l hl
        rcases List.mem_append.1 he with he | he
        · obtain ⟨d, hd, y, hy, h1⟩ := h.mentioned e he l hl
          exact ⟨d, List.mem_append.2 (.inl hd), y, hy, h1⟩
        · simp at he; subst he
          exact ⟨_, List.mem_append.2 (.inr (List.mem_singleton.2 rfl)), s.tr l, List.mem_map.2 ⟨l, hl, rfl⟩, tr_abs l⟩
    obtain ⟨s', hs', hr', hl'⟩ := ih hr (fun d hd l hl => hv d (by simp [hd]) l hl)
    refine ⟨s', ?_, by simpa using hr', hl'⟩
    rw [List.foldlM_cons]
    have := translate_ok h.pos (ls := c.iter) hc
    rw [this]
    exact hs'

theorem addCnf_rep (dbg : Bool) {k : Nat} {s : CaDiCal} {cs : List Clause} (h : s.Rep k cs) {f : CNF}
    (hV : 1 + s.size f.maxVar + k < 2147483648) (hle : ∀ c ∈ f.clauses, ∀ l ∈ c.lits, l.number ≤ f.maxVar) :
    ∃ s', addCnf dbg f s = .ok s' ∧ s'.Rep k (cs ++ f.iter) ∧ s'.lits.length = s.size f.maxVar := by
  obtain ⟨s1, h0, h1, h2⟩ := extendIfNeeded_rep dbg h hV
  have : f.maxVar < s.size f.maxVar := by unfold size; omega
  obtain ⟨s', h3, h4, h5⟩ := addClauses_rep f.iter h1 (fun c hc l hl => by have := hle c hc l hl; omega)
  refine ⟨s', ?_, h4, by rw [h5, h2]⟩
  unfold addCnf
  rw [h0]
  exact h3

theorem addCnf_overflow {k : Nat} {s : CaDiCal} {cs : List Clause} (h : s.Rep k cs) {f : CNF}
    (hV : ¬ 1 + s.size f.maxVar + k < 2147483648) : addCnf true f s = .error overflow := by
  unfold addCnf
  rw [extendIfNeeded_overflow h hV]; rfl

/-- The translated optional cube. -/
theorem cube_ok {s : CaDiCal} (hp : ∀ l ∈ s.lits, 0 < l) (cube : Option Cube)
    (hcube : ∀ c, cube = some c → ∀ l ∈ c.lits, l.number < s.lits.length) :
    ∃ asm : List Int, (∀ c, cube = some c → s.translate c.iter = .ok asm) ∧ (cube = none → asm = []) ∧
        (∀ x ∈ asm, ∃ c, cube = some c ∧ ∃ l ∈ c.lits, x = s.tr l) ∧ (∀ c, cube = some c → ∀ l ∈ c.lits, s.tr l ∈ asm) ∧
        ∀ β, (∀ l ∈ asm, intHolds β l) ↔ optHolds (fun c : Cube => c.holds (fun i => β (s.core.x i))) cube := by
  cases cube with
  | none => exact ⟨[], by simp, by simp, by simp, by simp, by simp [optHolds]⟩
  | some c =>
    refine ⟨c.iter.map s.tr, ?_, by simp, ?_, ?_, ?_⟩
    · intro c' hc'; cases hc'
      exact translate_ok hp (hcube c rfl)
    · intro x hx
      obtain ⟨l, hl, rfl⟩ := List.mem_map.1 hx
      exact ⟨c, rfl, l, hl, rfl⟩
    · intro c' hc' l hl; cases hc'
      exact List.mem_map.2 ⟨l, hl, rfl⟩
    · intro β
      simp only [List.mem_map, forall_exists_index, and_imp, forall_apply_eq_imp_iff₂, optHolds, Cube.holds]
      constructor
      · intro h l hl; exact (holds_tr hp (hcube c rfl l hl)).1 (h l hl)
      · intro h l hl; exact (holds_tr hp (hcube c rfl l hl)).2 (h l hl)

/-- With a back-end that values all variables up to the largest mentioned one, so does the answer. -/
theorem total_of {be : CdBackend} (hT : CdTotal be) {t : Nat} {k : Nat} {s s1 : CaDiCal} {cs : List Clause} (h : s.Rep k cs)
    (hx : s1.core.x = s.core.x) (hl : s1.lits = s.lits) (hdb : ∀ d ∈ s.db, d ∈ s1.db) (hr1 : InI32 s1.db) {asm : List Int} (hasm : InI32 [asm])
    {cube : Option Cube} {clause : Option Clause} (hcube : ∀ c, cube = some c → ∀ l ∈ c.lits, l.number < s.lits.length ∧ s.tr l ∈ asm)
    (hcl : ∀ c, clause = some c → ∀ l ∈ c.lits, l.number < s.lits.length ∧ ∃ d ∈ s1.db, s.tr l ∈ d) {r : SatResponse}
    (hsat : ∀ a, r = .sat a → (be t s1.db asm).1 = some true ∧
      ∀ n, 1 ≤ n → n < s1.lits.length → ((be t s1.db asm).2 (s1.core.x n)).isSome → (a.getValue n).isSome) :
    QueryTotal cs cube clause r := by
  cases r with
  | unsat => trivial
  | sat a =>
    obtain ⟨h0, hval⟩ := hsat a rfl
    intro l hm n hn1 hn2
    have key : l.number < s.lits.length ∧ ∃ c ∈ asm :: s1.db, ∃ y ∈ c, y.natAbs = s.core.x l.number := by
      rcases hm with ⟨c, hc, hl⟩ | ⟨c, hc, hl⟩ | ⟨c, hc, hl⟩
      · obtain ⟨d, hd, y, hy, e⟩ := h.mentioned c hc l hl
        exact ⟨h.inv.vars c hc l hl, d, List.mem_cons_of_mem _ (hdb d hd), y, hy, e⟩
      · exact ⟨(hcube c hc l hl).1, asm, List.mem_cons_self, _, (hcube c hc l hl).2, tr_abs l⟩
      · obtain ⟨h1, d, hd, h2⟩ := hcl c hc l hl
        exact ⟨h1, d, List.mem_cons_of_mem _ hd, _, h2, tr_abs l⟩
    obtain ⟨hlt, c, hc, y, hy, e⟩ := key
    refine hval n hn1 (by rw [hl]; omega) (hT t s1.db asm hr1 hasm h0 _ ?_ c hc y hy ?_)
    · rw [hx]; exact (x_pos h.pos (by omega)).1
    · rw [hx, e]; exact h.mono n l.number hn2 hlt

theorem solveJustCube_ok {k : Nat} {s : CaDiCal} {cs : List Clause} (dbg : Bool) {be : CdBackend} (hb : CdOK be) (t : Nat)
    (h : s.Rep k cs) (cube : Option Cube) (hcube : ∀ c, cube = some c → ∀ l ∈ c.lits, l.number < s.lits.length) :
    ∃ r, s.solveJustCube dbg be t cube = .ok (r, s) ∧ QueryCorrect cs cube none r ∧ (CdTotal be → QueryTotal cs cube none r) := by
  have hf := h.fresh
  have ht := h.top
  obtain ⟨asm, h1, h2, hsrc, hmem, hsem⟩ := cube_ok h.pos cube hcube
  have hna : InI32 [asm] := by
    intro c hc x hx
    simp at hc; subst hc
    obtain ⟨c, hc, l, hl, rfl⟩ := hsrc x hx
    exact h.tr_range (hcube c hc l hl)
  obtain ⟨r, hr, hspec⟩ := solveTranslated_ok dbg hb t h.pos (by omega) h.range asm hna
  refine ⟨r, ?_, ?_, ?_⟩
  · unfold solveJustCube
    cases cube with
    | none => simp only [pure_bind, ← h2 rfl, hr]; rfl
    | some c => simp only [h1 c rfl]; simp only [bind, Except.bind, hr]; rfl
  · cases r with
    | unsat =>
      intro v hv
      obtain ⟨β, hβ, hβx, _⟩ := h.inv.lift v false hv.1
      refine hspec β ⟨hβ, (hsem β).2 ?_⟩
      refine (MiniSat.optCube_congr ?_).1 hv.2.1
      intro c hc l hl; exact (hβx _ (hcube c hc l hl)).symm
    | sat a =>
      obtain ⟨⟨β, ⟨h1, h2⟩, hag⟩, _⟩ := hspec
      exact ⟨_, ⟨h.inv.sound β h1, (hsem β).1 h2, trivial⟩, hag⟩
  · intro hT
    refine total_of hT (t := t) (s1 := s) (asm := asm) h rfl rfl (fun _ h => h) h.range hna (fun c hc l hl => ⟨hcube c hc l hl, hmem c hc l hl⟩)
      (fun c hc => by cases hc) fun a ha => ?_
    subst ha
    exact ⟨solveTranslated_sat hr, hspec.2⟩

theorem handleTemporary_ok {k : Nat} {s : CaDiCal} {cs : List Clause} (dbg : Bool) {be : CdBackend} (hb : CdOK be)
    (t : Nat) (h : s.Rep k cs) (hV : 1 + s.lits.length + (k + 1) < 2147483648) (cube : Option Cube) (extra : Clause)
    (hcube : ∀ c, cube = some c → ∀ l ∈ c.lits, l.number < s.lits.length)
    (hex : ∀ l ∈ extra.lits, l.number < s.lits.length) :
    ∃ r s', s.handleTemporaryExtraClause dbg be t extra cube = .ok (r, s') ∧ s'.Rep (k + 1) cs ∧ s'.lits = s.lits ∧
      QueryCorrect cs cube (some extra) r ∧ (CdTotal be → QueryTotal cs cube (some extra) r) := by
  have hfr := h.fresh
  let s1 : CaDiCal := { newLiteral := s.newLiteral + 1, db := s.db ++ [extra.iter.map s.tr ++ [-s.newLiteral]], lits := s.lits }
  have hn1 : ∀ β : Nat → Bool, intHolds β (-s.newLiteral) ↔ β s.core.n = false := by
    intro β
    unfold intHolds
    rw [decide_eq_false (by omega)]
    have : (-s.newLiteral).natAbs = s.core.n := by show _ = s.newLiteral.toNat; omega
    rw [this]
  have hn2 : ∀ β : Nat → Bool, intHolds β s.newLiteral ↔ β s.core.n = true := by
    intro β
    unfold intHolds
    rw [decide_eq_true (by omega)]
    have : (s.newLiteral).natAbs = s.core.n := by show _ = s.newLiteral.toNat; omega
    rw [this]
  have hdb1 : ∀ β, intClausesHold β s1.db ↔
      intClausesHold β s.db ∧ (extra.holds (fun i => β (s.core.x i)) ∨ β s.core.n = false) := by
    intro β
    show intClausesHold β (s.db ++ [_]) ↔ _
    unfold intClausesHold
    constructor
    · intro hh
      refine ⟨fun d hd => hh d (by simp [hd]), ?_⟩
      obtain ⟨y, hy, hh⟩ := hh _ (List.mem_append.2 (.inr (List.mem_singleton.2 rfl)))
      rcases List.mem_append.1 hy with hy | hy
      · obtain ⟨l, hl, rfl⟩ := List.mem_map.1 hy
        exact .inl ⟨l, hl, (holds_tr h.pos (hex l hl)).1 hh⟩
      · simp at hy; subst hy; exact .inr ((hn1 β).1 hh)
    · rintro ⟨h1, h2⟩ d hd
      rcases List.mem_append.1 hd with hd | hd
      · exact h1 d hd
      · simp at hd; subst hd
        rcases h2 with ⟨l, hl, h2⟩ | h2
        · exact ⟨s.tr l, List.mem_append.2 (.inl (List.mem_map.2 ⟨l, hl, rfl⟩)), (holds_tr h.pos (hex l hl)).2 h2⟩
        · exact ⟨-s.newLiteral, by simp, (hn1 β).2 h2⟩
  have hnz1 : InI32 s1.db := by
    intro d hd x hx
    rcases List.mem_append.1 hd with hd | hd
    · exact h.range d hd x hx
    · simp at hd; subst hd
      rcases List.mem_append.1 hx with hx | hx
      · obtain ⟨l, hl, rfl⟩ := List.mem_map.1 hx
        exact h.tr_range (hex l hl)
      · simp at hx; omega
  obtain ⟨asm, h1, h2, hsrc, hmem, hsem⟩ := cube_ok (s := s1) h.pos cube hcube
  have hna : InI32 [s.newLiteral :: asm] := by
    intro c hc x hx
    simp at hc; subst hc
    rcases List.mem_cons.1 hx with rfl | hx
    · omega
    · obtain ⟨c, hc, l, hl, rfl⟩ := hsrc x hx
      exact h.tr_range (hcube c hc l hl)
  obtain ⟨r, hr, hspec⟩ := solveTranslated_ok (s := s1) dbg hb t h.pos (by show s.lits.length ≤ _; omega) hnz1
    (s.newLiteral :: asm) hna
  refine ⟨r, s1.backendAdd [-s.newLiteral], ?_, ?_, rfl, ?_, ?_⟩
  · unfold handleTemporaryExtraClause
    rw [translate_ok h.pos (ls := extra.iter) hex, newLit_ok dbg (by omega)]
    simp only [backendAdd, bind, Except.bind, pure, Except.pure, negI32_pos (show 0 < s.newLiteral by omega)]
    cases cube with
    | none => simp only [h2 rfl] at hr; simp only [s1] at hr; simp only [hr]; rfl
    | some c =>
      have e := h1 c rfl
      simp only [s1] at e hr
      simp only [e, List.singleton_append, hr]; rfl
  · refine ⟨?_, h.pos, h.mono, ?_, ?_, ?_, ?_⟩
    · refine h.inv.temp (T := fun β => extra.holds (fun i => β (s.core.x i))) ?_ rfl rfl ?_
      · show (s.newLiteral + 1).toNat = s.newLiteral.toNat + 1; omega
      intro β
      show intClausesHold β (s1.db ++ [_]) ↔ (intClausesHold β s.db ∧ (_ ∨ β s.core.n = false)) ∧ β s.core.n = false
      rw [← hdb1 β]
      unfold intClausesHold
      constructor
      · intro hh
        refine ⟨fun d hd => hh d (by simp [hd]), ?_⟩
        obtain ⟨y, hy, hh⟩ := hh _ (List.mem_append.2 (.inr (List.mem_singleton.2 rfl)))
        simp at hy; subst hy; exact (hn1 β).1 hh
      · rintro ⟨h1, h2⟩ d hd
        rcases List.mem_append.1 hd with hd | hd
        · exact h1 d hd
        · simp at hd; subst hd
          exact ⟨-s.newLiteral, by simp, (hn1 β).2 h2⟩
    · show s.newLiteral + 1 = 1 + (s.lits.length : Int) + ((k + 1 : Nat) : Int); omega
    · show s.newLiteral + 1 < _; omega
    · intro d hd x hx
      rcases List.mem_append.1 hd with hd | hd
      · exact hnz1 d hd x hx
      · simp at hd; subst hd; simp at hx; omega
    · intro c hc l hl
      obtain ⟨d, hd, y, hy, e⟩ := h.mentioned c hc l hl
      exact ⟨d, List.mem_append.2 (.inl (List.mem_append.2 (.inl hd))), y, hy, e⟩
  · cases r with
    | unsat =>
      intro v hv
      obtain ⟨β, hβ, hβx, hβn⟩ := h.inv.lift v true hv.1
      refine hspec β ⟨(hdb1 β).2 ⟨hβ, .inl ?_⟩, ?_⟩
      · refine (Clause.holds_congr ?_).1 hv.2.2
        intro l hl; exact (hβx _ (hex l hl)).symm
      · intro l hl
        rcases List.mem_cons.1 hl with rfl | hl
        · exact (hn2 β).2 hβn
        · refine (hsem β).2 ?_ l hl
          refine (MiniSat.optCube_congr ?_).1 hv.2.1
          intro c hc l hl; exact (hβx _ (hcube c hc l hl)).symm
    | sat a =>
      obtain ⟨⟨β, ⟨h1, h2⟩, hag⟩, _⟩ := hspec
      have h3 := (hdb1 β).1 h1
      have h4 : β s.core.n = true := (hn2 β).1 (h2 s.newLiteral (by simp))
      refine ⟨_, ⟨h.inv.sound β h3.1, (hsem β).1 (fun l hl => h2 l (by simp [hl])), ?_⟩, hag⟩
      rcases h3.2 with h5 | h5
      · exact h5
      · rw [h4] at h5; cases h5

  · intro hT
    refine total_of hT (t := t) (s1 := s1) (asm := s.newLiteral :: asm) h rfl rfl (fun _ h => List.mem_append.2 (.inl h)) hnz1 hna
      (fun c hc l hl => ⟨hcube c hc l hl, List.mem_cons_of_mem _ (hmem c hc l hl)⟩)
      (fun c hc l hl => by
        cases hc
        exact ⟨hex l hl, _, List.mem_append.2 (.inr (List.mem_singleton.2 rfl)), List.mem_append.2 (.inl (List.mem_map.2 ⟨l, hl, rfl⟩))⟩)
      fun a ha => ?_
    subst ha
    exact ⟨solveTranslated_sat hr, hspec.2⟩

theorem handleTemporary_overflow {k : Nat} {s : CaDiCal} {cs : List Clause} {be : CdBackend} {t : Nat} (h : s.Rep k cs)
    (hV : ¬ 1 + s.lits.length + (k + 1) < 2147483648) {cube : Option Cube} {extra : Clause}
    (hex : ∀ l ∈ extra.lits, l.number < s.lits.length) : s.handleTemporaryExtraClause true be t extra cube = .error overflow := by
  have hf := h.fresh
  unfold handleTemporaryExtraClause
  rw [translate_ok h.pos (ls := extra.iter) hex, newLit_overflow (by omega)]; rfl

/-- Table size after the variables of a temporary formula have been added. -/
def sizeOpt (n : Nat) : Option CNF → Nat
  | some f => max n (f.maxVar + 1)
  | none => n

/-- `extend_cadical_literals_if_needed` for a formula that may be absent. -/
def extendOpt (dbg : Bool) (s : CaDiCal) : Option CNF → Res CaDiCal
  | some f => s.extendIfNeeded dbg f
  | none => pure s

/-- The part of `solve` after the table has been extended. -/
def finish (dbg : Bool) (be : CdBackend) (t : Nat) (cube : Option Cube) (clause : Option Clause) (s : CaDiCal) : Res (SatResponse × CaDiCal) :=
  match clause with
  | none => s.solveJustCube dbg be t cube
  | some extra => s.handleTemporaryExtraClause dbg be t extra cube

theorem extendOpt_rep (dbg : Bool) {k : Nat} {s : CaDiCal} {cs : List Clause} (h : s.Rep k cs) (f : Option CNF)
    (hV : 1 + sizeOpt s.lits.length f + k < 2147483648) :
    ∃ s', s.extendOpt dbg f = .ok s' ∧ s'.Rep k cs ∧ s'.lits.length = sizeOpt s.lits.length f := by
  cases f with
  | none => exact ⟨s, rfl, h, rfl⟩
  | some f => exact extendIfNeeded_rep dbg h hV

theorem extendOpt_overflow {k : Nat} {s : CaDiCal} {cs : List Clause} (h : s.Rep k cs) (f : Option CNF)
    (hV : ¬ 1 + sizeOpt s.lits.length f + k < 2147483648) :
    s.extendOpt true f = .error overflow := by
  cases f with
  | none =>
    have h1 := h.fresh
    have h2 := h.top
    simp only [sizeOpt] at hV
    omega
  | some f => exact extendIfNeeded_overflow h hV

theorem solve_eq (dbg : Bool) (be : CdBackend) (t : Nat) (cube : Option Cube) (clause : Option Clause) (s : CaDiCal) :
    solve dbg be t cube clause s =
      s.extendOpt dbg (cube.map Cube.toCnf) >>= fun s => s.extendOpt dbg (clause.map Clause.toCnf) >>= finish dbg be t cube clause := by
  cases cube <;> cases clause <;> rfl

/-- Table size after a query. -/
def sizeQuery (n : Nat) (cube : Option Cube) (clause : Option Clause) : Nat :=
  sizeOpt (sizeOpt n (cube.map Cube.toCnf)) (clause.map Clause.toCnf)

theorem sizeOpt_ge (n : Nat) (f : Option CNF) : n ≤ sizeOpt n f := by
  cases f <;> simp [sizeOpt]; omega

theorem solve_ok {k : Nat} {s : CaDiCal} {cs : List Clause} (dbg : Bool) {be : CdBackend} (hb : CdOK be) (t : Nat)
    (h : s.Rep k cs) (cube : Option Cube) (clause : Option Clause)
    (hV : 1 + sizeQuery s.lits.length cube clause + (k + if clause.isSome then 1 else 0) < 2147483648) (hc : optHolds Cube.Good cube)
    (hk : optHolds Clause.Good clause) (hs : optHolds (fun c : Clause => c.Sorted) clause) :
    ∃ r s', solve dbg be t cube clause s = .ok (r, s') ∧ s'.Rep (k + if clause.isSome then 1 else 0) cs ∧
      s'.lits.length = sizeQuery s.lits.length cube clause ∧ QueryCorrect cs cube clause r ∧ (CdTotal be → QueryTotal cs cube clause r) := by
  unfold sizeQuery at hV
  have hge := sizeOpt_ge (sizeOpt s.lits.length (cube.map Cube.toCnf)) (clause.map Clause.toCnf)
  obtain ⟨s1, e1, h1, hl1⟩ := extendOpt_rep dbg h (cube.map Cube.toCnf) (by omega)
  obtain ⟨s2, e2, h2, hl2⟩ := extendOpt_rep dbg h1 (clause.map Clause.toCnf) (by rw [hl1]; omega)
  have hlen : s2.lits.length = sizeQuery s.lits.length cube clause := by rw [hl2, hl1]; rfl
  have hcube : ∀ c, cube = some c → ∀ l ∈ c.lits, l.number < s2.lits.length := by
    intro c e l hl
    subst e
    have := (Cube.toCnf_ready hc).le_max (Clause.new [l]) (Cube.mem_toCnf.2 ⟨l, hl, rfl⟩) l (by simp)
    rw [hl2, hl1]
    simp only [Option.map_some, sizeOpt] at *
    omega
  have hclause : ∀ c, clause = some c → ∀ l ∈ c.lits, l.number < s2.lits.length := by
    intro c e l hl
    subst e
    have := (Clause.toCnf_ready hs hk).le_max c (by simp [Clause.toCnf, CNF.mem_addClause]) l hl
    rw [hl2]
    simp only [Option.map_some, sizeOpt] at *
    omega
  rw [solve_eq, e1]
  show ∃ r s', (s1.extendOpt dbg (clause.map Clause.toCnf) >>= finish dbg be t cube clause) = .ok (r, s') ∧ _
  rw [e2]
  rw [← hl1, ← hl2] at hV
  cases clause with
  | none =>
    obtain ⟨r, hr, hq⟩ := solveJustCube_ok dbg hb t h2 cube hcube
    exact ⟨r, s2, hr, h2, hlen, hq⟩
  | some extra =>
    obtain ⟨r, s', hr, hr', hl', hq⟩ := handleTemporary_ok dbg hb t h2 (by simpa using hV) cube extra hcube (hclause extra rfl)
    exact ⟨r, s', hr, hr', by rw [hl', hlen], hq⟩

theorem solve_overflow {k : Nat} {s : CaDiCal} {cs : List Clause} {be : CdBackend} {t : Nat} (h : s.Rep k cs) (cube : Option Cube)
    (clause : Option Clause) (hV : ¬ 1 + sizeQuery s.lits.length cube clause + (k + if clause.isSome then 1 else 0) < 2147483648)
    (hk : optHolds Clause.Good clause) (hs : optHolds (fun c : Clause => c.Sorted) clause) :
    solve true be t cube clause s = .error overflow := by
  rw [solve_eq]
  by_cases hV1 : 1 + sizeOpt s.lits.length (cube.map Cube.toCnf) + k < 2147483648
  · obtain ⟨s1, e1, h1, hl1⟩ := extendOpt_rep true h (cube.map Cube.toCnf) hV1
    rw [e1]
    show (s1.extendOpt true (clause.map Clause.toCnf) >>= finish true be t cube clause) = _
    by_cases hV2 : 1 + sizeOpt s1.lits.length (clause.map Clause.toCnf) + k < 2147483648
    · obtain ⟨s2, e2, h2, hl2⟩ := extendOpt_rep true h1 (clause.map Clause.toCnf) hV2
      rw [e2]
      unfold sizeQuery at hV
      rw [← hl1, ← hl2] at hV
      cases clause with
      | none =>
        have a := h2.fresh
        have b := h2.top
        simp only [Option.isSome_none, Bool.false_eq_true, if_false] at hV
        omega
      | some extra =>
        refine handleTemporary_overflow h2 (by simpa using hV) fun l hl => ?_
        have := (Clause.toCnf_ready hs hk).le_max extra (by simp [Clause.toCnf, CNF.mem_addClause]) l hl
        rw [hl2]
        simp only [Option.map_some, sizeOpt] at *
        omega
    · rw [extendOpt_overflow h1 _ hV2]; rfl
  · rw [extendOpt_overflow h _ hV1]; rfl

theorem litsTop_ge {ls : List Literal} {l : Literal} (h : l ∈ ls) : l.number ≤ litsTop ls := by
  induction ls with
  | nil => cases h
  | cons a ls ih =>
    show _ ≤ max a.number (litsTop ls)
    rcases List.mem_cons.1 h with rfl | h
    · omega
    · have := ih h; omega

theorem litsTop_attained (ls : List Literal) : litsTop ls = 0 ∨ ∃ l ∈ ls, l.number = litsTop ls := by
  induction ls with
  | nil => exact .inl rfl
  | cons a ls ih =>
    show max a.number (litsTop ls) = 0 ∨ ∃ l ∈ a :: ls, l.number = max a.number (litsTop ls)
    by_cases h : litsTop ls ≤ a.number
    · exact .inr ⟨a, by simp, by omega⟩
    · rcases ih with h0 | ⟨l, hl, e⟩
      · omega
      · exact .inr ⟨l, by simp [hl], by omega⟩

theorem cube_top (c : Cube) : c.toCnf.maxVar = litsTop c.lits := by
  have key : ∀ (ls : List Literal) (f : CNF), (ls.foldl (fun f l => f.addClause (Clause.new [l])) f).maxVar = max f.maxVar (litsTop ls) := by
    intro ls
    induction ls with
    | nil => intro f; exact (Nat.max_zero _).symm
    | cons a ls ih =>
      intro f
      rw [List.foldl_cons, ih]
      show max (max f.maxVar a.number) (litsTop ls) = max f.maxVar (max a.number (litsTop ls))
      omega
  exact (key c.lits CNF.new).trans (Nat.zero_max _)

theorem clause_top {c : Clause} (hs : c.Sorted) : c.toCnf.maxVar = litsTop c.lits := by
  have e : c.toCnf.maxVar = c.highestVar := Nat.zero_max _
  have h1 : litsTop c.lits ≤ c.highestVar := by
    rcases litsTop_attained c.lits with h | ⟨l, hl, h⟩
    · omega
    · rw [← h]; exact Clause.number_le_highest hs hl
  rcases c.highest_attained with h | ⟨l, hl, h⟩
  · omega
  · have := litsTop_ge hl; omega

theorem sizeQuery_slots (n : Nat) (cube : Option Cube) {clause : Option Clause} (hs : optHolds (fun c : Clause => c.Sorted) clause) :
    sizeQuery n cube clause = max n (Op.solve cube clause).slots := by
  unfold sizeQuery Op.slots
  cases cube <;> cases clause <;>
    simp only [sizeOpt, Option.map_some, Option.map_none, Option.elim_some, Option.elim_none, Cube.iter, Clause.iter, cube_top]
  · omega
  · rw [clause_top hs]; omega
  · omega
  · rw [clause_top hs]; omega

/-- A history runs to its end with right answers if the counter of back-end variables suffices for it; otherwise a debug build panics. -/
theorem run_exact {be : CdBackend} (hb : CdOK be) (ops : List Op) (hv : ∀ op ∈ ops, op.Valid 2147483647) (k : Nat)
    (added : List Clause) (t : Nat) (s : CaDiCal) (h : s.Rep k added) :
    (1 + max s.lits.length (tableSize ops) + (k + temporaries ops) < 2147483648 → ∀ dbg,
      ∃ rs s', (impl dbg be).run ops t s = .ok (rs, s') ∧ HistoryCorrect added ops rs) ∧
    (¬ 1 + max s.lits.length (tableSize ops) + (k + temporaries ops) < 2147483648 → (impl true be).run ops t s = .error overflow) := by
  induction ops generalizing k added t s with
  | nil =>
    refine ⟨fun _ dbg => ⟨[], s, rfl, rfl⟩, fun hV => ?_⟩
    have a := h.fresh
    have b := h.top
    simp only [tableSize, temporaries, List.foldr_nil] at hV
    omega
  | cons op ops ih =>
    have hop := hv op (by simp)
    have ih := ih fun o ho => hv o (List.mem_cons_of_mem _ ho)
    cases op with
    | addCnf f =>
      have et : tableSize (.addCnf f :: ops) = max (f.maxVar + 1) (tableSize ops) := rfl
      have ek : temporaries (.addCnf f :: ops) = temporaries ops := rfl
      rw [et, ek]
      have hV' : 1 + max s.lits.length (max (f.maxVar + 1) (tableSize ops)) + (k + temporaries ops) =
        1 + max (s.size f.maxVar) (tableSize ops) + (k + temporaries ops) := by unfold size; omega
      rw [hV']
      refine ⟨fun hV dbg => ?_, fun hV => ?_⟩
      · obtain ⟨s1, h1, h2, h3⟩ := addCnf_rep dbg h (by omega) hop.2.1
        obtain ⟨rs, s', h4, h5⟩ := (ih k _ t s1 h2).1 (by rw [h3]; exact hV) dbg
        refine ⟨rs, s', ?_, h5⟩
        simp only [StatefulImpl.run]
        show Except.bind (CaDiCal.addCnf dbg f s) _ = _
        rw [h1]; exact h4
      · simp only [StatefulImpl.run]
        show Except.bind (CaDiCal.addCnf true f s) _ = _
        by_cases hV1 : 1 + s.size f.maxVar + k < 2147483648
        · obtain ⟨s1, h1, h2, h3⟩ := addCnf_rep true h hV1 hop.2.1
          rw [h1]
          exact (ih k _ t s1 h2).2 (by rw [h3]; exact hV)
        · rw [addCnf_overflow h hV1]; rfl
    | solve cube clause =>
      have hc : optHolds Cube.Good cube := by
        cases cube with
        | none => trivial
        | some c => exact hop.1.1
      have hk : optHolds Clause.Good clause := by
        cases clause with
        | none => trivial
        | some c => exact hop.2.1
      have hs : optHolds (fun c : Clause => c.Sorted) clause := by
        cases clause with
        | none => trivial
        | some c => exact hop.2.2.1
      have et : tableSize (.solve cube clause :: ops) = max (Op.solve cube clause).slots (tableSize ops) := rfl
      have ek : temporaries (.solve cube clause :: ops) = (if clause.isSome then 1 else 0) + temporaries ops := rfl
      have eq := sizeQuery_slots s.lits.length cube hs
      rw [et, ek]
      have hV' : 1 + max s.lits.length (max (Op.solve cube clause).slots (tableSize ops)) +
          (k + ((if clause.isSome then 1 else 0) + temporaries ops)) =
        1 + max (sizeQuery s.lits.length cube clause) (tableSize ops) +
          ((k + if clause.isSome then 1 else 0) + temporaries ops) := by rw [eq]; omega
      rw [hV']
      refine ⟨fun hV dbg => ?_, fun hV => ?_⟩
      · obtain ⟨r, s1, h1, h2, h3, h4, _⟩ := solve_ok dbg hb t h cube clause (by omega) hc hk hs
        obtain ⟨rs, s', h5, h6⟩ := (ih _ _ (t + 1) s1 h2).1 (by rw [h3]; exact hV) dbg
        refine ⟨r :: rs, s', ?_, h4, h6⟩
        simp only [StatefulImpl.run]
        show Except.bind (CaDiCal.solve dbg be t cube clause s) _ = _
        rw [h1]
        simp only [Except.bind, bind, h5]; rfl
      · simp only [StatefulImpl.run]
        show Except.bind (CaDiCal.solve true be t cube clause s) _ = _
        by_cases hV1 : 1 + sizeQuery s.lits.length cube clause + (k + if clause.isSome then 1 else 0) < 2147483648
        · obtain ⟨r, s1, h1, h2, h3, h4, _⟩ := solve_ok true hb t h cube clause hV1 hc hk hs
          rw [h1]
          simp only [Except.bind, bind]
          rw [(ih _ _ (t + 1) s1 h2).2 (by rw [h3]; exact hV)]
        · rw [solve_overflow h cube clause hV1 hk hs]; rfl

end CaDiCal

/-- The CaDiCaL front-end in a debug build meets the trait contract, except that it may panic when its counter of back-end variables
leaves the `i32` range. -/
def CaDiCal.implOK {be : CdBackend} (hb : CdOK be) (hT : CdTotal be) : (CaDiCal.impl true be).OK (· = CaDiCal.overflow) where
  Rep := fun s cs => ∃ k, CaDiCal.Rep k s cs
  new := ⟨0, CaDiCal.rep_new⟩
  addCnf := by
    rintro s cs f ⟨k, h⟩ _ hm _
    by_cases hV : 1 + s.size f.maxVar + k < 2147483648
    · obtain ⟨s', h1, h2, _⟩ := CaDiCal.addCnf_rep true h hV hm
      exact Ends.of_ok h1 ⟨k, h2⟩
    · exact Ends.of_error (CaDiCal.addCnf_overflow h hV) rfl
  solve := by
    rintro t s cs cube clause ⟨k, h⟩ hc hk hs
    by_cases hV : 1 + CaDiCal.sizeQuery s.lits.length cube clause + (k + if clause.isSome then 1 else 0) < 2147483648
    · obtain ⟨r, s', h1, h2, _, h3, h4⟩ := CaDiCal.solve_ok true hb t h cube clause hV hc hk hs
      exact Ends.of_ok h1 ⟨⟨_, h2⟩, h3, h4 hT⟩
    · exact Ends.of_error (CaDiCal.solve_overflow h cube clause hV hk hs) rfl

/-- The same without an assumption on the values the back-end reports, and without a guarantee of that kind. -/
def CaDiCal.implCorrect {be : CdBackend} (hb : CdOK be) : (CaDiCal.impl true be).Correct (· = CaDiCal.overflow) where
  Rep := fun s cs => ∃ k, CaDiCal.Rep k s cs
  new := ⟨0, CaDiCal.rep_new⟩
  addCnf := by
    rintro s cs f ⟨k, h⟩ _ hm _
    by_cases hV : 1 + s.size f.maxVar + k < 2147483648
    · obtain ⟨s', h1, h2, _⟩ := CaDiCal.addCnf_rep true h hV hm
      exact Ends.of_ok h1 ⟨k, h2⟩
    · exact Ends.of_error (CaDiCal.addCnf_overflow h hV) rfl
  solve := by
    rintro t s cs cube clause ⟨k, h⟩ hc hk hs
    by_cases hV : 1 + CaDiCal.sizeQuery s.lits.length cube clause + (k + if clause.isSome then 1 else 0) < 2147483648
    · obtain ⟨r, s', h1, h2, _, h3, _⟩ := CaDiCal.solve_ok true hb t h cube clause hV hc hk hs
      exact Ends.of_ok h1 ⟨⟨_, h2⟩, h3⟩
    · exact Ends.of_error (CaDiCal.solve_overflow h cube clause hV hk hs) rfl

end Verif
