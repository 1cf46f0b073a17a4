import Verif.Spec.SatContract
import Verif.Proofs.Formula

/-!
# A verified SAT solver

Not part of the modelled code.  It shows that the environment contract can be met (so theorems that assume it are not
vacuous) and it lets concrete runs of the model be evaluated by the kernel.
-/

namespace Verif.Brute

/-- Simplify by setting variable `x` to `b`. -/
def assign (x : Nat) (b : Bool) (cls : List (List Literal)) : List (List Literal) :=
  (cls.filter (fun c => !(c.any (fun l => l.number == x && l.isNegated != b)))).map
    (fun c => c.filter (fun l => l.number != x))

/-- Backtracking search over variables `n, n-1, …, 1`; returns the set of true variables. -/
def search : Nat → List (List Literal) → Option (List Nat)
  | 0, cls => if cls.isEmpty then some [] else none
  | n + 1, cls =>
    if cls.any List.isEmpty then none
    else
      match search n (assign (n + 1) true cls) with
      | some t => some ((n + 1) :: t)
      | none => search n (assign (n + 1) false cls)

/-- The assignment over `1..n` with true variables `t`. -/
def toAssignment (n : Nat) (t : List Nat) : Assignment :=
  ⟨t, (List.range' 1 n).filter (fun x => !(t.contains x))⟩

def solve (f : CNF) : SatResponse :=
  match search f.maxVar (f.clauses.map Clause.lits) with
  | some t => .sat (toAssignment f.maxVar t)
  | none => .unsat

def listHolds (v : Val) (cls : List (List Literal)) : Prop := ∀ c ∈ cls, ∃ l ∈ c, l.holds v

theorem listHolds_assign {v : Val} {x : Nat} {b : Bool} (hx : v x = b) (cls : List (List Literal)) :
    listHolds v (assign x b cls) ↔ listHolds v cls := by
  unfold listHolds assign
  simp only [List.mem_map, List.mem_filter, forall_exists_index, and_imp]
  constructor
  · intro h c hc
    by_cases hs : (c.any (fun l => l.number == x && l.isNegated != b)) = true
    · rw [List.any_eq_true] at hs
      obtain ⟨l, hl, hs⟩ := hs
      simp at hs
      refine ⟨l, hl, ?_⟩
      unfold Literal.holds; rw [hs.1, hx]
      cases b <;> cases h' : l.isNegated <;> simp_all
    · obtain ⟨l, hl, hv⟩ := h _ c hc (by simp only [Bool.not_eq_true] at hs; rw [hs]; rfl) rfl
      exact ⟨l, (List.mem_filter.1 hl).1, hv⟩
  · rintro h _ c hc hs rfl
    obtain ⟨l, hl, hv⟩ := h c hc
    refine ⟨l, List.mem_filter.2 ⟨hl, ?_⟩, hv⟩
    simp only [Bool.not_eq_true', List.any_eq_false] at hs
    have := hs l hl
    unfold Literal.holds at hv
    by_cases e : l.number = x
    · exfalso
      apply this
      rw [e, hx] at hv
      simp [e]
      cases b <;> simp_all
    · simp [e]

def Below (n : Nat) (cls : List (List Literal)) : Prop := ∀ c ∈ cls, ∀ l ∈ c, 1 ≤ l.number ∧ l.number ≤ n

theorem below_assign {n : Nat} {cls : List (List Literal)} {b : Bool} (h : Below (n + 1) cls) :
    Below n (assign (n + 1) b cls) := by
  intro c hc l hl
  unfold assign at hc
  simp only [List.mem_map, List.mem_filter] at hc
  obtain ⟨d, ⟨hd, _⟩, rfl⟩ := hc
  rw [List.mem_filter] at hl
  have := h d hd l hl.1
  have h2 := hl.2
  simp at h2
  omega

theorem search_spec (n : Nat) (cls : List (List Literal)) (h : Below n cls) :
    match search n cls with
    | some t => (∀ x ∈ t, 1 ≤ x ∧ x ≤ n) ∧ ∀ v : Val, (∀ x, 1 ≤ x → x ≤ n → v x = decide (x ∈ t)) → listHolds v cls
    | none => ∀ v : Val, ¬ listHolds v cls := by
  induction n generalizing cls with
  | zero =>
    unfold search
    split
    · rename_i t ht
      split at ht
      · simp at ht; subst ht
        rename_i hc; simp at hc; subst hc
        exact ⟨by simp, fun v _ c hc => by simp at hc⟩
      · simp at ht
    · rename_i ht
      split at ht
      · simp at ht
      · rename_i hc
        intro v hv
        cases cls with
        | nil => simp at hc
        | cons c cs =>
          obtain ⟨l, hl, _⟩ := hv c (by simp)
          have := h c (by simp) l hl
          omega
  | succ n ih =>
    unfold search
    by_cases he : cls.any List.isEmpty = true
    · simp only [he, if_true]
      intro v hv
      rw [List.any_eq_true] at he
      obtain ⟨c, hc, he⟩ := he
      obtain ⟨l, hl, _⟩ := hv c hc
      simp at he; subst he; simp at hl
    · simp only [he, Bool.false_eq_true, if_false]
      have h1 := ih _ (below_assign (b := true) h)
      have h2 := ih _ (below_assign (b := false) h)
      cases hs : search n (assign (n + 1) true cls) with
      | some t =>
        rw [hs] at h1
        refine ⟨?_, ?_⟩
        · intro x hx
          rcases List.mem_cons.1 hx with rfl | hx
          · omega
          · have := h1.1 x hx; omega
        · intro v hv
          rw [← listHolds_assign (x := n + 1) (b := true) (by rw [hv _ (by omega) (by omega)]; simp)]
          apply h1.2
          intro x hx1 hx2
          rw [hv x hx1 (by omega)]
          simp only [List.mem_cons, decide_eq_decide]
          constructor
          · rintro (rfl | h)
            · omega
            · exact h
          · exact Or.inr
      | none =>
        rw [hs] at h1
        simp only
        cases hs2 : search n (assign (n + 1) false cls) with
        | some t =>
          rw [hs2] at h2
          refine ⟨?_, ?_⟩
          · intro x hx; have := h2.1 x hx; omega
          · intro v hv
            have hnt : n + 1 ∉ t := by intro hc; have := h2.1 _ hc; omega
            rw [← listHolds_assign (x := n + 1) (b := false) (by rw [hv _ (by omega) (by omega)]; simp [hnt])]
            apply h2.2
            intro x hx1 hx2
            exact hv x hx1 (by omega)
        | none =>
          rw [hs2] at h2
          intro v hv
          cases hb : v (n + 1) with
          | true => exact h1 v ((listHolds_assign hb cls).2 hv)
          | false => exact h2 v ((listHolds_assign hb cls).2 hv)

theorem getValue_toAssignment {n : Nat} {t : List Nat} {x : Nat} (h1 : 1 ≤ x) (h2 : x ≤ n) :
    (toAssignment n t).getValue x = some (decide (x ∈ t)) := by
  unfold Assignment.getValue toAssignment
  by_cases h : x ∈ t
  · simp [h]
  · simp [h]; omega

theorem listHolds_iff {v : Val} {f : CNF} : listHolds v (f.clauses.map Clause.lits) ↔ f.holds v := by
  simp [listHolds, CNF.holds, CNF.iter, Clause.holds, Clause.iter]

theorem solve_ok (f : CNF) (hg : ∀ c ∈ f.iter, ∀ l ∈ c.iter, 1 ≤ l.number) (hm : ∀ c ∈ f.iter, ∀ l ∈ c.iter, l.number ≤ f.getMaxVar) :
    AnswerOK f (solve f) := by
  have hb : Below f.maxVar (f.clauses.map Clause.lits) := by
    intro c hc l hl
    simp only [List.mem_map] at hc
    obtain ⟨d, hd, rfl⟩ := hc
    exact ⟨hg d hd l hl, hm d hd l hl⟩
  have := search_spec _ _ hb
  unfold solve
  cases hs : search f.maxVar (f.clauses.map Clause.lits) with
  | none =>
    rw [hs] at this
    intro v hv
    exact this v (listHolds_iff.2 hv)
  | some t =>
    rw [hs] at this
    refine ⟨⟨fun x => decide (x ∈ t), listHolds_iff.1 (this.2 _ (fun _ _ _ => rfl)), ?_⟩, ?_⟩
    · intro x b hx
      unfold Assignment.getValue toAssignment at hx
      by_cases h : x ∈ t
      · simp [h] at hx ⊢; exact hx
      · simp [h] at hx ⊢; exact hx.2
    · intro x h1 h2
      rw [getValue_toAssignment (n := f.maxVar) h1 h2]; rfl

/-- An environment meeting the contract: verified solver, no reordering. -/
def env : Env := ⟨fun _ f => .ok (solve f), fun _ l => l, fun _ l => l⟩

theorem env_ok_upTo (V : Nat) : env.OK V :=
  ⟨fun _ f hw hg => ⟨_, rfl, solve_ok f (fun c hc l hl => (hg c hc l hl).1) hw.le_max⟩, fun _ l => List.Perm.refl l, fun _ l => List.Perm.refl l⟩

theorem env_ok : env.OK := env_ok_upTo _

theorem env_correct : env.Correct := env_ok.correct

end Verif.Brute
