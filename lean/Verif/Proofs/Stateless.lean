import Verif.Spec.SolverContract
import Verif.Spec.Dimacs
import Verif.Proofs.FormulaLogic

/-! # Stateless front-ends -/

namespace Verif

theorem mapM_ok {α β : Type} {g : α → Res β} {h : α → β} (l : List α) (hg : ∀ a ∈ l, g a = .ok (h a)) :
    l.mapM g = .ok (l.map h) := by
  induction l with
  | nil => rfl
  | cons a l ih =>
    rw [List.mapM_cons, hg a (by simp), ih (fun b hb => hg b (by simp [hb]))]; rfl

theorem toI32_ok {site : String} {n : Nat} (h : n < 2147483648) : toI32 site n = .ok (n : Int) := by simp [toI32, h]

open Dimacs (intOf)

theorem signedLit_ok {site : String} {l : Literal} (h : l.number < 2147483648) : signedLit site l = .ok (intOf l) := by
  unfold signedLit
  rw [toI32_ok h]; rfl

theorem convertCnf_ok {site : String} {f : CNF} (h : f.Good) :
    convertCnf site f = .ok (f.iter.map (fun c => c.iter.map intOf)) := by
  apply mapM_ok
  intro c hc
  apply mapM_ok
  intro l hl
  exact signedLit_ok (Nat.lt_succ_of_le (h c hc l hl).2)

theorem intHolds_intOf {v : Val} {l : Literal} (h : l.Good) : intHolds v (intOf l) ↔ l.holds v := by
  have h1 := h.1
  unfold intHolds Literal.holds intOf
  cases hn : l.isNegated
  · simp only [Bool.false_eq_true, if_false, Int.natAbs_natCast]
    have : decide (0 < (l.number : Int)) = !false := by simp; omega
    rw [this]
  · simp only [if_true, Int.natAbs_neg, Int.natAbs_natCast]
    have : decide (0 < -(l.number : Int)) = !true := by simp
    rw [this]

theorem intClausesHold_iff {v : Val} {f : CNF} (h : f.Good) :
    intClausesHold v (f.iter.map (fun c => c.iter.map intOf)) ↔ f.holds v := by
  unfold intClausesHold CNF.holds Clause.holds
  constructor
  · intro hh c hc
    obtain ⟨x, hx, hv⟩ := hh _ (List.mem_map.2 ⟨c, hc, rfl⟩)
    obtain ⟨l, hl, rfl⟩ := List.mem_map.1 hx
    exact ⟨l, hl, (intHolds_intOf (h c hc l hl)).1 hv⟩
  · intro hh d hd
    obtain ⟨c, hc, rfl⟩ := List.mem_map.1 hd
    obtain ⟨l, hl, hv⟩ := hh c hc
    exact ⟨_, List.mem_map.2 ⟨l, hl, rfl⟩, (intHolds_intOf (h c hc l hl)).2 hv⟩

theorem inI32_convert {f : CNF} (h : f.Good) : InI32 (f.iter.map (fun c => c.iter.map intOf)) := by
  intro d hd x hx
  obtain ⟨c, hc, rfl⟩ := List.mem_map.1 hd
  obtain ⟨l, hl, rfl⟩ := List.mem_map.1 hx
  have h1 := (h c hc l hl).1
  have h2 := (h c hc l hl).2
  unfold intOf; split <;> omega

theorem natAbs_intOf (l : Literal) : (intOf l).natAbs = l.number := by unfold intOf; split <;> omega

/-- Values read back from a list of signed variables of one valuation. -/
theorem fromDimacs_agrees (dbg : Bool) {v : Val} {m : List Int} (h : ∀ x ∈ m, x ≠ 0 ∧ -2 ^ 31 < x ∧ intHolds v x) :
    ∃ a, Assignment.fromDimacs dbg m = .ok a ∧ a.Agrees v ∧
      ∀ n : Nat, 1 ≤ n → ((n : Int) ∈ m ∨ -(n : Int) ∈ m) → (a.getValue n).isSome := by
  obtain ⟨a, ha, hv⟩ := fromDimacs_ok dbg m (fun x hx => by have := (h x hx).2.1; omega) (fun _ x hx => (h x hx).1)
  refine ⟨a, ha, ?_, ?_⟩
  · intro n b hb
    rw [hv] at hb
    by_cases h1 : (n : Int) ∈ m
    · simp [h1] at hb; subst hb
      have := h _ h1
      have h2 := this.2.2
      unfold intHolds at h2
      simp only [Int.natAbs_natCast] at h2
      rw [h2]; simp; omega
    · by_cases h2 : n ≠ 0 ∧ -(n : Int) ∈ m
      · simp [h1, h2] at hb; subst hb
        have h3 := (h _ h2.2).2.2
        unfold intHolds at h3
        simp only [Int.natAbs_neg, Int.natAbs_natCast] at h3
        rw [h3]; simp
      · simp [h1] at hb
        exact absurd ⟨hb.1.1, hb.1.2⟩ h2
  · intro n h1 h2
    rw [hv]
    by_cases h3 : (n : Int) ∈ m
    · simp [h3]
    · have h4 := h2.resolve_left h3
      simp [h3, h4]; omega

end Verif
