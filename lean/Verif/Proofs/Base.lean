import Verif.Base

/-! # Lemmas about sorting and duplicate-free lists -/

namespace Verif

variable {α : Type}

theorem insertBy_perm (le : α → α → Bool) (x : α) (l : List α) : (insertBy le x l).Perm (x :: l) := by
  induction l with
  | nil => exact List.Perm.refl _
  | cons y ys ih =>
    unfold insertBy
    split
    · exact List.Perm.refl _
    · exact (List.Perm.cons y ih).trans (List.Perm.swap x y ys)

theorem sortBy_perm (le : α → α → Bool) (l : List α) : (sortBy le l).Perm l := by
  induction l with
  | nil => exact List.Perm.refl _
  | cons x xs ih => exact (insertBy_perm le x _).trans (List.Perm.cons x ih)

theorem mem_sortBy {le : α → α → Bool} {l : List α} {a : α} : a ∈ sortBy le l ↔ a ∈ l :=
  (sortBy_perm le l).mem_iff

theorem length_sortBy {le : α → α → Bool} {l : List α} : (sortBy le l).length = l.length :=
  (sortBy_perm le l).length_eq

theorem insertBy_pairwise {le : α → α → Bool} (tot : ∀ a b, le a b = true ∨ le b a = true)
    (tr : ∀ a b c, le a b = true → le b c = true → le a c = true) (x : α) (l : List α)
    (h : l.Pairwise (fun a b => le a b = true)) : (insertBy le x l).Pairwise (fun a b => le a b = true) := by
  induction l with
  | nil => simp [insertBy]
  | cons y ys ih =>
    rw [List.pairwise_cons] at h
    unfold insertBy
    split
    · rename_i hxy
      rw [List.pairwise_cons, List.pairwise_cons]
      refine ⟨?_, h⟩
      intro z hz
      rcases List.mem_cons.1 hz with rfl | hz
      · exact hxy
      · exact tr _ _ _ hxy (h.1 z hz)
    · rename_i hxy
      rw [List.pairwise_cons]
      refine ⟨?_, ih h.2⟩
      intro z hz
      rcases List.mem_cons.1 ((insertBy_perm le x ys).mem_iff.1 hz) with rfl | hz
      · exact (tot z y).resolve_left hxy
      · exact h.1 z hz

theorem sortBy_pairwise {le : α → α → Bool} (tot : ∀ a b, le a b = true ∨ le b a = true)
    (tr : ∀ a b c, le a b = true → le b c = true → le a c = true) (l : List α) :
    (sortBy le l).Pairwise (fun a b => le a b = true) := by
  induction l with
  | nil => exact List.Pairwise.nil
  | cons x xs ih => exact insertBy_pairwise tot tr x _ ih

/-- Sorting by a total order depends only on the multiset. -/
theorem sortBy_eq_iff {le : α → α → Bool} (tot : ∀ a b, le a b = true ∨ le b a = true)
    (tr : ∀ a b c, le a b = true → le b c = true → le a c = true)
    (anti : ∀ a b, le a b = true → le b a = true → a = b) {l m : List α} :
    sortBy le l = sortBy le m ↔ l.Perm m := by
  constructor
  · intro h
    exact (sortBy_perm le l).symm.trans (h ▸ sortBy_perm le m)
  · intro h
    refine List.Perm.eq_of_pairwise (le := fun a b => le a b = true) ?_ (sortBy_pairwise tot tr l)
      (sortBy_pairwise tot tr m) ?_
    · intro a b _ _; exact anti a b
    · exact (sortBy_perm le l).trans (h.trans (sortBy_perm le m).symm)

/-- Sorting a sorted list changes nothing. -/
theorem sortBy_of_pairwise {le : α → α → Bool} (l : List α)
    (h : l.Pairwise (fun a b => le a b = true)) : sortBy le l = l := by
  induction l with
  | nil => rfl
  | cons x xs ih =>
    rw [List.pairwise_cons] at h
    unfold sortBy
    rw [ih h.2]
    cases xs with
    | nil => rfl
    | cons y ys => simp [insertBy, h.1 y (by simp)]

section set
variable [DecidableEq α]

theorem mem_setInsert {s : List α} {x y : α} : y ∈ setInsert s x ↔ y ∈ s ∨ y = x := by
  unfold setInsert
  split
  · rename_i h
    constructor
    · exact Or.inl
    · rintro (h' | rfl)
      · exact h'
      · exact h
  · simp

theorem nodup_setInsert {s : List α} {x : α} (h : s.Nodup) : (setInsert s x).Nodup := by
  unfold setInsert
  split
  · exact h
  · rename_i hx
    rw [List.nodup_append]
    refine ⟨h, by simp, ?_⟩
    intro a ha b hb
    simp at hb
    subst hb
    rintro rfl
    exact hx ha

theorem mem_foldl_setInsert {s t : List α} {y : α} : y ∈ t.foldl setInsert s ↔ y ∈ s ∨ y ∈ t := by
  induction t generalizing s with
  | nil => simp
  | cons x xs ih => rw [List.foldl_cons, ih, mem_setInsert, List.mem_cons, or_assoc]

theorem nodup_foldl_setInsert {s t : List α} (h : s.Nodup) : (t.foldl setInsert s).Nodup := by
  induction t generalizing s with
  | nil => exact h
  | cons x xs ih => exact ih (nodup_setInsert h)

end set

theorem xor_one (n : Nat) : n ^^^ 1 = if n % 2 = 0 then n + 1 else n - 1 := by
  have h1 : (n ^^^ 1) / 2 = n / 2 := by
    rw [Nat.xor_div_two]; simp
  have h2 : (n ^^^ 1) % 2 = (n + 1) % 2 := by
    have := Nat.xor_mod_two_eq_one (a := n) (b := 1)
    rcases Nat.mod_two_eq_zero_or_one n with h | h <;>
    rcases Nat.mod_two_eq_zero_or_one (n ^^^ 1) with h' | h' <;> omega
  split <;> omega

end Verif
