import Verif.Model.LongStrings

/-!
# C81: the comparison of long strings in the tests
-/

namespace Verif.Props

open Verif.LongStrings

/-- The loop finds the first difference. -/
theorem firstDifference_spec {a b : List Char} (h : a ≠ b) :
    (∀ i, i < firstDifference a b → a[i]? = b[i]?) ∧ a[firstDifference a b]? ≠ b[firstDifference a b]? ∧
      firstDifference a b ≤ a.length ∧ firstDifference a b ≤ b.length := by
  unfold firstDifference
  cases e : (List.range (min a.length b.length)).find? fun i => a[i]? != b[i]? with
  | some d =>
    obtain ⟨h1, h2, h3⟩ := List.find?_range_eq_some.1 e
    simp only [Option.getD_some]
    have hd := List.mem_range.1 h2
    refine ⟨fun i hi => ?_, by simpa using h1, by omega, by omega⟩
    have := h3 i hi
    simpa using this
  | none =>
    simp only [Option.getD_none]
    have hall : ∀ i, i < min a.length b.length → a[i]? = b[i]? := by
      intro i hi
      have := List.find?_eq_none.1 e i (List.mem_range.2 hi)
      simpa using this
    refine ⟨hall, fun he => h ?_, by omega, by omega⟩
    have hlen : a.length = b.length := by
      by_cases hlt : a.length < b.length
      · rw [Nat.min_eq_left (by omega), List.getElem?_eq_none (Nat.le_refl _), List.getElem?_eq_getElem hlt] at he
        cases he
      · by_cases hgt : b.length < a.length
        · rw [Nat.min_eq_right (by omega), List.getElem?_eq_none (l := b) (Nat.le_refl _), List.getElem?_eq_getElem hgt] at he
          cases he
        · omega
    apply List.ext_getElem?
    intro i
    by_cases hi : i < a.length
    · exact hall i (by omega)
    · rw [List.getElem?_eq_none (by omega), List.getElem?_eq_none (by omega)]

/-- The two excerpts differ where the strings do. -/
theorem excerpt_at (l : List Char) {d : Nat} (hd : 20 ≤ d) : ((l.take (min (d + 80) l.length)).drop (d - 20))[20]? = l[d]? := by
  rw [List.getElem?_drop, show d - 20 + 20 = d from by omega]
  by_cases h : d < l.length
  · rw [List.getElem?_take_of_lt (by omega)]
  · rw [List.getElem?_eq_none (by rw [List.length_take]; omega), List.getElem?_eq_none (by omega)]

/-- C81: equal strings pass; of different ones the message shows an excerpt around the first difference if that is at index 20 or later, and is about an
overflow or a slice otherwise. -/
theorem C81_exact (dbg : Bool) {a b : List Char} (ha : a.length < 2 ^ 63) :
    (a = b → assertEq dbg a b = .ok ()) ∧
    (a ≠ b → ∃ d, (∀ i, i < d → a[i]? = b[i]?) ∧ a[d]? ≠ b[d]? ∧ assertEq dbg a b = .error (.panic (
      if 20 ≤ d then "tests/common/mod.rs:66" else if dbg then "tests/common/mod.rs:58 overflow" else "tests/common/mod.rs:61 slice"))) := by
  constructor
  · rintro rfl
    simp [assertEq, assertR]
  · intro h
    obtain ⟨h1, h2, h3, h4⟩ := firstDifference_spec h
    refine ⟨firstDifference a b, h1, h2, ?_⟩
    unfold assertEq
    rw [if_neg h]
    generalize firstDifference a b = d at h1 h2 h3 h4
    by_cases hd : 20 ≤ d
    · have hne : (a.take (min (d + 80) a.length)).drop (d - 20) ≠ (b.take (min (d + 80) b.length)).drop (d - 20) := by
        intro e
        apply h2
        rw [← excerpt_at a hd, ← excerpt_at b hd, e]
      have c1 : d - 20 ≤ min (d + 80) a.length ∧ min (d + 80) a.length ≤ a.length := by omega
      have c2 : d - 20 ≤ min (d + 80) b.length ∧ min (d + 80) b.length ≤ b.length := by omega
      simp only [sub20, hd, if_true, slice, if_pos c1, if_pos c2, pure, Except.pure, bind, Except.bind]
      simp only [assertR, beq_iff_eq, if_neg hne]
      rfl
    · cases dbg with
      | true => simp [sub20, hd, panicR, bind, Except.bind]
      | false =>
        have c1 : ¬ (2 ^ 64 + d - 20 ≤ min (d + 80) a.length ∧ min (d + 80) a.length ≤ a.length) := by omega
        have e1 : sub20 false d = .ok (2 ^ 64 + d - 20) := by
          unfold sub20
          rw [if_neg hd]
          rfl
        have e2 : slice "tests/common/mod.rs:61 slice" a (2 ^ 64 + d - 20) (min (d + 80) a.length) = panicR "tests/common/mod.rs:61 slice" := if_neg c1
        rw [if_neg hd]
        show (sub20 false d >>= _) = _
        rw [e1]
        show (slice "tests/common/mod.rs:61 slice" a (2 ^ 64 + d - 20) (min (d + 80) a.length) >>= _) = _
        rw [e2]
        rfl

/-- C81: it passes exactly on equal strings, in both builds. -/
theorem C81_passes (dbg : Bool) {a b : List Char} (ha : a.length < 2 ^ 63) : assertEq dbg a b = .ok () ↔ a = b := by
  refine ⟨fun h => ?_, (C81_exact dbg ha).1⟩
  by_cases e : a = b
  · exact e
  · obtain ⟨d, _, _, h'⟩ := (C81_exact dbg (b := b) ha).2 e
    rw [h] at h'
    cases h'

/-! ## The hypotheses are met: a difference at index 24, one at index 3, and a proper prefix -/

example : "aag 3 1 1 0 1\n2\n4 6\n6 4 2\n".toList.length < 2 ^ 63 := by decide
example : assertEq true "aag 3 1 1 0 1\n2\n4 6\n6\n6 4 2\n".toList "aag 3 1 1 0 1\n2\n4 6\n6\n6 5 2\n".toList = .error (.panic "tests/common/mod.rs:66") := by
  decide +kernel
example : assertEq true "aag 3".toList "aig 3".toList = .error (.panic "tests/common/mod.rs:58 overflow") ∧
    assertEq false "aag 3".toList "aig 3".toList = .error (.panic "tests/common/mod.rs:61 slice") := by decide +kernel
example : assertEq true "aag 3 1 1 0 1\n2\n4 6\n6\n".toList "aag 3 1 1 0 1\n2\n4 6\n6\n6 5 2\n".toList = .error (.panic "tests/common/mod.rs:66") ∧
    assertEq true "aag 3".toList "aag 3".toList = .ok () := by
  decide +kernel

end Verif.Props
