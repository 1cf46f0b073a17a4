import Verif.Model.AigParse
import Verif.Spec.Aiger
import Verif.Proofs.Res
import Verif.Proofs.Dimacs

/-! # Splitting text, numerals, UTF-8 of ASCII text, delta codes -/

namespace Verif

open Aiger

/-! ### Lines -/

theorem splitNlAux_line (cur t rest : Text) (h : chNl ∉ t) :
    splitNlAux cur (t ++ chNl :: rest) = (cur ++ t) :: splitNl rest := by
  induction t generalizing cur with
  | nil => simp [splitNlAux, splitNl]
  | cons b bs ih =>
    have hb : b ≠ chNl := by rintro rfl; simp at h
    rw [List.cons_append, splitNlAux, if_neg hb, ih _ (by intro h'; exact h (List.mem_cons_of_mem _ h'))]
    simp

theorem splitNl_line (t rest : Text) (h : chNl ∉ t) : splitNl (t ++ chNl :: rest) = t :: splitNl rest := by
  have := splitNlAux_line [] t rest h
  simpa [splitNl] using this

theorem splitNlAux_last (cur t : Text) (h : chNl ∉ t) :
    splitNlAux cur t = if (cur ++ t).isEmpty then [] else [cur ++ t] := by
  induction t generalizing cur with
  | nil => simp [splitNlAux]
  | cons b bs ih =>
    have hb : b ≠ chNl := by rintro rfl; simp at h
    rw [splitNlAux, if_neg hb, ih _ (by intro h'; exact h (List.mem_cons_of_mem _ h'))]
    simp

theorem splitNl_unlines (ls : List Text) (rest : Text) (h : ∀ l ∈ ls, chNl ∉ l) :
    splitNl (unlines ls ++ rest) = ls ++ splitNl rest := by
  induction ls with
  | nil => simp [unlines]
  | cons l ls ih =>
    have : unlines (l :: ls) ++ rest = l ++ chNl :: (unlines ls ++ rest) := by simp [unlines, chNl]
    rw [this, splitNl_line _ _ (h l (by simp)), ih (fun l' hl' => h l' (by simp [hl'])), List.cons_append]

/-- Every text is a sequence of complete lines followed by a newline-free rest. -/
theorem exists_lines (t : Text) : ∃ ls last, t = unlines ls ++ last ∧ (∀ l ∈ ls, chNl ∉ l) ∧ chNl ∉ last := by
  induction t with
  | nil => exact ⟨[], [], by simp [unlines], by simp, by simp⟩
  | cons b bs ih =>
    obtain ⟨ls, last, h1, h2, h3⟩ := ih
    by_cases hb : b = chNl
    · refine ⟨[] :: ls, last, ?_, ?_, h3⟩
      · rw [h1, hb]; simp [unlines, chNl]
      · intro l hl
        rcases List.mem_cons.1 hl with rfl | hl
        · simp
        · exact h2 l hl
    · cases ls with
      | nil =>
        refine ⟨[], b :: last, by rw [h1]; simp [unlines], by simp, ?_⟩
        intro h
        rcases List.mem_cons.1 h with rfl | h
        · exact hb rfl
        · exact h3 h
      | cons l ls =>
        refine ⟨(b :: l) :: ls, last, by rw [h1]; simp [unlines], ?_, h3⟩
        intro l' hl'
        rcases List.mem_cons.1 hl' with rfl | hl'
        · intro h
          rcases List.mem_cons.1 h with rfl | h
          · exact hb rfl
          · exact h2 l (by simp) h
        · exact h2 l' (by simp [hl'])

theorem splitNl_last {t : Text} (h : chNl ∉ t) : splitNl t = if t.isEmpty then [] else [t] := by
  have := splitNlAux_last [] t h
  simpa [splitNl] using this

theorem unlines_append (a b : List Text) : unlines (a ++ b) = unlines a ++ unlines b := by
  induction a with
  | nil => simp [unlines]
  | cons x xs ih => simp [unlines, ih]

theorem skipLines_ok (bytes : Text) (k r p : Nat) : Aig.skipLines bytes k r = .ok p ↔
    ∃ ls rest, ls.length = k ∧ (∀ l ∈ ls, chNl ∉ l) ∧ bytes = unlines ls ++ rest ∧ p = r + (unlines ls).length := by
  induction bytes generalizing k r with
  | nil =>
    cases k with
    | zero =>
      simp only [Aig.skipLines, ok_ok]
      constructor
      · rintro rfl; exact ⟨[], [], rfl, by simp, by simp [unlines], by simp [unlines]⟩
      · rintro ⟨ls, rest, h0, _, _, rfl⟩; rw [List.length_eq_zero_iff.1 h0]; simp [unlines]
    | succ k =>
      simp only [Aig.skipLines, panicR_ok, false_iff]
      rintro ⟨ls, rest, h0, _, h2, _⟩
      cases ls with
      | nil => simp at h0
      | cons l ls => simp [unlines] at h2
  | cons b bs ih =>
    cases k with
    | zero =>
      simp only [Aig.skipLines, ok_ok]
      constructor
      · rintro rfl; exact ⟨[], b :: bs, rfl, by simp, by simp [unlines], by simp [unlines]⟩
      · rintro ⟨ls, rest, h0, _, _, rfl⟩; rw [List.length_eq_zero_iff.1 h0]; simp [unlines]
    | succ k =>
      rw [Aig.skipLines]
      split
      · rename_i hb
        rw [ih]
        constructor
        · rintro ⟨ls, rest, h0, h1, h2, h3⟩
          refine ⟨[] :: ls, rest, by simp [h0], ?_, ?_, ?_⟩
          · intro l hl
            rcases List.mem_cons.1 hl with rfl | hl
            · simp
            · exact h1 l hl
          · rw [h2, hb]; simp [unlines, chNl]
          · rw [h3]; simp [unlines]; omega
        · rintro ⟨ls, rest, h0, h1, h2, h3⟩
          cases ls with
          | nil => simp at h0
          | cons l ls =>
            cases l with
            | nil =>
              refine ⟨ls, rest, by simpa using h0, fun l hl => h1 l (by simp [hl]), ?_, ?_⟩
              · simp [unlines] at h2; exact h2.2
              · rw [h3]; simp [unlines]; omega
            | cons x l =>
              simp [unlines] at h2
              exact absurd (by rw [← h2.1, hb]; simp) (h1 (x :: l) (by simp))
      · rename_i hb
        rw [ih]
        constructor
        · rintro ⟨ls, rest, h0, h1, h2, h3⟩
          cases ls with
          | nil => simp at h0
          | cons l ls =>
            refine ⟨(b :: l) :: ls, rest, by simpa using h0, ?_, ?_, ?_⟩
            · intro l' hl'
              rcases List.mem_cons.1 hl' with rfl | hl'
              · intro h
                rcases List.mem_cons.1 h with h | h
                · exact hb h.symm
                · exact h1 l (by simp) h
              · exact h1 l' (by simp [hl'])
            · rw [h2]; simp [unlines]
            · rw [h3]; simp [unlines]; omega
        · rintro ⟨ls, rest, h0, h1, h2, h3⟩
          cases ls with
          | nil => simp at h0
          | cons l ls =>
            cases l with
            | nil => simp [unlines] at h2; exact absurd h2.1 hb
            | cons x l =>
              simp [unlines] at h2
              refine ⟨l :: ls, rest, by simpa using h0, ?_, ?_, ?_⟩
              · intro l' hl'
                rcases List.mem_cons.1 hl' with rfl | hl'
                · intro h; exact h1 (x :: l') (by simp) (by simp [h])
                · exact h1 l' (by simp [hl'])
              · rw [h2.2]; simp [unlines]
              · rw [h3]; simp [unlines]; omega

/-! ### Words -/

theorem splitSpaceAux_word (cur t rest : Text) (h : chSpace ∉ t) :
    splitSpaceAux cur (t ++ chSpace :: rest) = (cur ++ t) :: splitSpace rest := by
  induction t generalizing cur with
  | nil => simp [splitSpaceAux, splitSpace]
  | cons b bs ih =>
    have hb : b ≠ chSpace := by rintro rfl; simp at h
    rw [List.cons_append, splitSpaceAux, if_neg hb, ih _ (by intro h'; exact h (List.mem_cons_of_mem _ h'))]
    simp

theorem splitSpaceAux_last (cur t : Text) (h : chSpace ∉ t) : splitSpaceAux cur t = [cur ++ t] := by
  induction t generalizing cur with
  | nil => simp [splitSpaceAux]
  | cons b bs ih =>
    have hb : b ≠ chSpace := by rintro rfl; simp at h
    rw [splitSpaceAux, if_neg hb, ih _ (by intro h'; exact h (List.mem_cons_of_mem _ h'))]
    simp

theorem splitSpace_spaced (ts : List Text) (h0 : ts ≠ []) (h : ∀ t ∈ ts, chSpace ∉ t) : splitSpace (spaced ts) = ts := by
  induction ts with
  | nil => exact absurd rfl h0
  | cons t ts ih =>
    cases ts with
    | nil => have := splitSpaceAux_last [] t (h t (by simp)); simpa [spaced, splitSpace] using this
    | cons t' ts =>
      have e : spaced (t :: t' :: ts) = t ++ chSpace :: spaced (t' :: ts) := by simp [spaced, chSpace]
      rw [e]
      have := splitSpaceAux_word [] t (spaced (t' :: ts)) (h t (by simp))
      unfold splitSpace at *
      rw [this, List.nil_append]
      congr 1
      exact ih (by simp) (fun x hx => h x (List.mem_cons_of_mem _ hx))

theorem spaced_splitSpaceAux (cur t : Text) : spaced (splitSpaceAux cur t) = cur ++ t ∧ splitSpaceAux cur t ≠ [] := by
  induction t generalizing cur with
  | nil => simp [splitSpaceAux, spaced]
  | cons b bs ih =>
    rw [splitSpaceAux]
    split
    · rename_i hb
      obtain ⟨h1, h2⟩ := ih []
      refine ⟨?_, by simp⟩
      cases hs : splitSpaceAux [] bs with
      | nil => exact absurd hs h2
      | cons x xs => rw [hs] at h1; rw [spaced, h1, hb]; rfl; simp
    · obtain ⟨h1, h2⟩ := ih (cur ++ [b])
      exact ⟨by rw [h1]; simp, h2⟩

theorem spaced_splitSpace (t : Text) : spaced (splitSpace t) = t := by
  have := (spaced_splitSpaceAux [] t).1; simpa [splitSpace] using this

theorem splitSpace_ne_nil (t : Text) : splitSpace t ≠ [] := (spaced_splitSpaceAux [] t).2

theorem splitSpaceAux_no_space (cur t : Text) (h : chSpace ∉ cur) : ∀ w ∈ splitSpaceAux cur t, chSpace ∉ w := by
  induction t generalizing cur with
  | nil => simpa [splitSpaceAux] using h
  | cons b bs ih =>
    rw [splitSpaceAux]
    split
    · intro w hw
      rcases List.mem_cons.1 hw with rfl | hw
      · exact h
      · exact ih [] (by simp) w hw
    · rename_i hb
      refine ih _ ?_
      rw [List.mem_append]
      rintro (h' | h')
      · exact h h'
      · simp at h'; exact hb h'.symm

theorem splitSpace_no_space (t : Text) : ∀ w ∈ splitSpace t, chSpace ∉ w := splitSpaceAux_no_space [] t (by simp)

theorem mem_spaced {b : UInt8} {ts : List Text} (h : b ∈ spaced ts) : b = chSpace ∨ ∃ t ∈ ts, b ∈ t := by
  induction ts with
  | nil => simp [spaced] at h
  | cons t ts ih =>
    cases ts with
    | nil => right; exact ⟨t, by simp, h⟩
    | cons t' ts =>
      rw [spaced, List.mem_append, List.mem_cons] at h
      · rcases h with h | h | h
        · right; exact ⟨t, by simp, h⟩
        · left; exact h
        · rcases ih h with h | ⟨x, hx, h⟩
          · left; exact h
          · right; exact ⟨x, List.mem_cons_of_mem _ hx, h⟩
      · simp

/-! ### Numerals -/

theorem value_append (a b : Text) (n : Nat) :
    (a ++ b).foldl (fun n b => 10 * n + (b.toNat - 48)) n =
      b.foldl (fun n b => 10 * n + (b.toNat - 48)) (a.foldl (fun n b => 10 * n + (b.toNat - 48)) n) := List.foldl_append

theorem foldl_digits_ge (t : Text) (acc : Nat) : acc ≤ t.foldl (fun n b => 10 * n + (b.toNat - 48)) acc := by
  induction t generalizing acc with
  | nil => exact Nat.le_refl _
  | cons b bs ih =>
    have := ih (10 * acc + (b.toNat - 48))
    simp only [List.foldl_cons]; omega

theorem parseDigits_eq (t : Text) (acc n : Nat) : parseDigits acc t = some n ↔
    (∀ b ∈ t, IsDigit b) ∧ t.foldl (fun n b => 10 * n + (b.toNat - 48)) acc = n ∧ (t = [] ∨ n < usizeSize) := by
  induction t generalizing acc with
  | nil => simp [parseDigits]
  | cons b bs ih =>
    rw [parseDigits]
    split
    · rename_i hb
      rw [ih, List.foldl_cons]
      constructor
      · rintro ⟨h1, h2, h3⟩
        refine ⟨?_, h2, ?_⟩
        · intro b' hb'
          rcases List.mem_cons.1 hb' with rfl | hb'
          · exact ⟨hb.1, hb.2.1⟩
          · exact h1 b' hb'
        · right
          rcases h3 with h3 | h3
          · subst h3; simp at h2; omega
          · exact h3
      · rintro ⟨h1, h2, h3⟩
        refine ⟨fun b' hb' => h1 b' (List.mem_cons_of_mem _ hb'), h2, ?_⟩
        rcases h3 with h3 | h3
        · simp at h3
        · right; exact h3
    · rename_i hb
      simp only [reduceCtorEq, false_iff, List.foldl_cons]
      rintro ⟨h1, h2, h3⟩
      have hd := h1 b (by simp)
      have := foldl_digits_ge bs (10 * acc + (b.toNat - 48))
      rcases h3 with h3 | h3
      · simp at h3
      · exact hb ⟨hd.1, hd.2, by omega⟩

theorem parseDigits_digits (t : Text) (n : Nat) (h : t ≠ []) :
    parseDigits 0 t = some n ↔ n < usizeSize ∧ Digits t n := by
  rw [parseDigits_eq]
  unfold Digits value
  constructor
  · rintro ⟨h1, h2, h3⟩; exact ⟨h3.resolve_left h, h, h1, h2⟩
  · rintro ⟨h1, _, h2, h3⟩; exact ⟨h2, h3, Or.inr h1⟩

theorem digits_not_plus {t : Text} {n : Nat} (h : Digits (43 :: t) n) : False := by
  have := (h.2.1 43 (by simp)).1
  exact absurd this (by decide)

theorem parseUsize_some (t : Text) (n : Nat) : parseUsize t = some n ↔ Numeral t n := by
  have hs : usizeSize = 18446744073709551616 := rfl
  match t with
  | [] =>
    simp only [parseUsize, reduceCtorEq, false_iff]
    rintro ⟨_, ⟨h, _⟩ | ⟨t', h, _⟩⟩
    · exact h rfl
    · simp at h
  | [b] =>
    rw [parseUsize, parseDigits_digits _ _ (by simp), hs]
    constructor
    · rintro ⟨h1, h2⟩; exact ⟨h1, Or.inl h2⟩
    · rintro ⟨h1, h2 | ⟨t', h2, h3⟩⟩
      · exact ⟨h1, h2⟩
      · simp at h2; exact absurd h2.2 h3.1
  | b :: b' :: bs =>
    rw [parseUsize]
    · split
      · rename_i hb
        rw [parseDigits_digits _ _ (by simp), hs]
        constructor
        · rintro ⟨h1, h2⟩; exact ⟨h1, Or.inr ⟨_, by rw [hb], h2⟩⟩
        · rintro ⟨h1, h2 | ⟨t', h2, h3⟩⟩
          · rw [hb] at h2; exact absurd h2 digits_not_plus
          · simp only [List.cons.injEq] at h2; rw [h2.2]; exact ⟨h1, h3⟩
      · rename_i hb
        rw [parseDigits_digits _ _ (by simp), hs]
        constructor
        · rintro ⟨h1, h2⟩; exact ⟨h1, Or.inl h2⟩
        · rintro ⟨h1, h2 | ⟨t', h2, h3⟩⟩
          · exact ⟨h1, h2⟩
          · simp only [List.cons.injEq] at h2; exact absurd h2.1 hb
    · simp

theorem convert_ok (t : Text) (n : Nat) : convertStringToNumber t = .ok n ↔ Numeral t n := by
  unfold convertStringToNumber; rw [unwrapR_ok, parseUsize_some]

theorem Aiger.Numeral.unique {t : Text} {n m : Nat} (h1 : Numeral t n) (h2 : Numeral t m) : n = m := by
  rw [← parseUsize_some] at h1 h2; rw [h1] at h2; exact Option.some.inj h2

/-- Bytes of a numeral are digits or `+`: ASCII, neither space nor newline. -/
theorem Aiger.Numeral.byte {t : Text} {n : Nat} (h : Numeral t n) : ∀ b ∈ t, 43 ≤ b.toNat ∧ b.toNat ≤ 57 := by
  obtain ⟨_, hd | ⟨t', rfl, hd⟩⟩ := h
  · intro b hb; have := hd.2.1 b hb; unfold IsDigit at this; omega
  · intro b hb
    rcases List.mem_cons.1 hb with rfl | hb
    · decide
    · have := hd.2.1 b hb; unfold IsDigit at this; omega

theorem Aiger.Numeral.ne_nil {t : Text} {n : Nat} (h : Numeral t n) : t ≠ [] := by
  obtain ⟨_, hd | ⟨t', rfl, hd⟩⟩ := h
  · exact hd.1
  · simp

theorem Aiger.Numeral.no_space {t : Text} {n : Nat} (h : Numeral t n) : chSpace ∉ t := by
  intro hb; have := (h.byte _ hb).1; exact absurd this (by decide)

theorem Aiger.Numeral.no_nl {t : Text} {n : Nat} (h : Numeral t n) : chNl ∉ t := by
  intro hb; have := (h.byte _ hb).1; exact absurd this (by decide)

theorem Aiger.Numeral.ascii {t : Text} {n : Nat} (h : Numeral t n) : ∀ b ∈ t, b.toNat < 128 := by
  intro b hb; have := (h.byte _ hb).2; omega

theorem numeral_eq_decimal (n : Nat) : numeral n = decimal n := by
  induction n using Nat.strongRecOn with
  | ind n ih =>
    rw [numeral]
    split
    · rename_i h; rw [decimal_lt h]
    · rename_i h; rw [decimal_ge (by omega), ih _ (by omega)]

theorem numeral_numeral (n : Nat) (h : n < 18446744073709551616) : Numeral (numeral n) n := by
  rw [numeral_eq_decimal]
  obtain ⟨h1, h2, h3⟩ := decimal_spec n
  exact ⟨h, Or.inl ⟨h1, h2, h3⟩⟩

/-! ### UTF-8 -/

theorem utf8Valid_ascii_append (t rest : Text) (h : ∀ b ∈ t, b.toNat < 128) : utf8Valid (t ++ rest) = utf8Valid rest := by
  induction t with
  | nil => rfl
  | cons b bs ih =>
    rw [List.cons_append, utf8Valid.eq_def]
    simp only
    rw [if_pos (h b (by simp)), ih (fun b' hb' => h b' (List.mem_cons_of_mem _ hb'))]

theorem utf8Valid_ascii (t : Text) (h : ∀ b ∈ t, b.toNat < 128) : utf8Valid t = true := by
  have := utf8Valid_ascii_append t [] h
  simpa [utf8Valid] using this

theorem fromUtf8_ok {s : String} {t u : Text} : fromUtf8 s t = .ok u ↔ utf8Valid t = true ∧ u = t := by
  unfold fromUtf8
  rw [bind_ok]
  constructor
  · rintro ⟨_, h1, h2⟩; exact ⟨assertR_ok.1 h1, (pure_ok.1 h2).symm⟩
  · rintro ⟨h1, rfl⟩; exact ⟨(), assertR_ok.2 h1, rfl⟩

end Verif
