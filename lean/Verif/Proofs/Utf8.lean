import Verif.Model.AigParse
import Verif.Spec.Aiger

/-! # The byte validator accepts exactly the UTF-8 encodings of character strings -/

namespace Verif

open Aiger

theorem u8_toNat {n : Nat} (h : n < 256) : (UInt8.ofNat n).toNat = n := by
  rw [UInt8.toNat_ofNat']; omega

theorem u8_ext {a b : UInt8} (h : a.toNat = b.toNat) : a = b := UInt8.toNat_inj.1 h

theorem inRange_iff {lo hi : Nat} {b : UInt8} : inRange lo hi b = true ↔ lo ≤ b.toNat ∧ b.toNat ≤ hi := by
  unfold inRange; rw [decide_eq_true_eq]

theorem utf8Valid_char (c : Char) (rest : Text) : utf8Valid (String.utf8EncodeChar c ++ rest) = utf8Valid rest := by
  have hv : c.val.toNat.isValidChar := c.valid
  generalize hn : c.val.toNat = v at hv
  unfold String.utf8EncodeChar
  simp only [hn]
  unfold Nat.isValidChar at hv
  split
  · rename_i h
    rw [List.cons_append, List.nil_append, utf8Valid.eq_def]
    simp only
    rw [if_pos (by rw [u8_toNat (by omega)]; omega)]
  · rename_i h1
    split
    · rename_i h2
      have e0 := u8_toNat (n := v / 64 % 32 + 192) (by omega)
      have e1 := u8_toNat (n := v % 64 + 128) (by omega)
      rw [List.cons_append, List.cons_append, List.nil_append, utf8Valid.eq_def]
      simp only
      rw [if_neg (by omega), if_pos (inRange_iff.2 (by omega)), inRange_iff.2 (by omega), Bool.true_and]
    · rename_i h2
      split
      · rename_i h3
        have e0 := u8_toNat (n := v / 4096 % 16 + 224) (by omega)
        have e1 := u8_toNat (n := v / 64 % 64 + 128) (by omega)
        have e2 := u8_toNat (n := v % 64 + 128) (by omega)
        rw [List.cons_append, List.cons_append, List.cons_append, List.nil_append, utf8Valid.eq_def]
        simp only
        rw [if_neg (by omega), if_neg (by rw [inRange_iff]; omega), if_pos (inRange_iff.2 (by omega)),
          inRange_iff (b := UInt8.ofNat (v % 64 + 128)) |>.2 (by omega)]
        have hc : (if (UInt8.ofNat (v / 4096 % 16 + 224)).toNat = 0xE0 then inRange 0xA0 0xBF (UInt8.ofNat (v / 64 % 64 + 128))
               else if (UInt8.ofNat (v / 4096 % 16 + 224)).toNat = 0xED then inRange 0x80 0x9F (UInt8.ofNat (v / 64 % 64 + 128))
               else inRange 0x80 0xBF (UInt8.ofNat (v / 64 % 64 + 128))) = true := by
          split
          · rw [inRange_iff]; omega
          · split
            · rw [inRange_iff]; omega
            · rw [inRange_iff]; omega
        rw [hc]; rfl
      · rename_i h3
        have e0 := u8_toNat (n := v / 262144 % 8 + 240) (by omega)
        have e1 := u8_toNat (n := v / 4096 % 64 + 128) (by omega)
        have e2 := u8_toNat (n := v / 64 % 64 + 128) (by omega)
        have e3 := u8_toNat (n := v % 64 + 128) (by omega)
        rw [List.cons_append, List.cons_append, List.cons_append, List.cons_append, List.nil_append, utf8Valid.eq_def]
        simp only
        rw [if_neg (by omega), if_neg (by rw [inRange_iff]; omega), if_neg (by rw [inRange_iff]; omega),
          inRange_iff (b := UInt8.ofNat (v / 262144 % 8 + 240)) |>.2 (by omega),
          inRange_iff (b := UInt8.ofNat (v / 64 % 64 + 128)) |>.2 (by omega),
          inRange_iff (b := UInt8.ofNat (v % 64 + 128)) |>.2 (by omega)]
        have hc : (if (UInt8.ofNat (v / 262144 % 8 + 240)).toNat = 0xF0 then inRange 0x90 0xBF (UInt8.ofNat (v / 4096 % 64 + 128))
               else if (UInt8.ofNat (v / 262144 % 8 + 240)).toNat = 0xF4 then inRange 0x80 0x8F (UInt8.ofNat (v / 4096 % 64 + 128))
               else inRange 0x80 0xBF (UInt8.ofNat (v / 4096 % 64 + 128))) = true := by
          split
          · rw [inRange_iff]; omega
          · split
            · rw [inRange_iff]; omega
            · rw [inRange_iff]; omega
        rw [hc]; rfl

theorem charOf (n : Nat) (h : n.isValidChar) : ∃ c : Char, c.val.toNat = n :=
  ⟨Char.ofNatAux n h, by
    unfold Nat.isValidChar at h
    show (UInt32.ofNatLT n _).toNat = n
    rw [UInt32.toNat_ofNatLT]⟩

theorem utf8Valid_decompose (b0 : UInt8) (t : Text) (h : utf8Valid (b0 :: t) = true) :
    ∃ c rest, b0 :: t = String.utf8EncodeChar c ++ rest ∧ utf8Valid rest = true := by
  rw [utf8Valid.eq_def] at h
  simp only at h
  have l0 : b0.toNat < 256 := b0.toNat_lt
  split at h
  · rename_i h0
    obtain ⟨c, hc⟩ := charOf b0.toNat (by unfold Nat.isValidChar; omega)
    refine ⟨c, t, ?_, h⟩
    unfold String.utf8EncodeChar
    simp only [hc]
    rw [if_pos (by omega), List.cons_append, List.nil_append]
    congr 1
    exact u8_ext (by rw [u8_toNat l0])
  · rename_i h0
    cases t with
    | nil => simp at h
    | cons b1 t1 =>
      have l1 : b1.toNat < 256 := b1.toNat_lt
      simp only at h
      split at h
      · rename_i hr0
        rw [inRange_iff] at hr0
        rw [Bool.and_eq_true, inRange_iff] at h
        obtain ⟨hr1, h⟩ := h
        obtain ⟨c, hc⟩ := charOf ((b0.toNat - 192) * 64 + (b1.toNat - 128)) (by unfold Nat.isValidChar; omega)
        refine ⟨c, t1, ?_, h⟩
        unfold String.utf8EncodeChar
        simp only [hc]
        rw [if_neg (by omega), if_pos (by omega), List.cons_append, List.cons_append, List.nil_append]
        exact List.cons_eq_cons.2 ⟨u8_ext (by rw [u8_toNat (by omega)]; omega), List.cons_eq_cons.2 ⟨u8_ext (by rw [u8_toNat (by omega)]; omega), rfl⟩⟩
      · rename_i hr0
        rw [inRange_iff] at hr0
        cases t1 with
        | nil => simp at h
        | cons b2 t2 =>
          have l2 : b2.toNat < 256 := b2.toNat_lt
          simp only at h
          split at h
          · rename_i hr0'
            rw [inRange_iff] at hr0'
            rw [Bool.and_eq_true, Bool.and_eq_true, inRange_iff] at h
            obtain ⟨⟨hr1, hr2⟩, h⟩ := h
            have hr1' : 128 ≤ b1.toNat ∧ b1.toNat ≤ 191 ∧ (b0.toNat = 224 → 160 ≤ b1.toNat) ∧ (b0.toNat = 237 → b1.toNat ≤ 159) := by
              split at hr1
              · rw [inRange_iff] at hr1; omega
              · split at hr1
                · rw [inRange_iff] at hr1; omega
                · rw [inRange_iff] at hr1; omega
            obtain ⟨c, hc⟩ := charOf ((b0.toNat - 224) * 4096 + (b1.toNat - 128) * 64 + (b2.toNat - 128))
              (by unfold Nat.isValidChar; omega)
            refine ⟨c, t2, ?_, h⟩
            unfold String.utf8EncodeChar
            simp only [hc]
            rw [if_neg (by omega), if_neg (by omega), if_pos (by omega), List.cons_append, List.cons_append,
              List.cons_append, List.nil_append]
            exact List.cons_eq_cons.2 ⟨u8_ext (by rw [u8_toNat (by omega)]; omega), List.cons_eq_cons.2 ⟨u8_ext (by rw [u8_toNat (by omega)]; omega), List.cons_eq_cons.2 ⟨u8_ext (by rw [u8_toNat (by omega)]; omega), rfl⟩⟩⟩
          · rename_i hr0'
            rw [inRange_iff] at hr0'
            cases t2 with
            | nil => simp at h
            | cons b3 t3 =>
              have l3 : b3.toNat < 256 := b3.toNat_lt
              simp only at h
              rw [Bool.and_eq_true, Bool.and_eq_true, Bool.and_eq_true, Bool.and_eq_true, inRange_iff, inRange_iff, inRange_iff] at h
              obtain ⟨⟨⟨⟨hr, hr1⟩, hr2⟩, hr3⟩, h⟩ := h
              have hr1' : 128 ≤ b1.toNat ∧ b1.toNat ≤ 191 ∧ (b0.toNat = 240 → 144 ≤ b1.toNat) ∧ (b0.toNat = 244 → b1.toNat ≤ 143) := by
                split at hr1
                · rw [inRange_iff] at hr1; omega
                · split at hr1
                  · rw [inRange_iff] at hr1; omega
                  · rw [inRange_iff] at hr1; omega
              obtain ⟨c, hc⟩ := charOf ((b0.toNat - 240) * 262144 + (b1.toNat - 128) * 4096 + (b2.toNat - 128) * 64 + (b3.toNat - 128))
                (by unfold Nat.isValidChar; omega)
              refine ⟨c, t3, ?_, h⟩
              unfold String.utf8EncodeChar
              simp only [hc]
              rw [if_neg (by omega), if_neg (by omega), if_neg (by omega), List.cons_append, List.cons_append,
                List.cons_append, List.cons_append, List.nil_append]
              exact List.cons_eq_cons.2 ⟨u8_ext (by rw [u8_toNat (by omega)]; omega), List.cons_eq_cons.2 ⟨u8_ext (by rw [u8_toNat (by omega)]; omega), List.cons_eq_cons.2 ⟨u8_ext (by rw [u8_toNat (by omega)]; omega), List.cons_eq_cons.2 ⟨u8_ext (by rw [u8_toNat (by omega)]; omega), rfl⟩⟩⟩⟩

theorem utf8EncodeChar_length (c : Char) : 1 ≤ (String.utf8EncodeChar c).length := by
  unfold String.utf8EncodeChar
  simp only
  split
  · simp
  · split
    · simp
    · split <;> simp

/-- Only the newline character is encoded by bytes ending in a newline. -/
theorem utf8EncodeChar_last_nl (c : Char) (h : (String.utf8EncodeChar c).getLast? = some 10) : String.utf8EncodeChar c = [10] := by
  have hx : ∀ v : Nat, (UInt8.ofNat (v % 64 + 128)) ≠ 10 := by
    intro v hv
    have := congrArg UInt8.toNat hv
    rw [u8_toNat (by omega)] at this
    have h10 : (10 : UInt8).toNat = 10 := rfl
    omega
  unfold String.utf8EncodeChar at h ⊢
  simp only at h ⊢
  split at h
  · rename_i h1
    rw [if_pos h1]
    exact congrArg (fun b => [b]) (Option.some.inj h)
  · split at h
    · exact absurd (Option.some.inj h) (hx _)
    · split at h
      · exact absurd (Option.some.inj h) (hx _)
      · exact absurd (Option.some.inj h) (hx _)

theorem utf8Valid_iff (t : Text) : utf8Valid t = true ↔ Utf8 t := by
  constructor
  · intro h
    suffices H : ∀ n (t : Text), t.length ≤ n → utf8Valid t = true → Utf8 t from H _ t (Nat.le_refl _) h
    intro n
    induction n with
    | zero =>
      intro t hl _
      have : t = [] := List.length_eq_zero_iff.1 (by omega)
      exact ⟨[], by rw [this]; rfl⟩
    | succ n ih =>
      intro t hl h
      cases t with
      | nil => exact ⟨[], rfl⟩
      | cons b t =>
        obtain ⟨c, rest, e, hr⟩ := utf8Valid_decompose b t h
        have := congrArg List.length e
        rw [List.length_append] at this
        have hc := utf8EncodeChar_length c
        obtain ⟨cs, rfl⟩ := ih rest (by omega) hr
        exact ⟨c :: cs, by rw [e]; rfl⟩
  · rintro ⟨cs, rfl⟩
    induction cs with
    | nil => rfl
    | cons c cs ih => rw [List.flatMap_cons, utf8Valid_char]; exact ih

end Verif
