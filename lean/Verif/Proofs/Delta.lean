import Verif.Proofs.Text

/-! # Delta codes -/

namespace Verif

open Aiger

theorem and_0x80 (b : UInt8) : b.toNat &&& 0x80 ≠ 0 ↔ 128 ≤ b.toNat := by
  have h : b.toNat < 256 := b.toNat_lt
  have key : ∀ n : Fin 256, (n.val &&& 0x80 ≠ 0 ↔ 128 ≤ n.val) := by decide +kernel
  exact key ⟨b.toNat, h⟩

theorem and_0x7f (n : Nat) : n &&& 0x7f = n % 128 := Nat.and_two_pow_sub_one_eq_mod n 7

theorem or_shift (d x k : Nat) (h : d < 2 ^ k) : d ||| (x <<< k) = d + x * 2 ^ k := by
  rw [Nat.or_comm, ← Nat.shiftLeft_add_eq_or_of_lt h, Nat.shiftLeft_eq]; omega

/-- The decoding loop in the middle of a number: `delta` holds the low `7 * i` bits. -/
theorem readDeltaLoop_ok (bytes : Text) (i delta r n p : Nat) (hd : delta < 2 ^ (7 * i)) (hi : i ≤ 5) :
    Aig.readDeltaLoop bytes i delta r = .ok (n, p) ↔
      ∃ code m rest, bytes = code ++ rest ∧ Code code m ∧ i + code.length ≤ 6 ∧ n = delta + m * 2 ^ (7 * i) ∧
        n < 2 ^ 38 ∧ p = r + code.length := by
  induction bytes generalizing i delta r with
  | nil =>
    simp only [Aig.readDeltaLoop, panicR_ok, false_iff]
    rintro ⟨code, m, rest, h1, h2, _⟩
    have : code = [] := by
      cases code with
      | nil => rfl
      | cons b bs => simp at h1
    subst this
    cases h2
  | cons ch bs ih =>
    have hch : ch.toNat < 256 := ch.toNat_lt
    rw [Aig.readDeltaLoop]
    split
    · rename_i hb
      rw [and_0x80] at hb
      rw [bind_ok]
      constructor
      · rintro ⟨_, h1, h2⟩
        rw [assertR_ok] at h1
        have hi5 : i ≠ 5 := by simpa using h1
        rw [and_0x7f, or_shift _ _ _ hd] at h2
        have e : 2 ^ (7 * (i + 1)) = 128 * 2 ^ (7 * i) := by rw [Nat.mul_add, Nat.pow_add]; omega
        have hd' : delta + ch.toNat % 128 * 2 ^ (7 * i) < 2 ^ (7 * (i + 1)) := by
          rw [e]
          have : ch.toNat % 128 * 2 ^ (7 * i) ≤ 127 * 2 ^ (7 * i) := Nat.mul_le_mul_right _ (by omega)
          omega
        obtain ⟨code, m, rest, g1, g2, g3, g4, g5, g6⟩ := (ih (i + 1) _ _ hd' (by omega)).1 h2
        refine ⟨ch :: code, _, rest, by rw [g1]; rfl, Code.more hb g2, by simp; omega, ?_, g5, by simp; omega⟩
        rw [g4, e]
        have : ch.toNat % 128 = ch.toNat - 128 := by omega
        rw [this, Nat.add_mul, Nat.add_assoc, Nat.mul_comm 128 m, Nat.mul_assoc]
      · rintro ⟨code, m, rest, g1, g2, g3, g4, g5, g6⟩
        cases g2 with
        | last h => simp at g1; rw [g1.1] at hb; omega
        | @more b bs' m' hb' hc =>
          simp only [List.cons_append, List.cons.injEq] at g1
          obtain ⟨rfl, g1⟩ := g1
          have hl : 1 ≤ bs'.length := by cases hc <;> simp
          simp only [List.length_cons] at g3 g6
          have hi5 : i ≠ 5 := by omega
          refine ⟨(), assertR_ok.2 (by simpa using hi5), ?_⟩
          rw [and_0x7f, or_shift _ _ _ hd]
          have e : 2 ^ (7 * (i + 1)) = 128 * 2 ^ (7 * i) := by rw [Nat.mul_add, Nat.pow_add]; omega
          have hd' : delta + ch.toNat % 128 * 2 ^ (7 * i) < 2 ^ (7 * (i + 1)) := by
            rw [e]
            have : ch.toNat % 128 * 2 ^ (7 * i) ≤ 127 * 2 ^ (7 * i) := Nat.mul_le_mul_right _ (by omega)
            omega
          rw [ih (i + 1) _ _ hd' (by omega)]
          refine ⟨bs', m', rest, g1, hc, by omega, ?_, g5, by omega⟩
          rw [g4, e]
          have : ch.toNat % 128 = ch.toNat - 128 := by omega
          rw [this, Nat.add_mul, Nat.add_assoc, Nat.mul_comm 128 m', Nat.mul_assoc]
    · rename_i hb
      rw [and_0x80] at hb
      rw [bind_ok]
      have hP : 2 ^ (7 * 5) * 8 = 2 ^ 38 := by decide
      have mono : i < 5 → 2 ^ (7 * i) * 128 ≤ 2 ^ 35 := by
        intro h
        have : 2 ^ (7 * i) * 128 = 2 ^ (7 * i + 7) := by rw [Nat.pow_add]
        rw [this]
        exact Nat.pow_le_pow_right (by decide) (by omega)
      constructor
      · rintro ⟨_, h1, h2⟩
        rw [assertR_ok] at h1
        rw [pure_ok, or_shift _ _ _ hd, Prod.mk.injEq] at h2
        obtain ⟨h2, h3⟩ := h2
        refine ⟨[ch], ch.toNat, bs, rfl, Code.last (by omega), by simp; omega, h2.symm, ?_, by simp; omega⟩
        by_cases h5 : i = 5
        · subst h5
          have : ch.toNat < 8 := by simpa using h1
          rw [← h2, ← hP]
          have : ch.toNat * 2 ^ (7 * 5) ≤ 7 * 2 ^ (7 * 5) := Nat.mul_le_mul_right _ (by omega)
          omega
        · have h1 := mono (by omega)
          have h2' : ch.toNat * 2 ^ (7 * i) ≤ 127 * 2 ^ (7 * i) := Nat.mul_le_mul_right _ (by omega)
          have : (2 : Nat) ^ 35 ≤ 2 ^ 38 := by decide
          omega
      · rintro ⟨code, m, rest, g1, g2, g3, g4, g5, g6⟩
        cases g2 with
        | @last b h =>
          simp at g1
          obtain ⟨rfl, rfl⟩ := g1
          refine ⟨(), assertR_ok.2 ?_, ?_⟩
          · by_cases h5 : i = 5
            · subst h5
              have h8 : ch.toNat < 8 := by
                rcases Nat.lt_or_ge ch.toNat 8 with h | h
                · exact h
                · have : 8 * 2 ^ (7 * 5) ≤ ch.toNat * 2 ^ (7 * 5) := Nat.mul_le_mul_right _ h
                  omega
              simp [h8]
            · simp [h5]
          · rw [pure_ok, or_shift _ _ _ hd, g4, g6]; simp
        | @more b bs' m' hb' hc =>
          simp at g1; rw [g1.1] at hb; omega

/-- The decoder against the code specification. -/
theorem readDelta_ok (bytes : Text) (r n p : Nat) : Aig.readDelta bytes r = .ok (n, p) ↔
    ∃ code rest, bytes.drop r = code ++ rest ∧ Delta code n ∧ p = r + code.length := by
  unfold Aig.readDelta
  rw [readDeltaLoop_ok _ 0 0 r n p (by decide) (by omega)]
  constructor
  · rintro ⟨code, m, rest, h1, h2, h3, h4, h5, h6⟩
    have : m = n := by simpa using h4.symm
    subst this
    exact ⟨code, rest, h1, ⟨h2, by omega, h5⟩, h6⟩
  · rintro ⟨code, rest, h1, ⟨h2, h3, h4⟩, h5⟩
    exact ⟨code, n, rest, h1, h2, by omega, by simp, h4, h5⟩

theorem code_encodeDelta (n : Nat) : Code (encodeDelta n) n := by
  induction n using Nat.strongRecOn with
  | ind n ih =>
    rw [encodeDelta]
    split
    · rename_i h
      have : (UInt8.ofNat n).toNat = n := by rw [UInt8.toNat_ofNat']; omega
      have h' := Code.last (b := UInt8.ofNat n) (by omega)
      rwa [this] at h'
    · rename_i h
      have : (UInt8.ofNat (128 + n % 128)).toNat = 128 + n % 128 := by rw [UInt8.toNat_ofNat']; omega
      have h' := Code.more (b := UInt8.ofNat (128 + n % 128)) (by omega) (ih (n / 128) (by omega))
      rw [this] at h'
      have e : 128 + n % 128 - 128 + 128 * (n / 128) = n := by omega
      rwa [e] at h'

theorem length_encodeDelta (n k : Nat) (h : n < 128 ^ (k + 1)) : (encodeDelta n).length ≤ k + 1 := by
  induction k generalizing n with
  | zero => rw [encodeDelta, if_pos (by simpa using h)]; simp
  | succ k ih =>
    rw [encodeDelta]
    split
    · simp
    · have := ih (n / 128) (by rw [Nat.div_lt_iff_lt_mul (by decide)]; rw [Nat.pow_succ] at h; omega)
      simp; omega

theorem delta_encodeDelta (n : Nat) (h : n < 274877906944) : Delta (encodeDelta n) n :=
  ⟨code_encodeDelta n, length_encodeDelta n 5 (by omega), h⟩

theorem Aiger.Code.ne_nil {bs : List UInt8} {n : Nat} (h : Code bs n) : 1 ≤ bs.length := by cases h <;> simp

/-- A code is self-delimiting. -/
theorem Aiger.Code.unique {a a' : List UInt8} {n n' : Nat} {r r' : List UInt8} (h : Code a n) (h' : Code a' n')
    (e : a ++ r = a' ++ r') : a = a' ∧ n = n' ∧ r = r' := by
  induction h generalizing a' n' with
  | last hb =>
    cases h' with
    | last hb' => simp at e; obtain ⟨rfl, rfl⟩ := e; exact ⟨rfl, rfl, rfl⟩
    | more hb' hc' => simp at e; rw [e.1] at hb; omega
  | more hb hc ih =>
    cases h' with
    | last hb' => simp at e; rw [e.1] at hb; omega
    | more hb' hc' =>
      simp only [List.cons_append, List.cons.injEq] at e
      obtain ⟨rfl, h1, h2⟩ := And.imp_right (ih hc') e
      subst h1
      obtain ⟨rfl, rfl⟩ := h2
      exact ⟨rfl, rfl, rfl⟩

end Verif
