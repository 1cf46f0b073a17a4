import Verif.Spec.Dimacs
import Verif.Proofs.Formula

/-! # Decimal printing and the DIMACS reader -/

namespace Verif

theorem decimalAux_acc (fuel n : Nat) (acc : Text) : decimalAux fuel n acc = decimalAux fuel n [] ++ acc := by
  induction fuel generalizing n acc with
  | zero => simp [decimalAux]
  | succ fuel ih =>
    unfold decimalAux
    split
    · simp
    · rw [ih _ (_ :: acc), ih _ [_]]; simp

theorem decimalAux_fuel (fuel fuel' n : Nat) (h : n < fuel) (h' : n < fuel') :
    decimalAux fuel n [] = decimalAux fuel' n [] := by
  induction fuel generalizing n fuel' with
  | zero => omega
  | succ fuel ih =>
    cases fuel' with
    | zero => omega
    | succ fuel' =>
      unfold decimalAux
      split
      · rfl
      · rw [decimalAux_acc, decimalAux_acc fuel', ih fuel' (n / 10) (by omega) (by omega)]

theorem decimal_lt {n : Nat} (h : n < 10) : decimal n = [UInt8.ofNat (48 + n)] := by
  simp [decimal, decimalAux, h]

theorem decimal_ge {n : Nat} (h : 10 ≤ n) : decimal n = decimal (n / 10) ++ [UInt8.ofNat (48 + n % 10)] := by
  unfold decimal
  rw [decimalAux, if_neg (by omega), decimalAux_acc, decimalAux_fuel n (n / 10 + 1) (n / 10) (by omega) (by omega)]

theorem digit_toNat {d : Nat} (h : d < 10) : (UInt8.ofNat (48 + d)).toNat = 48 + d := by
  rw [UInt8.toNat_ofNat']; omega

theorem decimal_spec (n : Nat) :
    decimal n ≠ [] ∧ (∀ c ∈ decimal n, 48 ≤ c.toNat ∧ c.toNat ≤ 57) ∧ Dimacs.digitsVal (decimal n) = n := by
  induction n using Nat.strongRecOn with
  | ind n ih =>
    rcases Nat.lt_or_ge n 10 with h | h
    · rw [decimal_lt h]
      refine ⟨by simp, ?_, ?_⟩
      · intro c hc; simp only [List.mem_singleton] at hc; subst hc; rw [digit_toNat h]; omega
      · simp only [Dimacs.digitsVal, List.foldl_cons, List.foldl_nil, digit_toNat h]; omega
    · rw [decimal_ge h]
      obtain ⟨h1, h2, h3⟩ := ih (n / 10) (by omega)
      have hd : n % 10 < 10 := Nat.mod_lt _ (by omega)
      refine ⟨by simp, ?_, ?_⟩
      · intro c hc
        rcases List.mem_append.1 hc with hc | hc
        · exact h2 c hc
        · simp only [List.mem_singleton] at hc; subst hc; rw [digit_toNat hd]; omega
      · unfold Dimacs.digitsVal at h3 ⊢
        rw [List.foldl_append, h3]
        simp only [List.foldl_cons, List.foldl_nil, digit_toNat hd]; omega

theorem decimal_digits {n : Nat} {c : UInt8} (h : c ∈ decimal n) : 48 ≤ c.toNat ∧ c.toNat ≤ 57 := (decimal_spec n).2.1 c h

theorem decimal_inj {a b : Nat} (h : decimal a = decimal b) : a = b := by
  rw [← (decimal_spec a).2.2, h, (decimal_spec b).2.2]

namespace Dimacs

theorem readNat_decimal (n : Nat) : readNat (decimal n) = some n := by
  obtain ⟨h1, h2, h3⟩ := decimal_spec n
  have : (decimal n).all isDigit = true := by
    rw [List.all_eq_true]; intro c hc; simp [isDigit, h2 c hc]
  simp [readNat, h1, this, h3]

theorem isWs_digit {c : UInt8} (h : 48 ≤ c.toNat) : isWs c = false := by
  unfold isWs
  have h1 : c ≠ 32 := by rintro rfl; simp at h
  have h2 : c ≠ 10 := by rintro rfl; simp at h
  simp [h1, h2]

/-- Text without white space. -/
def Solid (t : Text) : Prop := t ≠ [] ∧ ∀ c ∈ t, isWs c = false

theorem solid_decimal (n : Nat) : Solid (decimal n) :=
  ⟨(decimal_spec n).1, fun _ hc => isWs_digit (decimal_digits hc).1⟩

theorem solid_display (l : Literal) : Solid l.display := by
  unfold Literal.display
  split
  · refine ⟨by simp, ?_⟩
    intro c hc
    rcases List.mem_cons.1 hc with rfl | hc
    · decide
    · exact (solid_decimal _).2 c hc
  · exact solid_decimal _

theorem tokAux_append {t : Text} (h : ∀ c ∈ t, isWs c = false) (cur rest : Text) :
    tokAux cur (t ++ rest) = tokAux (cur ++ t) rest := by
  induction t generalizing cur with
  | nil => simp
  | cons c t ih =>
    rw [List.cons_append, tokAux, h c (by simp)]
    simp only [Bool.false_eq_true, if_false]
    rw [ih (fun d hd => h d (by simp [hd]))]; simp

theorem tokens_cons {t : Text} (h : Solid t) {w : UInt8} (hw : isWs w = true) (rest : Text) :
    tokens (t ++ w :: rest) = t :: tokens rest := by
  unfold tokens
  rw [tokAux_append h.2, tokAux, hw]
  simp [h.1]

theorem tokens_ws {w : UInt8} (hw : isWs w = true) (rest : Text) : tokens (w :: rest) = tokens rest := by
  simp [tokens, tokAux, hw]

theorem tokens_last {t : Text} (h : Solid t) : tokens t = [t] := by
  have := tokAux_append h.2 [] []
  simp at this
  simp [tokens, this, tokAux, h.1]

theorem readInt_decimal (n : Nat) : readInt (decimal n) = some (n : Int) := by
  have hs := decimal_spec n
  have hr := readNat_decimal n
  cases hd : decimal n with
  | nil => exact absurd hd hs.1
  | cons c cs =>
    rw [hd] at hr
    have hc := decimal_digits (n := n) (c := c) (by rw [hd]; simp)
    have : c ≠ 45 := by rintro rfl; simp at hc
    simp [readInt, this, hr]

theorem readInt_display (l : Literal) : readInt l.display = some (intOf l) := by
  unfold Literal.display intOf
  split
  · simp [readInt, chMinus, readNat_decimal]
  · exact readInt_decimal _

theorem tokens_clause (ls : List Literal) (rest : Text) (hrest : rest = [] ∨ ∃ w r, isWs w = true ∧ rest = w :: r) :
    tokens (joinText [chSpace] (ls.map Literal.display) ++ [chSpace, chZero] ++ rest)
      = ls.map Literal.display ++ [[chZero]] ++ tokens rest := by
  have hz : Solid [chZero] := ⟨by simp, by decide⟩
  have htail : ∀ t : Text, Solid t → tokens (t ++ rest) = t :: tokens rest := by
    intro t ht
    rcases hrest with rfl | ⟨w, r, hw, rfl⟩
    · simpa [tokens, tokAux] using tokens_last ht
    · rw [tokens_cons ht hw, tokens_ws hw]
  induction ls with
  | nil =>
    simp only [List.map_nil, joinText, List.nil_append, List.cons_append]
    rw [tokens_ws (by decide)]
    exact htail _ hz
  | cons l ls ih =>
    cases ls with
    | nil =>
      simp only [List.map_cons, List.map_nil, joinText, List.append_assoc, List.cons_append, List.nil_append]
      rw [tokens_cons (solid_display l) (by decide), ← htail _ hz]
      rfl
    | cons m ls =>
      simp only [List.map_cons, joinText, List.append_assoc, List.cons_append, List.nil_append] at ih ⊢
      rw [tokens_cons (solid_display l) (by decide), ih]

theorem readClauses_clause (ls : List Literal) (cur : List Int) (rest : List Text) (h : ∀ l ∈ ls, l.number ≠ 0) :
    readClauses cur (ls.map Literal.display ++ [[chZero]] ++ rest)
      = (readClauses [] rest).map (fun r => (cur ++ ls.map intOf) :: r) := by
  induction ls generalizing cur with
  | nil =>
    have : readInt [chZero] = some 0 := by decide
    simp [readClauses, this]
  | cons l ls ih =>
    have hl : intOf l ≠ 0 := by
      have := h l (by simp)
      unfold intOf; split <;> omega
    simp only [List.map_cons, List.cons_append, readClauses, readInt_display]
    have := ih (cur ++ [intOf l]) (fun m hm => h m (by simp [hm]))
    simp only [List.append_assoc] at this ⊢
    rw [this]; simp

theorem tokens_clauses (cs : List Clause) :
    tokens (joinText [chNl] (cs.map Clause.display))
      = (cs.map (fun c => (sortBy Literal.le c.lits).map Literal.display ++ [[chZero]])).flatten := by
  induction cs with
  | nil => rfl
  | cons c cs ih =>
    cases cs with
    | nil =>
      have := tokens_clause (sortBy Literal.le c.lits) [] (.inl rfl)
      simp only [List.map_cons, List.map_nil, joinText, List.flatten_cons, List.flatten_nil, List.append_nil] at this ⊢
      rw [Clause.display, this]; simp [tokens, tokAux]
    | cons d cs =>
      simp only [List.map_cons, joinText, List.flatten_cons] at ih ⊢
      have := tokens_clause (sortBy Literal.le c.lits)
        (chNl :: joinText [chNl] (Clause.display d :: cs.map Clause.display)) (.inr ⟨_, _, by decide, rfl⟩)
      rw [tokens_ws (by decide), ih] at this
      simp only [Clause.display, List.append_assoc, List.cons_append, List.nil_append] at this ⊢
      rw [this]

theorem readClauses_clauses (cs : List Clause) (h : ∀ c ∈ cs, ∀ l ∈ c.lits, l.number ≠ 0) :
    readClauses [] (cs.map (fun c => (sortBy Literal.le c.lits).map Literal.display ++ [[chZero]])).flatten
      = some (cs.map (fun c => (sortBy Literal.le c.lits).map intOf)) := by
  induction cs with
  | nil => rfl
  | cons c cs ih =>
    simp only [List.map_cons, List.flatten_cons]
    rw [readClauses_clause _ _ _ (fun l hl => h c (by simp) l (mem_sortBy.1 hl)),
      ih (fun d hd => h d (by simp [hd]))]
    simp

theorem read_display (f : CNF) (h : ∀ c ∈ f.clauses, ∀ l ∈ c.lits, l.number ≠ 0) :
    read f.display = some ⟨f.maxVar, f.len,
      (sortBy Clause.printLe f.clauses).map (fun c => (sortBy Literal.le c.lits).map intOf)⟩ := by
  have ht : tokens f.display = [112] :: [99, 110, 102] :: decimal f.maxVar :: decimal f.len ::
      ((sortBy Clause.printLe f.clauses).map (fun c => (sortBy Literal.le c.lits).map Literal.display ++ [[chZero]])).flatten := by
    rw [← tokens_clauses]
    unfold CNF.display pCnfText
    simp only [List.append_assoc, List.cons_append, List.nil_append]
    have e1 := tokens_cons (t := [112]) ⟨by simp, by decide⟩ (w := 32) (by decide)
    have e2 := tokens_cons (t := [99, 110, 102]) ⟨by simp, by decide⟩ (w := 32) (by decide)
    simp only [List.cons_append, List.nil_append] at e1 e2
    rw [e1, e2, tokens_cons (solid_decimal _) (by decide), tokens_cons (solid_decimal _) (by decide)]
  unfold read
  rw [ht]
  simp only [readNat_decimal]
  rw [readClauses_clauses _ (fun c hc => h c (mem_sortBy.1 hc))]

theorem intOf_inj {a b : Literal} (ha : a.number ≠ 0) (h : intOf a = intOf b) : a = b := by
  unfold intOf at h
  apply Literal.ext'
  · split at h <;> split at h <;> omega
  · cases ha' : a.isNegated <;> cases hb' : b.isNegated <;> simp only [ha', hb', if_true, Bool.false_eq_true, if_false] at h ⊢ <;> omega

end Dimacs

/-! ## The print order is a total order -/

theorem lexLe_total (a b : List Literal) : lexLe a b = true ∨ lexLe b a = true := by
  induction a generalizing b with
  | nil => left; cases b <;> rfl
  | cons x xs ih =>
    cases b with
    | nil => right; rfl
    | cons y ys =>
      unfold lexLe
      rcases Nat.lt_trichotomy x.code y.code with h | h | h
      · left; simp [h]
      · simp [h]; exact ih ys
      · right; simp [h]

theorem lexLe_trans (a b c : List Literal) (h1 : lexLe a b = true) (h2 : lexLe b c = true) : lexLe a c = true := by
  induction a generalizing b c with
  | nil => cases c <;> rfl
  | cons x xs ih =>
    cases b with
    | nil => simp [lexLe] at h1
    | cons y ys =>
      cases c with
      | nil => simp [lexLe] at h2
      | cons z zs =>
        unfold lexLe at h1 h2 ⊢
        by_cases hxy : x.code < y.code
        · by_cases hyz : y.code < z.code
          · simp [show x.code < z.code by omega]
          · by_cases e : y.code = z.code
            · simp [show x.code < z.code by omega]
            · simp [hyz, e] at h2
        · by_cases exy : x.code = y.code
          · by_cases hyz : y.code < z.code
            · simp [show x.code < z.code by omega]
            · by_cases e : y.code = z.code
              · simp [exy, e] at h1 h2 ⊢
                exact ih ys zs h1 h2
              · simp [hyz, e] at h2
          · simp [hxy, exy] at h1

theorem lexLe_antisymm (a b : List Literal) (h1 : lexLe a b = true) (h2 : lexLe b a = true) : a = b := by
  induction a generalizing b with
  | nil =>
    cases b with
    | nil => rfl
    | cons y ys => simp [lexLe] at h2
  | cons x xs ih =>
    cases b with
    | nil => simp [lexLe] at h1
    | cons y ys =>
      unfold lexLe at h1 h2
      rcases Nat.lt_trichotomy x.code y.code with h | h | h
      · have : ¬ y.code < x.code := by omega
        have e : y.code ≠ x.code := by omega
        simp [this, e] at h2
      · simp [h] at h1 h2
        have hx : x = y := by cases x; cases y; simp at h; simp [h]
        rw [hx, ih ys h1 h2]
      · have : ¬ x.code < y.code := by omega
        have e : x.code ≠ y.code := by omega
        simp [this, e] at h1

theorem Clause.printLe_iff (a b : Clause) : a.printLe b = true ↔
    a.lits.length < b.lits.length ∨ (a.lits.length = b.lits.length ∧ lexLe a.lits b.lits = true) := by
  unfold Clause.printLe
  by_cases h : a.lits.length < b.lits.length
  · simp [h]
  · by_cases e : a.lits.length = b.lits.length
    · simp [e]
    · simp [h, e]

theorem Clause.printLe_total (a b : Clause) : a.printLe b = true ∨ b.printLe a = true := by
  rw [printLe_iff, printLe_iff]
  rcases lexLe_total a.lits b.lits with h | h <;> simp [h] <;> omega

theorem Clause.printLe_trans (a b c : Clause) (h1 : a.printLe b = true) (h2 : b.printLe c = true) :
    a.printLe c = true := by
  rw [printLe_iff] at *
  rcases h1 with h1 | ⟨h1, k1⟩ <;> rcases h2 with h2 | ⟨h2, k2⟩
  · left; omega
  · left; omega
  · left; omega
  · right; exact ⟨by omega, lexLe_trans _ _ _ k1 k2⟩

theorem Clause.printLe_antisymm (a b : Clause) (h1 : a.printLe b = true) (h2 : b.printLe a = true) : a = b := by
  rw [printLe_iff] at *
  rcases h1 with h1 | ⟨h1, k1⟩ <;> rcases h2 with h2 | ⟨h2, k2⟩
  · omega
  · omega
  · omega
  · exact congrArg Clause.mk (lexLe_antisymm _ _ k1 k2)

theorem CNF.display_congr {f g : CNF} (h : f.clauses.Perm g.clauses) (hm : f.maxVar = g.maxVar) :
    f.display = g.display := by
  unfold CNF.display CNF.len
  rw [(sortBy_eq_iff Clause.printLe_total Clause.printLe_trans Clause.printLe_antisymm).2 h, hm, h.length_eq]

end Verif
