import Verif.Proofs.AigSymbols

/-! # The canonical writer produces files the reader accepts; a graph stores one circuit only -/

namespace Verif

open Aiger

theorem pointwise_map {α : Type} {R : α → Text → Prop} (f : α → Text) (xs : List α) (h : ∀ x ∈ xs, R x (f x)) :
    Pointwise R xs (xs.map f) := by
  refine ⟨by simp, ?_⟩
  intro i x y hx hy
  rw [List.getElem?_map, hx] at hy
  have hy := Option.some.inj hy
  subst hy
  exact h x (List.mem_of_getElem? hx)

theorem header_encode (c : Circuit) (h1 : c.maxVar < 2 ^ 37) (ho : c.outputs.length < 2 ^ 60) (hb : c.bad.length < 2 ^ 60)
    (hk : c.constraints.length < 2 ^ 60) :
    Header c.maxVar c.numInputs c.latches.length c.outputs.length c.ands.length c.bad.length c.constraints.length (encodeHeader c) := by
  have hm : c.maxVar = c.numInputs + c.latches.length + c.ands.length := rfl
  refine ⟨_, _, _, _, _, _, rfl, numeral_numeral _ (by omega), numeral_numeral _ (by omega), numeral_numeral _ (by omega),
    numeral_numeral _ (by omega), numeral_numeral _ (by omega), ?_⟩
  split
  · rename_i h
    left
    exact ⟨rfl, by rw [h.1]; rfl, by rw [h.2]; rfl⟩
  · split
    · rename_i h
      right; left
      exact ⟨_, rfl, numeral_numeral _ (by omega), by rw [h]; rfl⟩
    · right; right; left
      exact ⟨_, _, rfl, numeral_numeral _ (by omega), numeral_numeral _ (by omega)⟩

theorem ands_encode (ps : List (Nat × Nat)) (v : Nat) (hv : v + ps.length ≤ 2 ^ 37)
    (h : ∀ (i : Nat) (p : Nat × Nat), ps[i]? = some p → p.1 < 2 * (v + i) ∧ p.2 ≤ p.1) : Ands (2 * v) ps (encodeAnds (2 * v) ps) := by
  induction ps generalizing v with
  | nil => exact .nil
  | cons p ps ih =>
    have h0 := h 0 p (by simp)
    rw [List.length_cons] at hv
    rw [encodeAnds]
    refine .cons (by omega) h0.2 (delta_encodeDelta _ (by omega)) (delta_encodeDelta _ (by omega)) ?_
    have e : 2 * v + 2 = 2 * (v + 1) := by omega
    rw [e]
    apply ih (v + 1) (by omega)
    intro i q hq
    have := h (i + 1) q (by simpa using hq)
    omega

theorem file_encode (c : Circuit) (hw : c.WF) (h1 : c.maxVar < 2 ^ 37) (ho : c.outputs.length < 2 ^ 60)
    (hb : c.bad.length < 2 ^ 60) (hk : c.constraints.length < 2 ^ 60) (tail : Text) : File (encode c ++ tail) c tail := by
  have hm : c.maxVar = c.numInputs + c.latches.length + c.ands.length := rfl
  have lits : ∀ ls : List Nat, (∀ l ∈ ls, c.LitOK l) → Pointwise LitLine ls (ls.map numeral) := by
    intro ls h
    apply pointwise_map
    intro l hl
    have : l / 2 ≤ c.maxVar := h l hl
    exact numeral_numeral _ (by omega)
  refine ⟨encodeHeader c, c.latches.map encodeLatch, c.outputs.map numeral, c.bad.map numeral, c.constraints.map numeral,
    encodeAnds (2 * (1 + c.numInputs + c.latches.length)) c.ands, ?_, header_encode c h1 ho hb hk, ?_, lits _ hw.out_ok,
    lits _ hw.bad_ok, lits _ hw.con_ok, ?_⟩
  · unfold encode; rw [List.append_assoc]
  · apply pointwise_map
    intro p hp
    obtain ⟨i, hi⟩ := List.mem_iff_getElem?.1 hp
    have h2 : p.1 / 2 ≤ c.maxVar := hw.next_ok i p hi
    have h3 := hw.reset_ok i p hi
    have hlt := getElem?_lt hi
    unfold Circuit.latchVar at h3
    unfold encodeLatch
    split
    · rename_i h0
      exact Or.inl ⟨h0, numeral_numeral _ (by omega)⟩
    · exact Or.inr ⟨_, _, rfl, numeral_numeral _ (by omega), numeral_numeral _ (by omega)⟩
  · apply ands_encode
    · omega
    · intro i p hp; exact hw.and_ok i p hp

theorem header_unique {m i l o n b k m' i' l' o' n' b' k' : Nat} {line : Text} (h : Header m i l o n b k line)
    (h' : Header m' i' l' o' n' b' k' line) : m = m' ∧ i = i' ∧ l = l' ∧ n = n' := by
  rw [header_iff] at h h'
  obtain ⟨tm, ti, tl, t_o, ta, opt, h0, h1, h2, h3, _, h5, _⟩ := h
  obtain ⟨tm', ti', tl', t_o', ta', opt', h0', h1', h2', h3', _, h5', _⟩ := h'
  rw [h0] at h0'
  simp only [List.cons.injEq] at h0'
  obtain ⟨_, rfl, rfl, rfl, rfl, rfl, _⟩ := h0'
  exact ⟨h1.unique h1', h2.unique h2', h3.unique h3', h5.unique h5'⟩

theorem fits_small (c : Circuit) (h1 : c.maxVar < 2 ^ 37) (ho : c.outputs.length < 2 ^ 60) (hb : c.bad.length < 2 ^ 60)
    (hk : c.constraints.length < 2 ^ 60) : c.Fits := by
  refine ⟨rfl, ?_, ?_, ?_, ?_⟩ <;> omega

theorem Aig.Represents.unique {a : Aig} {c c' : Circuit} (h : a.Represents c) (h' : a.Represents c') : c = c' := by
  have hi : c.numInputs = c'.numInputs := h.numberOfInputs.symm.trans h'.numberOfInputs
  have hll : c.latches.length = c'.latches.length := h.numberOfLatches.symm.trans h'.numberOfLatches
  have hal : c.ands.length = c'.ands.length := h.numberOfAndGates.symm.trans h'.numberOfAndGates
  have hl : c.latches = c'.latches := by
    apply List.ext_getElem hll
    intro i h1 h2
    obtain ⟨n, e1, _, e2, e3⟩ := h.latchNode i _ (List.getElem?_eq_getElem h1)
    obtain ⟨n', e1', _, e2', e3'⟩ := h'.latchNode i _ (List.getElem?_eq_getElem h2)
    have : c.latchVar i = c'.latchVar i := by unfold Circuit.latchVar; omega
    rw [this, e1'] at e1
    have e1 := Option.some.inj e1
    subst e1
    exact Prod.ext (e2.symm.trans e2') (e3.symm.trans e3')
  have ha : c.ands = c'.ands := by
    apply List.ext_getElem hal
    intro i h1 h2
    obtain ⟨n, e1, _, e2, e3⟩ := h.andNode i _ (List.getElem?_eq_getElem h1)
    obtain ⟨n', e1', _, e2', e3'⟩ := h'.andNode i _ (List.getElem?_eq_getElem h2)
    have : c.andVar i = c'.andVar i := by unfold Circuit.andVar; omega
    rw [this, e1'] at e1
    have e1 := Option.some.inj e1
    subst e1
    exact Prod.ext (e2.symm.trans e2') (e3.symm.trans e3')
  have ho := h.outputs.symm.trans h'.outputs
  have hb := h.bad.symm.trans h'.bad
  have hk := h.constraints.symm.trans h'.constraints
  cases c; cases c'
  simp_all

theorem represents_finish {c : Circuit} (hF : c.Fits) (syms : List Symbol) (comment : Option Text) :
    (finish c syms comment).Represents c :=
  represents_comments (represents_applySyms (represents_skeleton c hF) syms) _

theorem fromBytes_represents {dbg : Bool} {bytes : Text} {a : Aig} (h : Aig.fromBytes dbg bytes = .ok a) :
    ∃ c, c.WF ∧ a.Represents c := by
  obtain ⟨c, tail, syms, comment, hw, hF, _, _, _, _, rfl⟩ := (fromBytes_ok _ _ _).1 h
  exact ⟨c, hw, represents_finish hF _ _⟩

end Verif
