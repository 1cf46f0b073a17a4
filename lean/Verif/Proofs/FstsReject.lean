import Verif.Proofs.FstsBuild

/-! # When `from_aig` panics -/

namespace Verif.Fsts

theorem fromAig_constraints (dbg : Bool) (be : BuildEnv) {a : Aig} {c : Circuit} (hr : a.Represents c) (ob : Bool)
    (h : c.constraints ≠ []) : ∃ s, fromAig dbg be a ob = .error (.panic s) := by
  have h2 : a.getConstraintsInformation.isEmpty = false := by
    simp [Aig.getConstraintsInformation, hr.constraints, h]
  unfold fromAig
  dsimp only
  rw [h2]
  generalize decide (a.getHighestVariableNumber < (u32Size - 1) >>> 1) = b
  cases b with
  | true => exact ⟨_, rfl⟩
  | false => exact ⟨_, rfl⟩

theorem fromAig_large (dbg : Bool) (be : BuildEnv) {a : Aig} {c : Circuit} (hr : a.Represents c) (ob : Bool)
    (h : 2147483647 ≤ c.maxVar) : ∃ s, fromAig dbg be a ob = .error (.panic s) := by
  have h2 : decide (a.getHighestVariableNumber < (u32Size - 1) >>> 1) = false := by
    have e : (u32Size - 1) >>> 1 = 2147483647 := by decide
    have e2 : a.getHighestVariableNumber = c.maxVar := hr.maximumVariableIndex
    rw [e, e2]; simp; omega
  unfold fromAig
  dsimp only
  rw [h2]
  exact ⟨_, rfl⟩

theorem new_debug_ok {n : Nat} {l : Literal} (h : Literal.new true n = .ok l) : 1 ≤ n ∧ n < 2147483648 := by
  unfold Literal.new debugAssertR at h
  simp only [if_true] at h
  rw [bind_ok] at h
  obtain ⟨_, h1, h⟩ := h
  rw [bind_ok] at h
  obtain ⟨_, h2, _⟩ := h
  rw [assertR_ok] at h1 h2
  have e : (u32Size - 1) >>> 1 = 2147483647 := by decide
  rw [e] at h2
  have h1 := of_decide_eq_true h1
  have h2 := of_decide_eq_true h2
  omega

theorem fromAig_debug_ok {be : BuildEnv} {a : Aig} {c : Circuit} (hr : a.Represents c) (hw : c.WF) (ob : Bool) {f : Fsts}
    (h : fromAig true be a ob = .ok f) : Supported c ob := by
  have hc : c.constraints = [] := by
    refine Classical.byContradiction fun hne => ?_
    obtain ⟨s, e⟩ := fromAig_constraints true be hr ob hne
    rw [e] at h; cases h
  have hm : c.maxVar < 2147483647 := by
    refine Classical.byContradiction fun hne => ?_
    obtain ⟨s, e⟩ := fromAig_large true be hr ob (by omega)
    rw [e] at h; cases h
  unfold fromAig at h
  rw [bind_ok] at h; obtain ⟨_, _, h⟩ := h
  rw [bind_ok] at h; obtain ⟨_, _, h⟩ := h
  rw [bind_ok] at h; obtain ⟨⟨is, ss⟩, _, h⟩ := h
  dsimp only at h
  rw [bind_ok] at h; obtain ⟨_, _, h⟩ := h
  rw [bind_ok] at h; obtain ⟨_, hT, h⟩ := h
  rw [bind_ok] at h; obtain ⟨_, _, h⟩ := h
  rw [bind_ok] at h; obtain ⟨_, hU, h⟩ := h
  refine ⟨hw, ⟨hm, ?_⟩, hc, ?_⟩
  · intro i hi
    have hmax : a.getHighestVariableNumber = c.maxVar := hr.maximumVariableIndex
    unfold createTransition at hT
    rw [getLatchInformation_eq hr hw, ok_bind, bind_ok] at hT
    obtain ⟨_, hf, _⟩ := hT
    obtain ⟨⟨g, ws⟩, s2, hstep⟩ := foldlM_ok_step hf (2 * c.latchVar i, c.latches[i].1, c.latches[i].2)
      (List.mem_map.2 ⟨(c.latches[i], i), List.mem_zipIdx_iff_getElem?.2 (by simp [hi]), rfl⟩)
    have hx : 1 ≤ c.latchVar i ∧ c.latchVar i ≤ c.maxVar := by
      unfold Circuit.latchVar Circuit.maxVar; omega
    have hL : literalOfAig true (2 * c.latchVar i) = .ok ⟨2 * c.latchVar i⟩ := literalOfAig_ok true (by omega) (by omega)
    have e : (Literal.mk (2 * c.latchVar i)).number = c.latchVar i := by rw [literal_number_mk]; omega
    unfold transitionStep at hstep
    rw [bind_ok] at hstep; obtain ⟨_, _, hstep⟩ := hstep
    rw [hL, ok_bind, bind_ok] at hstep
    obtain ⟨n, hn, hstep⟩ := hstep
    rw [bind_ok] at hstep; obtain ⟨_, hnew, hstep⟩ := hstep
    have := new_debug_ok hnew
    unfold u32Add at hn
    rw [e, hmax] at hn
    rw [if_pos (by unfold u32Size; omega)] at hn
    have := Except.ok.inj hn
    omega
  · intro l hl
    refine Classical.byContradiction fun hlt => ?_
    unfold createUnsafety at hU
    have e : a.getBadInformation ++ (if ob then a.getOutputInformation else []) = badLits c ob := by
      simp [Aig.getBadInformation, Aig.getOutputInformation, hr.bad, hr.outputs, badLits]
    rw [e] at hU
    have hne : (!(badLits c ob).isEmpty) = true := by
      cases hB : badLits c ob with
      | nil => rw [hB] at hl; simp at hl
      | cons => rfl
    rw [if_pos hne, bind_ok] at hU
    obtain ⟨ls, hls, _⟩ := hU
    rw [mapM_ok_iff] at hls
    obtain ⟨j, hj⟩ := List.mem_iff_getElem?.1 hl
    obtain ⟨b, _, hb⟩ := hls.2 j _ hj
    obtain ⟨s, es⟩ := literalOfAig_const_debug (l := l) (by omega)
    rw [es] at hb; cases hb

theorem mapM_error {α β : Type} {f : α → Res β} {l : List α} {e : Err} (h : l.mapM f = .error e) : ∃ x ∈ l, f x = .error e := by
  induction l with
  | nil => cases h
  | cons x xs ih =>
    rw [List.mapM_cons] at h
    cases hx : f x with
    | error e' =>
      rw [hx] at h
      have : e' = e := Except.error.inj h
      subst this; exact ⟨x, by simp, hx⟩
    | ok b =>
      rw [hx, ok_bind] at h
      cases hxs : xs.mapM f with
      | error e' =>
        rw [hxs] at h
        have : e' = e := Except.error.inj h
        subst this
        obtain ⟨y, hy, he⟩ := ih hxs
        exact ⟨y, by simp [hy], he⟩
      | ok bs => rw [hxs] at h; cases h

theorem fromAig_constant_bad {be : BuildEnv} (hb : be.OK) {a : Aig} {c : Circuit} (hr : a.Represents c) (hw : c.WF) (hE : Encodable c)
    (hc : c.constraints = []) (ob : Bool) {l : Nat} (hl : l ∈ badLits c ob) (hlt : l < 2) :
    ∃ s, fromAig true be a ob = .error (.panic s) := by
  have hm : c.maxVar < 2147483648 := by have := hE.max_lt; omega
  obtain ⟨T, hT, _⟩ := createTransition_ok true hb hr hw hm hE.latch_lt
  obtain ⟨S, hS, _⟩ := createStateToSafety_ok true hb hr hw hm hc ob
  have hmax : a.getHighestVariableNumber = c.maxVar := hr.maximumVariableIndex
  have hU : ∃ s, createUnsafety true be a ob = .error (.panic s) := by
    unfold createUnsafety
    have e : a.getBadInformation ++ (if ob then a.getOutputInformation else []) = badLits c ob := by
      simp [Aig.getBadInformation, Aig.getOutputInformation, hr.bad, hr.outputs, badLits]
    have hne : (!(badLits c ob).isEmpty) = true := by
      cases hB : badLits c ob with
      | nil => rw [hB] at hl; simp at hl
      | cons => rfl
    dsimp only
    rw [e, if_pos hne]
    cases hM : (badLits c ob).mapM (literalOfAig true) with
    | error e =>
      obtain ⟨x, hx, he⟩ := mapM_error hM
      have : ∃ s, e = .panic s := by
        by_cases h2 : x < 2
        · obtain ⟨s, hs⟩ := literalOfAig_const_debug h2
          rw [he] at hs; exact ⟨s, Except.error.inj hs⟩
        · have := badLits_ok hw ob x hx
          unfold Circuit.LitOK at this
          rw [literalOfAig_ok true (by omega) (by omega)] at he; cases he
      obtain ⟨s, rfl⟩ := this
      exact ⟨s, rfl⟩
    | ok ls =>
      rw [mapM_ok_iff] at hM
      obtain ⟨j, hj⟩ := List.mem_iff_getElem?.1 hl
      obtain ⟨b, _, hb⟩ := hM.2 j _ hj
      obtain ⟨s, es⟩ := literalOfAig_const_debug hlt
      rw [es] at hb; cases hb
  obtain ⟨s, hU⟩ := hU
  refine ⟨s, ?_⟩
  have h1 : decide (c.maxVar < (u32Size - 1) >>> 1) = true := by
    have := hE.max_lt
    have e : (u32Size - 1) >>> 1 = 2147483647 := by decide
    rw [e]; exact decide_eq_true this
  have h2 : a.getConstraintsInformation.isEmpty = true := by
    simp [Aig.getConstraintsInformation, hr.constraints, hc]
  unfold fromAig
  simp only [hmax, createInputAndState_ok true hr hw hm, createInitial_ok true hr hw hm, hU,
    hT, hS, h1, h2, assertR, if_true, bind, Except.bind]

end Verif.Fsts
