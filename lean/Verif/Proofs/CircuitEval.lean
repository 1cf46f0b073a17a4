import Verif.Spec.Circuit
import Verif.Proofs.AigFile

/-! # Evaluating a circuit: wire values exist and are unique given inputs and latches -/

namespace Verif

theorem litVal_congr {v w : Nat → Bool} {l : Nat} (h : v (l / 2) = w (l / 2)) : litVal v l = litVal w l := by
  unfold litVal; rw [h]

namespace Circuit

/-- Wire values computed from base values of inputs and latches. -/
def evalVar (c : Circuit) (base : Nat → Bool) (v : Nat) : Bool :=
  if v = 0 then false
  else if v < c.andVar 0 then base v
  else match c.ands[v - c.andVar 0]? with
    | none => base v
    | some p => if h : p.1 / 2 < v ∧ p.2 / 2 < v then
        (xor (evalVar c base (p.1 / 2)) (decide (p.1 % 2 = 1))) && (xor (evalVar c base (p.2 / 2)) (decide (p.2 % 2 = 1)))
      else false
termination_by v
decreasing_by
  · exact h.1
  · exact h.2

theorem evalVar_base (c : Circuit) (base : Nat → Bool) {v : Nat} (h0 : v ≠ 0) (h : v < c.andVar 0) : c.evalVar base v = base v := by
  rw [evalVar, if_neg h0, if_pos h]

theorem evalVar_high (c : Circuit) (base : Nat → Bool) {v : Nat} (h : c.maxVar < v) : c.evalVar base v = base v := by
  have hn : c.ands[v - c.andVar 0]? = none := by
    rw [List.getElem?_eq_none_iff]; unfold maxVar at h; unfold andVar; omega
  rw [evalVar, if_neg (by omega), if_neg (by unfold maxVar at h; unfold andVar; omega), hn]

theorem frame_evalVar {c : Circuit} (hw : c.WF) (base : Nat → Bool) : c.Frame (c.evalVar base) := by
  constructor
  · rw [evalVar, if_pos rfl]
  · intro i p hp
    have hlt := hw.and_ok i p hp
    have e : c.andVar i - c.andVar 0 = i := by unfold andVar; omega
    have h0 : c.andVar i ≠ 0 := by unfold andVar; omega
    have h1 : ¬ c.andVar i < c.andVar 0 := by unfold andVar; omega
    conv => lhs; rw [evalVar]
    rw [if_neg h0, if_neg h1, e, hp]
    simp only
    rw [dif_pos (by omega)]
    rfl

theorem frame_unique {c : Circuit} (hw : c.WF) {v w : Nat → Bool} (hv : c.Frame v) (hw' : c.Frame w)
    (h : ∀ x, 1 ≤ x → x < c.andVar 0 → v x = w x) (x : Nat) (hx : x ≤ c.maxVar) : v x = w x := by
  induction x using Nat.strongRecOn with
  | ind x ih =>
    by_cases h0 : x = 0
    · rw [h0, hv.1, hw'.1]
    · by_cases h1 : x < c.andVar 0
      · exact h x (by omega) h1
      · have hlt : x - c.andVar 0 < c.ands.length := by unfold maxVar at hx; unfold andVar at *; omega
        have hp := List.getElem?_eq_getElem hlt
        have e : c.andVar (x - c.andVar 0) = x := by unfold andVar at *; omega
        have hok := hw.and_ok _ _ hp
        have h2 := hv.2 _ _ hp
        have h3 := hw'.2 _ _ hp
        rw [e] at h2 h3 hok
        rw [h2, h3, litVal_congr (ih _ (by omega) (by omega)), litVal_congr (ih _ (by omega) (by omega))]

end Circuit

end Verif
