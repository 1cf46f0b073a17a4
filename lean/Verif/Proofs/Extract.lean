import Verif.Proofs.FstsEnc
import Verif.Proofs.FstsReject

/-! # When `extract_state_from_assignment` panics -/

namespace Verif.Fsts

variable {f : Fsts} {c : Circuit} {bads : List Nat}

/-- An answer without a value for some latch makes `extract_state_from_assignment` panic. -/
theorem extractState_panic (dbg : Bool) (h : Laws f c bads) (hm : c.maxVar < 2147483648) {a : Assignment} {i : Nat}
    (hi : i < c.latches.length) (hv : a.getValue (c.latchVar i) = none) : f.extractState dbg a = .error (.panic "features.rs:107 unwrap") := by
  cases e : f.extractState dbg a with
  | ok s => exact absurd e (extractState_panics dbg h hi hv s)
  | error er =>
    unfold extractState at e
    cases hM : f.stateLits.mapM (stateLiteral dbg a) with
    | ok ls => rw [hM] at e; cases e
    | error er' =>
      rw [hM] at e
      have : er' = er := Except.error.inj e
      subst this
      obtain ⟨x, hx, hxe⟩ := mapM_error hM
      obtain ⟨j, hj, rfl⟩ := (mem_states h).1 hx
      have := latchVar_le c hj
      unfold stateLiteral at hxe
      rw [Literal.new_ok dbg this.1 (by omega), ok_bind] at hxe
      cases hg : a.getValue (c.latchVar j) with
      | some b => rw [hg] at hxe; cases hxe
      | none => rw [hg] at hxe; rw [← Except.error.inj hxe]

end Verif.Fsts
