import Verif.Model.Bmc

/-!
# Spec: when a BMC run ends
-/

namespace Verif.BMC

/-- A run that ends before its limit: at depth `k` with a counterexample, or because of the clock.  The second number counts the queries asked. -/
inductive EndsAt (clock : Clock) : Nat → Nat → BMCResult → Prop
  | ctx (a : Assignment) (k : Nat) : EndsAt clock k (k + 1) (.ctx a k)
  | expired (k : Nat) : clock.expired k = true → EndsAt clock k k (.noCtx (k - 1))
  | timeOut (k : Nat) : clock.finished k = false → EndsAt clock k (k + 1) (.noCtx (k - 1))

/-- The result was known before depth `limit` was left behind. -/
def Early (limit : Nat) : BMCResult → Prop
  | .ctx _ d => d ≤ limit
  | .noCtx d => d < limit

end Verif.BMC
