import Verif.Spec.Circuit

/-!
# Spec: simulation traces

A row lists the value of every variable at one clock.  A stimulus gives, for each clock, the value of each input variable, and
for the first clock the value of each latch without a reset value; both are partial functions from variables to values.
-/

namespace Verif

/-- The valuation a row describes. -/
def rowVal (row : List Bool) (v : Nat) : Bool := row.getD v false

/-- The value that a map, given by its pairs of keys and values, has for a variable. -/
def given (m : List (Nat × Bool)) (v : Nat) : Option Bool := m.lookup v

namespace Circuit

/-- A row with one value per variable, consistent wires and the supplied inputs. -/
structure Row (c : Circuit) (input : Nat → Option Bool) (row : List Bool) : Prop where
  length : row.length = c.maxVar + 1
  frame : c.Frame (rowVal row)
  inputs : ∀ i, i < c.numInputs → input (1 + i) = some (rowVal row (1 + i))

/-- Latches at the first clock: reset value, or the supplied one when the latch is uninitialised. -/
def StartsAt (c : Circuit) (latches : Nat → Option Bool) (v : Nat → Bool) : Prop :=
  ∀ (i : Nat) (p : Nat × Nat), c.latches[i]? = some p →
    (p.2 = 0 → v (c.latchVar i) = false) ∧ (p.2 = 1 → v (c.latchVar i) = true) ∧
    (p.2 ≠ 0 → p.2 ≠ 1 → latches (c.latchVar i) = some (v (c.latchVar i)))

/-- `rows` is the trace of `c` under the given stimulus. -/
structure Trace (c : Circuit) (inputs : List (Nat → Option Bool)) (latches : Nat → Option Bool) (rows : List (List Bool)) : Prop where
  length : rows.length = inputs.length
  row : ∀ (t : Nat) (inp : Nat → Option Bool) (r : List Bool), inputs[t]? = some inp → rows[t]? = some r → c.Row inp r
  start : ∀ r, rows[0]? = some r → c.StartsAt latches (rowVal r)
  step : ∀ (t : Nat) (r r' : List Bool), rows[t]? = some r → rows[t + 1]? = some r' → c.Step (rowVal r) (rowVal r')

end Circuit

end Verif
