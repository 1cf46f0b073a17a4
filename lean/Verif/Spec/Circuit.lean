import Verif.Base

/-!
# Spec: sequential circuits and their executions

An and-inverter circuit as in the AIGER report: variable 0 is the constant false, then inputs, latches and AND gates in order;
a literal is `2 * variable`, plus one when inverted.  Executions are sequences of valuations of all variables.
-/

namespace Verif

/-- A circuit: number of inputs, latches as (next literal, reset literal), AND gates as (rhs0, rhs1), and the literal lists. -/
structure Circuit where
  numInputs : Nat
  latches : List (Nat × Nat)
  ands : List (Nat × Nat)
  outputs : List Nat
  bad : List Nat
  constraints : List Nat
deriving DecidableEq, Repr

/-- Value of an AIGER literal. -/
def litVal (v : Nat → Bool) (l : Nat) : Bool := xor (v (l / 2)) (decide (l % 2 = 1))

namespace Circuit

def maxVar (c : Circuit) : Nat := c.numInputs + c.latches.length + c.ands.length
def latchVar (c : Circuit) (i : Nat) : Nat := 1 + c.numInputs + i
def andVar (c : Circuit) (i : Nat) : Nat := 1 + c.numInputs + c.latches.length + i

/-- A literal over the circuit's variables. -/
def LitOK (c : Circuit) (l : Nat) : Prop := l / 2 ≤ c.maxVar

/-- Well-formedness: every literal in range, AND gates ordered (hence acyclic), resets 0, 1 or the latch itself. -/
structure WF (c : Circuit) : Prop where
  next_ok : ∀ (i : Nat) (p : Nat × Nat), c.latches[i]? = some p → c.LitOK p.1
  reset_ok : ∀ (i : Nat) (p : Nat × Nat), c.latches[i]? = some p → p.2 = 0 ∨ p.2 = 1 ∨ p.2 = 2 * c.latchVar i
  and_ok : ∀ (i : Nat) (p : Nat × Nat), c.ands[i]? = some p → p.1 < 2 * c.andVar i ∧ p.2 ≤ p.1
  out_ok : ∀ l ∈ c.outputs, c.LitOK l
  bad_ok : ∀ l ∈ c.bad, c.LitOK l
  con_ok : ∀ l ∈ c.constraints, c.LitOK l

/-- The wires carry consistent values: constant false, and every AND gate computes its conjunction. -/
def Frame (c : Circuit) (v : Nat → Bool) : Prop :=
  v 0 = false ∧ ∀ (i : Nat) (p : Nat × Nat), c.ands[i]? = some p → v (c.andVar i) = (litVal v p.1 && litVal v p.2)

/-- The latches have their reset values (a latch whose reset is itself may start anyhow). -/
def Init (c : Circuit) (v : Nat → Bool) : Prop :=
  ∀ (i : Nat) (p : Nat × Nat), c.latches[i]? = some p → (p.2 = 0 → v (c.latchVar i) = false) ∧ (p.2 = 1 → v (c.latchVar i) = true)

/-- One clock: each latch takes the value its next literal had. -/
def Step (c : Circuit) (v v' : Nat → Bool) : Prop :=
  ∀ (i : Nat) (p : Nat × Nat), c.latches[i]? = some p → v' (c.latchVar i) = litVal v p.1

/-- `w 0, …, w d` is an execution. -/
structure Exec (c : Circuit) (w : Nat → Nat → Bool) (d : Nat) : Prop where
  init : c.Init (w 0)
  frame : ∀ t, t ≤ d → c.Frame (w t)
  step : ∀ t, t < d → c.Step (w t) (w (t + 1))

/-- Some literal of `bads` is true. -/
def BadNow (bads : List Nat) (v : Nat → Bool) : Prop := ∃ b ∈ bads, litVal v b = true

/-- Some execution of exactly `d` clocks ends with a literal of `bads` true. -/
def UnsafeAt (c : Circuit) (bads : List Nat) (d : Nat) : Prop := ∃ w, c.Exec w d ∧ BadNow bads (w d)

/-- `e` clocks are the fewest after which some execution makes a literal of `bads` true. -/
def Shortest (c : Circuit) (bads : List Nat) (e : Nat) : Prop := c.UnsafeAt bads e ∧ ∀ j, j < e → ¬ c.UnsafeAt bads j

/-- Literals of `bads` can be made true, but only after 2^32 clocks or more. -/
def Remote (c : Circuit) (bads : List Nat) : Prop := ∃ e, c.Shortest bads e ∧ 4294967296 ≤ e

/-- No execution ever makes a literal of `bads` true. -/
def Safe (c : Circuit) (bads : List Nat) : Prop := ∀ d, ¬ c.UnsafeAt bads d

/-- AND gate `i` lies in the cone of influence of the literals `ls`: it is reachable from them through AND inputs. -/
inductive InCone (c : Circuit) (ls : List Nat) : Nat → Prop where
  | root {l i : Nat} : l ∈ ls → l / 2 = c.andVar i → i < c.ands.length → InCone c ls i
  | input {i j : Nat} {p : Nat × Nat} {l : Nat} : InCone c ls i → c.ands[i]? = some p → (l = p.1 ∨ l = p.2) →
      l / 2 = c.andVar j → j < c.ands.length → InCone c ls j

/-- Latch `i` is read by an AND gate in the cone of `ls`, other than gates that have the constant false as an input. -/
def Reads (c : Circuit) (ls : List Nat) (i : Nat) : Prop :=
  ∃ (g : Nat) (p : Nat × Nat), c.ands[g]? = some p ∧ c.InCone ls g ∧ p.1 ≠ 0 ∧ p.2 ≠ 0 ∧ (p.1 / 2 = c.latchVar i ∨ p.2 / 2 = c.latchVar i)

/-- Every latch that is itself a literal of `ls` is also read by a gate in the cone of `ls`. -/
def Covered (c : Circuit) (ls : List Nat) : Prop := ∀ b ∈ ls, ∀ i, i < c.latches.length → b / 2 = c.latchVar i → c.Reads ls i

end Circuit

end Verif
