import Verif.Model.Aig
import Verif.Spec.Circuit

/-!
# Spec: when an `AndInverterGraph` value stores a given circuit

Everything is read off public data: counts, index lists, and each node's type, literal and input literals.
-/

namespace Verif

/-- `a` stores the circuit `c`, laid out constant, inputs, latches, AND gates; node `i` has literal `2 * i`. -/
structure Aig.Represents (a : Aig) (c : Circuit) : Prop where
  maximumVariableIndex : a.maximumVariableIndex = c.maxVar
  numberOfInputs : a.numberOfInputs = c.numInputs
  numberOfLatches : a.numberOfLatches = c.latches.length
  numberOfOutputs : a.numberOfOutputs = c.outputs.length
  numberOfAndGates : a.numberOfAndGates = c.ands.length
  numberOfBad : a.numberOfBad = c.bad.length
  numberOfConstraints : a.numberOfConstraints = c.constraints.length
  numberOfJustice : a.numberOfJustice = 0
  numberOfFairness : a.numberOfFairness = 0
  nodes_length : a.nodes.length = 1 + c.numInputs + c.latches.length + c.ands.length
  constNode : ∃ n, a.nodes[0]? = some n ∧ n.nodeType = .constantZero
  inputNode : ∀ i, i < c.numInputs → ∃ n, a.nodes[1 + i]? = some n ∧ n.nodeType = .input
  latchNode : ∀ (i : Nat) (p : Nat × Nat), c.latches[i]? = some p →
    ∃ n, a.nodes[c.latchVar i]? = some n ∧ n.nodeType = .latch ∧ n.latchInput = p.1 ∧ n.latchReset = p.2
  andNode : ∀ (i : Nat) (p : Nat × Nat), c.ands[i]? = some p →
    ∃ n, a.nodes[c.andVar i]? = some n ∧ n.nodeType = .and ∧ n.andInput0 = p.1 ∧ n.andInput1 = p.2
  lit : ∀ (i : Nat) (n : AIGNode), a.nodes[i]? = some n → n.lit = 2 * i
  inputs : a.inputs = List.range' 1 c.numInputs
  latches : a.latches = List.range' (1 + c.numInputs) c.latches.length
  ands : a.ands = List.range' (1 + c.numInputs + c.latches.length) c.ands.length
  outputs : a.outputs = c.outputs
  bad : a.bad = c.bad
  constraints : a.constraints = c.constraints
  fits : (c.maxVar + 1) * 168 ≤ 9223372036854775807

end Verif
