import Verif.Model.Formula

/-!
# Model of `src/models/and_inverter_graph`: nodes, graph, getters

`usize` values are natural numbers.  Arithmetic on node indices and literals is not wrapped: `allocate_vectors` succeeds only
if every count is below 2^60 (see `Aig.allocateVectors`), so none of these sums or shifts can overflow a 64-bit `usize`.
-/

namespace Verif

/-- `enum AIGNodeType` — src/models/and_inverter_graph/aig_node.rs:9-15. -/
inductive NodeType where
  | constantZero
  | input
  | latch
  | and
deriving DecidableEq, Repr

/-- `usize::MAX`, the "not set yet" marker of `AIGNode::new` — aig_node.rs:52-56. -/
def usizeMax : Nat := usizeSize - 1

/-- `struct AIGNode` — aig_node.rs:21-41; `get_type` and `get_literal` (aig_node.rs:88-94) are its fields `nodeType` and `lit`. -/
structure AIGNode where
  nodeType : NodeType
  lit : Nat
  latchInput : Nat
  latchReset : Nat
  andInput0 : Nat
  andInput1 : Nat
  inputSymbol : Text
  latchSymbol : Text
  outputSymbol : Text
  badSymbol : Text
  constraintSymbol : Text
deriving DecidableEq, Repr

namespace AIGNode

/-- `AIGNode::new` — aig_node.rs:48-65. -/
def new (lit : Nat) (ty : NodeType) : Res AIGNode := do
  assertR "aig_node.rs:49 Literal node should be even." (lit % 2 == 0)
  return ⟨ty, lit, usizeMax, usizeMax, usizeMax, usizeMax, [], [], [], [], []⟩

/-- `set_input_of_latch` — aig_node.rs:67-70. -/
def setInputOfLatch (n : AIGNode) (input : Nat) : Res AIGNode := do
  assertR "aig_node.rs:68" (n.nodeType == .latch)
  return { n with latchInput := input }

/-- `set_reset_of_latch` — aig_node.rs:72-76. -/
def setResetOfLatch (n : AIGNode) (reset : Nat) : Res AIGNode := do
  assertR "aig_node.rs:73" (n.nodeType == .latch)
  assertR "aig_node.rs:74" (reset == 0 || reset == 1 || reset == n.lit)
  return { n with latchReset := reset }

/-- `set_rhs0_of_and` — aig_node.rs:78-81. -/
def setRhs0OfAnd (n : AIGNode) (r : Nat) : Res AIGNode := do
  assertR "aig_node.rs:79" (n.nodeType == .and)
  return { n with andInput0 := r }

/-- `set_rhs1_of_and` — aig_node.rs:83-86. -/
def setRhs1OfAnd (n : AIGNode) (r : Nat) : Res AIGNode := do
  assertR "aig_node.rs:84" (n.nodeType == .and)
  return { n with andInput1 := r }

/-- `get_latch_input` — aig_node.rs:96-100. -/
def getLatchInput (n : AIGNode) : Res Nat := do
  assertR "aig_node.rs:97" (n.nodeType == .latch)
  assertR "aig_node.rs:98" (n.latchInput != usizeMax)
  return n.latchInput

/-- `get_latch_reset` — aig_node.rs:102-106. -/
def getLatchReset (n : AIGNode) : Res Nat := do
  assertR "aig_node.rs:103" (n.nodeType == .latch)
  assertR "aig_node.rs:104" (n.latchReset != usizeMax)
  return n.latchReset

/-- `get_and_rhs0` — aig_node.rs:108-112. -/
def getAndRhs0 (n : AIGNode) : Res Nat := do
  assertR "aig_node.rs:109" (n.nodeType == .and)
  assertR "aig_node.rs:110" (n.andInput0 != usizeMax)
  return n.andInput0

/-- `get_and_rhs1` — aig_node.rs:114-118. -/
def getAndRhs1 (n : AIGNode) : Res Nat := do
  assertR "aig_node.rs:115" (n.nodeType == .and)
  assertR "aig_node.rs:116" (n.andInput1 != usizeMax)
  return n.andInput1

/-- `set_input_symbol` — aig_node.rs:120-123. -/
def setInputSymbol (n : AIGNode) (s : Text) : Res AIGNode := do
  assertR "aig_node.rs:121" (n.nodeType == .input)
  return { n with inputSymbol := s }

/-- `get_input_symbol` — aig_node.rs:125-128. -/
def getInputSymbol (n : AIGNode) : Res Text := do
  assertR "aig_node.rs:126" (n.nodeType == .input)
  return n.inputSymbol

/-- `set_latch_symbol` — aig_node.rs:130-133. -/
def setLatchSymbol (n : AIGNode) (s : Text) : Res AIGNode := do
  assertR "aig_node.rs:131" (n.nodeType == .latch)
  return { n with latchSymbol := s }

/-- `get_latch_symbol` — aig_node.rs:135-138. -/
def getLatchSymbol (n : AIGNode) : Res Text := do
  assertR "aig_node.rs:136" (n.nodeType == .latch)
  return n.latchSymbol

/-- `set_output_symbol` — aig_node.rs:140-142. -/
abbrev setOutputSymbol (n : AIGNode) (s : Text) : AIGNode := { n with outputSymbol := s }

/-- `get_output_symbol` — aig_node.rs:144-146. -/
abbrev getOutputSymbol (n : AIGNode) : Text := n.outputSymbol

/-- `set_bad_symbol` — aig_node.rs:148-150. -/
abbrev setBadSymbol (n : AIGNode) (s : Text) : AIGNode := { n with badSymbol := s }

/-- `get_bad_symbol` — aig_node.rs:152-154. -/
abbrev getBadSymbol (n : AIGNode) : Text := n.badSymbol

/-- `set_constraint_symbol` — aig_node.rs:156-158. -/
abbrev setConstraintSymbol (n : AIGNode) (s : Text) : AIGNode := { n with constraintSymbol := s }

/-- `get_constraint_symbol` — aig_node.rs:160-162. -/
abbrev getConstraintSymbol (n : AIGNode) : Text := n.constraintSymbol

end AIGNode

/-- `struct AndInverterGraph` — src/models/and_inverter_graph/mod.rs:17-42. -/
structure Aig where
  maximumVariableIndex : Nat
  numberOfInputs : Nat
  numberOfLatches : Nat
  numberOfOutputs : Nat
  numberOfAndGates : Nat
  numberOfBad : Nat
  numberOfConstraints : Nat
  numberOfJustice : Nat
  numberOfFairness : Nat
  nodes : List AIGNode
  inputs : List Nat
  latches : List Nat
  ands : List Nat
  outputs : List Nat
  bad : List Nat
  constraints : List Nat
  comments : Text
deriving DecidableEq, Repr

namespace Aig

/-- `get_input_information` — getting.rs:33-40. -/
def getInputInformation (a : Aig) : Res (List Nat) :=
  a.inputs.mapM (fun i => do
    let input ← indexR "getting.rs:36 index" a.nodes i
    return input.lit)

/-- `get_latch_information` — getting.rs:66-78. -/
def getLatchInformation (a : Aig) : Res (List (Nat × Nat × Nat)) :=
  a.latches.mapM (fun i => do
    let latch ← indexR "getting.rs:69 index" a.nodes i
    let latchInput ← latch.getLatchInput
    let latchReset ← latch.getLatchReset
    return (latch.lit, latchInput, latchReset))

/-- `get_bad_information` — getting.rs:99-101. -/
def getBadInformation (a : Aig) : List Nat := a.bad

/-- `get_constraints_information` — getting.rs:118-120. -/
def getConstraintsInformation (a : Aig) : List Nat := a.constraints

/-- `get_output_information` — getting.rs:139-141. -/
def getOutputInformation (a : Aig) : List Nat := a.outputs

/-- `get_highest_variable_number` — getting.rs:160-162. -/
def getHighestVariableNumber (a : Aig) : Nat := a.maximumVariableIndex

/-- The `while` loop of `get_and_information_in_cone_of_influence` — getting.rs:223-244.  `todo` is
`current_wanted_literals[i..]`; `fuel` bounds the number of iterations. -/
def coneLoop (a : Aig) : Nat → List Nat → List (Nat × Nat × Nat) → Res (List (Nat × Nat × Nat))
  | _, [], gates => .ok gates
  | 0, _ :: _, _ => .error .fuel
  | fuel + 1, l :: todo, gates => do
    let node ← indexR "getting.rs:224 index" a.nodes (l >>> 1)
    match node.nodeType with
    | .and =>
      let in0 ← node.getAndRhs0
      let in1 ← node.getAndRhs1
      if (node.lit, in0, in1) ∈ gates then coneLoop a fuel todo gates
      else coneLoop a fuel (todo ++ [in0, in1]) (setInsert gates (node.lit, in0, in1))
    | _ => coneLoop a fuel todo gates

/-- `get_and_information_in_cone_of_influence` — getting.rs:215-246.  Each AND gate is expanded once, so at most
`desired.len() + 2 * nodes.len()` literals are ever looked at (`C23_terminates`).  The returned vector is in `HashSet` order;
`hashOrder` is that order. -/
def getAndInformationInCone (hashOrder : List (Nat × Nat × Nat) → List (Nat × Nat × Nat)) (a : Aig) (desired : List Nat) :
    Res (List (Nat × Nat × Nat)) := do
  return hashOrder (← a.coneLoop (desired.length + 2 * a.nodes.length) desired [])

end Aig

end Verif
