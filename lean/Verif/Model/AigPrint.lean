import Verif.Model.Aig

/-!
# Model of `src/models/and_inverter_graph/conversion.rs`: `get_aag_string`

Each loop pushes one line to `result` and possibly one line to `symbol_table`; it is modelled as a map returning that pair.
-/

namespace Verif

namespace Aig

/-- `if !symbol.is_empty() { symbol_table.push(format!("{ty}{index} {symbol}")) }` — conversion.rs:47-49, 61-63, 70-72, 79-81, 88-90. -/
def symbolEntry (ty : UInt8) (index : Nat) (symbol : Text) : List Text :=
  if symbol.isEmpty then [] else [ty :: (decimal index ++ chSpace :: symbol)]

/-- First line — conversion.rs:29-42. -/
def aagFirstLine (a : Aig) : Text :=
  joinText [chSpace] (
    [[97, 97, 103], decimal a.maximumVariableIndex, decimal a.numberOfInputs, decimal a.numberOfLatches,
      decimal a.numberOfOutputs, decimal a.numberOfAndGates]
    ++ (if a.numberOfBad + a.numberOfConstraints > 0 then [decimal a.numberOfBad] else [])
    ++ (if a.numberOfConstraints > 0 then [decimal a.numberOfConstraints] else []))

/-- Body of the loop over inputs — conversion.rs:43-50. -/
def aagInput (a : Aig) (p : Nat × Nat) : Res (Text × List Text) := do
  let node ← indexR "conversion.rs:44 index" a.nodes p.1
  let symbol ← node.getInputSymbol
  return (decimal node.lit, symbolEntry 105 p.2 symbol)

/-- Body of the loop over latches — conversion.rs:51-64. -/
def aagLatch (a : Aig) (p : Nat × Nat) : Res (Text × List Text) := do
  let node ← indexR "conversion.rs:53 index" a.nodes p.1
  let next ← node.getLatchInput
  let reset ← node.getLatchReset
  let symbol ← node.getLatchSymbol
  return (joinText [chSpace] ([decimal node.lit, decimal next] ++ (if reset ≠ 0 then [decimal reset] else [])),
    symbolEntry 108 p.2 symbol)

/-- Body of the loop over outputs — conversion.rs:65-73. -/
def aagOutput (a : Aig) (p : Nat × Nat) : Res (Text × List Text) := do
  let node ← indexR "conversion.rs:68 index" a.nodes (p.1 >>> 1)
  return (decimal p.1, symbolEntry 111 p.2 node.getOutputSymbol)

/-- Body of the loop over bad literals — conversion.rs:74-82. -/
def aagBad (a : Aig) (p : Nat × Nat) : Res (Text × List Text) := do
  let node ← indexR "conversion.rs:77 index" a.nodes (p.1 >>> 1)
  return (decimal p.1, symbolEntry 98 p.2 node.getBadSymbol)

/-- Body of the loop over constraints — conversion.rs:83-91. -/
def aagConstraint (a : Aig) (p : Nat × Nat) : Res (Text × List Text) := do
  let node ← indexR "conversion.rs:86 index" a.nodes (p.1 >>> 1)
  return (decimal p.1, symbolEntry 99 p.2 node.getConstraintSymbol)

/-- Body of the loop over AND gates — conversion.rs:92-98. -/
def aagAnd (a : Aig) (i : Nat) : Res Text := do
  let node ← indexR "conversion.rs:93 index" a.nodes i
  let rhs0 ← node.getAndRhs0
  let rhs1 ← node.getAndRhs1
  return decimal node.lit ++ chSpace :: (decimal rhs0 ++ chSpace :: decimal rhs1)

/-- `get_aag_string` — conversion.rs:26-109. -/
def getAagString (a : Aig) : Res Text := do
  assertR "conversion.rs:35" (a.numberOfJustice + a.numberOfFairness == 0)
  let inputs ← a.inputs.zipIdx.mapM a.aagInput
  let latches ← a.latches.zipIdx.mapM a.aagLatch
  let outputs ← a.outputs.zipIdx.mapM a.aagOutput
  let bad ← a.bad.zipIdx.mapM a.aagBad
  let constraints ← a.constraints.zipIdx.mapM a.aagConstraint
  let ands ← a.ands.mapM a.aagAnd
  let rows := inputs ++ latches ++ outputs ++ bad ++ constraints
  let result := [a.aagFirstLine] ++ rows.map (·.1) ++ ands ++ (rows.map (·.2)).flatten ++ [a.comments]
  let final := joinText [chNl] result
  return if final.getLast? = some chNl then final else final ++ [chNl]

end Aig

end Verif
