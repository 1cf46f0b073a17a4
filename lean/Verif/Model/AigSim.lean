import Verif.Model.Aig

/-!
# Model of `src/models/and_inverter_graph/simulation.rs`

`HashMap<usize, bool>` is an association list; a real map has no key twice, theorems assume that (`Nodup` keys).
-/

namespace Verif

/-- `HashMap<usize, bool>` — simulation.rs:42-43, 85, 122-123. -/
abbrev BoolMap := List (Nat × Bool)

/-- `HashMap::get` — simulation.rs:56, 70, 97. -/
def BoolMap.get? (m : BoolMap) (k : Nat) : Option Bool := (m.find? (fun p => p.1 == k)).map (·.2)

/-- `map[&k]`: panics when the key is absent — simulation.rs:56, 70, 97. -/
def BoolMap.index (site : String) (m : BoolMap) (k : Nat) : Res Bool := unwrapR site (m.get? k)

/-- `HashMap::contains_key` — simulation.rs:67, 135, 148. -/
def BoolMap.containsKey (m : BoolMap) (k : Nat) : Bool := (m.get? k).isSome

namespace Aig

/-- `if rhs % 2 == 0 { state[rhs >> 1] } else { !state[rhs >> 1] }` — simulation.rs:27-36 and 101-105. -/
def readLit (site : String) (state : List Bool) (l : Nat) : Res Bool := do
  let b ← indexR site state (l >>> 1)
  return if l % 2 = 0 then b else !b

/-- `get_and_result` — simulation.rs:24-38. -/
def getAndResult (node : AIGNode) (current : List Bool) : Res Bool := do
  let rhs0 ← node.getAndRhs0
  let rhs1 ← node.getAndRhs1
  let v0 ← readLit "simulation.rs:28 index" current rhs0
  let v1 ← readLit "simulation.rs:33 index" current rhs1
  return v0 && v1

/-- Body of the loop of `get_initial_simulation_state` — simulation.rs:46-77. -/
def initialNode (input latches : BoolMap) (result : List Bool) (p : AIGNode × Nat) : Res (List Bool) := do
  let (node, i) := p
  let var := node.lit >>> 1
  assertR "simulation.rs:48" (var == i)
  assertR "simulation.rs:49" (result.length == var)
  match node.nodeType with
  | .constantZero => do
    assertR "simulation.rs:52" (result.length == 0)
    return result ++ [false]
  | .input => return result ++ [← input.index "simulation.rs:56 map index" var]
  | .latch => do
    let reset ← node.getLatchReset
    if reset = 1 then return result ++ [true]
    else if reset = 0 then return result ++ [false]
    else do
      assertR "simulation.rs:65" (reset >>> 1 == var)
      assertR "simulation.rs:66 Initial latch value is unknown, it must be provided." (latches.containsKey var)
      return result ++ [← latches.index "simulation.rs:70 map index" var]
  | .and => return result ++ [← getAndResult node result]

/-- `get_initial_simulation_state` — simulation.rs:40-80. -/
def getInitialSimulationState (a : Aig) (input latches : BoolMap) : Res (List Bool) := do
  let result ← a.nodes.zipIdx.foldlM (initialNode input latches) []
  assertR "simulation.rs:78" (result.length == a.nodes.length)
  return result

/-- Body of the loop of `get_next_simulation_state` — simulation.rs:88-111. -/
def nextNode (last : List Bool) (input : BoolMap) (result : List Bool) (node : AIGNode) : Res (List Bool) := do
  let var := node.lit >>> 1
  assertR "simulation.rs:90" (result.length == var)
  match node.nodeType with
  | .constantZero => do
    assertR "simulation.rs:93" (result.length == 0)
    return result ++ [false]
  | .input => return result ++ [← input.index "simulation.rs:97 map index" var]
  | .latch => do
    let latchIn ← node.getLatchInput
    return result ++ [← readLit "simulation.rs:102 index" last latchIn]
  | .and => return result ++ [← getAndResult node result]

/-- `get_next_simulation_state` — simulation.rs:82-114. -/
def getNextSimulationState (a : Aig) (last : List Bool) (input : BoolMap) : Res (List Bool) := do
  let result ← a.nodes.foldlM (nextNode last input) []
  assertR "simulation.rs:112" (result.length == a.nodes.length)
  return result

/-- Check of one clock's inputs — simulation.rs:130-137. -/
def checkClock (a : Aig) (clk : BoolMap) : Res Unit := do
  assertR "simulation.rs:131" (clk.length == a.numberOfInputs)
  assertR "simulation.rs:132" (a.inputs.length == a.numberOfInputs)
  a.inputs.forM (fun v => assertR "simulation.rs:135" (clk.containsKey v))

/-- Check of one latch — simulation.rs:144-150.  The reset *literal* is compared with the latch's node *index*. -/
def checkLatch (a : Aig) (latches : BoolMap) (v : Nat) : Res Unit := do
  let node ← indexR "simulation.rs:145 index" a.nodes v
  let reset ← node.getLatchReset
  if reset = v then assertR "simulation.rs:148" (latches.containsKey v) else return ()

/-- Body of the simulation loop — simulation.rs:157-167. -/
def simulateClock (a : Aig) (inputs : List BoolMap) (latches : BoolMap) (result : List (List Bool)) (p : BoolMap × Nat) :
    Res (List (List Bool)) := do
  let (current, clk) := p
  if clk = 0 then
    let first ← indexR "simulation.rs:158 index" inputs 0
    return result ++ [← a.getInitialSimulationState first latches]
  else
    let last ← unwrapR "simulation.rs:161 unwrap" result.getLast?
    return result ++ [← a.getNextSimulationState last current]

/-- `simulate` — simulation.rs:120-169. -/
def simulate (a : Aig) (inputs : List BoolMap) (latches : BoolMap) : Res (List (List Bool)) := do
  assertR "simulation.rs:126 Inputs cannot be empty to start simulation." (!inputs.isEmpty)
  inputs.forM a.checkClock
  assertR "simulation.rs:139 Too many initial latches provided." (decide (latches.length ≤ a.numberOfLatches))
  assertR "simulation.rs:143" (a.latches.length == a.numberOfLatches)
  a.latches.forM (a.checkLatch latches)
  inputs.zipIdx.foldlM (a.simulateClock inputs latches) []

end Aig

end Verif
