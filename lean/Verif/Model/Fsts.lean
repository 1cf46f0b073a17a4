import Verif.Model.Aig
import Verif.Model.FormulaLogic

/-!
# Model of `src/models/finite_state_transition_system/*.rs`
-/

namespace Verif

/-- `FiniteStateTransitionSystem` — finite_state_transition_system/mod.rs:19-32.  The three `HashSet`s are duplicate-free lists
that are only ever asked for membership. -/
structure Fsts where
  initialLiterals : List Literal
  initialStates : Cube
  transition : CNF
  stateToSafety : CNF
  unsafety : Clause
  maxLiteral : Nat
  stateLits : List Nat
  inputLits : List Nat
  coneSafety : List Nat
  coneTransition : List Nat
deriving DecidableEq, Repr

/-- What `from_aig` takes from outside: the iteration orders of the hash sets of gates returned by the two calls of
`get_and_information_in_cone_of_influence` (construction.rs:35), and the Varisat solver called by the debug assertion at
construction.rs:170-172. -/
structure BuildEnv where
  gateOrder1 : List (Nat × Nat × Nat) → List (Nat × Nat × Nat)
  gateOrder2 : List (Nat × Nat × Nat) → List (Nat × Nat × Nat)
  varisat : CNF → Res SatResponse

namespace Fsts

/-! ## construction.rs -/

/-- `get_literal_from_aig_literal` — construction.rs:26-29. -/
def literalOfAig (dbg : Bool) (l : Nat) : Res Literal := do
  if l >>> 1 < u32Size then
    let lit ← Literal.new dbg (l >>> 1)
    return lit.negateIfTrue (l % 2 == 1)
  else panicR "construction.rs:27 try_into"

/-- Body of the gate loop of `get_cnf_that_describes_wire_values_…` — construction.rs:39-67. -/
def encodeGate (dbg : Bool) (cnf : CNF) (gate : Nat × Nat × Nat) : Res CNF := do
  let (lhs, rhs0, rhs1) := gate
  let andOutput ← literalOfAig dbg lhs
  assertR "construction.rs:42" (!andOutput.isNegated)
  if rhs0 == 0 || rhs1 == 0 then
    return cnf.addClause (Clause.new [andOutput.not])
  else if rhs0 == 1 && rhs1 == 1 then
    return cnf.addClause (Clause.new [andOutput])
  else if rhs0 == 1 then
    let in1 ← literalOfAig dbg rhs1
    return (cnf.addClause (Clause.new [in1.not, andOutput])).addClause (Clause.new [in1, andOutput.not])
  else if rhs1 == 1 then
    let in0 ← literalOfAig dbg rhs0
    return (cnf.addClause (Clause.new [in0.not, andOutput])).addClause (Clause.new [in0, andOutput.not])
  else
    let in1 ← literalOfAig dbg rhs1
    let in0 ← literalOfAig dbg rhs0
    return ((cnf.addClause (Clause.new [andOutput.not, in0])).addClause (Clause.new [andOutput.not, in1])).addClause
      (Clause.new [andOutput, in0.not, in1.not])

/-- `get_cnf_that_describes_wire_values_as_a_function_of_latch_values_for_specific_wires` — construction.rs:31-70. -/
def wireCnf (dbg : Bool) (order : List (Nat × Nat × Nat) → List (Nat × Nat × Nat)) (aig : Aig) (wires : List Nat) : Res CNF := do
  let andInfo ← aig.getAndInformationInCone order wires
  andInfo.foldlM (encodeGate dbg) CNF.new

/-- Body of the loop of `create_initial_cnf` — construction.rs:76-88. -/
def initialStep (dbg : Bool) (lits : List Literal) (latch : Nat × Nat × Nat) : Res (List Literal) := do
  let (latchLiteral, _, latchReset) := latch
  if latchReset != latchLiteral then
    let lit ← literalOfAig dbg latchLiteral
    if latchReset == 0 then return lits ++ [lit.not]
    else if latchReset == 1 then return lits ++ [lit]
    else panicR "construction.rs:85 unreachable"
  else return lits

/-- `create_initial_cnf` — construction.rs:72-91. -/
def createInitial (dbg : Bool) (aig : Aig) : Res Cube := do
  let latchInfo ← aig.getLatchInformation
  return Cube.new (← latchInfo.foldlM (initialStep dbg) [])

/-- Body of the latch loop of `create_transition_cnf` — construction.rs:100-120. -/
def transitionStep (dbg : Bool) (max : Nat) (acc : CNF × List Nat) (latch : Nat × Nat × Nat) : Res (CNF × List Nat) := do
  let (cnf, wires) := acc
  let (latchLiteral, latchInput, _) := latch
  debugAssertR dbg "construction.rs:101" (latchLiteral % 2 == 0)
  let before ← literalOfAig dbg latchLiteral
  let shifted ← Literal.new dbg (← u32Add dbg "construction.rs:103 overflow" before.number max)
  let after := shifted.negateIfTrue before.isNegated
  let wires := wires ++ [latchInput]
  if latchInput == 0 then return (cnf.addClause (Clause.new [after.not]), wires)
  else if latchInput == 1 then return (cnf.addClause (Clause.new [after]), wires)
  else
    let input ← literalOfAig dbg latchInput
    return ((cnf.addClause (Clause.new [after.not, input])).addClause (Clause.new [after, input.not]), wires)

/-- `create_transition_cnf` — construction.rs:93-129. -/
def createTransition (dbg : Bool) (be : BuildEnv) (aig : Aig) (max : Nat) : Res CNF := do
  let latchInfo ← aig.getLatchInformation
  let (cnf, wires) ← latchInfo.foldlM (transitionStep dbg max) (CNF.new, [])
  return cnf.append (← wireCnf dbg be.gateOrder1 aig wires)

/-- `create_state_to_safety_translation` — construction.rs:131-150. -/
def createStateToSafety (dbg : Bool) (be : BuildEnv) (aig : Aig) (outputBad : Bool) : Res CNF :=
  let wires := aig.getBadInformation ++ aig.getConstraintsInformation ++ (if outputBad then aig.getOutputInformation else [])
  wireCnf dbg be.gateOrder2 aig wires

/-- `create_unsafety_property` — construction.rs:152-177. -/
def createUnsafety (dbg : Bool) (be : BuildEnv) (aig : Aig) (outputBad : Bool) : Res Clause := do
  let badInfo := aig.getBadInformation ++ (if outputBad then aig.getOutputInformation else [])
  if !badInfo.isEmpty then
    return Clause.new (← badInfo.mapM (literalOfAig dbg))
  else
    let result := Clause.new []
    if dbg then assertR "construction.rs:170" ((← be.varisat result.toCnf) == .unsat)
    return result

/-- Body of the loops of `create_input_and_state_literal_numbers` — construction.rs:183-187, 190-194. -/
def literalNumber (dbg : Bool) (site : String) (l : Nat) : Res Nat := do
  let lit ← literalOfAig dbg l
  assertR site (!lit.isNegated)
  return lit.number

/-- `create_input_and_state_literal_numbers` — construction.rs:179-196. -/
def createInputAndState (dbg : Bool) (aig : Aig) : Res (List Nat × List Nat) := do
  let inputs ← (← aig.getInputInformation).mapM (literalNumber dbg "construction.rs:185")
  let states ← (← aig.getLatchInformation).mapM (fun x => literalNumber dbg "construction.rs:192" x.1)
  return (inputs, states)

/-- `from_aig` — construction.rs:216-267. -/
def fromAig (dbg : Bool) (be : BuildEnv) (aig : Aig) (outputBad : Bool) : Res Fsts := do
  let maxVar := aig.getHighestVariableNumber
  assertR "construction.rs:219 AIG has variables with numbers that are too high" (decide (maxVar < (u32Size - 1) >>> 1))
  assertR "construction.rs:223 constraints are not supported" aig.getConstraintsInformation.isEmpty
  let (inputLits, stateLits) ← createInputAndState dbg aig
  let initialStates ← createInitial dbg aig
  let transition ← createTransition dbg be aig maxVar
  let stateToSafety ← createStateToSafety dbg be aig outputBad
  let unsafety ← createUnsafety dbg be aig outputBad
  let initialLiterals := initialStates.iter.foldl setInsert []
  let coneSafety := (allVariableNumbers stateToSafety).filter (fun v => stateLits.contains v)
  let coneTransition := (allVariableNumbers transition).filter (fun v => stateLits.contains v)
  return ⟨initialLiterals, initialStates, transition, stateToSafety, unsafety, maxVar, stateLits, inputLits, coneSafety,
    coneTransition⟩

/-! ## getting.rs -/

/-- `get_initial_relation` — getting.rs:31-33. -/
def getInitialRelation (f : Fsts) : Cube := f.initialStates
/-- `get_transition_relation` — getting.rs:55-57. -/
def getTransitionRelation (f : Fsts) : CNF := f.transition
/-- `get_state_to_safety_translation` — getting.rs:59-61. -/
def getStateToSafetyTranslation (f : Fsts) : CNF := f.stateToSafety
/-- `get_safety_property` — getting.rs:63-65. -/
def getSafetyProperty (f : Fsts) : Cube := f.unsafety.not
/-- `get_unsafety_property` — getting.rs:67-69. -/
def getUnsafetyProperty (f : Fsts) : Clause := f.unsafety
/-- `get_max_literal_number` — getting.rs:19-21. -/
def getMaxLiteralNumber (f : Fsts) : Nat := f.maxLiteral
/-- `get_state_literal_numbers` — getting.rs:23-25. -/
def getStateLiteralNumbers (f : Fsts) : List Nat := f.stateLits
/-- `get_input_literal_numbers` — getting.rs:27-29. -/
def getInputLiteralNumbers (f : Fsts) : List Nat := f.inputLits

/-! ## features.rs -/

/-- Body of the loop of `bump_all_clause_variables_by_some_number` — features.rs:26-33. -/
def bumpLiteral (dbg : Bool) (n : Nat) (l : Literal) : Res Literal := do
  assertR "features.rs:27" (l.number != 0)
  let newLit ← Literal.new dbg (← u32Add dbg "features.rs:29 overflow" l.number n)
  return newLit.negateIfTrue l.isNegated

/-- `bump_all_clause_variables_by_some_number` — features.rs:21-35. -/
def bumpClause (dbg : Bool) (c : Clause) (n : Nat) : Res Clause := do
  return Clause.new (← c.iter.mapM (bumpLiteral dbg n))

/-- `bump_all_cnf_variables_by_some_number` — features.rs:37-53. -/
def bumpCnf (dbg : Bool) (f : CNF) (n : Nat) : Res CNF :=
  if n == 0 then .ok f
  else f.iter.foldlM (fun acc c => do return acc.addClause (← bumpClause dbg c n)) CNF.new

/-- `add_tags_to_relation` — features.rs:59-64. -/
def addTagsToRelation (dbg : Bool) (f : Fsts) (relation : CNF) (tags : Nat) : Res CNF := do
  bumpCnf dbg relation (← u32Mul dbg "features.rs:62 overflow" f.maxLiteral tags)

/-- `add_tags_to_cube` — features.rs:66-77. -/
def addTagsToCube (dbg : Bool) (f : Fsts) (cube : Cube) (tags : Nat) : Res Cube :=
  if tags == 0 then .ok cube
  else do
    let bumped ← bumpClause dbg cube.not (← u32Mul dbg "features.rs:73 overflow" f.maxLiteral tags)
    return bumped.not

/-- `add_tags_to_clause` — features.rs:79-89. -/
def addTagsToClause (dbg : Bool) (f : Fsts) (clause : Clause) (tags : Nat) : Res Clause :=
  if tags == 0 then .ok clause
  else do bumpClause dbg clause (← u32Mul dbg "features.rs:86 overflow" f.maxLiteral tags)

/-- `is_cube_initial` — features.rs:91-99. -/
def isCubeInitial (f : Fsts) (cube : Cube) : Bool := cube.iter.all (fun l => !(f.initialLiterals.contains l.not))

/-- Body of the loop of `extract_state_from_assignment` — features.rs:104-109. -/
def stateLiteral (dbg : Bool) (a : Assignment) (n : Nat) : Res Literal := do
  let lit ← Literal.new dbg n
  let value ← unwrapR "features.rs:107 unwrap" (a.getValue n)
  return lit.negateIfTrue (!value)

/-- `extract_state_from_assignment` — features.rs:101-112. -/
def extractState (dbg : Bool) (f : Fsts) (a : Assignment) : Res Cube := do
  return Cube.new (← f.stateLits.mapM (stateLiteral dbg a))

/-- `intersect_cube_with_cone_of_safety` — features.rs:114-121. -/
def intersectSafety (f : Fsts) (c : Cube) : Cube := Cube.new (c.iter.filter (fun l => f.coneSafety.contains l.number))

/-- `intersect_cube_with_cone_of_transition` — features.rs:123-133. -/
def intersectTransition (f : Fsts) (c : Cube) : Cube := Cube.new (c.iter.filter (fun l => f.coneTransition.contains l.number))

/-- `check_invariant` — features.rs:158-188. -/
def checkInvariant (dbg : Bool) (env : Env) (f : Fsts) (inv : CNF) : M Unit := do
  let init := f.getInitialRelation.toCnf.append f.getStateToSafetyTranslation
  let r1 ← doesAImplyB env init inv
  liftM (assertR "features.rs:165 Invariant does not cover all of init." r1)
  let tagged ← liftM (f.addTagsToRelation dbg f.getStateToSafetyTranslation 1)
  let a := ((f.getTransitionRelation.append inv).append f.getStateToSafetyTranslation).append tagged
  let b ← liftM (f.addTagsToRelation dbg inv 1)
  let r2 ← doesAImplyB env a b
  liftM (assertR "features.rs:176 Invariant doesn't cover all of the reachable states." r2)
  let bad := f.getUnsafetyProperty.toCnf.append f.getStateToSafetyTranslation
  let r3 ← isAAndBSatisfiable env inv bad
  liftM (assertR "features.rs:184 Invariant isn't always safe." (!r3))

end Fsts

end Verif
