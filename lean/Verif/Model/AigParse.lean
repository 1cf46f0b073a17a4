import Verif.Model.Aig

/-!
# Model of `src/models/and_inverter_graph/construction.rs`: reading binary AIGER

A file is a list of bytes.  `fs::read` (construction.rs:437-441) is outside the model: the entry point is
`from_vector_of_bytes`.  Memory exhaustion is not modelled, but the capacity overflow panic of `Vec::with_capacity` is.
-/

namespace Verif

/-- Loop of `split_vector_by_newline` — construction.rs:21-28; `cur` is `current_line`. -/
def splitNlAux (cur : Text) : Text → List Text
  | [] => if cur.isEmpty then [] else [cur]
  | b :: bs => if b = chNl then cur :: splitNlAux [] bs else splitNlAux (cur ++ [b]) bs

/-- `split_vector_by_newline` — construction.rs:18-33. -/
def splitNl (bytes : Text) : List Text := splitNlAux [] bytes

/-- `str::split(' ').collect()`: pieces between separators, empty pieces kept — construction.rs:69, 161, 352. -/
def splitSpaceAux (cur : Text) : Text → List Text
  | [] => [cur]
  | b :: bs => if b = chSpace then cur :: splitSpaceAux [] bs else splitSpaceAux (cur ++ [b]) bs

/-- `str::split(' ')` — construction.rs:69, 161, 352. -/
def splitSpace (t : Text) : List Text := splitSpaceAux [] t

/-- Digit accumulation of `usize::from_str`: an invalid digit or overflow is an error — construction.rs:64. -/
def parseDigits (acc : Nat) : Text → Option Nat
  | [] => some acc
  | c :: cs =>
    if 48 ≤ c.toNat ∧ c.toNat ≤ 57 ∧ 10 * acc + (c.toNat - 48) < usizeSize then parseDigits (10 * acc + (c.toNat - 48)) cs
    else none

/-- `str::parse::<usize>()`: non-empty decimal digits with an optional leading `+` — construction.rs:64. -/
def parseUsize : Text → Option Nat
  | [] => none
  | [c] => parseDigits 0 [c]
  | c :: cs => if c = 43 then parseDigits 0 cs else parseDigits 0 (c :: cs)

/-- `convert_string_to_number` — construction.rs:63-65. -/
def convertStringToNumber (t : Text) : Res Nat := unwrapR "construction.rs:64 parse unwrap" (parseUsize t)

/-- Is the byte a UTF-8 continuation byte in the given range? — construction.rs:68, 159, 193, 208, 227, 342, 348. -/
def inRange (lo hi : Nat) (b : UInt8) : Bool := decide (lo ≤ b.toNat ∧ b.toNat ≤ hi)

/-- `std::str::from_utf8(..).is_ok()`: well-formed UTF-8 (Unicode table 3-7) — construction.rs:68, 159, 193, 208, 227, 342, 348. -/
def utf8Valid : Text → Bool
  | [] => true
  | b0 :: t0 =>
    if b0.toNat < 0x80 then utf8Valid t0
    else match t0 with
      | [] => false
      | b1 :: t1 =>
        if inRange 0xC2 0xDF b0 then inRange 0x80 0xBF b1 && utf8Valid t1
        else match t1 with
          | [] => false
          | b2 :: t2 =>
            if inRange 0xE0 0xEF b0 then
              (if b0.toNat = 0xE0 then inRange 0xA0 0xBF b1
               else if b0.toNat = 0xED then inRange 0x80 0x9F b1 else inRange 0x80 0xBF b1)
                && inRange 0x80 0xBF b2 && utf8Valid t2
            else match t2 with
              | [] => false
              | b3 :: t3 =>
                inRange 0xF0 0xF4 b0 &&
                (if b0.toNat = 0xF0 then inRange 0x90 0xBF b1
                 else if b0.toNat = 0xF4 then inRange 0x80 0x8F b1 else inRange 0x80 0xBF b1)
                && inRange 0x80 0xBF b2 && inRange 0x80 0xBF b3 && utf8Valid t3

/-- `std::str::from_utf8(line).unwrap()`; the text itself stays a byte list — construction.rs:68, 159, 193, 208, 227, 342, 348. -/
def fromUtf8 (site : String) (t : Text) : Res Text := do
  assertR site (utf8Valid t)
  return t

/-- `a + b` on `usize`: overflow panics when `dbg`, wraps otherwise — construction.rs:105, 119, 137, 152. -/
def usizeAdd (dbg : Bool) (site : String) (a b : Nat) : Res Nat :=
  if a + b < usizeSize then .ok (a + b)
  else if dbg then panicR site else .ok ((a + b) % usizeSize)

/-- `Vec::with_capacity(n)` for elements of `size` bytes: panics with "capacity overflow" beyond `isize::MAX` bytes — construction.rs:119-127. -/
def withCapacity (site : String) (n size : Nat) : Res Unit := assertR site (decide (n * size ≤ 9223372036854775807))

namespace Aig

/-- `AndInverterGraph::new` — construction.rs:36-61. -/
def empty : Aig :=
  ⟨usizeMax, usizeMax, usizeMax, usizeMax, usizeMax, usizeMax, usizeMax, usizeMax, usizeMax, [], [], [], [], [], [], [], []⟩

/-- The ASCII bytes of `"aig"` — construction.rs:73. -/
def aigText : Text := [97, 105, 103]

/-- `check_first_line_of_aig_and_load_it` — construction.rs:67-116. -/
def loadFirstLine (dbg : Bool) (lines : List Text) (a : Aig) : Res Aig := do
  let first ← fromUtf8 "construction.rs:68 from_utf8" (← indexR "construction.rs:68 index" lines 0)
  let params := splitSpace first
  let p0 ← indexR "construction.rs:73 index" params 0
  assertR "construction.rs:72 must start with the word 'aig'" (p0 == aigText)
  assertR "construction.rs:76 too few arguments" (decide (params.length > 5))
  assertR "construction.rs:81 too many arguments" (decide (params.length < 10))
  let m ← convertStringToNumber (← indexR "construction.rs:87 index" params 1)
  let i ← convertStringToNumber (← indexR "construction.rs:88 index" params 2)
  let l ← convertStringToNumber (← indexR "construction.rs:89 index" params 3)
  let o ← convertStringToNumber (← indexR "construction.rs:90 index" params 4)
  let n ← convertStringToNumber (← indexR "construction.rs:91 index" params 5)
  let b ← convertStringToNumber (params[6]?.getD [chZero])
  let c ← convertStringToNumber (params[7]?.getD [chZero])
  let j ← convertStringToNumber (params[8]?.getD [chZero])
  let f ← convertStringToNumber (params[9]?.getD [chZero])
  let s ← usizeAdd dbg "construction.rs:105 overflow" i l
  let s ← usizeAdd dbg "construction.rs:105 overflow" s n
  assertR "construction.rs:103 The number of variables does not add up." (m == s)
  assertR "construction.rs:108 Fairness is currently unsupported." (f == 0)
  assertR "construction.rs:112 Justice is currently unsupported." (j == 0)
  return { a with maximumVariableIndex := m, numberOfInputs := i, numberOfLatches := l, numberOfOutputs := o,
                  numberOfAndGates := n, numberOfBad := b, numberOfConstraints := c, numberOfJustice := j,
                  numberOfFairness := f }

/-- `allocate_vectors` — construction.rs:118-130.  `size_of::<AIGNode>() = 168`. -/
def allocateVectors (dbg : Bool) (a : Aig) : Res Aig := do
  let cap ← usizeAdd dbg "construction.rs:119 overflow" a.maximumVariableIndex 1
  withCapacity "construction.rs:119 capacity overflow" cap 168
  let zero ← AIGNode.new 0 .constantZero
  withCapacity "construction.rs:122 capacity overflow" a.numberOfInputs 8
  withCapacity "construction.rs:123 capacity overflow" a.numberOfLatches 8
  withCapacity "construction.rs:124 capacity overflow" a.numberOfOutputs 8
  withCapacity "construction.rs:125 capacity overflow" a.numberOfAndGates 8
  withCapacity "construction.rs:126 capacity overflow" a.numberOfBad 8
  withCapacity "construction.rs:127 capacity overflow" a.numberOfConstraints 8
  return { a with nodes := [zero], inputs := [], latches := [], outputs := [], ands := [], bad := [], constraints := [] }

/-- Body of the loop of `create_input_nodes_of_aig` — construction.rs:137-139. -/
def inputStep (a : Aig) (i : Nat) : Res Aig := do
  let lit := 2 * (i + 1)
  let a := { a with inputs := a.inputs ++ [a.nodes.length] }
  let node ← AIGNode.new lit .input
  return { a with nodes := a.nodes ++ [node] }

/-- `create_input_nodes_of_aig` — construction.rs:134-141. -/
def createInputNodes (a : Aig) : Res Aig := (List.range a.numberOfInputs).foldlM inputStep a

/-- `check_literal` — construction.rs:143-147. -/
def checkLiteral (a : Aig) (lit : Nat) : Res Unit :=
  assertR "construction.rs:146 literal is higher than maximum variable index" (decide (lit >>> 1 ≤ a.maximumVariableIndex))

/-- Body of the loop of `create_latch_nodes_of_aig` — construction.rs:151-184.  The node is completed before it is pushed
(the code pushes it and then updates `nodes.last_mut()`). -/
def latchStep (lines : List Text) (a : Aig) (i : Nat) : Res Aig := do
  let lit := 2 * (i + a.numberOfInputs + 1)
  let a := { a with latches := a.latches ++ [a.nodes.length] }
  let node ← AIGNode.new lit .latch
  let line ← fromUtf8 "construction.rs:159 from_utf8" (← indexR "construction.rs:158 index" lines (i + 1))
  let parsed := splitSpace line
  assertR "construction.rs:162 Wrong number of arguments for latch line." (parsed.length == 1 || parsed.length == 2)
  let next ← convertStringToNumber (← indexR "construction.rs:167 index" parsed 0)
  a.checkLiteral next
  let node ← node.setInputOfLatch next
  if parsed.length = 2 then
    let reset ← convertStringToNumber (← indexR "construction.rs:173 index" parsed 1)
    assertR "construction.rs:174 Latch reset may be 0, 1, or equal to literal designated for latch."
      (reset == 0 || reset == 1 || reset == lit)
    let node ← node.setResetOfLatch reset
    return { a with nodes := a.nodes ++ [node] }
  else
    let node ← node.setResetOfLatch 0
    return { a with nodes := a.nodes ++ [node] }

/-- `create_latch_nodes_of_aig` — construction.rs:149-185. -/
def createLatchNodes (lines : List Text) (a : Aig) : Res Aig := (List.range a.numberOfLatches).foldlM (latchStep lines) a

/-- The part common to the three loops that read one literal per line — construction.rs:192-196, 207-212, 226-230. -/
def readLiteralLine (lines : List Text) (a : Aig) (lineNumber : Nat) : Res Nat := do
  let line ← fromUtf8 "construction.rs:193/208/227 from_utf8" (← indexR "construction.rs:192/207/226 index" lines lineNumber)
  let lit ← convertStringToNumber line
  a.checkLiteral lit
  return lit

/-- Body of the loop of `create_output_nodes_of_aig` — construction.rs:188-198. -/
def outputStep (lines : List Text) (a : Aig) (i : Nat) : Res Aig := do
  let lit ← a.readLiteralLine lines (i + 1 + a.numberOfLatches)
  return { a with outputs := a.outputs ++ [lit] }

/-- `create_output_nodes_of_aig` — construction.rs:187-199. -/
def createOutputNodes (lines : List Text) (a : Aig) : Res Aig := (List.range a.numberOfOutputs).foldlM (outputStep lines) a

/-- Body of the loop of `create_bad_nodes_of_aig` — construction.rs:203-214. -/
def badStep (lines : List Text) (a : Aig) (i : Nat) : Res Aig := do
  let lit ← a.readLiteralLine lines (i + 1 + a.numberOfLatches + a.numberOfOutputs)
  return { a with bad := a.bad ++ [lit] }

/-- `create_bad_nodes_of_aig` — construction.rs:201-215. -/
def createBadNodes (lines : List Text) (a : Aig) : Res Aig := (List.range a.numberOfBad).foldlM (badStep lines) a

/-- Body of the loop of `create_invariant_constraint_nodes_of_aig` — construction.rs:218-232. -/
def constraintStep (lines : List Text) (a : Aig) (i : Nat) : Res Aig := do
  let lit ← a.readLiteralLine lines (i + 1 + a.numberOfLatches + a.numberOfOutputs + a.numberOfBad)
  return { a with constraints := a.constraints ++ [lit] }

/-- `create_invariant_constraint_nodes_of_aig` — construction.rs:217-233. -/
def createConstraintNodes (lines : List Text) (a : Aig) : Res Aig :=
  (List.range a.numberOfConstraints).foldlM (constraintStep lines) a

/-- `get_max_literal_of_input_or_latch` — construction.rs:235-237. -/
def getMaxLiteralOfInputOrLatch (a : Aig) : Nat := 2 * (a.numberOfInputs + a.numberOfLatches)

/-- Loop of `get_position_of_start_of_and_segment` — construction.rs:247-252.  First argument: `bytes[read_index..]`, then
the number of newlines still to see and `read_index`. -/
def skipLines : Text → Nat → Nat → Res Nat
  | _, 0, readIndex => .ok readIndex
  | [], _ + 1, _ => panicR "construction.rs:248 index"
  | b :: bs, k + 1, readIndex => if b = chNl then skipLines bs k (readIndex + 1) else skipLines bs (k + 1) (readIndex + 1)

/-- `get_position_of_start_of_and_segment` — construction.rs:239-254. -/
def getPositionOfStartOfAndSegment (a : Aig) (bytes : Text) : Res Nat :=
  skipLines bytes (1 + a.numberOfLatches + a.numberOfOutputs + a.numberOfBad + a.numberOfConstraints) 0

/-- Loop of `read_delta` — construction.rs:259-275.  First argument: `bytes[read_index..]` (its head is `ch`), then `i`,
`delta`, `read_index`.  The shifts stay below 2^38 because `i ≤ 5`. -/
def readDeltaLoop : Text → Nat → Nat → Nat → Res (Nat × Nat)
  | [], _, _, _ => panicR "construction.rs:257/270 Unexpected end of file"
  | ch :: rest, i, delta, readIndex =>
    if ch.toNat &&& 0x80 ≠ 0 then do
      assertR "construction.rs:264 Invalid code" (i != 5)
      readDeltaLoop rest (i + 1) (delta ||| ((ch.toNat &&& 0x7f) <<< (7 * i))) (readIndex + 1)
    else do
      assertR "construction.rs:273" (i != 5 || decide (ch.toNat < 8))
      return (delta ||| (ch.toNat <<< (7 * i)), readIndex + 1)

/-- `read_delta` — construction.rs:256-276. -/
def readDelta (bytes : Text) (readIndex : Nat) : Res (Nat × Nat) := readDeltaLoop (bytes.drop readIndex) 0 0 readIndex

/-- Body of the loop of `create_and_nodes_of_aig` — construction.rs:283-306; the state is the graph, `lhs` and
`read_index`. -/
def andStep (bytes : Text) (st : Aig × Nat × Nat) : Res (Aig × Nat × Nat) := do
  let (a, lhs, readIndex) := st
  let lhs := lhs + 2
  let (delta, readIndex) ← readDelta bytes readIndex
  assertR "construction.rs:287 Invalid delta." (decide (delta ≤ lhs))
  let rhs0 := lhs - delta
  let (delta, readIndex) ← readDelta bytes readIndex
  assertR "construction.rs:292 Invalid delta." (decide (delta ≤ rhs0))
  let rhs1 := rhs0 - delta
  assertR "construction.rs:297 (lhs > rhs0 >= rhs1) does not hold" (decide (lhs > rhs0) && decide (rhs0 ≥ rhs1))
  let node ← AIGNode.new lhs .and
  let node ← node.setRhs0OfAnd rhs0
  let node ← node.setRhs1OfAnd rhs1
  return ({ a with ands := a.ands ++ [a.nodes.length], nodes := a.nodes ++ [node] }, lhs, readIndex)

/-- `create_and_nodes_of_aig` — construction.rs:278-310. -/
def createAndNodes (bytes : Text) (a : Aig) : Res (Aig × Nat) := do
  let start ← a.getPositionOfStartOfAndSegment bytes
  let (a', _, readIndex) ← (List.range a.numberOfAndGates).foldlM (fun st _ => andStep bytes st)
    (a, a.getMaxLiteralOfInputOrLatch, start)
  return (a', readIndex)

/-- `self.nodes[i]` updated by a setter — construction.rs:314-327. -/
def updateNode (a : Aig) (i : Nat) (f : AIGNode → Res AIGNode) : Res Aig := do
  let node ← f (← indexR "construction.rs:314-327 index" a.nodes i)
  return { a with nodes := a.nodes.set i node }

/-- `add_symbol_to_node` — construction.rs:312-331; `ty` is the ASCII code of the symbol type. -/
def addSymbolToNode (a : Aig) (ty : UInt8) (number : Nat) (symbol : Text) : Res Aig := do
  if ty = 105 then
    let i ← indexR "construction.rs:314 index" a.inputs number
    a.updateNode i (fun n => n.setInputSymbol symbol)
  else if ty = 108 then
    let i ← indexR "construction.rs:317 index" a.latches number
    a.updateNode i (fun n => n.setLatchSymbol symbol)
  else if ty = 111 then
    let l ← indexR "construction.rs:320 index" a.outputs number
    a.updateNode (l >>> 1) (fun n => .ok (n.setOutputSymbol symbol))
  else if ty = 98 then
    let l ← indexR "construction.rs:323 index" a.bad number
    a.updateNode (l >>> 1) (fun n => .ok (n.setBadSymbol symbol))
  else if ty = 99 then
    let l ← indexR "construction.rs:326 index" a.constraints number
    a.updateNode (l >>> 1) (fun n => .ok (n.setConstraintSymbol symbol))
  else panicR "construction.rs:329 unreachable"

/-- One line of the symbol table — construction.rs:353-374.  `split("")` into characters is modelled on bytes: the first
character must be one of the ASCII letters `i l o b c`, and the rest is parsed as a number, so any line whose character and
byte views differ there is rejected either way. -/
def symbolLine (a : Aig) (line : Text) : Res Aig := do
  let parsed := splitSpace line
  assertR "construction.rs:354 Wrong number of arguments for symbol line." (parsed.length == 2)
  let key ← indexR "construction.rs:358 index" parsed 0
  let name ← indexR "construction.rs:374 index" parsed 1
  assertR "construction.rs:362 Symbol line should start with [ilobc]<pos>." (decide (key.length > 1))
  let ty ← indexR "construction.rs:367 index" key 0
  assertR "construction.rs:368 Symbol line should start with [ilobc]<pos>."
    (ty == 105 || ty == 108 || ty == 111 || ty == 98 || ty == 99)
  let number ← convertStringToNumber (key.drop 1)
  a.addSymbolToNode ty number name

/-- Loop of `read_symbols_and_comments` — construction.rs:341-376; the argument is `lines[index..]`. -/
def symbolLoop : List Text → Aig → Res Aig
  | [], a => .ok a
  | line :: rest, a => do
    let s ← fromUtf8 "construction.rs:342 from_utf8" line
    if s = [99] then
      let comment ← fromUtf8 "construction.rs:348 from_utf8" (joinText [chNl] (line :: rest))
      return { a with comments := comment.filter (fun b => b != 0) }
    else
      symbolLoop rest (← a.symbolLine s)

/-- `read_symbols_and_comments` — construction.rs:333-377; slicing `bytes[pos..]` panics when `pos > bytes.len()`. -/
def readSymbolsAndComments (bytes : Text) (pos : Nat) (a : Aig) : Res Aig := do
  assertR "construction.rs:340 slice" (decide (pos ≤ bytes.length))
  symbolLoop (splitNl (bytes.drop pos)) a

/-- `assert_eq!(self.nodes[i].get_type(), ty)` for every index of a list — construction.rs:383-397. -/
def checkTypes (a : Aig) (ty : NodeType) (is : List Nat) : Res Unit :=
  is.forM (fun i => do
    let n ← indexR "construction.rs:385/391/397 index" a.nodes i
    assertR "construction.rs:385/391/397" (n.nodeType == ty))

/-- `check_aig` — construction.rs:379-402. -/
def checkAig (a : Aig) : Res Unit := do
  let n ← indexR "construction.rs:380 index" a.nodes 0
  assertR "construction.rs:380" (n.nodeType == .constantZero)
  assertR "construction.rs:382" (a.numberOfInputs == a.inputs.length)
  a.checkTypes .input a.inputs
  assertR "construction.rs:388" (a.numberOfLatches == a.latches.length)
  a.checkTypes .latch a.latches
  assertR "construction.rs:394" (a.numberOfAndGates == a.ands.length)
  a.checkTypes .and a.ands
  assertR "construction.rs:399" (a.numberOfOutputs == a.outputs.length)
  assertR "construction.rs:400" (a.numberOfBad == a.bad.length)
  assertR "construction.rs:401" (a.numberOfConstraints == a.constraints.length)

/-- `from_vector_of_bytes` — construction.rs:404-418. -/
def fromBytes (dbg : Bool) (bytes : Text) : Res Aig := do
  let lines := splitNl bytes
  let a ← loadFirstLine dbg lines empty
  let a ← allocateVectors dbg a
  let a ← createInputNodes a
  let a ← createLatchNodes lines a
  let a ← createOutputNodes lines a
  let a ← createBadNodes lines a
  let a ← createConstraintNodes lines a
  let (a, pos) ← createAndNodes bytes a
  let a ← readSymbolsAndComments bytes pos a
  checkAig a
  return a

end Aig

end Verif
