import Verif.Props.Pdr
import Verif.Props.FrontEnds
import Verif.Props.AigPrint

/-!
# The expectations of the project's own tests, evaluated in the model

Nothing here is a property of its own: these are the concrete values that the test-suite in `/repo/tests` pins down and that do not depend
on timing or random choices, computed by the model.  They tie the model to observed behaviour of the code.
-/

namespace Verif.RepoTests

open Verif.Props

/-- The bytes of a string literal of the test-suite. -/
def text (s : String) : Text := s.toUTF8.data.toList

/-! ## tests/formula_creation.rs -/

/-- `Literal::new(n)` and `!Literal::new(n)`. -/
def p (n : Nat) : Literal := ⟨2 * n⟩
def n (k : Nat) : Literal := ⟨2 * k + 1⟩

example : Literal.new true 3 = .ok (p 3) ∧ (p 3).not = n 3 ∧ (n 3).not = p 3 := by decide
/-- formula_creation.rs:32-37 and 75-84. -/
example : (p 1).display = text "1" ∧ (p 2).not.display = text "-2" ∧ (p 1).not.not.display = text "1" := by decide +kernel
/-- formula_creation.rs:45-49. -/
example : (Clause.new [p 1, n 2, p 3]).display = text "1 -2 3 0" ∧ (Clause.new [n 2, p 1, p 3]).display = text "1 -2 3 0" ∧
    (Clause.new [n 2, p 3, p 1]).display = text "1 -2 3 0" ∧ (Clause.new [n 4, p 5]).display = text "-4 5 0" ∧
    (Clause.new [p 1, n 4, p 5, n 6]).display = text "1 -4 5 -6 0" := by decide +kernel
/-- `CNF::new` and one `add_clause` per list. -/
def cnfOf (cs : List (List Literal)) : CNF := cs.foldl (fun f c => f.addClause (Clause.new c)) CNF.new
/-- formula_creation.rs:66-71. -/
example : (cnfOf [[p 1, n 2, p 3], [n 4, p 5], [p 1, n 4, p 5, n 6]]).display = text "p cnf 6 3\n-4 5 0\n1 -2 3 0\n1 -4 5 -6 0" ∧
    (cnfOf [[p 1, n 2, p 3], [n 4, p 5], [n 4, p 5]]).display = text "p cnf 5 2\n-4 5 0\n1 -2 3 0" ∧
    (cnfOf [[p 1, n 2, p 3], [n 2, p 1, p 3], [n 2, p 3, p 1]]).display = text "p cnf 3 1\n1 -2 3 0" := by decide +kernel

/-! ## tests/aig_creation.rs and tests/fsts_creation.rs -/

/-- tests/examples/ours/counter.aig -/
def counter : Text := text "aig 5 0 3 1 2\n10\n2\n4\n10\n\x01\x02\x02\x05"
/-- tests/examples/ours/counter_with_bad_assertion.aig -/
def counter1 : Text := text "aig 5 0 3 1 2 1\n10\n2\n4\n10\n6\n\x01\x02\x02\x05"
/-- tests/examples/ours/counter_with_2_bad_assertions.aig -/
def counter2 : Text := text "aig 5 0 3 1 2 2\n10\n2\n4\n10\n4\n6\n\x01\x02\x02\x05"

/-- `from_aig_path` and then `get_aag_string`. -/
def aagOf (bytes : Text) : Option Text :=
  match Aig.fromBytes true bytes with
  | .ok a => a.getAagString.toOption
  | .error _ => none

/-- The three files print as the `.aag` files beside them — aig_creation.rs. -/
example : aagOf counter = some (text "aag 5 0 3 1 2\n2 10\n4 2\n6 4\n10\n8 7 5\n10 8 3\n") := by decide +kernel
example : aagOf counter1 = some (text "aag 5 0 3 1 2 1\n2 10\n4 2\n6 4\n10\n6\n8 7 5\n10 8 3\n") := by decide +kernel
example : aagOf counter2 = some (text "aag 5 0 3 1 2 2\n2 10\n4 2\n6 4\n10\n4\n6\n8 7 5\n10 8 3\n") := by decide +kernel

/-- `from_aig_path` and then `from_aig(&aig, false)`. -/
def systemOfFile (bytes : Text) : Option Fsts :=
  match Aig.fromBytes true bytes with
  | .ok a => (Fsts.fromAig true bruteBuild a false).toOption
  | .error _ => none

/-- The four formulas that fsts_creation.rs looks at, printed. -/
def relations (bytes : Text) : Option (Text × Text × Text × Text) :=
  (systemOfFile bytes).map fun f => (f.getInitialRelation.display, f.getSafetyProperty.toCnf.display, f.getUnsafetyProperty.toCnf.display,
    f.getTransitionRelation.display)

def initialText : Text := text "p cnf 3 3\n-1 0\n-2 0\n-3 0"
def transitionText : Text :=
  text "p cnf 8 12\n1 -7 0\n-1 -5 0\n-1 7 0\n2 -8 0\n-2 -4 0\n-2 8 0\n-3 -4 0\n4 -5 0\n5 -6 0\n-5 6 0\n1 -4 5 0\n2 3 4 0"

/-- fsts_creation.rs:57-69. -/
example : relations counter = some (initialText, text "p cnf 0 0\n", text "p cnf 0 1\n 0", transitionText) := by decide +kernel
/-- fsts_creation.rs:95-110. -/
example : relations counter1 = some (initialText, text "p cnf 3 1\n-3 0", text "p cnf 3 1\n3 0", transitionText) := by decide +kernel
/-- fsts_creation.rs:137-152. -/
example : relations counter2 = some (initialText, text "p cnf 3 2\n-2 0\n-3 0", text "p cnf 3 1\n2 3 0", transitionText) := by decide +kernel

/-! ## tests/bmc.rs -/

/-- The search of bmc.rs:117-122 without a timeout, with the stateless CaDiCaL front-end. -/
def bmcOf (bytes : Text) : Option BMCResult :=
  match systemOfFile bytes with
  | some f => (BMC.search true (cadicalEnv true (fun _ => Brute.cadical) (fun _ l => l) (fun _ l => l)) patient f 10 0).toOption.map Prod.fst
  | none => none

/-- A counterexample as the tests write it. -/
def ctxOf (lits : List Int) (depth : Nat) : Option BMCResult :=
  (Assignment.fromDimacs true lits).toOption.map fun a => .ctx a depth

/-- bmc.rs:194-206. -/
example : bmcOf counter1 = ctxOf [-1, -2, -3, 4, 5, 6, -7, -8, 9, -10, -11, 12, -13, -14, -15, -16, -17, 18] 3 := by decide +kernel
/-- bmc.rs:226-238. -/
example : bmcOf counter2 = ctxOf [-1, -2, -3, 4, 5, 6, -7, -8, 9, -10, -11, 12, -13] 2 := by decide +kernel

/-- The simulation of `counter1` from the counterexample's initial state — bmc.rs:147-154: its bad wire, variable 3, is set in the last clock
and in no other. -/
example : (Aig.fromBytes true counter1).toOption.bind (fun a =>
      (a.simulate [[], [], [], []] [(1, false), (2, false), (3, false)]).toOption.map (·.map (·[3]?))) =
    some [some false, some false, some false, some true] := by decide +kernel

/-! ## tests/sat_solving.rs -/

/-- The answer of `SplrSolver::solve_cnf`, without the assignment. -/
def isSat (f : CNF) : Option Bool :=
  match splrSolveCnf true Brute.splr f with
  | .ok (.sat _) => some true
  | .ok .unsat => some false
  | .error _ => none

/-- sat_solving.rs:274-292. -/
example : isSat (cnfOf [[p 1, p 2, p 3], [n 1, p 2, p 3], [p 1, n 2, p 3], [p 1, p 2, n 3]]) = some true := by decide +kernel
/-- sat_solving.rs:295-321. -/
example : isSat (cnfOf [[p 4, n 5], [n 3], [n 3, n 4], [p 1, n 4, p 5], [n 1], [n 2, n 4], [p 2, p 3, p 4], [n 2], [n 1, n 5], [p 3]]) =
    some false := by decide +kernel

/-! ## tests/ic3_stateless.rs

The test only demands that `prove` returns and that an invariant passes `check_invariant`. -/

/-- The verdict of `IC3Stateless`, with the invariant checked as in ic3_stateless.rs:44-49. -/
def ic3Of (env : Env) (bytes : Text) : Option (Option Nat) :=
  match systemOfFile bytes with
  | some f =>
    match IC3.proveStateless true env plain f 10 with
    | .ok (.ctx d) => some (some d)
    | .ok (.proof inv) => match f.checkInvariant true env inv 0 with
      | .ok _ => some none
      | .error _ => none
    | .error _ => none
  | none => none

def cadical : Env := cadicalEnv true (fun _ => Brute.cadical) (fun _ l => l) (fun _ l => l)
def splr : Env := splrEnv true (fun _ => Brute.splr) (fun _ l => l) (fun _ l => l)
def varisat : Env := varisatEnv true (fun _ => Brute.varisat) (fun _ l => l) (fun _ l => l)

/-- The number in the verdict is a lower bound on the length of the counterexample (C39); the shortest ones have 3 and 2 steps. -/
example : (ic3Of cadical counter, ic3Of splr counter, ic3Of varisat counter) = (some none, some none, some none) := by decide +kernel
example : (ic3Of cadical counter1, ic3Of splr counter1, ic3Of varisat counter1) = (some (some 1), some (some 1), some (some 1)) := by
  decide +kernel
example : (ic3Of cadical counter2, ic3Of splr counter2, ic3Of varisat counter2) = (some (some 1), some (some 1), some (some 1)) := by
  decide +kernel

/-- PDR on the same three files.  No test of the project runs PDR on a file whose bad literals are latches (tests/pdr.rs is commented out and
compare_provers.rs only takes folded files); with such files it fails (C42, C44): `counter1` violates its property after three
clocks, and the release build proves it. -/
def pdrOf (dbg : Bool) (bytes : Text) : Option (Res ProofResult) :=
  (systemOfFile bytes).map fun f => PDR.run dbg (MiniSat.impl dbg Brute.ms) plain f 30

example : (pdrOf true counter).map verdict = some (some none) ∧ (pdrOf false counter).map verdict = some (some none) := by decide +kernel
example : (pdrOf true counter1).map site = some (some "pdr.rs:568") ∧ (pdrOf false counter1).map verdict = some (some none) := by
  decide +kernel
example : (pdrOf true counter2).map site = some (some "pdr.rs:568") ∧ (pdrOf false counter2).map verdict = some (some none) := by
  decide +kernel

/-! ## The doc-tests of the library

The ones on `to_string` of the initial and transition relation are those of fsts_creation.rs above. -/

/-- cnf.rs:43-52. -/
example : (cnfOf [[p 1, p 2, p 3], [n 1, p 2, p 3], [p 1, n 2, p 3], [p 1, p 2, n 3]]).display =
    text "p cnf 3 4\n1 2 3 0\n1 2 -3 0\n1 -2 3 0\n-1 2 3 0" := by decide +kernel
/-- cnf.rs:76-92 and 104-120. -/
example : (List.range 5).map (fun k => (cnfOf ([[p 1, p 2, p 3], [n 1, p 2, p 3], [p 1, n 2, p 3], [p 1, p 2, n 3]].take k)).len) =
    [0, 1, 2, 3, 4] := by decide
example : (List.range 5).map (fun k => (cnfOf ([[p 1, p 2, p 3], [n 1, p 2, p 3], [p 1, n 2, p 3], [p 1, p 2, n 3]].take k)).isEmpty) =
    [true, false, false, false, false] := by decide
/-- cnf.rs:161-175. -/
example : ((cnfOf [[p 1, p 2, p 3], [n 1, p 2, p 3]]).append (cnfOf [[p 1, n 2, p 3], [p 1, p 2, n 3]])).len = 4 := by decide

/-- getting.rs:31, 64, 97, 116, 137, 158, on counter.aig. -/
example : (Aig.fromBytes true counter).toOption.bind (fun a => a.getInputInformation.toOption) = some [] ∧
    (Aig.fromBytes true counter).toOption.bind (fun a => a.getLatchInformation.toOption) = some [(2, 10, 0), (4, 2, 0), (6, 4, 0)] := by
  decide +kernel
example : (Aig.fromBytes true counter).toOption.map (fun a =>
      [a.getBadInformation, a.getConstraintsInformation, a.getOutputInformation, [a.getHighestVariableNumber]]) =
    some [[], [], [10], [5]] := by decide +kernel
/-- `get_and_information_in_cone_of_influence(&[l])` on counter.aig, with the hash set iterated backwards. -/
def coneOf (l : Nat) : Option (List (Nat × Nat × Nat)) :=
  (Aig.fromBytes true counter).toOption.bind fun a => (a.getAndInformationInCone List.reverse [l]).toOption
/-- getting.rs:198-213; the doc-test sorts the last two results. -/
example : (List.range 12).map coneOf =
    [some [], some [], some [], some [], some [], some [], some [], some [], some [(8, 7, 5)], some [(8, 7, 5)],
      some [(8, 7, 5), (10, 8, 3)], some [(8, 7, 5), (10, 8, 3)]] := by decide +kernel

/-- formula_logic.rs:37-56. -/
example : (doesAImplyB varisat (cnfOf [[p 1, n 2], [p 2, n 3], [p 3, n 4], [p 4, n 5], [p 5, n 6], [p 6, n 1]])
    (cnfOf [[p 1, n 4], [p 4, n 1]]) 0).toOption.map Prod.fst = some true := by decide +kernel

end Verif.RepoTests
