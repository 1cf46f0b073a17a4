import Verif.Model.Formula

/-!
# Model of `src/solvers/sat/assignment.rs`, `SatResponse`, and the nondeterministic environment
-/

namespace Verif

/-- `Assignment { true_variables, false_variables }` — src/solvers/sat/assignment.rs:12-16. -/
structure Assignment where
  trueVars : List Nat
  falseVars : List Nat
deriving Repr, DecidableEq

/-- Loop body of `Assignment::from_dimacs_assignment` — src/solvers/sat/assignment.rs:42-50.  `i32::abs` of `i32::MIN`
overflows (panic with overflow checks); without checks it stays negative and `try_into::<u32>` fails, so it panics in
both profiles. -/
def Assignment.insertDimacs (dbg : Bool) (a : Assignment) (x : Int) : Res Assignment := do
  if x = -2147483648 then panicR "assignment.rs:43 abs/try_into"
  let n := x.natAbs
  debugAssertR dbg "assignment.rs:44 var_num != 0" (decide (n ≠ 0))
  if x < 0 then return { a with falseVars := setInsert a.falseVars n }
  else return { a with trueVars := setInsert a.trueVars n }

/-- `Assignment::from_dimacs_assignment` — src/solvers/sat/assignment.rs:38-53. -/
def Assignment.fromDimacs (dbg : Bool) (xs : List Int) : Res Assignment :=
  xs.foldlM (Assignment.insertDimacs dbg) ⟨[], []⟩

/-- `Assignment::get_value` — src/solvers/sat/assignment.rs:55-63. -/
def Assignment.getValue (a : Assignment) (n : Nat) : Option Bool :=
  if n ∈ a.trueVars then some true
  else if n ∈ a.falseVars then some false
  else none

/-- `enum SatResponse` — src/solvers/sat/sat_response.rs (`Sat { assignment }`, `UnSat`). -/
inductive SatResponse where
  | sat (a : Assignment)
  | unsat
deriving Repr, DecidableEq

/-- What the code does not determine, as functions of a call counter ("tick"): what a freshly created stateless SAT
solver answers or whether it panics (`StatelessSatSolver::solve_cnf`, src/solvers/sat/stateless/mod.rs), in which order a `HashSet<Clause>` is
iterated, and how `rand` shuffles a vector.  Quantifying over all `Env` quantifies over all behaviours. -/
structure Env where
  solve : Nat → CNF → Res SatResponse
  order : Nat → List Clause → List Clause
  shuffle : Nat → List Literal → List Literal

/-- Computations that may panic and may consult the environment (the provers and formula_logic.rs:58-85). -/
abbrev M := StateT Nat Res

/-- Advance the call counter, returning the old value (an index of the environment, no counterpart in the code). -/
def nextTick : M Nat := do
  let t ← get
  set (t + 1)
  return t

/-- `T::default().solve_cnf(f)` — formula_logic.rs:66-67, 80-81, ic3_stateless_solver.rs:92, bmc.rs:60, fsts/construction.rs:171. -/
def Env.solveCnf (env : Env) (f : CNF) : M SatResponse := do
  env.solve (← nextTick) f

/-- One iteration order of `f.iter()` — formula_logic.rs:62. -/
def Env.iterOrder (env : Env) (f : CNF) : M (List Clause) := do
  return env.order (← nextTick) f.iter

end Verif
