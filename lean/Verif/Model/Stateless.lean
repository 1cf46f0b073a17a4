import Verif.Model.Solver

/-!
# Model of the stateless SAT front-ends, `src/solvers/sat/stateless/*.rs`

The back-end crates are oracles over DIMACS clause lists.  The order in which clauses of the hash set are handed over is
the list order of the model; back-end contracts do not depend on it.
-/

namespace Verif

/-- `u32 → i32` by `try_into().unwrap()` — stateless/cadical_solver.rs:28, splr_solver.rs:30, minisat_solver.rs:76, stateful/cadical_solver.rs:81. -/
def toI32 (site : String) (n : Nat) : Res Int := if n < 2147483648 then .ok (n : Int) else panicR site

/-- Body of the inner loops: `let number: i32 = lit.get_number().try_into().unwrap(); if lit.is_negated() { -number } …` —
src/solvers/sat/stateless/cadical_solver.rs:27-31, splr_solver.rs:29-33, varisat_solver.rs:28-32 (there `isize`, which
holds every `u32`, followed by `Lit::from_dimacs`, whose variable index range also covers 2^31-1 and is not modelled). -/
def signedLit (site : String) (l : Literal) : Res Int := do
  let number ← toI32 site l.number
  return if l.isNegated then -number else number

/-- `convert_cnf_to_dimacs_into_solver` — stateless/cadical_solver.rs:23-35; `convert_cnf_to_vector_of_vectors` —
splr_solver.rs:25-37; `convert_cnf_to_varisat` — varisat_solver.rs:24-34. -/
def convertCnf (site : String) (f : CNF) : Res (List (List Int)) :=
  f.iter.mapM (fun c => c.iter.mapM (signedLit site))

/-- What `cadical::Solver` reports after `add_clause`s and `solve`: `solve() : Option<bool>`, `max_variable()`,
`value(var)` — stateless/cadical_solver.rs:46-53. -/
structure CadicalAnswer where
  result : Option Bool
  maxVariable : Nat
  value : Nat → Option Bool

/-- `var_num` or `-var_num` for one variable — stateless/cadical_solver.rs:53-62. -/
def cadicalDimacsLit (value : Nat → Option Bool) (n : Nat) : Int :=
  match value n with
  | some v => if v then (n : Int) else -(n : Int)
  | none => (n : Int)

/-- `CaDiCalSolver::solve_cnf` — stateless/cadical_solver.rs:37-72.  `solver.max_variable() + 1` is an `i32` addition: for
`max_variable() = i32::MAX` it panics with overflow checks and gives an empty range without. -/
def cadicalSolveCnf (dbg : Bool) (backend : List (List Int) → CadicalAnswer) (f : CNF) : Res SatResponse := do
  let dimacs ← convertCnf "stateless/cadical_solver.rs:28" f
  let ans := backend dimacs
  match ans.result with
  | some false => return .unsat
  | some true =>
    if ans.maxVariable + 1 < 2147483648 then
      let lits := (List.range' 1 ans.maxVariable).map (cadicalDimacsLit ans.value)
      return .sat (← Assignment.fromDimacs dbg lits)
    else if dbg then panicR "stateless/cadical_solver.rs:52 overflow"
    else return .sat (← Assignment.fromDimacs dbg [])
  | none => panicR "stateless/cadical_solver.rs:70 unreachable"

/-- What `splr::Certificate::try_from` returns — splr_solver.rs:44-54. -/
inductive SplrAnswer where
  | unsat
  | sat (model : List Int)
  | errEmptyClause
  | errOther

/-- `SplrSolver::solve_cnf` — splr_solver.rs:39-60. -/
def splrSolveCnf (dbg : Bool) (backend : List (List Int) → SplrAnswer) (f : CNF) : Res SatResponse := do
  let owned ← convertCnf "splr_solver.rs:30" f
  match backend owned with
  | .unsat => return .unsat
  | .sat model => return .sat (← Assignment.fromDimacs dbg model)
  | .errEmptyClause => return .unsat
  | .errOther => panicR "splr_solver.rs:56 unreachable"

/-- What `varisat::Solver::solve`/`model` return — varisat_solver.rs:49-60. -/
inductive VarisatAnswer where
  | unsat
  | sat (model : Option (List Int))
  | err

/-- `VarisatSolver::solve_cnf` — varisat_solver.rs:36-41, 43-64. -/
def varisatSolveCnf (dbg : Bool) (backend : List (List Int) → VarisatAnswer) (f : CNF) : Res SatResponse := do
  let cls ← convertCnf "varisat_solver.rs:29" f
  match backend cls with
  | .sat model =>
    let m ← unwrapR "varisat_solver.rs:55 unwrap" model
    let lits ← m.mapM (fun x => if -2147483648 ≤ x ∧ x < 2147483648 then (.ok x : Res Int) else panicR "varisat_solver.rs:39 try_into")
    return .sat (← Assignment.fromDimacs dbg lits)
  | .unsat => return .unsat
  | .err => panicR "varisat_solver.rs:61 panic"

end Verif
