import Verif.Model.Stateless

/-!
# Model of the stateful SAT front-ends, `src/solvers/sat/stateful/*.rs`

Both keep a vector mapping the crate's variable numbers to back-end literals and use an activation literal for the
temporary clause.
-/

namespace Verif

/-! ## MiniSat -/

/-- A `minisat::Bool` literal: back-end variable and sign — minisat_solver.rs:20. -/
structure BLit where
  var : Nat
  neg : Bool
deriving DecidableEq, Repr

/-- `!lit` of the minisat crate — minisat_solver.rs:36, 124, 141. -/
def BLit.not (l : BLit) : BLit := ⟨l.var, !l.neg⟩

/-- The minisat back-end as an oracle: call counter, clause database and assumptions in, model or `Err(())` out — minisat_solver.rs:88-102. -/
abbrev MsBackend := Nat → List (List BLit) → List BLit → Option (Nat → Bool)

/-- `MiniSatSolver { solver, mini_sat_literals }` — minisat_solver.rs:18-21.  The back-end solver is its variable count and
clause database. -/
structure MiniSat where
  numVars : Nat
  db : List (List BLit)
  lits : List BLit
deriving DecidableEq, Repr

namespace MiniSat

/-- `MiniSatSolver::default` — minisat_solver.rs:205-212. -/
def new : MiniSat := ⟨0, [], []⟩

/-- `self.solver.new_lit()`: a fresh positive back-end literal — minisat_solver.rs:65, 121. -/
def newLit (s : MiniSat) : BLit × MiniSat := (⟨s.numVars, false⟩, { s with numVars := s.numVars + 1 })

/-- `self.solver.add_clause(c)` — minisat_solver.rs:125, 141, 154. -/
def backendAdd (s : MiniSat) (c : List BLit) : MiniSat := { s with db := s.db ++ [c] }

/-- `literal_to_mini_sat_literal` — minisat_solver.rs:32-40. -/
def literal (s : MiniSat) (l : Literal) : Res BLit := do
  let m ← indexR "minisat_solver.rs:34 index" s.lits l.number
  return if l.isNegated then m.not else m

/-- `translate_clause_into_mini_sat_clause`, `translate_cube_into_mini_sat_cube` — minisat_solver.rs:42-56. -/
def translate (s : MiniSat) (ls : List Literal) : Res (List BLit) := ls.mapM s.literal

/-- Body of the `while` loop of `extend_mini_sat_literals_if_needed`, run `k` times — minisat_solver.rs:64-66. -/
def extendBy : Nat → MiniSat → MiniSat
  | 0, s => s
  | k + 1, s =>
    let (l, s) := s.newLit
    extendBy k { s with lits := s.lits ++ [l] }

/-- `extend_mini_sat_literals_if_needed` — minisat_solver.rs:58-68 (the loop runs until `max_lit < len`). -/
def extendIfNeeded (s : MiniSat) (f : CNF) : MiniSat :=
  let maxLit := f.getMaxVar
  if maxLit ≥ s.lits.length then extendBy (maxLit - s.lits.length + 1) s else s

/-- `create_dimacs_assignment_from_mini_sat_model` — minisat_solver.rs:70-80; `i` is the index of the head of the list. -/
def dimacsOfModel (m : Nat → Bool) : Nat → List BLit → Res (List Int)
  | _, [] => return []
  | i, l :: ls => do
    let j ← toI32 "minisat_solver.rs:76 try_into" i
    let rest ← dimacsOfModel m (i + 1) ls
    return (if (m l.var) != l.neg then j else -j) :: rest

/-- `solve_under_already_translated_assumptions` — minisat_solver.rs:82-102 (does not change the solver's clauses). -/
def solveTranslated (dbg : Bool) (be : MsBackend) (t : Nat) (s : MiniSat) (cube : List BLit) : Res SatResponse := do
  match be t s.db cube with
  | some m =>
    let result ← dimacsOfModel m 1 (s.lits.drop 1)
    return .sat (← Assignment.fromDimacs dbg result)
  | none => return .unsat

/-- `solve_with_just_cube_assumptions` — minisat_solver.rs:104-110. -/
def solveJustCube (dbg : Bool) (be : MsBackend) (t : Nat) (s : MiniSat) (cube : Option Cube) : Res (SatResponse × MiniSat) := do
  let v ← match cube with
    | some c => s.translate c.iter
    | none => pure []
  return (← s.solveTranslated dbg be t v, s)

/-- `handle_temporary_extra_clause` — minisat_solver.rs:112-144. -/
def handleTemporaryExtraClause (dbg : Bool) (be : MsBackend) (t : Nat) (s : MiniSat) (clause : Clause) (cube : Option Cube) :
    Res (SatResponse × MiniSat) := do
  let msClause ← s.translate clause.iter
  let (fresh, s) := s.newLit
  let s := s.backendAdd (msClause ++ [fresh.not])
  let assumptions := [fresh]
  let assumptions ← match cube with
    | some c => do
      let tc ← s.translate c.iter
      pure (assumptions ++ tc)
    | none => pure assumptions
  let result ← s.solveTranslated dbg be t assumptions
  let s := s.backendAdd [fresh.not]
  return (result, s)

/-- `add_cnf` — minisat_solver.rs:150-156. -/
def addCnf (f : CNF) (s : MiniSat) : Res MiniSat := do
  let s := s.extendIfNeeded f
  f.iter.foldlM (fun s c => do
    let mc ← s.translate c.iter
    return s.backendAdd mc) s

/-- `solve` — minisat_solver.rs:158-180. -/
def solve (dbg : Bool) (be : MsBackend) (t : Nat) (cube : Option Cube) (clause : Option Clause) (s : MiniSat) :
    Res (SatResponse × MiniSat) :=
  let s := match cube with
    | some c => s.extendIfNeeded c.toCnf
    | none => s
  let s := match clause with
    | some c => s.extendIfNeeded c.toCnf
    | none => s
  match clause with
  | none => s.solveJustCube dbg be t cube
  | some extra => s.handleTemporaryExtraClause dbg be t extra cube

end MiniSat

/-! ## CaDiCaL -/

/-- The cadical back-end as an oracle: call counter, clause database and assumptions in; `solve_with` result and `value` — stateful/cadical_solver.rs:82, 97-112. -/
abbrev CdBackend := Nat → List (List Int) → List Int → Option Bool × (Int → Option Bool)

/-- `CaDiCalSolver { solver, cadical_literals, new_literal }` — stateful/cadical_solver.rs:17-21. -/
structure CaDiCal where
  db : List (List Int)
  lits : List Int
  newLiteral : Int
deriving DecidableEq, Repr

namespace CaDiCal

/-- `CaDiCalSolver::default` / `new(hint)` — stateful/cadical_solver.rs:211-236; the hint only selects a search preset. -/
def new : CaDiCal := ⟨[], [], 1⟩

/-- `new_lit` — stateful/cadical_solver.rs:32-37; `i32` increment: overflow panics when `dbg`, wraps otherwise. -/
def newLit (dbg : Bool) (s : CaDiCal) : Res (Int × CaDiCal) :=
  let result := s.newLiteral
  if s.newLiteral + 1 < 2147483648 then .ok (result, { s with newLiteral := s.newLiteral + 1 })
  else if dbg then panicR "stateful/cadical_solver.rs:35 overflow"
  else .ok (result, { s with newLiteral := s.newLiteral + 1 - 4294967296 })

/-- Unary minus on `i32` — stateful/cadical_solver.rs:43, 135, 152.  `-i32::MIN` wraps to itself in release builds.  In debug builds it would
panic, but there no literal is `i32::MIN`, since `new_lit` panics before the counter wraps. -/
def negI32 (x : Int) : Int := if x = -2147483648 then x else -x

/-- `literal_to_cadical_literal` — stateful/cadical_solver.rs:39-47. -/
def literal (s : CaDiCal) (l : Literal) : Res Int := do
  let m ← indexR "stateful/cadical_solver.rs:41 index" s.lits l.number
  return if l.isNegated then negI32 m else m

/-- `translate_clause_into_cadical_clause`, `translate_cube_into_cadical_cube` — stateful/cadical_solver.rs:49-63. -/
def translate (s : CaDiCal) (ls : List Literal) : Res (List Int) := ls.mapM s.literal

/-- `self.solver.add_clause(c)` — stateful/cadical_solver.rs:136, 152, 165. -/
def backendAdd (s : CaDiCal) (c : List Int) : CaDiCal := { s with db := s.db ++ [c] }

/-- Body of the `while` loop of `extend_cadical_literals_if_needed`, run `k` times — stateful/cadical_solver.rs:71-74. -/
def extendBy (dbg : Bool) : Nat → CaDiCal → Res CaDiCal
  | 0, s => return s
  | k + 1, s => do
    let (l, s) ← s.newLit dbg
    extendBy dbg k { s with lits := s.lits ++ [l] }

/-- `extend_cadical_literals_if_needed` — stateful/cadical_solver.rs:65-76. -/
def extendIfNeeded (dbg : Bool) (s : CaDiCal) (f : CNF) : Res CaDiCal :=
  let maxLit := f.getMaxVar
  if maxLit ≥ s.lits.length then extendBy dbg (maxLit - s.lits.length + 1) s else .ok s

/-- `create_dimacs_assignment_from_cadical_model` — stateful/cadical_solver.rs:78-91. -/
def dimacsOfModel (value : Int → Option Bool) : Nat → List Int → Res (List Int)
  | _, [] => return []
  | i, l :: ls => do
    let j ← toI32 "stateful/cadical_solver.rs:81 try_into" i
    let rest ← dimacsOfModel value (i + 1) ls
    match value l with
    | some v => return (if v then j else -j) :: rest
    | none => return rest

/-- `solve_under_already_translated_assumptions` — stateful/cadical_solver.rs:93-113. -/
def solveTranslated (dbg : Bool) (be : CdBackend) (t : Nat) (s : CaDiCal) (cube : List Int) : Res SatResponse := do
  let (res, value) := be t s.db cube
  match res with
  | some true =>
    let result ← dimacsOfModel value 1 (s.lits.drop 1)
    return .sat (← Assignment.fromDimacs dbg result)
  | some false => return .unsat
  | none => panicR "stateful/cadical_solver.rs:111 Sat solver error occurred."

/-- `solve_with_just_cube_assumptions` — stateful/cadical_solver.rs:115-121. -/
def solveJustCube (dbg : Bool) (be : CdBackend) (t : Nat) (s : CaDiCal) (cube : Option Cube) : Res (SatResponse × CaDiCal) := do
  let v ← match cube with
    | some c => s.translate c.iter
    | none => pure []
  return (← s.solveTranslated dbg be t v, s)

/-- `handle_temporary_extra_clause` — stateful/cadical_solver.rs:123-155. -/
def handleTemporaryExtraClause (dbg : Bool) (be : CdBackend) (t : Nat) (s : CaDiCal) (clause : Clause) (cube : Option Cube) :
    Res (SatResponse × CaDiCal) := do
  let cdClause ← s.translate clause.iter
  let (fresh, s) ← s.newLit dbg
  let s := s.backendAdd (cdClause ++ [negI32 fresh])
  let assumptions := [fresh]
  let assumptions ← match cube with
    | some c => do
      let tc ← s.translate c.iter
      pure (assumptions ++ tc)
    | none => pure assumptions
  let result ← s.solveTranslated dbg be t assumptions
  let s := s.backendAdd [negI32 fresh]
  return (result, s)

/-- `add_cnf` — stateful/cadical_solver.rs:161-167. -/
def addCnf (dbg : Bool) (f : CNF) (s : CaDiCal) : Res CaDiCal := do
  let s ← s.extendIfNeeded dbg f
  f.iter.foldlM (fun s c => do
    let mc ← s.translate c.iter
    return s.backendAdd mc) s

/-- `solve` — stateful/cadical_solver.rs:169-191. -/
def solve (dbg : Bool) (be : CdBackend) (t : Nat) (cube : Option Cube) (clause : Option Clause) (s : CaDiCal) :
    Res (SatResponse × CaDiCal) := do
  let s ← match cube with
    | some c => s.extendIfNeeded dbg c.toCnf
    | none => pure s
  let s ← match clause with
    | some c => s.extendIfNeeded dbg c.toCnf
    | none => pure s
  match clause with
  | none => s.solveJustCube dbg be t cube
  | some extra => s.handleTemporaryExtraClause dbg be t extra cube

end CaDiCal

/-! ## The trait -/

/-- `trait StatefulSatSolver` — src/solvers/sat/stateful/mod.rs: `new(hint)`, `add_cnf`, `solve`.  The extra `Nat` given to
`solve` is the environment's call counter. -/
structure StatefulImpl where
  S : Type
  new : S
  addCnf : CNF → S → Res S
  solve : Nat → Option Cube → Option Clause → S → Res (SatResponse × S)

/-- The MiniSat front-end as an implementation of the trait — minisat_solver.rs:187-203. -/
def MiniSat.impl (dbg : Bool) (be : MsBackend) : StatefulImpl :=
  ⟨MiniSat, MiniSat.new, MiniSat.addCnf, MiniSat.solve dbg be⟩

/-- The CaDiCaL front-end as an implementation of the trait — stateful/cadical_solver.rs:198-226. -/
def CaDiCal.impl (dbg : Bool) (be : CdBackend) : StatefulImpl :=
  ⟨CaDiCal, CaDiCal.new, CaDiCal.addCnf dbg, CaDiCal.solve dbg be⟩

end Verif
