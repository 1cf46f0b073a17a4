import Verif.Model.Ic3
import Verif.Model.Pdr

/-!
# The provers with their progress reports

`verbose` is a field of the three provers and is read only by `print_progress_if_verbose`.  Here the loops that call it are repeated with a list
of the reports made.  A report holds the number printed first and the list of lengths printed after it.  Left out: the counters (see `Model/Counted`), the times and the text around the numbers.
-/

namespace Verif

/-- The numbers printed by one call of `print_progress_if_verbose` — ic3_stateless_solver.rs:308-328, ic3_stateful_solver.rs:385-405, pdr.rs:517-540. -/
structure Report where
  level : Nat
  lengths : List Nat
deriving DecidableEq, Repr

namespace IC3

variable {σ : Type}

/-- `print_progress_if_verbose` — ic3_stateless_solver.rs:308-328, ic3_stateful_solver.rs:385-405: the last ten lengths, latest first. -/
def report (A : IC3 σ) (verbose : Bool) (k : Nat) : StateT σ Res (List Report) := do
  let s ← get
  if verbose then return [⟨k, (((A.clauses s).map CNF.len).reverse).take 10⟩] else return []

/-- The loop that looks for two equal frames — ic3_stateless_solver.rs:430-442, ic3_stateful_solver.rs:513-528. -/
def findFixpointV (A : IC3 σ) (verbose : Bool) (k : Nat) : List Nat → StateT σ Res (List Report × Option CNF)
  | [] => return ([], none)
  | i :: is => do
    let a ← A.frame i
    let b ← A.frame (i + 1)
    liftM (debugAssertR A.dbg "ic3 clauses[i+1] in clauses[i]" (b.iter.all (fun c => a.contains c)))
    if a.len = b.len then
      let p ← A.report verbose k
      return (p, some (← A.getFk i))
    else findFixpointV A verbose k is

/-- The loop `for k in 1..` — ic3_stateless_solver.rs:416-443, ic3_stateful_solver.rs:498-529. -/
def mainLoopV (A : IC3 σ) (verbose : Bool) (fuel : Nat) : Nat → Nat → StateT σ Res (List Report × ProofResult)
  | 0, _ => liftM (.error .fuel : Res (List Report × ProofResult))
  | rounds + 1, k => do
    A.pushFrame
    let p ← A.report verbose k
    A.enterFrame k
    match ← A.strengthen fuel k fuel with
    | some _ => return (p, .ctx (← liftM (depthU32 k)))
    | none =>
      A.propagateClauses k
      match ← A.findFixpointV verbose k (List.range' 1 k) with
      | (q, some inv) => return (p ++ q, .proof inv)
      | (q, none) =>
        let (ps, r) ← mainLoopV A verbose fuel rounds (k + 1)
        return (p ++ q ++ ps, r)

/-- `prove` — ic3_stateless_solver.rs:397-445, ic3_stateful_solver.rs:479-531. -/
def proveV (A : IC3 σ) (verbose : Bool) (fuel : Nat) : StateT σ Res (List Report × ProofResult) := do
  match ← A.badIn0 with
  | .sat _ => return ([], .ctx 0)
  | .unsat =>
    match ← A.badIn1 with
    | .sat _ => return ([], .ctx 1)
    | .unsat =>
      A.pushFrame
      A.pushFrame
      A.mainLoopV verbose fuel fuel 1

/-- `IC3Stateless::new(fsts, verbose).prove()` — ic3_stateless_solver.rs:373-445. -/
def proveStatelessV (verbose : Bool) (dbg : Bool) (env : Env) (sched : Sched) (f : Fsts) (fuel : Nat) : Res (List Report × ProofResult) := do
  let fm ← formulas dbg f
  let r ← (stateless dbg env sched f fm).proveV verbose fuel ⟨[], 0⟩
  return r.1

/-- `IC3Stateful::new(fsts, verbose).prove()` — ic3_stateful_solver.rs:450-531. -/
def proveStatefulV (verbose : Bool) (dbg : Bool) (I : StatefulImpl) (sched : Sched) (f : Fsts) (fuel : Nat) : Res (List Report × ProofResult) := do
  let fm ← formulas dbg f
  let initialSolver ← I.addCnf f.getInitialRelation.toCnf I.new
  let r ← (stateful dbg I sched f fm).proveV verbose fuel ⟨[], [], initialSolver, [], 0⟩
  return r.1

end IC3

namespace PDR

variable {I : StatefulImpl}

/-- `print_progress_if_verbose` — pdr.rs:517-540: the depth and the numbers of cubes of all frames, the last being `F_inf`. -/
def report (verbose : Bool) : StateT (St I) Res (List Report) :=
  if verbose then do
    let s ← get
    let d ← depth
    return [⟨d, s.f.map List.length⟩]
  else return []

/-- The main loop of `prove` — pdr.rs:702-728. -/
def mainLoopV (A : PDR I) (verbose : Bool) (fuel : Nat) : Nat → StateT (St I) Res (List Report × ProofResult)
  | 0 => liftM (.error .fuel : Res (List Report × ProofResult))
  | rounds + 1 => do
    match ← A.getBadCube with
    | some c =>
      let d ← depth
      if ← A.recBlockCube fuel ⟨c, .ok d⟩ then mainLoopV A verbose fuel rounds
      else
        let d ← depth
        return ([], .ctx (← liftM (depthU32 d)))
    | none =>
      let p ← report verbose
      A.newFrame
      match ← A.propagateBlockedCubes with
      | some i => return (p, .proof (← A.getRi i))
      | none =>
        let (ps, r) ← mainLoopV A verbose fuel rounds
        return (p ++ ps, r)

/-- `prove` — pdr.rs:695-729. -/
def proveV (A : PDR I) (verbose : Bool) (fuel : Nat) : StateT (St I) Res (List Report × ProofResult) := do
  let s ← get
  set { s with f := s.f ++ [[]] }
  A.newFrame
  A.mainLoopV verbose fuel fuel

/-- `PDR::new(fin_state, verbose).prove()` — pdr.rs:641-729. -/
def runV (verbose : Bool) (dbg : Bool) (I : StatefulImpl) (sched : Sched) (f : Fsts) (fuel : Nat) : Res (List Report × ProofResult) := do
  let A : PDR I := ⟨dbg, f, sched, formulas f⟩
  let r ← A.proveV verbose fuel ⟨[], [], [], [], true, true, 0⟩
  return r.1

end PDR

end Verif
