import Verif.Model.Ic3
import Verif.Model.Pdr

/-!
# The provers with their counters of SAT calls

The three provers count their SAT calls in `u32`s that are only printed (`number_of_sat_calls`, `sat_call_stats`).  The count is still part of the
run: in a debug build the call that takes a counter past `u32::MAX` panics.  `Model/Ic3` and `Model/Pdr` leave the counters out; here the
functions that reach a SAT call are repeated with them.  Left out: the seconds that `sat_call_stats` adds up next to the counters.
-/

namespace Verif

/-- A prover's changing part together with its counters — ic3_stateless_solver.rs:75, ic3_stateful_solver.rs:91, pdr.rs:94. -/
structure Counted (σ γ : Type) where
  base : σ
  stats : γ
deriving DecidableEq

/-- A step that leaves the counters alone — ic3_stateless_solver.rs:84-446, ic3_stateful_solver.rs:100-532, pdr.rs:103-730. -/
def Counted.plain {σ γ α : Type} (x : StateT σ Res α) : StateT (Counted σ γ) Res α := fun s => do
  let (a, b) ← x s.base
  return (a, ⟨b, s.stats⟩)

open Counted (plain)

namespace IC3

/-! ## `IC3Stateless` -/

namespace Stateless

/-- `IC3Stateless` with `number_of_sat_calls` — ic3_stateless_solver.rs:59-78. -/
abbrev C := Counted Stateless Nat

/-- `self.number_of_sat_calls += 1` — ic3_stateless_solver.rs:90. -/
def countC (dbg : Bool) : StateT C Res Unit := do
  let s ← get
  let n ← liftM (u32Add dbg "ic3_stateless_solver.rs:90 overflow" s.stats 1)
  set { s with stats := n }

/-- `sat_call` — ic3_stateless_solver.rs:89-95. -/
def satCallC (dbg : Bool) (env : Env) (g : CNF) : StateT C Res SatResponse := do
  countC dbg
  plain (satCall env g)

/-- `is_bad_reached_in_0_steps` — ic3_stateless_solver.rs:111-117. -/
def badIn0C (dbg : Bool) (env : Env) (fm : Formulas) : StateT C Res SatResponse :=
  satCallC dbg env ((CNF.new.append fm.initial).append fm.notP0)

/-- `is_bad_reached_in_1_steps` — ic3_stateless_solver.rs:119-126. -/
def badIn1C (dbg : Bool) (env : Env) (fm : Formulas) : StateT C Res SatResponse :=
  satCallC dbg env (((CNF.new.append fm.initial).append fm.transition).append fm.notP1)

/-- `is_bad_reached_in_1_step_from_cnf(&self.get_fk(k))` — ic3_stateless_solver.rs:153-159, 332. -/
def badFromC (dbg : Bool) (env : Env) (fm : Formulas) (k : Nat) : StateT C Res SatResponse := do
  let fk ← plain (getFk fm k)
  satCallC dbg env (((CNF.new.append fk).append fm.transition).append fm.notP1)

/-- `solve_fi_and_t_and_s_tag` — ic3_stateless_solver.rs:254-260; the query of `propagate_clauses` (ic3_stateless_solver.rs:132-139) is the same with `s = !c`. -/
def cubeReachC (dbg : Bool) (env : Env) (f : Fsts) (fm : Formulas) (i : Nat) (s : Cube) : StateT C Res SatResponse := do
  let fi ← plain (getFk fm i)
  let tagged ← liftM (f.addTagsToRelation dbg s.toCnf 1)
  satCallC dbg env (((CNF.new.append fi).append fm.transition).append tagged)

/-- `is_fi_and_t_and_not_s_and_s_tag_sat` — ic3_stateless_solver.rs:162-172. -/
def cubeReachNewC (dbg : Bool) (env : Env) (f : Fsts) (fm : Formulas) (i : Nat) (s : Cube) : StateT C Res Bool := do
  let fi ← plain (getFk fm i)
  let g := ((CNF.new.append fi).append fm.transition).addClause s.not
  let tagged ← liftM (f.addTagsToRelation dbg s.toCnf 1)
  match ← satCallC dbg env (g.append tagged) with
  | .unsat => return false
  | .sat _ => return true

/-- `is_clause_inductive_relative_to_fi` — ic3_stateless_solver.rs:174-198. -/
def clauseInductiveC (dbg : Bool) (env : Env) (f : Fsts) (fm : Formulas) (d : Clause) (i : Nat) : StateT C Res Bool := do
  match ← satCallC dbg env (fm.initial.append d.not.toCnf) with
  | .sat _ => return false
  | .unsat =>
    let fi ← plain (getFk fm i)
    let tagged ← liftM (f.addTagsToRelation dbg d.not.toCnf 1)
    match ← satCallC dbg env (((fi.addClause d).append fm.transition).append tagged) with
    | .unsat => return true
    | .sat _ => return false

end Stateless

/-- `IC3Stateless` with its counter as an instance of the shared algorithm — ic3_stateless_solver.rs:59-78, 84-446. -/
def statelessC (dbg : Bool) (env : Env) (sched : Sched) (f : Fsts) (fm : Formulas) : IC3 Stateless.C where
  dbg := dbg
  fsts := f
  sched := sched
  forms := fm
  tick := plain Stateless.next
  clauses := fun s => s.base.clauses
  addClause := fun j c => plain (Stateless.addClause j c)
  pushFrame := plain (stateless dbg env sched f fm).pushFrame
  enterFrame := fun k => plain ((stateless dbg env sched f fm).enterFrame k)
  badIn0 := Stateless.badIn0C dbg env fm
  badIn1 := Stateless.badIn1C dbg env fm
  badFrom := Stateless.badFromC dbg env fm
  cubeReach := Stateless.cubeReachC dbg env f fm
  cubeReachNew := Stateless.cubeReachNewC dbg env f fm
  clauseInductive := Stateless.clauseInductiveC dbg env f fm

/-- `IC3Stateless::new(fsts).prove()` with the value of `number_of_sat_calls` at the end — ic3_stateless_solver.rs:373-445. -/
def proveStatelessC (dbg : Bool) (env : Env) (sched : Sched) (f : Fsts) (fuel : Nat) : Res (ProofResult × Nat) := do
  let fm ← formulas dbg f
  let r ← (statelessC dbg env sched f fm).prove fuel ⟨⟨[], 0⟩, 0⟩
  return (r.1, r.2.stats)

/-! ## `IC3Stateful` -/

namespace Stateful

variable {I : StatefulImpl}

/-- `IC3Stateful` with `number_of_sat_calls` — ic3_stateful_solver.rs:70-94. -/
abbrev C (I : StatefulImpl) := Counted (Stateful I) Nat

/-- `self.number_of_sat_calls += 1` — ic3_stateful_solver.rs:161. -/
def countC (dbg : Bool) : StateT (C I) Res Unit := do
  let s ← get
  let n ← liftM (u32Add dbg "ic3_stateful_solver.rs:161 overflow" s.stats 1)
  set { s with stats := n }

/-- `sat_call(SolverVariant::Custom(cnf), None, None)` — ic3_stateful_solver.rs:155-184. -/
def callCustomC (dbg : Bool) (g : CNF) : StateT (C I) Res SatResponse := do
  countC dbg
  plain (callCustom g)

/-- `sat_call(SolverVariant::Initial, …)` — ic3_stateful_solver.rs:155-184. -/
def callInitialC (dbg : Bool) (cube : Option Cube) (clause : Option Clause) : StateT (C I) Res SatResponse := do
  countC dbg
  plain (callInitial cube clause)

/-- `sat_call(SolverVariant::FiAndT(j), …)` — ic3_stateful_solver.rs:155-184. -/
def callFiAndTC (dbg : Bool) (j : Nat) (cube : Option Cube) (clause : Option Clause) : StateT (C I) Res SatResponse := do
  countC dbg
  plain (callFiAndT j cube clause)

/-- `sat_call(SolverVariant::FiAndTAndNotPTag(j), …)` — ic3_stateful_solver.rs:155-184. -/
def callNotPC (dbg : Bool) (j : Nat) (cube : Option Cube) (clause : Option Clause) : StateT (C I) Res SatResponse := do
  countC dbg
  plain (callNotP j cube clause)

/-- `is_bad_reached_in_0_steps` — ic3_stateful_solver.rs:186-192. -/
def badIn0C (dbg : Bool) (fm : Formulas) : StateT (C I) Res SatResponse := callCustomC dbg ((CNF.new.append fm.initial).append fm.notP0)

/-- `is_bad_reached_in_1_steps` — ic3_stateful_solver.rs:194-201. -/
def badIn1C (dbg : Bool) (fm : Formulas) : StateT (C I) Res SatResponse :=
  callCustomC dbg (((CNF.new.append fm.initial).append fm.transition).append fm.notP1)

/-- `is_cube_reachable_in_1_step_from_fi` — ic3_stateful_solver.rs:203-207. -/
def cubeReachC (dbg : Bool) (f : Fsts) (i : Nat) (s : Cube) : StateT (C I) Res SatResponse := do
  let tagged ← liftM (f.addTagsToCube dbg s 1)
  callFiAndTC dbg i (some tagged) none

/-- `is_bad_reachable_in_1_step_from_fi` — ic3_stateful_solver.rs:209-212. -/
def badFromC (dbg : Bool) (i : Nat) : StateT (C I) Res SatResponse := callNotPC dbg i none none

/-- `is_fi_and_t_and_not_s_and_s_tag_sat` — ic3_stateful_solver.rs:214-223. -/
def cubeReachNewC (dbg : Bool) (f : Fsts) (i : Nat) (s : Cube) : StateT (C I) Res Bool := do
  let tagged ← liftM (f.addTagsToCube dbg s 1)
  match ← callFiAndTC dbg i (some tagged) (some s.not) with
  | .unsat => return false
  | .sat _ => return true

/-- `is_fi_and_t_and_clause_and_not_clause_tag_sat` — ic3_stateful_solver.rs:225-233. -/
def clauseTagSatC (dbg : Bool) (f : Fsts) (i : Nat) (d : Clause) : StateT (C I) Res Bool := do
  let tagged ← liftM (f.addTagsToCube dbg d.not 1)
  match ← callFiAndTC dbg i (some tagged) (some d) with
  | .unsat => return false
  | .sat _ => return true

/-- `does_cube_intersect_with_initial` — ic3_stateful_solver.rs:235-240. -/
def intersectsInitialC (dbg : Bool) (cube : Cube) : StateT (C I) Res Bool := do
  match ← callInitialC dbg (some cube) none with
  | .unsat => return false
  | .sat _ => return true

/-- `is_clause_inductive_relative_to_fi` — ic3_stateful_solver.rs:274-284.  The debug assertions' calls are counted as well. -/
def clauseInductiveC (dbg : Bool) (f : Fsts) (d : Clause) (i : Nat) : StateT (C I) Res Bool := do
  if f.isCubeInitial d.not then
    if dbg then
      let b ← intersectsInitialC dbg d.not
      liftM (assertR "ic3_stateful_solver.rs:277" b)
    return false
  else
    if dbg then
      let b ← intersectsInitialC dbg d.not
      liftM (assertR "ic3_stateful_solver.rs:280" (!b))
    return !(← clauseTagSatC dbg f i d)

end Stateful

/-- `IC3Stateful` with its counter as an instance of the shared algorithm — ic3_stateful_solver.rs:70-94, 100-532. -/
def statefulC (dbg : Bool) (I : StatefulImpl) (sched : Sched) (f : Fsts) (fm : Formulas) : IC3 (Stateful.C I) where
  dbg := dbg
  fsts := f
  sched := sched
  forms := fm
  tick := plain Stateful.next
  clauses := fun s => s.base.clauses
  addClause := fun j c => plain (Stateful.addClause dbg j c)
  pushFrame := plain (Stateful.pushFrame dbg fm)
  enterFrame := fun k => plain ((stateful dbg I sched f fm).enterFrame k)
  badIn0 := Stateful.badIn0C dbg fm
  badIn1 := Stateful.badIn1C dbg fm
  badFrom := Stateful.badFromC dbg
  cubeReach := Stateful.cubeReachC dbg f
  cubeReachNew := Stateful.cubeReachNewC dbg f
  clauseInductive := Stateful.clauseInductiveC dbg f

/-- `IC3Stateful::new(fsts).prove()` with the value of `number_of_sat_calls` at the end — ic3_stateful_solver.rs:450-531. -/
def proveStatefulC (dbg : Bool) (I : StatefulImpl) (sched : Sched) (f : Fsts) (fuel : Nat) : Res (ProofResult × Nat) := do
  let fm ← formulas dbg f
  let initialSolver ← I.addCnf f.getInitialRelation.toCnf I.new
  let r ← (statefulC dbg I sched f fm).prove fuel ⟨⟨[], [], initialSolver, [], 0⟩, 0⟩
  return (r.1, r.2.stats)

end IC3

/-! ## `PDR` -/

namespace PDR

variable {I : StatefulImpl}

/-- `sat_call_stats` without the seconds — pdr.rs:94. -/
abbrev Stats := List (String × Nat)

/-- `sat_call_stats` as made by `new` — pdr.rs:667-673. -/
def Stats.new : Stats :=
  [("z_get_bad_cube", 0), ("z_is_blocked", 0), ("z_solve_relative_DoNotExtractModel", 0), ("z_solve_relative_NoInd", 0),
    ("z_solve_relative_ExtractModel", 0)]

/-- A new number for an entry — pdr.rs:127, 159, 191-206. -/
def Stats.put (st : Stats) (key : String) (n : Nat) : Stats := st.map fun p => if p.1 == key then (p.1, n) else p

/-- `PDR` with `sat_call_stats` — pdr.rs:69-97. -/
abbrev C (I : StatefulImpl) := Counted (St I) Stats

/-- `self.sat_call_stats.get_mut(key).unwrap().0 += 1` — pdr.rs:127, 159, 191-206.  The seconds are added to the same entry after the call
(pdr.rs:130, 162, 223-239); entries are never removed, so that `unwrap` cannot fail if this one did not. -/
def countC (dbg : Bool) (key : String) : StateT (C I) Res Unit := do
  let s ← get
  let n ← liftM (unwrapR "pdr.rs sat_call_stats unwrap" (s.stats.lookup key))
  let n ← liftM (u32Add dbg "pdr.rs sat_call_stats overflow" n 1)
  set { s with stats := Stats.put s.stats key n }

/-- `z_get_bad_cube` — pdr.rs:123-151. -/
def getBadCubeC (A : PDR I) : StateT (C I) Res (Option Cube) := do
  let d ← plain depth
  countC A.dbg "z_get_bad_cube"
  match ← plain (call .notP d none none) with
  | .unsat => return none
  | .sat a =>
    let bad ← liftM (A.fsts.extractState A.dbg a)
    let s ← get
    if s.base.coneBad then
      let reduced := A.fsts.intersectSafety bad
      liftM (debugAssertR A.dbg "pdr.rs:143" (decide (reduced.len ≤ bad.len)))
      set { s with base := { s.base with coneBad := bad.len != reduced.len } }
      return some reduced
    else return some bad

/-- `z_is_blocked` — pdr.rs:153-171. -/
def solverBlockedC (A : PDR I) (s : TCube) : StateT (C I) Res Bool :=
  match s.frame with
  | .ok i => do
    countC A.dbg "z_is_blocked"
    match ← plain (call .ri i none none) with
    | .sat _ => return false
    | .unsat => return true
  | _ => liftM (panicR "pdr.rs:155 unreachable" : Res Bool)

/-- The key under which a call of `z_solve_relative` is counted — pdr.rs:189-208. -/
def Param.key : Param → String
  | .doNotExtractModel => "z_solve_relative_DoNotExtractModel"
  | .noInd => "z_solve_relative_NoInd"
  | .extractModel => "z_solve_relative_ExtractModel"

/-- `z_solve_relative` — pdr.rs:178-285. -/
def solveRelativeC (A : PDR I) (s : TCube) (p : Param) : StateT (C I) Res TCube :=
  match s.frame with
  | .ok i => do
    let st ← get
    liftM (debugAssertR A.dbg "pdr.rs:183" (decide (0 < i ∧ i < st.base.riT.length)))
    let extraCube ← liftM (A.fsts.addTagsToCube A.dbg s.cube 1)
    let extraClause := s.cube.not
    countC A.dbg p.key
    if i = 0 then liftM (panicR "pdr.rs:213 underflow" : Res TCube)
    else
      match ← plain (call .riT (i - 1) (some extraCube) (if p = .noInd then none else some extraClause)) with
      | .unsat => return s
      | .sat a =>
        if p = .extractModel then
          let predecessor ← liftM (A.fsts.extractState A.dbg a)
          let st ← get
          if st.base.conePred then
            let reduced := A.fsts.intersectTransition predecessor
            liftM (debugAssertR A.dbg "pdr.rs:264" (decide (reduced.len ≤ predecessor.len)))
            set { st with base := { st.base with conePred := predecessor.len != reduced.len } }
            return ⟨reduced, .null⟩
          else return ⟨predecessor, .null⟩
        else return ⟨Cube.new [], .null⟩
  | _ => liftM (panicR "pdr.rs:180 unreachable" : Res TCube)

/-- `is_blocked` — pdr.rs:408-424. -/
def isBlockedC (A : PDR I) (s : TCube) : StateT (C I) Res Bool :=
  match s.frame with
  | .ok i => do
    let st ← get
    if (st.base.f.drop i).any (fun cubes => cubes.any (fun c => subsumes c s.cube)) then return true
    else A.solverBlockedC s
  | _ => liftM (panicR "pdr.rs:422 unreachable" : Res Bool)

/-- The `while` loop of `generalize` — pdr.rs:429-453. -/
def generalizeLoopC (A : PDR I) (frame : Frame) : Nat → List Literal → Nat → StateT (C I) Res (List Literal)
  | budget, lits, j =>
    if j < lits.length then
      match budget with
      | 0 => liftM (.error .fuel : Res (List Literal))
      | budget + 1 => do
        let (removed, rest) ← liftM (unwrapR "pdr.rs:432 swap_remove" (swapRemove lits j))
        let t : TCube := ⟨Cube.new rest, frame⟩
        let dropped ← (if A.isInitial t.cube then pure false
          else do
            let r ← A.solveRelativeC t .doNotExtractModel
            return decide (r.frame ≠ .null) : StateT (C I) Res Bool)
        if dropped then generalizeLoopC A frame budget rest j
        else
          let pushed := rest ++ [removed]
          let swapped ← liftM (unwrapR "pdr.rs:450 swap" (swapAt pushed j (pushed.length - 1)))
          generalizeLoopC A frame budget swapped (j + 1)
    else return lits

/-- `generalize` — pdr.rs:426-458. -/
def generalizeC (A : PDR I) (s : TCube) : StateT (C I) Res TCube := do
  let t ← plain fresh
  let lits := A.sched.shuffle t s.cube.iter
  let r ← A.generalizeLoopC s.frame lits.length lits 0
  return ⟨Cube.new r, s.frame⟩

/-- The `while` loop of `propagate_blocked_cubes` — pdr.rs:467-481. -/
def propagateLoopC (A : PDR I) (k : Nat) : Nat → Nat → StateT (C I) Res Unit
  | budget, index => do
    let s ← get
    let l ← liftM (indexR "pdr.rs:467 index" s.base.f k)
    match l[index]? with
    | none => return ()
    | some c =>
      match budget with
      | 0 => liftM (.error .fuel : Res Unit)
      | budget + 1 =>
        let r ← A.solveRelativeC ⟨c, .ok (k + 1)⟩ .noInd
        if r.frame ≠ .null then
          plain (A.addBlockedCube r)
          propagateLoopC A k budget index
        else propagateLoopC A k budget (index + 1)

/-- The `for` loop of `propagate_blocked_cubes` over the remaining frames — pdr.rs:465-486. -/
def propagateFramesC (A : PDR I) : List Nat → StateT (C I) Res (Option Nat)
  | [] => return none
  | k :: ks => do
    let s ← get
    let l ← liftM (indexR "pdr.rs:467 index" s.base.f k)
    A.propagateLoopC k l.length 0
    let s ← get
    let l ← liftM (indexR "pdr.rs:482 index" s.base.f k)
    if l.isEmpty then return some k else propagateFramesC A ks

/-- `propagate_blocked_cubes` — pdr.rs:464-487. -/
def propagateBlockedCubesC (A : PDR I) : StateT (C I) Res (Option Nat) := do
  let d ← plain depth
  A.propagateFramesC (List.range' 1 (d - 1))

/-- The `while` loop of `rec_block_cube` that moves a cube forward — pdr.rs:578-596. -/
def forwardLoopC (A : PDR I) : Nat → TCube → Nat → StateT (C I) Res TCube
  | budget, z, zf => do
    let d ← plain depth
    if d = 0 then liftM (panicR "pdr.rs:578 underflow" : Res TCube)
    else if zf < d - 1 then
      match budget with
      | 0 => liftM (.error .fuel : Res TCube)
      | budget + 1 =>
        let n ← liftM (next z)
        let y ← A.solveRelativeC n .doNotExtractModel
        if y.frame ≠ .null then
          liftM (debugAssertR A.dbg "pdr.rs:587" (decide (y.frame ≠ .inf)))
          match y.frame with
          | .ok i => forwardLoopC A budget y i
          | _ => liftM (panicR "pdr.rs:593 unreachable" : Res TCube)
        else return z
    else return z

/-- The body of the `while` loop of `rec_block_cube` for an obligation that is not blocked yet — pdr.rs:568-628. -/
def handleC (A : PDR I) (s : TCube) (sf : Nat) (q : PQueue TCube) : StateT (C I) Res (PQueue TCube) := do
  liftM (debugAssertR A.dbg "pdr.rs:568" (!A.isInitial s.cube))
  let z ← A.solveRelativeC s .extractModel
  if z.frame ≠ .null then
    let z ← A.generalizeC z
    liftM (debugAssertR A.dbg "pdr.rs:574" (decide (z.frame ≠ .inf)))
    match z.frame with
    | .ok zf =>
      let d ← plain depth
      let z ← A.forwardLoopC d z zf
      liftM (debugAssertR A.dbg "pdr.rs:597" (decide (z.frame ≠ .inf ∧ z.frame ≠ .null)))
      plain (A.addBlockedCube z)
      liftM (debugAssertR A.dbg "pdr.rs:601" (decide (z.frame ≠ .inf)))
      let d ← plain depth
      if sf < d ∧ z.frame ≠ .inf then
        let n ← liftM (next s)
        match n.frame with
        | .ok nf => return q.push n nf
        | _ => liftM (panicR "pdr.rs:608 unreachable" : Res (PQueue TCube))
      else return q
    | _ => liftM (panicR "pdr.rs:612 unreachable" : Res (PQueue TCube))
  else
    liftM (debugAssertR A.dbg "pdr.rs:618" (decide (sf > 0)))
    return (q.push ⟨z.cube, .ok (sf - 1)⟩ (sf - 1)).push s sf

/-- The `while` loop of `rec_block_cube` — pdr.rs:559-634. -/
def blockQueueC (A : PDR I) : Nat → PQueue TCube → StateT (C I) Res Bool
  | fuel, q =>
    if q.isEmpty then return true
    else
      match fuel with
      | 0 => liftM (.error .fuel : Res Bool)
      | fuel + 1 => do
        let t ← plain fresh
        let ((s, _), q) ← liftM (unwrapR "pdr.rs:561 unwrap" (q.pop (A.sched.pick t q.length)))
        match s.frame with
        | .ok sf =>
          if sf = 0 then return false
          else if ← A.isBlockedC s then blockQueueC A fuel q
          else
            let q ← A.handleC s sf q
            blockQueueC A fuel q
        | _ => liftM (panicR "pdr.rs:631 unreachable" : Res Bool)

/-- `rec_block_cube` — pdr.rs:546-635. -/
def recBlockCubeC (A : PDR I) (fuel : Nat) (s0 : TCube) : StateT (C I) Res Bool :=
  match s0.frame with
  | .ok p => A.blockQueueC fuel (PQueue.push [] s0 p)
  | _ => liftM (panicR "pdr.rs:555 Bad Cube to block" : Res Bool)

/-- The main loop of `prove` — pdr.rs:702-728. -/
def mainLoopC (A : PDR I) (fuel : Nat) : Nat → StateT (C I) Res ProofResult
  | 0 => liftM (.error .fuel : Res ProofResult)
  | rounds + 1 => do
    match ← A.getBadCubeC with
    | some c =>
      let d ← plain depth
      if ← A.recBlockCubeC fuel ⟨c, .ok d⟩ then mainLoopC A fuel rounds
      else
        let d ← plain depth
        return .ctx (← liftM (depthU32 d))
    | none =>
      plain A.newFrame
      match ← A.propagateBlockedCubesC with
      | some i => return .proof (← plain (A.getRi i))
      | none => mainLoopC A fuel rounds

/-- `prove` — pdr.rs:695-729. -/
def proveC (A : PDR I) (fuel : Nat) : StateT (C I) Res ProofResult := do
  plain (modify fun s => { s with f := s.f ++ [[]] })
  plain A.newFrame
  A.mainLoopC fuel fuel

/-- `PDR::new(fin_state).prove()` with `sat_call_stats` at the end — pdr.rs:641-729. -/
def runC (dbg : Bool) (I : StatefulImpl) (sched : Sched) (f : Fsts) (fuel : Nat) : Res (ProofResult × Stats) := do
  let A : PDR I := ⟨dbg, f, sched, formulas f⟩
  let r ← A.proveC fuel ⟨⟨[], [], [], [], true, true, 0⟩, Stats.new⟩
  return (r.1, r.2.stats)

end PDR

end Verif
