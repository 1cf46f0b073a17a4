import Verif.Model.Choice
import Verif.Model.Fsts
import Verif.Model.Stateful

/-!
# Model of `src/algorithms/proof/ic3_stateless_solver.rs` and `ic3_stateful_solver.rs`

The two files contain the same algorithm over different ways of asking the solver.  The shared part is written once, over the record
`IC3` of the operations in which they differ; `IC3.stateless` and `IC3.stateful` are the two instances.

Not modelled: `verbose` output, timers, and the `u32` counter of SAT calls that only feeds that output (see `Model/Verbose` and `Model/Counted`).
Objects are usually used once, `new` followed by one `prove` (`proveStateless`, `proveStateful`); `repeatStateless` and `repeatStateful` call
`prove` several times on one object.  `usize`/`isize` conversions of frame numbers cannot fail, because a `Vec` has at most `isize::MAX` elements.
-/

namespace Verif

/-- `enum ProofResult` — src/algorithms/proof/proof_result.rs:11-15. -/
inductive ProofResult where
  | proof (invariant : CNF)
  | ctx (depth : Nat)
deriving DecidableEq, Repr

namespace IC3

/-- The cached formulas of the structs — ic3_stateless_solver.rs:66-71, ic3_stateful_solver.rs:83-88. -/
structure Formulas where
  initial : CNF
  transition : CNF
  p0 : CNF
  notP0 : CNF
  notP1 : CNF

/-- The formulas computed by `new` — ic3_stateless_solver.rs:374-378, 385-390, ic3_stateful_solver.rs:451-455, 467-472. -/
def formulas (dbg : Bool) (f : Fsts) : Res Formulas := do
  let p0 := f.getStateToSafetyTranslation.append f.getSafetyProperty.toCnf
  let notP0 := f.getStateToSafetyTranslation.append f.getUnsafetyProperty.toCnf
  let notP1 ← f.addTagsToRelation dbg notP0 1
  return ⟨f.getInitialRelation.toCnf, f.getTransitionRelation, p0, notP0, notP1⟩

end IC3

/-- Everything the shared algorithm needs: the fixed data of the struct, and the operations that differ between the two provers — ic3_stateless_solver.rs:59-78, ic3_stateful_solver.rs:70-94. -/
structure IC3 (σ : Type) where
  dbg : Bool
  fsts : Fsts
  sched : Sched
  forms : IC3.Formulas
  /-- a fresh call counter for `sched` -/
  tick : StateT σ Res Nat
  /-- the field `clauses` -/
  clauses : σ → List CNF
  /-- `self.clauses[j].add_clause(&c)` / `add_clause_to_clauses` -/
  addClause : Nat → Clause → StateT σ Res Unit
  /-- `self.clauses.push(CNF::new())` / `push_extra_frame_to_clauses` -/
  pushFrame : StateT σ Res Unit
  /-- debug assertions at the top of the main loop -/
  enterFrame : Nat → StateT σ Res Unit
  /-- `is_bad_reached_in_0_steps` -/
  badIn0 : StateT σ Res SatResponse
  /-- `is_bad_reached_in_1_steps` -/
  badIn1 : StateT σ Res SatResponse
  /-- `F_k ∧ T ∧ ¬P'` -/
  badFrom : Nat → StateT σ Res SatResponse
  /-- `F_i ∧ T ∧ s'` -/
  cubeReach : Nat → Cube → StateT σ Res SatResponse
  /-- `F_i ∧ T ∧ ¬s ∧ s'` -/
  cubeReachNew : Nat → Cube → StateT σ Res Bool
  /-- `is_clause_inductive_relative_to_fi` -/
  clauseInductive : Clause → Nat → StateT σ Res Bool

namespace IC3

variable {σ : Type}

/-- `enum InductivelyGeneralizeResult` — ic3_stateless_solver.rs:45-48, ic3_stateful_solver.rs:49-52. -/
inductive GenResult where
  | success (n : Nat)
  | failure
deriving DecidableEq, Repr

/-- `self.clauses[k]` — ic3_stateless_solver.rs:102, 130, 432-435, ic3_stateful_solver.rs:112, 117-119. -/
def frame (A : IC3 σ) (k : Nat) : StateT σ Res CNF := do
  let s ← get
  liftM (indexR "ic3 clauses[k]" (A.clauses s) k)

/-- `get_fk` — ic3_stateless_solver.rs:101-109, ic3_stateful_solver.rs:246-254. -/
def getFk (A : IC3 σ) (k : Nat) : StateT σ Res CNF := do
  let g ← A.frame k
  return g.append (if k = 0 then A.forms.initial else A.forms.p0)

/-- Inner loop of `propagate_clauses` — ic3_stateless_solver.rs:131-149, ic3_stateful_solver.rs:259-270. -/
def propagateLoop (A : IC3 σ) (i : Nat) : List Clause → StateT σ Res Unit
  | [] => return ()
  | c :: cs => do
    match ← A.cubeReach i c.not with
    | .unsat => A.addClause (i + 1) c
    | .sat _ => pure ()
    propagateLoop A i cs

/-- Outer loop of `propagate_clauses`, over the remaining frame numbers — ic3_stateless_solver.rs:129-150, ic3_stateful_solver.rs:257-271. -/
def propagateFrames (A : IC3 σ) : List Nat → StateT σ Res Unit
  | [] => return ()
  | i :: is => do
    let g ← A.frame i
    let t ← A.tick
    propagateLoop A i (A.sched.order t g.iter)
    propagateFrames A is

/-- `propagate_clauses` — ic3_stateless_solver.rs:128-151, ic3_stateful_solver.rs:256-272. -/
def propagateClauses (A : IC3 σ) (k : Nat) : StateT σ Res Unit := propagateFrames A (List.range' 1 k)

/-- The `while` loop of `get_subclause_of_not_s_that_is_inductive_relative_to_fi` — ic3_stateless_solver.rs:209-222, ic3_stateful_solver.rs:295-308.  Each round
shortens the vector or advances `j`, so a budget of its length is enough. -/
def subclauseLoop (A : IC3 σ) (i : Nat) : Nat → List Literal → Nat → StateT σ Res (List Literal)
  | budget, lits, j =>
    if j < lits.length then
      match budget with
      | 0 => liftM (.error .fuel : Res (List Literal))
      | budget + 1 => do
        let (removed, rest) ← liftM (unwrapR "ic3 swap_remove" (swapRemove lits j))
        let d := Clause.new rest
        if ← A.clauseInductive d i then subclauseLoop A i budget rest j
        else
          let pushed := rest ++ [removed]
          let swapped ← liftM (unwrapR "ic3 swap" (swapAt pushed j (pushed.length - 1)))
          subclauseLoop A i budget swapped (j + 1)
    else return lits

/-- `get_subclause_of_not_s_that_is_inductive_relative_to_fi` — ic3_stateless_solver.rs:200-224, ic3_stateful_solver.rs:286-310. -/
def subclause (A : IC3 σ) (s : Cube) (i : Nat) : StateT σ Res Clause := do
  let c := s.not
  let t ← A.tick
  let lits := A.sched.shuffle t c.iter
  let r ← subclauseLoop A i lits.length lits 0
  return Clause.new r

/-- The `for` loop of `generate_clause` — ic3_stateless_solver.rs:228-230, ic3_stateful_solver.rs:314-316. -/
def addToFrames (A : IC3 σ) (c : Clause) : List Nat → StateT σ Res Unit
  | [] => return ()
  | j :: js => do
    A.addClause j c
    addToFrames A c js

/-- `generate_clause` — ic3_stateless_solver.rs:226-231, ic3_stateful_solver.rs:312-317. -/
def generateClause (A : IC3 σ) (s : Cube) (i : Nat) : StateT σ Res Unit := do
  let c ← A.subclause s i
  addToFrames A c (List.range' 1 (i + 1))

/-- The `for` loop of `inductively_generalize` and what follows it — ic3_stateless_solver.rs:243-250, ic3_stateful_solver.rs:329-336. -/
def generalizeLoop (A : IC3 σ) (s : Cube) (k : Nat) : List Nat → StateT σ Res GenResult
  | [] => do
    A.generateClause s k
    return .success k
  | i :: is => do
    if ← A.cubeReachNew i s then
      A.generateClause s (i - 1)
      return .success (i - 1)
    else generalizeLoop A s k is

/-- `inductively_generalize` — ic3_stateless_solver.rs:233-251, ic3_stateful_solver.rs:319-337. -/
def inductivelyGeneralize (A : IC3 σ) (s : Cube) (min : Int) (k : Nat) : StateT σ Res GenResult := do
  let start := (max 1 (min + 1)).toNat
  let rest := A.generalizeLoop s k (List.range' start (k + 1 - start))
  if min < 0 then
    if ← A.cubeReachNew 0 s then return .failure else rest
  else rest

/-- `push_generalization` — ic3_stateless_solver.rs:262-306, ic3_stateful_solver.rs:339-383.  Returns `true` for `Success`. -/
def pushGeneralization (A : IC3 σ) (k : Nat) : Nat → PQueue Cube → StateT σ Res Bool
  | 0, _ => liftM (.error .fuel : Res Bool)
  | fuel + 1, q => do
    let t ← A.tick
    let ((s, n), q) ← liftM (unwrapR "ic3 pop" (q.pop (A.sched.pick t q.length)))
    if n > k then return true
    else
      match ← A.cubeReach n s with
      | .sat a =>
        let p ← liftM (A.fsts.extractState A.dbg a)
        match ← A.inductivelyGeneralize p ((n : Int) - 2) k with
        | .failure => return false
        | .success m => pushGeneralization A k fuel ((q.push s n).push p (m + 1))
      | .unsat =>
        match ← A.inductivelyGeneralize s n k with
        | .failure => return false
        | .success m => pushGeneralization A k fuel (q.push s (m + 1))

/-- `k.try_into().unwrap()` from `usize` to `u32` — ic3_stateless_solver.rs:346, 355, 425, ic3_stateful_solver.rs:423, 432, 508. -/
def depthU32 (k : Nat) : Res Nat := if k < u32Size then .ok k else panicR "ic3 depth try_into"

/-- `strengthen` — ic3_stateless_solver.rs:330-367, ic3_stateful_solver.rs:407-444.  `none` for `Success`, the depth for `Failure`. -/
def strengthen (A : IC3 σ) (fuel : Nat) (k : Nat) : Nat → StateT σ Res (Option Nat)
  | 0 => liftM (.error .fuel : Res (Option Nat))
  | rounds + 1 => do
    match ← A.badFrom k with
    | .unsat => return none
    | .sat a =>
      let s ← liftM (A.fsts.extractState A.dbg a)
      match ← A.inductivelyGeneralize s ((k : Int) - 2) k with
      | .failure => return some (← liftM (depthU32 k))
      | .success n =>
        if ← A.pushGeneralization k fuel (PQueue.push [] s (n + 1)) then strengthen A fuel k rounds
        else return some (← liftM (depthU32 k))

/-- The loop that looks for two equal frames — ic3_stateless_solver.rs:430-442, ic3_stateful_solver.rs:513-528. -/
def findFixpoint (A : IC3 σ) : List Nat → StateT σ Res (Option CNF)
  | [] => return none
  | i :: is => do
    let a ← A.frame i
    let b ← A.frame (i + 1)
    liftM (debugAssertR A.dbg "ic3 clauses[i+1] in clauses[i]" (b.iter.all (fun c => a.contains c)))
    if a.len = b.len then return some (← A.getFk i)
    else findFixpoint A is

/-- The loop `for k in 1..` — ic3_stateless_solver.rs:416-443, ic3_stateful_solver.rs:498-529. -/
def mainLoop (A : IC3 σ) (fuel : Nat) : Nat → Nat → StateT σ Res ProofResult
  | 0, _ => liftM (.error .fuel : Res ProofResult)
  | rounds + 1, k => do
    A.pushFrame
    A.enterFrame k
    match ← A.strengthen fuel k fuel with
    | some _ => return .ctx (← liftM (depthU32 k))
    | none =>
      A.propagateClauses k
      match ← A.findFixpoint (List.range' 1 k) with
      | some inv => return .proof inv
      | none => mainLoop A fuel rounds (k + 1)

/-- `prove` — ic3_stateless_solver.rs:397-445, ic3_stateful_solver.rs:479-531. -/
def prove (A : IC3 σ) (fuel : Nat) : StateT σ Res ProofResult := do
  match ← A.badIn0 with
  | .sat _ => return .ctx 0
  | .unsat =>
    match ← A.badIn1 with
    | .sat _ => return .ctx 1
    | .unsat =>
      A.pushFrame
      A.pushFrame
      A.mainLoop fuel fuel 1

/-- Calling `prove(&mut self)` once per number in the list on the same object, each time with that much fuel; the frames of one call are
still there in the next — ic3_stateless_solver.rs:397, ic3_stateful_solver.rs:479. -/
def proveTimes (A : IC3 σ) : List Nat → StateT σ Res (List ProofResult)
  | [] => return []
  | fuel :: fuels => do
    let r ← A.prove fuel
    let rs ← proveTimes A fuels
    return r :: rs

/-! ## `IC3Stateless` -/

/-- The changing part of `struct IC3Stateless` — ic3_stateless_solver.rs:59-77; `tick` counts calls to the outside. -/
structure Stateless where
  clauses : List CNF
  tick : Nat
deriving DecidableEq

namespace Stateless

/-- Fresh call counter (an index of the environment, no counterpart in ic3_stateless_solver.rs or ic3_stateful_solver.rs). -/
def next : StateT Stateless Res Nat := do
  let s ← get
  set { s with tick := s.tick + 1 }
  return s.tick

/-- `sat_call` — ic3_stateless_solver.rs:89-95. -/
def satCall (env : Env) (g : CNF) : StateT Stateless Res SatResponse := do
  env.solve (← next) g

/-- `Vec<CNF>` update `self.clauses[j].add_clause(&c)` — ic3_stateless_solver.rs:143, 229. -/
def addClause (j : Nat) (c : Clause) : StateT Stateless Res Unit := do
  let s ← get
  let g ← liftM (indexR "ic3_stateless_solver.rs:229 index" s.clauses j)
  set { s with clauses := s.clauses.set j (g.addClause c) }

/-- `get_fk` — ic3_stateless_solver.rs:101-109. -/
def getFk (fm : Formulas) (k : Nat) : StateT Stateless Res CNF := do
  let s ← get
  let g ← liftM (indexR "ic3_stateless_solver.rs:102 index" s.clauses k)
  return g.append (if k = 0 then fm.initial else fm.p0)

/-- `is_bad_reached_in_0_steps` — ic3_stateless_solver.rs:111-117. -/
def badIn0 (env : Env) (fm : Formulas) : StateT Stateless Res SatResponse :=
  satCall env ((CNF.new.append fm.initial).append fm.notP0)

/-- `is_bad_reached_in_1_steps` — ic3_stateless_solver.rs:119-126. -/
def badIn1 (env : Env) (fm : Formulas) : StateT Stateless Res SatResponse :=
  satCall env (((CNF.new.append fm.initial).append fm.transition).append fm.notP1)

/-- `is_bad_reached_in_1_step_from_cnf(&self.get_fk(k))` — ic3_stateless_solver.rs:153-159, 332. -/
def badFrom (env : Env) (fm : Formulas) (k : Nat) : StateT Stateless Res SatResponse := do
  let fk ← getFk fm k
  satCall env (((CNF.new.append fk).append fm.transition).append fm.notP1)

/-- `solve_fi_and_t_and_s_tag` — ic3_stateless_solver.rs:254-260; the query of `propagate_clauses` (ic3_stateless_solver.rs:132-139) is the same with `s = !c`. -/
def cubeReach (dbg : Bool) (env : Env) (f : Fsts) (fm : Formulas) (i : Nat) (s : Cube) : StateT Stateless Res SatResponse := do
  let fi ← getFk fm i
  let tagged ← liftM (f.addTagsToRelation dbg s.toCnf 1)
  satCall env (((CNF.new.append fi).append fm.transition).append tagged)

/-- `is_fi_and_t_and_not_s_and_s_tag_sat` — ic3_stateless_solver.rs:162-172. -/
def cubeReachNew (dbg : Bool) (env : Env) (f : Fsts) (fm : Formulas) (i : Nat) (s : Cube) : StateT Stateless Res Bool := do
  let fi ← getFk fm i
  let g := ((CNF.new.append fi).append fm.transition).addClause s.not
  let tagged ← liftM (f.addTagsToRelation dbg s.toCnf 1)
  match ← satCall env (g.append tagged) with
  | .unsat => return false
  | .sat _ => return true

/-- `is_clause_inductive_relative_to_fi` — ic3_stateless_solver.rs:174-198. -/
def clauseInductive (dbg : Bool) (env : Env) (f : Fsts) (fm : Formulas) (d : Clause) (i : Nat) : StateT Stateless Res Bool := do
  match ← satCall env (fm.initial.append d.not.toCnf) with
  | .sat _ => return false
  | .unsat =>
    let fi ← getFk fm i
    let tagged ← liftM (f.addTagsToRelation dbg d.not.toCnf 1)
    match ← satCall env (((fi.addClause d).append fm.transition).append tagged) with
    | .unsat => return true
    | .sat _ => return false

end Stateless

/-- `IC3Stateless` as an instance of the shared algorithm — ic3_stateless_solver.rs:59-78, 84-446. -/
def stateless (dbg : Bool) (env : Env) (sched : Sched) (f : Fsts) (fm : Formulas) : IC3 Stateless where
  dbg := dbg
  fsts := f
  sched := sched
  forms := fm
  tick := Stateless.next
  clauses := Stateless.clauses
  addClause := Stateless.addClause
  pushFrame := modify fun s => { s with clauses := s.clauses ++ [CNF.new] }
  enterFrame := fun k => do
    let s ← get
    liftM (debugAssertR dbg "ic3_stateless_solver.rs:420" (s.clauses.length == k + 2))
  badIn0 := Stateless.badIn0 env fm
  badIn1 := Stateless.badIn1 env fm
  badFrom := Stateless.badFrom env fm
  cubeReach := Stateless.cubeReach dbg env f fm
  cubeReachNew := Stateless.cubeReachNew dbg env f fm
  clauseInductive := Stateless.clauseInductive dbg env f fm

/-- `IC3Stateless::new(fsts).prove()` — ic3_stateless_solver.rs:373-445. -/
def proveStateless (dbg : Bool) (env : Env) (sched : Sched) (f : Fsts) (fuel : Nat) : Res ProofResult := do
  let fm ← formulas dbg f
  let r ← (stateless dbg env sched f fm).prove fuel ⟨[], 0⟩
  return r.1

/-- `IC3Stateless::new(fsts)` and several calls of `prove` — ic3_stateless_solver.rs:373-445. -/
def repeatStateless (dbg : Bool) (env : Env) (sched : Sched) (f : Fsts) (fuels : List Nat) : Res (List ProofResult) := do
  let fm ← formulas dbg f
  let r ← (stateless dbg env sched f fm).proveTimes fuels ⟨[], 0⟩
  return r.1

/-! ## `IC3Stateful` -/

/-- The changing part of `struct IC3Stateful` — ic3_stateful_solver.rs:71-94. -/
structure Stateful (I : StatefulImpl) where
  clauses : List CNF
  fiAndT : List I.S
  initialSolver : I.S
  fiAndTAndNotP : List I.S
  tick : Nat

namespace Stateful

variable {I : StatefulImpl}

/-- Fresh call counter (an index of the environment, no counterpart in ic3_stateless_solver.rs or ic3_stateful_solver.rs). -/
def next : StateT (Stateful I) Res Nat := do
  let s ← get
  set { s with tick := s.tick + 1 }
  return s.tick

/-- `add_clause_to_clauses` — ic3_stateful_solver.rs:105-115. -/
def addClause (dbg : Bool) (j : Nat) (c : Clause) : StateT (Stateful I) Res Unit := do
  let s ← get
  liftM (debugAssertR dbg "ic3_stateful_solver.rs:106" (s.clauses.length == s.fiAndT.length))
  liftM (debugAssertR dbg "ic3_stateful_solver.rs:107" (s.clauses.length == s.fiAndTAndNotP.length))
  let g ← liftM (indexR "ic3_stateful_solver.rs:112 index" s.clauses j)
  let a ← liftM (indexR "ic3_stateful_solver.rs:113 index" s.fiAndT j)
  let a ← liftM (I.addCnf c.toCnf a)
  let b ← liftM (indexR "ic3_stateful_solver.rs:114 index" s.fiAndTAndNotP j)
  let b ← liftM (I.addCnf c.toCnf b)
  set { s with clauses := s.clauses.set j (g.addClause c), fiAndT := s.fiAndT.set j a, fiAndTAndNotP := s.fiAndTAndNotP.set j b }

/-- `push_extra_frame_to_clauses` — ic3_stateful_solver.rs:121-149. -/
def pushFrame (dbg : Bool) (fm : Formulas) : StateT (Stateful I) Res Unit := do
  let s ← get
  liftM (debugAssertR dbg "ic3_stateful_solver.rs:122" (s.clauses.length == s.fiAndT.length))
  liftM (debugAssertR dbg "ic3_stateful_solver.rs:123" (s.clauses.length == s.fiAndTAndNotP.length))
  let a ← liftM (I.addCnf fm.transition I.new)
  let b ← liftM (I.addCnf fm.transition I.new)
  let b ← liftM (I.addCnf fm.notP1 b)
  let base := if s.fiAndT.isEmpty then fm.initial else fm.p0
  let a ← liftM (I.addCnf base a)
  let b ← liftM (I.addCnf base b)
  set { s with clauses := s.clauses ++ [CNF.new], fiAndT := s.fiAndT ++ [a], fiAndTAndNotP := s.fiAndTAndNotP ++ [b] }

/-- `sat_call(SolverVariant::Custom(cnf), None, None)` — ic3_stateful_solver.rs:155-184. -/
def callCustom (g : CNF) : StateT (Stateful I) Res SatResponse := do
  let t ← next
  let solver ← liftM (I.addCnf g I.new)
  let (r, _) ← liftM (I.solve t none none solver)
  return r

/-- `sat_call(SolverVariant::Initial, …)` — ic3_stateful_solver.rs:155-184. -/
def callInitial (cube : Option Cube) (clause : Option Clause) : StateT (Stateful I) Res SatResponse := do
  let t ← next
  let s ← get
  let (r, solver) ← liftM (I.solve t cube clause s.initialSolver)
  set { s with initialSolver := solver }
  return r

/-- `sat_call(SolverVariant::FiAndT(j), …)` — ic3_stateful_solver.rs:155-184. -/
def callFiAndT (j : Nat) (cube : Option Cube) (clause : Option Clause) : StateT (Stateful I) Res SatResponse := do
  let t ← next
  let s ← get
  let solver ← liftM (indexR "ic3_stateful_solver.rs:170 index" s.fiAndT j)
  let (r, solver) ← liftM (I.solve t cube clause solver)
  set { s with fiAndT := s.fiAndT.set j solver }
  return r

/-- `sat_call(SolverVariant::FiAndTAndNotPTag(j), …)` — ic3_stateful_solver.rs:155-184. -/
def callNotP (j : Nat) (cube : Option Cube) (clause : Option Clause) : StateT (Stateful I) Res SatResponse := do
  let t ← next
  let s ← get
  let solver ← liftM (indexR "ic3_stateful_solver.rs:173 index" s.fiAndTAndNotP j)
  let (r, solver) ← liftM (I.solve t cube clause solver)
  set { s with fiAndTAndNotP := s.fiAndTAndNotP.set j solver }
  return r

/-- `is_bad_reached_in_0_steps` — ic3_stateful_solver.rs:186-192. -/
def badIn0 (fm : Formulas) : StateT (Stateful I) Res SatResponse := callCustom ((CNF.new.append fm.initial).append fm.notP0)

/-- `is_bad_reached_in_1_steps` — ic3_stateful_solver.rs:194-201. -/
def badIn1 (fm : Formulas) : StateT (Stateful I) Res SatResponse :=
  callCustom (((CNF.new.append fm.initial).append fm.transition).append fm.notP1)

/-- `is_cube_reachable_in_1_step_from_fi` — ic3_stateful_solver.rs:203-207. -/
def cubeReach (dbg : Bool) (f : Fsts) (i : Nat) (s : Cube) : StateT (Stateful I) Res SatResponse := do
  let tagged ← liftM (f.addTagsToCube dbg s 1)
  callFiAndT i (some tagged) none

/-- `is_bad_reachable_in_1_step_from_fi` — ic3_stateful_solver.rs:209-212. -/
def badFrom (i : Nat) : StateT (Stateful I) Res SatResponse := callNotP i none none

/-- `is_fi_and_t_and_not_s_and_s_tag_sat` — ic3_stateful_solver.rs:214-223. -/
def cubeReachNew (dbg : Bool) (f : Fsts) (i : Nat) (s : Cube) : StateT (Stateful I) Res Bool := do
  let tagged ← liftM (f.addTagsToCube dbg s 1)
  match ← callFiAndT i (some tagged) (some s.not) with
  | .unsat => return false
  | .sat _ => return true

/-- `is_fi_and_t_and_clause_and_not_clause_tag_sat` — ic3_stateful_solver.rs:225-233. -/
def clauseTagSat (dbg : Bool) (f : Fsts) (i : Nat) (d : Clause) : StateT (Stateful I) Res Bool := do
  let tagged ← liftM (f.addTagsToCube dbg d.not 1)
  match ← callFiAndT i (some tagged) (some d) with
  | .unsat => return false
  | .sat _ => return true

/-- `does_cube_intersect_with_initial` — ic3_stateful_solver.rs:235-240. -/
def intersectsInitial (cube : Cube) : StateT (Stateful I) Res Bool := do
  match ← callInitial (some cube) none with
  | .unsat => return false
  | .sat _ => return true

/-- `is_clause_inductive_relative_to_fi` — ic3_stateful_solver.rs:274-284.  The solver is asked only by the debug assertions. -/
def clauseInductive (dbg : Bool) (f : Fsts) (d : Clause) (i : Nat) : StateT (Stateful I) Res Bool := do
  if f.isCubeInitial d.not then
    if dbg then
      let b ← intersectsInitial d.not
      liftM (assertR "ic3_stateful_solver.rs:277" b)
    return false
  else
    if dbg then
      let b ← intersectsInitial d.not
      liftM (assertR "ic3_stateful_solver.rs:280" (!b))
    return !(← clauseTagSat dbg f i d)

end Stateful

/-- `IC3Stateful` as an instance of the shared algorithm — ic3_stateful_solver.rs:70-94, 100-532. -/
def stateful (dbg : Bool) (I : StatefulImpl) (sched : Sched) (f : Fsts) (fm : Formulas) : IC3 (Stateful I) where
  dbg := dbg
  fsts := f
  sched := sched
  forms := fm
  tick := Stateful.next
  clauses := Stateful.clauses
  addClause := Stateful.addClause dbg
  pushFrame := Stateful.pushFrame dbg fm
  enterFrame := fun k => do
    let s ← get
    liftM (debugAssertR dbg "ic3_stateful_solver.rs:502" (s.clauses.length == k + 2))
    if dbg then
      let g ← liftM (indexR "ic3_stateful_solver.rs:118 index" s.clauses 0)
      liftM (assertR "ic3_stateful_solver.rs:503" (g.len == 0))
  badIn0 := Stateful.badIn0 fm
  badIn1 := Stateful.badIn1 fm
  badFrom := Stateful.badFrom
  cubeReach := Stateful.cubeReach dbg f
  cubeReachNew := Stateful.cubeReachNew dbg f
  clauseInductive := Stateful.clauseInductive dbg f

/-- `IC3Stateful::new(fsts).prove()` — ic3_stateful_solver.rs:450-531. -/
def proveStateful (dbg : Bool) (I : StatefulImpl) (sched : Sched) (f : Fsts) (fuel : Nat) : Res ProofResult := do
  let fm ← formulas dbg f
  let initialSolver ← I.addCnf f.getInitialRelation.toCnf I.new
  let r ← (stateful dbg I sched f fm).prove fuel ⟨[], [], initialSolver, [], 0⟩
  return r.1

/-- `IC3Stateful::new(fsts)` and several calls of `prove` — ic3_stateful_solver.rs:450-531. -/
def repeatStateful (dbg : Bool) (I : StatefulImpl) (sched : Sched) (f : Fsts) (fuels : List Nat) : Res (List ProofResult) := do
  let fm ← formulas dbg f
  let initialSolver ← I.addCnf f.getInitialRelation.toCnf I.new
  let r ← (stateful dbg I sched f fm).proveTimes fuels ⟨[], [], initialSolver, [], 0⟩
  return r.1

end IC3

end Verif
