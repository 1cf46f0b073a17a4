import Verif.Model.Ic3

/-!
# Model of `src/algorithms/proof/pdr.rs`

Not modelled: `verbose` output and `println!`, timers, and the `u32` counters of SAT calls that only feed that output (see `Model/Verbose` and `Model/Counted`).  Frame numbers are naturals: they stay below the length of a `Vec`.  A `usize` subtraction that would
underflow is an error value in both build profiles (the code panics in debug builds, wraps and then fails an index in release builds); the
proofs show that it is never reached.
-/

namespace Verif

namespace PDR

/-- `enum Frame` — pdr.rs:46-51. -/
inductive Frame where
  | null
  | inf
  | ok (i : Nat)
deriving DecidableEq, Repr

/-- `struct TCube` — pdr.rs:53-57. -/
structure TCube where
  cube : Cube
  frame : Frame
deriving DecidableEq, Repr

/-- `enum SolveRelativeParam` — pdr.rs:59-63. -/
inductive Param where
  | doNotExtractModel
  | extractModel
  | noInd
deriving DecidableEq, Repr

/-- The cached formulas — pdr.rs:81-86. -/
structure Formulas where
  initial : CNF
  initialAndNotP : CNF
  initialAndT : CNF
  riAndNotP : CNF
  riAndT : CNF

/-- The formulas computed by `new` — pdr.rs:643-665. -/
def formulas (f : Fsts) : Formulas :=
  let notP0 := f.getUnsafetyProperty
  let connection := f.getStateToSafetyTranslation
  let transition := f.getTransitionRelation
  let initial := f.getInitialRelation.toCnf
  { initial := initial
    initialAndNotP := ((CNF.new.append initial).append connection).addClause notP0
    initialAndT := (CNF.new.append initial).append transition
    riAndNotP := (CNF.new.append connection).addClause notP0
    riAndT := CNF.new.append transition }

/-- The three vectors of solvers — pdr.rs:77-79. -/
inductive Which where
  | notP
  | ri
  | riT

/-- The changing part of `struct PDR` — pdr.rs:71, 77-79, 89-90. -/
structure St (I : StatefulImpl) where
  f : List (List Cube)
  notP : List I.S
  ri : List I.S
  riT : List I.S
  conePred : Bool
  coneBad : Bool
  tick : Nat

/-- The solvers of one kind — pdr.rs:77-79. -/
def St.sols {I : StatefulImpl} (s : St I) : Which → List I.S
  | .notP => s.notP
  | .ri => s.ri
  | .riT => s.riT

/-- Replacing the solvers of one kind — pdr.rs:77-79. -/
def St.setSols {I : StatefulImpl} (s : St I) (w : Which) (l : List I.S) : St I :=
  match w with
  | .notP => { s with notP := l }
  | .ri => { s with ri := l }
  | .riT => { s with riT := l }

end PDR

/-- The fixed part of `struct PDR` — pdr.rs:69-97. -/
structure PDR (I : StatefulImpl) where
  dbg : Bool
  fsts : Fsts
  sched : Sched
  forms : PDR.Formulas

namespace PDR

variable {I : StatefulImpl}

/-- Fresh call counter (an index of the environment, no counterpart in pdr.rs). -/
def fresh : StateT (St I) Res Nat := do
  let s ← get
  set { s with tick := s.tick + 1 }
  return s.tick

/-- `next` — pdr.rs:108-117. -/
def next (s : TCube) : Res TCube :=
  match s.frame with
  | .ok i => .ok ⟨s.cube, .ok (i + 1)⟩
  | _ => panicR "pdr.rs:110 unreachable"

/-- `depth` — pdr.rs:359-361. -/
def depth : StateT (St I) Res Nat := do
  let s ← get
  if s.f.length < 2 then liftM (panicR "pdr.rs:360 underflow" : Res Nat) else return s.f.length - 2

/-- `self.…_solvers[i].solve(cube, clause)` — pdr.rs:129, 161, 213, 217. -/
def call (w : Which) (i : Nat) (cube : Option Cube) (clause : Option Clause) : StateT (St I) Res SatResponse := do
  let t ← fresh
  let s ← get
  let x ← liftM (indexR "pdr.rs solver index" (s.sols w) i)
  let (r, y) ← liftM (I.solve t cube clause x)
  set (s.setSols w ((s.sols w).set i y))
  return r

/-- `self.…_solvers[i].add_cnf(&cnf)` — pdr.rs:297-299, 305-307. -/
def addAt (w : Which) (i : Nat) (g : CNF) : StateT (St I) Res Unit := do
  let s ← get
  let x ← liftM (indexR "pdr.rs solver index" (s.sols w) i)
  let y ← liftM (I.addCnf g x)
  set (s.setSols w ((s.sols w).set i y))

/-- `z_get_bad_cube` — pdr.rs:123-151. -/
def getBadCube (A : PDR I) : StateT (St I) Res (Option Cube) := do
  let d ← depth
  match ← call .notP d none none with
  | .unsat => return none
  | .sat a =>
    let bad ← liftM (A.fsts.extractState A.dbg a)
    let s ← get
    if s.coneBad then
      let reduced := A.fsts.intersectSafety bad
      liftM (debugAssertR A.dbg "pdr.rs:143" (decide (reduced.len ≤ bad.len)))
      set { s with coneBad := bad.len != reduced.len }
      return some reduced
    else return some bad

/-- `z_is_blocked` — pdr.rs:153-171.  The solver is asked about the frame alone, not about the cube. -/
def solverBlocked (s : TCube) : StateT (St I) Res Bool :=
  match s.frame with
  | .ok i => do
    match ← call .ri i none none with
    | .sat _ => return false
    | .unsat => return true
  | _ => liftM (panicR "pdr.rs:155 unreachable" : Res Bool)

/-- `z_is_initial` — pdr.rs:173-176. -/
def isInitial (A : PDR I) (c : Cube) : Bool := A.fsts.isCubeInitial c

/-- `z_solve_relative` — pdr.rs:178-285.  A result is unsatisfiable (`is_solve_relative_un_sat` — pdr.rs:371-373) if its frame is not `null`. -/
def solveRelative (A : PDR I) (s : TCube) (p : Param) : StateT (St I) Res TCube :=
  match s.frame with
  | .ok i => do
    let st ← get
    liftM (debugAssertR A.dbg "pdr.rs:183" (decide (0 < i ∧ i < st.riT.length)))
    let extraCube ← liftM (A.fsts.addTagsToCube A.dbg s.cube 1)
    let extraClause := s.cube.not
    if i = 0 then liftM (panicR "pdr.rs:213 underflow" : Res TCube)
    else
      match ← call .riT (i - 1) (some extraCube) (if p = .noInd then none else some extraClause) with
      | .unsat => return s
      | .sat a =>
        if p = .extractModel then
          let predecessor ← liftM (A.fsts.extractState A.dbg a)
          let st ← get
          if st.conePred then
            let reduced := A.fsts.intersectTransition predecessor
            liftM (debugAssertR A.dbg "pdr.rs:264" (decide (reduced.len ≤ predecessor.len)))
            set { st with conePred := predecessor.len != reduced.len }
            return ⟨reduced, .null⟩
          else return ⟨predecessor, .null⟩
        else return ⟨Cube.new [], .null⟩
  | _ => liftM (panicR "pdr.rs:180 unreachable" : Res TCube)

/-- The loops of `z_block_cube_in_solver` — pdr.rs:296-300, 304-308. -/
def blockLoop (g : CNF) : List Nat → StateT (St I) Res Unit
  | [] => return ()
  | i :: is => do
    addAt .ri i g
    addAt .notP i g
    addAt .riT i g
    blockLoop g is

/-- The debug assertions on the vectors' lengths — pdr.rs:288-290, 314-316, 350-352. -/
def checkLengths (A : PDR I) (site : String) (k : Nat) : StateT (St I) Res Unit := do
  let s ← get
  liftM (debugAssertR A.dbg site (s.notP.length == s.ri.length))
  liftM (debugAssertR A.dbg site (s.notP.length == s.riT.length))
  liftM (debugAssertR A.dbg site (decide (k ≤ s.f.length) && s.notP.length == s.f.length - k))

/-- `z_block_cube_in_solver` — pdr.rs:287-311. -/
def blockCubeInSolver (A : PDR I) (s : TCube) : StateT (St I) Res Unit := do
  A.checkLengths "pdr.rs:288" 1
  let g := CNF.new.addClause s.cube.not
  match s.frame with
  | .null => liftM (panicR "pdr.rs:294 unreachable" : Res Unit)
  | .inf =>
    let st ← get
    blockLoop g (List.range st.ri.length)
  | .ok i =>
    let st ← get
    liftM (debugAssertR A.dbg "pdr.rs:303" (decide (i < st.ri.length)))
    blockLoop g (List.range (i + 1))

/-- `z_new_frame` — pdr.rs:313-353. -/
def newFrameSolvers (A : PDR I) : StateT (St I) Res Unit := do
  A.checkLengths "pdr.rs:314" 2
  let s ← get
  if s.notP.isEmpty then
    let a ← liftM (I.addCnf A.forms.initialAndNotP I.new)
    let b ← liftM (I.addCnf A.forms.initial I.new)
    let c ← liftM (I.addCnf A.forms.initialAndT I.new)
    set { s with notP := s.notP ++ [a], ri := s.ri ++ [b], riT := s.riT ++ [c] }
  else
    let a ← liftM (I.addCnf A.forms.riAndNotP I.new)
    let c ← liftM (I.addCnf A.forms.riAndT I.new)
    set { s with notP := s.notP ++ [a], ri := s.ri ++ [I.new], riT := s.riT ++ [c] }
  A.checkLengths "pdr.rs:350" 1

/-- `new_frame` — pdr.rs:363-369. -/
def newFrame (A : PDR I) : StateT (St I) Res Unit := do
  let s ← get
  let n := s.f.length
  if n = 0 then liftM (panicR "pdr.rs:367 underflow" : Res Unit)
  else
    let f ← liftM (unwrapR "pdr.rs:367 swap" (swapAt (s.f ++ [[]]) (n - 1) n))
    set { s with f := f }
    A.newFrameSolvers

/-- `subsumes` — pdr.rs:511-515. -/
def subsumes (c1 c2 : Cube) : Bool := c1.iter.all (fun l => c2.iter.contains l)

/-- The `while` loop of `add_blocked_cube` on one frame — pdr.rs:384-391.  Each round shortens the vector or advances `i`, so a budget of its
length is enough. -/
def removeSubsumed (c : Cube) : Nat → List Cube → Nat → Res (List Cube)
  | budget, l, i =>
    match l[i]? with
    | none => .ok l
    | some x =>
      match budget with
      | 0 => .error .fuel
      | budget + 1 =>
        if subsumes c x then do
          let (_, rest) ← unwrapR "pdr.rs:387 swap_remove" (swapRemove l i)
          removeSubsumed c budget rest i
        else removeSubsumed c budget l (i + 1)

/-- The `for` loop of `add_blocked_cube` — pdr.rs:383-392. -/
def removeFrames (c : Cube) : List Nat → List (List Cube) → Res (List (List Cube))
  | [], f => .ok f
  | d :: ds, f => do
    let l ← indexR "pdr.rs:385 index" f d
    let l' ← removeSubsumed c l.length l 0
    removeFrames c ds (f.set d l')

/-- `add_blocked_cube` — pdr.rs:377-402. -/
def addBlockedCube (A : PDR I) (s : TCube) : StateT (St I) Res Unit :=
  match s.frame with
  | .ok i => do
    let d ← depth
    let k := min i (d + 1)
    let st ← get
    let f ← liftM (removeFrames s.cube (List.range' 1 k) st.f)
    let l ← liftM (indexR "pdr.rs:395 index" f k)
    set { st with f := f.set k (l ++ [s.cube]) }
    A.blockCubeInSolver s
  | _ => liftM (panicR "pdr.rs:399 unreachable" : Res Unit)

/-- `is_blocked` — pdr.rs:408-424. -/
def isBlocked (s : TCube) : StateT (St I) Res Bool :=
  match s.frame with
  | .ok i => do
    let st ← get
    if (st.f.drop i).any (fun cubes => cubes.any (fun c => subsumes c s.cube)) then return true
    else solverBlocked s
  | _ => liftM (panicR "pdr.rs:422 unreachable" : Res Bool)

/-- The `while` loop of `generalize` — pdr.rs:429-453.  Each round shortens the vector or advances `j`. -/
def generalizeLoop (A : PDR I) (frame : Frame) : Nat → List Literal → Nat → StateT (St I) Res (List Literal)
  | budget, lits, j =>
    if j < lits.length then
      match budget with
      | 0 => liftM (.error .fuel : Res (List Literal))
      | budget + 1 => do
        let (removed, rest) ← liftM (unwrapR "pdr.rs:432 swap_remove" (swapRemove lits j))
        let t : TCube := ⟨Cube.new rest, frame⟩
        let dropped ← (if A.isInitial t.cube then pure false
          else do
            let r ← A.solveRelative t .doNotExtractModel
            return decide (r.frame ≠ .null) : StateT (St I) Res Bool)
        if dropped then generalizeLoop A frame budget rest j
        else
          let pushed := rest ++ [removed]
          let swapped ← liftM (unwrapR "pdr.rs:450 swap" (swapAt pushed j (pushed.length - 1)))
          generalizeLoop A frame budget swapped (j + 1)
    else return lits

/-- `generalize` — pdr.rs:426-458. -/
def generalize (A : PDR I) (s : TCube) : StateT (St I) Res TCube := do
  let t ← fresh
  let lits := A.sched.shuffle t s.cube.iter
  let r ← A.generalizeLoop s.frame lits.length lits 0
  return ⟨Cube.new r, s.frame⟩

/-- The `while` loop of `propagate_blocked_cubes` — pdr.rs:467-481.  Each round shortens `f[k]` or advances the index. -/
def propagateLoop (A : PDR I) (k : Nat) : Nat → Nat → StateT (St I) Res Unit
  | budget, index => do
    let s ← get
    let l ← liftM (indexR "pdr.rs:467 index" s.f k)
    match l[index]? with
    | none => return ()
    | some c =>
      match budget with
      | 0 => liftM (.error .fuel : Res Unit)
      | budget + 1 =>
        let r ← A.solveRelative ⟨c, .ok (k + 1)⟩ .noInd
        if r.frame ≠ .null then
          A.addBlockedCube r
          propagateLoop A k budget index
        else propagateLoop A k budget (index + 1)

/-- The `for` loop of `propagate_blocked_cubes` over the remaining frames — pdr.rs:465-486. -/
def propagateFrames (A : PDR I) : List Nat → StateT (St I) Res (Option Nat)
  | [] => return none
  | k :: ks => do
    let s ← get
    let l ← liftM (indexR "pdr.rs:467 index" s.f k)
    A.propagateLoop k l.length 0
    let s ← get
    let l ← liftM (indexR "pdr.rs:482 index" s.f k)
    if l.isEmpty then return some k else propagateFrames A ks

/-- `propagate_blocked_cubes` — pdr.rs:464-487. -/
def propagateBlockedCubes (A : PDR I) : StateT (St I) Res (Option Nat) := do
  let d ← depth
  A.propagateFrames (List.range' 1 (d - 1))

/-- `get_r_i` — pdr.rs:493-509. -/
def getRi (A : PDR I) (i : Nat) : StateT (St I) Res CNF := do
  let s ← get
  let l ← liftM (indexR "pdr.rs:495 index" s.f 0)
  liftM (assertR "pdr.rs:495" l.isEmpty)
  if i = 0 then return CNF.new.append A.forms.initial
  else return (s.f.drop i).flatten.foldl (fun g c => g.addClause c.not) CNF.new

/-- The `while` loop of `rec_block_cube` that moves a cube forward — pdr.rs:578-596.  `budget` bounds the rounds by the number of frames. -/
def forwardLoop (A : PDR I) : Nat → TCube → Nat → StateT (St I) Res TCube
  | budget, z, zf => do
    let d ← depth
    if d = 0 then liftM (panicR "pdr.rs:578 underflow" : Res TCube)
    else if zf < d - 1 then
      match budget with
      | 0 => liftM (.error .fuel : Res TCube)
      | budget + 1 =>
        let n ← liftM (next z)
        let y ← A.solveRelative n .doNotExtractModel
        if y.frame ≠ .null then
          liftM (debugAssertR A.dbg "pdr.rs:587" (decide (y.frame ≠ .inf)))
          match y.frame with
          | .ok i => forwardLoop A budget y i
          | _ => liftM (panicR "pdr.rs:593 unreachable" : Res TCube)
        else return z
    else return z

/-- The body of the `while` loop of `rec_block_cube` for an obligation that is not blocked yet — pdr.rs:568-628.  Returns the new queue. -/
def handle (A : PDR I) (s : TCube) (sf : Nat) (q : PQueue TCube) : StateT (St I) Res (PQueue TCube) := do
  liftM (debugAssertR A.dbg "pdr.rs:568" (!A.isInitial s.cube))
  let z ← A.solveRelative s .extractModel
  if z.frame ≠ .null then
    let z ← A.generalize z
    liftM (debugAssertR A.dbg "pdr.rs:574" (decide (z.frame ≠ .inf)))
    match z.frame with
    | .ok zf =>
      let d ← depth
      let z ← A.forwardLoop d z zf
      liftM (debugAssertR A.dbg "pdr.rs:597" (decide (z.frame ≠ .inf ∧ z.frame ≠ .null)))
      A.addBlockedCube z
      liftM (debugAssertR A.dbg "pdr.rs:601" (decide (z.frame ≠ .inf)))
      let d ← depth
      if sf < d ∧ z.frame ≠ .inf then
        let n ← liftM (next s)
        match n.frame with
        | .ok nf => return q.push n nf
        | _ => liftM (panicR "pdr.rs:608 unreachable" : Res (PQueue TCube))
      else return q
    | _ => liftM (panicR "pdr.rs:612 unreachable" : Res (PQueue TCube))
  else
    liftM (debugAssertR A.dbg "pdr.rs:618" (decide (sf > 0)))
    return (q.push ⟨z.cube, .ok (sf - 1)⟩ (sf - 1)).push s sf

/-- The `while` loop of `rec_block_cube` — pdr.rs:559-634. -/
def blockQueue (A : PDR I) : Nat → PQueue TCube → StateT (St I) Res Bool
  | fuel, q =>
    if q.isEmpty then return true
    else
      match fuel with
      | 0 => liftM (.error .fuel : Res Bool)
      | fuel + 1 => do
        let t ← fresh
        let ((s, _), q) ← liftM (unwrapR "pdr.rs:561 unwrap" (q.pop (A.sched.pick t q.length)))
        match s.frame with
        | .ok sf =>
          if sf = 0 then return false
          else if ← isBlocked s then blockQueue A fuel q
          else
            let q ← A.handle s sf q
            blockQueue A fuel q
        | _ => liftM (panicR "pdr.rs:631 unreachable" : Res Bool)

/-- `rec_block_cube` — pdr.rs:546-635. -/
def recBlockCube (A : PDR I) (fuel : Nat) (s0 : TCube) : StateT (St I) Res Bool :=
  match s0.frame with
  | .ok p => A.blockQueue fuel (PQueue.push [] s0 p)
  | _ => liftM (panicR "pdr.rs:555 Bad Cube to block" : Res Bool)

/-- `self.depth().try_into().unwrap()` from `usize` to `u32` — pdr.rs:712. -/
def depthU32 (k : Nat) : Res Nat := if k < u32Size then .ok k else panicR "pdr depth try_into"

/-- The main loop of `prove` — pdr.rs:702-728. -/
def mainLoop (A : PDR I) (fuel : Nat) : Nat → StateT (St I) Res ProofResult
  | 0 => liftM (.error .fuel : Res ProofResult)
  | rounds + 1 => do
    match ← A.getBadCube with
    | some c =>
      let d ← depth
      if ← A.recBlockCube fuel ⟨c, .ok d⟩ then mainLoop A fuel rounds
      else
        let d ← depth
        return .ctx (← liftM (depthU32 d))
    | none =>
      A.newFrame
      match ← A.propagateBlockedCubes with
      | some i => return .proof (← A.getRi i)
      | none => mainLoop A fuel rounds

/-- `prove` — pdr.rs:695-729. -/
def prove (A : PDR I) (fuel : Nat) : StateT (St I) Res ProofResult := do
  let s ← get
  set { s with f := s.f ++ [[]] }
  A.newFrame
  A.mainLoop fuel fuel

/-- `PDR::new(fin_state).prove()` — pdr.rs:641-729. -/
def run (dbg : Bool) (I : StatefulImpl) (sched : Sched) (f : Fsts) (fuel : Nat) : Res ProofResult := do
  let A : PDR I := ⟨dbg, f, sched, formulas f⟩
  let r ← A.prove fuel ⟨[], [], [], [], true, true, 0⟩
  return r.1

/-- Calling `prove(&mut self)` once per number in the list on the same object, each time with that much fuel — pdr.rs:695. -/
def proveTimes (A : PDR I) : List Nat → StateT (St I) Res (List ProofResult)
  | [] => return []
  | fuel :: fuels => do
    let r ← A.prove fuel
    let rs ← proveTimes A fuels
    return r :: rs

/-- `PDR::new(fin_state)` and several calls of `prove` — pdr.rs:641-729. -/
def runTimes (dbg : Bool) (I : StatefulImpl) (sched : Sched) (f : Fsts) (fuels : List Nat) : Res (List ProofResult) := do
  let A : PDR I := ⟨dbg, f, sched, formulas f⟩
  let r ← A.proveTimes fuels ⟨[], [], [], [], true, true, 0⟩
  return r.1

end PDR

end Verif
