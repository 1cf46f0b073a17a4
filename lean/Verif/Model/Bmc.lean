import Verif.Model.Fsts

/-!
# Model of `src/algorithms/bmc.rs`
-/

namespace Verif

/-- `enum BMCResult` — src/algorithms/bmc.rs:20-28. -/
inductive BMCResult where
  | noCtx (depthReached : Int)
  | ctx (assignment : Assignment) (depth : Nat)
deriving DecidableEq, Repr

/-- `enum TimedSatResult` — src/algorithms/bmc.rs:30-33. -/
inductive TimedSatResult where
  | timeOut
  | noTimeOut (response : SatResponse)
deriving DecidableEq, Repr

/-- What the wall clock decides, per depth: whether the timeout has passed at the top of the iteration (bmc.rs:120) and whether the
solver thread finished in time (bmc.rs:64, 72).  Quantifying over all clocks quantifies over all timings. -/
structure Clock where
  expired : Nat → Bool
  finished : Nat → Bool

namespace BMC

/-- `join_handle.join().unwrap()` — src/algorithms/bmc.rs:74: a panic of the solver thread becomes a panic here. -/
def join (response : Res SatResponse) : Res SatResponse :=
  match response with
  | .ok r => .ok r
  | .error (.panic _) => panicR "bmc.rs:74 unwrap"
  | .error .fuel => .error .fuel

/-- `timed_sat_call` — src/algorithms/bmc.rs:53-80.  The thread runs the stateless solver; the polling loop only waits.  A thread
that has not finished in time is left alone, whatever it does later. -/
def timedSatCall (env : Env) (clock : Clock) (depth : Nat) (satFormula : CNF) : M TimedSatResult := do
  let response := env.solve (← nextTick) satFormula
  if clock.finished depth then return .noTimeOut (← join response) else return .timeOut

/-- Body of the unrolling loop — src/algorithms/bmc.rs:128-130. -/
def unrollStep (dbg : Bool) (f : Fsts) (tr satFormula : CNF) (unrollDepth : Nat) : Res CNF := do
  return satFormula.append (← f.addTagsToRelation dbg tr unrollDepth)

/-- The formula of one depth — src/algorithms/bmc.rs:127-131. -/
def satFormula (dbg : Bool) (f : Fsts) (initial : Cube) (notP0 tr : CNF) (depth : Nat) : Res CNF := do
  let unrolled ← (List.range depth).foldlM (unrollStep dbg f tr) initial.toCnf
  return unrolled.append (← f.addTagsToRelation dbg notP0 depth)

/-- `u32 → i32` `try_into().unwrap()` — src/algorithms/bmc.rs:121, 140, 148. -/
def toI32 (site : String) (n : Nat) : Res Int := if n < 2147483648 then .ok n else panicR site

/-- The depth loop — src/algorithms/bmc.rs:112-146: `n` iterations from `depth` on, then the result after the loop. -/
def searchLoop (dbg : Bool) (env : Env) (clock : Clock) (f : Fsts) (initial : Cube) (notP0 tr : CNF) (limit : Nat) :
    Nat → Nat → M BMCResult
  | 0, _ => return .noCtx (← toI32 "bmc.rs:148 try_into" limit)
  | n + 1, depth => do
    if clock.expired depth then
      let d ← toI32 "bmc.rs:121 try_into" depth
      return .noCtx (d - 1)
    else
      let g ← satFormula dbg f initial notP0 tr depth
      match ← timedSatCall env clock depth g with
      | .noTimeOut (.sat a) => return .ctx a depth
      | .noTimeOut .unsat => searchLoop dbg env clock f initial notP0 tr limit n (depth + 1)
      | .timeOut =>
        let d ← toI32 "bmc.rs:140 try_into" depth
        return .noCtx (d - 1)

/-- `search` — src/algorithms/bmc.rs:93-150. -/
def search (dbg : Bool) (env : Env) (clock : Clock) (f : Fsts) (limit : Nat) : M BMCResult := do
  let initial := f.getInitialRelation
  let notP0 := f.getUnsafetyProperty.toCnf.append f.getStateToSafetyTranslation
  let tr := f.getTransitionRelation
  let n ← u32Add dbg "bmc.rs:112 overflow" limit 1
  searchLoop dbg env clock f initial notP0 tr limit n 0

end BMC

end Verif
