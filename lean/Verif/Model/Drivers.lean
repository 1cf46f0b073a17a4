import Verif.Model.Bmc
import Verif.Model.AigSim
import Verif.Model.Verbose

/-!
# The checks that the project's tests make of a result

`tests/bmc.rs`, `tests/ic3_stateless.rs` and `tests/compare_provers.rs` run a prover on a file and check the result.  Printing and timing are left out;
`_true_with_probability` (tests/common/mod.rs:76-81) is a parameter, and what a test expects of a particular file (tests/bmc.rs:138-145, 156-159) is left out:
`Props/RepoTests` has that.
-/

namespace Verif.Drivers

open Verif.Fsts Verif.BMC Verif.IC3

/-- One entry of the maps built from an assignment — tests/bmc.rs:44-46 and 61-63. -/
def entry (site : String) (a : Assignment) (x : Nat) : Res (Nat × Bool) := do
  let b ← unwrapR site (a.getValue x)
  return (x, b)

/-- `extract_inputs_from_assignment` — tests/bmc.rs:34-51.  Every clock gets the values of the same variables, those of frame 0. -/
def extractInputs (a : Assignment) (f : Fsts) (clocks : Nat) : Res (List BoolMap) :=
  (List.range clocks).mapM fun _ => f.getInputLiteralNumbers.mapM (entry "tests/bmc.rs:44 unwrap" a)

/-- `extract_initial_latches_from_assignment` — tests/bmc.rs:53-67. -/
def extractLatches (a : Assignment) (f : Fsts) : Res BoolMap := f.getStateLiteralNumbers.mapM (entry "tests/bmc.rs:61 unwrap" a)

/-- The loop over the bad wires at one clock — tests/bmc.rs:79-92. -/
def badSeen (aig : Aig) (row : List Bool) : Res Bool :=
  aig.getBadInformation.foldlM (fun seen l => do
    let w ← Aig.readLit "tests/bmc.rs:85 index" row l
    return seen || w) false

/-- `check_that_bad_is_true_only_for_last_cycle` — tests/bmc.rs:69-101. -/
def checkLast (aig : Aig) (rows : List (List Bool)) : Res Unit :=
  rows.zipIdx.forM fun p => do
    let seen ← badSeen aig p.1
    if p.2 = rows.length - 1 then assertR "tests/bmc.rs:95" seen else assertR "tests/bmc.rs:98" (!seen)

/-- How `bmc_test` checks a counterexample — tests/bmc.rs:147-154.  (`depth + 1` does not overflow: depths are at most a limit below 2^32 − 1, C37.) -/
def replayTest (aig : Aig) (f : Fsts) (a : Assignment) (d : Nat) : Res Unit := do
  let inputs ← extractInputs a f (d + 1)
  let latches ← extractLatches a f
  assertR "tests/bmc.rs:150" (inputs.length - 1 == d)
  let rows ← aig.simulate inputs latches
  assertR "tests/bmc.rs:153" (rows.length - 1 == d)
  checkLast aig rows

/-- The check of a verdict: an invariant goes through `check_invariant` — tests/ic3_stateless.rs:44-54, tests/compare_provers.rs:66-80. -/
def checkVerdict (dbg : Bool) (env : Env) (f : Fsts) (check : Bool) (t : Nat) : ProofResult → Res Nat
  | .proof inv => if check then do
      let r ← f.checkInvariant dbg env inv t
      return r.2
    else return t
  | .ctx _ => return t

/-- `test` — tests/ic3_stateless.rs:35-55. -/
def ic3Test (dbg : Bool) (env : Env) (sched : Sched) (f : Fsts) (fuel t : Nat) : Res Unit := do
  let r ← proveStatelessV true dbg env sched f fuel
  let _ ← checkVerdict dbg env f true t r.2
  return ()

/-- `call_first_prover` and `call_second_prover` — tests/compare_provers.rs:39-51: PDR or `IC3Stateful`. -/
def callProver (isFirst dbg : Bool) (I : StatefulImpl) (sched : Sched) (f : Fsts) (fuel : Nat) : Res ProofResult :=
  if isFirst then (PDR.runV true dbg I sched f fuel).map Prod.snd else (proveStatefulV false dbg I sched f fuel).map Prod.snd

/-- `test` — tests/compare_provers.rs:53-81. -/
def compareOne (isFirst dbg : Bool) (I : StatefulImpl) (env : Env) (sched : Sched) (f : Fsts) (fuel : Nat) (check : Bool) (t : Nat) :
    Res (ProofResult × Nat) := do
  let r ← callProver isFirst dbg I sched f fuel
  let t ← checkVerdict dbg env f check t r
  return (r, t)

/-- `call_test_and_make_sure_same_result` — tests/compare_provers.rs:83-96, which passes `true` for both `first1` and `first2`, so that it compares PDR with
itself.  The two runs shuffle and hash differently. -/
def compareBoth (first1 first2 dbg : Bool) (I : StatefulImpl) (env : Env) (sched1 sched2 : Sched) (f : Fsts) (fuel : Nat) (check1 check2 : Bool) (t : Nat) :
    Res Unit := do
  let (r1, t) ← compareOne first1 dbg I env sched1 f fuel check1 t
  let (r2, _) ← compareOne first2 dbg I env sched2 f fuel check2 t
  match r1, r2 with
  | .proof _, .proof _ => return ()
  | .ctx _, .ctx _ => return ()
  | _, _ => panicR "tests/compare_provers.rs:92 Provers disagree"

end Verif.Drivers
