import Verif.Model.Stateful
import Verif.Model.Fsts

/-!
# When a run asks its solver

A run asks the solver at moment `t` if it fails as soon as the solver fails at `t`, and only then.
-/

namespace Verif

/-- The failure of a solver that is told to fail. -/
def asked : Err := .panic "asked"

/-- The environment whose solver fails at the moment `n` and is otherwise the same. -/
def Env.failAt (env : Env) (n : Nat) : Env := { env with solve := fun t g => if t = n then .error asked else env.solve t g }

/-- The stateful solver that fails on the calls chosen by `p` and is otherwise the same. -/
def StatefulImpl.guard (I : StatefulImpl) (p : Nat → Option Cube → Option Clause → Bool) : StatefulImpl :=
  { I with solve := fun t cube clause s => if p t cube clause then .error asked else I.solve t cube clause s }

/-- The stateful solver that fails at the moment `n`. -/
def StatefulImpl.failAt (I : StatefulImpl) (n : Nat) : StatefulImpl := I.guard fun t _ _ => t == n

/-- The stateful solver that fails at the moment `n` if it is called with (`true`) or without (`false`) a cube and with or without a clause. -/
def StatefulImpl.failOn (I : StatefulImpl) (n : Nat) (cube clause : Bool) : StatefulImpl :=
  I.guard fun t c d => t == n && (c.isSome == cube && d.isSome == clause)

/-- The stateful solver that at the moment `n` tells whether the formula is satisfiable but not by which assignment. -/
def StatefulImpl.blankAt (I : StatefulImpl) (n : Nat) : StatefulImpl :=
  { I with solve := fun t cube clause s =>
      if t = n then (I.solve t cube clause s).map fun p => (if p.1 = .unsat then .unsat else .sat ⟨[], []⟩, p.2) else I.solve t cube clause s }

/-- The stateful solver that at the moment `n` claims that the formula is satisfiable, without an assignment. -/
def StatefulImpl.claimAt (I : StatefulImpl) (n : Nat) : StatefulImpl :=
  { I with solve := fun t cube clause s => if t = n then (I.solve t cube clause s).map fun p => (.sat ⟨[], []⟩, p.2) else I.solve t cube clause s }

/-- `ts` are the moments at which a run with result `r` asks the solver: `run t` is the run with a solver that fails at `t`. -/
def AsksAt {α : Type} (run : Nat → Res α) (r : α) (ts : List Nat) : Prop :=
  ts.Pairwise (· < ·) ∧ ∀ t, (t ∈ ts → run t = .error asked) ∧ (t ∉ ts → run t = .ok r)

/-- The keys under which PDR counts its SAT calls, and whether a call counted under the key passes a cube and a clause to the solver. -/
def pdrCalls : List (String × Bool × Bool) :=
  [("z_get_bad_cube", false, false), ("z_is_blocked", false, false), ("z_solve_relative_DoNotExtractModel", true, true),
    ("z_solve_relative_NoInd", true, false), ("z_solve_relative_ExtractModel", true, true)]

/-- The keys of the calls after which PDR reads the assignment, if there is one. -/
def pdrReads : List String := ["z_get_bad_cube", "z_solve_relative_ExtractModel"]

/-- The system has a latch, and the number of the first one makes a literal. -/
def HasLatch (f : Fsts) : Prop := ∃ n ns, f.stateLits = n :: ns ∧ 0 < n ∧ n ≤ 2147483647

/-- How many of the calls (moment and key) have this key. -/
def timesOf (k : String) (calls : List (Nat × String)) : Nat := calls.countP fun p => p.2 == k

end Verif
