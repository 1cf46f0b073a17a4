import Verif.Model.Fsts
import Verif.Spec.Represents
import Verif.Spec.SatContract

/-!
# Spec: which circuits `FiniteStateTransitionSystem::from_aig` is meant for
-/

namespace Verif

/-- What an external Varisat and the hash orders must satisfy for `from_aig`. -/
structure BuildEnv.OK (be : BuildEnv) : Prop where
  order1 : ∀ l, (be.gateOrder1 l).Perm l
  order2 : ∀ l, (be.gateOrder2 l).Perm l
  varisat : ∀ f : CNF, f.WF → f.Good → ∃ r, be.varisat f = .ok r ∧ AnswerCorrect f r

/-- All variables of two frames are legal literal numbers. -/
def Circuit.Small (c : Circuit) : Prop := 2 * c.maxVar < 2147483648

namespace Fsts

/-- The literals whose truth counts as bad. -/
def badLits (c : Circuit) (outputBad : Bool) : List Nat := c.bad ++ (if outputBad then c.outputs else [])

/-- All variables used for one step fit a literal. -/
structure Encodable (c : Circuit) : Prop where
  max_lt : c.maxVar < 2147483647
  latch_lt : ∀ i, i < c.latches.length → c.latchVar i + c.maxVar < 2147483648

/-- A circuit the translation supports: no constraints, no constant bad literal, variables that fit. -/
structure Supported (c : Circuit) (outputBad : Bool) : Prop where
  wf : c.WF
  encodable : Encodable c
  constraints : c.constraints = []
  bad : ∀ l ∈ badLits c outputBad, 2 ≤ l

/-- `f` is what `from_aig` returned, in some build profile, for a graph that stores the supported circuit `c`. -/
def Built (f : Fsts) (c : Circuit) (outputBad : Bool) : Prop :=
  Supported c outputBad ∧ ∃ dbg be a, be.OK ∧ a.Represents c ∧ fromAig dbg be a outputBad = .ok f

end Fsts

end Verif
