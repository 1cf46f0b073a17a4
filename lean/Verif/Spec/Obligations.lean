import Verif.Spec.Frames

/-!
# Spec: the proof obligations of IC3
-/

namespace Verif.Ic3Spec

open Verif.IC3

variable (c : Circuit) (bads : List Nat)

/-- From some state of the cube a bad state can be reached. -/
def LeadsToBad (s : Cube) : Prop := ∃ (w : Nat → Val) (d : Nat), s.holds (w 0) ∧ (∀ i, i ≤ d → c.Frame (w i)) ∧
  (∀ i, i < d → c.Step (w i) (w (i + 1))) ∧ Circuit.BadNow bads (w d)

/-- The clauses of frame `n` exclude the cube. -/
def Excluded (fs : List CNF) (n : Nat) (s : Cube) : Prop := ∀ v, (fr fs n).holds v → ¬ s.holds v

/-- A queue for `push_generalization(_, k)`: distinct states, each leading to a bad one and excluded by the frame of its number, which is between
1 and `k + 1`. -/
structure Obligations (fs : List CNF) (k : Nat) (q : List (Cube × Nat)) : Prop where
  nodup : (q.map Prod.fst).Nodup
  level : ∀ e ∈ q, 1 ≤ e.2 ∧ e.2 ≤ k + 1
  state : ∀ e ∈ q, StateCube c e.1 ∧ ∃ v, IsState c v e.1
  bad : ∀ e ∈ q, LeadsToBad c bads e.1
  out : ∀ e ∈ q, Excluded fs e.2 e.1

end Verif.Ic3Spec
