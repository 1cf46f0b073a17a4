import Verif.Spec.Logic
import Verif.Spec.Circuit

/-!
# Spec: the frames of IC3

Frames are lists of clauses over the latches.  `F_0` is the set of initial states; `F_i` for `i ≥ 1` the states satisfying the clauses of frame
`i` that are not bad.  Valuations are of all wires, with consistent gates.
-/

namespace Verif.IC3

/-- Clauses of frame `i`. -/
def fr (fs : List CNF) (i : Nat) : CNF := fs.getD i CNF.new

end Verif.IC3

namespace Verif.Ic3Spec

open Verif.IC3

variable (c : Circuit) (bads : List Nat) (fs : List CNF)

/-- A cube of distinct, non-complementary latch literals. -/
structure StateCube (s : Cube) : Prop where
  built : ∃ ls, s = Cube.new ls
  latch : ∀ l ∈ s.iter, ∃ i, i < c.latches.length ∧ l.number = c.latchVar i
  nodup : s.iter.Nodup
  consistent : ∀ l ∈ s.iter, l.not ∉ s.iter

/-- Frames as `add_clause` builds them: clauses over latches, none in frame 0. -/
structure FramesOK : Prop where
  wf : ∀ i, (fr fs i).WF
  latch : ∀ i, ∀ d ∈ (fr fs i).iter, ∀ l ∈ d.iter, ∃ j, j < c.latches.length ∧ l.number = c.latchVar j
  zero : (fr fs 0).iter = []

/-- The set `F_i`. -/
def Member (i : Nat) (v : Val) : Prop := c.Frame v ∧ (fr fs i).holds v ∧ if i = 0 then c.Init v else ¬ Circuit.BadNow bads v

/-- From `F_i` one clock always leads into `d`. -/
def Pushable (i : Nat) (d : Clause) : Prop := ∀ v v', Member c bads fs i v → c.Step v v' → d.holds v'

/-- `d` holds initially and is inductive relative to `F_i`. -/
def Inductive (i : Nat) (d : Clause) : Prop :=
  (∀ v, c.Init v → d.holds v) ∧ ∀ v v', Member c bads fs i v → d.holds v → c.Step v v' → d.holds v'

/-- The cube can be entered in one clock from the part of `F_i` outside it. -/
def Enterable (i : Nat) (s : Cube) : Prop := ∃ v v', Member c bads fs i v ∧ ¬ s.holds v ∧ c.Step v v' ∧ s.holds v'

/-- `d` generalises the negation of `s` relative to `F_i`: it is a part of it, inductive relative to `F_i`, and each of its literals was
needed: leaving it out of some clause between `d` and `¬s` gives a clause that is not inductive. -/
structure Generalizes (i : Nat) (s : Cube) (d : Clause) : Prop where
  part : ∀ l ∈ d.iter, l.not ∈ s.iter
  inductive_ : Inductive c bads fs i d
  needed : ∀ l ∈ d.iter, ∃ e : Clause, (∀ x ∈ d.iter, x ≠ l → x ∈ e.iter) ∧ l ∉ e.iter ∧ (∀ x ∈ e.iter, x.not ∈ s.iter) ∧
    ¬ Inductive c bads fs i e

/-- The frames after `inductively_generalize`: clause `d` added to frames 1 to `n + 1`. -/
def AddedUpTo (fs' : List CNF) (d : Clause) (n : Nat) : Prop :=
  fs'.length = fs.length ∧ ∀ j, fr fs' j = if 1 ≤ j ∧ j ≤ n + 1 then (fr fs j).addClause d else fr fs j

/-- The frames after `propagate_clauses(k)`: going up from frame 1, the next frame gains those clauses of the frame that always hold one clock
later, and nothing else changes. -/
structure Propagated (k : Nat) (fs' : List CNF) : Prop where
  len : fs'.length = fs.length
  low : ∀ j, j ≤ 1 → fr fs' j = fr fs j
  high : ∀ j, k + 1 < j → fr fs' j = fr fs j
  up : ∀ i, 1 ≤ i → i ≤ k → ∀ d, d ∈ (fr fs' (i + 1)).iter ↔ d ∈ (fr fs (i + 1)).iter ∨ (d ∈ (fr fs' i).iter ∧ Pushable c bads fs' i d)

/-- The invariants of IC3 for the frames 0 to `n + 1`, with no bad state one clock after `F_i` for `i < m`. -/
structure Invariants (n m : Nat) : Prop where
  len : fs.length = n + 2
  ok : FramesOK c fs
  mono : ∀ i, 1 ≤ i → ∀ d ∈ (fr fs (i + 1)).iter, d ∈ (fr fs i).iter
  init : ∀ i v, c.Init v → (fr fs i).holds v
  good : ∀ v, c.Frame v → c.Init v → ¬ Circuit.BadNow bads v
  step : ∀ i v v', Member c bads fs i v → c.Step v v' → (fr fs (i + 1)).holds v'
  safe : ∀ i v v', i < m → Member c bads fs i v → c.Step v v' → c.Frame v' → ¬ Circuit.BadNow bads v'

/-- Frames `i` and `i + 1` have the same clauses. -/
def SameNext (i : Nat) : Prop := ∀ d, d ∈ (fr fs i).iter ↔ d ∈ (fr fs (i + 1)).iter

/-- The cube says exactly which values the latches have in `v`. -/
def IsState (v : Val) (s : Cube) : Prop := ∀ l, l ∈ s.iter ↔ l.holds v ∧ ∃ i, i < c.latches.length ∧ l.number = c.latchVar i

end Verif.Ic3Spec
