import Verif.Spec.Ic3State
import Verif.Model.Pdr

/-!
# Spec: the blocked cubes of PDR and the state of a PDR object

`f[j]` holds cubes over the latches.  `R_0` is the set of initial states, `R_i` for `i ≥ 1` the set of states in none of the cubes of
`f[i], f[i+1], …`.  Valuations are of all wires, with consistent gates.
-/

namespace Verif.PDR

variable {I : StatefulImpl} {F : Err → Prop}

/-- The cubes stored at index `j`. -/
def fr (f : List (List Cube)) (j : Nat) : List Cube := f.getD j []

/-- No cube stored at index `i` or above holds. -/
def RC (f : List (List Cube)) (i : Nat) (v : Val) : Prop := ∀ j, i ≤ j → ∀ z ∈ fr f j, ¬ z.holds v

/-- What each solver starts with. -/
def base (fm : Formulas) : Which → Nat → CNF
  | .notP, i => if i = 0 then fm.initialAndNotP else fm.riAndNotP
  | .ri, i => if i = 0 then fm.initial else CNF.new
  | .riT, i => if i = 0 then fm.initialAndT else fm.riAndT

/-- The solvers of index `i` stand for their base formula and `P i`. -/
structure Holds (O : I.OK F) (fm : Formulas) (f : List (List Cube)) (n : Nat) (s : St I) (P : Which → Nat → Val → Prop) : Prop where
  f_eq : s.f = f
  len : ∀ w, (s.sols w).length = n
  rep : ∀ (w : Which) (i : Nat) (x : I.S), (s.sols w)[i]? = some x → ∃ cs, O.Rep x cs ∧ (∀ d ∈ (base fm w i).clauses, d ∈ cs) ∧
    ∀ v, (∀ d ∈ cs, d.holds v) ↔ (base fm w i).holds v ∧ P w i v

/-- The solvers stand for the frames. -/
def Inv (O : I.OK F) (fm : Formulas) (s : St I) (f : List (List Cube)) : Prop := Holds O fm f (f.length - 1) s (fun _ => RC f)

end Verif.PDR

namespace Verif.PdrSpec

open Verif.PDR

/-- `A` is made by `new` from the system `f`. -/
structure Prover (f : Fsts) {I : StatefulImpl} (A : PDR I) : Prop where
  fsts : A.fsts = f
  forms : A.forms = formulas f
  sched : A.sched.OK

variable (c : Circuit) (bads : List Nat) (f : List (List Cube))

/-- A cube of latch literals. -/
structure OverLatches (z : Cube) : Prop where
  built : ∃ ls, z = Cube.new ls
  latch : ∀ l ∈ z.iter, ∃ i, i < c.latches.length ∧ l.number = c.latchVar i

/-- All stored cubes are over latches. -/
def FramesOK : Prop := ∀ j, ∀ z ∈ fr f j, OverLatches c z

/-- The set `R_i`. -/
def Member (i : Nat) (v : Val) : Prop := c.Frame v ∧ (i = 0 → c.Init v) ∧ ∀ j, i ≤ j → ∀ z ∈ fr f j, ¬ z.holds v

/-- The states of `b` are among those of `a`, by the literals. -/
def Subsumes (a b : Cube) : Prop := ∀ l ∈ a.iter, l ∈ b.iter

/-- `z` can be entered in one clock from `R_i`. -/
def Reachable (i : Nat) (z : Cube) : Prop := ∃ v v', Member c f i v ∧ c.Step v v' ∧ z.holds v'

/-- `z` can be entered in one clock from the part of `R_i` outside `z`. -/
def Enterable (i : Nat) (z : Cube) : Prop := ∃ v v', Member c f i v ∧ ¬ z.holds v ∧ c.Step v v' ∧ z.holds v'

/-- `z` contains an initial state. -/
def Initial (z : Cube) : Prop := ∃ v, c.Init v ∧ z.holds v

/-- Every state in `p` has inputs under which `Q` holds. -/
def Leads (p : Cube) (Q : Val → Prop) : Prop := ∀ w, p.holds w → ∃ x, c.Frame x ∧ (∀ i, i < c.latches.length → x (c.latchVar i) = w (c.latchVar i)) ∧ Q x

/-- The result of `z_solve_relative` for the cube `z` and frame `k + 1`: the cube itself if it cannot be entered from the frame below (outside
the cube unless `NoInd`), otherwise `Null` and, if a model was asked for, a cube around a predecessor from which the same state of `z` can
always be entered. -/
def Relative (p : Param) (k : Nat) (z : Cube) (r : TCube) : Prop :=
  (r = ⟨z, .ok (k + 1)⟩ ∧ if p = .noInd then ¬ Reachable c f k z else ¬ Enterable c f k z) ∨
  (r.frame = .null ∧ (if p = .noInd then Reachable c f k z else Enterable c f k z) ∧ (p ≠ .extractModel → r.cube = Cube.new []) ∧
    (p = .extractModel → OverLatches c r.cube ∧ ∃ v v', Member c f k v ∧ ¬ z.holds v ∧ r.cube.holds v ∧ c.Step v v' ∧ z.holds v' ∧
      Leads c r.cube (fun x => c.Step x v')))

/-- `y` generalises `z` relative to `R_k`: it is a part of it, contains no initial state and cannot be entered from `R_k` outside `y`, and
each of its literals was needed: leaving it out of some cube between `y` and `z` gives a cube with an initial state or one that can be
entered. -/
structure Generalizes (k : Nat) (z y : Cube) : Prop where
  part : Subsumes y z
  not_initial : ¬ Initial c y
  not_enterable : ¬ Enterable c f k y
  needed : ∀ l ∈ y.iter, ∃ e : Cube, (∀ x ∈ y.iter, x ≠ l → x ∈ e.iter) ∧ l ∉ e.iter ∧ Subsumes e z ∧ (Initial c e ∨ Enterable c f k e)

/-- The frames after `add_blocked_cube`: `z` is stored at the end of `f[k]`, the cubes it subsumes are gone from `f[1], …, f[k]`, and nothing
else changes except the order in these frames. -/
structure Stored (z : Cube) (k : Nat) (f' : List (List Cube)) : Prop where
  len : f'.length = f.length
  other : ∀ j, (j = 0 ∨ k < j) → fr f' j = fr f j
  below : ∀ j, 1 ≤ j → j < k → ∃ l, (fr f j).Perm (fr f' j ++ l) ∧ (∀ x ∈ fr f' j, ¬ Subsumes z x) ∧ ∀ x ∈ l, Subsumes z x
  at_ : ∃ r l, fr f' k = r ++ [z] ∧ (fr f k).Perm (r ++ l) ∧ (∀ x ∈ r, ¬ Subsumes z x) ∧ ∀ x ∈ l, Subsumes z x

/-- The invariants of PDR at depth `d`, with no bad state in `R_i` for `i < m`. -/
structure Invariants (d m : Nat) : Prop where
  len : f.length = d + 2
  ok : FramesOK c f
  zero : fr f 0 = []
  inf : fr f (d + 1) = []
  init : ∀ j, ∀ z ∈ fr f j, ¬ Initial c z
  step : ∀ i v v', Member c f i v → c.Step v v' → ∀ j, i + 1 ≤ j → ∀ z ∈ fr f j, ¬ z.holds v'
  good : ∀ i v, i < m → Member c f i v → ¬ Circuit.BadNow bads v
  within : ∀ j, (fr f j).Pairwise (fun a b => ¬ Subsumes a b ∧ ¬ Subsumes b a)
  across : ∀ i j, i < j → ∀ a ∈ fr f i, ∀ b ∈ fr f j, ¬ Subsumes b a

/-- The frames after `propagate_blocked_cubes` at depth `d`, up to and including frame `n`: cubes only move up, each past frames from which
it cannot be reached in one clock; none gets lost, except to one that subsumes it; and those left in the frames `1..=n` can be
reached from the frame they are in. -/
structure Propagated (n : Nat) (f' : List (List Cube)) : Prop where
  len : f'.length = f.length
  high : ∀ j, n + 1 < j → fr f' j = fr f j
  source : ∀ j, ∀ z ∈ fr f' j, ∃ i, i ≤ j ∧ z ∈ fr f i ∧ ∀ k, i ≤ k → k < j → ¬ Reachable c f' k z
  kept : ∀ j, ∀ z ∈ fr f j, ∃ i, j ≤ i ∧ ∃ x ∈ fr f' i, Subsumes x z
  stuck : ∀ k, 1 ≤ k → k ≤ n → ∀ z ∈ fr f' k, Reachable c f' k z

end Verif.PdrSpec

namespace Verif.PdrSpec

open Verif.PDR

variable {I : StatefulImpl}

/-- The next state reads latch `i`: a latch copies it, or a gate in the cone of the next-state literals reads it. -/
def ReadByNext (c : Circuit) (i : Nat) : Prop := (∃ p ∈ c.latches, p.1 / 2 = c.latchVar i) ∨ c.Reads (c.latches.map Prod.fst) i

/-- A flag that says whether to reduce is off only if the reduction would keep every latch. -/
structure Flags (c : Circuit) (bads : List Nat) (s : St I) : Prop where
  pred : s.conePred = false → ∀ i, i < c.latches.length → ReadByNext c i
  bad : s.coneBad = false → ∀ i, i < c.latches.length → c.Reads bads i

/-- The cube fixes exactly the latches `p`, one literal each. -/
structure Fixes (c : Circuit) (p : Nat → Prop) (z : Cube) : Prop where
  once : (z.iter.map Literal.number).Nodup
  which : ∀ n, n ∈ z.iter.map Literal.number ↔ ∃ i, i < c.latches.length ∧ n = c.latchVar i ∧ p i

/-- `s'` is reached from `s` by calling methods of the object in any order, with any arguments; each call returned. -/
inductive Calls (A : PDR I) (s : St I) : St I → Prop
  | none : Calls A s s
  | getBadCube {s1 s2 r} : Calls A s s1 → A.getBadCube s1 = .ok (r, s2) → Calls A s s2
  | solveRelative {s1 s2 t p r} : Calls A s s1 → A.solveRelative t p s1 = .ok (r, s2) → Calls A s s2
  | isBlocked {s1 s2 t r} : Calls A s s1 → PDR.isBlocked t s1 = .ok (r, s2) → Calls A s s2
  | addBlockedCube {s1 s2 t r} : Calls A s s1 → A.addBlockedCube t s1 = .ok (r, s2) → Calls A s s2
  | generalize {s1 s2 t r} : Calls A s s1 → A.generalize t s1 = .ok (r, s2) → Calls A s s2
  | newFrame {s1 s2 r} : Calls A s s1 → A.newFrame s1 = .ok (r, s2) → Calls A s s2
  | propagate {s1 s2 r} : Calls A s s1 → A.propagateBlockedCubes s1 = .ok (r, s2) → Calls A s s2
  | recBlockCube {s1 s2 fuel t r} : Calls A s s1 → A.recBlockCube fuel t s1 = .ok (r, s2) → Calls A s s2
  | prove {s1 s2 fuel r} : Calls A s s1 → A.prove fuel s1 = .ok (r, s2) → Calls A s s2

end Verif.PdrSpec
