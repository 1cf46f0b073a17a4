import Verif.Spec.Frames
import Verif.Spec.Sched
import Verif.Spec.SatContract
import Verif.Spec.SolverContract
import Verif.Model.Ic3

/-!
# Spec: the state of an IC3 prover object
-/

namespace Verif.IC3.Stateful

variable {I : StatefulImpl} {F : Err → Prop}

/-- The part of `F_i` besides its clauses. -/
def baseOf (fm : Formulas) (i : Nat) : CNF := if i = 0 then fm.initial else fm.p0

/-- Every solver object holds the formula it stands for. -/
structure Inv (O : I.OK F) (fm : Formulas) (s : Stateful I) (fs : List CNF) : Prop where
  clauses : s.clauses = fs
  lenA : s.fiAndT.length = fs.length
  lenB : s.fiAndTAndNotP.length = fs.length
  fiT : ∀ (i : Nat) (x : I.S), s.fiAndT[i]? = some x → ∃ cs, O.Rep x cs ∧
    ∀ d, d ∈ cs ↔ d ∈ (fr fs i).clauses ∨ d ∈ (baseOf fm i).clauses ∨ d ∈ fm.transition.clauses
  fiP : ∀ (i : Nat) (x : I.S), s.fiAndTAndNotP[i]? = some x → ∃ cs, O.Rep x cs ∧
    ∀ d, d ∈ cs ↔ d ∈ (fr fs i).clauses ∨ d ∈ (baseOf fm i).clauses ∨ d ∈ fm.transition.clauses ∨ d ∈ fm.notP1.clauses
  init : ∃ cs, O.Rep s.initialSolver cs ∧ ∀ d, d ∈ cs ↔ d ∈ fm.initial.clauses

end Verif.IC3.Stateful

namespace Verif.Ic3Spec

open Verif.IC3

/-- A prover of either kind, made by `new` from the system `f`, with correct solvers; `Inv s fs`: the object is in order and holds the
frames `fs`. -/
inductive Prover (f : Fsts) : {σ : Type} → IC3 σ → (σ → List CNF → Prop) → Prop where
  | stateless {dbg : Bool} {env : Env} {sched : Sched} {fm : Formulas} : env.OK → sched.OK → formulas dbg f = .ok fm →
      Prover f (IC3.stateless dbg env sched f fm) (fun s fs => s.clauses = fs)
  | stateful {dbg : Bool} {I : StatefulImpl} {sched : Sched} {fm : Formulas} (O : I.OK) : sched.OK → formulas dbg f = .ok fm →
      Prover f (IC3.stateful dbg I sched f fm) (IC3.Stateful.Inv O fm)

/-- Running `m` on an object with frames `fs` returns a result and leaves an object in order, and they satisfy `Q`. -/
def Runs {σ α γ : Type} (Inv : σ → γ → Prop) (m : StateT σ Res α) (fs : γ) (Q : α → γ → Prop) : Prop :=
  ∀ s, Inv s fs → ∃ r s' fs', m s = .ok (r, s') ∧ Inv s' fs' ∧ Q r fs'

end Verif.Ic3Spec
