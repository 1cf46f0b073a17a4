import Verif.Spec.Logic
import Verif.Model.Solver

/-!
# Spec: what a correct SAT solver answers, and the contract of the environment
-/

namespace Verif

/-- All values recorded in the assignment are those of the valuation. -/
def Assignment.Agrees (a : Assignment) (v : Val) : Prop := ∀ n b, a.getValue n = some b → v n = b

/-- All literals have variable numbers from 1 up to `V`; by default up to 2^31-1, the numbers `Literal::new` accepts. -/
def Literal.Good (l : Literal) (V : Nat := 2147483647) : Prop := 1 ≤ l.number ∧ l.number ≤ V

def Clause.Good (c : Clause) (V : Nat := 2147483647) : Prop := ∀ l ∈ c.iter, l.Good V
def Cube.Good (c : Cube) (V : Nat := 2147483647) : Prop := ∀ l ∈ c.iter, l.Good V
def CNF.Good (f : CNF) (V : Nat := 2147483647) : Prop := ∀ c ∈ f.iter, c.Good V

/-- `UnSat` only if unsatisfiable, `Sat` only with values that extend to a satisfying valuation. -/
def AnswerCorrect (f : CNF) : SatResponse → Prop
  | .unsat => ∀ v, ¬ f.holds v
  | .sat a => ∃ v, f.holds v ∧ a.Agrees v

/-- A correct and complete answer to "is `f` satisfiable": `UnSat` only when no valuation satisfies `f`, otherwise an assignment that
values every variable up to the largest of `f`, and whose values are those of some satisfying valuation. -/
def AnswerOK (f : CNF) : SatResponse → Prop
  | .unsat => ∀ v, ¬ f.holds v
  | .sat a => (∃ v, f.holds v ∧ a.Agrees v) ∧ ∀ n, 1 ≤ n → n ≤ f.getMaxVar → (a.getValue n).isSome

/-- Contract of the environment without completeness: on every CNF made by the crate's own constructors from variables 1 up to `V` the
solver returns, with a correct answer, which may leave variables without a value. -/
structure Env.Correct (env : Env) (V : Nat := 2147483646) : Prop where
  solve : ∀ t (f : CNF), f.WF → f.Good V → ∃ r, env.solve t f = .ok r ∧ AnswerCorrect f r
  order : ∀ t l, (env.order t l).Perm l
  shuffle : ∀ t l, (env.shuffle t l).Perm l

/-- Contract of the environment: on every CNF made by the crate's own constructors from variables 1 up to `V` the solver returns,
with a correct and complete answer; hash iteration visits every element once; a shuffle is a permutation.  Nothing is assumed about other CNFs: the
solver may panic or answer nonsense there.  The default `V` is 2^31-2, the largest for which the CaDiCaL front-end works. -/
structure Env.OK (env : Env) (V : Nat := 2147483646) : Prop where
  solve : ∀ t (f : CNF), f.WF → f.Good V → ∃ r, env.solve t f = .ok r ∧ AnswerOK f r
  order : ∀ t l, (env.order t l).Perm l
  shuffle : ∀ t l, (env.shuffle t l).Perm l

/-- Every `Sat` answer has a value for the variables with `p`, as far as they are not beyond the largest of the formula. -/
def Env.Values (env : Env) (p : Nat → Prop) (V : Nat := 2147483646) : Prop :=
  ∀ t (f : CNF), f.WF → f.Good V → ∀ a, env.solve t f = .ok (.sat a) → ∀ n, p n → 1 ≤ n → n ≤ f.getMaxVar → (a.getValue n).isSome

theorem AnswerOK.correct {f : CNF} {r : SatResponse} (h : AnswerOK f r) : AnswerCorrect f r := by
  cases r with
  | unsat => exact h
  | sat a => exact h.1

theorem Env.OK.correct {env : Env} {V : Nat} (h : env.OK V) : env.Correct V :=
  ⟨fun t f hw hg => (h.solve t f hw hg).imp fun _ hr => ⟨hr.1, hr.2.correct⟩, h.order, h.shuffle⟩

end Verif
