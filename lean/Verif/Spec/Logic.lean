import Verif.Model.Formula

/-!
# Spec: propositional semantics

Stated only through the observers of the API (`get_number`, `is_negated`, `iter`).
-/

namespace Verif

/-- A valuation of the propositional variables. -/
abbrev Val := Nat → Bool

/-- A literal is true when its variable has the value its sign asks for. -/
def Literal.holds (v : Val) (l : Literal) : Prop := v l.number = !l.isNegated

/-- A clause is a disjunction. -/
def Clause.holds (v : Val) (c : Clause) : Prop := ∃ l ∈ c.iter, l.holds v

/-- A cube is a conjunction. -/
def Cube.holds (v : Val) (c : Cube) : Prop := ∀ l ∈ c.iter, l.holds v

/-- A CNF is a conjunction of its clauses. -/
def CNF.holds (v : Val) (f : CNF) : Prop := ∀ c ∈ f.iter, c.holds v

/-- Satisfiability. -/
def CNF.Sat (f : CNF) : Prop := ∃ v, f.holds v

/-- Literals in ascending order, as `Clause::new` leaves them. -/
def Clause.Sorted (c : Clause) : Prop := c.lits.Pairwise (fun a b => a.le b = true)

/-- A CNF as the constructors of the crate build it: no duplicates, clauses sorted, `max_variable_number` exact. -/
structure CNF.WF (f : CNF) : Prop where
  nodup : f.clauses.Nodup
  sorted : ∀ c ∈ f.clauses, c.Sorted
  le_max : ∀ c ∈ f.clauses, ∀ l ∈ c.lits, l.number ≤ f.maxVar
  attained : f.maxVar = 0 ∨ ∃ c ∈ f.clauses, ∃ l ∈ c.lits, l.number = f.maxVar

/-- Truth of a variable-number/sign pair, for statements that avoid the encoding. -/
def pairHolds (v : Val) (p : Nat × Bool) : Prop := v p.1 = !p.2

end Verif
