import Verif.Spec.SatContract
import Verif.Model.Stateful

/-!
# Spec: contracts of the SAT back-ends and of the `StatefulSatSolver` trait
-/

namespace Verif

/-! ## DIMACS-level semantics -/

def intHolds (v : Nat → Bool) (x : Int) : Prop := v x.natAbs = decide (0 < x)

def intClausesHold (v : Nat → Bool) (cls : List (List Int)) : Prop := ∀ c ∈ cls, ∃ x ∈ c, intHolds v x

def NonZero (cls : List (List Int)) : Prop := ∀ c ∈ cls, ∀ x ∈ c, x ≠ 0

/-- Signed variables of an `i32`, the type in which the front-ends hand clauses over. -/
def InI32 (cls : List (List Int)) : Prop := ∀ c ∈ cls, ∀ x ∈ c, x ≠ 0 ∧ x.natAbs < 2147483648

/-- `m` is the largest variable mentioned (0 if there is none). -/
def IsMaxVar (cls : List (List Int)) (m : Nat) : Prop :=
  (∀ c ∈ cls, ∀ x ∈ c, x.natAbs ≤ m) ∧ (m = 0 ∨ ∃ c ∈ cls, ∃ x ∈ c, x.natAbs = m)

/-! ## Stateless back-ends -/

/-- `cadical`: never undecided; `value` is `None` only when the formula holds regardless of that variable. -/
structure CadicalOK (be : List (List Int) → CadicalAnswer) : Prop where
  decided : ∀ cls, InI32 cls → (be cls).result ≠ none
  unsat : ∀ cls, InI32 cls → (be cls).result = some false → ∀ v, ¬ intClausesHold v cls
  sat : ∀ cls, InI32 cls → (be cls).result = some true →
    ∀ v : Nat → Bool, (∀ n b, (be cls).value n = some b → v n = b) → intClausesHold v cls
  maxVar : ∀ cls, InI32 cls → IsMaxVar cls (be cls).maxVariable

/-- `splr`: a model lists signed variables of one satisfying valuation; `EmptyClause` only for an empty clause. -/
structure SplrOK (be : List (List Int) → SplrAnswer) : Prop where
  noErr : ∀ cls, InI32 cls → be cls ≠ .errOther
  empty : ∀ cls, InI32 cls → be cls = .errEmptyClause → [] ∈ cls
  unsat : ∀ cls, InI32 cls → be cls = .unsat → ∀ v, ¬ intClausesHold v cls
  sat : ∀ cls m, InI32 cls → be cls = .sat m →
    ∃ v, intClausesHold v cls ∧ ∀ x ∈ m, x ≠ 0 ∧ -2 ^ 31 < x ∧ intHolds v x

/-- `varisat`: same, through `Ok(bool)` and `model()`. -/
structure VarisatOK (be : List (List Int) → VarisatAnswer) : Prop where
  noErr : ∀ cls, InI32 cls → be cls ≠ .err ∧ be cls ≠ .sat none
  unsat : ∀ cls, InI32 cls → be cls = .unsat → ∀ v, ¬ intClausesHold v cls
  sat : ∀ cls m, InI32 cls → be cls = .sat (some m) →
    ∃ v, intClausesHold v cls ∧ ∀ x ∈ m, x ≠ 0 ∧ -2 ^ 31 < x ∧ x < 2 ^ 31 ∧ intHolds v x

/-- The model mentions every variable up to the largest one in the clauses. -/
def ModelTotal (cls : List (List Int)) (m : List Int) : Prop :=
  ∀ n : Nat, 1 ≤ n → (∃ c ∈ cls, ∃ x ∈ c, n ≤ x.natAbs) → (n : Int) ∈ m ∨ -(n : Int) ∈ m

/-- Every model `splr` reports is total. -/
def SplrTotal (be : List (List Int) → SplrAnswer) : Prop := ∀ cls m, InI32 cls → be cls = .sat m → ModelTotal cls m

/-- Every model `varisat` reports is total. -/
def VarisatTotal (be : List (List Int) → VarisatAnswer) : Prop := ∀ cls m, InI32 cls → be cls = .sat (some m) → ModelTotal cls m

/-! ## Stateful back-ends -/

def BLit.holds (β : Nat → Bool) (l : BLit) : Prop := β l.var = !l.neg

def bClausesHold (β : Nat → Bool) (db : List (List BLit)) : Prop := ∀ c ∈ db, ∃ l ∈ c, l.holds β

/-- `minisat`: decides the database under assumptions. -/
structure MsOK (be : MsBackend) : Prop where
  unsat : ∀ t db asm, be t db asm = none → ∀ β, ¬ (bClausesHold β db ∧ ∀ l ∈ asm, l.holds β)
  sat : ∀ t db asm m, be t db asm = some m → bClausesHold m db ∧ ∀ l ∈ asm, l.holds m

/-- `cadical` used incrementally: never undecided; values are those of a model, `None` means "any value will do". -/
structure CdOK (be : CdBackend) : Prop where
  decided : ∀ t db asm, InI32 db → InI32 [asm] → (be t db asm).1 ≠ none
  unsat : ∀ t db asm, InI32 db → InI32 [asm] → (be t db asm).1 = some false →
    ∀ β, ¬ (intClausesHold β db ∧ ∀ x ∈ asm, intHolds β x)
  sat : ∀ t db asm, InI32 db → InI32 [asm] → (be t db asm).1 = some true →
    ∀ β : Nat → Bool, (∀ x b, (be t db asm).2 x = some b → (intHolds β x ↔ b = true)) →
      intClausesHold β db ∧ ∀ x ∈ asm, intHolds β x
  /-- the reported values are consistent: some valuation has all of them -/
  consistent : ∀ t db asm, InI32 db → InI32 [asm] → (be t db asm).1 = some true →
    ∃ β : Nat → Bool, ∀ x b, (be t db asm).2 x = some b → (intHolds β x ↔ b = true)

/-- After `Sat` every variable up to the largest one in the clauses and assumptions has a value. -/
def CdTotal (be : CdBackend) : Prop := ∀ t db asm, InI32 db → InI32 [asm] → (be t db asm).1 = some true →
  ∀ n : Nat, 1 ≤ n → ∀ c ∈ asm :: db, ∀ y ∈ c, n ≤ y.natAbs → ((be t db asm).2 n).isSome

/-! ## The trait contract -/

def optHolds {α : Type} (h : α → Prop) : Option α → Prop
  | some a => h a
  | none => True

/-- What one `solve(cube, clause)` call is about: everything added so far, the cube and the clause. -/
def QueryHolds (added : List Clause) (cube : Option Cube) (clause : Option Clause) (v : Val) : Prop :=
  (∀ c ∈ added, c.holds v) ∧ optHolds (fun c : Cube => c.holds v) cube ∧ optHolds (fun c : Clause => c.holds v) clause

/-- Correct answer to such a query. -/
def QueryCorrect (added : List Clause) (cube : Option Cube) (clause : Option Clause) : SatResponse → Prop
  | .unsat => ∀ v, ¬ QueryHolds added cube clause v
  | .sat a => ∃ v, QueryHolds added cube clause v ∧ a.Agrees v

/-- A literal that occurs in the query. -/
def QueryMentions (added : List Clause) (cube : Option Cube) (clause : Option Clause) (l : Literal) : Prop :=
  (∃ c ∈ added, l ∈ c.iter) ∨ (∃ c, cube = some c ∧ l ∈ c.iter) ∨ (∃ c, clause = some c ∧ l ∈ c.iter)

/-- Every variable up to a mentioned one gets a value. -/
def QueryTotal (added : List Clause) (cube : Option Cube) (clause : Option Clause) : SatResponse → Prop
  | .unsat => True
  | .sat a => ∀ l, QueryMentions added cube clause l → ∀ n, 1 ≤ n → n ≤ l.number → (a.getValue n).isSome

/-- The call returns a value with `Q`, or fails with an error allowed by `F`. -/
def Ends {α : Type} (F : Err → Prop) (x : Res α) (Q : α → Prop) : Prop :=
  match x with
  | .ok a => Q a
  | .error e => F e

/-- Contract of a stateful solver: there is a notion of "represents these added clauses" that holds initially, is kept by
every call, and under which every answer is right.  A call may fail only with an error in `F`; by default with none. -/
structure StatefulImpl.OK (I : StatefulImpl) (F : Err → Prop := fun _ => False) where
  Rep : I.S → List Clause → Prop
  new : Rep I.new []
  addCnf : ∀ s cs (f : CNF), Rep s cs → f.Good → (∀ c ∈ f.iter, ∀ l ∈ c.iter, l.number ≤ f.getMaxVar) →
    f.getMaxVar < 2147483648 → Ends F (I.addCnf f s) (fun s' => Rep s' (cs ++ f.iter))
  solve : ∀ t s cs cube clause, Rep s cs → optHolds Cube.Good cube → optHolds Clause.Good clause →
    optHolds (fun c : Clause => c.lits.Pairwise (fun a b => a.le b = true)) clause →
    Ends F (I.solve t cube clause s) (fun p => Rep p.2 cs ∧ QueryCorrect cs cube clause p.1 ∧ QueryTotal cs cube clause p.1)

/-- The same contract without completeness: answers may leave variables without a value. -/
structure StatefulImpl.Correct (I : StatefulImpl) (F : Err → Prop := fun _ => False) where
  Rep : I.S → List Clause → Prop
  new : Rep I.new []
  addCnf : ∀ s cs (f : CNF), Rep s cs → f.Good → (∀ c ∈ f.iter, ∀ l ∈ c.iter, l.number ≤ f.getMaxVar) →
    f.getMaxVar < 2147483648 → Ends F (I.addCnf f s) (fun s' => Rep s' (cs ++ f.iter))
  solve : ∀ t s cs cube clause, Rep s cs → optHolds Cube.Good cube → optHolds Clause.Good clause →
    optHolds (fun c : Clause => c.lits.Pairwise (fun a b => a.le b = true)) clause →
    Ends F (I.solve t cube clause s) (fun p => Rep p.2 cs ∧ QueryCorrect cs cube clause p.1)

/-- Every `Sat` answer has a value for the variables with `p`, as far as they are not beyond all variables of the query. -/
def StatefulImpl.Correct.Values {I : StatefulImpl} {F : Err → Prop} (O : I.Correct F) (p : Nat → Prop) : Prop :=
  ∀ t s cs cube clause, O.Rep s cs → optHolds Cube.Good cube → optHolds Clause.Good clause →
    optHolds (fun c : Clause => c.lits.Pairwise (fun a b => a.le b = true)) clause →
    ∀ a s', I.solve t cube clause s = .ok (.sat a, s') →
      ∀ l, QueryMentions cs cube clause l → ∀ n, p n → 1 ≤ n → n ≤ l.number → (a.getValue n).isSome

end Verif
