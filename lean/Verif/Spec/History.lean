import Verif.Spec.SolverContract

/-!
# Spec: histories of calls to a stateful solver
-/

namespace Verif

/-- One call made by a client. -/
inductive Op where
  | addCnf (f : CNF)
  | solve (cube : Option Cube) (clause : Option Clause)
deriving DecidableEq, Repr

/-- Run a sequence of calls, collecting the answers of the `solve` calls. -/
def StatefulImpl.run (I : StatefulImpl) : List Op → Nat → I.S → Res (List SatResponse × I.S)
  | [], _, s => .ok ([], s)
  | .addCnf f :: ops, t, s => do
    let s ← I.addCnf f s
    I.run ops t s
  | .solve cube clause :: ops, t, s => do
    let (r, s) ← I.solve t cube clause s
    let (rs, s) ← I.run ops (t + 1) s
    return (r :: rs, s)

/-- Each answer is right for the CNFs added *before* that call plus the call's own temporaries, and nothing else. -/
def HistoryCorrect : List Clause → List Op → List SatResponse → Prop
  | _, [], rs => rs = []
  | added, .addCnf f :: ops, rs => HistoryCorrect (added ++ f.iter) ops rs
  | added, .solve cube clause :: ops, r :: rs => QueryCorrect added cube clause r ∧ HistoryCorrect added ops rs
  | _, .solve _ _ :: _, [] => False

/-- Literals in ascending order, as every `Clause` built through the API has them. -/
def Clause.Ascending (c : Clause) : Prop := c.iter.Pairwise (fun a b => a.le b = true)

/-- What a client can pass: CNFs, cubes and clauses built through the API over valid literals, no variable above `V`. -/
def Op.Valid (V : Nat) : Op → Prop
  | .addCnf f => f.Good ∧ (∀ c ∈ f.iter, ∀ l ∈ c.iter, l.number ≤ f.getMaxVar) ∧ f.getMaxVar ≤ V
  | .solve cube clause =>
    optHolds (fun c : Cube => c.Good ∧ ∀ l ∈ c.iter, l.number ≤ V) cube ∧
    optHolds (fun c : Clause => c.Good ∧ c.Ascending ∧ ∀ l ∈ c.iter, l.number ≤ V) clause

/-- Number of temporary clauses in a history (each one consumes an activation variable of the back-end). -/
def temporaries : List Op → Nat
  | [] => 0
  | .addCnf _ :: ops => temporaries ops
  | .solve _ clause :: ops => (if clause.isSome then 1 else 0) + temporaries ops

/-- Largest variable of a list of literals (0 if it is empty). -/
def litsTop (ls : List Literal) : Nat := ls.foldr (fun l m => max l.number m) 0

/-- Entries that the literal table needs for one call: one for each number from 0 to the largest variable passed. -/
def Op.slots : Op → Nat
  | .addCnf f => f.getMaxVar + 1
  | .solve cube clause =>
    max (cube.elim 0 fun c => litsTop c.iter + 1) (clause.elim 0 fun c => litsTop c.iter + 1)

/-- Size of the literal table after a history. -/
def tableSize (ops : List Op) : Nat := ops.foldr (fun op m => max op.slots m) 0

end Verif
