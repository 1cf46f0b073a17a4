import Verif.Model.Solver

/-!
# Choices outside the provers' control, the `priority_queue` crate and `Vec` swaps
-/

namespace Verif

/-- What the provers take from `std` and from crates besides the solver, as functions of a call counter: hash iteration order of a
cloned `HashSet<Clause>`, `rand` shuffles, and which of several entries of equal priority `PriorityQueue::pop` returns (an index
among them, taken modulo their number) — ic3_stateless_solver.rs:131, 207, 269, ic3_stateful_solver.rs:259, 293, 346, pdr.rs:428, 561. -/
structure Sched where
  order : Nat → List Clause → List Clause
  shuffle : Nat → List Literal → List Literal
  pick : Nat → Nat → Nat

/-- `PriorityQueue<K, Reverse<usize>>` (crate `priority_queue`): distinct keys, each with a priority — pdr.rs:551, ic3_stateless_solver.rs:264, 350. -/
abbrev PQueue (κ : Type) := List (κ × Nat)

namespace PQueue

variable {κ : Type} [DecidableEq κ]

/-- `PriorityQueue::push`: a key that is already present gets the new priority — pdr.rs:553, 606, 623-624, ic3_stateless_solver.rs:288-289, 300, 351. -/
def push (q : PQueue κ) (k : κ) (n : Nat) : PQueue κ :=
  if k ∈ q.map Prod.fst then q.map (fun e => if e.1 = k then (k, n) else e) else q ++ [(k, n)]

/-- The least number in the queue (`Reverse` makes it the highest priority) — pdr.rs:551, ic3_stateless_solver.rs:264. -/
def best : PQueue κ → Nat
  | [] => 0
  | [e] => e.2
  | e :: es => min e.2 (best es)

/-- `PriorityQueue::pop`: an entry of highest priority, that is, with the least number — pdr.rs:561, ic3_stateless_solver.rs:269, ic3_stateful_solver.rs:346. -/
def pop (q : PQueue κ) (choice : Nat) : Option ((κ × Nat) × PQueue κ) :=
  let candidates := q.filter (fun e => e.2 == best q)
  match candidates[choice % candidates.length]? with
  | some e => some (e, q.filter (fun x => x.1 != e.1))
  | none => none

end PQueue

/-- `Vec::swap_remove(j)`: takes out element `j` and moves the last element into its place — pdr.rs:387, 432, ic3_stateless_solver.rs:210, ic3_stateful_solver.rs:296. -/
def swapRemove {α : Type} (l : List α) (j : Nat) : Option (α × List α) :=
  match l[j]?, l.getLast? with
  | some x, some y => some (x, (l.set j y).dropLast)
  | _, _ => none

/-- `slice::swap(i, j)` — pdr.rs:367, 450, ic3_stateless_solver.rs:218, ic3_stateful_solver.rs:304. -/
def swapAt {α : Type} (l : List α) (i j : Nat) : Option (List α) :=
  match l[i]?, l[j]? with
  | some x, some y => some ((l.set i y).set j x)
  | _, _ => none

end Verif
