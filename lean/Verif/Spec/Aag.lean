import Verif.Spec.Aiger

/-!
# Spec: an independent reader of ASCII AIGER (`.aag`)

Plain recursive-descent reader in the `Option` monad, written from the AIGER 1.9 report; it shares no code with the model.
-/

namespace Verif.Aag

/-- Lines of a text (the last one may lack its newline). -/
def lines : Text → List Text
  | [] => []
  | b :: bs => if b = 10 then [] :: lines bs else
    match lines bs with
    | [] => [[b]]
    | l :: ls => (b :: l) :: ls

/-- Space-separated words of a line. -/
def words : Text → List Text
  | [] => [[]]
  | b :: bs => if b = 32 then [] :: words bs else
    match words bs with
    | [] => [[b]]
    | w :: ws => (b :: w) :: ws

/-- A non-empty string of digits. -/
def number (t : Text) : Option Nat :=
  if t ≠ [] ∧ t.all (fun b => decide (48 ≤ b.toNat ∧ b.toNat ≤ 57)) then some (Aiger.value t) else none

/-- A line of numbers. -/
def numbers (t : Text) : Option (List Nat) := (words t).mapM number

/-- A line with a single number. -/
def single (t : Text) : Option Nat := do
  match ← numbers t with
  | [n] => some n
  | _ => none

/-- `current next [reset]`, reset defaulting to 0. -/
def latch (t : Text) : Option (Nat × Nat × Nat) := do
  match ← numbers t with
  | [q, n] => some (q, n, 0)
  | [q, n, r] => some (q, n, r)
  | _ => none

/-- `lhs rhs0 rhs1`. -/
def gate (t : Text) : Option (Nat × Nat × Nat) := do
  match ← numbers t with
  | [x, y, z] => some (x, y, z)
  | _ => none

/-- Header `aag M I L O A [B [C]]`. -/
def header (t : Text) : Option (Nat × Nat × Nat × Nat × Nat × Nat × Nat) := do
  match words t with
  | [97, 97, 103] :: ws =>
    match ← ws.mapM number with
    | [m, i, l, o, a] => some (m, i, l, o, a, 0, 0)
    | [m, i, l, o, a, b] => some (m, i, l, o, a, b, 0)
    | [m, i, l, o, a, b, k] => some (m, i, l, o, a, b, k)
    | _ => none
  | _ => none

/-- A symbol line: kind, position, space, name (the rest of the line). -/
def symbol (t : Text) : Option Aiger.Symbol :=
  match t with
  | [] => none
  | kind :: t =>
    if kind = 105 ∨ kind = 108 ∨ kind = 111 ∨ kind = 98 ∨ kind = 99 then do
      let n ← number (t.takeWhile (· ≠ 32))
      if (t.dropWhile (· ≠ 32)).head? = some 32 then some ⟨kind, n, (t.dropWhile (· ≠ 32)).tail⟩ else none
    else none

/-- Symbol lines up to the end or to a line `c`, after which everything is comment. -/
def symbols : List Text → Option (List Aiger.Symbol × List Text)
  | [] => some ([], [])
  | t :: ts => if t = [99] then some ([], t :: ts) else do
    let s ← symbol t
    let (ss, rest) ← symbols ts
    return (s :: ss, rest)

/-- Contents of an `.aag` file. -/
structure Contents where
  header : Nat × Nat × Nat × Nat × Nat × Nat × Nat
  inputs : List Nat
  latches : List (Nat × Nat × Nat)
  outputs : List Nat
  bad : List Nat
  constraints : List Nat
  ands : List (Nat × Nat × Nat)
  symbols : List Aiger.Symbol
  comment : List Text
deriving DecidableEq, Repr

/-- The first `n` lines parsed by `f`, and the remaining lines. -/
def section_ {α : Type} (f : Text → Option α) (n : Nat) (ts : List Text) : Option (List α × List Text) :=
  if n ≤ ts.length then do
    let xs ← (ts.take n).mapM f
    return (xs, ts.drop n)
  else none

/-- The reader. -/
def read (t : Text) : Option Contents :=
  match lines t with
  | [] => none
  | h :: ts => do
    let hd ← header h
    let (_, i, l, o, a, b, k) := hd
    let (inputs, ts) ← section_ single i ts
    let (latches, ts) ← section_ latch l ts
    let (outputs, ts) ← section_ single o ts
    let (bad, ts) ← section_ single b ts
    let (constraints, ts) ← section_ single k ts
    let (ands, ts) ← section_ gate a ts
    let (syms, comment) ← symbols ts
    return ⟨hd, inputs, latches, outputs, bad, constraints, ands, syms, comment⟩

/-- The name a symbol table gives to a position: the last entry wins; no entry means no name. -/
def nameOf (syms : List Aiger.Symbol) (kind : UInt8) (pos : Nat) : Text :=
  match (syms.filter (fun s => s.kind == kind && s.pos == pos)).getLast? with
  | some s => s.name
  | none => []

end Verif.Aag
