import Verif.Model.Formula

/-!
# Spec: an independent reader for DIMACS CNF text

A token-stream reader as described by the DIMACS format: `p cnf <vars> <clauses>` followed by signed integers, each clause
ended by `0`; white space is insignificant.  It shares nothing with the printers except the type of text.
-/

namespace Verif.Dimacs

/-- Space or newline. -/
def isWs (c : UInt8) : Bool := c == 32 || c == 10

/-- Split into maximal runs of non-white-space; `cur` is the run being read. -/
def tokAux (cur : Text) : Text → List Text
  | [] => if cur.isEmpty then [] else [cur]
  | c :: cs =>
    if isWs c then (if cur.isEmpty then tokAux [] cs else cur :: tokAux [] cs)
    else tokAux (cur ++ [c]) cs

def tokens (t : Text) : List Text := tokAux [] t

def isDigit (c : UInt8) : Bool := decide (48 ≤ c.toNat ∧ c.toNat ≤ 57)

/-- Decimal value of a digit string. -/
def digitsVal (t : Text) : Nat := t.foldl (fun n c => 10 * n + (c.toNat - 48)) 0

def readNat (t : Text) : Option Nat := if t ≠ [] ∧ t.all isDigit = true then some (digitsVal t) else none

def readInt : Text → Option Int
  | [] => none
  | c :: cs =>
    if c = 45 then (readNat cs).map (fun n => -(n : Int))
    else (readNat (c :: cs)).map (fun n => (n : Int))

/-- Group integers into `0`-terminated clauses; an unterminated clause is an error. -/
def readClauses (cur : List Int) : List Text → Option (List (List Int))
  | [] => if cur.isEmpty then some [] else none
  | t :: ts =>
    match readInt t with
    | none => none
    | some 0 => (readClauses [] ts).map (fun r => cur :: r)
    | some x => readClauses (cur ++ [x]) ts

structure File where
  vars : Nat
  numClauses : Nat
  clauses : List (List Int)
deriving DecidableEq

def read (t : Text) : Option File :=
  match tokens t with
  | [112] :: [99, 110, 102] :: n :: m :: rest =>
    match readNat n, readNat m, readClauses [] rest with
    | some n, some m, some cs => some ⟨n, m, cs⟩
    | _, _, _ => none
  | _ => none

/-- The DIMACS integer of a literal, from its API observers. -/
def intOf (l : Literal) : Int := if l.isNegated then -(l.number : Int) else (l.number : Int)

end Verif.Dimacs
