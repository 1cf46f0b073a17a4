import Verif.Model.Formula
import Verif.Spec.Circuit

/-!
# Spec: the binary AIGER format

`Aiger.File bytes c tail` says that `bytes` is a binary AIGER file describing circuit `c`, followed by the symbol/comment
section `tail`.  It is a declarative grammar: numerals are decimal digit strings (leading zeros and one leading `+` are
tolerated, as the reader does), AND gates are delta codes.  `Aiger.encode` writes the canonical file.
-/

namespace Verif

/-- Header counts that add up and whose vectors (168-byte nodes, 8-byte entries) fit in a 64-bit address space. -/
structure Fits (m i l o n b k : Nat) : Prop where
  sum : m = i + l + n
  nodes : (m + 1) * 168 ≤ 9223372036854775807
  outputs : o * 8 ≤ 9223372036854775807
  bad : b * 8 ≤ 9223372036854775807
  constraints : k * 8 ≤ 9223372036854775807

/-- Every vector of the circuit's graph can be allocated. -/
def Circuit.Fits (c : Circuit) : Prop :=
  Verif.Fits c.maxVar c.numInputs c.latches.length c.outputs.length c.ands.length c.bad.length c.constraints.length

namespace Aiger

/-- Decimal digit. -/
def IsDigit (b : UInt8) : Prop := 48 ≤ b.toNat ∧ b.toNat ≤ 57

/-- Value of a digit string. -/
def value (t : Text) : Nat := t.foldl (fun n b => 10 * n + (b.toNat - 48)) 0

/-- A non-empty digit string denoting `n`. -/
def Digits (t : Text) (n : Nat) : Prop := t ≠ [] ∧ (∀ b ∈ t, IsDigit b) ∧ value t = n

/-- A numeral: digits, optionally preceded by `+`, denoting a 64-bit number. -/
def Numeral (t : Text) (n : Nat) : Prop := n < 18446744073709551616 ∧ (Digits t n ∨ ∃ t', t = 43 :: t' ∧ Digits t' n)

/-- Text pieces separated by single spaces. -/
def spaced : List Text → Text
  | [] => []
  | [t] => t
  | t :: ts => t ++ 32 :: spaced ts

/-- Lines, each ended by a newline. -/
def unlines : List Text → Text
  | [] => []
  | t :: ts => t ++ 10 :: unlines ts

/-- Two lists of equal length related element by element. -/
def Pointwise {α β : Type} (R : α → β → Prop) (xs : List α) (ys : List β) : Prop :=
  xs.length = ys.length ∧ ∀ (i : Nat) (x : α) (y : β), xs[i]? = some x → ys[i]? = some y → R x y

/-- `aig M I L O A [B [C [J]]]`; a missing count is zero, and justice is not allowed. -/
def Header (m i l o a b k : Nat) (line : Text) : Prop :=
  ∃ tm ti tl t_o ta : Text, ∃ opt : List Text,
    line = spaced ([97, 105, 103] :: tm :: ti :: tl :: t_o :: ta :: opt) ∧
    Numeral tm m ∧ Numeral ti i ∧ Numeral tl l ∧ Numeral t_o o ∧ Numeral ta a ∧
    ((opt = [] ∧ b = 0 ∧ k = 0) ∨ (∃ tb, opt = [tb] ∧ Numeral tb b ∧ k = 0) ∨
     (∃ tb tk, opt = [tb, tk] ∧ Numeral tb b ∧ Numeral tk k) ∨
     (∃ tb tk tj, opt = [tb, tk, tj] ∧ Numeral tb b ∧ Numeral tk k ∧ Numeral tj 0))

/-- A latch line: next literal, optionally followed by the reset literal (default 0). -/
def LatchLine (p : Nat × Nat) (line : Text) : Prop :=
  (p.2 = 0 ∧ Numeral line p.1) ∨ ∃ t r, line = spaced [t, r] ∧ Numeral t p.1 ∧ Numeral r p.2

/-- A line holding one literal. -/
def LitLine (n : Nat) (line : Text) : Prop := Numeral line n

/-- 7-bit little-endian code: every byte but the last has its top bit set. -/
inductive Code : List UInt8 → Nat → Prop where
  | last {b : UInt8} : b.toNat < 128 → Code [b] b.toNat
  | more {b : UInt8} {bs : List UInt8} {n : Nat} : 128 ≤ b.toNat → Code bs n → Code (b :: bs) (b.toNat - 128 + 128 * n)

/-- A delta accepted in files: at most six bytes, value below 2^38. -/
def Delta (bs : List UInt8) (n : Nat) : Prop := Code bs n ∧ bs.length ≤ 6 ∧ n < 274877906944

/-- The AND section: for each gate, with output literal `lhs`, the codes of `lhs - rhs0` and `rhs0 - rhs1`. -/
inductive Ands : Nat → List (Nat × Nat) → List UInt8 → Prop where
  | nil {lhs : Nat} : Ands lhs [] []
  | cons {lhs : Nat} {p : Nat × Nat} {ps : List (Nat × Nat)} {d0 d1 rest : List UInt8} :
      p.1 < lhs → p.2 ≤ p.1 → Delta d0 (lhs - p.1) → Delta d1 (p.1 - p.2) → Ands (lhs + 2) ps rest →
      Ands lhs (p :: ps) (d0 ++ d1 ++ rest)

/-- `bytes` is a binary AIGER file for `c` with symbol/comment section `tail`. -/
def File (bytes : Text) (c : Circuit) (tail : Text) : Prop :=
  ∃ (header : Text) (ls os bs ks : List Text) (ands : List UInt8),
    bytes = unlines (header :: (ls ++ os ++ bs ++ ks)) ++ (ands ++ tail) ∧
    Header c.maxVar c.numInputs c.latches.length c.outputs.length c.ands.length c.bad.length c.constraints.length header ∧
    Pointwise LatchLine c.latches ls ∧ Pointwise LitLine c.outputs os ∧
    Pointwise LitLine c.bad bs ∧ Pointwise LitLine c.constraints ks ∧
    Ands (2 * (1 + c.numInputs + c.latches.length)) c.ands ands

/-- UTF-8 text: the encoding of some sequence of characters (Lean's own `utf8EncodeChar`). -/
def Utf8 (t : Text) : Prop := ∃ cs : List Char, t = cs.flatMap String.utf8EncodeChar

/-- One entry of the symbol table: kind (`i`, `l`, `o`, `b` or `c`), position and name. -/
structure Symbol where
  kind : UInt8
  pos : Nat
  name : Text
deriving DecidableEq, Repr

/-- `<kind><pos> <name>`; the reader does not accept spaces inside names. -/
def SymbolLine (s : Symbol) (line : Text) : Prop :=
  ∃ t, Numeral t s.pos ∧ line = s.kind :: (t ++ 32 :: s.name) ∧ (32 : UInt8) ∉ s.name ∧ (10 : UInt8) ∉ s.name

/-- The position exists in the circuit. -/
def SymbolOK (c : Circuit) (s : Symbol) : Prop :=
  (s.kind = 105 ∧ s.pos < c.numInputs) ∨ (s.kind = 108 ∧ s.pos < c.latches.length) ∨
  (s.kind = 111 ∧ s.pos < c.outputs.length) ∨ (s.kind = 98 ∧ s.pos < c.bad.length) ∨
  (s.kind = 99 ∧ s.pos < c.constraints.length)

/-- The symbol and comment section: symbol lines, then nothing (a missing final newline is tolerated) or a comment section,
which is everything from a line `c` on. -/
def Tail (tail : Text) (syms : List Symbol) (comment : Option Text) : Prop :=
  ∃ lines, Pointwise SymbolLine syms lines ∧
    match comment with
    | none => tail = unlines lines ∨ tail ++ [10] = unlines lines
    | some text => tail = unlines lines ++ text ∧ (text = [99] ∨ ∃ r, text = 99 :: 10 :: r)

/-! ### The canonical writer -/

/-- Standard delta encoder. -/
def encodeDelta (n : Nat) : List UInt8 :=
  if n < 128 then [UInt8.ofNat n] else UInt8.ofNat (128 + n % 128) :: encodeDelta (n / 128)
termination_by n
decreasing_by omega

/-- Decimal numeral without leading zeros. -/
def numeral (n : Nat) : Text :=
  if n < 10 then [UInt8.ofNat (48 + n)] else numeral (n / 10) ++ [UInt8.ofNat (48 + n % 10)]
termination_by n
decreasing_by omega

def encodeHeader (c : Circuit) : Text :=
  spaced ([[97, 105, 103], numeral c.maxVar, numeral c.numInputs, numeral c.latches.length, numeral c.outputs.length,
    numeral c.ands.length] ++
    (if c.bad = [] ∧ c.constraints = [] then [] else if c.constraints = [] then [numeral c.bad.length]
     else [numeral c.bad.length, numeral c.constraints.length]))

def encodeLatch (p : Nat × Nat) : Text := if p.2 = 0 then numeral p.1 else spaced [numeral p.1, numeral p.2]

def encodeAnds : Nat → List (Nat × Nat) → List UInt8
  | _, [] => []
  | lhs, p :: ps => encodeDelta (lhs - p.1) ++ encodeDelta (p.1 - p.2) ++ encodeAnds (lhs + 2) ps

/-- The canonical binary AIGER file of a circuit (without symbols and comments). -/
def encode (c : Circuit) : Text :=
  unlines (encodeHeader c :: (c.latches.map encodeLatch ++ c.outputs.map numeral ++ c.bad.map numeral ++ c.constraints.map numeral))
    ++ encodeAnds (2 * (1 + c.numInputs + c.latches.length)) c.ands

end Aiger

end Verif
