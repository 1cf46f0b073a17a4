import Verif.Base

/-!
# Model of `src/formulas`: literals, clauses, cubes, CNFs
-/

namespace Verif

/-- `Literal { literal_number: u32 }` — src/formulas/literal.rs:18-21.  `code` is the `u32`. -/
structure Literal where
  code : Nat
deriving DecidableEq, Repr

namespace Literal

/-- `Literal::new` — src/formulas/literal.rs:28-37.  `number << 1` on `u32` drops the top bit (never an overflow panic). -/
def new (dbg : Bool) (number : Nat) : Res Literal := do
  debugAssertR dbg "literal.rs:29 Literal number may not be zero." (decide (number > 0))
  debugAssertR dbg "literal.rs:30 Literal number is too big." (decide (number ≤ (u32Size - 1) >>> 1))
  return ⟨(number <<< 1) % u32Size⟩

/-- `Literal::get_number` — src/formulas/literal.rs:47-49. -/
def number (l : Literal) : Nat := l.code >>> 1

/-- `Literal::is_negated` — src/formulas/literal.rs:51-53. -/
def isNegated (l : Literal) : Bool := l.code % 2 == 1

/-- `impl Not for Literal` — src/formulas/literal.rs:60-68. -/
def not (l : Literal) : Literal := ⟨l.code ^^^ 1⟩

/-- `Literal::negate_if_true` — src/formulas/literal.rs:39-45. -/
def negateIfTrue (l : Literal) (isNeg : Bool) : Literal := if isNeg then l.not else l

/-- Derived `Ord` of `Literal` (`<=`) — src/formulas/literal.rs:18. -/
def le (a b : Literal) : Bool := decide (a.code ≤ b.code)

end Literal

/-- `Clause { literals: Vec<Literal> }` — src/formulas/clause.rs:17-20. -/
structure Clause where
  lits : List Literal
deriving DecidableEq, Repr

/-- `Cube { literals: Vec<Literal> }` — src/formulas/cube.rs:15-18. -/
structure Cube where
  lits : List Literal
deriving DecidableEq, Repr

/-- `CNF { max_variable_number, clauses: HashSet<Clause> }` — src/formulas/cnf.rs:14-18.  The `HashSet` is a
duplicate-free list; its order stands for one (arbitrary) iteration order. -/
structure CNF where
  maxVar : Nat
  clauses : List Clause
deriving Repr, DecidableEq

/-- `Clause::new` — src/formulas/clause.rs:27-31. -/
def Clause.new (lits : List Literal) : Clause := ⟨sortBy Literal.le lits⟩

/-- `Clause::len` — src/formulas/clause.rs:33-35. -/
def Clause.len (c : Clause) : Nat := c.lits.length

/-- `Clause::is_empty` — src/formulas/clause.rs:37-39. -/
def Clause.isEmpty (c : Clause) : Bool := c.lits.isEmpty

/-- `Clause::iter` — src/formulas/clause.rs:41-43. -/
def Clause.iter (c : Clause) : List Literal := c.lits

/-- `Clause::get_highest_variable_number` — src/formulas/clause.rs:45-50. -/
def Clause.highestVar (c : Clause) : Nat :=
  match c.lits.getLast? with
  | some l => l.number
  | none => 0

/-- `Cube::new` — src/formulas/cube.rs:25-29. -/
def Cube.new (lits : List Literal) : Cube := ⟨sortBy Literal.le lits⟩

/-- `Cube::len` — src/formulas/cube.rs:31-33. -/
def Cube.len (c : Cube) : Nat := c.lits.length

/-- `Cube::is_empty` — src/formulas/cube.rs:35-37. -/
def Cube.isEmpty (c : Cube) : Bool := c.lits.isEmpty

/-- `Cube::iter` — src/formulas/cube.rs:39-41. -/
def Cube.iter (c : Cube) : List Literal := c.lits

/-- `impl Not for Clause` — src/formulas/clause.rs:63-73. -/
def Clause.not (c : Clause) : Cube := Cube.new (c.iter.map Literal.not)

/-- `impl Not for Cube` — src/formulas/cube.rs:56-66. -/
def Cube.not (c : Cube) : Clause := Clause.new (c.iter.map Literal.not)

/-- `CNF::new` / `CNF::default` — src/formulas/cnf.rs:25-30, 187-191. -/
def CNF.new : CNF := ⟨0, []⟩

/-- `CNF::add_clause` — src/formulas/cnf.rs:54-60. -/
def CNF.addClause (f : CNF) (c : Clause) : CNF := ⟨max f.maxVar c.highestVar, setInsert f.clauses c⟩

/-- `CNF::contains` — src/formulas/cnf.rs:62-64. -/
def CNF.contains (f : CNF) (c : Clause) : Bool := decide (c ∈ f.clauses)

/-- `CNF::get_max_variable_number` — src/formulas/cnf.rs:66-68. -/
def CNF.getMaxVar (f : CNF) : Nat := f.maxVar

/-- `CNF::len` — src/formulas/cnf.rs:94-96. -/
def CNF.len (f : CNF) : Nat := f.clauses.length

/-- `CNF::is_empty` — src/formulas/cnf.rs:122-124. -/
def CNF.isEmpty (f : CNF) : Bool := f.clauses.isEmpty

/-- `CNF::iter` — src/formulas/cnf.rs:148-150 (one possible order; where the order can influence a result the model
passes it through an order oracle). -/
def CNF.iter (f : CNF) : List Clause := f.clauses

/-- `CNF::append` — src/formulas/cnf.rs:177-180. -/
def CNF.append (f g : CNF) : CNF := ⟨max f.maxVar g.maxVar, g.clauses.foldl setInsert f.clauses⟩

/-- `PartialEq for CNF` — src/formulas/cnf.rs:197-201, `HashSet` equality: same size and every element of one is in
the other; `max_variable_number` is ignored. -/
def CNF.beq (f g : CNF) : Bool := f.clauses.length == g.clauses.length && f.clauses.all (fun c => decide (c ∈ g.clauses))

/-- `Cube::to_cnf` — src/formulas/cube.rs:43-49. -/
def Cube.toCnf (c : Cube) : CNF := c.lits.foldl (fun f l => f.addClause (Clause.new [l])) CNF.new

/-- `Clause::to_cnf` — src/formulas/clause.rs:52-56. -/
def Clause.toCnf (c : Clause) : CNF := CNF.new.addClause c

/-! ### Printing -/

/-- ASCII text, the result of the printers — literal.rs:74, clause.rs:79, cnf.rs:213. -/
abbrev Text := List UInt8

/-- `Display` of an unsigned integer in decimal (least significant digit produced last), as at literal.rs:74-82;
`fuel` bounds the digit count. -/
def decimalAux : Nat → Nat → Text → Text
  | 0, _, acc => acc
  | fuel + 1, n, acc =>
    if n < 10 then UInt8.ofNat (48 + n) :: acc
    else decimalAux fuel (n / 10) (UInt8.ofNat (48 + n % 10) :: acc)

/-- `Display` for `u32`/`usize` — literal.rs:74-82, cnf.rs:224-226. -/
def decimal (n : Nat) : Text := decimalAux (n + 1) n []

/-- The space — clause.rs:87, cnf.rs:224, construction.rs:69. -/
def chSpace : UInt8 := 32
/-- The newline — cnf.rs:224, 227, construction.rs:18-30. -/
def chNl : UInt8 := 10
/-- The minus sign — literal.rs:74-82. -/
def chMinus : UInt8 := 45
/-- The digit zero — clause.rs:87. -/
def chZero : UInt8 := 48

/-- `Vec<String>::join(sep)` — clause.rs:87, cnf.rs:227. -/
def joinText (sep : Text) : List Text → Text
  | [] => []
  | [t] => t
  | t :: ts => t ++ sep ++ joinText sep ts

/-- `Display for Literal` — src/formulas/literal.rs:74-82. -/
def Literal.display (l : Literal) : Text :=
  if l.isNegated then chMinus :: decimal l.number else decimal l.number

/-- `Display for Clause` — src/formulas/clause.rs:79-89. -/
def Clause.display (c : Clause) : Text :=
  joinText [chSpace] ((sortBy Literal.le c.lits).map Literal.display) ++ [chSpace, chZero]

/-- Derived lexicographic `Ord` on `Vec<Literal>` (`<=`) — src/formulas/clause.rs:17. -/
def lexLe : List Literal → List Literal → Bool
  | [], _ => true
  | _ :: _, [] => false
  | a :: as, b :: bs => if a.code < b.code then true else if a.code = b.code then lexLe as bs else false

/-- The comparison used for printing, `a.len().cmp(&b.len()).then(a.cmp(b))` — src/formulas/cnf.rs:216. -/
def Clause.printLe (a b : Clause) : Bool :=
  if a.lits.length < b.lits.length then true
  else if a.lits.length = b.lits.length then lexLe a.lits b.lits else false

/-- The ASCII bytes of `"p cnf "` — cnf.rs:224. -/
def pCnfText : Text := [112, 32, 99, 110, 102, 32]

/-- `Display for CNF` — src/formulas/cnf.rs:213-230. -/
def CNF.display (f : CNF) : Text :=
  let sorted := sortBy Clause.printLe f.clauses
  pCnfText ++ decimal f.maxVar ++ [chSpace] ++ decimal f.len ++ [chNl]
    ++ joinText [chNl] (sorted.map Clause.display)

/-- `Display for Cube` — src/formulas/cube.rs:72-77. -/
def Cube.display (c : Cube) : Text := c.toCnf.display

end Verif
