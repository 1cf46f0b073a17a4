/-!
# Base: results, panics, machine integers, sorting, hash iteration

Nothing here is specific to one Rust file; it fixes how Rust control effects are represented.
-/

namespace Verif

/-- How a Rust computation may fail to return.  `panic site`: any Rust panic (`unwrap` on `None`, `assert!`,
`debug_assert!`, `panic!`, `unreachable!`, slice index out of range, checked integer overflow).  `fuel`: the *model's*
loop budget ran out; this is not a behaviour of the code and termination theorems exclude it.  The panic sites carry
their own file and line, as in `"literal.rs:29 …"`. -/
inductive Err where
  | panic (site : String)
  | fuel
deriving DecidableEq, Repr

/-- Result of a Rust function call (any function of `src/`). -/
abbrev Res := Except Err

deriving instance DecidableEq for Except

/-- A Rust panic, for instance varisat_solver.rs:61 or pdr.rs:555. -/
def panicR {α : Type} (site : String) : Res α := .error (.panic site)

/-- `Option::unwrap`: panics on `None`, for instance features.rs:107. -/
def unwrapR {α : Type} (site : String) : Option α → Res α
  | some a => .ok a
  | none => panicR site

/-- `assert!(b)`, for instance aig_node.rs:98. -/
def assertR (site : String) (b : Bool) : Res Unit := if b then .ok () else panicR site

/-- `debug_assert!(b)`: checked only when the build profile `dbg` has debug assertions, for instance literal.rs:29. -/
def debugAssertR (dbg : Bool) (site : String) (b : Bool) : Res Unit :=
  if dbg then assertR site b else .ok ()

/-- Slice/`Vec` indexing `v[i]`: panics when out of range, for instance construction.rs:314. -/
def indexR {α : Type} (site : String) (l : List α) (i : Nat) : Res α := unwrapR site l[i]?

/-- `u32::MAX + 1` — literal.rs:30, models/finite_state_transition_system/construction.rs:220. -/
def u32Size : Nat := 4294967296

/-- `usize::MAX + 1` (64-bit target) — aig_node.rs:52-56. -/
def usizeSize : Nat := 18446744073709551616

/-- `a + b` on `u32`: overflow panics when `dbg`, wraps otherwise — features.rs:29. -/
def u32Add (dbg : Bool) (site : String) (a b : Nat) : Res Nat :=
  if a + b < u32Size then .ok (a + b)
  else if dbg then panicR site else .ok ((a + b) % u32Size)

/-- `a * b` on `u32`: overflow panics when `dbg`, wraps otherwise — features.rs:62, 73, 86. -/
def u32Mul (dbg : Bool) (site : String) (a b : Nat) : Res Nat :=
  if a * b < u32Size then .ok (a * b)
  else if dbg then panicR site else .ok ((a * b) % u32Size)

/-- Insert into a list sorted by `le`, before the first larger element (part of `sortBy`; clause.rs:29, 82, cube.rs:27, cnf.rs:216). -/
def insertBy {α : Type} (le : α → α → Bool) (x : α) : List α → List α
  | [] => [x]
  | y :: ys => if le x y then x :: y :: ys else y :: insertBy le x ys

/-- Stable sort.  Stands for Rust's `slice::sort`/`sort_by` (documented as a stable sort; any correct stable sort
gives this result) — clause.rs:29, 82, cube.rs:27, cnf.rs:216. -/
def sortBy {α : Type} (le : α → α → Bool) : List α → List α
  | [] => []
  | x :: xs => insertBy le x (sortBy le xs)

/-- `HashSet::insert`, the set being a duplicate-free list — cnf.rs:54-60. -/
def setInsert {α : Type} [DecidableEq α] (s : List α) (x : α) : List α :=
  if x ∈ s then s else s ++ [x]

end Verif
