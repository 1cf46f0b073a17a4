import Verif.Model.Formula

/-!
# The comparison of long strings in the tests, `tests/common/mod.rs`

Strings are lists of characters, as after `chars().collect()`.
-/

namespace Verif.LongStrings

/-- The first index at which the strings differ, or the length of the shorter one if there is none below it — tests/common/mod.rs:43-56.
(`usize::MAX` in between stands for "none".) -/
def firstDifference (a b : List Char) : Nat :=
  ((List.range (min a.length b.length)).find? fun i => a[i]? != b[i]?).getD (min a.length b.length)

/-- `first_index_they_differ - 20` on `usize`; the `max` with 0 does nothing — tests/common/mod.rs:58. -/
def sub20 (dbg : Bool) (n : Nat) : Res Nat :=
  if 20 ≤ n then return n - 20
  else if dbg then panicR "tests/common/mod.rs:58 overflow"
  else return 2 ^ 64 + n - 20

/-- Slicing `l[start..stop]` — tests/common/mod.rs:61 and 64. -/
def slice (site : String) (l : List Char) (start stop : Nat) : Res (List Char) :=
  if start ≤ stop ∧ stop ≤ l.length then return (l.take stop).drop start else panicR site

/-- `_assert_long_string_eq` — tests/common/mod.rs:35-70. -/
def assertEq (dbg : Bool) (a b : List Char) : Res Unit :=
  if a = b then assertR "tests/common/mod.rs:40" (a == b)
  else do
    let first := firstDifference a b
    let start ← sub20 dbg first
    let short1 ← slice "tests/common/mod.rs:61 slice" a start (min (first + 80) a.length)
    let short2 ← slice "tests/common/mod.rs:64 slice" b start (min (first + 80) b.length)
    assertR "tests/common/mod.rs:66" (short1 == short2)
    assertR "tests/common/mod.rs:68" (a == b)

end Verif.LongStrings
