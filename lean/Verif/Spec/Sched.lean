import Verif.Model.Choice

/-! # Spec: contract of `std` hash iteration, `rand` and `priority_queue` -/

namespace Verif

/-- A hash set is iterated in some order, a shuffle is some permutation.  Tie-breaking in the priority queue is unrestricted. -/
structure Sched.OK (s : Sched) : Prop where
  order : ∀ t l, (s.order t l).Perm l
  shuffle : ∀ t l, (s.shuffle t l).Perm l

end Verif
