import Verif.Proofs.Verbose
import Verif.Props.Failures

/-!
# Property C68: progress reports

What the provers print when made with `verbose = true` (as the prover trait's `new` does), and that it changes nothing else.
-/

namespace Verif.Props

open IC3

/-- C68: with and without `verbose` a prover does the same: same result, same panic, same running out of fuel. -/
theorem C68_same (v dbg : Bool) (env : Env) (I : StatefulImpl) (sched : Sched) (f : Fsts) (fuel : Nat) :
    (proveStatelessV v dbg env sched f fuel).map Prod.snd = proveStateless dbg env sched f fuel ∧
    (proveStatefulV v dbg I sched f fuel).map Prod.snd = proveStateful dbg I sched f fuel ∧
    (PDR.runV v dbg I sched f fuel).map Prod.snd = PDR.run dbg I sched f fuel :=
  ⟨proveStatelessV_drops v dbg env sched f fuel, proveStatefulV_drops v dbg I sched f fuel, PDR.runV_drops v dbg I sched f fuel⟩

/-- C68: without `verbose` nothing is reported. -/
theorem C68_silent (dbg : Bool) (env : Env) (I : StatefulImpl) (sched : Sched) (f : Fsts) (fuel : Nat) (x : List Report × ProofResult)
    (h : proveStatelessV false dbg env sched f fuel = .ok x ∨ proveStatefulV false dbg I sched f fuel = .ok x ∨ PDR.runV false dbg I sched f fuel = .ok x) :
    x.1 = [] := by
  rcases h with h | h | h
  · exact proveStatelessV_silent dbg env sched f fuel h
  · exact proveStatefulV_silent dbg I sched f fuel h
  · exact PDR.runV_silent dbg I sched f fuel h

/-- C68: what the two IC3 provers report.  A counterexample found by the first two checks comes without reports.  Otherwise there is one report at the
start of each round 1, 2, …, d, showing an empty new frame; a counterexample of depth d comes in round d, and a proof adds one more report of the last round.
A report of round k shows k + 2 lengths, or ten if these are more. -/
theorem C68_ic3 (dbg : Bool) (env : Env) (I : StatefulImpl) (sched : Sched) (f : Fsts) (fuel : Nat) (ps : List Report) (r : ProofResult)
    (h : proveStatelessV true dbg env sched f fuel = .ok (ps, r) ∨ proveStatefulV true dbg I sched f fuel = .ok (ps, r)) :
    (∀ p ∈ ps, p.lengths.length = min 10 (p.level + 2)) ∧
    (∀ d, r = .ctx d → (ps = [] ∧ d ≤ 1) ∨ ((∀ p ∈ ps, p.lengths.head? = some 0) ∧ ps.map Report.level = List.range' 1 d ∧ 1 ≤ d)) ∧
    (∀ g, r = .proof g → ∃ d qs p, 1 ≤ d ∧ ps = qs ++ [p] ∧ p.level = d ∧ (∀ q ∈ qs, q.lengths.head? = some 0) ∧ qs.map Report.level = List.range' 1 d) := by
  have h : (∃ d, d ≤ 1 ∧ (ps, r) = ([], .ctx d)) ∨ Lines 1 (ps, r) := by
    rcases h with h | h
    · exact proveStatelessV_lines dbg env sched f fuel h
    · exact proveStatefulV_lines dbg I sched f fuel h
  rcases h with ⟨d, hd, e⟩ | ⟨h1, h2⟩
  · cases e
    exact ⟨(fun p h => by cases h), (fun e h => by cases h; exact .inl ⟨rfl, hd⟩), (fun g h => by cases h)⟩
  · refine ⟨h1, ?_⟩
    rcases h2 with ⟨d, qs, e1, e2, e3, e4, e5⟩ | ⟨g, qs, p, e1, e2, e3, e4, e5⟩
    · obtain rfl : ps = qs := e2
      obtain rfl : r = .ctx d := e1
      exact ⟨(fun e h => by cases h; exact .inr ⟨e5, e3, e4⟩), (fun g h => by cases h)⟩
    · obtain rfl : r = .proof g := e1
      exact ⟨(fun e h => by cases h), fun _ _ => ⟨p.level, qs, p, e4, e2, rfl, e5, e3⟩⟩

/-- C68: what PDR reports: the depths 0, 1, …, each once, each time with the numbers of cubes of depth + 2 frames.  A counterexample of depth d comes
after d reports; a proof comes after at least one. -/
theorem C68_pdr (dbg : Bool) (I : StatefulImpl) (sched : Sched) (f : Fsts) (fuel : Nat) (ps : List Report) (r : ProofResult)
    (h : PDR.runV true dbg I sched f fuel = .ok (ps, r)) :
    (∀ p ∈ ps, p.lengths.length = p.level + 2) ∧ ps.map Report.level = List.range ps.length ∧
    (∀ d, r = .ctx d → ps.length = d) ∧ (∀ g, r = .proof g → ps ≠ []) := by
  obtain ⟨h1, h2, h3, h4⟩ := PDR.runV_lines dbg I sched f fuel h
  exact ⟨h1, by rw [List.range_eq_range']; exact h2, fun d hd => by have := h3 d hd; simp only [Nat.zero_add] at this; exact this.symm, h4⟩

/-- The reports of a run. -/
def reports (x : Res (List Report × ProofResult)) : Option (List (Nat × List Nat)) :=
  match x with
  | .ok (ps, _) => some (ps.map fun p => (p.level, p.lengths))
  | .error _ => none

/-- A counterexample found in the first round, and proofs. -/
example : reports (proveStatelessV true true Brute.env plain (systemOf shifter false) 10) = some [(1, [0, 0, 0])] ∧
    reports (proveStatefulV true true (MiniSat.impl true Brute.ms) plain (systemOf ring false) 10) = some [(1, [0, 0, 0]), (1, [3, 3, 0])] := by
  refine ⟨?_, ?_⟩ <;> decide +kernel

example : reports (PDR.runV true true (MiniSat.impl true Brute.ms) plain (systemOf shifter false) 30) = some [(0, [0, 0]), (1, [0, 1, 0])] ∧
    reports (PDR.runV true true (MiniSat.impl true Brute.ms) plain (systemOf ring false) 30) = some [(0, [0, 0]), (1, [0, 1, 0]), (2, [0, 1, 2, 0])] := by
  refine ⟨?_, ?_⟩ <;> decide +kernel

end Verif.Props
