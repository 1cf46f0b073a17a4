import Verif.Proofs.CountsPdr
import Verif.Props.Failures

/-!
# Property C77: the counters of SAT calls

Each prover increments a `u32` just before a SAT call: one counter in the IC3 provers (printed in every report), one per purpose in PDR.  The runs with
counters are `proveStatelessC`, `proveStatefulC` and `PDR.runC`.  That a run asks the solver at a moment is stated without counters: with a solver
that fails at that moment the run fails, and otherwise it ends as before.
-/

namespace Verif.Props

open IC3

/-- C77: the counter of `IC3Stateless`.  If the run with the counter returns, the run without returns the same, and the counter shows the number of SAT calls
modulo 2³² (in a debug build: exactly).  If it fails, so does the run without, in the same way; or it is a debug build and the counter overflowed
after 2³² - 1 calls. -/
theorem C77_stateless (dbg : Bool) (env : Env) (sched : Sched) (f : Fsts) (fuel : Nat) :
    (∀ r n, proveStatelessC dbg env sched f fuel = .ok (r, n) → proveStateless dbg env sched f fuel = .ok r ∧
      ∃ ts, AsksAt (fun t => proveStateless dbg (env.failAt t) sched f fuel) r ts ∧ n = ts.length % 4294967296 ∧ (dbg = true → ts.length < 4294967296)) ∧
    (∀ e, proveStatelessC dbg env sched f fuel = .error e → proveStateless dbg env sched f fuel = .error e ∨
      (dbg = true ∧ e = .panic "ic3_stateless_solver.rs:90 overflow" ∧ ∃ ts : List Nat, ts.Pairwise (· < ·) ∧ ts.length = 4294967295 ∧
        ∀ t ∈ ts, proveStateless dbg (env.failAt t) sched f fuel = .error asked)) := by
  obtain ⟨h1, h2⟩ := stateless_tells dbg env sched f fuel
  refine ⟨h1, fun e he => (h2 e he).imp id ?_⟩
  rintro ⟨hd, he, ts, ha, hl, ht⟩
  exact ⟨hd, he, ts, ha, Nat.succ.inj hl, ht⟩

/-- C77: the counter of `IC3Stateful`, for every solver behind the trait. -/
theorem C77_stateful (dbg : Bool) (I : StatefulImpl) (sched : Sched) (f : Fsts) (fuel : Nat) :
    (∀ r n, proveStatefulC dbg I sched f fuel = .ok (r, n) → proveStateful dbg I sched f fuel = .ok r ∧
      ∃ ts, AsksAt (fun t => proveStateful dbg (I.failAt t) sched f fuel) r ts ∧ n = ts.length % 4294967296 ∧ (dbg = true → ts.length < 4294967296)) ∧
    (∀ e, proveStatefulC dbg I sched f fuel = .error e → proveStateful dbg I sched f fuel = .error e ∨
      (dbg = true ∧ e = .panic "ic3_stateful_solver.rs:161 overflow" ∧ ∃ ts : List Nat, ts.Pairwise (· < ·) ∧ ts.length = 4294967295 ∧
        ∀ t ∈ ts, proveStateful dbg (I.failAt t) sched f fuel = .error asked)) := by
  obtain ⟨h1, h2⟩ := stateful_tells dbg I sched f fuel
  refine ⟨h1, fun e he => (h2 e he).imp id ?_⟩
  rintro ⟨hd, he, ts, ha, hl, ht⟩
  exact ⟨hd, he, ts, ha, Nat.succ.inj hl, ht⟩

theorem timesOf_eq (k : String) (calls : List (Nat × String)) : Meter.num k calls = timesOf k calls := by
  unfold Meter.num timesOf
  rw [List.countP_eq_length_filter]
  refine congrArg List.length (List.filter_congr fun p _ => ?_)
  by_cases h : p.2 = k <;> simp [h]

theorem pdrCalls_iff (k : String) (c d : Bool) : (k, c, d) ∈ pdrCalls ↔ k ∈ PDR.Stats.keys ∧ PDR.Stats.kind k = (c, d) := by
  constructor
  · intro h
    have : ∀ q ∈ pdrCalls, q.1 ∈ PDR.Stats.keys ∧ PDR.Stats.kind q.1 = q.2 := by decide
    exact this _ h
  · rintro ⟨h, e⟩
    have : ∀ k ∈ PDR.Stats.keys, (k, PDR.Stats.kind k) ∈ pdrCalls := by decide
    rw [← e]
    exact this k h

/-- Without an assignment the state cannot be read. -/
theorem noAssignment {dbg : Bool} {f : Fsts} (h : HasLatch f) : f.extractState dbg ⟨[], []⟩ = .error (.panic "features.rs:107 unwrap") := by
  obtain ⟨n, ns, e, h0, h1⟩ := h
  have hs : Fsts.stateLiteral dbg ⟨[], []⟩ n = .error (.panic "features.rs:107 unwrap") := by
    unfold Fsts.stateLiteral Literal.new
    rw [decide_eq_true (show n > 0 from h0), decide_eq_true (show n ≤ (u32Size - 1) >>> 1 from h1)]
    cases dbg <;> rfl
  unfold Fsts.extractState
  rw [e, List.mapM_cons, hs]
  rfl

/-- C77: the counters of PDR.  If the run with the counters returns, the run without returns the same, and there is a list of SAT calls (moment and key)
such that each key is the number of calls with that key modulo 2³² (in a debug build: exactly), and the solver is called at a moment, with or without a
cube and a clause, exactly if the list says so.  The assignment in an answer is of no consequence unless the list says that the call was to get a bad cube or to
extract a model; if it says so, and there are latches, an answer "satisfiable" without assignment makes the run fail.  If the run with the counters fails,
so does the run without, in the same way; or it is a debug build and the counter for one key overflowed after 2³² - 1 calls with that key. -/
theorem C77_pdr (dbg : Bool) (I : StatefulImpl) (sched : Sched) (f : Fsts) (fuel : Nat) :
    (∀ r st, PDR.runC dbg I sched f fuel = .ok (r, st) → PDR.run dbg I sched f fuel = .ok r ∧ ∃ calls : List (Nat × String),
      (calls.map Prod.fst).Pairwise (· < ·) ∧ (∀ p ∈ calls, ∃ cd, (p.2, cd) ∈ pdrCalls) ∧
      (∀ t c d, ((∃ k, (t, k) ∈ calls ∧ (k, c, d) ∈ pdrCalls) → PDR.run dbg (I.failOn t c d) sched f fuel = .error asked) ∧
        ((¬ ∃ k, (t, k) ∈ calls ∧ (k, c, d) ∈ pdrCalls) → PDR.run dbg (I.failOn t c d) sched f fuel = .ok r)) ∧
      (∀ t, (¬ ∃ k, (t, k) ∈ calls ∧ k ∈ pdrReads) → PDR.run dbg (I.blankAt t) sched f fuel = .ok r) ∧
      (∀ t k, (t, k) ∈ calls → k ∈ pdrReads → HasLatch f → PDR.run dbg (I.claimAt t) sched f fuel = .error (.panic "features.rs:107 unwrap")) ∧
      st = pdrCalls.map (fun q => (q.1, timesOf q.1 calls % 4294967296)) ∧ (dbg = true → ∀ k, timesOf k calls < 4294967296)) ∧
    (∀ e, PDR.runC dbg I sched f fuel = .error e → PDR.run dbg I sched f fuel = .error e ∨
      (dbg = true ∧ e = .panic "pdr.rs sat_call_stats overflow" ∧ ∃ (calls : List (Nat × String)) (k : String), (calls.map Prod.fst).Pairwise (· < ·) ∧
        timesOf k calls = 4294967295 ∧ ∃ cd, (k, cd) ∈ pdrCalls ∧
        ∀ t, (t, k) ∈ calls → PDR.run dbg (I.failOn t cd.1 cd.2) sched f fuel = .error asked ∧
          (k ∈ pdrReads → HasLatch f → PDR.run dbg (I.claimAt t) sched f fuel = .error (.panic "features.rs:107 unwrap")))) := by
  obtain ⟨h1, h2⟩ := PDR.run_tells dbg I sched f fuel
  refine ⟨fun r st hr => ?_, fun e he => (h2 e he).imp id ?_⟩
  · obtain ⟨hrun, calls, ha, hk, hc, hb, hcl, hst, hd⟩ := h1 r st hr
    refine ⟨hrun, calls, ha, fun p hp => ⟨_, (pdrCalls_iff _ _ _).2 ⟨hk p hp, rfl⟩⟩, fun t c d => ⟨?_, fun hn => (hc t c d).2 ?_⟩,
      fun t hn => hb t fun k hk hm => hn ⟨k, hm, hk⟩, fun t k hm hk hl => hcl t k hk hm _ (noAssignment hl), ?_, fun hdb k => ?_⟩
    · rintro ⟨k, hm, hp⟩
      exact (hc t c d).1 ⟨(t, k), hm, rfl, ((pdrCalls_iff _ _ _).1 hp).2⟩
    · rintro ⟨⟨t', k⟩, hm, rfl, he⟩
      exact hn ⟨k, hm, (pdrCalls_iff _ _ _).2 ⟨hk _ hm, he⟩⟩
    · rw [hst]
      show _ = List.map _ _
      simp only [timesOf_eq]
      rfl
    · rw [← timesOf_eq]; exact hd hdb k
  · rintro ⟨hd, he, calls, k, ha, hk, hn, hc, hcl⟩
    rw [timesOf_eq] at hn
    exact ⟨hd, he, calls, k, ha, Nat.succ.inj hn, PDR.Stats.kind k, (pdrCalls_iff _ _ _).2 ⟨hk, rfl⟩, fun t hm =>
      ⟨hc (t, k) hm, fun hr hl => hcl t k hr hm _ (noAssignment hl)⟩⟩

theorem forget {α β : Type} {x : Res (α × β)} {y : Res α} (h1 : ∀ r n, x = .ok (r, n) → y = .ok r) (h2 : ∀ e, x = .error e → y = .error e) :
    x.map Prod.fst = y := by
  cases x with
  | ok p => exact (h1 p.1 p.2 rfl).symm
  | error e => exact (h2 e rfl).symm

/-- C77: in a release build the counters change nothing: same result, same panic, same running out of fuel. -/
theorem C77_release (env : Env) (I : StatefulImpl) (sched : Sched) (f : Fsts) (fuel : Nat) :
    (proveStatelessC false env sched f fuel).map Prod.fst = proveStateless false env sched f fuel ∧
    (proveStatefulC false I sched f fuel).map Prod.fst = proveStateful false I sched f fuel ∧
    (PDR.runC false I sched f fuel).map Prod.fst = PDR.run false I sched f fuel := by
  refine ⟨forget (fun r n h => ((C77_stateless false env sched f fuel).1 r n h).1) fun e h => ?_,
    forget (fun r n h => ((C77_stateful false I sched f fuel).1 r n h).1) fun e h => ?_,
    forget (fun r n h => ((C77_pdr false I sched f fuel).1 r n h).1) fun e h => ?_⟩
  · rcases (C77_stateless false env sched f fuel).2 e h with h | ⟨h, _⟩
    · exact h
    · cases h
  · rcases (C77_stateful false I sched f fuel).2 e h with h | ⟨h, _⟩
    · exact h
    · cases h
  · rcases (C77_pdr false I sched f fuel).2 e h with h | ⟨h, _⟩
    · exact h
    · cases h

/-- C77: in either build the run with counters ends with the overflow or exactly as the run without. -/
theorem C77_same (dbg : Bool) (env : Env) (I : StatefulImpl) (sched : Sched) (f : Fsts) (fuel : Nat) :
    EndsAlike "ic3_stateless_solver.rs:90 overflow" ((proveStatelessC dbg env sched f fuel).map Prod.fst) (proveStateless dbg env sched f fuel) ∧
    EndsAlike "ic3_stateful_solver.rs:161 overflow" ((proveStatefulC dbg I sched f fuel).map Prod.fst) (proveStateful dbg I sched f fuel) ∧
    EndsAlike "pdr.rs sat_call_stats overflow" ((PDR.runC dbg I sched f fuel).map Prod.fst) (PDR.run dbg I sched f fuel) := by
  have key : ∀ {γ : Type} {site : String} (x : Res (ProofResult × γ)) (y : Res ProofResult), (∀ r n, x = .ok (r, n) → y = .ok r) →
      (∀ e, x = .error e → y = .error e ∨ e = .panic site) → EndsAlike site (x.map Prod.fst) y := fun {γ site} x y h1 h2 => by
    cases x with
    | ok p => exact .inr (h1 p.1 p.2 rfl).symm
    | error e =>
      rcases h2 e rfl with h | rfl
      · exact .inr h.symm
      · exact .inl rfl
  exact ⟨key _ _ (fun r n h => ((C77_stateless dbg env sched f fuel).1 r n h).1) fun e h => ((C77_stateless dbg env sched f fuel).2 e h).imp id fun h => h.2.1,
    key _ _ (fun r n h => ((C77_stateful dbg I sched f fuel).1 r n h).1) fun e h => ((C77_stateful dbg I sched f fuel).2 e h).imp id fun h => h.2.1,
    key _ _ (fun r n h => ((C77_pdr dbg I sched f fuel).1 r n h).1) fun e h => ((C77_pdr dbg I sched f fuel).2 e h).imp id fun h => h.2.1⟩

/-! ## Concrete runs -/

/-- The counters of a run. -/
def counters {γ : Type} (x : Res (ProofResult × γ)) : Option γ :=
  match x with
  | .ok (_, n) => some n
  | .error _ => none

/-- The shifter: 20 SAT calls.  At moment 4 the solver is asked, at moment 5 the run shuffles. -/
example : counters (proveStatelessC true Brute.env plain (systemOf shifter false) 10) = some 20 ∧
    site (proveStateless true (Brute.env.failAt 4) plain (systemOf shifter false) 10) = some "asked" ∧
    verdict (proveStateless true (Brute.env.failAt 5) plain (systemOf shifter false) 10) = some (some 1) := by
  refine ⟨?_, ?_, ?_⟩ <;> decide +kernel

example : counters (proveStatefulC true (MiniSat.impl true Brute.ms) plain (systemOf shifter false) 10) = some 20 ∧
    site (proveStateful true ((MiniSat.impl true Brute.ms).failAt 4) plain (systemOf shifter false) 10) = some "asked" ∧
    verdict (proveStateful true ((MiniSat.impl true Brute.ms).failAt 5) plain (systemOf shifter false) 10) = some (some 1) := by
  refine ⟨?_, ?_, ?_⟩ <;> decide +kernel

/-- The ring: the debug build of `IC3Stateful` asks more often than the release build, because assertions ask too. -/
example : counters (proveStatelessC true Brute.env plain (systemOf ring false) 10) = some 29 ∧
    counters (proveStatefulC true (MiniSat.impl true Brute.ms) plain (systemOf ring false) 10) = some 29 ∧
    counters (proveStatefulC false (MiniSat.impl false Brute.ms) plain (systemOf ring false) 10) = some 20 := by
  refine ⟨?_, ?_, ?_⟩ <;> decide +kernel

/-- PDR on the shifter: ten calls without cube, nine with a cube and a clause, one with a cube only; the last of these at moment 8. -/
example : counters (PDR.runC true (MiniSat.impl true Brute.ms) plain (systemOf shifter false) 30) =
    some [("z_get_bad_cube", 4), ("z_is_blocked", 6), ("z_solve_relative_DoNotExtractModel", 3), ("z_solve_relative_NoInd", 1),
      ("z_solve_relative_ExtractModel", 6)] := by decide +kernel

example : site (PDR.run true ((MiniSat.impl true Brute.ms).failOn 8 true false) plain (systemOf shifter false) 30) = some "asked" ∧
    verdict (PDR.run true ((MiniSat.impl true Brute.ms).failOn 8 true true) plain (systemOf shifter false) 30) = some (some 2) := by
  refine ⟨?_, ?_⟩ <;> decide +kernel

/-- At moment 9 PDR gets a bad cube, at moment 11 it asks whether a cube is blocked, at moment 12 it extracts a model and at moment 6 it does not. -/
example : HasLatch (systemOf shifter false) ∧
    site (PDR.run true ((MiniSat.impl true Brute.ms).blankAt 9) plain (systemOf shifter false) 30) = some "features.rs:107 unwrap" ∧
    verdict (PDR.run true ((MiniSat.impl true Brute.ms).blankAt 11) plain (systemOf shifter false) 30) = some (some 2) ∧
    site (PDR.run true ((MiniSat.impl true Brute.ms).claimAt 12) plain (systemOf shifter false) 30) = some "features.rs:107 unwrap" ∧
    site (PDR.run true ((MiniSat.impl true Brute.ms).claimAt 6) plain (systemOf shifter false) 30) = none := by
  refine ⟨⟨1, [2, 3], ?_, ?_, ?_⟩, ?_, ?_, ?_, ?_⟩ <;> decide +kernel

/-- A release build: the results with and without counters. -/
example : verdict ((PDR.runC false (MiniSat.impl false Brute.ms) plain (systemOf ring false) 30).map Prod.fst) = some none ∧
    verdict ((proveStatelessC false Brute.env plain (systemOf shifter false) 10).map Prod.fst) = some (some 1) := by
  refine ⟨?_, ?_⟩ <;> decide +kernel

end Verif.Props
