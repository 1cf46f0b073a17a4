import Verif.Proofs.Rounds
import Verif.Props.Verbose
import Verif.Props.Instances

/-!
# C78: how deep the searches go

A circuit has 2^latches states, and none of the tools has to look deeper than that: the shortest counterexample has fewer steps, BMC with that limit is
complete, and neither IC3 nor PDR starts a round beyond it.  The rounds are observed in the progress reports (C68), one per round; they change nothing
else.
-/

namespace Verif.Props

open Verif.Fsts Verif.IC3 Verif.BMC

variable {f : Fsts} {c : Circuit} {ob : Bool}

/-- C78: the shortest counterexample has fewer steps than the circuit has states. -/
theorem C78_shortest (h : Built f c ob) (e : Nat) (he : c.Shortest (badLits c ob) e) : e < 2 ^ c.latches.length :=
  he.lt h.1.wf (badsOK_of h.1).lit

/-- C78: with at most 32 latches the depth of a counterexample fits a `u32`. -/
theorem C78_remote (h : Built f c ob) (hr : c.Remote (badLits c ob)) : 32 < c.latches.length := hr.latches h.1.wf (badsOK_of h.1).lit

/-- A counterexample of any length gives one of fewer than 2^latches steps. -/
theorem short_of_unsafe (h : Built f c ob) (d : Nat) (hd : c.UnsafeAt (badLits c ob) d) :
    ∃ e, e ≤ d ∧ e < 2 ^ c.latches.length ∧ c.Shortest (badLits c ob) e := by
  induction d using Nat.strongRecOn with
  | _ d ih =>
    by_cases hj : ∃ j, j < d ∧ c.UnsafeAt (badLits c ob) j
    · obtain ⟨j, hj, hu⟩ := hj
      obtain ⟨e, h1, h2⟩ := ih j hj hu
      exact ⟨e, by omega, h2⟩
    · have hs : c.Shortest (badLits c ob) d := ⟨hd, fun j hlt hu => hj ⟨j, hlt, hu⟩⟩
      exact ⟨d, Nat.le_refl _, C78_shortest h d hs, hs⟩

/-- C78: when BMC rules out the depths below 2^latches, no bad state is reachable at all. -/
theorem C78_bmc_safe (dbg : Bool) (V : Nat) (env : Env) (he : env.Correct V) (clock : Clock) (h : Built f c ob) (limit : Nat)
    (hl : limit < 4294967296) (hr : Representable V dbg c limit) (t t' : Nat) (d : Int)
    (hs : BMC.search dbg env clock f limit t = .ok (.noCtx d, t')) (hd : 2 ^ c.latches.length ≤ d + 1) : c.Safe (badLits c ob) := by
  intro k hk
  obtain ⟨e, _, he', hu⟩ := short_of_unsafe h k hk
  refine C35_noCtx dbg V env he clock h limit hl hr t t' d hs e ?_ hu.1
  have : ((e : Int)) < ((2 ^ c.latches.length : Nat) : Int) := by exact_mod_cast he'
  push_cast at this
  omega

/-- C78: BMC with a limit of at least 2^latches − 1 and no timeouts decides safety. -/
theorem C78_bmc_decides (dbg : Bool) (V : Nat) (env : Env) (he : env.Correct V) (clock : Clock)
    (hc : ∀ k, clock.expired k = false ∧ clock.finished k = true) (h : Built f c ob) (limit : Nat) (hl : limit < 2147483648) (hV : V ≤ 2147483647)
    (hr : c.maxVar * (limit + 1) ≤ V) (hlim : 2 ^ c.latches.length ≤ limit + 1) (t : Nat) :
    (c.Safe (badLits c ob) ↔ ∃ t', BMC.search dbg env clock f limit t = .ok (.noCtx limit, t')) ∧
    ((∃ d, c.UnsafeAt (badLits c ob) d) ↔ ∃ a d t', BMC.search dbg env clock f limit t = .ok (.ctx a d, t')) := by
  obtain ⟨h1, h2⟩ := C37_exact dbg V env he clock hc h limit hl hV hr t
  by_cases hu : ∃ d, c.UnsafeAt (badLits c ob) d
  · obtain ⟨d, hd⟩ := hu
    obtain ⟨e, _, he', hs⟩ := short_of_unsafe h d hd
    obtain ⟨a, d', t', e1⟩ := h1 ⟨e, by omega, hs.1⟩
    refine ⟨⟨fun hsafe => absurd hd (hsafe d), fun ⟨t2, e2⟩ => ?_⟩, fun _ => ⟨a, d', t', e1⟩, fun _ => ⟨d, hd⟩⟩
    rw [e1] at e2; cases e2
  · obtain ⟨t', e1⟩ := h2 fun ⟨d, _, hd⟩ => hu ⟨d, hd⟩
    refine ⟨⟨fun _ => ⟨t', e1⟩, fun _ d hd => hu ⟨d, hd⟩⟩, fun h => absurd h hu, fun ⟨a, d, t2, e2⟩ => ?_⟩
    rw [e1] at e2; cases e2

/-- C78: no round of the two IC3 provers has a number above 2^latches, and the depth of a counterexample is below. -/
theorem C78_ic3 (v dbg : Bool) (env : Env) (he : env.OK) (I : StatefulImpl) (O : I.OK) (sched : Sched) (hsched : sched.OK) (h : Built f c ob)
    (hs : c.Small) (fuel : Nat) (ps : List Report) (r : ProofResult)
    (hp : proveStatelessV v dbg env sched f fuel = .ok (ps, r) ∨ proveStatefulV v dbg I sched f fuel = .ok (ps, r)) :
    (∀ p ∈ ps, p.level ≤ 2 ^ c.latches.length) ∧ ∀ d, r = .ctx d → d < 2 ^ c.latches.length := by
  have key : ∀ d e, c.Shortest (badLits c ob) e → e ≤ 1 ∧ d = e ∨ 1 ≤ d ∧ d < e → d < 2 ^ c.latches.length := by
    intro d e h1 h2
    have := C78_shortest h e h1
    omega
  rcases hp with hp | hp
  · refine ⟨proveStatelessV_rounds v dbg he hsched (smallSys_of h hs) fuel hp, ?_⟩
    rintro d rfl
    have e1 := (C68_same v dbg env I sched f fuel).1
    rw [hp] at e1
    obtain ⟨e, h1, h2⟩ := C39_ctx dbg env he sched hsched h hs fuel d e1.symm
    exact key d e h1 h2
  · refine ⟨proveStatefulV_rounds v dbg O hsched (smallSys_of h hs) fuel hp, ?_⟩
    rintro d rfl
    have e1 := (C68_same v dbg env I sched f fuel).2.1
    rw [hp] at e1
    obtain ⟨e, h1, h2⟩ := (C41_sound dbg I O sched hsched h hs fuel).2.1 d e1.symm
    exact key d e h1 h2

/-- C78: no round of PDR has a number above 2^latches + 1, and none above 2^latches in debug builds or on covered circuits; the depth of a counterexample
of a covered circuit is below 2^latches. -/
theorem C78_pdr (v dbg : Bool) (I : StatefulImpl) (O : I.OK) (sched : Sched) (hsched : sched.OK) (h : Built f c ob) (hs : c.Small) (fuel : Nat)
    (ps : List Report) (r : ProofResult) (hp : PDR.runV v dbg I sched f fuel = .ok (ps, r)) :
    (∀ p ∈ ps, p.level ≤ 2 ^ c.latches.length + 1) ∧
    (dbg = true ∨ c.Covered (badLits c ob) → ∀ p ∈ ps, p.level ≤ 2 ^ c.latches.length) ∧
    (c.Covered (badLits c ob) → ∀ d, r = .ctx d → d < 2 ^ c.latches.length) := by
  obtain ⟨h1, h2⟩ := PDR.runV_rounds v dbg O hsched (smallSys_of h hs) fuel hp
  refine ⟨h1, fun ht => h2 ht.symm, fun hc d hd => ?_⟩
  subst hd
  have e1 := (C68_same v dbg Brute.env I sched f fuel).2.2
  rw [hp] at e1
  obtain ⟨e, h3, h4, _⟩ := C43_ctx dbg I O sched hsched h hs hc fuel d e1.symm
  exact Nat.lt_of_le_of_lt h4 (C78_shortest h e h3)

/-! ## Concrete runs -/

example : shifter.latches.length = 3 ∧ shifter.Shortest (badLits shifter false) 3 := ⟨rfl, shifter_shortest⟩
example : 3 < 2 ^ shifter.latches.length := C78_shortest shifter_built 3 shifter_shortest
example : ¬ ring.Remote (badLits ring false) := fun h => absurd (C78_remote ring_built h) (by decide)

/-- BMC with limit 7 finds the shift register's counterexample and proves the ring safe. -/
example : ∃ a d t', search true Brute.env patient (systemOf shifter false) 7 0 = .ok (.ctx a d, t') :=
  (C78_bmc_decides true 2147483646 Brute.env (Brute.env_ok_upTo _).correct patient (fun _ => ⟨rfl, rfl⟩) shifter_built 7 (by decide) (by decide)
    (by decide) (by decide) 0).2.1 ⟨3, shifter_shortest.1⟩
example (hsafe : ring.Safe (badLits ring false)) : ∃ t', search true Brute.env patient (systemOf ring false) 7 0 = .ok (.noCtx 7, t') ∧
    ring.Safe (badLits ring false) := by
  obtain ⟨t', e⟩ := (C78_bmc_decides true 2147483646 Brute.env (Brute.env_ok_upTo _).correct patient (fun _ => ⟨rfl, rfl⟩) ring_built 7 (by decide)
    (by decide) (by decide) (by decide) 0).1.1 hsafe
  exact ⟨t', e, C78_bmc_safe true 2147483646 Brute.env (Brute.env_ok_upTo _).correct patient ring_built 7 (by decide) ⟨by decide, .inr (by decide)⟩ 0 t' 7 e
    (by decide)⟩

/-- Runs with reports. -/
example (ps : List Report) (r : ProofResult) (h : proveStatefulV true true (MiniSat.impl true Brute.ms) plain (systemOf ring false) 10 = .ok (ps, r)) :
    (∀ p ∈ ps, p.level ≤ 8) ∧ ∀ d, r = .ctx d → d < 8 :=
  C78_ic3 true true Brute.env Brute.env_ok _ (MiniSat.implOK true Brute.ms_ok) plain plain_ok ring_built (by unfold Circuit.Small; decide) 10 ps r (.inr h)
example : ∃ x, proveStatefulV true true (MiniSat.impl true Brute.ms) plain (systemOf ring false) 10 = .ok x := by
  have hv : reports (proveStatefulV true true (MiniSat.impl true Brute.ms) plain (systemOf ring false) 10) = some [(1, [0, 0, 0]), (1, [3, 3, 0])] := by
    decide +kernel
  generalize proveStatefulV true true (MiniSat.impl true Brute.ms) plain (systemOf ring false) 10 = y at hv
  match y, hv with
  | .ok x, _ => exact ⟨x, rfl⟩
example (ps : List Report) (r : ProofResult) (h : PDR.runV true true (MiniSat.impl true Brute.ms) plain (systemOf ring false) 30 = .ok (ps, r)) :
    (∀ p ∈ ps, p.level ≤ 8) ∧ ∀ d, r = .ctx d → d < 8 :=
  have := C78_pdr true true _ (MiniSat.implOK true Brute.ms_ok) plain plain_ok ring_built (by unfold Circuit.Small; decide) 30 ps r h
  ⟨this.2.1 (.inl rfl), this.2.2 ring_gate.1⟩

end Verif.Props
