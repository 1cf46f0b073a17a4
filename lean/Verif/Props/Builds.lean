import Verif.Proofs.SimPdr
import Verif.Proofs.BruteDimacs
import Verif.Proofs.FstsBuild
import Verif.Props.Pdr

/-!
# C48–C50: the CaDiCaL front-end inside the provers, build profiles, and the role of the fuel
-/

namespace Verif.Props

open Verif.Fsts Verif.IC3

variable {f : Fsts} {c : Circuit} {ob : Bool}

/-! ## C49: the two build profiles -/

/-- C49: a file that a debug build reads gives the same circuit in a release build. -/
theorem C49_read (bytes : Text) (a : Aig) (h : Aig.fromBytes true bytes = .ok a) : Aig.fromBytes false bytes = .ok a :=
  (Aig.fromBytes_prof bytes).ok h

/-- C49: so does building the transition system. -/
theorem C49_build (be : BuildEnv) (aig : Aig) (ob : Bool) (f : Fsts) (h : Fsts.fromAig true be aig ob = .ok f) :
    Fsts.fromAig false be aig ob = .ok f :=
  (Fsts.fromAig_prof be aig ob).ok h

/-- C49: the stateless front-ends, with any back-end. -/
theorem C49_solve_cnf (g : CNF) (r : SatResponse) :
    (∀ be, cadicalSolveCnf true be g = .ok r → cadicalSolveCnf false be g = .ok r) ∧
    (∀ be, splrSolveCnf true be g = .ok r → splrSolveCnf false be g = .ok r) ∧
    (∀ be, varisatSolveCnf true be g = .ok r → varisatSolveCnf false be g = .ok r) :=
  ⟨fun be h => (cadicalSolveCnf_prof be g).ok h, fun be h => (splrSolveCnf_prof be g).ok h, fun be h => (varisatSolveCnf_prof be g).ok h⟩

/-- C49: the stateful front-ends, with any back-end, call by call: same answer and same object afterwards. -/
theorem C49_stateful (t : Nat) (cube : Option Cube) (clause : Option Clause) (g : CNF) :
    (∀ be s p, MiniSat.solve true be t cube clause s = .ok p → MiniSat.solve false be t cube clause s = .ok p) ∧
    (∀ be s p, CaDiCal.solve true be t cube clause s = .ok p → CaDiCal.solve false be t cube clause s = .ok p) ∧
    (∀ s s', CaDiCal.addCnf true g s = .ok s' → CaDiCal.addCnf false g s = .ok s') :=
  ⟨fun be s _ h => (MiniSat.solve_prof be t cube clause s).ok h, fun be s _ h => (CaDiCal.solve_prof be t cube clause s).ok h,
    fun s _ h => (CaDiCal.addCnf_prof g s).ok h⟩

/-- `env'` makes the same choices as `env`, and its solver gives every answer that the one of `env` gives. -/
def Env.Refined (env env' : Env) : Prop :=
  (∀ t g a, env.solve t g = .ok a → env'.solve t g = .ok a) ∧ env.order = env'.order ∧ env.shuffle = env'.shuffle

theorem Env.Refined.like {env env' : Env} (h : Env.Refined env env') : Env.Like Any env env' := by
  refine ⟨fun t g => ?_, h.2.1, h.2.2⟩
  cases e : env.solve t g with
  | ok a => exact h.1 t g a e
  | error e => exact .inl trivial

/-- C49: `check_invariant`. -/
theorem C49_check_invariant (env env' : Env) (he : Env.Refined env env') (f : Fsts) (inv : CNF) (t t' : Nat)
    (h : f.checkInvariant true env inv t = .ok ((), t')) : f.checkInvariant false env' inv t = .ok ((), t') := by
  have := Fsts.checkInvariant_sim (S := []) Prof.any he.like.near f inv t t rfl
  rw [h] at this
  obtain ⟨_, e, rfl⟩ := this
  exact e

/-- C49: bounded model checking. -/
theorem C49_bmc (env env' : Env) (he : Env.Refined env env') (clock : Clock) (f : Fsts) (limit t t' : Nat) (r : BMCResult)
    (h : BMC.search true env clock f limit t = .ok (r, t')) : BMC.search false env' clock f limit t = .ok (r, t') := by
  have := BMC.search_sim Prof.any (fun t g => BMC.join_any (he.like.solve t g)) clock f limit t t rfl
  rw [h] at this
  obtain ⟨_, e, rfl⟩ := this
  exact e

/-- C49: `IC3Stateless`: on every system, with every solver, whatever a debug build returns a release build returns too. -/
theorem C49_ic3 (env env' : Env) (he : Env.Refined env env') (sched : Sched) (f : Fsts) (fuel : Nat) (r : ProofResult)
    (h : proveStateless true env sched f fuel = .ok r) : proveStateless false env' sched f fuel = .ok r :=
  (proveStateless_follows Prof.any he.like sched f (FuelLe.refl fuel)).ok h

/-- C49: PDR with MiniSat. -/
theorem C49_pdr_minisat (be : MsBackend) (sched : Sched) (f : Fsts) (fuel : Nat) (r : ProofResult)
    (h : PDR.run true (MiniSat.impl true be) sched f fuel = .ok r) : PDR.run false (MiniSat.impl false be) sched f fuel = .ok r :=
  (PDR.run_follows Prof.any sched f (MiniSat.like be) (FuelLe.refl fuel)).ok h

/-- C49: PDR with CaDiCaL. -/
theorem C49_pdr_cadical (be : CdBackend) (sched : Sched) (f : Fsts) (fuel : Nat) (r : ProofResult)
    (h : PDR.run true (CaDiCal.impl true be) sched f fuel = .ok r) : PDR.run false (CaDiCal.impl false be) sched f fuel = .ok r :=
  (PDR.run_follows Prof.any sched f (CaDiCal.like be) (FuelLe.refl fuel)).ok h

/-- C49: `IC3Stateful`.  Its debug assertions ask the solver, so the two builds make different sequences of calls; the statement is about
back-ends and schedules that always react in the same way. -/
theorem C49_ic3_stateful (sched : Sched)
    (hS : ∀ n m, sched.order n = sched.order m ∧ sched.shuffle n = sched.shuffle m ∧ sched.pick n = sched.pick m)
    (f : Fsts) (fuel : Nat) (r : ProofResult) :
    (∀ be : MsBackend, (∀ n m, be n = be m) → proveStateful true (MiniSat.impl true be) sched f fuel = .ok r →
      proveStateful false (MiniSat.impl false be) sched f fuel = .ok r) ∧
    (∀ be : CdBackend, (∀ n m, be n = be m) → proveStateful true (CaDiCal.impl true be) sched f fuel = .ok r →
      proveStateful false (CaDiCal.impl false be) sched f fuel = .ok r) := by
  have hA : ∀ n m, sched.At n = sched.At m := fun n m => Prod.ext (hS n m).1 (Prod.ext (hS n m).2.1 (hS n m).2.2)
  exact ⟨fun be hb => (proveStateful_prof f (MiniSat.likeAt _ be fun n m _ => hb n m) sched hA fuel).ok,
    fun be hb => (proveStateful_prof f (CaDiCal.likeAt _ be fun n m _ => hb n m) sched hA fuel).ok⟩

/-- C49: nothing of this holds in the other direction: on a bad latch (C33) a debug build of PDR panics and a release build answers. -/
theorem C49_not_conversely :
    (∃ r, PDR.run false (MiniSat.impl false Brute.ms) plain (systemOf latchBad false) 30 = .ok r) ∧
    PDR.run true (MiniSat.impl true Brute.ms) plain (systemOf latchBad false) 30 = .error (.panic "pdr.rs:568") := by
  constructor
  · have hv : verdict (PDR.run false (MiniSat.impl false Brute.ms) plain (systemOf latchBad false) 30) = some none := by decide +kernel
    cases e : PDR.run false (MiniSat.impl false Brute.ms) plain (systemOf latchBad false) 30 with
    | ok r => exact ⟨r, rfl⟩
    | error x => rw [e] at hv; cases hv
  · have hv : site (PDR.run true (MiniSat.impl true Brute.ms) plain (systemOf latchBad false) 30) = some "pdr.rs:568" := by decide +kernel
    cases e : PDR.run true (MiniSat.impl true Brute.ms) plain (systemOf latchBad false) 30 with
    | ok r => rw [e] at hv; cases hv
    | error x =>
      rw [e] at hv
      cases x with
      | panic s => cases hv; rfl
      | fuel => cases hv

/-! ## C50: fuel -/

/-- C50: the fuel of the model does not influence a result; it only decides whether there is one: `IC3Stateless`. -/
theorem C50_ic3_stateless (dbg : Bool) (env : Env) (sched : Sched) (f : Fsts) (n m : Nat) (h : n ≤ m)
    (hn : proveStateless dbg env sched f n ≠ .error .fuel) :
    proveStateless dbg env sched f m = proveStateless dbg env sched f n := by
  have := proveStateless_follows (F := (· = .fuel)) (Prof.refl dbg) (Env.Like.refl env) sched f (.inr ⟨h, rfl⟩)
  cases e : proveStateless dbg env sched f n with
  | ok r => exact this.ok e
  | error x =>
    rcases this.error e with rfl | h
    · exact absurd e hn
    · exact h

/-- C50: `IC3Stateful`. -/
theorem C50_ic3_stateful (dbg : Bool) (I : StatefulImpl) (sched : Sched) (f : Fsts) (n m : Nat) (h : n ≤ m)
    (hn : proveStateful dbg I sched f n ≠ .error .fuel) :
    proveStateful dbg I sched f m = proveStateful dbg I sched f n := by
  have := proveStateful_follows (F := (· = .fuel)) dbg sched f (StatefulImpl.Like.refl I) (.inr ⟨h, rfl⟩)
  cases e : proveStateful dbg I sched f n with
  | ok r => exact this.ok e
  | error x =>
    rcases this.error e with rfl | h
    · exact absurd e hn
    · exact h

/-- C50: PDR. -/
theorem C50_pdr (dbg : Bool) (I : StatefulImpl) (sched : Sched) (f : Fsts) (n m : Nat) (h : n ≤ m)
    (hn : PDR.run dbg I sched f n ≠ .error .fuel) : PDR.run dbg I sched f m = PDR.run dbg I sched f n := by
  have := PDR.run_follows (F := (· = .fuel)) (Prof.refl dbg) sched f (StatefulImpl.Like.refl I) (.inr ⟨h, rfl⟩)
  cases e : PDR.run dbg I sched f n with
  | ok r => exact this.ok e
  | error x =>
    rcases this.error e with rfl | h
    · exact absurd e hn
    · exact h

/-- C50: so each run has one outcome, that of the code's own loops without a bound: with correct solvers and any fuel above the bound of
C41/C44 it is the same, and with less fuel it is the same or undecided. -/
theorem C50_outcome (dbg : Bool) (env : Env) (he : env.OK) (I : StatefulImpl) (O : I.OK) (sched : Sched) (hsched : sched.OK) (h : Built f c ob)
    (hs : c.Small) :
    (∃ r, r ≠ .error .fuel ∧ (∀ fuel, (2 ^ c.latches.length + 1) * (2 ^ c.latches.length + 2) < fuel → proveStateless dbg env sched f fuel = r) ∧
      ∀ fuel, proveStateless dbg env sched f fuel = r ∨ proveStateless dbg env sched f fuel = .error .fuel) ∧
    (∃ r, r ≠ .error .fuel ∧ (∀ fuel, (2 ^ c.latches.length + 1) * (2 ^ c.latches.length + 2) < fuel → proveStateful dbg I sched f fuel = r) ∧
      ∀ fuel, proveStateful dbg I sched f fuel = r ∨ proveStateful dbg I sched f fuel = .error .fuel) ∧
    (∃ r, r ≠ .error .fuel ∧ (∀ fuel, pdrBound (2 ^ c.latches.length + 1) < fuel → PDR.run dbg I sched f fuel = r) ∧
      ∀ fuel, PDR.run dbg I sched f fuel = r ∨ PDR.run dbg I sched f fuel = .error .fuel) := by
  have key : ∀ (run : Nat → Res ProofResult) (b : Nat), (∀ n m, n ≤ m → run n ≠ .error .fuel → run m = run n) →
      (∀ n, b < n → run n ≠ .error .fuel) →
      ∃ r, r ≠ .error .fuel ∧ (∀ fuel, b < fuel → run fuel = r) ∧ ∀ fuel, run fuel = r ∨ run fuel = .error .fuel := by
    intro run b hmono hb
    refine ⟨run (b + 1), hb _ (Nat.lt_succ_self b), fun n hn => hmono _ n hn (hb _ (Nat.lt_succ_self b)), fun n => ?_⟩
    by_cases e : run n = .error .fuel
    · exact .inr e
    · refine .inl ?_
      rcases Nat.le_total n (b + 1) with h | h
      · exact (hmono n _ h e).symm
      · exact hmono _ n h (hb _ (Nat.lt_succ_self b))
  refine ⟨?_, ?_, ?_⟩
  · refine key _ _ (fun n m => C50_ic3_stateless dbg env sched f n m) fun n hn e => ?_
    rcases C40_terminates dbg env he sched hsched h hs n hn with ⟨r, e'⟩ | ⟨_, e'⟩ <;> rw [e] at e' <;> cases e'
  · refine key _ _ (fun n m => C50_ic3_stateful dbg I sched f n m) fun n hn e => ?_
    rcases C41_terminates dbg I O sched hsched h hs n hn with ⟨r, e'⟩ | ⟨_, e'⟩ <;> rw [e] at e' <;> cases e'
  · refine key _ _ (fun n m => C50_pdr dbg I sched f n m) fun n hn e => ?_
    rcases C44_terminates dbg I O sched hsched h hs n hn with ⟨r, e'⟩ | ⟨_, e'⟩ <;> rw [e] at e' <;> cases e'

/-- C42, what is left for the other circuits: a `Proof` always excludes a bad initial state.  (Bad states after one clock it does not exclude, see
`C42_refuted`.) -/
theorem C42_initially (dbg : Bool) (I : StatefulImpl) (O : I.OK) (sched : Sched) (hsched : sched.OK) (h : Built f c ob)
    (hs : c.Small) (fuel : Nat) (inv : CNF) (hp : PDR.run dbg I sched f fuel = .ok (.proof inv)) : ¬ c.UnsafeAt (badLits c ob) 0 := by
  intro h0
  have hp' := C50_pdr dbg I sched f fuel (fuel + 1) (Nat.le_succ _) (by rw [hp]; exact fun e => by cases e)
  rw [hp] at hp'
  rcases C43_bad_initially dbg I O sched hsched h hs h0 (fuel + 1) (Nat.succ_pos _) with e | ⟨_, e⟩ <;> rw [hp'] at e <;> cases e

/-- It applies to the wrong `Proof` of a release build for `latchBad`. -/
example : ¬ latchBad.UnsafeAt [2] 0 := by
  have hv : verdict (PDR.run false (MiniSat.impl false Brute.ms) plain (systemOf latchBad false) 30) = some none := by decide +kernel
  generalize e : PDR.run false (MiniSat.impl false Brute.ms) plain (systemOf latchBad false) 30 = r at hv
  match r, hv with
  | .ok (.proof inv), _ =>
    exact C42_initially false _ (MiniSat.implOK false Brute.ms_ok) plain plain_ok latchBad_built (by unfold Circuit.Small; decide) 30 inv e

/-! ## C48: CaDiCaL -/

/-- The counter of back-end variables left the range of `i32`. -/
def counterOverflow : String := "stateful/cadical_solver.rs:35 overflow"

theorem stateful_sound_of_ends {run : Res ProofResult} {G : Err → Prop} {fuel : Nat}
    (he : Ends (fun e => IC3.Failure c (badLits c ob) fuel e ∨ G e) run (Verdict f c (badLits c ob) (propCnf f))) :
    (∀ inv, run = .ok (.proof inv) → c.Safe (badLits c ob) ∧
      ∀ (dbg' : Bool) (env' : Env), env'.Correct → ∀ t, ∃ t', f.checkInvariant dbg' env' inv t = .ok ((), t')) ∧
    (∀ d, run = .ok (.ctx d) → ∃ e, c.Shortest (badLits c ob) e ∧ (e ≤ 1 ∧ d = e ∨ 1 ≤ d ∧ d < e)) := by
  refine ⟨?_, ?_⟩
  · rintro inv rfl; exact ⟨he.1, he.2.2⟩
  · rintro d rfl; exact he

/-- C48: `IC3Stateful` over CaDiCaL, debug build of the front-end: verdicts mean what they should, and apart from the conversion of a depth
above 2^32 the only possible panic is the overflow of the front-end's counter. -/
theorem C48_ic3 (dbg : Bool) {be : CdBackend} (hb : CdOK be) (hT : CdTotal be) (sched : Sched) (hsched : sched.OK) (h : Built f c ob)
    (hs : c.Small) (fuel : Nat) :
    (∀ inv, proveStateful dbg (CaDiCal.impl true be) sched f fuel = .ok (.proof inv) → c.Safe (badLits c ob) ∧
      ∀ (dbg' : Bool) (env' : Env), env'.Correct → ∀ t, ∃ t', f.checkInvariant dbg' env' inv t = .ok ((), t')) ∧
    (∀ d, proveStateful dbg (CaDiCal.impl true be) sched f fuel = .ok (.ctx d) →
      ∃ e, c.Shortest (badLits c ob) e ∧ (e ≤ 1 ∧ d = e ∨ 1 ≤ d ∧ d < e)) ∧
    (∀ site, proveStateful dbg (CaDiCal.impl true be) sched f fuel = .error (.panic site) →
      (site = "ic3 depth try_into" ∧ c.Remote (badLits c ob)) ∨ site = counterOverflow) ∧
    ((2 ^ c.latches.length + 1) * (2 ^ c.latches.length + 2) < fuel →
      proveStateful dbg (CaDiCal.impl true be) sched f fuel ≠ .error .fuel) := by
  have he := proveStateful_ends dbg (CaDiCal.implOK hb hT) hsched (smallSys_of h hs) fuel
  refine ⟨(stateful_sound_of_ends he).1, (stateful_sound_of_ends he).2, ?_, ?_⟩
  · intro site e
    rw [e] at he
    rcases he with (⟨h, _⟩ | ⟨h, h2⟩) | h
    · cases h
    · cases h; exact .inl ⟨rfl, h2⟩
    · cases h; exact .inr rfl
  · intro hfuel e
    rw [e] at he
    rcases he with (⟨_, h2⟩ | ⟨h, _⟩) | h
    · unfold IC3.enough at h2
      rw [Nat.add_mul] at hfuel
      omega
    · cases h
    · cases h

/-- C48: PDR over CaDiCaL, debug build of the front-end, for circuits with bad literals as PDR needs them. -/
theorem C48_pdr (dbg : Bool) {be : CdBackend} (hb : CdOK be) (hT : CdTotal be) (sched : Sched) (hsched : sched.OK) (h : Built f c ob)
    (hs : c.Small) (hg : GateBads c ob) (fuel : Nat) :
    (∀ inv, PDR.run dbg (CaDiCal.impl true be) sched f fuel = .ok (.proof inv) → c.Safe (badLits c ob) ∧
      ∀ (dbg' : Bool) (env' : Env), env'.Correct → ∀ t, ∃ t', f.checkInvariant dbg' env' inv t = .ok ((), t')) ∧
    (∀ d, PDR.run dbg (CaDiCal.impl true be) sched f fuel = .ok (.ctx d) →
      ∃ e, c.Shortest (badLits c ob) e ∧ d ≤ e ∧ (d = 0 ↔ e = 0)) ∧
    (∀ site, PDR.run dbg (CaDiCal.impl true be) sched f fuel = .error (.panic site) →
      (site = "pdr depth try_into" ∧ c.Remote (badLits c ob)) ∨ site = counterOverflow) ∧
    (pdrBound (2 ^ c.latches.length + 1) < fuel → PDR.run dbg (CaDiCal.impl true be) sched f fuel ≠ .error .fuel) := by
  have he := PDR.run_ends dbg (CaDiCal.implOK hb hT) hsched (smallSys_of h hs) fuel
  refine ⟨?_, ?_, ?_, ?_⟩
  · intro inv e
    rw [e] at he
    have hv := he.2 (.inl hg.1)
    exact ⟨hv.1, hv.2.2⟩
  · intro d e
    rw [e] at he
    exact PDR.Outcome.shortest (sys := f) he (.inl hg.1) hg.1
  · intro site e
    rw [e] at he
    rcases he with (⟨h, _⟩ | ⟨h, _, h2⟩ | ⟨h, _, h2⟩ | ⟨h, h2⟩) | h
    · cases h
    · cases h; exact .inl ⟨rfl, h2 hg.1⟩
    · exact absurd hg.1 h2
    · exact absurd hg.2 h2
    · cases h; exact .inr rfl
  · intro hfuel e
    rw [e] at he
    rcases he with (⟨_, h2⟩ | ⟨h, _⟩ | ⟨h, _⟩ | ⟨h, _⟩) | h
    · exact absurd hfuel (Nat.not_lt.2 h2)
    all_goals cases h

/-- C48: in a release build of the front-end the counter wraps silently.  As long as it would not overflow, nothing changes: whatever the
run with the checked counter returns is what the release build returns. -/
theorem C48_release (be : CdBackend) (sched : Sched) (f : Fsts) (fuel : Nat) (r : ProofResult) (dbg : Bool) :
    (proveStateful dbg (CaDiCal.impl true be) sched f fuel = .ok r → proveStateful dbg (CaDiCal.impl false be) sched f fuel = .ok r) ∧
    (PDR.run dbg (CaDiCal.impl true be) sched f fuel = .ok r → PDR.run dbg (CaDiCal.impl false be) sched f fuel = .ok r) :=
  ⟨(proveStateful_follows dbg sched f (CaDiCal.like be) (FuelLe.refl fuel)).ok,
    (PDR.run_follows (Prof.refl dbg) sched f (CaDiCal.like be) (FuelLe.refl fuel)).ok⟩

/-! ## Concrete runs -/

theorem plain_still (n m : Nat) : plain.order n = plain.order m ∧ plain.shuffle n = plain.shuffle m ∧ plain.pick n = plain.pick m :=
  ⟨rfl, rfl, rfl⟩

/-- The hypotheses of C49 hold for real runs. -/
example : ∃ r, proveStateful true (MiniSat.impl true Brute.ms) plain (systemOf shifter false) 10 = .ok r ∧
    proveStateful false (MiniSat.impl false Brute.ms) plain (systemOf shifter false) 10 = .ok r := by
  have hv : verdict (proveStateful true (MiniSat.impl true Brute.ms) plain (systemOf shifter false) 10) = some (some 1) := by decide +kernel
  cases e : proveStateful true (MiniSat.impl true Brute.ms) plain (systemOf shifter false) 10 with
  | ok r => exact ⟨r, rfl, (C49_ic3_stateful plain plain_still _ 10 r).1 Brute.ms (fun _ _ => rfl) e⟩
  | error x => rw [e] at hv; cases hv

example : ∃ r, PDR.run true (CaDiCal.impl true Brute.cd) backwards (systemOf ring false) 30 = .ok r ∧
    PDR.run false (CaDiCal.impl false Brute.cd) backwards (systemOf ring false) 30 = .ok r := by
  have hv : verdict (PDR.run true (CaDiCal.impl true Brute.cd) backwards (systemOf ring false) 30) = some none := by decide +kernel
  cases e : PDR.run true (CaDiCal.impl true Brute.cd) backwards (systemOf ring false) 30 with
  | ok r => exact ⟨r, rfl, C49_pdr_cadical Brute.cd backwards _ 30 r e⟩
  | error x => rw [e] at hv; cases hv

/-- Too little fuel for a verdict, then the same verdict ever after. -/
example : verdict (proveStateless true Brute.env plain (systemOf shifter false) 0) = none ∧
    ∀ m, 10 ≤ m → proveStateless true Brute.env plain (systemOf shifter false) m = proveStateless true Brute.env plain (systemOf shifter false) 10 := by
  refine ⟨by decide +kernel, fun m hm => C50_ic3_stateless true Brute.env plain _ 10 m hm fun e => ?_⟩
  have hv : verdict (proveStateless true Brute.env plain (systemOf shifter false) 10) = some (some 1) := by decide +kernel
  rw [e] at hv
  cases hv

/-- So ten units of fuel tell that the loops of the code, without any bound, find the counterexample of `shifter`. -/
example (m : Nat) (hm : 10 ≤ m) : verdict (proveStateful true (CaDiCal.impl true Brute.cd) plain (systemOf shifter false) m) = some (some 1) := by
  have hv : verdict (proveStateful true (CaDiCal.impl true Brute.cd) plain (systemOf shifter false) 10) = some (some 1) := by decide +kernel
  rw [C50_ic3_stateful true _ plain _ 10 m hm fun e => by rw [e] at hv; cases hv]
  exact hv

example : verdict (proveStateful true (CaDiCal.impl true Brute.cd) plain (systemOf shifter false) 10) = some (some 1) := by decide +kernel
example : verdict (proveStateful false (CaDiCal.impl false Brute.cd) backwards (systemOf ring false) 10) = some none := by decide +kernel
example : verdict (PDR.run true (CaDiCal.impl true Brute.cd) plain (systemOf ring false) 30) = some none := by decide +kernel
example : verdict (PDR.run false (CaDiCal.impl false Brute.cd) plain (systemOf shifter false) 30) = some (some 2) := by decide +kernel

end Verif.Props
