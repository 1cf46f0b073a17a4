import Verif.Props.Files
import Verif.Props.FrontEnds
import Verif.Props.Failures
import Verif.Props.GiveUp
import Verif.Props.BmcLimit
import Verif.Props.Replay
import Verif.Props.Stateful
import Verif.Props.Solvers
import Verif.Props.Verbose
import Verif.Props.PdrFlags
import Verif.Props.Again
import Verif.Props.Wrap
import Verif.Props.FormulaLogic

/-!
# The theorems applied to concrete cases

Most theorems have a concrete case next to them.  For those that share one with their neighbours, all hypotheses are discharged here for one
circuit, file or solver; what is left is the conclusion for that case.
-/

namespace Verif.Props

open Verif.Fsts Verif.IC3 Verif.BMC Verif.Aiger

/-! ## Circuits: C21–C24 -/

theorem toggle_graph : (finish toggle [] none).Represents toggle := represents_finish toggle_fits _ _

def toggleStimulus : List BoolMap := [[(1, true)], [(1, false)], [(1, true)]]

def toggleRows : List (List Bool) :=
  [[false, true, false, false, true, false], [false, false, true, true, false, false], [false, true, true, false, false, true]]

theorem toggle_simulates : (finish toggle [] none).simulate toggleStimulus [] = .ok toggleRows := by decide +kernel

theorem toggle_trace : toggle.Trace (toggleStimulus.map given) (given []) toggleRows :=
  C21_trace _ _ toggle_graph toggle_wf _ _ _ toggle_simulates

/-- No other rows are a trace of the same stimulus. -/
example (rows : List (List Bool)) (h : toggle.Trace (toggleStimulus.map given) (given []) rows) : rows = toggleRows :=
  C21_unique toggle toggle_wf _ _ _ _ h toggle_trace

example : toggle.Exec (fun t => rowVal (toggleRows.getD t [])) 2 :=
  C21_exec _ _ toggle_graph toggle_wf _ _ _ toggle_simulates 2 (by decide)

theorem toggle_complete : Complete toggle toggleStimulus [] :=
  ⟨by decide, by decide, by decide, by
    intro i p hp
    cases i with
    | zero => have := Option.some.inj hp; subst this; simp
    | succ i => simp [toggle] at hp⟩

example : ∃ rows, (finish toggle [] none).simulate toggleStimulus [] = .ok rows :=
  C22_accepts_partial _ _ toggle_graph toggle_wf _ _ toggle_complete (.inl (by decide))

example := (C22_accepts_iff _ _ toggle_graph toggle_wf toggleStimulus []).2 ⟨toggle_complete, fun h => absurd h (by decide)⟩

example := C23_cone _ _ toggle_graph toggle_wf List.reverse List.reverse_perm [8, 11] (by decide)

example : (finish toggle [] none).getInputInformation = .ok [2] := C24_inputs _ _ toggle_graph

example := C24_latches _ _ toggle_graph toggle_wf

/-! ## Transition systems: C26–C34 -/

theorem toggle_small : toggle.Small := by unfold Circuit.Small; decide
theorem lazy_small : lazy.Small := by unfold Circuit.Small; decide
theorem shifter_small : shifter.Small := by unfold Circuit.Small; decide

/-- Input 1 at state 0: the second gate computes 1, and the latch becomes 1. -/
def toggleNow : Val := fun x => x = 1 || x = 4

theorem toggle_frame : toggle.Frame toggleNow := by
  refine ⟨by decide, ?_⟩
  intro i p hp
  match i, hp with
  | 0, hp => simp [toggle] at hp; subst hp; decide
  | 1, hp => simp [toggle] at hp; subst hp; decide
  | 2, hp => simp [toggle] at hp; subst hp; decide
  | _ + 3, hp => simp [toggle] at hp

theorem toggle_step : toggle.Step toggleNow (fun x => x = 2) := by
  intro i p hp
  match i, hp with
  | 0, hp => simp [toggle] at hp; subst hp; decide
  | _ + 1, hp => simp [toggle] at hp

/-- The hypotheses of C26_sound: the valuation given by C26_complete satisfies the relation. -/
example : toggle.Step toggleNow (fun x => if x + (systemOf toggle false).getMaxLiteralNumber ≤ toggle.maxVar then
    toggleNow (x + (systemOf toggle false).getMaxLiteralNumber) else x + (systemOf toggle false).getMaxLiteralNumber - toggle.maxVar = 2) :=
  C26_sound toggle_built _ toggleNow (C26_complete toggle_built toggleNow (fun x => x = 2) toggle_frame toggle_step) toggle_frame
    (fun x _ h2 => by
      have : x ≤ toggle.maxVar := Nat.le_trans h2 (by decide)
      simp [this])

example := C26_total toggle_built toggleNow
example := C27_bad counter_built toggleNow
example := C27_good counter_built toggleNow

/-- A circuit with a constraint. -/
example : ∃ site, fromAig true bruteBuild (finish ⟨1, [], [], [], [], [2]⟩ [] none) false = .error (.panic site) :=
  C28_constraints true bruteBuild _ (represents_finish ⟨by decide, by decide, by decide, by decide, by decide⟩ _ _) (by decide)

theorem toggle_accepted : ∃ f, fromAig true bruteBuild (finish toggle [] none) false = .ok f :=
  C28_accepts true bruteBuild bruteBuild_ok _ toggle_graph toggle_supported

example := C28_debug (ob := false) bruteBuild bruteBuild_ok _ toggle_graph toggle_wf

/-- The transition relation of the counter, three tags, and the state "first bit 0, second bit 1". -/
theorem counter_relation : (systemOf counter true).transition.WF ∧
    (∀ d ∈ (systemOf counter true).transition.clauses, ∀ l ∈ d.lits, 1 ≤ l.number) ∧
    (systemOf counter true).transition.maxVar + (systemOf counter true).maxLiteral * 3 < 2147483648 :=
  ⟨(sys_of counter_built).laws.trans_wf, by decide +kernel, by decide +kernel⟩

example := C29_relation true (systemOf counter true) _ 3 counter_relation.1 counter_relation.2.1 counter_relation.2.2
example := C29_compose true (systemOf counter true) _ 1 2 counter_relation.1 counter_relation.2.1 counter_relation.2.2
example := C29_cube true (systemOf counter true) (Cube.new [⟨3⟩, ⟨4⟩]) 2 (Cube.sorted_new _) (by decide +kernel) (by decide +kernel)
example := C29_clause true (systemOf counter true) (Clause.new [⟨3⟩, ⟨4⟩]) 2 (Clause.sorted_new _) (by decide +kernel) (by decide +kernel)
example := C29_compose_cube true (systemOf counter true) (Cube.new [⟨3⟩, ⟨4⟩]) 2 5 (Cube.sorted_new _) (by decide +kernel) (by decide +kernel)
example := C29_compose_clause true (systemOf counter true) (Clause.new [⟨3⟩, ⟨4⟩]) 2 5 (Clause.sorted_new _) (by decide +kernel) (by decide +kernel)

example := C30_exact counter_built (Cube.new [⟨2⟩, ⟨5⟩]) (by decide)
example := C31_extract true counter_built ⟨[2, 3, 4], [1, 5]⟩ (fun x => x == 2 || x == 3 || x == 4) (by decide)

theorem lazy_full : Full lazy ⟨[⟨2⟩, ⟨5⟩]⟩ := by
  intro i hi
  match i, hi with
  | 0, _ => exact ⟨⟨2⟩, by decide, by decide⟩
  | 1, _ => exact ⟨⟨5⟩, by decide, by decide⟩

/-- The states 10 and 11 of `lazy`; the second bit is dropped. -/
def lazyOne : Val := fun x => x = 1
def lazyTwo : Val := fun x => x = 1 || x = 2 || x = 3

theorem lazy_frames : lazy.Frame lazyOne ∧ lazy.Frame lazyTwo := by
  refine ⟨⟨by decide, ?_⟩, ⟨by decide, ?_⟩⟩ <;>
  · intro i p hp
    match i, hp with
    | 0, hp => simp [lazy] at hp; subst hp; decide
    | _ + 1, hp => simp [lazy] at hp

example (v' : Val) : lazy.Step lazyOne v' ↔ lazy.Step lazyTwo v' :=
  C32_successor lazy_built ⟨[⟨2⟩, ⟨5⟩]⟩ lazy_full lazyOne lazyTwo lazy_frames.1 lazy_frames.2 (fun x h1 h2 => by simp [lazy] at h2; omega)
    (by unfold Cube.holds; decide) (by rw [show (systemOf lazy false).intersectTransition ⟨[⟨2⟩, ⟨5⟩]⟩ = ⟨[⟨2⟩]⟩ by decide +kernel]; unfold Cube.holds; decide) v'

/-- Two latches that keep their values; the bad literal is a gate that reads the first one only. -/
def half : Circuit := ⟨0, [(2, 0), (4, 0)], [(2, 2)], [], [6], []⟩

theorem half_built : Built (systemOf half false) half false :=
  systemOf_built ⟨by decide, by decide, by decide, by decide, by decide⟩
    (supported_of (by decide) (by unfold Circuit.Small; decide) rfl (by decide))

def halfOne : Val := fun x => x = 1 || x = 3
def halfTwo : Val := fun x => x = 1 || x = 2 || x = 3

theorem half_frames : half.Frame halfOne ∧ half.Frame halfTwo := by
  refine ⟨⟨by decide, ?_⟩, ⟨by decide, ?_⟩⟩ <;>
  · intro i p hp
    match i, hp with
    | 0, hp => simp [half] at hp; subst hp; decide
    | _ + 1, hp => simp [half] at hp

theorem half_full : Full half ⟨[⟨2⟩, ⟨5⟩]⟩ := by
  intro i hi
  match i, hi with
  | 0, _ => exact ⟨⟨2⟩, by decide, by decide⟩
  | 1, _ => exact ⟨⟨5⟩, by decide, by decide⟩

/-- The second latch is dropped from the state 10, and the states 10 and 11 are both bad. -/
example := C33_partial half_built (covered_of_noLatch (by decide)) ⟨[⟨2⟩, ⟨5⟩]⟩ half_full halfOne halfTwo half_frames.1 half_frames.2
  (fun x h1 h2 => by simp [half] at h2; omega) (by unfold Cube.holds; decide)
  (by rw [show (systemOf half false).intersectSafety ⟨[⟨2⟩, ⟨5⟩]⟩ = ⟨[⟨2⟩]⟩ by decide +kernel]; unfold Cube.holds; decide)

/-- The invariant "the first two latches are not both 1" of `lazy`. -/
def lazyInv : CNF := ⟨2, [⟨[⟨3⟩, ⟨5⟩]⟩]⟩

theorem lazyInv_wf : lazyInv.WF := CNF.WF.new.addClause (Clause.sorted_new [⟨3⟩, ⟨5⟩])

theorem lazyInv_names : ∀ d ∈ lazyInv.clauses, ∀ l ∈ d.lits, 1 ≤ l.number ∧ l.number ≤ lazy.numInputs + lazy.latches.length := by decide

theorem lazy_accepts : ∃ t, (systemOf lazy false).checkInvariant true Brute.env lazyInv 0 = .ok ((), t) := by
  have h : ((systemOf lazy false).checkInvariant true Brute.env lazyInv 0).isOk = true := by decide +kernel
  match e : (systemOf lazy false).checkInvariant true Brute.env lazyInv 0 with
  | .ok ((), t) => exact ⟨t, rfl⟩
  | .error _ => rw [e] at h; cases h

theorem lazy_safe : lazy.Safe (badLits lazy false) := by
  obtain ⟨t, h⟩ := lazy_accepts
  exact C34_sound true Brute.env Brute.env_correct lazy_built lazy_small lazyInv lazyInv_wf (by decide) 0 t h

/-- The three conditions of an inductive invariant hold, by C34_exact; with them C34_complete gives the check for every other solver. -/
example (env : Env) (he : env.Correct) (dbg : Bool) (t : Nat) : ∃ t', (systemOf lazy false).checkInvariant dbg env lazyInv t = .ok ((), t') := by
  obtain ⟨h1, h2, h3⟩ := (C34_exact true Brute.env Brute.env_correct lazy_built lazy_small lazyInv lazyInv_wf (by
    intro d hd l hl
    have := lazyInv_names d hd l hl
    refine ⟨this.1, Nat.le_trans this.2 (by decide), fun i hi e => ?_⟩
    have h2 : l.number ≤ 2 := this.2
    rw [e] at h2
    unfold Circuit.andVar at h2
    have : (1 : Nat) + lazy.numInputs + lazy.latches.length = 3 := by decide
    omega) 0).1 lazy_accepts
  exact C34_complete dbg env he lazy_built lazy_small lazyInv lazyInv_wf lazyInv_names h1 h2 h3 t

/-! ## Bounded model checking: C35–C37, C71, C52 -/

theorem shifter_two : search true Brute.env patient (systemOf shifter false) 2 0 = .ok (.noCtx 2, 3) := by decide +kernel

example : ∀ k : Nat, (k : Int) ≤ 2 → ¬ shifter.UnsafeAt (badLits shifter false) k :=
  C35_noCtx true 2147483647 Brute.env (Brute.env_ok_upTo _).correct patient shifter_built 2 (by decide) ⟨by decide, .inl ⟨rfl, rfl⟩⟩ 0 3 2 shifter_two

theorem shifter_four : ∃ a t, search true Brute.env patient (systemOf shifter false) 4 0 = .ok (.ctx a 3, t) := by
  have h : (search true Brute.env patient (systemOf shifter false) 4 0).toOption.map (fun p => match p.1 with | .ctx _ d => some d | .noCtx _ => none) =
      some (some 3) := by decide +kernel
  match e : search true Brute.env patient (systemOf shifter false) 4 0 with
  | .ok (.ctx a d, t) =>
    rw [e] at h
    have : d = 3 := by simpa [Except.toOption] using h
    exact ⟨a, t, by rw [this]⟩
  | .ok (.noCtx _, t) => rw [e] at h; simp [Except.toOption] at h
  | .error _ => rw [e] at h; simp [Except.toOption] at h

theorem shifter_shortest : shifter.Shortest (badLits shifter false) 3 := by
  obtain ⟨a, t, h⟩ := shifter_four
  obtain ⟨_, h1, h2⟩ := C36_ctx true 2147483647 Brute.env (Brute.env_ok_upTo _) patient shifter_built 4 (by decide) ⟨by decide, .inl ⟨rfl, rfl⟩⟩ 0 t a 3 h
  obtain ⟨w, hw⟩ := C36_completable a
  obtain ⟨e, he, hb, _⟩ := h2 w hw
  exact ⟨⟨e, he, hb⟩, h1⟩

example := C37_returns false 2147483646 Brute.env (Brute.env_ok_upTo _).correct patient shifter_built 4 (by decide) (by decide) (by decide) 0

/-- Every correct solver finds the counterexample, in both build profiles. -/
example (dbg : Bool) (env : Env) (he : env.OK) : ∃ a d t', search dbg env patient (systemOf shifter false) 4 0 = .ok (.ctx a d, t') :=
  (C37_exact dbg 2147483646 env he.correct patient (fun _ => ⟨rfl, rfl⟩) shifter_built 4 (by decide) (by decide) (by decide) 0).1
    ⟨3, by decide, shifter_shortest.1⟩

example := C71_queries true Brute.env patient (systemOf shifter false) 2 (by decide) 0 _ _ shifter_two
example (r : BMCResult) (t' : Nat) (h : search true Brute.env patient (systemOf shifter false) 4 0 = .ok (r, t')) : ¬ Early 2 r ∧ 3 ≤ t' :=
  C71_continues true Brute.env patient (systemOf shifter false) 2 4 (by decide) (by decide) 0 3 shifter_two r t' h

/-! ## The provers: C40, C41, C44, C45, C46, C48–C51 -/

/-- Every correct solver, every schedule: IC3 and PDR end on the shift register with the counterexample. -/
example (dbg : Bool) (env : Env) (he : env.OK) (sched : Sched) (hs : sched.OK) : ∃ r, proveStateless dbg env sched (systemOf shifter false) 200 = .ok r :=
  C40_returns dbg env he sched hs shifter_built shifter_small (not_remote shifter_built.1 (by decide)) 200 (by decide)

example (dbg : Bool) (env : Env) (he : env.OK) (sched : Sched) (hs : sched.OK) (site : String) :
    proveStateless dbg env sched (systemOf shifter false) 200 ≠ .error (.panic site) := fun h =>
  absurd (C40_no_panic dbg env he sched hs shifter_built shifter_small 200 site h).2 (not_remote shifter_built.1 (by decide))

example := C40_terminates true Brute.env Brute.env_ok plain plain_ok shifter_built shifter_small 200 (by decide)

example (dbg : Bool) (I : StatefulImpl) (O : I.OK) (sched : Sched) (hs : sched.OK) : ∃ d, proveStateful dbg I sched (systemOf shifter false) 200 = .ok (.ctx d) :=
  (C41_decides dbg I O sched hs shifter_built shifter_small (not_remote shifter_built.1 (by decide)) 200 (by decide)).2.1 ⟨3, shifter_shortest.1⟩

example := C41_terminates true _ (MiniSat.implOK true Brute.ms_ok) plain plain_ok shifter_built shifter_small 200 (by decide)
example := C41_sound true _ (MiniSat.implOK true Brute.ms_ok) plain plain_ok shifter_built shifter_small 200
example := C41_minisat false Brute.ms Brute.ms_ok backwards backwards_ok shifter_built shifter_small (not_remote shifter_built.1 (by decide)) 200 (by decide)

example (dbg : Bool) (I : StatefulImpl) (O : I.OK) (sched : Sched) (hs : sched.OK) : ∃ d, PDR.run dbg I sched (systemOf shifter false) 20000 = .ok (.ctx d) :=
  (C44_decides dbg I O sched hs shifter_built shifter_small shifter_gate (not_remote shifter_built.1 (by decide)) 20000 (by decide)).2.1 ⟨3, shifter_shortest.1⟩

example (dbg : Bool) (I : StatefulImpl) (O : I.OK) (sched : Sched) (hs : sched.OK) (fuel : Nat) (site : String) :
    PDR.run dbg I sched (systemOf shifter false) fuel ≠ .error (.panic site) := fun h =>
  absurd (C44_no_panic dbg I O sched hs shifter_built shifter_small shifter_gate fuel site h).2 (not_remote shifter_built.1 (by decide))

/-- A panic that C44_panics allows does occur. -/
example : PDR.run true (MiniSat.impl true Brute.ms) plain (systemOf latchBad false) 30 = .error (.panic "pdr.rs:568") ∧
    ¬ latchBad.Covered (badLits latchBad false) := by
  have e : PDR.run true (MiniSat.impl true Brute.ms) plain (systemOf latchBad false) 30 = .error (.panic "pdr.rs:568") := by decide +kernel
  refine ⟨e, ?_⟩
  rcases C44_panics true _ (MiniSat.implOK true Brute.ms_ok) plain plain_ok latchBad_built (by unfold Circuit.Small; decide) 30 _ e with
    ⟨h, _⟩ | ⟨_, _, h⟩ | ⟨h, _⟩
  · simp at h
  · exact h
  · simp at h

theorem ctx_of {r : Res ProofResult} {d : Nat} (h : verdict r = some (some d)) : r = .ok (.ctx d) := by
  match r, h with
  | .ok (.ctx d'), h => rw [Option.some.inj (Option.some.inj h)]

theorem proof_of {r : Res ProofResult} (h : verdict r = some none) : ∃ inv, r = .ok (.proof inv) := by
  match r, h with
  | .ok (.proof inv), _ => exact ⟨inv, rfl⟩

theorem shifter_ic3 : proveStateless true Brute.env plain (systemOf shifter false) 10 = .ok (.ctx 1) := ctx_of (by decide +kernel)
theorem shifter_pdr : PDR.run true (MiniSat.impl true Brute.ms) plain (systemOf shifter false) 30 = .ok (.ctx 2) := ctx_of (by decide +kernel)

theorem shifter_ic3_run : ProverRun (systemOf shifter false) shifter false (.ok (.ctx 1)) := by
  have := ProverRun.stateless (f := systemOf shifter false) (c := shifter) (ob := false) true Brute.env plain 10 Brute.env_ok plain_ok
  rwa [shifter_ic3] at this

theorem shifter_pdr_run : ProverRun (systemOf shifter false) shifter false (.ok (.ctx 2)) := by
  have := ProverRun.pdr (f := systemOf shifter false) (c := shifter) (ob := false) true _ _ plain 30 (MiniSat.implOK true Brute.ms_ok) plain_ok
    shifter_gate.1
  rwa [shifter_pdr] at this

/-- The depths differ, the verdicts agree. -/
example : isProof (.ctx 1) = isProof (.ctx 2) := C45_agree shifter_built shifter_built shifter_small _ _ shifter_ic3_run shifter_pdr_run

example := C45_bmc_confirms shifter_built shifter_built shifter_small 2 shifter_pdr_run

theorem counter_read : Aig.fromBytes true counterBytes = .ok (finish counter [] none) := by decide +kernel

example := C46_accepted true bruteBuild bruteBuild_ok Brute.env Brute.env_ok plain plain_ok counterBytes true _ counter_read
example := C65_circuit_only (c := counter) (finish counter [] none) (finish counter [⟨108, 1, [120]⟩] none) (represents_finish counter_fits _ _)
  (represents_finish counter_fits _ _)
example := C65_file_of false namedBytes counter_wf counter_fits

theorem ring_wf : ring.WF := Circuit.wf_of_wfb (by decide)
theorem ring_fits : ring.Fits := ⟨by decide, by decide, by decide, by decide, by decide⟩

example := C46_stateful_provers true bruteBuild bruteBuild_ok (encode ring) ring_wf ring_fits
  (encode_file ring_wf ring_fits (C18_encode true ring ring_wf (by decide) (by decide) (by decide) (by decide)))
  (ob := false) (checkable_of ring_wf rfl (by decide) ring_small (by decide)) _ (MiniSat.implOK true Brute.ms_ok) backwards backwards_ok

example := C47_contract (brute_cadical true)
example := C47_file_to_verdict true (brute_cadical true) Brute.varisat Brute.varisat_ok id List.reverse (fun l => .refl l)
  List.reverse_perm backwards backwards_ok counterBytes true _ counter_read
example := C47_bmc_sound true (brute_splr true) patient shifter_built 4 (by decide) (.inl ⟨rfl, rfl⟩) 0
example := C47_bmc_exact false (brute_varisat false) patient shifter_built 4 (by decide) (by decide) 0
example := C47_ic3 true (brute_cadical true) plain plain_ok shifter_built shifter_small (not_remote shifter_built.1 (by decide)) 200 (by decide)
example : timedSatCall ⟨fun _ _ => .error (.panic "crash"), fun _ l => l, fun _ l => l⟩ patient 0 CNF.new 0 = .error (.panic "bmc.rs:74 unwrap") :=
  C47_panic_propagates _ patient 0 0 CNF.new "crash" rfl rfl

example := C48_ic3 true Brute.cd_ok Brute.cd_total plain plain_ok shifter_built shifter_small 200
example := C48_pdr true Brute.cd_ok Brute.cd_total plain plain_ok ring_built ring_small ring_gate 20000

example : Aig.fromBytes false counterBytes = .ok (finish counter [] none) := C49_read _ _ counter_read
example : ∃ f, fromAig true bruteBuild (finish toggle [] none) false = .ok f ∧ fromAig false bruteBuild (finish toggle [] none) false = .ok f := by
  obtain ⟨f, h⟩ := toggle_accepted
  exact ⟨f, h, C49_build bruteBuild _ false f h⟩
example : ∃ t, (systemOf lazy false).checkInvariant false Brute.env lazyInv 0 = .ok ((), t) := by
  obtain ⟨t, h⟩ := lazy_accepts
  exact ⟨t, C49_check_invariant Brute.env Brute.env ⟨fun _ _ _ h => h, rfl, rfl⟩ _ _ 0 t h⟩
example : search false Brute.env patient (systemOf shifter false) 2 0 = .ok (.noCtx 2, 3) :=
  C49_bmc Brute.env Brute.env ⟨fun _ _ _ h => h, rfl, rfl⟩ patient _ 2 0 3 _ shifter_two
example : proveStateless false Brute.env plain (systemOf shifter false) 10 = .ok (.ctx 1) :=
  C49_ic3 Brute.env Brute.env ⟨fun _ _ _ h => h, rfl, rfl⟩ plain _ 10 _ shifter_ic3
example : PDR.run false (MiniSat.impl false Brute.ms) plain (systemOf shifter false) 30 = .ok (.ctx 2) :=
  C49_pdr_minisat Brute.ms plain _ 30 _ shifter_pdr

/-- Thirty units of fuel suffice, so every larger amount gives the same. -/
example (m : Nat) (hm : 30 ≤ m) : PDR.run true (MiniSat.impl true Brute.ms) plain (systemOf shifter false) m = .ok (.ctx 2) :=
  (C50_pdr true _ plain _ 30 m hm (by rw [shifter_pdr]; nofun)).trans shifter_pdr
example := C50_outcome true Brute.env Brute.env_ok _ (MiniSat.implOK true Brute.ms_ok) backwards backwards_ok shifter_built shifter_small

example : ∃ rs, repeatStateful false (MiniSat.impl false Brute.ms) backwards (systemOf shifter false) [200, 300] = .ok rs ∧ rs.length = 2 := by
  obtain ⟨rs, e⟩ := C51_ic3_stateful_returns _ (MiniSat.implOK false Brute.ms_ok) backwards backwards_ok shifter_built shifter_small (not_remote shifter_built.1 (by decide))
    [200, 300] (by decide)
  exact ⟨rs, e, (C51_ic3_stateful _ (MiniSat.implOK false Brute.ms_ok) backwards backwards_ok shifter_built shifter_small _ _ e).1⟩
example : repeatStateful true (MiniSat.impl true Brute.ms) plain (systemOf ring false) [10, 10] = .error (.panic "ic3_stateful_solver.rs:502") := by
  obtain ⟨inv, e⟩ := proof_of (r := proveStateful true (MiniSat.impl true Brute.ms) plain (systemOf ring false) 10) (by decide +kernel)
  exact C51_ic3_stateful_debug _ (MiniSat.implOK true Brute.ms_ok) plain plain_ok ring_built ring_small (ring_safe 0) (ring_safe 1) 10 _ e 9 []

/-- `toggle` is bad one clock after its input is raised, so every call answers 1. -/
theorem toggle_shortest : toggle.Shortest (badLits toggle false) 1 := by
  have e := ctx_of (r := proveStateless true Brute.env plain (systemOf toggle false) 100) (d := 1) (by decide +kernel)
  obtain ⟨k, hk, h⟩ := C39_ctx true Brute.env Brute.env_ok plain plain_ok toggle_built toggle_small 100 1 e
  obtain ⟨a, d, t', hs⟩ : ∃ a d t', search true Brute.env patient (systemOf toggle false) 1 0 = .ok (.ctx a d, t') := by
    have h : (search true Brute.env patient (systemOf toggle false) 1 0).toOption.map (fun p => match p.1 with | .ctx _ _ => true | .noCtx _ => false) =
        some true := by decide +kernel
    match e : search true Brute.env patient (systemOf toggle false) 1 0 with
    | .ok (.ctx a d, t) => exact ⟨a, d, t, rfl⟩
    | .ok (.noCtx _, t) => rw [e] at h; simp [Except.toOption] at h
    | .error _ => rw [e] at h; simp [Except.toOption] at h
  obtain ⟨w, hw⟩ := C36_completable a
  obtain ⟨hd, _, h3⟩ := C36_ctx true 2147483647 Brute.env (Brute.env_ok_upTo _) patient toggle_built 1 (by decide) ⟨by decide, .inl ⟨rfl, rfl⟩⟩ 0 t' a d hs
  obtain ⟨e', he', hb, _⟩ := h3 w hw
  have hU : toggle.UnsafeAt (badLits toggle false) d := ⟨e', he', hb⟩
  have : k = 1 := by
    rcases h with h | h
    · exact h.2.symm
    · exact absurd hU (hk.2 d (by omega))
  exact this ▸ hk

example : repeatStateful true (MiniSat.impl true Brute.ms) plain (systemOf toggle false) [7, 0, 9] = .ok [.ctx 1, .ctx 1, .ctx 1] :=
  (C51_ic3_early true plain plain_ok toggle_built toggle_small 1 toggle_shortest (by decide) [7, 0, 9]).2 _ (MiniSat.implOK true Brute.ms_ok)

/-- The stimulus read off the counterexample of the shift register makes it bad at clock 3. -/
example : ∃ a t rows, search true Brute.env patient (systemOf shifter false) 4 0 = .ok (.ctx a 3, t) ∧
    (finish shifter [] none).simulate (stimulusOf a shifter (systemOf shifter false).getMaxLiteralNumber 3).1
      (stimulusOf a shifter (systemOf shifter false).getMaxLiteralNumber 3).2 = .ok rows ∧
    Circuit.BadNow (badLits shifter false) (rowVal (rows.getD 3 [])) := by
  have hw : shifter.WF := Circuit.wf_of_wfb (by decide)
  have hA : (finish shifter [] none).Represents shifter := represents_finish ⟨by decide, by decide, by decide, by decide, by decide⟩ _ _
  obtain ⟨a, t, h⟩ := shifter_four
  obtain ⟨hread, rows, hsim⟩ := C52_stimulus a shifter hw _ hA (systemOf shifter false).getMaxLiteralNumber 3
  exact ⟨a, t, rows, h, hsim, (C52_replay true 2147483647 Brute.env (Brute.env_ok_upTo _) patient shifter_built 4 (by decide)
    ⟨by decide, .inl ⟨rfl, rfl⟩⟩ 0 t a 3 h _ hA _ _ rows hread hsim).2.1⟩

/-! ## The steps of the provers: C53, C56, C58, C60, C61, C64 -/

section Ic3Steps
open Verif.Ic3Spec

example : ∃ d, Generalizes ring [8] sparse 1 meet d ∧ d.iter ≠ [] := by
  obtain ⟨d, _, _, _, _, _, h⟩ := C53_subclause ring_built ring_small ring_stateless sparse_ok 1 (by decide) meet meet_state meet_inductive
    ⟨sparse, 0⟩ rfl
  exact ⟨d, h, C53_nonempty (Circuit.exists_init ring) h⟩
example := C56_start (fs := sparse) ring_built ring_small ring_stateful
example := C56_inductive ring_built ring_small ring_stateful sparse_ok 1 (by decide) meet meet_state

end Ic3Steps

section PdrSteps
open Verif.PdrSpec

example := C58_solve_relative ring_built ring_small ring_prover (MiniSat.implOK true Brute.ms_ok) blocked_ok 2 rfl 1 (by decide) meet meet_over .extractModel
example := C60_add_blocked_cube (A := ringPdr) (fr := blocked) ring_built ring_small (MiniSat.implOK true Brute.ms_ok) 2 rfl 2 (by decide) (by decide)
  meet meet_over
example := C60_new_frame (fr := blocked) ring_built ring_small ring_prover (MiniSat.implOK true Brute.ms_ok) (by decide) rfl

/-- Blocking the state in frame 2 removes it from the sets 0 to 2 and changes nothing else. -/
example : ∃ fr', Stored blocked meet 2 fr' ∧ ∀ i v, Member ring fr' i v ↔ Member ring blocked i v ∧ (i ≤ 2 → ¬ meet.holds v) := by
  obtain ⟨s, _, hI⟩ := ring_object
  obtain ⟨_, _, fr', _, _, h⟩ := C60_add_blocked_cube (A := ringPdr) (fr := blocked) ring_built ring_small (MiniSat.implOK true Brute.ms_ok) 2 rfl 2
    (by decide) (by decide) meet meet_over s hI
  exact ⟨fr', h, fun i v => C60_sets h i v⟩

/-- Propagation from the frames at the first call. -/
example (i : Nat) : ∃ fr', ∀ v, Member ring fr' i v → Member ring [[], [], []] i v := by
  obtain ⟨_, s1, _, _, i1, rfl⟩ := C60_new_frame ring_built ring_small ring_prover (MiniSat.implOK true Brute.ms_ok) (by simp) rfl _ ring_start
  obtain ⟨_, s2, _, _, i2, rfl⟩ := C60_new_frame ring_built ring_small ring_prover (MiniSat.implOK true Brute.ms_ok) (by simp) rfl _ i1
  obtain ⟨r, _, fr', _, _, _, h1, h2⟩ := C61_propagate ring_built ring_small ring_prover (MiniSat.implOK true Brute.ms_ok) 1 1 (by decide)
    ring_pdr_invariants s2 i2
  match r, h1, h2 with
  | none, h1, _ => exact ⟨fr', fun v hv => C61_sets (h1 rfl).1 i v hv⟩
  | some k, _, h2 => exact ⟨fr', fun v hv => C61_sets (h2 k rfl).2.2.1 i v hv⟩

example := C32_kept lazy_built ⟨[⟨2⟩, ⟨5⟩]⟩
example : ∃ s, ringPrepare ringStart = .ok ((), s) ∧ ∀ (t r : PDR.TCube) (s' : PDR.St (MiniSat.impl true Brute.ms)),
    ringPdr.solveRelative t .extractModel s = .ok (r, s') → r.frame = .null → Fixes ring (ReadByNext ring) r.cube := by
  obtain ⟨s, e, hf⟩ := ring_flags
  exact ⟨s, e, fun t r s' h hr => ((C64_solve_relative ring_built ring_small ring_prover hf h).2.2 hr).1⟩
example (s s' : PDR.St (MiniSat.impl true Brute.ms)) (t r : PDR.TCube) (e : ringPdr.solveRelative t .noInd s = .ok (r, s')) :
    s'.conePred = s.conePred ∧ s'.coneBad = s.coneBad := C64_no_model (by decide) e

end PdrSteps

/-! ## Failing and silent runs, solvers: C66, C68, C69, C12, C13 -/

example := C66_sound (from_ 5) "crash" true _ (MiniSat.implOK true Brute.ms_ok) plain plain_ok shifter_built shifter_small 30

example (x : List Report × ProofResult) (h : PDR.runV false true (MiniSat.impl true Brute.ms) plain (systemOf shifter false) 30 = .ok x) : x.1 = [] :=
  C68_silent true Brute.env _ plain _ 30 x (.inr (.inr h))
example (ps : List Report) (h : proveStatelessV true true Brute.env plain (systemOf shifter false) 10 = .ok (ps, .ctx 1)) :
    ps.map Report.level = List.range' 1 1 ∨ ps = [] :=
  ((C68_ic3 true Brute.env (MiniSat.impl true Brute.ms) plain _ 10 ps _ (.inl h)).2.1 1 rfl).elim (fun h => .inr h.1) (fun h => .inl h.2.1)

example := C69_cadical true (be := Brute.cadical) (be' := fun cls => if 3 < cls.length then ⟨none, 0, fun _ => none⟩ else Brute.cadical cls)
  (fun cls => by dsimp only; split <;> simp) CNF.new
example := C69_splr true (be := Brute.splr) (be' := fun cls => if 3 < cls.length then .errOther else Brute.splr cls)
  (fun cls => by dsimp only; split <;> simp) CNF.new
example := C69_varisat true (upToV_may 3) CNF.new
example := C69_cadical_solve true (upToC_may 3) 0 (some (Cube.new [⟨2⟩])) none CaDiCal.new
example := C69_cadical_history true (upToC_may 3) sampleOps 0 CaDiCal.new
example := C69_stateful true (upToC_may 3) plain (systemOf shifter false) 10

/-- x1 ∨ ¬x2. -/
def oneClause : CNF := CNF.new.addClause (Clause.new [⟨2⟩, ⟨5⟩])
theorem oneClause_wf : oneClause.WF := CNF.WF.new.addClause (Clause.sorted_new _)
theorem oneClause_good : oneClause.Good := by
  intro c hc l hl
  have : ∀ c ∈ oneClause.clauses, ∀ l ∈ c.lits, 1 ≤ l.number ∧ l.number ≤ 2147483647 := by decide
  exact this c hc l hl

example := C09_does_a_imply_b 2147483647 Brute.env (Brute.env_ok_upTo _).correct oneClause oneClause oneClause_wf oneClause_good oneClause_good 0
example := C12_cadical false Brute.cadical Brute.cadical_ok oneClause oneClause_good oneClause_wf (by decide)
example := C12_cadical_overflow Brute.cadical Brute.cadical_ok
example := C12_splr true Brute.splr Brute.splr_ok oneClause oneClause_good oneClause_wf
theorem sampleOps_any : ∀ op ∈ sampleOps, op.Valid 2147483647 := by
  intro op h
  have := sampleOps_valid op h
  simp only [sampleOps, List.mem_cons, List.not_mem_nil, or_false] at h
  rcases h with rfl | rfl | rfl | rfl <;> simp_all [Op.Valid, optHolds] <;> decide

example := C13_contract_history (MiniSat.implOK true Brute.ms_ok) sampleOps sampleOps_any [] 0
example := C13_minisat_total true Brute.ms_ok sampleOps sampleOps_any 0 none none ⟨trivial, trivial⟩

/-! ## C28: a circuit with 2³¹ variables -/

example (dbg ob : Bool) (be : BuildEnv) : ∃ site, fromAig dbg be (finish (pipeline 2147483647 2) [] none) ob = .error (.panic site) :=
  C28_variables dbg be _ (represents_finish (fits_small _ (by rw [pipeline_maxVar]; decide) (by decide) (by decide) (by decide)) _ _)
    (by rw [pipeline_maxVar]; decide)

end Verif.Props
