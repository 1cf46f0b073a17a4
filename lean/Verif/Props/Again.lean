import Verif.Proofs.Ic3Again
import Verif.Proofs.PdrAgain
import Verif.Props.Agree

/-!
# Property C51: calling `prove` more than once

`prove` takes `&mut self` and none of the three provers resets its frames.  `repeatStateless`, `repeatStateful` and `PDR.runTimes` model
a new object on which `prove` is called once per number of the list (the fuel of that call); what earlier calls left behind is still there.

* `IC3Stateless` and `IC3Stateful` in release builds: every call gives a right verdict.
* The same in debug builds: if the shortest counterexample has at most one step, every call returns it; otherwise the second call panics at
  the assertion on the number of frames.
* PDR: the second call panics, in debug builds at an assertion, in release builds at an index that is out of bounds.
-/

namespace Verif.Props

open Verif.Fsts Verif.IC3

variable {f : Fsts} {c : Circuit} {ob : Bool}

/-! ## One call is the single run of C38–C44 -/

theorem repeatStateless_one (dbg : Bool) (env : Env) (sched : Sched) (n : Nat) :
    repeatStateless dbg env sched f [n] = (proveStateless dbg env sched f n).map fun r => [r] := by
  unfold repeatStateless proveStateless
  cases formulas dbg f with
  | error e => rfl
  | ok fm =>
    show (do let r ← (stateless dbg env sched f fm).proveTimes [n] ⟨[], 0⟩; return r.1) =
      Except.map _ (do let r ← (stateless dbg env sched f fm).prove n ⟨[], 0⟩; return r.1)
    unfold proveTimes
    cases e : (stateless dbg env sched f fm).prove n ⟨[], 0⟩ with
    | error e' => rw [PDR.run_error_bind e]; rfl
    | ok p => rw [run_bind (a := p.1) (s' := p.2) e]; rfl

theorem repeatStateful_one (dbg : Bool) (I : StatefulImpl) (sched : Sched) (n : Nat) :
    repeatStateful dbg I sched f [n] = (proveStateful dbg I sched f n).map fun r => [r] := by
  unfold repeatStateful proveStateful
  cases formulas dbg f with
  | error e => rfl
  | ok fm =>
    show (do
      let x ← I.addCnf f.getInitialRelation.toCnf I.new
      let r ← (stateful dbg I sched f fm).proveTimes [n] ⟨[], [], x, [], 0⟩
      return r.1) = Except.map _ (do
        let x ← I.addCnf f.getInitialRelation.toCnf I.new
        let r ← (stateful dbg I sched f fm).prove n ⟨[], [], x, [], 0⟩
        return r.1)
    cases I.addCnf f.getInitialRelation.toCnf I.new with
    | error e => rfl
    | ok x =>
      show (do let r ← (stateful dbg I sched f fm).proveTimes [n] ⟨[], [], x, [], 0⟩; return r.1) =
        Except.map _ (do let r ← (stateful dbg I sched f fm).prove n ⟨[], [], x, [], 0⟩; return r.1)
      unfold proveTimes
      cases e : (stateful dbg I sched f fm).prove n ⟨[], [], x, [], 0⟩ with
      | error e' => rw [PDR.run_error_bind e]; rfl
      | ok p => rw [run_bind (a := p.1) (s' := p.2) e]; rfl

theorem runTimes_one (dbg : Bool) (I : StatefulImpl) (sched : Sched) (n : Nat) :
    PDR.runTimes dbg I sched f [n] = (PDR.run dbg I sched f n).map fun r => [r] := by
  show (do let r ← PDR.proveTimes (I := I) ⟨dbg, f, sched, PDR.formulas f⟩ [n] ⟨[], [], [], [], true, true, 0⟩; return r.1) =
    Except.map _ (do let r ← PDR.prove (I := I) ⟨dbg, f, sched, PDR.formulas f⟩ n ⟨[], [], [], [], true, true, 0⟩; return r.1)
  unfold PDR.proveTimes
  cases e : PDR.prove (I := I) ⟨dbg, f, sched, PDR.formulas f⟩ n ⟨[], [], [], [], true, true, 0⟩ with
  | error e' => rw [PDR.run_error_bind e]; rfl
  | ok p => rw [run_bind (a := p.1) (s' := p.2) e]; rfl

/-! ## IC3 in release builds -/

/-- C51: release builds of `IC3Stateless`, any number of calls: each verdict means what C38 and C39 say. -/
theorem C51_ic3_stateless (env : Env) (he : env.OK) (sched : Sched) (hsched : sched.OK) (h : Built f c ob) (hs : c.Small)
    (fuels : List Nat) (rs : List ProofResult) (hp : repeatStateless false env sched f fuels = .ok rs) :
    rs.length = fuels.length ∧
    (∀ inv, .proof inv ∈ rs → c.Safe (badLits c ob) ∧
      ∀ (dbg' : Bool) (env' : Env), env'.Correct → ∀ t, ∃ t', f.checkInvariant dbg' env' inv t = .ok ((), t')) ∧
    ∀ d, .ctx d ∈ rs → ∃ e, c.Shortest (badLits c ob) e ∧ (e ≤ 1 ∧ d = e ∨ 1 ≤ d ∧ d < e) := by
  have h1 := repeatStateless_spec he hsched (smallSys_of h hs) fuels
  rw [hp] at h1
  refine ⟨h1.1, fun inv hm => ?_, fun d hm => h1.2 _ hm⟩
  have := h1.2 _ hm
  exact ⟨this.1, this.2.2⟩

/-- C51: and the calls return, within the bound of C40 each. -/
theorem C51_ic3_stateless_returns (env : Env) (he : env.OK) (sched : Sched) (hsched : sched.OK) (h : Built f c ob) (hs : c.Small)
    (hl : ¬ c.Remote (badLits c ob)) (fuels : List Nat)
    (hfuel : ∀ n ∈ fuels, (2 ^ c.latches.length + 1) * (2 ^ c.latches.length + 2) < n) :
    ∃ rs, repeatStateless false env sched f fuels = .ok rs := by
  have h1 := repeatStateless_spec he hsched (smallSys_of h hs) fuels
  cases e : repeatStateless false env sched f fuels with
  | ok rs => exact ⟨rs, rfl⟩
  | error e' =>
    rw [e] at h1
    obtain ⟨n, hn, ⟨_, h2⟩ | ⟨_, h2⟩⟩ := h1
    · have := hfuel n hn
      unfold enough at h2
      rw [Nat.add_mul] at this
      omega
    · exact absurd h2 hl

/-- C51: release builds of `IC3Stateful`. -/
theorem C51_ic3_stateful (I : StatefulImpl) (O : I.OK) (sched : Sched) (hsched : sched.OK) (h : Built f c ob) (hs : c.Small)
    (fuels : List Nat) (rs : List ProofResult) (hp : repeatStateful false I sched f fuels = .ok rs) :
    rs.length = fuels.length ∧
    (∀ inv, .proof inv ∈ rs → c.Safe (badLits c ob) ∧
      ∀ (dbg' : Bool) (env' : Env), env'.Correct → ∀ t, ∃ t', f.checkInvariant dbg' env' inv t = .ok ((), t')) ∧
    ∀ d, .ctx d ∈ rs → ∃ e, c.Shortest (badLits c ob) e ∧ (e ≤ 1 ∧ d = e ∨ 1 ≤ d ∧ d < e) := by
  have h1 := repeatStateful_ends O hsched (smallSys_of h hs) fuels
  rw [hp] at h1
  refine ⟨h1.1, fun inv hm => ?_, fun d hm => h1.2 _ hm⟩
  have := h1.2 _ hm
  exact ⟨this.1, this.2.2⟩

theorem C51_ic3_stateful_returns (I : StatefulImpl) (O : I.OK) (sched : Sched) (hsched : sched.OK) (h : Built f c ob) (hs : c.Small)
    (hl : ¬ c.Remote (badLits c ob)) (fuels : List Nat)
    (hfuel : ∀ n ∈ fuels, (2 ^ c.latches.length + 1) * (2 ^ c.latches.length + 2) < n) :
    ∃ rs, repeatStateful false I sched f fuels = .ok rs := by
  have h1 := repeatStateful_ends O hsched (smallSys_of h hs) fuels
  cases e : repeatStateful false I sched f fuels with
  | ok rs => exact ⟨rs, rfl⟩
  | error e' =>
    rw [e] at h1
    obtain ⟨n, hn, ⟨_, h2⟩ | ⟨_, h2⟩⟩ | h1 := h1
    · have := hfuel n hn
      unfold enough at h2
      rw [Nat.add_mul] at this
      omega
    · exact absurd h2 hl
    · exact h1.elim

/-! ## IC3 in debug builds -/

/-- C51: if the shortest counterexample has at most one step, every call returns exactly it, in both build profiles. -/
theorem C51_ic3_early (dbg : Bool) (sched : Sched) (hsched : sched.OK) (h : Built f c ob) (hs : c.Small) (e : Nat)
    (he : c.Shortest (badLits c ob) e) (h1 : e ≤ 1) (fuels : List Nat) :
    (∀ env : Env, env.OK → repeatStateless dbg env sched f fuels = .ok (List.replicate fuels.length (.ctx e))) ∧
    ∀ (I : StatefulImpl) (_ : I.OK), repeatStateful dbg I sched f fuels = .ok (List.replicate fuels.length (.ctx e)) := by
  refine ⟨fun env henv => ?_, fun I O => ?_⟩
  · rw [repeatStateless_early dbg henv hsched (smallSys_of h hs) he h1 fuels, List.map_const']
  · obtain ⟨rs, e1, rfl⟩ := (repeatStateful_early dbg O hsched (smallSys_of h hs) he h1 fuels).ok
    rw [e1, List.map_const']

/-- C51: otherwise the second call of a debug build panics, whatever the first one returned. -/
theorem C51_ic3_stateless_debug (env : Env) (he : env.OK) (sched : Sched) (hsched : sched.OK) (h : Built f c ob) (hs : c.Small)
    (h0 : ¬ c.UnsafeAt (badLits c ob) 0) (h1 : ¬ c.UnsafeAt (badLits c ob) 1) (n : Nat) (r : ProofResult)
    (hp : proveStateless true env sched f n = .ok r) (m : Nat) (ns : List Nat) :
    repeatStateless true env sched f (n :: (m + 1) :: ns) = .error (.panic "ic3_stateless_solver.rs:420") :=
  repeatStateless_debug he hsched (smallSys_of h hs) h0 h1 m ns hp

theorem C51_ic3_stateful_debug (I : StatefulImpl) (O : I.OK) (sched : Sched) (hsched : sched.OK) (h : Built f c ob) (hs : c.Small)
    (h0 : ¬ c.UnsafeAt (badLits c ob) 0) (h1 : ¬ c.UnsafeAt (badLits c ob) 1) (n : Nat) (r : ProofResult)
    (hp : proveStateful true I sched f n = .ok r) (m : Nat) (ns : List Nat) :
    repeatStateful true I sched f (n :: (m + 1) :: ns) = .error (.panic "ic3_stateful_solver.rs:502") := by
  have h2 := repeatStateful_debug O hsched (smallSys_of h hs) h0 h1 m ns hp
  cases e : repeatStateful true I sched f (n :: (m + 1) :: ns) with
  | ok rs => rw [e] at h2; exact h2.elim
  | error e' =>
    rw [e] at h2
    rcases h2 with rfl | h2
    · rfl
    · exact h2.elim

/-! ## PDR -/

/-- C51: the second call of PDR panics in both build profiles, whatever the circuit and whatever the first call returned. -/
theorem C51_pdr (dbg : Bool) (I : StatefulImpl) (O : I.OK) (sched : Sched) (hsched : sched.OK) (h : Built f c ob) (hs : c.Small)
    (n : Nat) (r : ProofResult) (hp : PDR.run dbg I sched f n = .ok r) (m : Nat) (ns : List Nat) :
    PDR.runTimes dbg I sched f (n :: (m + 1) :: ns) = .error (.panic (if dbg then "pdr.rs:314" else "pdr.rs solver index")) := by
  have h2 := PDR.runTimes_again dbg O hsched (smallSys_of h hs) m ns hp
  cases e : PDR.runTimes dbg I sched f (n :: (m + 1) :: ns) with
  | ok rs => rw [e] at h2; exact h2.elim
  | error e' =>
    rw [e] at h2
    rcases h2 with rfl | h2
    · rfl
    · exact h2.elim

/-! ## Concrete runs -/

def verdicts : Res (List ProofResult) → Option (List (Option Nat))
  | .ok rs => some (rs.map fun r => match r with | .ctx d => some d | .proof _ => none)
  | .error _ => none

def sites : Res (List ProofResult) → Option String
  | .error (.panic s) => some s
  | _ => none

/-- Three calls on one object in a release build. -/
example : verdicts (repeatStateless false Brute.env plain (systemOf ring false) [10, 10, 10]) = some [none, none, none] := by decide +kernel
/-- The depth reported by a later call can be another one, within the bounds of C39: the frames of the first call are still there. -/
example : verdicts (repeatStateless false Brute.env backwards (systemOf shifter false) [10, 10, 10]) = some [some 1, some 2, some 2] := by
  decide +kernel
example : verdicts (repeatStateful false (MiniSat.impl false Brute.ms) plain (systemOf ring false) [10, 10]) = some [none, none] := by
  decide +kernel
/-- Two in a debug build. -/
example : sites (repeatStateless true Brute.env plain (systemOf ring false) [10, 10]) = some "ic3_stateless_solver.rs:420" := by decide +kernel
example : sites (repeatStateful true (MiniSat.impl true Brute.ms) plain (systemOf ring false) [10, 10]) = some "ic3_stateful_solver.rs:502" := by
  decide +kernel
example : sites (PDR.runTimes true (MiniSat.impl true Brute.ms) plain (systemOf ring false) [20, 20]) = some "pdr.rs:314" := by decide +kernel
example : sites (PDR.runTimes false (MiniSat.impl false Brute.ms) plain (systemOf shifter false) [20, 20]) = some "pdr.rs solver index" := by
  decide +kernel

/-- The hypotheses of `C51_ic3_stateless` and `C51_ic3_stateless_returns` are met. -/
example : ∃ rs, repeatStateless false Brute.env plain (systemOf ring false) [100, 100] = .ok rs ∧ rs.length = 2 := by
  obtain ⟨rs, e⟩ := C51_ic3_stateless_returns Brute.env Brute.env_ok plain plain_ok ring_built (by unfold Circuit.Small; decide) (not_remote ring_built.1 (by decide))
    [100, 100] (by decide)
  exact ⟨rs, e, (C51_ic3_stateless Brute.env Brute.env_ok plain plain_ok ring_built (by unfold Circuit.Small; decide) _ _ e).1⟩

/-- A safe circuit panics at the second call of a debug build. -/
example : repeatStateless true Brute.env plain (systemOf ring false) [10, 10] = .error (.panic "ic3_stateless_solver.rs:420") := by
  have hv : verdict (proveStateless true Brute.env plain (systemOf ring false) 10) = some none := by decide +kernel
  generalize e : proveStateless true Brute.env plain (systemOf ring false) 10 = r at hv
  match r, hv with
  | .ok (.proof inv), _ =>
    have hsafe := (C38_proof true Brute.env Brute.env_ok plain plain_ok ring_built (by unfold Circuit.Small; decide) 10 inv e).1
    exact C51_ic3_stateless_debug Brute.env Brute.env_ok plain plain_ok ring_built (by unfold Circuit.Small; decide) (hsafe 0) (hsafe 1) 10 _ e 9 []

end Verif.Props
