import Verif.Props.Builds

/-!
# Property C66: a SAT call that fails ends the run, it never changes a result

The calls fail at an arbitrary set of moments.  This covers a solver that crashes or runs out of memory, and the overflow of the `u32`
counters that the provers increment just before a call (ic3_stateless_solver.rs:90, ic3_stateful_solver.rs:161, pdr.rs:127, 159, 188-206):
the call with number `2 ^ 32` is made at some moment, and in a debug build the run ends there.
-/

namespace Verif.Props

open Verif.Fsts Verif.IC3

/-- `env`, except that the calls at the moments in `T` fail with the given panic. -/
def failingEnv (T : Nat → Bool) (site : String) (env : Env) : Env :=
  ⟨fun t g => if T t then .error (.panic site) else env.solve t g, env.order, env.shuffle⟩

/-- A stateful solver whose calls at the moments in `T` fail with the given panic. -/
def failingImpl (T : Nat → Bool) (site : String) (I : StatefulImpl) : StatefulImpl :=
  ⟨I.S, I.new, I.addCnf, fun t cube clause s => if T t then .error (.panic site) else I.solve t cube clause s⟩

/-- The run with failures ends with that failure or exactly as the run without. -/
def EndsAlike {α : Type} (site : String) (x y : Res α) : Prop := x = .error (.panic site) ∨ x = y

theorem failingEnv_like (T : Nat → Bool) (site : String) (env : Env) : Env.Like (· = .panic site) (failingEnv T site env) env := by
  refine ⟨fun t g => ?_, rfl, rfl⟩
  show Follows _ (if T t = true then Except.error (Err.panic site) else env.solve t g) _
  split
  · exact .inl rfl
  · exact Follows.refl _

theorem failingImpl_like {S : List Nat} (T : Nat → Bool) (site : String) (I : StatefulImpl) :
    StatefulImpl.Like (· = .panic site) S (failingImpl T site I) I (fun (s t : I.S) => s = t) where
  new := rfl
  addCnf := by rintro g s _ rfl; exact Both.of_follows (Follows.refl _)
  solve := by
    rintro n _ rfl cube clause s _ rfl
    show Both _ _ (if T n = true then Except.error (Err.panic site) else I.solve n cube clause s) _
    split
    · exact .inl rfl
    · cases I.solve n cube clause s with
      | ok p => exact ⟨p, rfl, .refl _, rfl⟩
      | error e => exact .inr rfl

theorem EndsAlike.of_follows {α : Type} {site : String} {x y : Res α} (h : Follows (· = .panic site) x y) : EndsAlike site x y := by
  cases x with
  | ok a => exact .inr (Eq.symm h)
  | error e =>
    rcases h with rfl | h
    · exact .inl rfl
    · exact .inr h.symm

theorem EndsAlike.of_rel {α : Type} {site : String} {x y : Res (α × Nat)} (h : Rel (· = .panic site) (fun s t => s = t) x y) : EndsAlike site x y := by
  cases x with
  | ok p =>
    obtain ⟨t, rfl, e⟩ := h
    exact .inr (by rw [← e])
  | error e =>
    rcases h with rfl | h
    · exact .inl rfl
    · exact .inr h.symm

/-- C66: for every system, every solver (right or wrong), every schedule, both builds and every set of failing calls, each prover, bounded
model checking and `check_invariant` end with the failure or with what they return when no call fails. -/
theorem C66_failing_calls (T : Nat → Bool) (site : String) (dbg : Bool) (env : Env) (I : StatefulImpl) (sched : Sched) (f : Fsts) (fuel : Nat) :
    EndsAlike site (proveStateless dbg (failingEnv T site env) sched f fuel) (proveStateless dbg env sched f fuel) ∧
    EndsAlike site (proveStateful dbg (failingImpl T site I) sched f fuel) (proveStateful dbg I sched f fuel) ∧
    EndsAlike site (PDR.run dbg (failingImpl T site I) sched f fuel) (PDR.run dbg I sched f fuel) := by
  refine ⟨.of_follows ?_, .of_follows ?_, .of_follows ?_⟩
  · exact proveStateless_follows (Prof.refl dbg) (failingEnv_like T site env) sched f (FuelLe.refl fuel)
  · exact proveStateful_follows dbg sched f (failingImpl_like T site I) (FuelLe.refl fuel)
  · exact PDR.run_follows (Prof.refl dbg) sched f (failingImpl_like T site I) (FuelLe.refl fuel)

/-- C66: `check_invariant` in the same way; in bounded model checking the solver runs in a thread, whose failure shows up where the thread
is joined. -/
theorem C66_bmc (T : Nat → Bool) (site : String) (dbg : Bool) (env : Env) (clock : Clock) (f : Fsts) (limit t : Nat) (inv : CNF) :
    EndsAlike site (f.checkInvariant dbg (failingEnv T site env) inv t) (f.checkInvariant dbg env inv t) ∧
    EndsAlike "bmc.rs:74 unwrap" (BMC.search dbg (failingEnv T site env) clock f limit t) (BMC.search dbg env clock f limit t) := by
  refine ⟨.of_rel ?_, .of_rel ?_⟩
  · exact Fsts.checkInvariant_sim (S := []) (Prof.refl dbg) (failingEnv_like T site env).near f inv t t rfl
  · refine BMC.search_sim (Prof.refl dbg) (fun n g => ?_) clock f limit t t rfl
    show Follows _ (BMC.join (if T n = true then Except.error (Err.panic site) else env.solve n g)) _
    split
    · exact .inl rfl
    · exact Follows.refl _

theorem EndsAlike.ok {α : Type} {site : String} {x y : Res α} {a : α} (h : EndsAlike site x y) (e : x = .ok a) : y = .ok a := by
  rcases h with h | h
  · rw [e] at h; cases h
  · rw [← h]; exact e

/-- C66: so with a solver that answers correctly when it answers, whatever is returned in spite of failures is right: every proof holds and
every counterexample exists, for `IC3Stateful` on every circuit and for PDR on the circuits of C43. -/
theorem C66_sound {f : Fsts} {c : Circuit} {ob : Bool} (T : Nat → Bool) (site : String) (dbg : Bool) (I : StatefulImpl) (O : I.OK) (sched : Sched)
    (hsched : sched.OK) (h : Built f c ob) (hs : c.Small) (fuel : Nat) :
    (∀ inv, proveStateful dbg (failingImpl T site I) sched f fuel = .ok (.proof inv) → c.Safe (badLits c ob)) ∧
    (∀ d, proveStateful dbg (failingImpl T site I) sched f fuel = .ok (.ctx d) → ∃ e, c.UnsafeAt (badLits c ob) e) ∧
    (c.Covered (badLits c ob) →
      (∀ inv, PDR.run dbg (failingImpl T site I) sched f fuel = .ok (.proof inv) → c.Safe (badLits c ob)) ∧
      (∀ d, PDR.run dbg (failingImpl T site I) sched f fuel = .ok (.ctx d) → ∃ e, c.UnsafeAt (badLits c ob) e)) := by
  have hF := C66_failing_calls T site dbg Brute.env I sched f fuel
  have h3 := C41_sound dbg I O sched hsched h hs fuel
  refine ⟨fun inv e => (h3.1 inv (hF.2.1.ok e)).1, fun d e => ?_, fun hc => ⟨fun inv e => ?_, fun d e => ?_⟩⟩
  · obtain ⟨k, hk, _⟩ := h3.2.1 d (hF.2.1.ok e)
    exact ⟨k, hk.1⟩
  · exact (C42_proof_partial dbg I O sched hsched h hs (.inr hc) fuel inv (hF.2.2.ok e)).1
  · obtain ⟨k, hk, _⟩ := C43_ctx dbg I O sched hsched h hs hc fuel d (hF.2.2.ok e)
    exact ⟨k, hk.1⟩

/-- C66: the same for `IC3Stateless` and for bounded model checking. -/
theorem C66_sound_stateless {f : Fsts} {c : Circuit} {ob : Bool} (T : Nat → Bool) (site : String) (dbg : Bool) (sched : Sched)
    (hsched : sched.OK) (h : Built f c ob) (hs : c.Small) (fuel : Nat) :
    (∀ env : Env, env.OK →
      (∀ inv, proveStateless dbg (failingEnv T site env) sched f fuel = .ok (.proof inv) → c.Safe (badLits c ob)) ∧
      (∀ d, proveStateless dbg (failingEnv T site env) sched f fuel = .ok (.ctx d) → ∃ e, c.UnsafeAt (badLits c ob) e)) ∧
    ∀ (V : Nat) (env : Env), env.Correct V → ∀ (clock : Clock) (limit : Nat), limit < 4294967296 → Representable V dbg c limit → ∀ t t',
      (∀ d, BMC.search dbg (failingEnv T site env) clock f limit t = .ok (.noCtx d, t') →
        ∀ k : Nat, (k : Int) ≤ d → ¬ c.UnsafeAt (badLits c ob) k) ∧
      (∀ a d, BMC.search dbg (failingEnv T site env) clock f limit t = .ok (.ctx a d, t') → c.Shortest (badLits c ob) d) := by
  refine ⟨fun env he => ?_, fun V env he clock limit hl hr t t' => ?_⟩
  · have hF := (C66_failing_calls T site dbg env (MiniSat.impl dbg Brute.ms) sched f fuel).1
    refine ⟨fun inv e => (C38_proof dbg env he sched hsched h hs fuel inv (hF.ok e)).1, fun d e => ?_⟩
    obtain ⟨k, hk, _⟩ := C39_ctx dbg env he sched hsched h hs fuel d (hF.ok e)
    exact ⟨k, hk.1⟩
  · have hF := (C66_bmc T site dbg env clock f limit t CNF.new).2
    refine ⟨fun d e => C35_noCtx dbg V env he clock h limit hl hr t t' d (hF.ok e), fun a d e => C36_shortest dbg V env he clock h limit hl hr t t' a d (hF.ok e)⟩

/-! ## Concrete runs -/

/-- The solver fails from the call `n` on. -/
def from_ (n : Nat) : Nat → Bool := fun t => decide (n ≤ t)

/-- The shifter: with failures from the very first call on nothing is decided, with failures late enough everything is. -/
example : site (proveStateless true (failingEnv (from_ 0) "crash" Brute.env) plain (systemOf shifter false) 10) = some "crash" ∧
    site (proveStateful true (failingImpl (from_ 5) "crash" (MiniSat.impl true Brute.ms)) plain (systemOf shifter false) 10) = some "crash" ∧
    verdict (proveStateful true (failingImpl (from_ 50) "crash" (MiniSat.impl true Brute.ms)) plain (systemOf shifter false) 10) = some (some 1) := by
  refine ⟨?_, ?_, ?_⟩ <;> decide +kernel

example : site (PDR.run true (failingImpl (from_ 5) "crash" (MiniSat.impl true Brute.ms)) plain (systemOf shifter false) 30) = some "crash" ∧
    verdict (PDR.run true (failingImpl (from_ 50) "crash" (MiniSat.impl true Brute.ms)) plain (systemOf shifter false) 30) = some (some 2) := by
  refine ⟨?_, ?_⟩ <;> decide +kernel

end Verif.Props
