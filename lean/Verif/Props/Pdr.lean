import Verif.Proofs.PdrVerdict
import Verif.Props.Ic3

/-!
# Properties C42–C44: the PDR prover

`Built f c ob` and `c.Small` are as for C38–C41.  Two things in the code ask for more:

* `intersect_cube_with_cone_of_safety` forgets a latch that is itself a bad literal unless a gate in the cone reads it too (C33).
  `c.Covered (badLits c ob)` excludes that.  In debug builds the assertion pdr.rs:568 makes up for it as far as `Proof` is concerned.
* `extract_state_from_assignment` unwraps the value of every latch, which a solver reports for all latches only if some clause mentions a
  variable after them.  `SomeGate c ob` ensures that.
-/

namespace Verif.Props

open Verif.Fsts Verif.IC3

variable {f : Fsts} {c : Circuit} {ob : Bool}

/-- If there are bad literals, at least one is an AND gate. -/
def SomeGate (c : Circuit) (ob : Bool) : Prop := badLits c ob = [] ∨ ∃ b ∈ badLits c ob, c.andVar 0 ≤ b / 2

/-- What PDR needs to be correct in both build profiles. -/
def GateBads (c : Circuit) (ob : Bool) : Prop := c.Covered (badLits c ob) ∧ SomeGate c ob

/-- In particular every circuit all of whose bad literals are AND gates. -/
theorem gateBads_of (h : ∀ b ∈ badLits c ob, c.andVar 0 ≤ b / 2) : GateBads c ob := by
  refine ⟨covered_of_noLatch fun b hb i hi => ?_, ?_⟩
  · have := h b hb
    unfold Circuit.andVar at this; unfold Circuit.latchVar; omega
  · cases e : badLits c ob with
    | nil => exact .inl e
    | cons b l => exact .inr ⟨b, by simp [e], h b (by simp [e])⟩

/-- The number of iterations no loop exceeds; `n` is the number of states plus one. -/
def pdrBound (n : Nat) : Nat := 1 + (n + 2) * ((n + 2) * (n * n) + (n + 1)) + (n + 1) * (n + 2) + n

/-- C42, in debug builds for all circuits, in release builds for covered ones: a `Proof` verdict means that no bad state is reachable at
any depth, and `check_invariant` accepts the invariant it carries, with any correct solver and in both build profiles.  Missing: the
other circuits in release builds, for which the claim is false (`C42_refuted`). -/
theorem C42_proof_partial (dbg : Bool) (I : StatefulImpl) (O : I.OK) (sched : Sched) (hsched : sched.OK) (h : Built f c ob)
    (hs : c.Small) (hg : dbg = true ∨ c.Covered (badLits c ob)) (fuel : Nat) (inv : CNF) (hp : PDR.run dbg I sched f fuel = .ok (.proof inv)) :
    c.Safe (badLits c ob) ∧
    ∀ (dbg' : Bool) (env' : Env), env'.Correct → ∀ t, ∃ t', f.checkInvariant dbg' env' inv t = .ok ((), t') := by
  rcases PDR.run_spec dbg O hsched (smallSys_of h hs) fuel with ⟨r, e, hv⟩ | ⟨e, h1, _⟩
  · rw [hp] at e; cases e
    have hv := hv.2 hg.symm
    exact ⟨hv.1, hv.2.2⟩
  · rw [hp] at h1; cases h1

/-- C43: for covered circuits a `CTX { depth }` verdict means that a bad state is reachable, in no fewer than `depth` steps; `depth` is 0
only if an initial state is bad. -/
theorem C43_ctx (dbg : Bool) (I : StatefulImpl) (O : I.OK) (sched : Sched) (hsched : sched.OK) (h : Built f c ob)
    (hs : c.Small) (hg : c.Covered (badLits c ob)) (fuel d : Nat) (hp : PDR.run dbg I sched f fuel = .ok (.ctx d)) :
    ∃ e, c.Shortest (badLits c ob) e ∧ d ≤ e ∧ (d = 0 ↔ e = 0) := by
  rcases PDR.run_spec dbg O hsched (smallSys_of h hs) fuel with ⟨r, e, hv⟩ | ⟨e, h1, _⟩
  · rw [hp] at e; cases e
    exact hv.shortest (.inl hg) hg
  · rw [hp] at h1; cases h1

/-- C43: that no bad state is reachable in fewer than `depth` steps also holds for all other circuits in debug builds. -/
theorem C43_lower_bound (I : StatefulImpl) (O : I.OK) (sched : Sched) (hsched : sched.OK) (h : Built f c ob)
    (hs : c.Small) (fuel d : Nat) (hp : PDR.run true I sched f fuel = .ok (.ctx d)) (j : Nat) (hj : j < d) :
    ¬ c.UnsafeAt (badLits c ob) j := by
  rcases PDR.run_spec true O hsched (smallSys_of h hs) fuel with ⟨r, e, hv⟩ | ⟨e, h1, _⟩
  · rw [hp] at e; cases e
    exact hv.1 (.inr rfl) j hj
  · rw [hp] at h1; cases h1

/-- C43: depth 0 is always right, for all circuits and in both build profiles: it is only reported if an initial state is bad. -/
theorem C43_depth_zero (dbg : Bool) (I : StatefulImpl) (O : I.OK) (sched : Sched) (hsched : sched.OK) (h : Built f c ob)
    (hs : c.Small) (fuel : Nat) (hp : PDR.run dbg I sched f fuel = .ok (.ctx 0)) : c.UnsafeAt (badLits c ob) 0 := by
  rcases PDR.run_spec dbg O hsched (smallSys_of h hs) fuel with ⟨r, e, hv⟩ | ⟨e, h1, _⟩
  · rw [hp] at e; cases e
    exact hv.2.2 rfl
  · rw [hp] at h1; cases h1

/-- C43: conversely, a bad initial state is always found, for all circuits and in both build profiles, unless no bad literal is a gate and the
`unwrap` of a latch's value fails. -/
theorem C43_bad_initially (dbg : Bool) (I : StatefulImpl) (O : I.OK) (sched : Sched) (hsched : sched.OK) (h : Built f c ob)
    (hs : c.Small) (h0 : c.UnsafeAt (badLits c ob) 0) (fuel : Nat) (hfuel : 0 < fuel) :
    PDR.run dbg I sched f fuel = .ok (.ctx 0) ∨
      (¬ SomeGate c ob ∧ PDR.run dbg I sched f fuel = .error (.panic "features.rs:107 unwrap")) := by
  obtain ⟨fuel, rfl⟩ : ∃ n, fuel = n + 1 := ⟨fuel - 1, by omega⟩
  exact PDR.run_zero dbg O hsched (smallSys_of h hs) fuel h0

/-- C44: of all index operations, `unwrap`s, `unreachable!`s, arithmetic checks and debug assertions, only three can fail, whatever the
circuit, the build profile and the fuel: the conversion of a frame number above 2^32 to a `u32`, which needs at least 32 latches and, if the circuit is covered, a
bad state that is reachable but not in fewer than 2^32 steps; the
assertion that the cube to block contains no initial state, in debug builds of circuits that are not covered; and the `unwrap` of a
latch's value, when no bad literal is a gate. -/
theorem C44_panics (dbg : Bool) (I : StatefulImpl) (O : I.OK) (sched : Sched) (hsched : sched.OK) (h : Built f c ob)
    (hs : c.Small) (fuel : Nat) (site : String) (hp : PDR.run dbg I sched f fuel = .error (.panic site)) :
    (site = "pdr depth try_into" ∧ 32 ≤ c.latches.length ∧ (c.Covered (badLits c ob) → c.Remote (badLits c ob))) ∨ (site = "pdr.rs:568" ∧ dbg = true ∧ ¬ c.Covered (badLits c ob)) ∨
      (site = "features.rs:107 unwrap" ∧ ¬ SomeGate c ob) := by
  rcases PDR.run_spec dbg O hsched (smallSys_of h hs) fuel with ⟨r, e, _⟩ | ⟨e, h1, hF⟩
  · rw [hp] at e; cases e
  · rw [hp] at h1; cases h1
    rcases hF with ⟨h, _⟩ | ⟨h, h2⟩ | ⟨h, h2⟩ | ⟨h, h2⟩ <;> cases h
    · exact .inl ⟨rfl, h2⟩
    · exact .inr (.inl ⟨rfl, h2⟩)
    · exact .inr (.inr ⟨rfl, h2⟩)

/-- C44: with bad literals as PDR needs them, only the first of the three is left. -/
theorem C44_no_panic (dbg : Bool) (I : StatefulImpl) (O : I.OK) (sched : Sched) (hsched : sched.OK) (h : Built f c ob)
    (hs : c.Small) (hg : GateBads c ob) (fuel : Nat) (site : String) (hp : PDR.run dbg I sched f fuel = .error (.panic site)) :
    site = "pdr depth try_into" ∧ c.Remote (badLits c ob) := by
  rcases C44_panics dbg I O sched hsched h hs fuel site hp with ⟨h, _, hr⟩ | ⟨_, _, h⟩ | ⟨_, h⟩
  · exact ⟨h, hr hg.1⟩
  · exact absurd hg.1 h
  · exact absurd hg.2 h

/-- C44: on every circuit and in both build profiles the prover terminates, within an explicit number of iterations of each loop: it
returns, or it panics (as characterised by `C44_panics`). -/
theorem C44_terminates (dbg : Bool) (I : StatefulImpl) (O : I.OK) (sched : Sched) (hsched : sched.OK) (h : Built f c ob)
    (hs : c.Small) (fuel : Nat) (hfuel : pdrBound (2 ^ c.latches.length + 1) < fuel) :
    (∃ r, PDR.run dbg I sched f fuel = .ok r) ∨ ∃ site, PDR.run dbg I sched f fuel = .error (.panic site) := by
  rcases PDR.run_spec dbg O hsched (smallSys_of h hs) fuel with ⟨r, e, _⟩ | ⟨e, h1, hF⟩
  · exact .inl ⟨r, e⟩
  · rcases hF with ⟨_, h2⟩ | ⟨rfl, _⟩ | ⟨rfl, _⟩ | ⟨rfl, _⟩
    · exact absurd hfuel (Nat.not_lt.2 h2)
    · exact .inr ⟨_, h1⟩
    · exact .inr ⟨_, h1⟩
    · exact .inr ⟨_, h1⟩

/-- C42–C44 together: with bad literals as PDR needs them the verdict decides safety, unless the shortest counterexample has 2^32 steps
or more. -/
theorem C44_decides (dbg : Bool) (I : StatefulImpl) (O : I.OK) (sched : Sched) (hsched : sched.OK) (h : Built f c ob)
    (hs : c.Small) (hg : GateBads c ob) (hl : ¬ c.Remote (badLits c ob)) (fuel : Nat)
    (hfuel : pdrBound (2 ^ c.latches.length + 1) < fuel) :
    (c.Safe (badLits c ob) ↔ ∃ inv, PDR.run dbg I sched f fuel = .ok (.proof inv)) ∧
    ((∃ d, c.UnsafeAt (badLits c ob) d) ↔ ∃ d, PDR.run dbg I sched f fuel = .ok (.ctx d)) := by
  rcases C44_terminates dbg I O sched hsched h hs fuel hfuel with ⟨r, e⟩ | ⟨site, e⟩
  · cases r with
    | ctx d =>
      obtain ⟨k, ⟨hk, _⟩, _⟩ := C43_ctx dbg I O sched hsched h hs hg.1 fuel d e
      exact ⟨⟨fun hsafe => absurd hk (hsafe k), fun ⟨inv, e'⟩ => by rw [e] at e'; cases e'⟩, fun _ => ⟨d, e⟩, fun _ => ⟨k, hk⟩⟩
    | proof inv =>
      have hsafe := (C42_proof_partial dbg I O sched hsched h hs (.inr hg.1) fuel inv e).1
      exact ⟨⟨fun _ => ⟨inv, e⟩, fun _ => hsafe⟩, fun ⟨d, hd⟩ => absurd hd (hsafe d), fun ⟨d, e'⟩ => by rw [e] at e'; cases e'⟩
  · exact absurd (C44_no_panic dbg I O sched hsched h hs hg fuel site e).2 hl

/-- The same for the MiniSat front-end, given a back-end that decides its clause database under assumptions. -/
theorem C44_minisat (dbg : Bool) (be : MsBackend) (hb : MsOK be) (sched : Sched) (hsched : sched.OK) (h : Built f c ob)
    (hs : c.Small) (hg : GateBads c ob) (hl : ¬ c.Remote (badLits c ob)) (fuel : Nat)
    (hfuel : pdrBound (2 ^ c.latches.length + 1) < fuel) :
    (c.Safe (badLits c ob) ↔ ∃ inv, PDR.run dbg (MiniSat.impl dbg be) sched f fuel = .ok (.proof inv)) ∧
    ((∃ d, c.UnsafeAt (badLits c ob) d) ↔ ∃ d, PDR.run dbg (MiniSat.impl dbg be) sched f fuel = .ok (.ctx d)) :=
  C44_decides dbg _ (MiniSat.implOK dbg hb) sched hsched h hs hg hl fuel hfuel

/-! ## Circuits outside `GateBads` -/

/-- The cause of an error, for comparing runs by evaluation. -/
def site : Res ProofResult → Option String
  | .error (.panic s) => some s
  | _ => none

theorem latchBad_unsafe : latchBad.UnsafeAt [2] 1 := by
  refine ⟨fun t x => decide (x = 1 ∧ t = 1), ⟨?_, ?_, ?_⟩, 2, by decide, by decide⟩
  · intro i p hp
    match i, hp with
    | 0, hp => cases hp; decide
  · exact fun t _ => ⟨by simp, fun i p hp => by simp [latchBad] at hp⟩
  · intro t ht i p hp
    obtain rfl : t = 0 := by omega
    match i, hp with
    | 0, hp => cases hp; decide

/-- C42 fails in general: the latch of `latchBad` rises after one clock and is the bad literal, yet a release build answers `Proof`.  (The
bad state's reduced cube is empty and gets blocked.) -/
theorem C42_refuted : ∃ (f : Fsts) (c : Circuit) (I : StatefulImpl) (inv : CNF), Built f c false ∧ c.Small ∧ Nonempty I.OK ∧
    c.UnsafeAt (badLits c false) 1 ∧ PDR.run false I plain f 30 = .ok (.proof inv) := by
  have hv : verdict (PDR.run false (MiniSat.impl false Brute.ms) plain (systemOf latchBad false) 30) = some none := by decide +kernel
  generalize e : PDR.run false (MiniSat.impl false Brute.ms) plain (systemOf latchBad false) 30 = r at hv
  match r, hv with
  | .ok (.proof inv), _ =>
    exact ⟨_, latchBad, MiniSat.impl false Brute.ms, inv, latchBad_built, by unfold Circuit.Small; decide,
      ⟨MiniSat.implOK false Brute.ms_ok⟩, latchBad_unsafe, e⟩

/-- A debug build stops at the assertion that the cube to block contains no initial state. -/
example : site (PDR.run true (MiniSat.impl true Brute.ms) plain (systemOf latchBad false) 30) = some "pdr.rs:568" := by decide +kernel

/-- Latch 1 keeps its reset value 0, latch 2 toggles, and the gate is `latch 2 ∧ ¬ latch 2`; bad literals: latch 1 and the gate. -/
def idle : Circuit := ⟨0, [(2, 0), (5, 0)], [(5, 4)], [], [2, 6], []⟩
theorem idle_built : Built (systemOf idle false) idle false :=
  systemOf_built ⟨by decide, by decide, by decide, by decide, by decide⟩
    (supported_of (by decide) (by unfold Circuit.Small; decide) rfl (by decide))

theorem idle_safe : idle.Safe [2, 6] := by
  rintro d ⟨w, hw, b, hb, hv⟩
  have h1 : ∀ t, t ≤ d → w t 1 = false := by
    intro t
    induction t with
    | zero => intro _; exact (hw.init 0 (2, 0) rfl).1 rfl
    | succ t ih =>
      intro ht
      have := hw.step t (by omega) 0 (2, 0) rfl
      rw [show idle.latchVar 0 = 1 from rfl] at this
      rw [this]
      simp [litVal, ih (by omega)]
  simp only [List.mem_cons, List.not_mem_nil, or_false] at hb
  rcases hb with rfl | rfl
  · simp [litVal, h1 d (Nat.le_refl d)] at hv
  · have := (hw.frame d (Nat.le_refl d)).2 0 (5, 4) rfl
    rw [show idle.andVar 0 = 3 from rfl] at this
    simp [litVal, this] at hv

/-- C43 fails for circuits that are not covered, in both build profiles: `idle` has no counterexample, and PDR reports one.  (The bad over-approximated
state's cube forgets latch 1 and keeps only latch 2, which is reachable.) -/
theorem C43_needs_covered (dbg : Bool) : ∃ (f : Fsts) (c : Circuit) (I : StatefulImpl), Built f c false ∧ c.Small ∧ Nonempty I.OK ∧
    c.Safe (badLits c false) ∧ PDR.run dbg I plain f 30 = .ok (.ctx 1) := by
  refine ⟨_, idle, MiniSat.impl dbg Brute.ms, idle_built, by unfold Circuit.Small; decide, ⟨MiniSat.implOK dbg Brute.ms_ok⟩, idle_safe, ?_⟩
  cases dbg <;> decide +kernel

/-- The lower bound still holds in debug builds. -/
example : ¬ idle.UnsafeAt [2, 6] 0 :=
  C43_lower_bound _ (MiniSat.implOK true Brute.ms_ok) plain plain_ok idle_built (by unfold Circuit.Small; decide) 30 1 (by decide +kernel) 0
    (by decide)

/-- An input as the only bad literal and a latch without a reset value: no clause mentions the latch, the solver reports no value for it,
and `extract_state_from_assignment` unwraps `None`. -/
def inputBad : Circuit := ⟨1, [(2, 4)], [], [], [2], []⟩
theorem inputBad_built : Built (systemOf inputBad false) inputBad false :=
  systemOf_built ⟨by decide, by decide, by decide, by decide, by decide⟩
    (supported_of (by decide) (by unfold Circuit.Small; decide) rfl (by decide))

/-- Without `SomeGate` PDR can panic even on covered circuits, in both build profiles. -/
theorem C44_needs_some_gate (dbg : Bool) : ∃ (f : Fsts) (c : Circuit) (I : StatefulImpl), Built f c false ∧ c.Small ∧ Nonempty I.OK ∧
    c.Covered (badLits c false) ∧ PDR.run dbg I plain f 30 = .error (.panic "features.rs:107 unwrap") := by
  refine ⟨_, inputBad, MiniSat.impl dbg Brute.ms, inputBad_built, by unfold Circuit.Small; decide, ⟨MiniSat.implOK dbg Brute.ms_ok⟩,
    covered_of_noLatch (by decide), ?_⟩
  cases dbg <;> decide +kernel

/-! ## Concrete runs -/

theorem ring_gate : GateBads ring false := gateBads_of (by decide)
theorem shifter_gate : GateBads shifter false := gateBads_of (by decide)

example : verdict (PDR.run true (MiniSat.impl true Brute.ms) plain (systemOf shifter false) 30) = some (some 2) := by decide +kernel
example : verdict (PDR.run true (MiniSat.impl true Brute.ms) plain (systemOf ring false) 30) = some none := by decide +kernel
example : verdict (PDR.run false (MiniSat.impl false Brute.ms) backwards (systemOf ring false) 30) = some none := by decide +kernel

/-- The hypotheses are met, and the conclusion is informative. -/
example : ring.Safe [8] := by
  have hv : verdict (PDR.run true (MiniSat.impl true Brute.ms) plain (systemOf ring false) 30) = some none := by decide +kernel
  generalize e : PDR.run true (MiniSat.impl true Brute.ms) plain (systemOf ring false) 30 = r at hv
  match r, hv with
  | .ok (.proof inv), _ =>
    exact (C42_proof_partial true _ (MiniSat.implOK true Brute.ms_ok) plain plain_ok ring_built (by unfold Circuit.Small; decide)
      (.inl rfl) 30 inv e).1
example : ∃ e, shifter.Shortest [8] e ∧ 2 ≤ e ∧ (2 = 0 ↔ e = 0) :=
  C43_ctx true _ (MiniSat.implOK true Brute.ms_ok) plain plain_ok shifter_built (by unfold Circuit.Small; decide) shifter_gate.1 30 2
    (by decide +kernel)
/-- Bad in the initial state already: the gate is `input ∧ ¬ latch`. -/
def early : Circuit := ⟨1, [(2, 0)], [(5, 2)], [], [6], []⟩
theorem early_built : Built (systemOf early false) early false :=
  systemOf_built ⟨by decide, by decide, by decide, by decide, by decide⟩
    (supported_of (by decide) (by unfold Circuit.Small; decide) rfl (by decide))
example : early.UnsafeAt [6] 0 :=
  C43_depth_zero true _ (MiniSat.implOK true Brute.ms_ok) plain plain_ok early_built (by unfold Circuit.Small; decide) 30 (by decide +kernel)
example : PDR.run false (MiniSat.impl false Brute.ms) backwards (systemOf early false) 7 = .ok (.ctx 0) := by
  have h0 : early.UnsafeAt [6] 0 :=
    C43_depth_zero true _ (MiniSat.implOK true Brute.ms_ok) plain plain_ok early_built (by unfold Circuit.Small; decide) 30 (by decide +kernel)
  have hg : SomeGate early false := (gateBads_of (by decide)).2
  exact (C43_bad_initially false _ (MiniSat.implOK false Brute.ms_ok) backwards backwards_ok early_built (by unfold Circuit.Small; decide) h0 7
    (by decide)).resolve_right fun h => h.1 hg
/-- A latch among the bad literals: covered, so that a release build's verdict counts too. -/
example : seen.Safe [2, 6] := by
  have hv : verdict (PDR.run false (MiniSat.impl false Brute.ms) plain (systemOf seen false) 30) = some none := by decide +kernel
  generalize e : PDR.run false (MiniSat.impl false Brute.ms) plain (systemOf seen false) 30 = r at hv
  match r, hv with
  | .ok (.proof inv), _ =>
    exact (C42_proof_partial false _ (MiniSat.implOK false Brute.ms_ok) plain plain_ok seen_built (by unfold Circuit.Small; decide)
      (.inr seen_covered) 30 inv e).1
/-- `C44_panics` and `C44_terminates` apply to `latchBad`, whose debug run panics and whose release run returns. -/
example : (∃ r, PDR.run false (MiniSat.impl false Brute.ms) plain (systemOf latchBad false) 20000 = .ok r) ∨
    ∃ site, PDR.run false (MiniSat.impl false Brute.ms) plain (systemOf latchBad false) 20000 = .error (.panic site) :=
  C44_terminates false _ (MiniSat.implOK false Brute.ms_ok) plain plain_ok latchBad_built (by unfold Circuit.Small; decide) 20000 (by decide)
/-- `C44_decides` applies to `ring` (8 states), with fuel above its bound. -/
example : (ring.Safe [8] ↔ ∃ inv, PDR.run true (MiniSat.impl true Brute.ms) backwards (systemOf ring false) 20000 = .ok (.proof inv)) :=
  (C44_minisat true Brute.ms Brute.ms_ok backwards backwards_ok ring_built (by unfold Circuit.Small; decide) ring_gate (not_remote ring_built.1 (by decide)) 20000
    (by decide)).1

end Verif.Props
