import Verif.Proofs.Ic3Verdict
import Verif.Proofs.Rounds
import Verif.Proofs.BruteStateful
import Verif.Proofs.Stateful
import Verif.Props.Bmc

/-!
# Properties C38–C41: the IC3 provers

`Built f c ob` (Spec/Build): `f` is what `from_aig` returned for a graph storing the circuit `c`.  `c.Small`: the variables of two
frames fit a literal; without it the constructors panic (debug builds) or wrap variable numbers (release builds).  `fuel` bounds the
number of iterations of each loop of the model; the Rust loops have no such bound, and C40 and C41 give the number above which it is
irrelevant.
-/

namespace Verif.Props

open Verif.Fsts Verif.IC3

variable {f : Fsts} {c : Circuit} {ob : Bool}

theorem smallSys_of (h : Built f c ob) (hs : c.Small) : SmallSys f c (badLits c ob) := ⟨h.laws, h.1.wf, badsOK_of h.1, hs⟩

/-- With at most 32 latches every reachable bad state is reachable in fewer than 2^32 steps. -/
theorem not_remote (h : Supported c ob) (hl : c.latches.length ≤ 32) : ¬ c.Remote (badLits c ob) := fun hr =>
  absurd (hr.latches h.wf (badsOK_of h).lit) (Nat.not_lt.2 hl)

/-! ## IC3Stateless -/

/-- C38: a `Proof` verdict means that no bad state is reachable at any depth, and `check_invariant` accepts the invariant it carries,
with any correct solver and in both build profiles. -/
theorem C38_proof (dbg : Bool) (env : Env) (he : env.OK) (sched : Sched) (hsched : sched.OK) (h : Built f c ob) (hs : c.Small)
    (fuel : Nat) (inv : CNF) (hp : proveStateless dbg env sched f fuel = .ok (.proof inv)) :
    c.Safe (badLits c ob) ∧
    ∀ (dbg' : Bool) (env' : Env), env'.Correct → ∀ t, ∃ t', f.checkInvariant dbg' env' inv t = .ok ((), t') := by
  rcases proveStateless_spec dbg he hsched (smallSys_of h hs) fuel with ⟨r, e, hv⟩ | ⟨e, h1, _⟩
  · rw [hp] at e; cases e; exact ⟨hv.1, hv.2.2⟩
  · rw [hp] at h1; cases h1

/-- C39: a `CTX { depth }` verdict means that a bad state is reachable.  If the shortest counterexample has at most one step, `depth` is its
length; otherwise `depth` is at least 1 and strictly below its length. -/
theorem C39_ctx (dbg : Bool) (env : Env) (he : env.OK) (sched : Sched) (hsched : sched.OK) (h : Built f c ob) (hs : c.Small)
    (fuel d : Nat) (hp : proveStateless dbg env sched f fuel = .ok (.ctx d)) :
    ∃ e, c.Shortest (badLits c ob) e ∧ (e ≤ 1 ∧ d = e ∨ 1 ≤ d ∧ d < e) := by
  rcases proveStateless_spec dbg he hsched (smallSys_of h hs) fuel with ⟨r, e, hv⟩ | ⟨e, h1, _⟩
  · rw [hp] at e; cases e; exact hv
  · rw [hp] at h1; cases h1

/-- C40: no index, `unwrap`, `unreachable!`, arithmetic check or debug assertion fails, whatever the fuel; the one exception is the
conversion of a frame number above 2^32 to a `u32`, which needs a bad state
that is reachable, but not in fewer than 2^32 steps. -/
theorem C40_no_panic (dbg : Bool) (env : Env) (he : env.OK) (sched : Sched) (hsched : sched.OK) (h : Built f c ob) (hs : c.Small)
    (fuel : Nat) (site : String) (hp : proveStateless dbg env sched f fuel = .error (.panic site)) :
    site = "ic3 depth try_into" ∧ c.Remote (badLits c ob) := by
  rcases proveStateless_spec dbg he hsched (smallSys_of h hs) fuel with ⟨r, e, _⟩ | ⟨e, h1, hF⟩
  · rw [hp] at e; cases e
  · rw [hp] at h1; cases h1
    rcases hF with ⟨h, _⟩ | ⟨h, h2⟩
    · cases h
    · cases h; exact ⟨rfl, h2⟩

/-- C40: the prover terminates. -/
theorem C40_terminates (dbg : Bool) (env : Env) (he : env.OK) (sched : Sched) (hsched : sched.OK) (h : Built f c ob) (hs : c.Small) :
    ∀ fuel, (2 ^ c.latches.length + 1) * (2 ^ c.latches.length + 2) < fuel → (∃ r, proveStateless dbg env sched f fuel = .ok r) ∨
      (c.Remote (badLits c ob) ∧ proveStateless dbg env sched f fuel = .error (.panic "ic3 depth try_into")) := by
  intro fuel hfuel
  have hfuel : enough c < fuel := by
    unfold enough
    rw [Nat.add_mul, Nat.one_mul] at hfuel
    exact hfuel
  rcases proveStateless_spec dbg he hsched (smallSys_of h hs) fuel with ⟨r, e, _⟩ | ⟨e, h1, hF⟩
  · exact .inl ⟨r, e⟩
  · rcases hF with ⟨_, h2⟩ | ⟨rfl, h2⟩
    · omega
    · exact .inr ⟨h2, h1⟩

/-- C40: and returns, if the circuit is safe or its shortest counterexample has fewer than 2^32 steps (with at most 32 latches one of
the two is the case, `not_remote`). -/
theorem C40_returns (dbg : Bool) (env : Env) (he : env.OK) (sched : Sched) (hsched : sched.OK) (h : Built f c ob) (hs : c.Small)
    (hl : ¬ c.Remote (badLits c ob)) (fuel : Nat) (hfuel : (2 ^ c.latches.length + 1) * (2 ^ c.latches.length + 2) < fuel) :
    ∃ r, proveStateless dbg env sched f fuel = .ok r := by
  rcases proveStateless_spec dbg he hsched (smallSys_of h hs) fuel with ⟨r, e, _⟩ | ⟨e, _, hF⟩
  · exact ⟨r, e⟩
  · rcases hF with ⟨_, h2⟩ | ⟨_, h2⟩
    · unfold enough at h2
      rw [Nat.add_mul] at hfuel
      omega
    · exact absurd h2 hl

/-- C38–C40 together: the verdict decides safety, unless the shortest counterexample has 2^32 steps or more. -/
theorem C40_decides (dbg : Bool) (env : Env) (he : env.OK) (sched : Sched) (hsched : sched.OK) (h : Built f c ob) (hs : c.Small)
    (hl : ¬ c.Remote (badLits c ob)) (fuel : Nat) (hfuel : (2 ^ c.latches.length + 1) * (2 ^ c.latches.length + 2) < fuel) :
    (c.Safe (badLits c ob) ↔ ∃ inv, proveStateless dbg env sched f fuel = .ok (.proof inv)) ∧
    ((∃ d, c.UnsafeAt (badLits c ob) d) ↔ ∃ d, proveStateless dbg env sched f fuel = .ok (.ctx d)) := by
  obtain ⟨r, e⟩ := C40_returns dbg env he sched hsched h hs hl fuel hfuel
  cases r with
  | ctx d =>
    obtain ⟨k, ⟨hk, _⟩, _⟩ := C39_ctx dbg env he sched hsched h hs fuel d e
    exact ⟨⟨fun hsafe => absurd hk (hsafe k), fun ⟨inv, e'⟩ => by rw [e] at e'; cases e'⟩, fun _ => ⟨d, e⟩, fun _ => ⟨k, hk⟩⟩
  | proof inv =>
    have hsafe := (C38_proof dbg env he sched hsched h hs fuel inv e).1
    exact ⟨⟨fun _ => ⟨inv, e⟩, fun _ => hsafe⟩, fun ⟨d, hd⟩ => absurd hd (hsafe d), fun ⟨d, e'⟩ => by rw [e] at e'; cases e'⟩

/-! ## IC3Stateful -/

/-- C41: verdicts of `IC3Stateful` mean the same. -/
theorem C41_sound (dbg : Bool) (I : StatefulImpl) (O : I.OK) (sched : Sched) (hsched : sched.OK) (h : Built f c ob) (hs : c.Small)
    (fuel : Nat) :
    (∀ inv, proveStateful dbg I sched f fuel = .ok (.proof inv) → c.Safe (badLits c ob) ∧
      ∀ (dbg' : Bool) (env' : Env), env'.Correct → ∀ t, ∃ t', f.checkInvariant dbg' env' inv t = .ok ((), t')) ∧
    (∀ d, proveStateful dbg I sched f fuel = .ok (.ctx d) →
      ∃ e, c.Shortest (badLits c ob) e ∧ (e ≤ 1 ∧ d = e ∨ 1 ≤ d ∧ d < e)) ∧
    (∀ site, proveStateful dbg I sched f fuel = .error (.panic site) → site = "ic3 depth try_into" ∧ c.Remote (badLits c ob)) := by
  rcases proveStateful_spec dbg O hsched (smallSys_of h hs) fuel with ⟨r, e, hv⟩ | ⟨e, h1, hF⟩
  · refine ⟨?_, ?_, ?_⟩
    · intro inv hp; rw [hp] at e; cases e; exact ⟨hv.1, hv.2.2⟩
    · intro d hp; rw [hp] at e; cases e; exact hv
    · intro site hp; rw [hp] at e; cases e
  · refine ⟨?_, ?_, ?_⟩
    · intro inv hp; rw [hp] at h1; cases h1
    · intro d hp; rw [hp] at h1; cases h1
    · intro site hp; rw [hp] at h1; cases h1
      rcases hF with ⟨h, _⟩ | ⟨h, h2⟩
      · cases h
      · cases h; exact ⟨rfl, h2⟩

/-- C41: it terminates within the same bound. -/
theorem C41_terminates (dbg : Bool) (I : StatefulImpl) (O : I.OK) (sched : Sched) (hsched : sched.OK) (h : Built f c ob) (hs : c.Small)
    (fuel : Nat) (hfuel : (2 ^ c.latches.length + 1) * (2 ^ c.latches.length + 2) < fuel) :
    (∃ r, proveStateful dbg I sched f fuel = .ok r) ∨
      (c.Remote (badLits c ob) ∧ proveStateful dbg I sched f fuel = .error (.panic "ic3 depth try_into")) := by
  rcases proveStateful_spec dbg O hsched (smallSys_of h hs) fuel with ⟨r, e, _⟩ | ⟨e, h1, hF⟩
  · exact .inl ⟨r, e⟩
  · rcases hF with ⟨_, h2⟩ | ⟨rfl, h2⟩
    · unfold enough at h2
      rw [Nat.add_mul] at hfuel
      omega
    · exact .inr ⟨h2, h1⟩

/-- C41: unless the shortest counterexample has 2^32 steps or more, `Proof` is returned iff no bad state is reachable, `CTX` iff one is. -/
theorem C41_decides (dbg : Bool) (I : StatefulImpl) (O : I.OK) (sched : Sched) (hsched : sched.OK) (h : Built f c ob) (hs : c.Small)
    (hl : ¬ c.Remote (badLits c ob)) (fuel : Nat) (hfuel : (2 ^ c.latches.length + 1) * (2 ^ c.latches.length + 2) < fuel) :
    (c.Safe (badLits c ob) ↔ ∃ inv, proveStateful dbg I sched f fuel = .ok (.proof inv)) ∧
    ((∃ d, c.UnsafeAt (badLits c ob) d) ↔ ∃ d, proveStateful dbg I sched f fuel = .ok (.ctx d)) := by
  obtain ⟨h1, h2, _⟩ := C41_sound dbg I O sched hsched h hs fuel
  rcases C41_terminates dbg I O sched hsched h hs fuel hfuel with ⟨r, e⟩ | ⟨h3, _⟩
  · cases r with
    | ctx d =>
      obtain ⟨k, ⟨hk, _⟩, _⟩ := h2 d e
      exact ⟨⟨fun hsafe => absurd hk (hsafe k), fun ⟨inv, e'⟩ => by rw [e] at e'; cases e'⟩, fun _ => ⟨d, e⟩, fun _ => ⟨k, hk⟩⟩
    | proof inv =>
      have hsafe := (h1 inv e).1
      exact ⟨⟨fun _ => ⟨inv, e⟩, fun _ => hsafe⟩, fun ⟨d, hd⟩ => absurd hd (hsafe d), fun ⟨d, e'⟩ => by rw [e] at e'; cases e'⟩
  · exact absurd h3 hl

/-- C41 for the MiniSat front-end, given a back-end that decides its clause database under assumptions. -/
theorem C41_minisat (dbg : Bool) (be : MsBackend) (hb : MsOK be) (sched : Sched) (hsched : sched.OK) (h : Built f c ob) (hs : c.Small)
    (hl : ¬ c.Remote (badLits c ob)) (fuel : Nat) (hfuel : (2 ^ c.latches.length + 1) * (2 ^ c.latches.length + 2) < fuel) :
    (c.Safe (badLits c ob) ↔ ∃ inv, proveStateful dbg (MiniSat.impl dbg be) sched f fuel = .ok (.proof inv)) ∧
    ((∃ d, c.UnsafeAt (badLits c ob) d) ↔ ∃ d, proveStateful dbg (MiniSat.impl dbg be) sched f fuel = .ok (.ctx d)) :=
  C41_decides dbg _ (MiniSat.implOK dbg hb) sched hsched h hs hl fuel hfuel

/-! ## Concrete runs -/

def plain : Sched := ⟨fun _ l => l, fun _ l => l, fun _ _ => 0⟩
theorem plain_ok : plain.OK := ⟨fun _ l => List.Perm.refl l, fun _ l => List.Perm.refl l⟩
/-- Another schedule, reversing everything. -/
def backwards : Sched := ⟨fun _ l => l.reverse, fun _ l => l.reverse, fun _ n => n - 1⟩
theorem backwards_ok : backwards.OK := ⟨fun _ l => List.reverse_perm l, fun _ l => List.reverse_perm l⟩

def verdict : Res ProofResult → Option (Option Nat)
  | .ok (.ctx d) => some (some d)
  | .ok (.proof _) => some none
  | .error _ => none

/-- A ring counter of three bits whose reset state has no bit set; bad when two bits meet. -/
def ring : Circuit := ⟨0, [(6, 0), (2, 0), (4, 0)], [(6, 4)], [], [8], []⟩
theorem ring_built : Built (systemOf ring false) ring false :=
  systemOf_built ⟨by decide, by decide, by decide, by decide, by decide⟩
    (supported_of (by decide) (by unfold Circuit.Small; decide) rfl (by decide))

/-- Depth is a lower bound only: the shortest counterexample of `shifter` has three steps (`Props/Bmc`), the verdict says 1. -/
example : verdict (proveStateless true Brute.env plain (systemOf shifter false) 10) = some (some 1) := by decide +kernel
example : verdict (proveStateless false Brute.env plain (systemOf ring false) 10) = some none := by decide +kernel
example : verdict (proveStateless true Brute.env backwards (systemOf ring false) 10) = some none := by decide +kernel
example : verdict (proveStateful true (MiniSat.impl true Brute.ms) plain (systemOf shifter false) 10) = some (some 1) := by decide +kernel
example : verdict (proveStateful true (MiniSat.impl true Brute.ms) backwards (systemOf ring false) 10) = some none := by decide +kernel

/-- The hypotheses are met, and the conclusion is informative. -/
example : ring.Safe [8] := by
  have e : ∃ inv, proveStateless true Brute.env plain (systemOf ring false) 10 = .ok (.proof inv) := by
    have hv : verdict (proveStateless true Brute.env plain (systemOf ring false) 10) = some none := by decide +kernel
    generalize proveStateless true Brute.env plain (systemOf ring false) 10 = r at hv
    match r, hv with
    | .ok (.proof inv), _ => exact ⟨inv, rfl⟩
  obtain ⟨inv, e⟩ := e
  exact (C38_proof true Brute.env Brute.env_ok plain plain_ok ring_built (by unfold Circuit.Small; decide) 10 inv e).1
example : ∃ inv, proveStateless true Brute.env plain (systemOf ring false) 100 = .ok (.proof inv) := by
  refine (C40_decides true Brute.env Brute.env_ok plain plain_ok ring_built (by unfold Circuit.Small; decide)
    (not_remote ring_built.1 (by decide)) 100
    (by decide)).1.1 ?_
  have hv : verdict (proveStateless true Brute.env plain (systemOf ring false) 10) = some none := by decide +kernel
  generalize e : proveStateless true Brute.env plain (systemOf ring false) 10 = r at hv
  match r, hv with
  | .ok (.proof inv), _ =>
    exact (C38_proof true Brute.env Brute.env_ok plain plain_ok ring_built (by unfold Circuit.Small; decide) 10 inv e).1
example : ∃ e, shifter.Shortest [8] e ∧ (e ≤ 1 ∧ 1 = e ∨ 1 ≤ 1 ∧ 1 < e) :=
  C39_ctx true Brute.env Brute.env_ok plain plain_ok shifter_built (by unfold Circuit.Small; decide) 10 1 (by decide +kernel)

end Verif.Props
