import Verif.Props.Drivers

/-!
# Runs of the checks of C79
-/

namespace Verif.Props

open Verif.Fsts Verif.BMC Verif.IC3 Verif.Aiger Verif.Drivers

example : ic3Test true Brute.env plain (systemOf shifter false) 100 0 = .ok () :=
  C79_ic3_test true Brute.env Brute.env_ok plain plain_ok shifter_built (by unfold Circuit.Small; decide) (not_remote shifter_built.1 (by decide)) 100
    (by decide) 0
example : ic3Test false Brute.env backwards (systemOf ring false) 100 7 = .ok () :=
  C79_ic3_test false Brute.env Brute.env_ok backwards backwards_ok ring_built (by unfold Circuit.Small; decide) (not_remote ring_built.1 (by decide)) 100
    (by decide) 7
example (check1 check2 : Bool) : compareBoth true false true (MiniSat.impl true Brute.ms) Brute.env plain backwards (systemOf ring false) (plenty 3 + 1)
    check1 check2 0 = .ok () :=
  C79_compare true false true _ (MiniSat.implOK true Brute.ms_ok) Brute.env Brute.env_correct plain backwards plain_ok backwards_ok ring_built
    (by unfold Circuit.Small; decide) ring_gate (not_remote ring_built.1 (by decide)) _ (Nat.lt_succ_self _) check1 check2 0

/-- `C79_replay_exact`: a held run of `toggle` exists, and none of `pulse`. -/
example : ∃ a w, (∀ x, 1 ≤ x → x ≤ 2 → (a.getValue x).isSome) ∧ HeldRun a toggle 1 w := by
  have hv : replayOf toggle 3 = some (1, .ok ()) := by decide +kernel
  unfold replayOf at hv
  generalize search true Brute.env patient (systemOf toggle false) 3 0 = r at hv
  match r, hv with
  | .ok (.ctx a d, t'), hv =>
    injection hv with hv
    injection hv with h1 h2
    subst h1
    obtain ⟨h3, w, h4⟩ := (C79_replay_exact toggle_built (finish toggle [] none) toggle_graph a 1).1 h2
    exact ⟨a, w, h3, h4⟩
example (a : Assignment) (hval : ∀ x, 1 ≤ x → x ≤ 2 → (a.getValue x).isSome) (d : Nat) (w : Nat → Nat → Bool) : ¬ HeldRun a pulse d w := fun hH =>
  C79_replay_never _ pulse_graph _ a d ((C79_replay_exact pulse_built _ pulse_graph a d).2 ⟨hval, w, hH⟩)

/-- `C79_replay_sound` on `toggle`, `C79_checked` and `C79_compare_intended` on `ring`. -/
example (a : Assignment) (d t' : Nat) (_ : search true Brute.env patient (systemOf toggle false) 3 0 = .ok (.ctx a d, t'))
    (hok : replayTest (finish toggle [] none) (systemOf toggle false) a d = .ok ()) : toggle.UnsafeAt [4] d := by
  obtain ⟨⟨w, h1, h2, _⟩, _⟩ := C79_replay_sound toggle_built (finish toggle [] none) toggle_graph a d hok
  exact ⟨w, h1, h2⟩
example : (compareOne true false (MiniSat.impl false Brute.ms) Brute.env plain (systemOf ring false) 30 true 0).toOption.map
    (fun p => verdict (.ok p.1)) = some (some none) := by decide +kernel
example (inv : CNF) (t' : Nat) (hok : compareOne true false (MiniSat.impl false Brute.ms) Brute.env plain (systemOf ring false) 30 true 0 = .ok (.proof inv, t')) :
    ring.Safe (badLits ring false) :=
  C79_checked false _ _ (MiniSat.implOK false Brute.ms_ok) Brute.env Brute.env_correct plain plain_ok ring_built (by unfold Circuit.Small; decide) 30 0 t' inv hok
example : (∀ inv, PDR.run true (MiniSat.impl true Brute.ms) plain (systemOf ring false) (plenty 3 + 1) = .ok (.proof inv) → ring.Safe (badLits ring false)) :=
  (C79_compare_intended true _ (MiniSat.implOK true Brute.ms_ok) Brute.env plain backwards backwards_ok ring_built (by unfold Circuit.Small; decide) _ true true 0
    (C79_compare true false true _ (MiniSat.implOK true Brute.ms_ok) Brute.env Brute.env_correct plain backwards plain_ok backwards_ok ring_built
      (by unfold Circuit.Small; decide) ring_gate (not_remote ring_built.1 (by decide)) _ (Nat.lt_succ_self _) true true 0)).1

/-- C79: without `GateBads` the comparison is worth what it compares.  PDR reports a counterexample of the safe circuit `idle` (C43).  Comparing PDR with
itself, as the code does, accepts that; comparing it with `IC3Stateful` would not, in either build profile. -/
theorem C79_compare_blind (dbg check1 check2 : Bool) : idle.Safe (badLits idle false) ∧
    compareBoth true true dbg (MiniSat.impl dbg Brute.ms) Brute.env plain plain (systemOf idle false) 30 check1 check2 0 = .ok () ∧
    compareBoth true false dbg (MiniSat.impl dbg Brute.ms) Brute.env plain plain (systemOf idle false) 30 check1 check2 0 =
      .error (.panic "tests/compare_provers.rs:92 Provers disagree") := by
  refine ⟨idle_safe, ?_⟩
  cases dbg <;> cases check1 <;> cases check2 <;> decide +kernel

/-- PDR's wrong `Proof` for `latchBad` in release builds (C42) is caught by the check of the invariant. -/
example : compareBoth true true false (MiniSat.impl false Brute.ms) Brute.env plain plain (systemOf latchBad false) 30 true true 0 =
    .error (.panic "features.rs:165 Invariant does not cover all of init.") := by decide +kernel

end Verif.Props
