import Verif.Props.Agree
import Verif.Props.Replay

/-!
# Property C72: the simulator and the provers see the same circuit

The invariant that comes with a `Proof` holds in every state a simulation passes through, whatever the stimulus, and no prover overlooks a
bad state that some simulation shows.
-/

namespace Verif.Props

open Verif.Fsts Verif.IC3 Verif.Aiger

variable {f f' : Fsts} {c : Circuit} {ob : Bool}

theorem ProverRun.verdict (h : Built f c ob) (hs : c.Small) {inv : CNF} {x : Res ProofResult} (hr : ProverRun f c ob x)
    (e : x = .ok (.proof inv)) : ∃ rest, Verdict f c (badLits c ob) rest (.proof inv) := by
  cases hr with
  | stateless dbg env sched fuel he hsched =>
    rcases proveStateless_spec dbg he hsched (smallSys_of h hs) fuel with ⟨r, e', hv⟩ | ⟨e', h1, _⟩
    · rw [e] at e'; cases e'; exact ⟨_, hv⟩
    · rw [e] at h1; cases h1
  | stateful dbg I F sched fuel O hsched =>
    have := proveStateful_ends dbg O hsched (smallSys_of h hs) fuel
    rw [e] at this
    exact ⟨_, this⟩
  | pdr dbg I F sched fuel O hsched hg =>
    have := PDR.run_ends dbg O hsched (smallSys_of h hs) fuel
    rw [e] at this
    exact ⟨_, this.2 (.inl hg)⟩

/-- C72: the invariant of a `Proof` holds, and no bad literal is 1, at every clock of every simulation. -/
theorem C72_invariant (h : Built f c ob) (hs : c.Small) (inv : CNF) (hr : ProverRun f c ob (.ok (.proof inv))) (aig : Aig)
    (hA : aig.Represents c) (inputs : List BoolMap) (latches : BoolMap) (rows : List (List Bool))
    (hsim : aig.simulate inputs latches = .ok rows) :
    ∀ row ∈ rows, inv.holds (rowVal row) ∧ ¬ Circuit.BadNow (badLits c ob) (rowVal row) := by
  obtain ⟨_, hsafe, hone, hacc⟩ := hr.verdict h hs rfl
  obtain ⟨t', hc⟩ := hacc true Brute.env Brute.env_correct 0
  intro row hrow
  obtain ⟨s, hlt, e⟩ := List.mem_iff_getElem.1 hrow
  have hex := C21_exec aig c hA h.1.wf inputs latches rows hsim s hlt
  have hd : rows.getD s [] = row := by rw [List.getD_eq_getElem?_getD, List.getElem?_eq_getElem hlt, e]; rfl
  have h1 := C34_holds true Brute.env Brute.env_correct h hs inv hone.wf hone.num 0 t' hc _ s hex
  refine ⟨?_, fun hb => hsafe s ⟨_, hex, ?_⟩⟩
  · rw [← hd]; exact h1
  · show Circuit.BadNow _ (rowVal (rows.getD s []))
    rw [hd]; exact hb

/-- C72: if a simulation shows a bad literal at clock `s`, every prover that returns says `CTX` with a depth of at most `s`, and bounded model
checking without timeouts finds a counterexample of at most `s` steps at every limit from `s` on. -/
theorem C72_seen (h : Built f c ob) (hs : c.Small) (aig : Aig) (hA : aig.Represents c) (inputs : List BoolMap) (latches : BoolMap)
    (rows : List (List Bool)) (hsim : aig.simulate inputs latches = .ok rows) (s : Nat) (row : List Bool) (hrow : rows[s]? = some row)
    (hbad : Circuit.BadNow (badLits c ob) (rowVal row)) :
    (∀ r, ProverRun f c ob (.ok r) → ∃ d, r = .ctx d ∧ d ≤ s) ∧
    ∀ (dbg : Bool) (V : Nat) (env : Env) (clock : Clock), V ≤ 2147483647 → env.Correct V →
      (∀ k, clock.expired k = false ∧ clock.finished k = true) →
      ∀ limit, s ≤ limit → limit < 2147483648 → c.maxVar * (limit + 1) ≤ V → ∀ t,
      ∃ a d t', BMC.search dbg env clock f limit t = .ok (.ctx a d, t') ∧ d ≤ s := by
  have hlt : s < rows.length := getElem?_lt hrow
  have hd : rows.getD s [] = row := by rw [List.getD_eq_getElem?_getD, hrow]; rfl
  have hu : c.UnsafeAt (badLits c ob) s :=
    ⟨_, C21_exec aig c hA h.1.wf inputs latches rows hsim s hlt, by show Circuit.BadNow _ (rowVal (rows.getD s [])); rw [hd]; exact hbad⟩
  refine ⟨fun r hr => ?_, fun dbg V env clock hV he hc limit h1 h2 h3 t => ?_⟩
  · cases r with
    | proof inv => exact absurd hu (hr.proof h hs rfl s)
    | ctx d =>
      obtain ⟨k, ⟨_, hmin⟩, hle, _⟩ := hr.ctx h hs rfl
      have : k ≤ s := Nat.le_of_not_lt fun hk => hmin s hk hu
      exact ⟨d, rfl, by omega⟩
  · obtain ⟨a, d, t', e⟩ := (C37_exact dbg V env he clock hc h limit h2 hV h3 t).1 ⟨s, h1, hu⟩
    obtain ⟨_, hfirst⟩ := C36_shortest dbg V env he clock h limit (by omega) ⟨hV, .inr h3⟩ t t' a d e
    exact ⟨a, d, t', e, Nat.le_of_not_lt fun hk => hfirst s hk hu⟩

/-- C72: the invariant found with one system of a circuit passes `check_invariant` of every other system of the same circuit. -/
theorem C72_portable (h : Built f c ob) (h' : Built f' c ob) (hs : c.Small) (inv : CNF) (hr : ProverRun f c ob (.ok (.proof inv)))
    (dbg : Bool) (env : Env) (he : env.Correct) (t : Nat) : ∃ t', f'.checkInvariant dbg env inv t = .ok ((), t') := by
  obtain ⟨_, _, ⟨hone, _⟩, hacc⟩ := hr.verdict h hs rfl
  have hw := h.1.wf
  have hb := badsOK_of h.1
  have h1 := (checkInvariant_iff true Brute.env_correct h.laws hw hb hs hone 0).1 (hacc true Brute.env Brute.env_correct 0)
  refine (checkInvariant_iff dbg he h'.laws hw hb hs hone t).2 ?_
  simp only [safety_holds h.laws, transition_holds h.laws, unsafety_holds h.laws] at h1
  simp only [safety_holds h'.laws, transition_holds h'.laws, unsafety_holds h'.laws]
  exact h1

/-! ## Concrete cases -/

/-- `ring` has no inputs; two clocks of it.  `IC3Stateless` proves it, so its invariant holds in both rows. -/
example : (finish ring [] none).simulate [[], []] [] =
    .ok [[false, false, false, false, false], [false, false, false, false, false]] := by decide +kernel
example : ∃ inv, ProverRun (systemOf ring false) ring false (.ok (.proof inv)) ∧
    inv.holds (rowVal [false, false, false, false, false]) ∧ ¬ Circuit.BadNow (badLits ring false) (rowVal [false, false, false, false, false]) := by
  have hv : verdict (proveStateless true Brute.env plain (systemOf ring false) 10) = some none := by decide +kernel
  generalize e : proveStateless true Brute.env plain (systemOf ring false) 10 = x at hv
  match x, hv with
  | .ok (.proof inv), _ =>
    have hr : ProverRun (systemOf ring false) ring false (.ok (.proof inv)) := by
      rw [← e]; exact .stateless _ _ _ _ Brute.env_ok plain_ok
    exact ⟨inv, hr, C72_invariant ring_built (by unfold Circuit.Small; decide) inv hr (finish ring [] none)
      (represents_finish ⟨by decide, by decide, by decide, by decide, by decide⟩ _ _) [[], []] []
      [[false, false, false, false, false], [false, false, false, false, false]] (by decide +kernel) _ (List.Mem.head _)⟩

/-- Four clocks of `shifter` end in a bad state; `IC3Stateless` says depth 1. -/
def shifterRows : List (List Bool) :=
  [[false, false, false, false, false], [false, true, false, false, false], [false, true, true, false, false], [false, true, true, true, true]]
theorem shifter_simulated : (finish shifter [] none).simulate [[], [], [], []] [] = .ok shifterRows := by decide +kernel
example : ∃ d, ProofResult.ctx 1 = .ctx d ∧ d ≤ 3 := by
  refine (C72_seen shifter_built (by unfold Circuit.Small; decide) (finish shifter [] none)
    (represents_finish ⟨by decide, by decide, by decide, by decide, by decide⟩ _ _) _ _ _ shifter_simulated 3 _ rfl
    ⟨8, by decide, by decide⟩).1 _ ?_
  rw [show (.ok (.ctx 1) : Res ProofResult) = proveStateless true Brute.env plain (systemOf shifter false) 10 from by decide +kernel]
  exact .stateless _ _ _ _ Brute.env_ok plain_ok

end Verif.Props
