import Verif.Props.Bmc
import Verif.Props.AigUse

/-!
# Property C52: counterexamples of bounded model checking replay in the simulator

The assignment of `BMCResult::CTX` numbers the variables of frame `s` by adding `s` times the system's largest literal number.  A user
reads a stimulus off it: the inputs of every frame, and the first frame's latches without reset value.  Variables the assignment does not
mention may be chosen freely.
-/

namespace Verif.Props

open Verif.Fsts Verif.BMC Verif.Aiger

variable {f : Fsts} {c : Circuit} {ob : Bool}

/-- A stimulus of `d + 1` clocks that has the assignment's values wherever it gives one; `N` variables per frame. -/
structure ReadsOff (a : Assignment) (c : Circuit) (N d : Nat) (inputs : List BoolMap) (latches : BoolMap) : Prop where
  clocks : inputs.length = d + 1
  inputs : ∀ (s : Nat) (m : BoolMap) (i : Nat) (b : Bool), inputs[s]? = some m → i < c.numInputs →
    a.getValue (1 + i + N * s) = some b → given m (1 + i) = some b
  latches : ∀ (i : Nat) (p : Nat × Nat) (b : Bool), c.latches[i]? = some p → p.2 ≠ 0 → p.2 ≠ 1 →
    a.getValue (c.latchVar i) = some b → given latches (c.latchVar i) = some b

/-- The valuation a simulation gives to the variables of all frames. -/
def ofRows (N : Nat) (rows : List (List Bool)) : Val := fun y => rowVal (rows.getD ((y - 1) / N) []) ((y - 1) % N + 1)

theorem ofRows_at {N : Nat} {rows : List (List Bool)} {x s : Nat} (h1 : 1 ≤ x) (h2 : x ≤ N) :
    ofRows N rows (x + N * s) = rowVal (rows.getD s []) x := by
  have e : x + N * s - 1 = (x - 1) + N * s := by omega
  unfold ofRows
  rw [e, Nat.add_mul_div_left _ _ (by omega), Nat.add_mul_mod_self_left, Nat.div_eq_of_lt (by omega), Nat.mod_eq_of_lt (by omega)]
  simp only [Nat.zero_add]
  rw [show x - 1 + 1 = x by omega]

/-- C52: simulating a stimulus read off the assignment reaches a bad state at the reported depth and not before, and every input and latch
has the assignment's value at every clock. -/
theorem C52_replay (dbg : Bool) (V : Nat) (env : Env) (he : env.OK V) (clock : Clock) (h : Built f c ob) (limit : Nat) (hl : limit < 4294967296)
    (hr : Representable V dbg c limit) (t t' : Nat) (a : Assignment) (d : Nat) (hs : search dbg env clock f limit t = .ok (.ctx a d, t'))
    (aig : Aig) (hA : aig.Represents c) (inputs : List BoolMap) (latches : BoolMap) (rows : List (List Bool))
    (hread : ReadsOff a c f.getMaxLiteralNumber d inputs latches) (hsim : aig.simulate inputs latches = .ok rows) :
    rows.length = d + 1 ∧ Circuit.BadNow (badLits c ob) (rowVal (rows.getD d [])) ∧
    (∀ s, s < d → ¬ Circuit.BadNow (badLits c ob) (rowVal (rows.getD s []))) ∧
    ∀ s x b, s ≤ d → 1 ≤ x → x ≤ c.numInputs + c.latches.length →
      a.getValue (x + f.getMaxLiteralNumber * s) = some b → rowVal (rows.getD s []) x = b := by
  have hw := h.1.wf
  have htr := C21_trace aig c hA hw inputs latches rows hsim
  have hlen : rows.length = d + 1 := by rw [htr.length, List.length_map, hread.clocks]
  have hex := fun k hk => C21_exec aig c hA hw inputs latches rows hsim k hk
  obtain ⟨_, hno, hall⟩ := C36_ctx dbg V env he clock h limit hl hr t t' a d hs
  have hN : f.getMaxLiteralNumber = c.maxVar := h.laws.maxLit
  have hmax : c.maxVar = c.numInputs + c.latches.length + c.ands.length := rfl
  obtain ⟨e, hE, hbad, hbase, _⟩ := hall (fun y => (a.getValue y).getD (ofRows f.getMaxLiteralNumber rows y)) (by
    intro y b hy
    show (a.getValue y).getD _ = b
    rw [hy]; rfl)
  have row : ∀ s, s ≤ d → rows[s]? = some (rows.getD s []) := by
    intro s hs
    have := List.getElem?_eq_getElem (l := rows) (i := s) (by omega)
    rw [this, List.getD_eq_getElem?_getD, this]; rfl
  have clk : ∀ s, s ≤ d → ∃ m, inputs[s]? = some m := fun s hs => ⟨_, List.getElem?_eq_getElem (by rw [hread.clocks]; omega)⟩
  -- inputs agree with the stimulus
  have hin : ∀ s i, s ≤ d → i < c.numInputs → e s (1 + i) = rowVal (rows.getD s []) (1 + i) := by
    intro s i hs hi
    rw [hbase s (1 + i) hs (by omega) (by omega)]
    cases hv : a.getValue (1 + i + f.getMaxLiteralNumber * s) with
    | none => exact ofRows_at (by omega) (by omega)
    | some b =>
      obtain ⟨m, hm⟩ := clk s hs
      have h1 := hread.inputs s m i b hm hi hv
      have h2 := (htr.row s (given m) _ (by rw [List.getElem?_map, hm]; rfl) (row s hs)).inputs i hi
      rw [h1] at h2
      exact Option.some.inj h2
  have hlat : ∀ s, s ≤ d → ∀ i, i < c.latches.length → e s (c.latchVar i) = rowVal (rows.getD s []) (c.latchVar i) := by
    intro s
    induction s with
    | zero =>
      intro hs i hi
      have hp := List.getElem?_eq_getElem hi
      have hst := htr.start _ (row 0 hs) i _ hp
      have hini := hE.init i _ hp
      by_cases h0 : (c.latches[i]).2 = 0
      · rw [hini.1 h0, hst.1 h0]
      · by_cases h1 : (c.latches[i]).2 = 1
        · rw [hini.2 h1, hst.2.1 h1]
        · rw [hbase 0 (c.latchVar i) hs (by unfold Circuit.latchVar; omega) (by unfold Circuit.latchVar; omega)]
          cases hv : a.getValue (c.latchVar i + f.getMaxLiteralNumber * 0) with
          | none => exact ofRows_at (by unfold Circuit.latchVar; omega) (by unfold Circuit.latchVar; omega)
          | some b =>
            have h2 := hread.latches i _ b hp h0 h1 (by simpa using hv)
            rw [hst.2.2 h0 h1] at h2
            exact (Option.some.inj h2).symm
    | succ s ih =>
      intro hs i hi
      have hp := List.getElem?_eq_getElem hi
      rw [hE.step s (by omega) i _ hp, htr.step s _ _ (row s (by omega)) (row (s + 1) hs) i _ hp]
      refine litVal_congr (Circuit.frame_unique hw (hE.frame s (by omega)) ((hex d (by omega)).frame s (by omega)) ?_ _ (hw.next_ok i _ hp))
      intro x h1 h2
      by_cases hx : x < 1 + c.numInputs
      · have := hin s (x - 1) (by omega) (by omega)
        rwa [show 1 + (x - 1) = x by omega] at this
      · have := ih (by omega) (x - (1 + c.numInputs)) (by unfold Circuit.andVar at h2; omega)
        rwa [show c.latchVar (x - (1 + c.numInputs)) = x by unfold Circuit.latchVar; omega] at this
  have hsame : ∀ s, s ≤ d → ∀ x, 1 ≤ x → x < c.andVar 0 → e s x = rowVal (rows.getD s []) x := by
    intro s hs x h1 h2
    by_cases hx : x < 1 + c.numInputs
    · have := hin s (x - 1) hs (by omega)
      rwa [show 1 + (x - 1) = x by omega] at this
    · have := hlat s hs (x - (1 + c.numInputs)) (by unfold Circuit.andVar at h2; omega)
      rwa [show c.latchVar (x - (1 + c.numInputs)) = x by unfold Circuit.latchVar; omega] at this
  refine ⟨hlen, ?_, ?_, ?_⟩
  · obtain ⟨b, hb, hv⟩ := hbad
    refine ⟨b, hb, ?_⟩
    rw [← hv]
    exact (litVal_congr (Circuit.frame_unique hw (hE.frame d (Nat.le_refl _)) ((hex d (by omega)).frame d (Nat.le_refl _))
      (hsame d (Nat.le_refl _)) _ ((badsOK_of h.1).lit b hb))).symm
  · intro s hs hb
    exact hno s hs ⟨_, hex s (by omega), hb⟩
  · intro s x b hs h1 h2 hv
    rw [← hsame s hs x h1 (by unfold Circuit.andVar; omega), hbase s x hs h1 h2, hv]
    rfl

/-- The stimulus with `false` wherever the assignment gives no value; all latches get a start value. -/
def stimulusOf (a : Assignment) (c : Circuit) (N d : Nat) : List BoolMap × BoolMap :=
  ((List.range (d + 1)).map fun s => (List.range c.numInputs).map fun i => (1 + i, (a.getValue (1 + i + N * s)).getD false),
   (List.range c.latches.length).map fun i => (c.latchVar i, (a.getValue (c.latchVar i)).getD false))

theorem get_map_range (k n : Nat) (g : Nat → Bool) (i : Nat) (hi : i < n) :
    given ((List.range n).map fun i => (k + i, g i)) (k + i) = some (g i) := by
  rw [← BoolMap.get?_given]
  unfold BoolMap.get?
  have : ((List.range n).map fun i => (k + i, g i)).find? (fun p => p.1 == k + i) = some (k + i, g i) := by
    rw [List.find?_map]
    have : (List.range n).find? ((fun p : Nat × Bool => p.1 == k + i) ∘ fun i => (k + i, g i)) = some i := by
      rw [List.find?_range_eq_some]
      refine ⟨by simp, List.mem_range.2 hi, ?_⟩
      intro j hj
      simp; omega
    rw [this]; rfl
  rw [this]; rfl

/-- C52: such a stimulus exists and the simulator accepts it: the one that fills in `false`. -/
theorem C52_stimulus (a : Assignment) (c : Circuit) (hw : c.WF) (aig : Aig) (hA : aig.Represents c) (N d : Nat) :
    ReadsOff a c N d (stimulusOf a c N d).1 (stimulusOf a c N d).2 ∧
    ∃ rows, aig.simulate (stimulusOf a c N d).1 (stimulusOf a c N d).2 = .ok rows := by
  have hlat : ∀ i, i < c.latches.length → given (stimulusOf a c N d).2 (c.latchVar i) = some ((a.getValue (c.latchVar i)).getD false) :=
    fun i hi => get_map_range (1 + c.numInputs) c.latches.length (fun i => (a.getValue (c.latchVar i)).getD false) i hi
  refine ⟨⟨by simp [stimulusOf], ?_, ?_⟩, (C22_accepts_iff aig c hA hw _ _).2 ⟨⟨?_, ?_, by simp [stimulusOf], ?_⟩, ?_⟩⟩
  · intro s m i b hm hi hv
    simp only [stimulusOf, List.getElem?_map, Option.map_eq_some_iff] at hm
    obtain ⟨s', hs', rfl⟩ := hm
    have : s' = s := by
      rw [List.getElem?_eq_some_iff] at hs'
      obtain ⟨_, hs'⟩ := hs'
      simpa using hs'.symm
    subst this
    rw [get_map_range 1 c.numInputs (fun i => (a.getValue (1 + i + N * s')).getD false) i hi, hv]
    rfl
  · intro i p b hp _ _ hv
    rw [hlat i (getElem?_lt hp), hv]; rfl
  · simp [stimulusOf]
  · intro clk hclk
    simp only [stimulusOf, List.mem_map] at hclk
    obtain ⟨s, _, rfl⟩ := hclk
    refine ⟨by simp, fun i hi => ?_⟩
    rw [get_map_range 1 c.numInputs (fun i => (a.getValue (1 + i + N * s)).getD false) i hi]; rfl
  · intro i p hp _ _
    rw [hlat i (getElem?_lt hp)]; rfl
  · rintro hI ⟨p, hp, _⟩
    have := hlat 0 (getElem?_lt hp)
    rw [show c.latchVar 0 = 1 by unfold Circuit.latchVar; omega] at this
    rw [this]; rfl

/-- Depth, stimulus and simulation of the counterexample found for `toggle`. -/
def toggleReplay : Option (Nat × List (List (Nat × Bool)) × List (Nat × Bool) × Option (List (List Bool))) :=
  match search true Brute.env patient (systemOf toggle false) 3 0 with
  | .ok (.ctx a d, _) =>
    let st := stimulusOf a toggle 5 d
    some (d, st.1, st.2, ((finish toggle [] none).simulate st.1 st.2).toOption)
  | _ => none

set_option synthInstance.maxSize 1000 in
set_option synthInstance.maxHeartbeats 200000 in
/-- `toggle` becomes bad one clock after its input is raised. -/
example : toggleReplay = some (1, [[(1, true)], [(1, true)]], [(2, false)],
    some [[false, true, false, false, true, false], [false, true, true, false, false, true]]) := by decide +kernel

end Verif.Props
