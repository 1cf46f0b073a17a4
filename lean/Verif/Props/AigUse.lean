import Verif.Proofs.AigSim
import Verif.Proofs.CircuitEval
import Verif.Props.AigRead

/-!
# Properties C21–C24: simulation, cone of influence, getters

All are stated for any graph that stores a well-formed circuit; by C17 that is every graph read from a file.
-/

namespace Verif.Props

/-! ## C21: simulation -/

/-- C21: when `simulate` returns, its result is the trace of the circuit under the given stimulus. -/
theorem C21_trace (a : Aig) (c : Circuit) (hr : a.Represents c) (hw : c.WF) (inputs : List BoolMap) (latches : BoolMap)
    (rows : List (List Bool)) (h : a.simulate inputs latches = .ok rows) :
    c.Trace (inputs.map given) (given latches) rows := ((simulate_given hr hw _ _ _).1 h).2

theorem row_unique {c : Circuit} (hw : c.WF) {inp : Nat → Option Bool} {r r' : List Bool} (h : c.Row inp r) (h' : c.Row inp r')
    (hl : ∀ i, i < c.latches.length → rowVal r (c.latchVar i) = rowVal r' (c.latchVar i)) : r = r' := by
  apply List.ext_getElem (h.length.trans h'.length.symm)
  intro j h1 h2
  have := Circuit.frame_unique hw h.frame h'.frame (by
    intro x hx1 hx2
    by_cases hi : x < 1 + c.numInputs
    · have e := h.inputs (x - 1) (by omega)
      have e' := h'.inputs (x - 1) (by omega)
      rw [show 1 + (x - 1) = x by omega] at e e'
      exact Option.some.inj (e.symm.trans e')
    · have := hl (x - (1 + c.numInputs)) (by unfold Circuit.andVar at hx2; omega)
      rwa [show c.latchVar (x - (1 + c.numInputs)) = x by unfold Circuit.latchVar; omega] at this) j (by
    rw [h.length] at h1; omega)
  rwa [rowVal_of (List.getElem?_eq_getElem h1), rowVal_of (List.getElem?_eq_getElem h2)] at this

/-- C21 (uniqueness): a stimulus has at most one trace, so the trace property pins down every bit of the result. -/
theorem C21_unique (c : Circuit) (hw : c.WF) (inputs : List (Nat → Option Bool)) (latches : Nat → Option Bool)
    (rows rows' : List (List Bool)) (h : c.Trace inputs latches rows) (h' : c.Trace inputs latches rows') : rows = rows' := by
  have hlen := h.length.trans h'.length.symm
  suffices H : ∀ (t : Nat) r r', rows[t]? = some r → rows'[t]? = some r' → r = r' by
    apply List.ext_getElem hlen
    intro t h1 h2
    exact H t _ _ (List.getElem?_eq_getElem h1) (List.getElem?_eq_getElem h2)
  intro t
  induction t with
  | zero =>
    intro r r' hr hr'
    have hlt := getElem?_lt hr
    rw [h.length] at hlt
    have hi := List.getElem?_eq_getElem hlt
    refine row_unique hw (h.row 0 _ r hi hr) (h'.row 0 _ r' hi hr') ?_
    intro i hi'
    have hp := List.getElem?_eq_getElem hi'
    obtain ⟨a1, a2, a3⟩ := h.start r hr i _ hp
    obtain ⟨b1, b2, b3⟩ := h'.start r' hr' i _ hp
    by_cases h0 : c.latches[i].2 = 0
    · rw [a1 h0, b1 h0]
    · by_cases h1 : c.latches[i].2 = 1
      · rw [a2 h1, b2 h1]
      · exact Option.some.inj ((a3 h0 h1).symm.trans (b3 h0 h1))
  | succ t ih =>
    intro r r' hr hr'
    have hlt := getElem?_lt hr
    rw [h.length] at hlt
    have hi := List.getElem?_eq_getElem hlt
    have hp := List.getElem?_eq_getElem (l := rows) (i := t) (by rw [h.length]; omega)
    have hp' := List.getElem?_eq_getElem (l := rows') (i := t) (by rw [h'.length]; omega)
    refine row_unique hw (h.row _ _ r hi hr) (h'.row _ _ r' hi hr') ?_
    intro i hi'
    have hq := List.getElem?_eq_getElem hi'
    rw [h.step t _ r hp hr i _ hq, h'.step t _ r' hp' hr' i _ hq, ih _ _ hp hp']

/-- C21: the rows are an execution of the circuit in the sense of `Circuit.Exec`. -/
theorem C21_exec (a : Aig) (c : Circuit) (hr : a.Represents c) (hw : c.WF) (inputs : List BoolMap) (latches : BoolMap)
    (rows : List (List Bool)) (h : a.simulate inputs latches = .ok rows) (d : Nat) (hd : d < rows.length) :
    c.Exec (fun t => rowVal (rows.getD t [])) d := by
  have ht := C21_trace a c hr hw inputs latches rows h
  have get : ∀ t, t ≤ d → rows[t]? = some (rows.getD t []) := by
    intro t hle
    have := List.getElem?_eq_getElem (l := rows) (i := t) (by omega)
    rw [this, List.getD_eq_getElem?_getD, this]; rfl
  have inp : ∀ t, t ≤ d → ∃ m, (inputs.map given)[t]? = some m := by
    intro t hle
    exact ⟨_, List.getElem?_eq_getElem (by rw [← ht.length]; omega)⟩
  refine ⟨?_, ?_, ?_⟩
  · intro i p hp
    have := ht.start _ (get 0 (by omega)) i p hp
    exact ⟨this.1, this.2.1⟩
  · intro t hle
    obtain ⟨m, hm⟩ := inp t hle
    exact (ht.row t m _ hm (get t hle)).frame
  · intro t hlt
    exact ht.step t _ _ (get t (by omega)) (get (t + 1) (by omega))

/-- A toggling latch (variable 2) gated by an input (variable 1): next = latch xor input, built from three AND gates. -/
def toggle : Circuit := ⟨1, [(11, 0)], [(4, 3), (5, 2), (9, 7)], [4], [4], []⟩

theorem toggle_wf : toggle.WF := Circuit.wf_of_wfb (by decide)
theorem toggle_fits : toggle.Fits := ⟨by decide, by decide, by decide, by decide, by decide⟩

/-- The graph stores the circuit, and three clocks are simulated. -/
example : (finish toggle [] none).Represents toggle := represents_finish toggle_fits _ _
example : (finish toggle [] none).simulate [[(1, true)], [(1, false)], [(1, true)]] [] =
    .ok [[false, true, false, false, true, false], [false, false, true, true, false, false],
         [false, true, true, false, false, true]] := by decide +kernel

/-! ## C22: which stimuli are accepted -/

/-- A complete stimulus: at least one clock, each clock gives exactly the inputs, and the latches without a reset value (and
at most as many as there are latches) get an initial value. -/
structure Complete (c : Circuit) (inputs : List BoolMap) (latches : BoolMap) : Prop where
  nonempty : inputs ≠ []
  inputs : ∀ clk ∈ inputs, clk.length = c.numInputs ∧ ∀ i, i < c.numInputs → (given clk (1 + i)).isSome
  few : latches.length ≤ c.latches.length
  latches : ∀ (i : Nat) (p : Nat × Nat), c.latches[i]? = some p → p.2 ≠ 0 → p.2 ≠ 1 → (given latches (c.latchVar i)).isSome

/-- A complete stimulus has a trace. -/
theorem trace_exists {c : Circuit} (hw : c.WF) {inputs : List BoolMap} {latches : BoolMap} (h : Complete c inputs latches) :
    ∃ rows, c.Trace (inputs.map given) (given latches) rows := by
  let latchStart : Nat → Bool := fun v =>
    match c.latches[v - (1 + c.numInputs)]? with
    | some p => if p.2 = 0 then false else if p.2 = 1 then true else (given latches v).getD false
    | none => false
  let latchNext : (Nat → Bool) → Nat → Bool := fun prev v =>
    match c.latches[v - (1 + c.numInputs)]? with
    | some p => litVal prev p.1
    | none => false
  let base : BoolMap → (Nat → Bool) → Nat → Bool := fun m lat v => if v < 1 + c.numInputs then (given m v).getD false else lat v
  let mk : BoolMap → (Nat → Bool) → List Bool := fun m lat => (List.range (c.maxVar + 1)).map (c.evalVar (base m lat))
  have hmk : ∀ m lat x, x ≤ c.maxVar → rowVal (mk m lat) x = c.evalVar (base m lat) x := by
    intro m lat x hx
    apply rowVal_of
    show ((List.range (c.maxVar + 1)).map _)[x]? = _
    rw [List.getElem?_map, List.getElem?_range (by omega)]; rfl
  have hmax : c.maxVar = c.numInputs + c.latches.length + c.ands.length := rfl
  have hrow : ∀ m lat, m ∈ inputs → c.Row (given m) (mk m lat) := by
    intro m lat hm
    refine ⟨by simp [mk], ⟨?_, ?_⟩, ?_⟩
    · rw [hmk _ _ _ (by omega)]; exact (Circuit.frame_evalVar hw _).1
    · intro i p hp
      have hlt := getElem?_lt hp
      have hok := and_lit_ok hw hp
      rw [hmk _ _ _ (by unfold Circuit.andVar; omega), (Circuit.frame_evalVar hw _).2 i p hp,
        litVal_congr (hmk m lat _ hok.1), litVal_congr (hmk m lat _ hok.2)]
    · intro i hi
      rw [hmk _ _ _ (by omega), Circuit.evalVar_base _ _ (by omega) (by unfold Circuit.andVar; omega)]
      have hs := (h.inputs m hm).2 i hi
      show given m (1 + i) = some (if 1 + i < 1 + c.numInputs then (given m (1 + i)).getD false else lat (1 + i))
      rw [if_pos (by omega)]
      cases hg : given m (1 + i) with
      | none => rw [hg] at hs; cases hs
      | some b => rfl
  have hlat : ∀ m lat i, i < c.latches.length → rowVal (mk m lat) (c.latchVar i) = lat (c.latchVar i) := by
    intro m lat i hi
    rw [hmk _ _ _ (by unfold Circuit.latchVar; omega), Circuit.evalVar_base _ _ (by unfold Circuit.latchVar; omega)
      (by unfold Circuit.latchVar Circuit.andVar; omega)]
    show (if _ < _ then _ else _) = _
    rw [if_neg (by unfold Circuit.latchVar; omega)]
  have hidx : ∀ i, c.latchVar i - (1 + c.numInputs) = i := by intro i; unfold Circuit.latchVar; omega
  -- rows one after the other
  have hmany : ∀ ms : List BoolMap, (∀ m ∈ ms, m ∈ inputs) → ∀ lat : Nat → Bool, ∃ rows : List (List Bool),
      rows.length = ms.length ∧
      (∀ (t : Nat) m r, ms[t]? = some m → rows[t]? = some r → c.Row (given m) r) ∧
      (∀ r, rows[0]? = some r → ∀ i, i < c.latches.length → rowVal r (c.latchVar i) = lat (c.latchVar i)) ∧
      (∀ (t : Nat) r r', rows[t]? = some r → rows[t + 1]? = some r' → c.Step (rowVal r) (rowVal r')) := by
    intro ms
    induction ms with
    | nil => intro _ lat; exact ⟨[], rfl, by simp, by simp, by simp⟩
    | cons m ms ih =>
      intro hms lat
      obtain ⟨rows, h1, h2, h3, h4⟩ := ih (fun x hx => hms x (List.mem_cons_of_mem _ hx)) (latchNext (rowVal (mk m lat)))
      refine ⟨mk m lat :: rows, by simp [h1], ?_, ?_, ?_⟩
      · intro t m' r hm hr
        cases t with
        | zero =>
          simp only [List.getElem?_cons_zero, Option.some.injEq] at hm hr
          subst hm hr
          exact hrow _ _ (hms _ (by simp))
        | succ t => exact h2 t m' r (by simpa using hm) (by simpa using hr)
      · intro r hr i hi
        simp only [List.getElem?_cons_zero, Option.some.injEq] at hr
        subst hr
        exact hlat m lat i hi
      · intro t r r' hr hr'
        cases t with
        | zero =>
          simp only [List.getElem?_cons_zero, Option.some.injEq] at hr
          subst hr
          intro i p hp
          rw [h3 r' (by simpa using hr') i (getElem?_lt hp)]
          show (match c.latches[c.latchVar i - (1 + c.numInputs)]? with
            | some p => litVal (rowVal (mk m lat)) p.1
            | none => false) = _
          rw [hidx, hp]
        | succ t => exact h4 t r r' (by simpa using hr) (by simpa using hr')
  obtain ⟨rows, h1, h2, h3, h4⟩ := hmany inputs (fun m hm => hm) latchStart
  refine ⟨rows, by simpa using h1, ?_, ?_, h4⟩
  · intro t inp r hi hr
    rw [List.getElem?_map, Option.map_eq_some_iff] at hi
    obtain ⟨m, hm, rfl⟩ := hi
    exact h2 t m r hm hr
  · intro r hr i p hp
    rw [h3 r hr i (getElem?_lt hp)]
    have e : latchStart (c.latchVar i) = if p.2 = 0 then false else if p.2 = 1 then true else (given latches (c.latchVar i)).getD false := by
      show (match c.latches[c.latchVar i - (1 + c.numInputs)]? with
        | some p => if p.2 = 0 then false else if p.2 = 1 then true else (given latches (c.latchVar i)).getD false
        | none => false) = _
      rw [hidx, hp]
    rw [e]
    refine ⟨fun h0 => by rw [if_pos h0], fun h0 => by rw [if_neg (by omega), if_pos h0], fun h0 h0' => ?_⟩
    rw [if_neg h0, if_neg h0']
    have hs := h.latches i p hp h0 h0'
    cases hg : given latches (c.latchVar i) with
    | none => rw [hg] at hs; cases hs
    | some b => rfl

/-- C22 (exact): `simulate` returns exactly for complete stimuli that in addition, when the first latch has variable 1 (no
inputs) and reset value 1, supply an initial value for it although it is not needed. -/
theorem C22_accepts_iff (a : Aig) (c : Circuit) (hr : a.Represents c) (hw : c.WF) (inputs : List BoolMap) (latches : BoolMap) :
    (∃ rows, a.simulate inputs latches = .ok rows) ↔ Complete c inputs latches ∧
      (c.numInputs = 0 → (∃ p, c.latches[0]? = some p ∧ p.2 = 1) → (given latches 1).isSome) := by
  constructor
  · rintro ⟨rows, h⟩
    obtain ⟨hc, ht⟩ := (simulate_given hr hw _ _ _).1 h
    refine ⟨⟨hc.nonempty, hc.clocks, hc.few, ?_⟩, ?_⟩
    · intro i p hp h0 h1
      have hlen : 0 < rows.length := by
        rw [ht.length, List.length_map]
        exact List.length_pos_iff.2 hc.nonempty
      have := (ht.start _ (List.getElem?_eq_getElem hlen) i p hp).2.2 h0 h1
      rw [this]; rfl
    · rintro hI ⟨p, hp, h1⟩
      have := hc.quirk 0 p hp (by rw [h1]; unfold Circuit.latchVar; omega)
      rwa [show c.latchVar 0 = 1 by unfold Circuit.latchVar; omega] at this
  · rintro ⟨hc, hq⟩
    obtain ⟨rows, ht⟩ := trace_exists hw hc
    refine ⟨rows, (simulate_given hr hw _ _ _).2 ⟨⟨hc.nonempty, hc.inputs, hc.few, ?_⟩, ht⟩⟩
    intro i p hp h
    have hro := hw.reset_ok i p hp
    have hv : c.latchVar i = 1 + c.numInputs + i := rfl
    have h1 : p.2 = 1 := by omega
    have hi : i = 0 := by omega
    have hI : c.numInputs = 0 := by omega
    subst hi
    rw [show c.latchVar 0 = 1 by omega]
    exact hq hI ⟨p, hp, h1⟩

/-- C22 (partial): a circuit with at least one input, or whose first latch does not reset to 1, accepts every complete
stimulus.  Missing from the full claim: circuits without inputs whose first latch resets to 1, see `C22_refuted`. -/
theorem C22_accepts_partial (a : Aig) (c : Circuit) (hr : a.Represents c) (hw : c.WF) (inputs : List BoolMap) (latches : BoolMap)
    (hc : Complete c inputs latches) (hq : c.numInputs ≠ 0 ∨ ∀ p, c.latches[0]? = some p → p.2 ≠ 1) :
    ∃ rows, a.simulate inputs latches = .ok rows := by
  rw [C22_accepts_iff a c hr hw]
  refine ⟨hc, ?_⟩
  rintro hI ⟨p, hp, h1⟩
  rcases hq with h | h
  · exact absurd hI h
  · exact absurd h1 (h p hp)

/-- The full C22 claim is false of the code: one latch that resets to 1 and keeps its value, no inputs, no initial latches. -/
theorem C22_refuted : ¬ ∀ (a : Aig) (c : Circuit), a.Represents c → c.WF → ∀ (inputs : List BoolMap) (latches : BoolMap),
    Complete c inputs latches → ∃ rows, a.simulate inputs latches = .ok rows := by
  intro h
  have hF : Circuit.Fits ⟨0, [(2, 1)], [], [], [], []⟩ := ⟨by decide, by decide, by decide, by decide, by decide⟩
  obtain ⟨rows, hrows⟩ := h (finish ⟨0, [(2, 1)], [], [], [], []⟩ [] none) ⟨0, [(2, 1)], [], [], [], []⟩ (represents_finish hF _ _)
    (Circuit.wf_of_wfb (by decide)) [[]] [] ⟨by simp, by decide, by decide, by
      intro i p hp
      cases i with
      | zero => have := Option.some.inj hp; subst this; simp
      | succ i => simp at hp⟩
  have : (finish ⟨0, [(2, 1)], [], [], [], []⟩ [] none).simulate [[]] [] = .error (.panic "simulation.rs:148") := by decide +kernel
  rw [this] at hrows
  cases hrows

/-- A complete stimulus for `toggle`. -/
example : Complete toggle [[(1, true)], [(1, false)]] [] ∧ toggle.numInputs ≠ 0 :=
  ⟨⟨by decide, by decide, by decide, by
    intro i p hp
    cases i with
    | zero => have := Option.some.inj hp; subst this; simp
    | succ i => simp [toggle] at hp⟩, by decide⟩

/-! ## C23: cone of influence -/

/-- C23: the cone-of-influence query terminates without panic and returns, without repetition, exactly the AND gates reachable
from the given literals through AND inputs, each with its own literal and input literals.  `order` is the hash-set iteration
order, an arbitrary permutation. -/
theorem C23_cone (a : Aig) (c : Circuit) (hr : a.Represents c) (hw : c.WF)
    (order : List (Nat × Nat × Nat) → List (Nat × Nat × Nat)) (ho : ∀ l, (order l).Perm l) (ls : List Nat)
    (hl : ∀ l ∈ ls, c.LitOK l) :
    ∃ gs, a.getAndInformationInCone order ls = .ok gs ∧ gs.Nodup ∧
      ∀ g, g ∈ gs ↔ ∃ i p, c.ands[i]? = some p ∧ c.InCone ls i ∧ g = (2 * c.andVar i, p.1, p.2) := cone_ok hr hw order ho ls hl

/-- C23 (rejection): a literal outside the circuit makes the query panic. -/
theorem C23_out_of_range (a : Aig) (c : Circuit) (hr : a.Represents c) (order : List (Nat × Nat × Nat) → List (Nat × Nat × Nat))
    (l : Nat) (hl : ¬ c.LitOK l) : a.getAndInformationInCone order [l] = .error (.panic "getting.rs:224 index") := by
  have hn : a.nodes[l >>> 1]? = none := by
    rw [List.getElem?_eq_none_iff, nodes_len hr, shr_one]
    unfold Circuit.LitOK at hl; omega
  unfold Aig.getAndInformationInCone
  have : [l].length + 2 * a.nodes.length = (2 * a.nodes.length) + 1 := by simp; omega
  rw [this, Aig.coneLoop]
  unfold indexR unwrapR
  rw [hn]; rfl

/-- Literal 8 (gate 4) of `toggle` reaches gate 1 only; literal 11 reaches all three gates. -/
example : (finish toggle [] none).getAndInformationInCone id [8] = .ok [(8, 5, 2)] := by decide +kernel
example : (finish toggle [] none).getAndInformationInCone id [11] = .ok [(10, 9, 7), (8, 5, 2), (6, 4, 3)] := by decide +kernel
example : ∀ l ∈ [8, 11], toggle.LitOK l := by decide
example : ¬ toggle.LitOK 12 := by decide

/-! ## C24: getters -/

/-- C24: `get_input_information` returns the input literals 2, 4, …, 2·I. -/
theorem C24_inputs (a : Aig) (c : Circuit) (hr : a.Represents c) :
    a.getInputInformation = .ok ((List.range c.numInputs).map (fun i => 2 * (1 + i))) := getInputInformation_eq hr

/-- C24: `get_latch_information` returns, for each latch in order, its literal, next literal and reset literal. -/
theorem C24_latches (a : Aig) (c : Circuit) (hr : a.Represents c) (hw : c.WF) :
    ∃ r, a.getLatchInformation = .ok r ∧ r.length = c.latches.length ∧
      ∀ (i : Nat) p, c.latches[i]? = some p → r[i]? = some (2 * c.latchVar i, p.1, p.2) := by
  refine ⟨_, getLatchInformation_eq hr hw, by simp, ?_⟩
  intro i p hp
  rw [List.getElem?_map, List.getElem?_zipIdx, hp]; simp

/-- C24: the stored literal lists and the largest variable. -/
theorem C24_lists (a : Aig) (c : Circuit) (hr : a.Represents c) :
    a.getBadInformation = c.bad ∧ a.getConstraintsInformation = c.constraints ∧ a.getOutputInformation = c.outputs ∧
      a.getHighestVariableNumber = c.maxVar := ⟨hr.bad, hr.constraints, hr.outputs, hr.maximumVariableIndex⟩

example : (finish toggle [] none).getLatchInformation = .ok [(4, 11, 0)] := by decide +kernel

end Verif.Props
