import Verif.Proofs.FstsBuild

/-! # The meaning of the formulas `from_aig` builds -/

namespace Verif

/-! ## Transitions between base valuations

A valuation of inputs and latches determines all wires (`evalVar`); `Trans` and `BadAt` speak about such valuations. -/

namespace Circuit

/-- One clock from the base valuation `v`. -/
def Trans (c : Circuit) (v v' : Val) : Prop := c.Step (c.evalVar v) v'

/-- Some literal of `bads` is true in the circuit with base valuation `v`. -/
def BadAt (c : Circuit) (bads : List Nat) (v : Val) : Prop := BadNow bads (c.evalVar v)

/-- Same inputs and latches. -/
def SameBase (c : Circuit) (v w : Val) : Prop := ∀ x, 1 ≤ x → x < c.andVar 0 → v x = w x

/-- Same latches. -/
def SameState (c : Circuit) (v w : Val) : Prop := ∀ i, i < c.latches.length → v (c.latchVar i) = w (c.latchVar i)

theorem SameBase.sameState {c : Circuit} {v w : Val} (h : c.SameBase v w) : c.SameState v w :=
  fun i hi => h _ (by unfold latchVar; omega) (by unfold latchVar andVar; omega)

theorem evalVar_sameBase {c : Circuit} (hw : c.WF) {v w : Val} (h : c.SameBase v w) {x : Nat} (hx : x ≤ c.maxVar) :
    c.evalVar v x = c.evalVar w x :=
  frame_unique hw (frame_evalVar hw v) (frame_evalVar hw w)
    (fun y h1 h2 => by rw [evalVar_base c v (by omega) h2, evalVar_base c w (by omega) h2, h y h1 h2]) x hx

theorem litVal_sameBase {c : Circuit} (hw : c.WF) {v w : Val} (h : c.SameBase v w) {l : Nat} (hl : c.LitOK l) :
    litVal (c.evalVar v) l = litVal (c.evalVar w) l := litVal_congr (evalVar_sameBase hw h hl)

theorem sameBase_evalVar (c : Circuit) (v : Val) : c.SameBase (c.evalVar v) v :=
  fun x h1 h2 => evalVar_base c v (by omega) h2

theorem evalVar_idem {c : Circuit} (hw : c.WF) (v : Val) {x : Nat} (hx : x ≤ c.maxVar) :
    c.evalVar (c.evalVar v) x = c.evalVar v x := evalVar_sameBase hw (sameBase_evalVar c v) hx

theorem evalVar_latch (c : Circuit) (v : Val) {i : Nat} (hi : i < c.latches.length) :
    c.evalVar v (c.latchVar i) = v (c.latchVar i) :=
  evalVar_base c v (by unfold latchVar; omega) (by unfold latchVar andVar; omega)

theorem Trans.congr {c : Circuit} (hw : c.WF) {v w v' w' : Val} (h : c.SameBase v w) (h' : c.SameState v' w') (ht : c.Trans v v') :
    c.Trans w w' := by
  intro i p hp
  rw [← h' i (getElem?_lt hp), ht i p hp]
  exact litVal_sameBase hw h (hw.next_ok i p hp)

theorem BadAt.congr {c : Circuit} (hw : c.WF) {bads : List Nat} (hb : ∀ l ∈ bads, c.LitOK l) {v w : Val} (h : c.SameBase v w)
    (ht : c.BadAt bads v) : c.BadAt bads w := by
  obtain ⟨b, hb1, hb2⟩ := ht
  exact ⟨b, hb1, by rw [← litVal_sameBase hw h (hb b hb1)]; exact hb2⟩

theorem Init.congr {c : Circuit} {v w : Val} (h : c.SameState v w) (hi : c.Init v) : c.Init w := by
  intro i p hp
  rw [← h i (getElem?_lt hp)]
  exact hi i p hp

theorem exists_init (c : Circuit) : ∃ v, c.Init v := by
  refine ⟨fun x => match c.latches[x - (1 + c.numInputs)]? with | some p => p.2 == 1 | none => false, fun i p hp => ?_⟩
  have e : c.latchVar i - (1 + c.numInputs) = i := by unfold Circuit.latchVar; omega
  dsimp only
  rw [e, hp]
  exact ⟨fun h => by simp [h], fun h => by simp [h]⟩

/-- Every state has a successor for every choice of the next inputs. -/
theorem trans_exists (c : Circuit) (v u : Val) : ∃ v', c.Trans v v' ∧ ∀ x, ¬ (c.latchVar 0 ≤ x ∧ x < c.andVar 0) → v' x = u x := by
  refine ⟨fun x => if c.latchVar 0 ≤ x ∧ x < c.andVar 0 then
    (match c.latches[x - c.latchVar 0]? with | some p => litVal (c.evalVar v) p.1 | none => false) else u x, ?_, ?_⟩
  · intro i p hp
    have h1 := getElem?_lt hp
    have e : c.latchVar i - c.latchVar 0 = i := by unfold latchVar; omega
    show (if c.latchVar 0 ≤ c.latchVar i ∧ c.latchVar i < c.andVar 0 then _ else _) = _
    rw [if_pos (by unfold latchVar andVar; omega), e, hp]
  · intro x hx; exact if_neg hx

/-- A path of base valuations from an initial one. -/
structure Path (c : Circuit) (w : Nat → Val) (d : Nat) : Prop where
  init : c.Init (w 0)
  step : ∀ t, t < d → c.Trans (w t) (w (t + 1))

theorem frame_eval_eq {c : Circuit} (hw : c.WF) {v : Val} (h : c.Frame v) {x : Nat} (hx : x ≤ c.maxVar) : c.evalVar v x = v x :=
  frame_unique hw (frame_evalVar hw v) h (fun y h1 h2 => evalVar_base c v (by omega) h2) x hx

theorem unsafeAt_iff_path {c : Circuit} (hw : c.WF) {bads : List Nat} (hb : ∀ l ∈ bads, c.LitOK l) (d : Nat) :
    c.UnsafeAt bads d ↔ ∃ w, c.Path w d ∧ c.BadAt bads (w d) := by
  constructor
  · rintro ⟨w, he, b, hb1, hb2⟩
    refine ⟨w, ⟨he.init, ?_⟩, b, hb1, ?_⟩
    · intro t ht i p hp
      rw [he.step t ht i p hp]
      exact (litVal_congr (frame_eval_eq hw (he.frame t (by omega)) (hw.next_ok i p hp))).symm
    · rw [litVal_congr (frame_eval_eq hw (he.frame d (Nat.le_refl _)) (hb b hb1))]; exact hb2
  · rintro ⟨w, hp, hbad⟩
    refine ⟨fun t => c.evalVar (w t), ⟨?_, fun t _ => frame_evalVar hw _, ?_⟩, hbad⟩
    · exact hp.init.congr fun i hi => (evalVar_latch c _ hi).symm
    · intro t ht i p hq
      show c.evalVar (w (t + 1)) (c.latchVar i) = _
      rw [evalVar_latch c _ (getElem?_lt hq)]
      exact hp.step t ht i p hq

/-- Reachable in exactly `d` steps. -/
inductive Reach (c : Circuit) : Nat → Val → Prop where
  | init {v : Val} : c.Init v → Reach c 0 v
  | step {d : Nat} {v v' : Val} : Reach c d v → c.Trans v v' → Reach c (d + 1) v'

theorem reach_of_path {c : Circuit} {w : Nat → Val} {d : Nat} (h : c.Path w d) : ∀ t, t ≤ d → c.Reach t (w t) := by
  intro t
  induction t with
  | zero => intro _; exact .init h.init
  | succ t ih => intro ht; exact .step (ih (by omega)) (h.step t (by omega))

theorem path_of_reach {c : Circuit} {d : Nat} {v : Val} (h : c.Reach d v) : ∃ w, c.Path w d ∧ w d = v := by
  induction h with
  | @init v h => exact ⟨fun _ => v, ⟨h, fun t ht => by omega⟩, rfl⟩
  | @step d v v' _ ht ih =>
    obtain ⟨w, hp, e⟩ := ih
    refine ⟨fun t => if t = d + 1 then v' else w t, ⟨?_, ?_⟩, if_pos rfl⟩
    · show c.Init (if 0 = d + 1 then v' else w 0)
      rw [if_neg (by omega)]; exact hp.init
    · intro t ht'
      show c.Trans (if t = d + 1 then v' else w t) (if t + 1 = d + 1 then v' else w (t + 1))
      rw [if_neg (by omega)]
      by_cases he : t = d
      · subst he; rw [if_pos rfl, e]; exact ht
      · rw [if_neg (by omega)]; exact hp.step t (by omega)

theorem unsafeAt_iff {c : Circuit} (hw : c.WF) {bads : List Nat} (hb : ∀ l ∈ bads, c.LitOK l) (d : Nat) :
    c.UnsafeAt bads d ↔ ∃ v, c.Reach d v ∧ c.BadAt bads v := by
  rw [unsafeAt_iff_path hw hb]
  constructor
  · rintro ⟨w, hp, hbad⟩; exact ⟨w d, reach_of_path hp d (Nat.le_refl _), hbad⟩
  · rintro ⟨v, hr, hbad⟩
    obtain ⟨w, hp, rfl⟩ := path_of_reach hr
    exact ⟨w, hp, hbad⟩

theorem Reach.congr {c : Circuit} (hw : c.WF) {d : Nat} {v w : Val} (h : c.SameState v w) (hr : c.Reach d v) : c.Reach d w := by
  cases hr with
  | init hi => exact .init (hi.congr h)
  | step hr ht => exact .step hr (ht.congr hw (fun _ _ _ => rfl) h)

end Circuit

namespace Fsts

/-! ## Cones -/

/-- The gates in the cone of `ls` compute their conjunctions (variable 0 read as false). -/
def ConeOK (c : Circuit) (ls : List Nat) (v : Val) : Prop :=
  ∀ (i : Nat) (p : Nat × Nat), c.ands[i]? = some p → c.InCone ls i →
    v (c.andVar i) = (litVal (grounded v) p.1 && litVal (grounded v) p.2)

theorem coneClauses_holds {c : Circuit} {ls : List Nat} {f : CNF} (hm : ∀ d, d ∈ f.clauses ↔ ConeClause c ls d) {v : Val} :
    f.holds v ↔ ConeOK c ls v := by
  constructor
  · intro h i p hp hc
    exact gateClauses_holds.1 (fun d hd => h d ((hm d).2 ⟨i, p, hp, hc, hd⟩))
  · intro h d hd
    obtain ⟨i, p, hp, hc, hd⟩ := (hm d).1 hd
    exact gateClauses_holds.2 (h i p hp hc) d hd

theorem var_cases {c : Circuit} {x : Nat} (hx : x ≤ c.maxVar) :
    x = 0 ∨ (1 ≤ x ∧ x < c.andVar 0) ∨ ∃ (i : Nat) (p : Nat × Nat), c.ands[i]? = some p ∧ x = c.andVar i := by
  by_cases h0 : x = 0
  · exact .inl h0
  · by_cases h1 : x < c.andVar 0
    · exact .inr (.inl ⟨by omega, h1⟩)
    · have hlt : x - c.andVar 0 < c.ands.length := by unfold Circuit.maxVar at hx; unfold Circuit.andVar at *; omega
      exact .inr (.inr ⟨_, _, List.getElem?_eq_getElem hlt, by unfold Circuit.andVar at *; omega⟩)

/-- On the wires a cone reads, a valuation satisfying the cone's gates is the evaluation of its base. -/
theorem cone_eval {c : Circuit} (hw : c.WF) {ls : List Nat} {v : Val} (h : ConeOK c ls v) (x : Nat) (hx : x ≤ c.maxVar)
    (hcone : ∀ i, i < c.ands.length → x = c.andVar i → c.InCone ls i) : grounded v x = c.evalVar v x := by
  induction x using Nat.strongRecOn with
  | ind x ih =>
    rcases var_cases hx with rfl | ⟨h1, h2⟩ | ⟨i, p, hp, rfl⟩
    · rw [(Circuit.frame_evalVar hw v).1]; rfl
    · rw [Circuit.evalVar_base c v (by omega) h2]; unfold grounded; rw [if_neg (by omega)]
    · have hin := hcone i (getElem?_lt hp) rfl
      have hok := hw.and_ok i p hp
      have e : grounded v (c.andVar i) = v (c.andVar i) := by
        unfold grounded; rw [if_neg (by unfold Circuit.andVar; omega)]
      rw [e, h i p hp hin, (Circuit.frame_evalVar hw v).2 i p hp]
      have sub : ∀ l, (l = p.1 ∨ l = p.2) → litVal (grounded v) l = litVal (c.evalVar v) l := by
        intro l hl
        have hlt : l / 2 < c.andVar i := by rcases hl with rfl | rfl <;> omega
        refine litVal_congr (ih (l / 2) hlt (by omega) ?_)
        intro j hj e
        exact .input hin hp hl e hj
      rw [sub p.1 (.inl rfl), sub p.2 (.inr rfl)]

theorem cone_litVal {c : Circuit} (hw : c.WF) {ls : List Nat} {v : Val} (h : ConeOK c ls v) {l : Nat} (hl : l ∈ ls)
    (hlo : c.LitOK l) : litVal (grounded v) l = litVal (c.evalVar v) l :=
  litVal_congr (cone_eval hw h _ hlo (fun _ hi e => .root hl e hi))

/-- Agreement of a valuation with the wires of a base valuation, on the circuit's variables. -/
def Wires (c : Circuit) (v w : Val) : Prop := ∀ x, 1 ≤ x → x ≤ c.maxVar → w x = c.evalVar v x

theorem Wires.base {c : Circuit} {v w : Val} (h : Wires c v w) : c.SameBase w v :=
  fun x h1 h2 => by
    by_cases hx : x ≤ c.maxVar
    · rw [h x h1 hx, Circuit.evalVar_base c v (by omega) h2]
    · exfalso; unfold Circuit.maxVar at hx; unfold Circuit.andVar at h2; omega

theorem Wires.grounded {c : Circuit} (hw : c.WF) {v w : Val} (h : Wires c v w) {l : Nat} (hl : c.LitOK l) :
    litVal (grounded w) l = litVal (c.evalVar v) l := by
  apply litVal_congr
  unfold Fsts.grounded
  by_cases h0 : l / 2 = 0
  · rw [if_pos h0, h0, (Circuit.frame_evalVar hw v).1]
  · rw [if_neg h0, h _ (by omega) hl]

theorem Wires.cone {c : Circuit} (hw : c.WF) {v w : Val} (h : Wires c v w) (ls : List Nat) : ConeOK c ls w := by
  intro i p hp _
  have h1 := getElem?_lt hp
  have h2 : c.andVar i ≤ c.maxVar := by unfold Circuit.andVar Circuit.maxVar; omega
  have hok := and_lit_ok hw hp
  rw [h _ (by unfold Circuit.andVar; omega) h2, h.grounded hw hok.1, h.grounded hw hok.2]
  exact (Circuit.frame_evalVar hw v).2 i p hp

/-! ## Formulas of a built transition system -/

variable {f : Fsts} {c : Circuit} {bads : List Nat}

theorem mem_initial (h : Laws f c bads) {l : Literal} :
    l ∈ f.initialStates.lits ↔ ∃ (i : Nat) (p : Nat × Nat), c.latches[i]? = some p ∧
      ((p.2 = 0 ∧ l = ⟨2 * c.latchVar i + 1⟩) ∨ (p.2 = 1 ∧ l = ⟨2 * c.latchVar i⟩)) := by
  rw [h.initial, Cube.mem_new, List.mem_flatMap]
  constructor
  · rintro ⟨⟨p, i⟩, hx, hl⟩
    have := List.mem_zipIdx_iff_getElem?.1 hx
    refine ⟨i, p, by simpa using this, ?_⟩
    unfold resetLits at hl
    split at hl
    · left; rename_i h0; simp at hl; exact ⟨h0, hl⟩
    · split at hl
      · right; rename_i h1; simp at hl; exact ⟨h1, hl⟩
      · simp at hl
  · rintro ⟨i, p, hp, hl⟩
    refine ⟨(p, i), List.mem_zipIdx_iff_getElem?.2 (by simpa using hp), ?_⟩
    unfold resetLits
    rcases hl with ⟨h0, rfl⟩ | ⟨h1, rfl⟩
    · simp [h0]
    · simp [h1]

theorem litVal_odd {v : Val} {x : Nat} : litVal v (2 * x + 1) = !v x := by
  unfold litVal
  have e : (2 * x + 1) / 2 = x := by omega
  have e2 : (2 * x + 1) % 2 = 1 := by omega
  rw [e, e2]; simp

theorem initial_holds (h : Laws f c bads) {v : Val} : f.initialStates.holds v ↔ c.Init v := by
  unfold Cube.holds Cube.iter
  constructor
  · intro ha i p hp
    refine ⟨fun h0 => ?_, fun h1 => ?_⟩
    · have := ha _ ((mem_initial h).2 ⟨i, p, hp, .inl ⟨h0, rfl⟩⟩)
      rw [literal_holds_mk, litVal_odd] at this
      simpa using this
    · have := ha _ ((mem_initial h).2 ⟨i, p, hp, .inr ⟨h1, rfl⟩⟩)
      rw [literal_holds_mk, litVal_two] at this
      exact this
  · intro ha l hl
    obtain ⟨i, p, hp, hl⟩ := (mem_initial h).1 hl
    rcases hl with ⟨h0, rfl⟩ | ⟨h1, rfl⟩
    · rw [literal_holds_mk, litVal_odd, (ha i p hp).1 h0]; rfl
    · rw [literal_holds_mk, litVal_two, (ha i p hp).2 h1]

theorem transition_holds (h : Laws f c bads) {v : Val} :
    f.transition.holds v ↔ (∀ (i : Nat) (p : Nat × Nat), c.latches[i]? = some p →
      v (c.latchVar i + c.maxVar) = litVal (grounded v) p.1) ∧ ConeOK c (c.latches.map Prod.fst) v := by
  constructor
  · intro ha
    refine ⟨fun i p hp => latchClauses_holds.1 (fun d hd => ha d ((h.trans_mem d).2 (.inl ⟨i, p, hp, hd⟩))), fun i p hp hc => ?_⟩
    exact gateClauses_holds.1 (fun d hd => ha d ((h.trans_mem d).2 (.inr ⟨i, p, hp, hc, hd⟩)))
  · rintro ⟨h1, h2⟩ d hd
    rcases (h.trans_mem d).1 hd with ⟨i, p, hp, hd⟩ | ⟨i, p, hp, hc, hd⟩
    · exact latchClauses_holds.2 (h1 i p hp) d hd
    · exact gateClauses_holds.2 (h2 i p hp hc) d hd

theorem safety_holds (h : Laws f c bads) {v : Val} : f.stateToSafety.holds v ↔ ConeOK c bads v :=
  coneClauses_holds h.safety_mem

theorem unsafety_holds (h : Laws f c bads) {v : Val} : f.unsafety.holds v ↔ ∃ b ∈ bads, litVal v b = true := by
  rw [h.unsafety, Clause.holds_new]
  constructor
  · rintro ⟨l, hl, hv⟩
    obtain ⟨b, hb, rfl⟩ := List.mem_map.1 hl
    exact ⟨b, hb, literal_holds_mk.1 hv⟩
  · rintro ⟨b, hb, hv⟩
    exact ⟨_, List.mem_map.2 ⟨b, hb, rfl⟩, literal_holds_mk.2 hv⟩

/-- What the checkers need of the bad literals. -/
structure BadsOK (c : Circuit) (bads : List Nat) : Prop where
  lit : ∀ l ∈ bads, c.LitOK l
  two_le : ∀ l ∈ bads, 2 ≤ l

theorem mem_nexts {c : Circuit} {i : Nat} {p : Nat × Nat} (hp : c.latches[i]? = some p) : p.1 ∈ c.latches.map Prod.fst :=
  List.mem_map.2 ⟨p, List.mem_of_getElem? hp, rfl⟩

theorem transition_sound (h : Laws f c bads) (hw : c.WF) {w : Val} (ht : f.transition.holds w) :
    c.Trans w (fun x => w (x + c.maxVar)) := by
  obtain ⟨h1, h2⟩ := (transition_holds h).1 ht
  intro i p hp
  show w (c.latchVar i + c.maxVar) = _
  rw [h1 i p hp]
  exact cone_litVal hw h2 (mem_nexts hp) (hw.next_ok i p hp)

theorem transition_complete (h : Laws f c bads) (hw : c.WF) {v v' w : Val} (ht : c.Trans v v') (hv : Wires c v w)
    (hv' : ∀ i, i < c.latches.length → w (c.latchVar i + c.maxVar) = v' (c.latchVar i)) : f.transition.holds w := by
  rw [transition_holds h]
  refine ⟨fun i p hp => ?_, hv.cone hw _⟩
  rw [hv' i (getElem?_lt hp), hv.grounded hw (hw.next_ok i p hp)]
  exact ht i p hp

theorem safety_complete (h : Laws f c bads) (hw : c.WF) {v w : Val} (hv : Wires c v w) : f.stateToSafety.holds w :=
  (safety_holds h).2 (hv.cone hw _)

theorem unsafety_iff (h : Laws f c bads) (hw : c.WF) (hb : BadsOK c bads) {w : Val} (hs : f.stateToSafety.holds w) :
    f.unsafety.holds w ↔ c.BadAt bads w := by
  rw [unsafety_holds h]
  have key : ∀ b ∈ bads, litVal w b = litVal (c.evalVar w) b := by
    intro b hbm
    rw [← litVal_grounded (hb.two_le b hbm)]
    exact cone_litVal hw ((safety_holds h).1 hs) hbm (hb.lit b hbm)
  constructor
  · rintro ⟨b, hbm, hv⟩; exact ⟨b, hbm, by rw [← key b hbm]; exact hv⟩
  · rintro ⟨b, hbm, hv⟩; exact ⟨b, hbm, by rw [key b hbm]; exact hv⟩

theorem Wires.badAt (hw : c.WF) (hb : BadsOK c bads) {v w : Val} (h : Wires c v w) : c.BadAt bads w ↔ c.BadAt bads v :=
  ⟨fun h' => h'.congr hw hb.lit h.base, fun h' => h'.congr hw hb.lit (fun x h1 h2 => (h.base x h1 h2).symm)⟩

/-! ## Goodness -/

theorem good_mk {l : Nat} (h1 : 2 ≤ l) (h2 : l / 2 < 2147483648) : (Literal.mk l).Good := by
  unfold Literal.Good; rw [literal_number_mk]; omega

theorem coneClause_number (hw : c.WF) {ls : List Nat} {d : Clause} (hd : ConeClause c ls d) {l : Literal} (hl : l ∈ d.lits) :
    1 ≤ l.number ∧ l.number ≤ c.maxVar := by
  obtain ⟨i, p, hp, _, hd⟩ := hd
  have h1 := getElem?_lt hp
  have h2 := hw.and_ok i p hp
  have h3 : c.andVar i ≤ c.maxVar := by unfold Circuit.andVar Circuit.maxVar; omega
  have h4 : 1 ≤ c.andVar i := by unfold Circuit.andVar; omega
  have := gateClauses_number hd hl
  omega

theorem safety_number (h : Laws f c bads) (hw : c.WF) {d : Clause} (hd : d ∈ f.stateToSafety.clauses) {l : Literal} (hl : l ∈ d.lits) :
    1 ≤ l.number ∧ l.number ≤ c.maxVar := coneClause_number hw ((h.safety_mem d).1 hd) hl

theorem transition_number (h : Laws f c bads) (hw : c.WF) {d : Clause} (hd : d ∈ f.transition.clauses) {l : Literal} (hl : l ∈ d.lits) :
    1 ≤ l.number ∧ (l.number ≤ c.maxVar ∨ ∃ i, i < c.latches.length ∧ l.number = c.latchVar i + c.maxVar) := by
  rcases (h.trans_mem d).1 hd with ⟨i, p, hp, hd⟩ | hd
  · have h1 := hw.next_ok i p hp
    unfold Circuit.LitOK at h1
    rcases latchClauses_number hd hl with e | e
    · exact ⟨by rw [e]; unfold Circuit.latchVar; omega, .inr ⟨i, getElem?_lt hp, e⟩⟩
    · exact ⟨by omega, .inl (by omega)⟩
  · have := coneClause_number hw hd hl
    exact ⟨this.1, .inl this.2⟩

theorem transition_number_le (h : Laws f c bads) (hw : c.WF) {d : Clause} (hd : d ∈ f.transition.clauses) {l : Literal} (hl : l ∈ d.lits) :
    1 ≤ l.number ∧ l.number ≤ c.maxVar + c.maxVar := by
  obtain ⟨h1, h2⟩ := transition_number h hw hd hl
  refine ⟨h1, ?_⟩
  rcases h2 with h2 | ⟨i, hi, e⟩
  · omega
  · unfold Circuit.latchVar at e; unfold Circuit.maxVar at *; omega

theorem initial_number (h : Laws f c bads) {l : Literal} (hl : l ∈ f.initialStates.lits) :
    ∃ i, i < c.latches.length ∧ l.number = c.latchVar i := by
  obtain ⟨i, p, hp, hl⟩ := (mem_initial h).1 hl
  refine ⟨i, getElem?_lt hp, ?_⟩
  rcases hl with ⟨_, rfl⟩ | ⟨_, rfl⟩ <;> rw [literal_number_mk] <;> omega

theorem latchVar_le (c : Circuit) {i : Nat} (hi : i < c.latches.length) : 1 ≤ c.latchVar i ∧ c.latchVar i ≤ c.maxVar := by
  unfold Circuit.latchVar Circuit.maxVar; omega

theorem unsafety_number (h : Laws f c bads) (hb : BadsOK c bads) {l : Literal} (hl : l ∈ f.unsafety.lits) :
    1 ≤ l.number ∧ l.number ≤ c.maxVar := by
  rw [h.unsafety, Clause.mem_new] at hl
  obtain ⟨b, hbm, rfl⟩ := List.mem_map.1 hl
  have h1 := hb.lit b hbm
  have h2 := hb.two_le b hbm
  unfold Circuit.LitOK at h1
  rw [literal_number_mk]; omega

theorem transition_ready_enc (h : Laws f c bads) (hw : c.WF) {V : Nat} (hV : c.maxVar ≤ V)
    (hL : ∀ i, i < c.latches.length → c.latchVar i + c.maxVar ≤ V) : f.transition.Ready V := by
  refine h.trans_wf.ready fun d hd l hl => ?_
  obtain ⟨h1, h2⟩ := transition_number h hw hd hl
  refine ⟨h1, ?_⟩
  rcases h2 with h2 | ⟨i, hi, e⟩
  · omega
  · rw [e]; exact hL i hi

theorem transition_ready (h : Laws f c bads) (hw : c.WF) (hs : c.Small) : f.transition.Ready := by
  unfold Circuit.Small at hs
  refine transition_ready_enc h hw (by omega) fun i hi => ?_
  have := latchVar_le c hi
  omega

theorem safety_ready (h : Laws f c bads) (hw : c.WF) (hE : Encodable c) : f.stateToSafety.Ready :=
  h.safety_wf.ready fun d hd l hl => by
    have := safety_number h hw hd hl
    have hm := hE.max_lt
    exact ⟨this.1, by omega⟩

theorem initial_good_le (h : Laws f c bads) {V : Nat} (hV : c.maxVar ≤ V) : f.initialStates.Good V := by
  intro l hl
  obtain ⟨i, hi, e⟩ := initial_number h hl
  have := latchVar_le c hi
  exact ⟨by omega, by omega⟩

theorem initial_good (h : Laws f c bads) (hE : Encodable c) : f.initialStates.Good 2147483646 :=
  initial_good_le h (by have := hE.max_lt; omega)

theorem unsafety_good (h : Laws f c bads) (hb : BadsOK c bads) (hE : Encodable c) : f.unsafety.Good 2147483646 := by
  intro l hl
  have := unsafety_number h hb hl
  have hm := hE.max_lt
  exact ⟨by omega, by omega⟩

theorem unsafety_sorted (h : Laws f c bads) : f.unsafety.Sorted := by rw [h.unsafety]; exact Clause.sorted_new _

end Fsts

end Verif
