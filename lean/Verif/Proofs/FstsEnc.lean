import Verif.Proofs.FstsTags

/-! # Formulas that encode sets of base valuations, one-step queries, and `features.rs` -/

namespace Verif

theorem Circuit.Small.encodable {c : Circuit} (h : c.Small) : Fsts.Encodable c where
  max_lt := by unfold Small at h; omega
  latch_lt := by
    intro i hi
    have := Fsts.latchVar_le c hi
    unfold Small at h; omega

namespace Fsts

variable {f : Fsts} {c : Circuit} {bads : List Nat}

/-- Wires of `v` at variables `1..max`, wires of `v'` above. -/
def join (c : Circuit) (v v' : Val) : Val := fun x => if x ≤ c.maxVar then c.evalVar v x else c.evalVar v' (x - c.maxVar)

theorem join_wires (c : Circuit) (v v' : Val) : Wires c v (join c v v') := by
  intro x _ hx; unfold join; rw [if_pos hx]

theorem join_wires' (c : Circuit) (v v' : Val) : Wires c v' (fun x => join c v v' (x + c.maxVar)) := by
  intro x h1 _
  show join c v v' (x + c.maxVar) = _
  unfold join
  rw [if_neg (by omega)]
  congr 1; omega

theorem join_latch (c : Circuit) (v v' : Val) {i : Nat} (hi : i < c.latches.length) :
    join c v v' (c.latchVar i + c.maxVar) = v' (c.latchVar i) := by
  have h := latchVar_le c hi
  have := join_wires' c v v' (c.latchVar i) h.1 h.2
  rw [Circuit.evalVar_latch c _ hi] at this
  exact this

theorem transition_join (h : Laws f c bads) (hw : c.WF) {v v' : Val} (ht : c.Trans v v') : f.transition.holds (join c v v') :=
  transition_complete h hw ht (join_wires c v v') (fun _ hi => join_latch c v v' hi)

/-- `g` is a formula over one frame's variables that encodes the set `P` of base valuations. -/
structure Enc (c : Circuit) (g : CNF) (P : Val → Prop) : Prop where
  wf : g.WF
  num : ∀ d ∈ g.clauses, ∀ l ∈ d.lits, 1 ≤ l.number ∧ l.number ≤ c.maxVar
  sound : ∀ w, g.holds w → P w
  complete : ∀ v w, P v → Wires c v w → g.holds w

theorem Enc.max_le {g : CNF} {P : Val → Prop} (h : Enc c g P) : g.maxVar ≤ c.maxVar := by
  rcases h.wf.attained with h0 | ⟨d, hd, l, hl, e⟩
  · omega
  · rw [← e]; exact (h.num d hd l hl).2

theorem Enc.ready {g : CNF} {P : Val → Prop} (h : Enc c g P) (hs : c.Small) : g.Ready :=
  h.wf.ready fun d hd l hl => by
    have := h.num d hd l hl
    unfold Circuit.Small at hs
    exact ⟨this.1, by omega⟩

theorem Enc.append {g g' : CNF} {P P' : Val → Prop} (h : Enc c g P) (h' : Enc c g' P') :
    Enc c (g.append g') (fun v => P v ∧ P' v) where
  wf := h.wf.append h'.wf
  num := by
    intro d hd
    rcases CNF.mem_append.1 hd with hd | hd
    · exact h.num d hd
    · exact h'.num d hd
  sound := by
    intro w hw
    rw [CNF.holds_append] at hw
    exact ⟨h.sound w hw.1, h'.sound w hw.2⟩
  complete := by
    intro v w hp hv
    rw [CNF.holds_append]
    exact ⟨h.complete v w hp.1 hv, h'.complete v w hp.2 hv⟩

theorem Enc.congr {g : CNF} {P P' : Val → Prop} (h : Enc c g P) (hp : ∀ v, P v ↔ P' v) : Enc c g P' where
  wf := h.wf
  num := h.num
  sound := fun w hw => (hp w).1 (h.sound w hw)
  complete := fun v w hv => h.complete v w ((hp v).2 hv)

theorem Enc.safety (h : Laws f c bads) (hw : c.WF) : Enc c f.stateToSafety (fun _ => True) where
  wf := h.safety_wf
  num := fun d hd l hl => safety_number h hw hd hl
  sound := fun _ _ => trivial
  complete := fun v w _ hv => safety_complete h hw hv

/-- Any formula made of the safety translation and the unsafety clause encodes the bad valuations. -/
theorem Enc.bad (h : Laws f c bads) (hw : c.WF) (hb : BadsOK c bads) {g : CNF} (hg : g.WF)
    (hm : ∀ d, d ∈ g.clauses ↔ d ∈ f.stateToSafety.clauses ∨ d = f.unsafety) : Enc c g (c.BadAt bads) := by
  have hh : ∀ w, g.holds w ↔ f.stateToSafety.holds w ∧ f.unsafety.holds w := by
    intro w
    constructor
    · intro ha; exact ⟨fun d hd => ha d ((hm d).2 (.inl hd)), ha _ ((hm _).2 (.inr rfl))⟩
    · rintro ⟨h1, h2⟩ d hd
      rcases (hm d).1 hd with hd | rfl
      · exact h1 d hd
      · exact h2
  exact {
    wf := hg
    num := by
      intro d hd l hl
      rcases (hm d).1 hd with hd | rfl
      · exact safety_number h hw hd hl
      · exact unsafety_number h hb hl
    sound := by
      intro w ha
      obtain ⟨h1, h2⟩ := (hh w).1 ha
      exact (unsafety_iff h hw hb h1).1 h2
    complete := by
      intro v w hv hwr
      have hs := safety_complete h hw hwr
      exact (hh w).2 ⟨hs, (unsafety_iff h hw hb hs).2 ((hwr.badAt hw hb).2 hv)⟩ }

/-- Any formula made of the safety translation and the safety property encodes the good valuations. -/
theorem Enc.good (h : Laws f c bads) (hw : c.WF) (hb : BadsOK c bads) {g : CNF} (hg : g.WF)
    (hm : ∀ d, d ∈ g.clauses ↔ d ∈ f.stateToSafety.clauses ∨ ∃ l ∈ f.unsafety.not.lits, d = Clause.new [l]) :
    Enc c g (fun v => ¬ c.BadAt bads v) := by
  have hh : ∀ w, g.holds w ↔ f.stateToSafety.holds w ∧ ¬ f.unsafety.holds w := by
    intro w
    rw [← Clause.holds_not]
    constructor
    · intro ha
      refine ⟨fun d hd => ha d ((hm d).2 (.inl hd)), fun l hl => ?_⟩
      have := ha _ ((hm _).2 (.inr ⟨l, hl, rfl⟩))
      rw [Clause.holds_new] at this
      simpa using this
    · rintro ⟨h1, h2⟩ d hd
      rcases (hm d).1 hd with hd | ⟨l, hl, rfl⟩
      · exact h1 d hd
      · rw [Clause.holds_new]; exact ⟨l, by simp, h2 l hl⟩
  exact {
    wf := hg
    num := by
      intro d hd l hl
      rcases (hm d).1 hd with hd | ⟨m, hm, rfl⟩
      · exact safety_number h hw hd hl
      · simp at hl; subst hl
        have := unsafety_number h hb (Clause.mem_not.1 hm)
        rwa [Literal.number_not] at this
    sound := by
      intro w ha
      obtain ⟨h1, h2⟩ := (hh w).1 ha
      exact fun hbad => h2 ((unsafety_iff h hw hb h1).2 hbad)
    complete := by
      intro v w hv hwr
      have hs := safety_complete h hw hwr
      exact (hh w).2 ⟨hs, fun hu => hv ((hwr.badAt hw hb).1 ((unsafety_iff h hw hb hs).1 hu))⟩ }

/-- A literal on a latch of the circuit. -/
def LatchLit (c : Circuit) (l : Literal) : Prop := ∃ i, i < c.latches.length ∧ l.number = c.latchVar i

/-- A literal on an input or latch. -/
def BaseLit (c : Circuit) (l : Literal) : Prop := 1 ≤ l.number ∧ l.number < c.andVar 0

theorem LatchLit.base {l : Literal} (h : LatchLit c l) : BaseLit c l := by
  obtain ⟨i, hi, e⟩ := h
  unfold BaseLit
  rw [e]
  unfold Circuit.latchVar Circuit.andVar; omega

theorem BaseLit.le {l : Literal} (h : BaseLit c l) : 1 ≤ l.number ∧ l.number ≤ c.maxVar := by
  unfold BaseLit at h
  unfold Circuit.andVar at h
  unfold Circuit.maxVar; omega

theorem LatchLit.not {l : Literal} (h : LatchLit c l) : LatchLit c l.not := by
  obtain ⟨i, hi, e⟩ := h
  exact ⟨i, hi, by rw [Literal.number_not]; exact e⟩

theorem BaseLit.holds_congr {l : Literal} (h : BaseLit c l) {v w : Val} (hs : c.SameBase v w) : l.holds v ↔ l.holds w := by
  unfold Literal.holds
  rw [hs _ h.1 h.2]

theorem LatchLit.holds_congr {l : Literal} (h : LatchLit c l) {v w : Val} (hs : c.SameState v w) : l.holds v ↔ l.holds w := by
  obtain ⟨i, hi, e⟩ := h
  unfold Literal.holds
  rw [e, hs i hi]

/-- A formula over inputs and latches encodes the set of valuations that satisfy it. -/
theorem Enc.base {g : CNF} (hg : g.WF) (hb : ∀ d ∈ g.clauses, ∀ l ∈ d.lits, BaseLit c l) : Enc c g (fun v => g.holds v) where
  wf := hg
  num := fun d hd l hl => (hb d hd l hl).le
  sound := fun _ h => h
  complete := by
    intro v w hv hwr d hd
    obtain ⟨l, hl, hlv⟩ := hv d hd
    exact ⟨l, hl, ((hb d hd l hl).holds_congr hwr.base).2 hlv⟩

theorem Enc.initial (h : Laws f c bads) : Enc c f.initialStates.toCnf c.Init := by
  refine (Enc.base (Cube.toCnf_wf _) ?_).congr ?_
  · intro d hd l hl
    obtain ⟨m, hm, rfl⟩ := Cube.mem_toCnf.1 hd
    simp at hl; subst hl
    exact LatchLit.base (initial_number h hm)
  · intro v; rw [Cube.toCnf_holds]; exact initial_holds h

/-! ## One-step queries -/

theorem Enc.shift_ok {g : CNF} {P : Val → Prop} (dbg : Bool) (hg : Enc c g P) (hs : c.Small) (hm : f.maxLiteral = c.maxVar) :
    f.addTagsToRelation dbg g 1 = .ok (g.shift c.maxVar) := by
  have := addTagsToRelation_ok dbg f (g := g) (tags := 1) hg.wf (fun d hd l hl => (hg.num d hd l hl).1) (by
    have := hg.max_le; unfold Circuit.Small at hs; omega)
  rw [Nat.mul_one, hm] at this
  exact this

theorem Enc.shift_ready {g : CNF} {P : Val → Prop} (hg : Enc c g P) (hs : c.Small) : (g.shift c.maxVar).Ready :=
  hg.wf.shift.ready fun d hd l hl => by
    obtain ⟨e, he, rfl⟩ := CNF.mem_shift.1 hd
    obtain ⟨m, hm, rfl⟩ := List.mem_map.1 hl
    have := hg.num e he m hm
    unfold Circuit.Small at hs
    exact ⟨by rw [Literal.number_shift]; omega, by rw [Literal.number_shift]; omega⟩

theorem query_sound (h : Laws f c bads) (hw : c.WF) {g q : CNF} {P Q : Val → Prop} (hg : Enc c g P) (hq : Enc c q Q) {w : Val}
    (h1 : g.holds w) (h2 : f.transition.holds w) (h3 : (q.shift c.maxVar).holds w) :
    P w ∧ c.Trans w (fun x => w (x + c.maxVar)) ∧ Q (fun x => w (x + c.maxVar)) :=
  ⟨hg.sound w h1, transition_sound h hw h2, hq.sound _ (CNF.holds_shift.1 h3)⟩

theorem query_complete (h : Laws f c bads) (hw : c.WF) {g q : CNF} {P Q : Val → Prop} (hg : Enc c g P) (hq : Enc c q Q) {v v' : Val}
    (h1 : P v) (h2 : c.Trans v v') (h3 : Q v') :
    g.holds (join c v v') ∧ f.transition.holds (join c v v') ∧ (q.shift c.maxVar).holds (join c v v') :=
  ⟨hg.complete v _ h1 (join_wires c v v'), transition_join h hw h2,
    CNF.holds_shift.2 (hq.complete v' _ h3 (join_wires' c v v'))⟩

/-! ## `is_cube_initial` -/

theorem isCubeInitial_iff (h : Laws f c bads) {s : Cube} (hs : ∀ l ∈ s.iter, l.not ∉ s.iter) :
    f.isCubeInitial s = true ↔ ∃ v, c.Init v ∧ s.holds v := by
  unfold isCubeInitial
  rw [List.all_eq_true]
  simp only [Bool.not_eq_true', List.contains_eq_mem, decide_eq_false_iff_not, h.initialLits]
  constructor
  · intro hall
    let v : Val := fun x => if (⟨2 * x⟩ : Literal) ∈ s.lits then true else if (⟨2 * x + 1⟩ : Literal) ∈ s.lits then false
      else decide ((⟨2 * x⟩ : Literal) ∈ f.initialStates.lits)
    refine ⟨v, ?_, ?_⟩
    · rw [← initial_holds h]
      intro l hl
      replace hl : l ∈ f.initialStates.lits := hl
      obtain ⟨i, p, hp, hl'⟩ := (mem_initial h).1 hl
      rcases hl' with ⟨h0, rfl⟩ | ⟨h1, rfl⟩
      · rw [literal_holds_mk, litVal_odd]
        have hn : (⟨2 * c.latchVar i⟩ : Literal) ∉ s.lits := by
          intro hm
          apply hall _ hm
          rw [not_mk_even]; exact hl
        have hn2 : (⟨2 * c.latchVar i⟩ : Literal) ∉ f.initialStates.lits := by
          intro hm
          obtain ⟨j, q, hq, hl2⟩ := (mem_initial h).1 hm
          rcases hl2 with ⟨_, e⟩ | ⟨h1, e⟩
          · have := congrArg Literal.code e; simp only at this; omega
          · have := congrArg Literal.code e; simp only at this
            have hij : i = j := by unfold Circuit.latchVar at this; omega
            subst hij
            rw [hp] at hq
            have := Option.some.inj hq
            subst this; omega
        have hv : v (c.latchVar i) = false := by
          show (if _ then _ else _) = _
          rw [if_neg hn, decide_eq_false hn2]
          simp
        rw [hv]; rfl
      · rw [literal_holds_mk, litVal_two]
        have hn : (⟨2 * c.latchVar i + 1⟩ : Literal) ∉ s.lits := by
          intro hm
          apply hall _ hm
          rw [← not_mk_even, Literal.not_not]; exact hl
        show (if _ then _ else _) = _
        rw [if_neg hn, decide_eq_true hl]
        simp
    · intro l hl
      replace hl : l ∈ s.lits := hl
      unfold Literal.holds
      have e := Literal.code_eq l
      cases hneg : l.isNegated with
      | false =>
        rw [hneg] at e
        have e' : (⟨2 * l.number⟩ : Literal) = l := by cases l; simp at e ⊢; omega
        show (if _ then _ else _) = _
        rw [e', if_pos hl]; rfl
      | true =>
        rw [hneg] at e
        have e' : (⟨2 * l.number + 1⟩ : Literal) = l := by cases l; simp at e ⊢; omega
        have hn : (⟨2 * l.number⟩ : Literal) ∉ s.lits := by
          intro hm
          apply hs _ hm
          rw [not_mk_even, e']; exact hl
        show (if _ then _ else _) = _
        rw [if_neg hn, e', if_pos hl]; rfl
  · rintro ⟨v, hi, hv⟩ l hl hm
    have h1 := (initial_holds h).2 hi _ hm
    rw [Literal.holds_not] at h1
    exact h1 (hv l hl)

/-- In general: `is_cube_initial` is false only for cubes that meet no initial state. -/
theorem isCubeInitial_of_init (h : Laws f c bads) {s : Cube} {v : Val} (hi : c.Init v) (hv : s.holds v) : f.isCubeInitial s = true := by
  unfold isCubeInitial
  rw [List.all_eq_true]
  intro l hl
  simp only [Bool.not_eq_true', List.contains_eq_mem, decide_eq_false_iff_not, h.initialLits]
  intro hm
  have h1 := (initial_holds h).2 hi _ hm
  rw [Literal.holds_not] at h1
  exact h1 (hv l hl)

/-! ## `extract_state_from_assignment` -/

theorem mem_states (h : Laws f c bads) {n : Nat} : n ∈ f.stateLits ↔ ∃ i, i < c.latches.length ∧ n = c.latchVar i := by
  rw [h.states, List.mem_range'_1]
  constructor
  · rintro ⟨h1, h2⟩
    exact ⟨n - (1 + c.numInputs), by omega, by unfold Circuit.latchVar; omega⟩
  · rintro ⟨i, hi, rfl⟩
    unfold Circuit.latchVar; omega

/-- The literal that fixes variable `n` to `b`. -/
def valueLit (n : Nat) (b : Bool) : Literal := if b then ⟨2 * n⟩ else ⟨2 * n + 1⟩

theorem valueLit_number (n : Nat) (b : Bool) : (valueLit n b).number = n := by
  unfold valueLit; cases b <;> simp only [if_true, if_false, Bool.false_eq_true, literal_number_mk] <;> omega

theorem valueLit_holds {n : Nat} {b : Bool} {v : Val} : (valueLit n b).holds v ↔ v n = b := by
  unfold valueLit
  cases b
  · simp only [Bool.false_eq_true, if_false, literal_holds_mk, litVal_odd]; simp
  · simp only [if_true, literal_holds_mk, litVal_two]

theorem stateLiteral_ok (dbg : Bool) {a : Assignment} {n : Nat} {b : Bool} (h0 : 1 ≤ n) (h1 : n < 2147483648)
    (hv : a.getValue n = some b) : stateLiteral dbg a n = .ok (valueLit n b) := by
  unfold stateLiteral
  rw [Literal.new_ok dbg (by omega) h1, ok_bind, hv]
  show Except.ok _ = _
  congr 1
  cases b
  · show (⟨2 * n⟩ : Literal).not = _
    rw [not_mk_even]; rfl
  · rfl

/-- The cube fixing every latch to its value in `u`. -/
def stateCube (c : Circuit) (u : Val) : Cube := Cube.new ((List.range' (1 + c.numInputs) c.latches.length).map (fun n => valueLit n (u n)))

theorem mem_stateCube {u : Val} {l : Literal} :
    l ∈ (stateCube c u).lits ↔ ∃ i, i < c.latches.length ∧ l = valueLit (c.latchVar i) (u (c.latchVar i)) := by
  unfold stateCube
  rw [Cube.mem_new, List.mem_map]
  constructor
  · rintro ⟨n, hn, rfl⟩
    rw [List.mem_range'_1] at hn
    refine ⟨n - (1 + c.numInputs), by omega, ?_⟩
    have : c.latchVar (n - (1 + c.numInputs)) = n := by unfold Circuit.latchVar; omega
    rw [this]
  · rintro ⟨i, hi, rfl⟩
    exact ⟨c.latchVar i, by rw [List.mem_range'_1]; unfold Circuit.latchVar; omega, rfl⟩

theorem stateCube_holds {u v : Val} : (stateCube c u).holds v ↔ c.SameState v u := by
  unfold Cube.holds Cube.iter Circuit.SameState
  constructor
  · intro h i hi
    exact valueLit_holds.1 (h _ (mem_stateCube.2 ⟨i, hi, rfl⟩))
  · intro h l hl
    obtain ⟨i, hi, rfl⟩ := mem_stateCube.1 hl
    exact valueLit_holds.2 (h i hi)

theorem stateCube_latch {u : Val} {l : Literal} (hl : l ∈ (stateCube c u).lits) : LatchLit c l := by
  obtain ⟨i, hi, rfl⟩ := mem_stateCube.1 hl
  exact ⟨i, hi, valueLit_number _ _⟩

theorem extractState_ok (dbg : Bool) (h : Laws f c bads) (hm : c.maxVar < 2147483648) {a : Assignment} {u : Val}
    (hv : ∀ i, i < c.latches.length → a.getValue (c.latchVar i) = some (u (c.latchVar i))) :
    f.extractState dbg a = .ok (stateCube c u) := by
  unfold extractState
  rw [mapM_eq_map (g := fun n => valueLit n (u n))]
  · rw [h.states]; rfl
  · intro n hn
    obtain ⟨i, hi, rfl⟩ := (mem_states h).1 hn
    have := latchVar_le c hi
    exact stateLiteral_ok dbg this.1 (by omega) (hv i hi)

theorem extractState_panics (dbg : Bool) (h : Laws f c bads) {a : Assignment} {i : Nat} (hi : i < c.latches.length)
    (hv : a.getValue (c.latchVar i) = none) : ∀ s, f.extractState dbg a ≠ .ok s := by
  intro s hs
  unfold extractState at hs
  rw [bind_ok] at hs
  obtain ⟨ls, hls, _⟩ := hs
  rw [mapM_ok_iff] at hls
  have hn : c.latchVar i ∈ f.stateLits := (mem_states h).2 ⟨i, hi, rfl⟩
  obtain ⟨j, hj⟩ := List.mem_iff_getElem?.1 hn
  obtain ⟨b, _, hb⟩ := hls.2 j _ hj
  unfold stateLiteral at hb
  rw [bind_ok] at hb
  obtain ⟨l, _, hb⟩ := hb
  rw [hv] at hb
  simp [unwrapR, panicR, bind, Except.bind] at hb

/-! ## Cones of latches -/

theorem cone_indep (hw : c.WF) {ls : List Nat} {v w : Val} (hin : ∀ x, 1 ≤ x → x ≤ c.numInputs → v x = w x)
    (hlat : ∀ (i : Nat) (p : Nat × Nat), c.ands[i]? = some p → c.InCone ls i → p.1 ≠ 0 → p.2 ≠ 0 →
      ∀ l, (l = p.1 ∨ l = p.2) → (∃ j, j < c.latches.length ∧ l / 2 = c.latchVar j) → v (l / 2) = w (l / 2))
    {i : Nat} (hi : c.InCone ls i) (hlt : i < c.ands.length) : c.evalVar v (c.andVar i) = c.evalVar w (c.andVar i) := by
  induction i using Nat.strongRecOn with
  | ind i ih =>
    obtain ⟨p, hp⟩ : ∃ p, c.ands[i]? = some p := ⟨_, List.getElem?_eq_getElem hlt⟩
    have hok := hw.and_ok i p hp
    rw [(Circuit.frame_evalVar hw v).2 i p hp, (Circuit.frame_evalVar hw w).2 i p hp]
    by_cases h0 : p.1 = 0 ∨ p.2 = 0
    · have z : ∀ u, litVal (c.evalVar u) 0 = false := by
        intro u; unfold litVal; simp [(Circuit.frame_evalVar hw u).1]
      rcases h0 with h0 | h0 <;> rw [h0, z, z] <;> simp
    · have sub : ∀ l, (l = p.1 ∨ l = p.2) → litVal (c.evalVar v) l = litVal (c.evalVar w) l := by
        intro l hl
        have hlt' : l / 2 < c.andVar i := by rcases hl with rfl | rfl <;> omega
        apply litVal_congr
        rcases var_cases (c := c) (x := l / 2) (by unfold Circuit.andVar at hlt'; unfold Circuit.maxVar; omega) with e | ⟨h1, h2⟩ | ⟨j, q, hq, e⟩
        · rw [e, (Circuit.frame_evalVar hw v).1, (Circuit.frame_evalVar hw w).1]
        · rw [Circuit.evalVar_base c v (by omega) h2, Circuit.evalVar_base c w (by omega) h2]
          by_cases hI : l / 2 ≤ c.numInputs
          · exact hin _ h1 hI
          · refine hlat i p hp hi (fun e => h0 (.inl e)) (fun e => h0 (.inr e)) l hl ⟨l / 2 - (1 + c.numInputs), ?_, ?_⟩
            · unfold Circuit.andVar at h2; omega
            · unfold Circuit.latchVar; omega
        · rw [e]
          refine ih j (by rw [e] at hlt'; unfold Circuit.andVar at hlt'; omega) (.input hi hp hl e (getElem?_lt hq)) (getElem?_lt hq)
      rw [sub p.1 (.inl rfl), sub p.2 (.inr rfl)]

/-- A variable other than the gate's own in its clauses is an input of the gate. -/
theorem gateClauses_reads {x a b n : Nat} {d : Clause} (hd : d ∈ gateClauses x a b) {l : Literal} (hl : l ∈ d.lits) (hn : l.number = n)
    (hx : n ≠ x) : a ≠ 0 ∧ b ≠ 0 ∧ (a / 2 = n ∨ b / 2 = n) := by
  have hx2 : (⟨2 * x⟩ : Literal).number = x := by rw [literal_number_mk]; omega
  have hx3 : (⟨2 * x⟩ : Literal).not.number = x := by rw [Literal.number_not, hx2]
  have ha3 : (⟨a⟩ : Literal).not.number = a / 2 := by rw [Literal.number_not, literal_number_mk]
  have hb3 : (⟨b⟩ : Literal).not.number = b / 2 := by rw [Literal.number_not, literal_number_mk]
  unfold gateClauses at hd
  split at hd
  · simp only [List.mem_singleton] at hd
    subst hd
    simp only [Clause.mem_new, List.mem_singleton] at hl
    subst hl
    exact absurd (hn.symm.trans hx3) hx
  · rename_i h0
    simp only [Bool.or_eq_true, beq_iff_eq, not_or] at h0
    refine ⟨h0.1, h0.2, ?_⟩
    split at hd
    · simp only [List.mem_singleton] at hd
      subst hd
      simp only [Clause.mem_new, List.mem_singleton] at hl
      subst hl
      exact absurd (hn.symm.trans hx2) hx
    split at hd
    · simp only [List.mem_cons, List.not_mem_nil, or_false] at hd
      rcases hd with rfl | rfl <;> simp only [Clause.mem_new, List.mem_cons, List.not_mem_nil, or_false] at hl <;>
        rcases hl with rfl | rfl <;> simp only [hx2, hx3, hb3, literal_number_mk] at hn <;> omega
    split at hd
    · simp only [List.mem_cons, List.not_mem_nil, or_false] at hd
      rcases hd with rfl | rfl <;> simp only [Clause.mem_new, List.mem_cons, List.not_mem_nil, or_false] at hl <;>
        rcases hl with rfl | rfl <;> simp only [hx2, hx3, ha3, literal_number_mk] at hn <;> omega
    · simp only [List.mem_cons, List.not_mem_nil, or_false] at hd
      rcases hd with rfl | rfl | rfl <;> simp only [Clause.mem_new, List.mem_cons, List.not_mem_nil, or_false] at hl
      · rcases hl with rfl | rfl <;> simp only [hx2, hx3, ha3, literal_number_mk] at hn <;> omega
      · rcases hl with rfl | rfl <;> simp only [hx2, hx3, hb3, literal_number_mk] at hn <;> omega
      · rcases hl with rfl | rfl | rfl <;> simp only [hx2, hx3, ha3, hb3, literal_number_mk] at hn <;> omega

/-- The latches a cone's gates read occur in its clauses. -/
theorem coneClause_mentions {ls : List Nat} {i : Nat} {p : Nat × Nat} (hp : c.ands[i]? = some p) (hc : c.InCone ls i) (h1 : p.1 ≠ 0)
    (h2 : p.2 ≠ 0) {l : Nat} (hl : l = p.1 ∨ l = p.2) (hl2 : 2 ≤ l) : ∃ d, ConeClause c ls d ∧ ∃ m ∈ d.lits, m.number = l / 2 := by
  have := gateClauses_mentions (x := c.andVar i) h1 h2
  rcases hl with rfl | rfl
  · obtain ⟨d, hd, m, hm, e⟩ := this.1 hl2
    exact ⟨d, ⟨i, p, hp, hc, hd⟩, m, hm, e⟩
  · obtain ⟨d, hd, m, hm, e⟩ := this.2 hl2
    exact ⟨d, ⟨i, p, hp, hc, hd⟩, m, hm, e⟩

theorem transition_cone_indep (h : Laws f c bads) (hw : c.WF) {v w : Val} (hin : ∀ x, 1 ≤ x → x ≤ c.numInputs → v x = w x)
    (hk : ∀ x ∈ f.coneTransition, v x = w x) {i : Nat} {p : Nat × Nat} (hp : c.latches[i]? = some p) :
    litVal (c.evalVar v) p.1 = litVal (c.evalVar w) p.1 := by
  apply litVal_congr
  have hok := hw.next_ok i p hp
  rcases var_cases hok with e | ⟨h1, h2⟩ | ⟨j, q, hq, e⟩
  · rw [e, (Circuit.frame_evalVar hw v).1, (Circuit.frame_evalVar hw w).1]
  · rw [Circuit.evalVar_base c v (by omega) h2, Circuit.evalVar_base c w (by omega) h2]
    by_cases hI : p.1 / 2 ≤ c.numInputs
    · exact hin _ h1 hI
    · apply hk
      rw [h.coneTransition]
      refine ⟨(mem_states h).2 ⟨p.1 / 2 - (1 + c.numInputs), by unfold Circuit.andVar at h2; omega, by unfold Circuit.latchVar; omega⟩, ?_⟩
      refine ⟨Clause.new [(⟨2 * (c.latchVar i + c.maxVar)⟩ : Literal).not, ⟨p.1⟩], (h.trans_mem _).2 (.inl ⟨i, p, hp, ?_⟩), ⟨p.1⟩, ?_,
        literal_number_mk _⟩
      · unfold latchClauses
        rw [if_neg (by simp; omega), if_neg (by simp; omega)]
        simp
      · simp
  · rw [e]
    refine cone_indep hw (ls := c.latches.map Prod.fst) hin ?_ (.root (mem_nexts hp) e (getElem?_lt hq)) (getElem?_lt hq)
    intro i' p' hp' hc' h1 h2 l hl hlj
    apply hk
    rw [h.coneTransition]
    obtain ⟨j', hj', e'⟩ := hlj
    refine ⟨(mem_states h).2 ⟨j', hj', e'⟩, ?_⟩
    obtain ⟨d, hd, m, hm, em⟩ := coneClause_mentions hp' hc' h1 h2 hl (by unfold Circuit.latchVar at e'; omega)
    exact ⟨d, (h.trans_mem d).2 (.inr hd), m, hm, em⟩

/-- The latches the cone of the bad literals keeps. -/
theorem mem_coneSafety (h : Laws f c bads) (hw : c.WF) {n : Nat} :
    n ∈ f.coneSafety ↔ ∃ i, i < c.latches.length ∧ n = c.latchVar i ∧ c.Reads bads i := by
  rw [h.coneSafety, mem_states h]
  constructor
  · rintro ⟨⟨i, hi, rfl⟩, d, hd, l, hl, e⟩
    refine ⟨i, hi, rfl, ?_⟩
    obtain ⟨g, p, hp, hc, hm⟩ := (h.safety_mem d).1 hd
    refine ⟨g, p, hp, hc, ?_⟩
    exact gateClauses_reads hm hl e (by unfold Circuit.latchVar Circuit.andVar; omega)
  · rintro ⟨i, hi, rfl, g, p, hp, hc, h1, h2, h3⟩
    refine ⟨⟨i, hi, rfl⟩, ?_⟩
    have h0 : 1 ≤ c.latchVar i := by unfold Circuit.latchVar; omega
    rcases h3 with h3 | h3
    · obtain ⟨d, hd, m, hm, em⟩ := coneClause_mentions hp hc h1 h2 (.inl rfl) (by omega)
      exact ⟨d, (h.safety_mem d).2 hd, m, hm, by rw [em, h3]⟩
    · obtain ⟨d, hd, m, hm, em⟩ := coneClause_mentions hp hc h1 h2 (.inr rfl) (by omega)
      exact ⟨d, (h.safety_mem d).2 hd, m, hm, by rw [em, h3]⟩

theorem safety_cone_indep (h : Laws f c bads) (hw : c.WF) (hb : BadsOK c bads)
    (hl : c.Covered bads) {v w : Val}
    (hin : ∀ x, 1 ≤ x → x ≤ c.numInputs → v x = w x) (hk : ∀ x ∈ f.coneSafety, v x = w x) {b : Nat} (hbm : b ∈ bads) :
    litVal (c.evalVar v) b = litVal (c.evalVar w) b := by
  apply litVal_congr
  rcases var_cases (hb.lit b hbm) with e | ⟨h1, h2⟩ | ⟨j, q, hq, e⟩
  · rw [e, (Circuit.frame_evalVar hw v).1, (Circuit.frame_evalVar hw w).1]
  · rw [Circuit.evalVar_base c v (by omega) h2, Circuit.evalVar_base c w (by omega) h2]
    by_cases hI : b / 2 ≤ c.numInputs
    · exact hin _ h1 hI
    · have hi : b / 2 - (1 + c.numInputs) < c.latches.length := by unfold Circuit.andVar at h2; omega
      have he : b / 2 = c.latchVar (b / 2 - (1 + c.numInputs)) := by unfold Circuit.latchVar; omega
      exact hk _ ((mem_coneSafety h hw).2 ⟨_, hi, he, hl b hbm _ hi he⟩)
  · rw [e]
    refine cone_indep hw (ls := bads) hin ?_ (.root hbm e (getElem?_lt hq)) (getElem?_lt hq)
    intro i' p' hp' hc' h1 h2 l hl hlj
    apply hk
    rw [h.coneSafety]
    obtain ⟨j', hj', e'⟩ := hlj
    refine ⟨(mem_states h).2 ⟨j', hj', e'⟩, ?_⟩
    obtain ⟨d, hd, m, hm, em⟩ := coneClause_mentions hp' hc' h1 h2 hl (by unfold Circuit.latchVar at e'; omega)
    exact ⟨d, (h.safety_mem d).2 hd, m, hm, em⟩

end Fsts

end Verif
