import Verif.Proofs.FstsEnc

/-! # `check_invariant` -/

namespace Verif.Fsts

variable {f : Fsts} {c : Circuit} {bads : List Nat}

theorem run_bind {σ α β : Type} {m : StateT σ Res α} {k : α → StateT σ Res β} {s s' : σ} {a : α} (h : m s = .ok (a, s')) :
    (m >>= k) s = k a s' := by
  show Except.bind (m s) (fun p => k p.1 p.2) = _
  rw [h]; rfl

theorem run_lift_bind {σ α β : Type} {r : Res α} {k : α → StateT σ Res β} {s : σ} {a : α} (h : r = .ok a) :
    ((liftM r : StateT σ Res α) >>= k) s = k a s := by
  subst h; rfl

theorem run_assert_bind {σ β : Type} {site : String} {b : Bool} {k : Unit → StateT σ Res β} {s : σ} {y : β × σ} :
    ((liftM (assertR site b) : StateT σ Res Unit) >>= k) s = .ok y ↔ b = true ∧ k () s = .ok y := by
  cases b with
  | true => constructor
            · intro h; exact ⟨rfl, h⟩
            · intro h; exact h.2
  | false => constructor
             · intro h; cases h
             · intro h; exact absurd h.1 (by simp)

theorem run_assert {σ : Type} {site : String} {b : Bool} {s : σ} {y : Unit × σ} :
    (liftM (assertR site b) : StateT σ Res Unit) s = .ok y ↔ b = true ∧ y = ((), s) := by
  cases b with
  | true => constructor
            · intro h; exact ⟨rfl, (Except.ok.inj h).symm⟩
            · intro h; rw [h.2]; rfl
  | false => constructor
             · intro h; cases h
             · intro h; exact absurd h.1 (by simp)

/-- A formula over one frame's variables. -/
structure OneFrame (c : Circuit) (inv : CNF) : Prop where
  wf : inv.WF
  num : ∀ d ∈ inv.clauses, ∀ l ∈ d.lits, 1 ≤ l.number ∧ l.number ≤ c.maxVar

theorem OneFrame.holds_congr {inv : CNF} (hi : OneFrame c inv) {v w : Val} (h : ∀ x, 1 ≤ x → x ≤ c.maxVar → v x = w x) :
    inv.holds v → inv.holds w := by
  intro hv d hd
  obtain ⟨l, hl, hlv⟩ := hv d hd
  have := hi.num d hd l hl
  refine ⟨l, hl, ?_⟩
  unfold Literal.holds at *
  rw [← h _ this.1 this.2]; exact hlv

theorem OneFrame.max_le {g : CNF} (h : OneFrame c g) : g.maxVar ≤ c.maxVar := by
  rcases h.wf.attained with h0 | ⟨d, hd, l, hl, e⟩
  · omega
  · rw [← e]; exact (h.num d hd l hl).2

theorem OneFrame.ready {g : CNF} (h : OneFrame c g) (hs : c.Small) : g.Ready :=
  h.wf.ready fun d hd l hl => by
    have := h.num d hd l hl
    unfold Circuit.Small at hs
    exact ⟨this.1, by omega⟩

theorem OneFrame.shift_ok {g : CNF} (dbg : Bool) (hg : OneFrame c g) (hs : c.Small) (hm : f.maxLiteral = c.maxVar) :
    f.addTagsToRelation dbg g 1 = .ok (g.shift c.maxVar) := by
  have := addTagsToRelation_ok dbg f (g := g) (tags := 1) hg.wf (fun d hd l hl => (hg.num d hd l hl).1) (by
    have := hg.max_le; unfold Circuit.Small at hs; omega)
  rw [Nat.mul_one, hm] at this
  exact this

theorem OneFrame.shift_ready {g : CNF} (hg : OneFrame c g) (hs : c.Small) : (g.shift c.maxVar).Ready :=
  hg.wf.shift.ready fun d hd l hl => by
    obtain ⟨e, he, rfl⟩ := CNF.mem_shift.1 hd
    obtain ⟨m, hm, rfl⟩ := List.mem_map.1 hl
    have := hg.num e he m hm
    unfold Circuit.Small at hs
    exact ⟨by rw [Literal.number_shift]; omega, by rw [Literal.number_shift]; omega⟩

/-- A formula whose variables, and those of the next frame it is renamed to, are in the range of the solver. -/
structure Ranged (c : Circuit) (V : Nat) (inv : CNF) : Prop where
  wf : inv.WF
  num : ∀ d ∈ inv.clauses, ∀ l ∈ d.lits, 1 ≤ l.number ∧ l.number + c.maxVar ≤ V

theorem OneFrame.ranged {g : CNF} (h : OneFrame c g) (hs : c.Small) : Ranged c 2147483646 g :=
  ⟨h.wf, fun d hd l hl => by
    have := h.num d hd l hl
    unfold Circuit.Small at hs
    exact ⟨this.1, by omega⟩⟩

variable {V : Nat}

theorem Ranged.ready {g : CNF} (h : Ranged c V g) : g.Ready V :=
  h.wf.ready fun d hd l hl => by
    have := h.num d hd l hl
    exact ⟨this.1, by omega⟩

theorem Ranged.shift_ok {g : CNF} (dbg : Bool) (hg : Ranged c V g) (hs : c.Small) (hV : V ≤ 2147483647) (hm : f.maxLiteral = c.maxVar) :
    f.addTagsToRelation dbg g 1 = .ok (g.shift c.maxVar) := by
  have := addTagsToRelation_ok dbg f (g := g) (tags := 1) hg.wf (fun d hd l hl => (hg.num d hd l hl).1) (by
    unfold Circuit.Small at hs
    rcases hg.wf.attained with h0 | ⟨d, hd, l, hl, e⟩
    · omega
    · have := (hg.num d hd l hl).2; omega)
  rw [Nat.mul_one, hm] at this
  exact this

theorem Ranged.shift_ready {g : CNF} (hg : Ranged c V g) : (g.shift c.maxVar).Ready V :=
  hg.wf.shift.ready fun d hd l hl => by
    obtain ⟨e, he, rfl⟩ := CNF.mem_shift.1 hd
    obtain ⟨m, hm, rfl⟩ := List.mem_map.1 hl
    have := hg.num e he m hm
    exact ⟨by rw [Literal.number_shift]; omega, by rw [Literal.number_shift]; omega⟩

/-- `check_invariant` returns exactly when its three implications are valid. -/
theorem checkInvariant_any (dbg : Bool) {env : Env} (hV : 2147483646 ≤ V) (hV' : V ≤ 2147483647) (he : env.Correct V) (h : Laws f c bads)
    (hw : c.WF) (hb : BadsOK c bads) (hs : c.Small) {inv : CNF} (hi : Ranged c V inv) (t : Nat) :
    (∃ t', checkInvariant dbg env f inv t = .ok ((), t')) ↔
      (∀ w, c.Init w → f.stateToSafety.holds w → inv.holds w) ∧
      (∀ w, f.transition.holds w → inv.holds w → f.stateToSafety.holds w → f.stateToSafety.holds (fun x => w (x + c.maxVar)) →
        inv.holds (fun x => w (x + c.maxVar))) ∧
      (∀ w, inv.holds w → f.stateToSafety.holds w → ¬ f.unsafety.holds w) := by
  have hE := hs.encodable
  have eS := Enc.safety h hw
  have hSr := (safety_ready h hw hE).mono hV
  have hTr := (transition_ready h hw hs).mono hV
  have hIr := (Cube.toCnf_ready (initial_good h hE)).mono hV
  have hUr := (Clause.toCnf_ready (unsafety_sorted h) (unsafety_good h hb hE)).mono hV
  obtain ⟨r1, t1, e1, h1⟩ := (doesAImplyB_spec he (hIr.append hSr) hi.ready.good).total (s := t) trivial
  have eTag := eS.shift_ok (f := f) dbg hs h.maxLit
  have eInv := hi.shift_ok (f := f) dbg hs hV' h.maxLit
  obtain ⟨r2, t2, e2, h2⟩ := (doesAImplyB_spec he (((hTr.append hi.ready).append hSr).append ((eS.shift_ready hs).mono hV))
    hi.shift_ready.good).total (s := t1) trivial
  obtain ⟨r3, t3, e3, h3⟩ := (isAAndBSatisfiable_spec he hi.ready (hUr.append hSr)).total (s := t2) trivial
  have key : ∀ y, checkInvariant dbg env f inv t = .ok y ↔ r1 = true ∧ r2 = true ∧ r3 = false ∧ y = ((), t3) := by
    intro y
    unfold checkInvariant
    simp only [getInitialRelation, getStateToSafetyTranslation, getTransitionRelation, getUnsafetyProperty]
    rw [run_bind e1, run_assert_bind, run_lift_bind eTag, run_lift_bind eInv, run_bind e2, run_assert_bind, run_bind e3, run_assert]
    simp
  have hkey : (∃ t', checkInvariant dbg env f inv t = .ok ((), t')) ↔ r1 = true ∧ r2 = true ∧ r3 = false := by
    simp only [key]
    constructor
    · rintro ⟨t', h1, h2, h3, _⟩; exact ⟨h1, h2, h3⟩
    · rintro ⟨h1, h2, h3⟩; exact ⟨t3, h1, h2, h3, rfl⟩
  have h3' : r3 = false ↔ ¬ ∃ v, inv.holds v ∧ (f.unsafety.toCnf.append f.stateToSafety).holds v := by
    rw [← h3]; cases r3 <;> simp
  rw [hkey, h1, h2, h3']
  simp only [CNF.holds_append, Cube.toCnf_holds, Clause.toCnf_holds, initial_holds h, CNF.holds_shift]
  refine and_congr ?_ (and_congr ?_ ?_)
  · exact ⟨fun g w a b => g w ⟨a, b⟩, fun g w a => g w a.1 a.2⟩
  · exact ⟨fun g w a b c d => g w ⟨⟨⟨a, b⟩, c⟩, d⟩, fun g w a => g w a.1.1.1 a.1.1.2 a.1.2 a.2⟩
  · exact ⟨fun g w a b d => g ⟨w, a, d, b⟩, fun g ⟨w, a, d, b⟩ => g w a b d⟩

/-- `checkInvariant_any` for a formula over one frame. -/
theorem checkInvariant_iff (dbg : Bool) {env : Env} (he : env.Correct) (h : Laws f c bads) (hw : c.WF) (hb : BadsOK c bads) (hs : c.Small)
    {inv : CNF} (hi : OneFrame c inv) (t : Nat) :
    (∃ t', checkInvariant dbg env f inv t = .ok ((), t')) ↔
      (∀ w, c.Init w → f.stateToSafety.holds w → inv.holds w) ∧
      (∀ w, f.transition.holds w → inv.holds w → f.stateToSafety.holds w → f.stateToSafety.holds (fun x => w (x + c.maxVar)) →
        inv.holds (fun x => w (x + c.maxVar))) ∧
      (∀ w, inv.holds w → f.stateToSafety.holds w → ¬ f.unsafety.holds w) :=
  checkInvariant_any dbg (Nat.le_refl _) (by decide) he h hw hb hs (hi.ranged hs) t

/-- An accepted candidate holds in every reachable state. -/
theorem checkInvariant_reach (dbg : Bool) {env : Env} (he : env.Correct) (h : Laws f c bads) (hw : c.WF) (hb : BadsOK c bads) (hs : c.Small)
    {inv : CNF} (hi : OneFrame c inv) {t t' : Nat}
    (hc : checkInvariant dbg env f inv t = .ok ((), t')) {d : Nat} {v : Val} (hr : c.Reach d v) : inv.holds (c.evalVar v) := by
  have congr' := @OneFrame.holds_congr c inv hi
  obtain ⟨h1, h2, _⟩ := (checkInvariant_iff dbg he h hw hb hs hi t).1 ⟨t', hc⟩
  induction hr with
  | @init v hI =>
    refine h1 _ (hI.congr fun i hi => (Circuit.evalVar_latch c _ hi).symm) (safety_complete h hw (v := v) fun x _ _ => rfl)
  | @step d v v' _ ht ih =>
    have hj := join_wires c v v'
    have hj' := join_wires' c v v'
    have := h2 (join c v v') (transition_join h hw ht) (congr' (fun x h1 h2 => (hj x h1 h2).symm) ih) (safety_complete h hw hj)
      (safety_complete h hw hj')
    exact congr' (fun x h1 h2 => hj' x h1 h2) this

theorem checkInvariant_sound (dbg : Bool) {env : Env} (he : env.Correct) (h : Laws f c bads) (hw : c.WF) (hb : BadsOK c bads) (hs : c.Small)
    {inv : CNF} (hi : OneFrame c inv) {t t' : Nat}
    (hc : checkInvariant dbg env f inv t = .ok ((), t')) : c.Safe bads := by
  obtain ⟨_, _, h3⟩ := (checkInvariant_iff dbg he h hw hb hs hi t).1 ⟨t', hc⟩
  intro d hd
  obtain ⟨v, hr, hbad⟩ := (Circuit.unsafeAt_iff hw hb.lit d).1 hd
  have hw' : Wires c v (c.evalVar v) := fun x _ _ => rfl
  have hS := safety_complete h hw hw'
  exact h3 _ (checkInvariant_reach dbg he h hw hb hs hi hc hr) hS ((unsafety_iff h hw hb hS).2 ((hw'.badAt hw hb).2 hbad))

/-- An accepted candidate holds at every clock of every execution. -/
theorem checkInvariant_exec (dbg : Bool) {env : Env} (he : env.Correct) (h : Laws f c bads) (hw : c.WF) (hb : BadsOK c bads) (hs : c.Small)
    {inv : CNF} (hi : OneFrame c inv) {t t' : Nat}
    (hc : checkInvariant dbg env f inv t = .ok ((), t')) {w : Nat → Val} {d : Nat} (hE : c.Exec w d) : inv.holds (w d) := by
  have hp : c.Path w d := ⟨hE.init, fun t ht i p hp => by
    rw [hE.step t ht i p hp]
    exact (litVal_congr (Circuit.frame_eval_eq hw (hE.frame t (by omega)) (hw.next_ok i p hp))).symm⟩
  exact hi.holds_congr (fun x _ hx => Circuit.frame_eval_eq hw (hE.frame d (Nat.le_refl _)) hx)
    (checkInvariant_reach dbg he h hw hb hs hi hc (Circuit.reach_of_path hp d (Nat.le_refl _)))

/-- A literal over an input, a latch, or a gate in the cone of the bad literals. -/
def ConeLit (c : Circuit) (bads : List Nat) (l : Literal) : Prop :=
  1 ≤ l.number ∧ l.number ≤ c.maxVar ∧ ∀ i, i < c.ands.length → l.number = c.andVar i → c.InCone bads i

theorem ConeLit.holds_eval (hw : c.WF) {l : Literal} (hl : ConeLit c bads l) {w : Val} (h : ConeOK c bads w) :
    l.holds (c.evalVar w) ↔ l.holds w := by
  have := cone_eval hw h l.number hl.2.1 hl.2.2
  unfold grounded at this
  rw [if_neg (by have := hl.1; omega)] at this
  unfold Literal.holds
  rw [this]

theorem holds_eval (hw : c.WF) {inv : CNF} (hn : ∀ d ∈ inv.clauses, ∀ l ∈ d.lits, ConeLit c bads l) {w : Val} (h : ConeOK c bads w) :
    inv.holds (c.evalVar w) ↔ inv.holds w := by
  constructor
  · intro g d hd
    obtain ⟨l, hl, hlv⟩ := g d hd
    exact ⟨l, hl, ((hn d hd l hl).holds_eval hw h).1 hlv⟩
  · intro g d hd
    obtain ⟨l, hl, hlv⟩ := g d hd
    exact ⟨l, hl, ((hn d hd l hl).holds_eval hw h).2 hlv⟩

theorem OneFrame.of_cone {inv : CNF} (hwf : inv.WF) (hn : ∀ d ∈ inv.clauses, ∀ l ∈ d.lits, ConeLit c bads l) : OneFrame c inv :=
  ⟨hwf, fun d hd l hl => ⟨(hn d hd l hl).1, (hn d hd l hl).2.1⟩⟩

/-- For candidates over inputs, latches and gates in the cone of the bad literals the three implications are those of the circuit. -/
theorem checkInvariant_exact (dbg : Bool) {env : Env} (he : env.Correct) (h : Laws f c bads) (hw : c.WF) (hb : BadsOK c bads) (hs : c.Small)
    {inv : CNF} (hwf : inv.WF) (hn : ∀ d ∈ inv.clauses, ∀ l ∈ d.lits, ConeLit c bads l) (t : Nat) :
    (∃ t', checkInvariant dbg env f inv t = .ok ((), t')) ↔
      (∀ v, c.Init v → inv.holds (c.evalVar v)) ∧
      (∀ v v', inv.holds (c.evalVar v) → c.Trans v v' → inv.holds (c.evalVar v')) ∧
      (∀ v, inv.holds (c.evalVar v) → ¬ c.BadAt bads v) := by
  have hi := OneFrame.of_cone hwf hn
  rw [checkInvariant_iff dbg he h hw hb hs hi t]
  have ev : ∀ {w}, f.stateToSafety.holds w → (inv.holds (c.evalVar w) ↔ inv.holds w) := fun hS => holds_eval hw hn ((safety_holds h).1 hS)
  refine ⟨fun ⟨h1, h2, h3⟩ => ⟨?_, ?_, ?_⟩, fun ⟨h1, h2, h3⟩ => ⟨?_, ?_, ?_⟩⟩
  · intro v hI
    exact h1 _ (hI.congr fun i hi => (Circuit.evalVar_latch c _ hi).symm) (safety_complete h hw (v := v) fun x _ _ => rfl)
  · intro v v' hv ht
    have hj := join_wires c v v'
    have hj' := join_wires' c v v'
    have := h2 (join c v v') (transition_join h hw ht) (hi.holds_congr (fun x h1 h2 => (hj x h1 h2).symm) hv) (safety_complete h hw hj)
      (safety_complete h hw hj')
    exact hi.holds_congr (fun x h1 h2 => hj' x h1 h2) this
  · intro v hv hbad
    have hw' : Wires c v (c.evalVar v) := fun x _ _ => rfl
    have hS := safety_complete h hw hw'
    exact h3 _ hv hS ((unsafety_iff h hw hb hS).2 ((hw'.badAt hw hb).2 hbad))
  · intro w hI hS
    exact (ev hS).1 (h1 w hI)
  · intro w hT hinv hS hS'
    exact (ev hS').1 (h2 w _ ((ev hS).2 hinv) (transition_sound h hw hT))
  · intro w hinv hS hU
    exact h3 w ((ev hS).2 hinv) ((unsafety_iff h hw hb hS).1 hU)

/-- A candidate over inputs and latches that is an inductive invariant excluding bad states is accepted. -/
theorem checkInvariant_complete (dbg : Bool) {env : Env} (he : env.Correct) (h : Laws f c bads) (hw : c.WF) (hb : BadsOK c bads) (hs : c.Small)
    {inv : CNF} (hwf : inv.WF) (hbase : ∀ d ∈ inv.clauses, ∀ l ∈ d.lits, BaseLit c l)
    (h1 : ∀ v, c.Init v → inv.holds v) (h2 : ∀ v v', inv.holds v → c.Trans v v' → inv.holds v')
    (h3 : ∀ v, inv.holds v → ¬ c.BadAt bads v) (t : Nat) : ∃ t', checkInvariant dbg env f inv t = .ok ((), t') := by
  refine (checkInvariant_iff dbg he h hw hb hs ⟨hwf, fun d hd l hl => (hbase d hd l hl).le⟩ t).2 ⟨?_, ?_, ?_⟩
  · intro w hi _; exact h1 w hi
  · intro w hT hinv _ _
    exact h2 w _ hinv (transition_sound h hw hT)
  · intro w hinv hS hU
    exact h3 w hinv ((unsafety_iff h hw hb hS).1 hU)

/-! ## Candidates over any variables -/

/-- Successive cycles read as one valuation: variable `k * maxVar + x` has the value of variable `x` in cycle `k`. -/
def unrolled (c : Circuit) (w : Nat → Val) : Val :=
  fun x => if c.maxVar = 0 then w 0 x else w ((x - 1) / c.maxVar) ((x - 1) % c.maxVar + 1)

theorem unrolled_low {w : Nat → Val} {x : Nat} (h1 : 1 ≤ x) (h2 : x ≤ c.maxVar) : unrolled c w x = w 0 x := by
  unfold unrolled
  rw [if_neg (by omega), Nat.div_eq_of_lt (by omega), Nat.mod_eq_of_lt (by omega), show x - 1 + 1 = x by omega]

theorem unrolled_shift {w : Nat → Val} {x : Nat} (h1 : 1 ≤ x) (hm : c.maxVar ≠ 0) :
    unrolled c w (x + c.maxVar) = unrolled c (fun k => w (k + 1)) x := by
  unfold unrolled
  rw [if_neg hm, if_neg hm, show x + c.maxVar - 1 = x - 1 + c.maxVar by omega, Nat.add_div_right _ (by omega), Nat.add_mod_right]

theorem Ranged.holds_congr {inv : CNF} (hi : Ranged c V inv) {v w : Val} (h : ∀ x, 1 ≤ x → v x = w x) : inv.holds v → inv.holds w := by
  intro hv d hd
  obtain ⟨l, hl, hlv⟩ := hv d hd
  refine ⟨l, hl, ?_⟩
  unfold Literal.holds at *
  rw [← h _ (hi.num d hd l hl).1]; exact hlv

/-- An accepted candidate holds at every clock of every execution, when its variables beyond the first cycle are read in the next ones. -/
theorem checkInvariant_unrolled (dbg : Bool) {env : Env} (hV : 2147483646 ≤ V) (hV' : V ≤ 2147483647) (he : env.Correct V) (h : Laws f c bads)
    (hw : c.WF) (hb : BadsOK c bads) (hs : c.Small) {inv : CNF} (hi : Ranged c V inv) {t t' : Nat}
    (hc : checkInvariant dbg env f inv t = .ok ((), t')) {d : Nat} {w : Nat → Val} (hE : c.Exec w d) :
    inv.holds (unrolled c fun k => w (d + k)) := by
  obtain ⟨h1, h2, _⟩ := (checkInvariant_any dbg hV hV' he h hw hb hs hi t).1 ⟨t', hc⟩
  have wires : ∀ {n}, n ≤ d → Wires c (w n) (unrolled c fun k => w (n + k)) := fun hn x h1 hx => by
    rw [unrolled_low h1 hx]; exact (Circuit.frame_eval_eq hw (hE.frame _ hn) hx).symm
  have key : ∀ n, n ≤ d → inv.holds (unrolled c fun k => w (n + k)) := by
    intro n
    induction n with
    | zero =>
      intro hn
      refine h1 _ (hE.init.congr fun i hi => ?_) (safety_complete h hw (wires hn))
      rw [unrolled_low (by unfold Circuit.latchVar; omega) (latchVar_le c hi).2]
    | succ n ih =>
      intro hn
      by_cases hm : c.maxVar = 0
      · refine h1 _ (fun i p hp => ?_) (safety_complete h hw (wires hn))
        have := latchVar_le c (getElem?_lt hp)
        unfold Circuit.latchVar at this
        omega
      have e : ∀ x, 1 ≤ x → (unrolled c fun k => w (n + k)) (x + c.maxVar) = (unrolled c fun k => w (n + 1 + k)) x := fun x hx => by
        rw [unrolled_shift hx hm]
        congr 1
        funext k
        rw [show n + (k + 1) = n + 1 + k by omega]
      have w1 := wires (n := n) (by omega)
      have w2 : Wires c (w (n + 1)) (fun x => (unrolled c fun k => w (n + k)) (x + c.maxVar)) := fun x h1 hx => by
        show (unrolled c fun k => w (n + k)) (x + c.maxVar) = _
        rw [e x h1]; exact wires hn x h1 hx
      have hT : f.transition.holds (unrolled c fun k => w (n + k)) := by
        refine transition_complete h hw (v := w n) (v' := w (n + 1)) (fun i p hp => ?_) w1 fun i hi => ?_
        · rw [hE.step n (by omega) i p hp]
          exact (litVal_congr (Circuit.frame_eval_eq hw (hE.frame n (by omega)) (hw.next_ok i p hp))).symm
        · rw [e _ (by unfold Circuit.latchVar; omega), unrolled_low (by unfold Circuit.latchVar; omega) (latchVar_le c hi).2]
      exact hi.holds_congr e (h2 _ hT (ih (by omega)) (safety_complete h hw w1) (safety_complete h hw w2))
  exact key d (Nat.le_refl _)

theorem checkInvariant_any_sound (dbg : Bool) {env : Env} (hV : 2147483646 ≤ V) (hV' : V ≤ 2147483647) (he : env.Correct V) (h : Laws f c bads)
    (hw : c.WF) (hb : BadsOK c bads) (hs : c.Small) {inv : CNF} (hi : Ranged c V inv) {t t' : Nat}
    (hc : checkInvariant dbg env f inv t = .ok ((), t')) : c.Safe bads := by
  obtain ⟨_, _, h3⟩ := (checkInvariant_any dbg hV hV' he h hw hb hs hi t).1 ⟨t', hc⟩
  rintro d ⟨w, hE, b, hb1, hb2⟩
  have hf := hE.frame d (Nat.le_refl _)
  have wires : Wires c (w d) (unrolled c fun k => w (d + k)) := fun x h1 hx => by
    rw [unrolled_low h1 hx]; exact (Circuit.frame_eval_eq hw hf hx).symm
  have hS := safety_complete h hw wires
  refine h3 _ (checkInvariant_unrolled dbg hV hV' he h hw hb hs hi hc hE) hS ((unsafety_iff h hw hb hS).2 ((wires.badAt hw hb).2 ⟨b, hb1, ?_⟩))
  rw [litVal_congr (Circuit.frame_eval_eq hw hf (hb.lit b hb1))]; exact hb2

/-- Debug builds check the range themselves. -/
theorem checkInvariant_ranged {env : Env} (h : Laws f c bads) (hm : c.maxVar ≠ 0) {inv : CNF} (hi : inv.WF) {t t' : Nat}
    (hc : checkInvariant true env f inv t = .ok ((), t')) : Ranged c 2147483647 inv := by
  have bind_ok : ∀ {α β : Type} {m : M α} {k : α → M β} {s : Nat} {y : β × Nat}, (m >>= k) s = .ok y →
      ∃ a s', m s = .ok (a, s') ∧ k a s' = .ok y := by
    intro α β m k s y e
    change Except.bind (m s) (fun p => k p.1 p.2) = _ at e
    cases hms : m s with
    | error x => rw [hms] at e; cases e
    | ok p => rw [hms] at e; exact ⟨p.1, p.2, rfl, e⟩
  unfold checkInvariant at hc
  obtain ⟨_, _, _, hc⟩ := bind_ok hc
  obtain ⟨_, _, _, hc⟩ := bind_ok hc
  obtain ⟨_, _, _, hc⟩ := bind_ok hc
  obtain ⟨b, _, e, _⟩ := bind_ok hc
  have e : (liftM (f.addTagsToRelation true inv 1) : M CNF) _ = _ := e
  rcases addTagsToRelation_debug f inv 1 (by rw [h.maxLit]; omega) with ⟨⟨_, h1⟩, _⟩ | ⟨_, site, h1⟩
  · refine ⟨hi, fun d hd l hl => ?_⟩
    have := h1 d hd l hl
    rw [h.maxLit] at this
    exact ⟨this.1, by omega⟩
  · rw [h1] at e; cases e

theorem checkInvariant_debug_sound {env : Env} (he : env.Correct 2147483647) (h : Laws f c bads) (hw : c.WF) (hb : BadsOK c bads) (hs : c.Small)
    {inv : CNF} (hi : inv.WF) {t t' : Nat} (hc : checkInvariant true env f inv t = .ok ((), t')) : c.Safe bads := by
  by_cases hm : c.maxVar = 0
  · rintro d ⟨_, _, b, hb1, _⟩
    have h1 := hb.lit b hb1
    have h2 := hb.two_le b hb1
    unfold Circuit.LitOK at h1
    omega
  · exact checkInvariant_any_sound true (by decide) (Nat.le_refl _) he h hw hb hs (checkInvariant_ranged h hm hi hc) hc

end Verif.Fsts
