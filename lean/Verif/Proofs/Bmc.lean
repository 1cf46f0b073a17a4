import Verif.Model.Bmc
import Verif.Proofs.FstsInvariant
import Verif.Proofs.FstsReject

/-! # Bounded model checking -/

namespace Verif.BMC

open Verif.Fsts

variable {f : Fsts} {c : Circuit} {bads : List Nat}

/-- Reading a valuation at frame `t`. -/
def at_ (f : Fsts) (w : Val) (t : Nat) : Val := fun x => w (x + f.maxLiteral * t)

/-- What the formula of depth `d` says. -/
structure Unrolled (f : Fsts) (d : Nat) (w : Val) : Prop where
  init : f.initialStates.holds w
  step : ∀ t, t < d → f.transition.holds (at_ f w t)
  unsafety : f.unsafety.holds (at_ f w d)
  safety : f.stateToSafety.holds (at_ f w d)

/-! ## Building the formula -/

/-- Tagging with everything in range, or in a debug build where out-of-range values panic. -/
theorem tag_inv {V : Nat} {dbg : Bool} {g r : CNF} {tags : Nat} (hg : g.Good) (hs : g.WF) (hV : V ≤ 2147483647)
    (hd : (dbg = true ∧ V = 2147483647) ∨ g.maxVar + f.maxLiteral * tags ≤ V) (h : f.addTagsToRelation dbg g tags = .ok r) :
    r = g.shift (f.maxLiteral * tags) ∧ r.Ready V := by
  have hnum : ∀ d ∈ g.clauses, ∀ l ∈ d.lits, 1 ≤ l.number ∧ l.number < 2147483648 := fun d hd l hl =>
    ⟨(hg d hd l hl).1, by have := (hg d hd l hl).2; omega⟩
  have fin : (∀ d ∈ g.clauses, ∀ l ∈ d.lits, l.number + f.maxLiteral * tags ≤ V) →
      r = g.shift (f.maxLiteral * tags) → r = g.shift (f.maxLiteral * tags) ∧ r.Ready V := by
    intro hb e
    refine ⟨e, ?_⟩
    subst e
    refine hs.shift.ready ?_
    intro d hd l hl
    obtain ⟨d', hd', rfl⟩ := CNF.mem_shift.1 hd
    obtain ⟨l', hl', rfl⟩ := List.mem_map.1 hl
    have h1 := hnum d' hd' l' hl'
    have h2 := hb d' hd' l' hl'
    exact ⟨by rw [Literal.number_shift]; omega, by rw [Literal.number_shift]; exact h2⟩
  by_cases hr : g.maxVar + f.maxLiteral * tags ≤ V
  · rw [addTagsToRelation_ok dbg f hs (fun d hd l hl => (hnum d hd l hl).1) (by omega)] at h
    refine fin ?_ (Except.ok.inj h).symm
    intro d hd l hl
    have := hs.le_max d hd l hl
    omega
  · obtain ⟨hd, hV⟩ := hd.resolve_right hr
    subst hd
    subst hV
    unfold addTagsToRelation at h
    rw [bind_ok] at h
    obtain ⟨n, hn, h⟩ := h
    have en : n = f.maxLiteral * tags := by
      unfold u32Mul at hn
      split at hn
      · exact (Except.ok.inj hn).symm
      · simp [panicR] at hn
    subst en
    have hb : ∀ d ∈ g.clauses, ∀ l ∈ d.lits, l.number + f.maxLiteral * tags < 2147483648 := by
      by_cases h0 : f.maxLiteral * tags = 0
      · rw [h0]; intro d hd l hl; exact (hnum d hd l hl).2
      · unfold bumpCnf at h
        rw [if_neg (by simpa using h0)] at h
        intro d hd l hl
        obtain ⟨s1, s2, hstep⟩ := foldlM_ok_step h d hd
        rw [bind_ok] at hstep
        obtain ⟨d', hd', _⟩ := hstep
        unfold bumpClause at hd'
        rw [bind_ok] at hd'
        obtain ⟨ls, hls, _⟩ := hd'
        rw [mapM_ok_iff] at hls
        obtain ⟨j, hj⟩ := List.mem_iff_getElem?.1 hl
        obtain ⟨b, _, hb⟩ := hls.2 j l hj
        unfold bumpLiteral at hb
        rw [bind_ok] at hb; obtain ⟨_, _, hb⟩ := hb
        rw [bind_ok] at hb; obtain ⟨m, hm, hb⟩ := hb
        rw [bind_ok] at hb; obtain ⟨_, hnew, _⟩ := hb
        have := new_debug_ok hnew
        unfold u32Add at hm
        split at hm
        · have := Except.ok.inj hm; omega
        · simp [panicR] at hm
    refine fin (fun d hd l hl => by have := hb d hd l hl; omega) ?_
    rw [bumpCnf_ok true hs.sorted (fun d hd l hl => ⟨(hnum d hd l hl).1, hb d hd l hl⟩)] at h
    exact (Except.ok.inj h).symm

/-- Everything `search` needs from the system. -/
structure Sys (f : Fsts) (c : Circuit) (bads : List Nat) : Prop where
  laws : Laws f c bads
  wf : c.WF
  bad : BadsOK c bads
  enc : Encodable c

def notP0 (f : Fsts) : CNF := f.unsafety.toCnf.append f.stateToSafety

theorem notP0_wf (h : Sys f c bads) : (notP0 f).WF := (Clause.toCnf_wf (unsafety_sorted h.laws)).append h.laws.safety_wf
theorem notP0_ready (h : Sys f c bads) : (notP0 f).Ready 2147483647 :=
  ((Clause.toCnf_ready (unsafety_sorted h.laws) (unsafety_good h.laws h.bad h.enc)).append (safety_ready h.laws h.wf h.enc)).mono (by decide)

theorem trans_ready (h : Sys f c bads) : f.transition.Ready 2147483647 :=
  transition_ready_enc h.laws h.wf (by have := h.enc.max_lt; omega) fun i hi => by have := h.enc.latch_lt i hi; omega

theorem notP0_max (h : Sys f c bads) : (notP0 f).maxVar ≤ c.maxVar := by
  rcases (notP0_wf h).attained with h0 | ⟨d, hd, l, hl, e⟩
  · omega
  · rw [← e]
    rcases CNF.mem_append.1 hd with hd | hd
    · simp [Clause.toCnf, CNF.addClause, CNF.new, setInsert] at hd
      subst hd
      exact (unsafety_number h.laws h.bad hl).2
    · exact (safety_number h.laws h.wf hd hl).2

theorem transition_max (h : Sys f c bads) : f.transition.maxVar ≤ 2 * c.maxVar := by
  rcases h.laws.trans_wf.attained with h0 | ⟨d, hd, l, hl, e⟩
  · omega
  · rw [← e]; have := (transition_number_le h.laws h.wf hd hl).2; omega

/-- The solver handles variables up to `V`, and the formulas up to the depth limit use no more.  In debug builds all literals are
enough, because a formula that needs larger numbers panics. -/
def InRange (V : Nat) (dbg : Bool) (c : Circuit) (limit : Nat) : Prop :=
  V ≤ 2147483647 ∧ ((dbg = true ∧ V = 2147483647) ∨ c.maxVar * (limit + 1) ≤ V)

theorem satFormula_inv {V : Nat} {dbg : Bool} {limit depth : Nat} (h : Sys f c bads) (hr : InRange V dbg c limit) (hd : depth ≤ limit) {g : CNF}
    (he : satFormula dbg f f.initialStates (notP0 f) f.transition depth = .ok g) : g.Ready V ∧ ∀ w, g.holds w ↔ Unrolled f depth w := by
  obtain ⟨hV, hr⟩ := hr
  have hmul : ∀ k, k ≤ limit → c.maxVar * (k + 1) ≤ c.maxVar * (limit + 1) := fun k hk => Nat.mul_le_mul_left _ (by omega)
  have hm := h.laws.maxLit
  have fold : ∀ n, n ≤ depth → ∀ g, (List.range n).foldlM (unrollStep dbg f f.transition) f.initialStates.toCnf = .ok g →
      g.Ready V ∧ ∀ w, g.holds w ↔ f.initialStates.holds w ∧ ∀ t, t < n → f.transition.holds (at_ f w t) := by
    intro n
    induction n with
    | zero =>
      intro _ g hg
      have := Except.ok.inj hg
      subst this
      refine ⟨Cube.toCnf_ready (initial_good_le h.laws (by
        have := h.enc.max_lt
        have h0 := hmul 0 (by omega)
        rcases hr with hr | hr
        · omega
        · omega)), fun w => ?_⟩
      rw [Cube.toCnf_holds]
      exact ⟨fun a => ⟨a, fun t ht => by omega⟩, fun a => a.1⟩
    | succ n ih =>
      intro hn g hg
      rw [List.range_succ, List.foldlM_append, bind_ok] at hg
      obtain ⟨g1, h1, hg⟩ := hg
      obtain ⟨r1, s1⟩ := ih (by omega) g1 h1
      rw [List.foldlM_cons, bind_ok] at hg
      obtain ⟨g2, h2, hg⟩ := hg
      have := Except.ok.inj hg
      subst this
      unfold unrollStep at h2
      rw [bind_ok] at h2
      obtain ⟨r, hr', h2⟩ := h2
      have := Except.ok.inj h2
      subst this
      obtain ⟨e, rdy⟩ := tag_inv (trans_ready h).good h.laws.trans_wf hV (hr.imp id fun hr => by
        have h1 := hmul (n + 1) (by omega)
        have h2 := transition_max h
        rw [Nat.mul_add, Nat.mul_add] at h1
        rw [hm]; omega) hr'
      refine ⟨r1.append rdy, fun w => ?_⟩
      rw [CNF.holds_append, s1, e, CNF.holds_shift]
      constructor
      · rintro ⟨⟨a, b⟩, d⟩
        refine ⟨a, fun t ht => ?_⟩
        by_cases ht' : t = n
        · subst ht'; exact d
        · exact b t (by omega)
      · rintro ⟨a, b⟩
        exact ⟨⟨a, fun t ht => b t (by omega)⟩, b n (by omega)⟩
  unfold satFormula at he
  rw [bind_ok] at he
  obtain ⟨g1, h1, he⟩ := he
  obtain ⟨r1, s1⟩ := fold depth (Nat.le_refl _) g1 h1
  rw [bind_ok] at he
  obtain ⟨r, hr', he⟩ := he
  have := Except.ok.inj he
  subst this
  obtain ⟨e, rdy⟩ := tag_inv (notP0_ready h).good (notP0_wf h) hV (hr.imp id fun hr => by
    have h1 := hmul depth hd
    have h2 := notP0_max h
    rw [Nat.mul_add] at h1
    rw [hm]; omega) hr'
  refine ⟨r1.append rdy, fun w => ?_⟩
  rw [CNF.holds_append, s1, e, CNF.holds_shift]
  unfold notP0
  rw [CNF.holds_append, Clause.toCnf_holds]
  exact ⟨fun a => ⟨a.1.1, a.1.2, a.2.1, a.2.2⟩, fun a => ⟨⟨a.init, a.step⟩, a.unsafety, a.safety⟩⟩

theorem satFormula_total {dbg : Bool} {limit depth : Nat} (h : Sys f c bads) (hr : c.maxVar * (limit + 1) < 2147483648)
    (hd : depth ≤ limit) : ∃ g, satFormula dbg f f.initialStates (notP0 f) f.transition depth = .ok g := by
  have hmul : ∀ k, k ≤ limit → c.maxVar * (k + 1) ≤ c.maxVar * (limit + 1) := fun k hk => Nat.mul_le_mul_left _ (by omega)
  have hm := h.laws.maxLit
  have fold : ∀ n, n ≤ depth → ∃ g, (List.range n).foldlM (unrollStep dbg f f.transition) f.initialStates.toCnf = .ok g := by
    intro n
    induction n with
    | zero => intro _; exact ⟨_, rfl⟩
    | succ n ih =>
      intro hn
      obtain ⟨g1, h1⟩ := ih (by omega)
      refine ⟨g1.append (f.transition.shift (f.maxLiteral * n)), ?_⟩
      rw [List.range_succ, List.foldlM_append, h1, ok_bind, List.foldlM_cons]
      unfold unrollStep
      rw [addTagsToRelation_ok dbg f h.laws.trans_wf
        (fun d hd l hl => ((trans_ready h).good d hd l hl).1) (by
        have h1 := hmul (n + 1) (by omega)
        have h2 := transition_max h
        rw [Nat.mul_add, Nat.mul_add] at h1
        rw [hm]; omega)]
      rfl
  obtain ⟨g1, h1⟩ := fold depth (Nat.le_refl _)
  refine ⟨g1.append ((notP0 f).shift (f.maxLiteral * depth)), ?_⟩
  unfold satFormula
  rw [h1, ok_bind, addTagsToRelation_ok dbg f (notP0_wf h) (fun d hd l hl => ((notP0_ready h).good d hd l hl).1) (by
    have h1 := hmul depth hd
    have h2 := notP0_max h
    rw [Nat.mul_add] at h1
    rw [hm]; omega)]
  rfl

/-! ## Meaning of the formula -/

theorem at_succ (f : Fsts) (w : Val) (t : Nat) : (fun x => at_ f w t (x + f.maxLiteral)) = at_ f w (t + 1) := by
  funext x; unfold at_; congr 1; rw [Nat.mul_add]; omega

theorem at_zero (f : Fsts) (w : Val) : at_ f w 0 = w := by funext x; unfold at_; simp

theorem Unrolled.path (h : Sys f c bads) {d : Nat} {w : Val} (hu : Unrolled f d w) :
    c.Path (at_ f w) d ∧ c.BadAt bads (at_ f w d) := by
  refine ⟨⟨?_, ?_⟩, (unsafety_iff h.laws h.wf h.bad hu.safety).1 hu.unsafety⟩
  · rw [at_zero]; exact (initial_holds h.laws).1 hu.init
  · intro t ht
    have := transition_sound h.laws h.wf (hu.step t ht)
    rw [← h.laws.maxLit, at_succ] at this
    exact this

/-- Frames laid one after the other. -/
def spread (c : Circuit) (p : Nat → Val) : Val := fun x => c.evalVar (p ((x - 1) / c.maxVar)) ((x - 1) % c.maxVar + 1)

theorem spread_at (c : Circuit) (p : Nat → Val) (t : Nat) {x : Nat} (h1 : 1 ≤ x) (h2 : x ≤ c.maxVar) :
    spread c p (x + c.maxVar * t) = c.evalVar (p t) x := by
  unfold spread
  have e : x + c.maxVar * t - 1 = (x - 1) + c.maxVar * t := by omega
  have e1 : (x + c.maxVar * t - 1) / c.maxVar = t := by
    rw [e, Nat.add_mul_div_left _ _ (by omega), Nat.div_eq_of_lt (by omega)]; omega
  have e2 : (x + c.maxVar * t - 1) % c.maxVar + 1 = x := by
    rw [e, Nat.add_mul_mod_self_left, Nat.mod_eq_of_lt (by omega)]; omega
  rw [e1, e2]

theorem unrolled_of_path (h : Sys f c bads) {d : Nat} {p : Nat → Val} (hp : c.Path p d) (hb : c.BadAt bads (p d)) :
    Unrolled f d (spread c p) := by
  have hwire : ∀ t, Wires c (p t) (at_ f (spread c p) t) := by
    intro t x h1 h2
    unfold at_
    rw [h.laws.maxLit]
    exact spread_at c p t h1 h2
  have hsf := safety_complete h.laws h.wf (hwire d)
  refine ⟨?_, ?_, ?_, hsf⟩
  · rw [initial_holds h.laws]
    refine hp.init.congr fun i hi => ?_
    have := latchVar_le c hi
    have e := spread_at c p 0 this.1 this.2
    rw [Nat.mul_zero, Nat.add_zero] at e
    rw [e, Circuit.evalVar_latch c _ hi]
  · intro t ht
    refine transition_complete h.laws h.wf (hp.step t ht) (hwire t) ?_
    intro i hi
    have hl := latchVar_le c hi
    have e := hwire (t + 1) (c.latchVar i) hl.1 hl.2
    rw [Circuit.evalVar_latch c _ hi] at e
    rw [← e, ← at_succ, h.laws.maxLit]
  · exact (unsafety_iff h.laws h.wf h.bad hsf).2 (((hwire d).badAt h.wf h.bad).2 hb)

theorem unrolled_iff (h : Sys f c bads) (d : Nat) : (∃ w, Unrolled f d w) ↔ c.UnsafeAt bads d := by
  rw [Circuit.unsafeAt_iff_path h.wf h.bad.lit]
  constructor
  · rintro ⟨w, hu⟩; exact ⟨_, hu.path h⟩
  · rintro ⟨p, hp, hb⟩; exact ⟨_, unrolled_of_path h hp hb⟩

/-! ## The search loop -/

/-- A satisfying answer values every variable of the formula, so each of its completions satisfies it. -/
theorem sat_completion {V : Nat} {g : CNF} (hw : g.WF) (hg : g.Good V) {a : Assignment} (h : AnswerOK g (.sat a)) {w : Val}
    (ha : a.Agrees w) : g.holds w := by
  obtain ⟨⟨v, hv, hav⟩, hall⟩ := h
  intro d hd
  obtain ⟨l, hl, hh⟩ := hv d hd
  refine ⟨l, hl, ?_⟩
  obtain ⟨b, hb⟩ := Option.isSome_iff_exists.1 (hall l.number (hg d hd l hl).1 (hw.le_max d hd l hl))
  unfold Literal.holds at hh ⊢
  rw [ha _ b hb, ← hav _ b hb]
  exact hh

theorem getD_agrees (a : Assignment) : a.Agrees fun x => (a.getValue x).getD false := by
  intro x b h
  show (a.getValue x).getD false = b
  rw [h]; rfl

/-- What a result promises; `T`: the solver values every variable. -/
def ResultOK (T : Prop) (f : Fsts) (c : Circuit) (bads : List Nat) (clock : Clock) (limit : Nat) : BMCResult → Prop
  | .noCtx d => (∀ k : Nat, (k : Int) ≤ d → ¬ c.UnsafeAt bads k) ∧ -1 ≤ d ∧ d ≤ limit ∧
      ((∀ k, clock.expired k = false ∧ clock.finished k = true) → d = limit)
  | .ctx a d => (∀ k, k < d → ¬ c.UnsafeAt bads k) ∧ d ≤ limit ∧ (∃ w, a.Agrees w ∧ Unrolled f d w) ∧
      (T → ∀ w, a.Agrees w → Unrolled f d w)

theorem toI32_ok {site : String} {n : Nat} {d : Int} (h : toI32 site n = .ok d) : d = n := by
  unfold toI32 at h
  split at h
  · exact (Except.ok.inj h).symm
  · simp [panicR] at h

theorem run_lift_inv {σ α β : Type} {r : Res α} {k : α → StateT σ Res β} {s : σ} {y : β × σ}
    (h : ((liftM r : StateT σ Res α) >>= k) s = .ok y) : ∃ a, r = .ok a ∧ k a s = .ok y := by
  cases r with
  | error e => cases h
  | ok a => exact ⟨a, rfl, h⟩

theorem timedSatCall_run (env : Env) (clock : Clock) (depth t : Nat) (g : CNF) : timedSatCall env clock depth g t =
    (if clock.finished depth then ((join (env.solve t g)).bind fun r => .ok (.noTimeOut r, t + 1)) else .ok (.timeOut, t + 1)) := by
  unfold timedSatCall
  cases clock.finished depth with
  | false => rfl
  | true => cases hj : join (env.solve t g) <;> simp [hj, nextTick, bind, StateT.bind, Except.bind, pure, StateT.pure, Except.pure, liftM, monadLift, MonadLift.monadLift, StateT.lift, get, getThe, MonadStateOf.get, StateT.get, set, StateT.set]

theorem timedSatCall_ok {env : Env} {clock : Clock} {depth t : Nat} {g : CNF} {r : SatResponse} (h : env.solve t g = .ok r) :
    timedSatCall env clock depth g t = .ok (if clock.finished depth then .noTimeOut r else .timeOut, t + 1) := by
  rw [timedSatCall_run, h]
  cases clock.finished depth <;> rfl

theorem searchLoop_inv {V : Nat} {dbg : Bool} {env : Env} (he : env.Correct V) {clock : Clock} {limit : Nat} (h : Sys f c bads)
    (hr : InRange V dbg c limit) (n : Nat) : ∀ (depth t : Nat) (r : BMCResult) (t' : Nat), depth + n = limit + 1 →
    (∀ k, k < depth → ¬ c.UnsafeAt bads k) →
    searchLoop dbg env clock f f.initialStates (notP0 f) f.transition limit n depth t = .ok (r, t') → ResultOK (env.OK V) f c bads clock limit r := by
  induction n with
  | zero =>
    intro depth t r t' hn hk hs
    unfold searchLoop at hs
    obtain ⟨d, hd, hs⟩ := run_lift_inv hs
    have e := toI32_ok hd
    have := congrArg Prod.fst (Except.ok.inj hs)
    simp only at this
    subst this
    subst e
    exact ⟨fun k hk' => hk k (by omega), by omega, by omega, fun _ => rfl⟩
  | succ n ih =>
    intro depth t r t' hn hk hs
    unfold searchLoop at hs
    split at hs
    · rename_i hex
      obtain ⟨d, hd, hs⟩ := run_lift_inv hs
      have e := toI32_ok hd
      have := congrArg Prod.fst (Except.ok.inj hs)
      simp only at this
      subst this
      subst e
      refine ⟨fun k hk' => hk k (by omega), by omega, by omega, fun hc => ?_⟩
      rw [(hc depth).1] at hex; cases hex
    · obtain ⟨g, hg, hs⟩ := run_lift_inv hs
      obtain ⟨rdy, sem⟩ := satFormula_inv h hr (by omega) hg
      obtain ⟨a, ea, ha⟩ := he.solve t g rdy.wf rdy.good
      rw [run_bind (timedSatCall_ok ea)] at hs
      cases hf : clock.finished depth with
      | false =>
        rw [hf] at hs
        obtain ⟨d, hd, hs⟩ := run_lift_inv hs
        have e := toI32_ok hd
        have := congrArg Prod.fst (Except.ok.inj hs)
        simp only at this
        subst this
        subst e
        refine ⟨fun k hk' => hk k (by omega), by omega, by omega, fun hc => ?_⟩
        rw [(hc depth).2] at hf; cases hf
      | true =>
        rw [hf] at hs
        cases a with
        | sat a =>
          have := congrArg Prod.fst (Except.ok.inj hs)
          simp only at this
          subst this
          obtain ⟨v, hv, hav⟩ := ha
          refine ⟨hk, by omega, ⟨v, hav, (sem v).1 hv⟩, fun hT w hw => ?_⟩
          obtain ⟨a', ea', ha'⟩ := hT.solve t g rdy.wf rdy.good
          cases ea.symm.trans ea'
          exact (sem w).1 (sat_completion rdy.wf rdy.good ha' hw)
        | unsat =>
          refine ih (depth + 1) (t + 1) r t' (by omega) ?_ hs
          intro k hk'
          by_cases e : k = depth
          · subst e
            rw [← unrolled_iff h]
            rintro ⟨w, hw⟩
            exact ha w ((sem w).2 hw)
          · exact hk k (by omega)

theorem search_inv {V : Nat} {dbg : Bool} {env : Env} (he : env.Correct V) {clock : Clock} {limit : Nat} (h : Sys f c bads) (hl : limit < 4294967296)
    (hr : InRange V dbg c limit) {t t' : Nat} {r : BMCResult} (hs : search dbg env clock f limit t = .ok (r, t')) :
    ResultOK (env.OK V) f c bads clock limit r := by
  unfold search at hs
  obtain ⟨n, hn, hs⟩ := run_lift_inv hs
  unfold u32Add at hn
  split at hn
  · have := Except.ok.inj hn
    subst this
    exact searchLoop_inv he h hr _ 0 t r t' (by omega) (fun k hk => by omega) hs
  · cases dbg with
    | true => simp [panicR] at hn
    | false =>
      rename_i hlt
      have hn := Except.ok.inj hn
      have : n = 0 := by unfold u32Size at *; omega
      subst this
      unfold searchLoop at hs
      obtain ⟨d, hd, hs⟩ := run_lift_inv hs
      unfold toI32 at hd
      rw [if_neg (by unfold u32Size at *; omega)] at hd
      simp [panicR] at hd

theorem searchLoop_total {V : Nat} {dbg : Bool} {env : Env} (he : env.Correct V) {clock : Clock} {limit : Nat} (h : Sys f c bads)
    (hV : V ≤ 2147483647) (hr : c.maxVar * (limit + 1) ≤ V) (hl : limit < 2147483648) (n : Nat) : ∀ (depth t : Nat), depth + n = limit + 1 →
    ∃ r t', searchLoop dbg env clock f f.initialStates (notP0 f) f.transition limit n depth t = .ok (r, t') := by
  have toOk : ∀ site k, k ≤ limit → toI32 site k = .ok (k : Int) := by
    intro site k hk
    unfold toI32; rw [if_pos (by omega)]
  induction n with
  | zero =>
    intro depth t hn
    unfold searchLoop
    rw [run_lift_bind (toOk _ limit (Nat.le_refl _))]
    exact ⟨_, _, rfl⟩
  | succ n ih =>
    intro depth t hn
    unfold searchLoop
    split
    · rw [run_lift_bind (toOk _ depth (by omega))]
      exact ⟨_, _, rfl⟩
    · obtain ⟨g, hg⟩ := satFormula_total (dbg := dbg) h (Nat.lt_succ_of_le (Nat.le_trans hr hV)) (depth := depth) (by omega)
      rw [run_lift_bind hg]
      obtain ⟨rdy, -⟩ := satFormula_inv h ⟨hV, .inr hr⟩ (by omega) hg
      obtain ⟨a, ea, -⟩ := he.solve t g rdy.wf rdy.good
      rw [run_bind (timedSatCall_ok ea)]
      cases hf : clock.finished depth with
      | false =>
        simp only [Bool.false_eq_true, if_false]
        rw [run_lift_bind (toOk _ depth (by omega))]
        exact ⟨_, _, rfl⟩
      | true =>
        simp only [if_true]
        cases a with
        | sat a => exact ⟨_, _, rfl⟩
        | unsat => exact ih (depth + 1) (t + 1) (by omega)

theorem search_total {V : Nat} {dbg : Bool} {env : Env} (he : env.Correct V) {clock : Clock} {limit : Nat} (h : Sys f c bads)
    (hV : V ≤ 2147483647) (hr : c.maxVar * (limit + 1) ≤ V) (hl : limit < 2147483648) (t : Nat) :
    ∃ r t', search dbg env clock f limit t = .ok (r, t') := by
  unfold search
  rw [run_lift_bind (a := limit + 1) (by unfold u32Add; rw [if_pos (by unfold u32Size; omega)])]
  exact searchLoop_total he h hV hr hl _ 0 t (by omega)

end Verif.BMC
