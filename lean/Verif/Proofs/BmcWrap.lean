import Verif.Proofs.Wrap

/-! # Bounded model checking when the frames wrap around

In a release build frame `t` of the unrolled formula uses the variables `x + maxVar * t` modulo 2³¹.  If `maxVar * d` is 2³¹, frame `d` is
frame 0 again. -/

namespace Verif.BMC

open Verif.Fsts

variable {f : Fsts} {c : Circuit} {bads : List Nat}

/-- A variable that is no multiple of the number of variables never becomes variable 0. -/
theorem wrap_ne_zero {m d x t : Nat} (hd : m * d = 2147483648) (hx : ¬ m ∣ x) : 1 ≤ (x + m * t) % 2147483648 := by
  rcases Nat.eq_zero_or_pos ((x + m * t) % 2147483648) with h | h
  · refine absurd ?_ hx
    have h1 : m ∣ x + m * t := Nat.dvd_trans ⟨d, hd.symm⟩ (Nat.dvd_of_mod_eq_zero h)
    exact (Nat.dvd_add_left (Nat.dvd_mul_right m t)).1 h1
  · exact h

/-- The last gate has no part in the next state or in the bad literals. -/
structure LastUnused (c : Circuit) (bads : List Nat) : Prop where
  pos : 0 < c.ands.length
  next : ¬ c.InCone (c.latches.map Prod.fst) (c.ands.length - 1)
  bad : ¬ c.InCone bads (c.ands.length - 1)

theorem last_var (hp : 0 < c.ands.length) : c.andVar (c.ands.length - 1) = c.maxVar := by
  unfold Circuit.andVar Circuit.maxVar; omega

/-- Variables of the gates in a cone that does not contain the last gate. -/
theorem coneClause_lt (hw : c.WF) (hp : 0 < c.ands.length) {ls : List Nat} (hl : ¬ c.InCone ls (c.ands.length - 1)) {d : Clause}
    (hd : ConeClause c ls d) {l : Literal} (hm : l ∈ d.lits) : 1 ≤ l.number ∧ l.number < c.maxVar := by
  obtain ⟨i, p, hi, hc, hd⟩ := hd
  have hlt := getElem?_lt hi
  have hne : i ≠ c.ands.length - 1 := by rintro rfl; exact hl hc
  have hv : c.andVar i + 1 ≤ c.maxVar := by unfold Circuit.andVar Circuit.maxVar; omega
  have hp := hw.and_ok i p hi
  rcases gateClauses_number hd hm with e | ⟨h2, e⟩ | ⟨h2, e⟩
  · rw [e]; exact ⟨by unfold Circuit.andVar; omega, by omega⟩
  · rw [e]; omega
  · rw [e]; omega

theorem dvd_lt {m x : Nat} (h1 : 1 ≤ x) (h2 : x < m) : ¬ m ∣ x := fun h => by have := Nat.le_of_dvd (by omega) h; omega

theorem root_lt (hp : 0 < c.ands.length) {ls : List Nat} (hl : ¬ c.InCone ls (c.ands.length - 1)) {l : Nat} (hm : l ∈ ls) (ho : c.LitOK l) :
    l / 2 < c.maxVar := by
  refine Nat.lt_of_le_of_ne ho fun e => hl (.root hm ?_ (by omega))
  rw [e, last_var hp]

theorem transition_var (h : Sys f c bads) (hu : LastUnused c bads) {d : Clause} (hd : d ∈ f.transition.clauses) {l : Literal}
    (hl : l ∈ d.lits) : ¬ c.maxVar ∣ l.number := by
  rcases (h.laws.trans_mem d).1 hd with ⟨i, p, hi, hd⟩ | hd
  · rcases latchClauses_number hd hl with e | ⟨h2, e⟩
    · have hlt := getElem?_lt hi
      have hp := hu.pos
      have : 1 ≤ c.latchVar i ∧ c.latchVar i < c.maxVar := by unfold Circuit.latchVar Circuit.maxVar; omega
      rw [e]
      exact fun hd => dvd_lt this.1 this.2 ((Nat.dvd_add_left (Nat.dvd_refl _)).1 hd)
    · rw [e]
      exact dvd_lt (by omega) (root_lt hu.pos hu.next (List.mem_map.2 ⟨p, List.mem_of_getElem? hi, rfl⟩) (h.wf.next_ok i p hi))
  · have := coneClause_lt h.wf hu.pos hu.next hd hl
    exact dvd_lt this.1 this.2

theorem notP0_var (h : Sys f c bads) (hu : LastUnused c bads) {d : Clause} (hd : d ∈ (notP0 f).clauses) {l : Literal}
    (hl : l ∈ d.lits) : ¬ c.maxVar ∣ l.number := by
  rcases CNF.mem_append.1 hd with hd | hd
  · simp [Clause.toCnf, CNF.addClause, CNF.new, setInsert] at hd
    subst hd
    have h1 := unsafety_number h.laws h.bad hl
    rw [h.laws.unsafety, Clause.mem_new] at hl
    obtain ⟨b, hb, rfl⟩ := List.mem_map.1 hl
    rw [literal_number_mk] at h1 ⊢
    exact dvd_lt h1.1 (root_lt hu.pos hu.bad hb (h.bad.lit b hb))
  · have := coneClause_lt h.wf hu.pos hu.bad ((h.laws.safety_mem d).1 hd) hl
    exact dvd_lt this.1 this.2

/-- What the formula of depth `k` says in a release build. -/
structure Rolled (f : Fsts) (k : Nat) (w : Val) : Prop where
  init : f.initialStates.holds w
  step : ∀ t, t < k → f.transition.holds (wrapped (f.maxLiteral * t) w)
  unsafety : f.unsafety.holds (wrapped (f.maxLiteral * k) w)
  safety : f.stateToSafety.holds (wrapped (f.maxLiteral * k) w)

theorem wraps_ready {m d t : Nat} (hd : m * d = 2147483648) {g r : CNF} (hv : ∀ x ∈ g.clauses, ∀ l ∈ x.lits, ¬ m ∣ l.number)
    (h : g.Wraps (m * t) r) : r.Ready 2147483647 := by
  refine ⟨h.wf, fun x hx l hl => ?_⟩
  obtain ⟨y, hy, l', hl', e⟩ := h.number hx hl
  have := wrap_ne_zero (t := t) hd (hv y hy l' hl')
  exact ⟨by rw [e]; exact this, by rw [e]; omega⟩

theorem satFormula_release (h : Sys f c bads) (hu : LastUnused c bads) {d : Nat} (hd : c.maxVar * d = 2147483648) (depth : Nat) :
    ∃ g, satFormula false f f.initialStates (notP0 f) f.transition depth = .ok g ∧ g.Ready 2147483647 ∧
      ∀ w, g.holds w ↔ Rolled f depth w := by
  have hm := h.laws.maxLit
  have num : ∀ {g : CNF}, g.Ready 2147483647 → ∀ x ∈ g.clauses, ∀ l ∈ x.lits, 1 ≤ l.number ∧ l.number < 2147483648 :=
    fun hg x hx l hl => ⟨(hg.good x hx l hl).1, by have := (hg.good x hx l hl).2; omega⟩
  have fold : ∀ n, ∃ g, (List.range n).foldlM (unrollStep false f f.transition) f.initialStates.toCnf = .ok g ∧ g.Ready 2147483647 ∧
      ∀ w, g.holds w ↔ f.initialStates.holds w ∧ ∀ t, t < n → f.transition.holds (wrapped (f.maxLiteral * t) w) := by
    intro n
    induction n with
    | zero =>
      refine ⟨_, rfl, Cube.toCnf_ready (initial_good_le h.laws (by have := h.enc.max_lt; omega)), fun w => ?_⟩
      rw [Cube.toCnf_holds]
      exact ⟨fun a => ⟨a, fun t ht => by omega⟩, fun a => a.1⟩
    | succ n ih =>
      obtain ⟨g1, h1, r1, s1⟩ := ih
      obtain ⟨r, e, hw⟩ := addTagsToRelation_release f n h.laws.trans_wf (num (trans_ready h))
      refine ⟨g1.append r, ?_, r1.append (wraps_ready hd (fun x hx l hl => transition_var h hu hx hl) (by rw [← hm]; exact hw)), fun w => ?_⟩
      · rw [List.range_succ, List.foldlM_append, h1, ok_bind, List.foldlM_cons]
        unfold unrollStep
        rw [e]; rfl
      · rw [CNF.holds_append, s1, hw.holds]
        constructor
        · rintro ⟨⟨a, b⟩, d⟩
          refine ⟨a, fun t ht => ?_⟩
          by_cases ht' : t = n
          · subst ht'; exact d
          · exact b t (by omega)
        · rintro ⟨a, b⟩
          exact ⟨⟨a, fun t ht => b t (by omega)⟩, b n (by omega)⟩
  obtain ⟨g1, h1, r1, s1⟩ := fold depth
  obtain ⟨r, e, hw⟩ := addTagsToRelation_release f depth (notP0_wf h) (num (notP0_ready h))
  refine ⟨g1.append r, ?_, r1.append (wraps_ready hd (fun x hx l hl => notP0_var h hu hx hl) (by rw [← hm]; exact hw)), fun w => ?_⟩
  · unfold satFormula
    rw [h1, ok_bind, e]; rfl
  · rw [CNF.holds_append, s1, hw.holds]
    unfold notP0
    rw [CNF.holds_append, Clause.toCnf_holds]
    exact ⟨fun a => ⟨a.1.1, a.1.2, a.2.1, a.2.2⟩, fun a => ⟨⟨a.init, a.step⟩, a.unsafety, a.safety⟩⟩

/-- Every frame is one of the first `d`. -/
theorem wrapped_mod {m d : Nat} (hd : m * d = 2147483648) (k : Nat) (w : Val) : wrapped (m * k) w = wrapped (m * (k % d)) w := by
  apply wrapped_congr
  have e : m * k = 2147483648 * (k / d) + m * (k % d) := by
    rw [← hd, Nat.mul_assoc, ← Nat.mul_add, Nat.div_add_mod]
  omega

theorem wrapped_succ (m t : Nat) (w : Val) : (fun x => wrapped (m * t) w (x + m)) = wrapped (m * (t + 1)) w := by
  funext x; unfold wrapped; congr 2; rw [Nat.mul_add]; omega

/-- A valuation of the formula of depth `k` contains an execution of `k % d` steps into a bad state. -/
theorem Rolled.unsafeAt (h : Sys f c bads) {d : Nat} (hd : c.maxVar * d = 2147483648) {k : Nat} {w : Val} (hr : Rolled f k w) :
    c.UnsafeAt bads (k % d) := by
  rw [Circuit.unsafeAt_iff_path h.wf h.bad.lit]
  have hm := h.laws.maxLit
  refine ⟨fun t => wrapped (f.maxLiteral * t) w, ⟨?_, ?_⟩, ?_⟩
  · refine ((initial_holds h.laws).1 hr.init).congr fun i hi => ?_
    have h1 := latchVar_le c hi
    have h2 := h.enc.max_lt
    unfold wrapped
    rw [Nat.mul_zero, Nat.add_zero, Nat.mod_eq_of_lt (by omega)]
  · intro t ht
    have := transition_sound h.laws h.wf (hr.step t (Nat.lt_of_lt_of_le ht (Nat.mod_le k d)))
    rw [← hm, wrapped_succ] at this
    exact this
  · have h1 := hr.unsafety
    have h2 := hr.safety
    rw [hm, wrapped_mod hd k w, ← hm] at h1 h2
    exact (unsafety_iff h.laws h.wf h.bad h2).1 h1

/-- The formulas of the depths below `d` are not affected. -/
theorem rolled_of_unrolled (h : Sys f c bads) (hu : LastUnused c bads) {d : Nat} (hd : c.maxVar * d = 2147483648) {k : Nat} (hk : k < d)
    {w : Val} (hw : Unrolled f k w) : Rolled f k w := by
  have hm := h.laws.maxLit
  have hmul : ∀ j, j ≤ d → c.maxVar * j ≤ 2147483648 := fun j hj => by rw [← hd]; exact Nat.mul_le_mul_left _ hj
  have same : ∀ (g : CNF) (t : Nat), (∀ x ∈ g.clauses, ∀ l ∈ x.lits, l.number + c.maxVar * t < 2147483648) →
      (g.holds (at_ f w t) → g.holds (wrapped (f.maxLiteral * t) w)) := by
    intro g t hg H x hx
    obtain ⟨l, hl, hh⟩ := H x hx
    refine ⟨l, hl, ?_⟩
    have := hg x hx l hl
    unfold Literal.holds wrapped
    unfold Literal.holds at_ at hh
    rw [hm] at hh ⊢
    rw [Nat.mod_eq_of_lt this]
    exact hh
  have bnd : ∀ x ∈ (notP0 f).clauses, ∀ l ∈ x.lits, l.number + c.maxVar * k < 2147483648 := by
    intro x hx l hl
    have h1 := (notP0_wf h).le_max x hx l hl
    have h2 := notP0_max h
    have h3 := hmul (k + 1) (by omega)
    rw [Nat.mul_add] at h3
    have h4 : l.number ≠ c.maxVar := fun e => notP0_var h hu hx hl (by rw [e]; exact Nat.dvd_refl _)
    omega
  have hn : (notP0 f).holds (wrapped (f.maxLiteral * k) w) := by
    refine same _ k bnd ?_
    unfold notP0
    rw [CNF.holds_append, Clause.toCnf_holds]
    exact ⟨hw.unsafety, hw.safety⟩
  unfold notP0 at hn
  rw [CNF.holds_append, Clause.toCnf_holds] at hn
  refine ⟨hw.init, fun t ht => same _ t ?_ (hw.step t ht), hn.1, hn.2⟩
  intro x hx l hl
  have h1 := (transition_number_le h.laws h.wf hx hl).2
  have h3 := hmul (t + 2) (by omega)
  rw [Nat.mul_add] at h3
  have h4 : l.number ≠ c.maxVar + c.maxVar := fun e => transition_var h hu hx hl (by rw [e]; exact ⟨2, by omega⟩)
  omega

/-- What a release build answers when `maxVar * d` is 2³¹. -/
def WrapOK (c : Circuit) (bads : List Nat) (d : Nat) (clock : Clock) (limit : Nat) : BMCResult → Prop
  | .noCtx e => (∀ k, clock.expired k = false ∧ clock.finished k = true) → e = limit ∧ ∀ j, j < d → j ≤ limit → ¬ c.UnsafeAt bads j
  | .ctx _ k => k < d ∧ k ≤ limit ∧ c.Shortest bads k

theorem searchLoop_wrap {env : Env} (he : env.Correct 2147483647) {clock : Clock} {limit : Nat} (h : Sys f c bads) (hu : LastUnused c bads)
    {d : Nat} (hd : c.maxVar * d = 2147483648) (hl : limit < 2147483648) (n : Nat) : ∀ (depth t : Nat), depth + n = limit + 1 →
    (∀ j, j < depth → j < d → ¬ c.UnsafeAt bads j) →
    ∃ r t', searchLoop false env clock f f.initialStates (notP0 f) f.transition limit n depth t = .ok (r, t') ∧
      WrapOK c bads d clock limit r := by
  have hpos : 0 < d := by rcases Nat.eq_zero_or_pos d with rfl | h; · simp at hd
                          · exact h
  have toOk : ∀ site k, k ≤ limit → toI32 site k = .ok (k : Int) := by
    intro site k hk
    unfold toI32; rw [if_pos (by omega)]
  induction n with
  | zero =>
    intro depth t hn hk
    unfold searchLoop
    rw [run_lift_bind (toOk _ limit (Nat.le_refl _))]
    exact ⟨_, _, rfl, fun _ => ⟨rfl, fun j hj hj' => hk j (by omega) hj⟩⟩
  | succ n ih =>
    intro depth t hn hk
    unfold searchLoop
    split
    · rename_i hex
      rw [run_lift_bind (toOk _ depth (by omega))]
      exact ⟨_, _, rfl, fun hc => by rw [(hc depth).1] at hex; cases hex⟩
    · obtain ⟨g, hg, rdy, sem⟩ := satFormula_release h hu hd depth
      rw [run_lift_bind hg]
      obtain ⟨a, ea, ha⟩ := he.solve t g rdy.wf rdy.good
      rw [run_bind (timedSatCall_ok ea)]
      cases hf : clock.finished depth with
      | false =>
        simp only [Bool.false_eq_true, if_false]
        rw [run_lift_bind (toOk _ depth (by omega))]
        exact ⟨_, _, rfl, fun hc => by rw [(hc depth).2] at hf; cases hf⟩
      | true =>
        simp only [if_true]
        cases a with
        | sat a =>
          refine ⟨_, _, rfl, ?_⟩
          obtain ⟨w, hw, _⟩ := ha
          have hU := ((sem w).1 hw).unsafeAt h hd
          have hlt : depth < d := by
            refine Classical.byContradiction fun hge => ?_
            have := Nat.mod_lt depth hpos
            exact hk (depth % d) (by omega) this hU
          rw [Nat.mod_eq_of_lt hlt] at hU
          exact ⟨hlt, by omega, hU, fun j hj => hk j hj (by omega)⟩
        | unsat =>
          refine ih (depth + 1) (t + 1) (by omega) ?_
          intro j hj hj'
          by_cases e : j = depth
          · subst e
            rw [← unrolled_iff h]
            rintro ⟨w, hw⟩
            exact ha w ((sem w).2 (rolled_of_unrolled h hu hd hj' hw))
          · exact hk j (by omega) hj'

theorem search_wrap {env : Env} (he : env.Correct 2147483647) {clock : Clock} {limit : Nat} (h : Sys f c bads) (hu : LastUnused c bads)
    {d : Nat} (hd : c.maxVar * d = 2147483648) (hl : limit < 2147483648) (t : Nat) :
    ∃ r t', search false env clock f limit t = .ok (r, t') ∧ WrapOK c bads d clock limit r := by
  unfold search
  rw [run_lift_bind (a := limit + 1) (by unfold u32Add; rw [if_pos (by unfold u32Size; omega)])]
  exact searchLoop_wrap he h hu hd hl _ 0 t (by omega) (fun j hj => by omega)

/-! ## Debug builds -/

theorem addTagsToRelation_okPanic (f : Fsts) (g : CNF) (tags : Nat) :
    (∃ r, f.addTagsToRelation true g tags = .ok r) ∨ ∃ site, f.addTagsToRelation true g tags = .error (.panic site) := by
  by_cases ht : f.maxLiteral * tags = 0
  · refine .inl ⟨g, ?_⟩
    unfold addTagsToRelation bumpCnf u32Mul
    rw [ht]; rfl
  · rcases addTagsToRelation_debug f g tags ht with ⟨_, h⟩ | ⟨_, h⟩
    · exact .inl h
    · exact .inr h

theorem unroll_okPanic (f : Fsts) (tr : CNF) (ks : List Nat) : ∀ g : CNF,
    (∃ r, ks.foldlM (unrollStep true f tr) g = .ok r) ∨ ∃ site, ks.foldlM (unrollStep true f tr) g = .error (.panic site) := by
  induction ks with
  | nil => exact fun g => .inl ⟨g, rfl⟩
  | cons k ks ih =>
    intro g
    rw [List.foldlM_cons]
    rcases addTagsToRelation_okPanic f tr k with ⟨r, e⟩ | ⟨site, e⟩
    · have : unrollStep true f tr g k = .ok (g.append r) := by unfold unrollStep; rw [e]; rfl
      rw [this, ok_bind]; exact ih _
    · have : unrollStep true f tr g k = .error (.panic site) := by unfold unrollStep; rw [e]; rfl
      rw [this]; exact .inr ⟨site, rfl⟩

theorem satFormula_okPanic (f : Fsts) (i : Cube) (p tr : CNF) (k : Nat) :
    (∃ g, satFormula true f i p tr k = .ok g) ∨ ∃ site, satFormula true f i p tr k = .error (.panic site) := by
  unfold satFormula
  rcases unroll_okPanic f tr (List.range k) i.toCnf with ⟨r, e⟩ | ⟨site, e⟩
  · rw [e, ok_bind]
    rcases addTagsToRelation_okPanic f p k with ⟨r', e⟩ | ⟨site, e⟩
    · rw [e]; exact .inl ⟨_, rfl⟩
    · rw [e]; exact .inr ⟨site, rfl⟩
  · rw [e]; exact .inr ⟨site, rfl⟩

/-- The formula of a depth whose last frame leaves the range of literals. -/
theorem satFormula_panics (h : Sys f c bads) (hb : bads ≠ []) {k : Nat} (hk : 2147483648 ≤ c.maxVar * k) :
    ∃ site, satFormula true f f.initialStates (notP0 f) f.transition k = .error (.panic site) := by
  unfold satFormula
  rcases unroll_okPanic f f.transition (List.range k) f.initialStates.toCnf with ⟨r, e⟩ | ⟨site, e⟩
  · rw [e, ok_bind]
    rcases addTagsToRelation_debug f (notP0 f) k (by rw [h.laws.maxLit]; omega) with ⟨⟨_, h1⟩, _⟩ | ⟨_, site, e⟩
    · obtain ⟨b, bs, rfl⟩ := List.exists_cons_of_ne_nil hb
      have := h1 f.unsafety (CNF.mem_append.2 (.inl (by simp [Clause.toCnf, CNF.addClause, CNF.new, setInsert]))) ⟨b⟩ (by
        rw [h.laws.unsafety, Clause.mem_new]; simp)
      rw [h.laws.maxLit] at this
      omega
    · rw [e]; exact ⟨site, rfl⟩
  · rw [e]; exact ⟨site, rfl⟩

theorem run_lift_error {σ α β : Type} {r : Res α} {e : Err} (h : r = .error e) (k : α → StateT σ Res β) (s : σ) :
    ((liftM r : StateT σ Res α) >>= k) s = .error e := by
  subst h; rfl

theorem searchLoop_debug {env : Env} (he : env.Correct 2147483647) {clock : Clock} (hc : ∀ k, clock.expired k = false ∧ clock.finished k = true)
    {limit : Nat} (h : Sys f c bads) (hb : bads ≠ []) {k : Nat} (hk : 2147483648 ≤ c.maxVar * k) (hkl : k ≤ limit)
    (hs : ∀ j, j < k → ¬ c.UnsafeAt bads j) (n : Nat) : ∀ (depth t : Nat), depth + n = limit + 1 → depth ≤ k →
    ∃ site, searchLoop true env clock f f.initialStates (notP0 f) f.transition limit n depth t = .error (.panic site) := by
  induction n with
  | zero => intro depth t h1 h2; omega
  | succ n ih =>
    intro depth t hn hd
    unfold searchLoop
    rw [(hc depth).1]
    simp only [Bool.false_eq_true, if_false]
    by_cases e : depth = k
    · subst e
      obtain ⟨site, e⟩ := satFormula_panics h hb hk
      exact ⟨site, run_lift_error e _ _⟩
    · rcases satFormula_okPanic f f.initialStates (notP0 f) f.transition depth with ⟨g, hg⟩ | ⟨site, hg⟩
      · rw [run_lift_bind hg]
        obtain ⟨rdy, sem⟩ := satFormula_inv (limit := limit) h ⟨Nat.le_refl _, .inl ⟨rfl, rfl⟩⟩ (by omega) hg
        obtain ⟨a, ea, ha⟩ := he.solve t g rdy.wf rdy.good
        rw [run_bind (timedSatCall_ok ea), (hc depth).2]
        simp only [if_true]
        cases a with
        | sat a =>
          obtain ⟨w, hw, _⟩ := ha
          exact absurd ((unrolled_iff h depth).1 ⟨w, (sem w).1 hw⟩) (hs depth (by omega))
        | unsat => exact ih (depth + 1) (t + 1) (by omega) (by omega)
      · exact ⟨site, run_lift_error hg _ _⟩

theorem search_debug {env : Env} (he : env.Correct 2147483647) {clock : Clock} (hc : ∀ k, clock.expired k = false ∧ clock.finished k = true)
    {limit : Nat} (h : Sys f c bads) (hb : bads ≠ []) {k : Nat} (hk : 2147483648 ≤ c.maxVar * k) (hkl : k ≤ limit)
    (hs : ∀ j, j < k → ¬ c.UnsafeAt bads j) (t : Nat) : ∃ site, search true env clock f limit t = .error (.panic site) := by
  unfold search
  by_cases hl : limit + 1 < u32Size
  · rw [run_lift_bind (a := limit + 1) (by unfold u32Add; rw [if_pos hl])]
    exact searchLoop_debug he hc h hb hk hkl hs _ 0 t (by omega) (by omega)
  · exact ⟨_, run_lift_error (e := .panic "bmc.rs:112 overflow") (by unfold u32Add; rw [if_neg hl]; rfl) _ _⟩

end Verif.BMC
