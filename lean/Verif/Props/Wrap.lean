import Verif.Proofs.BmcWrap
import Verif.Proofs.FstsRelease
import Verif.Props.Bmc

/-!
# Property C73: bounded model checking beyond the range of literals

C35–C37 assume for release builds that the variables of all frames fit a literal.  Without that assumption the answers of a release build
are wrong: variable numbers are reduced modulo 2³¹ (`C29_release`), and when 2³¹ is a multiple of the number of variables the frames repeat.
-/

namespace Verif.Props

open Verif.Fsts Verif.BMC

variable {f : Fsts} {c : Circuit} {ob : Bool}

/-- C29: a release build never panics when it tags a formula without variable 0.  It reduces the shifted variable numbers modulo 2³¹. -/
theorem C29_release (f : Fsts) (tags : Nat) :
    (∀ g : CNF, g.WF → (∀ d ∈ g.iter, ∀ l ∈ d.iter, 1 ≤ l.number ∧ l.number < 2147483648) →
      ∃ r, f.addTagsToRelation false g tags = .ok r ∧ ∀ v, r.holds v ↔ g.holds (fun x => v ((x + f.maxLiteral * tags) % 2147483648))) ∧
    (∀ s : Cube, (∀ l ∈ s.iter, 1 ≤ l.number ∧ l.number < 2147483648) →
      ∃ r, f.addTagsToCube false s tags = .ok r ∧ ∀ v, r.holds v ↔ s.holds (fun x => v ((x + f.maxLiteral * tags) % 2147483648))) ∧
    (∀ d : Clause, d.Sorted → (∀ l ∈ d.iter, 1 ≤ l.number ∧ l.number < 2147483648) →
      ∃ r, f.addTagsToClause false d tags = .ok r ∧ ∀ v, r.holds v ↔ d.holds (fun x => v ((x + f.maxLiteral * tags) % 2147483648))) := by
  refine ⟨fun g hg h => ?_, fun s h => ?_, fun d hd h => ?_⟩
  · obtain ⟨r, e, hw⟩ := addTagsToRelation_release f tags hg h
    exact ⟨r, e, fun v => hw.holds⟩
  · exact addTagsToCube_release f tags h
  · obtain ⟨r, e, hw⟩ := addTagsToClause_release f tags hd h
    exact ⟨r, e, fun v => hw.holds⟩

/-- C28: a release build accepts exactly the circuits without constraints whose variables pass the check at construction.rs:219: also
those with constant bad literals and those whose next-state variables do not fit a literal. -/
theorem C28_release (be : BuildEnv) (hb : be.OK) (a : Aig) (hr : a.Represents c) (hw : c.WF) :
    (∃ f, fromAig false be a ob = .ok f) ↔ c.constraints = [] ∧ c.maxVar < 2147483647 := by
  constructor
  · rintro ⟨f, e⟩
    refine ⟨Classical.byContradiction fun h => ?_, Classical.byContradiction fun h => ?_⟩
    · obtain ⟨s, e'⟩ := fromAig_constraints false be hr ob h
      rw [e] at e'; cases e'
    · obtain ⟨s, e'⟩ := fromAig_large false be hr ob (Nat.le_of_not_lt h)
      rw [e] at e'; cases e'
  · rintro ⟨h1, h2⟩
    obtain ⟨f, e, _⟩ := fromAig_release hb hr hw h2 h1 ob
    exact ⟨f, e⟩

/-- C28: and this is what it makes of them.  The gates are right, but the variables for the next state are reduced modulo 2³¹, and a
constant bad literal becomes a literal of variable 0, which no formula sets to 0. -/
theorem C28_release_meaning (be : BuildEnv) (hb : be.OK) (a : Aig) (hr : a.Represents c) (hw : c.WF) (e : fromAig false be a ob = .ok f)
    (v : Val) :
    (f.getTransitionRelation.holds v ↔
      (∀ (i : Nat) (p : Nat × Nat), c.latches[i]? = some p →
        v ((c.latchVar i + c.maxVar) % 2147483648) = litVal (fun x => if x = 0 then false else v x) p.1) ∧
      (∀ (i : Nat) (p : Nat × Nat), c.ands[i]? = some p → c.InCone (c.latches.map Prod.fst) i →
        v (c.andVar i) = (litVal (fun x => if x = 0 then false else v x) p.1 && litVal (fun x => if x = 0 then false else v x) p.2))) ∧
    (f.getStateToSafetyTranslation.holds v ↔
      ∀ (i : Nat) (p : Nat × Nat), c.ands[i]? = some p → c.InCone (badLits c ob) i →
        v (c.andVar i) = (litVal (fun x => if x = 0 then false else v x) p.1 && litVal (fun x => if x = 0 then false else v x) p.2)) ∧
    (f.getUnsafetyProperty.holds v ↔ ∃ l ∈ badLits c ob, litVal v l = true) := by
  obtain ⟨hc, hm⟩ := (C28_release be hb a hr hw).1 ⟨f, e⟩
  obtain ⟨f', e', h, _⟩ := fromAig_release hb hr hw hm hc ob
  rw [e] at e'
  cases e'
  refine ⟨h.transition_holds, coneClauses_holds h.safety_mem, ?_⟩
  show f.unsafety.holds v ↔ _
  rw [h.unsafety, Clause.holds_new]
  constructor
  · rintro ⟨l, hl, hv⟩
    obtain ⟨b, hb, rfl⟩ := List.mem_map.1 hl
    exact ⟨b, hb, literal_holds_mk.1 hv⟩
  · rintro ⟨b, hb, hv⟩
    exact ⟨⟨b⟩, List.mem_map.2 ⟨b, hb, rfl⟩, literal_holds_mk.2 hv⟩

/-- The constant 0 as bad literal: a safe circuit.  In the release build's system a valuation satisfies the unsafety clause, by setting
variable 0. -/
example : ∃ f, fromAig false bruteBuild (finish ⟨0, [], [], [], [0], []⟩ [] none) false = .ok f ∧
    f.getUnsafetyProperty.holds (fun _ => true) ∧ f.getStateToSafetyTranslation.holds (fun _ => true) ∧ f.getInitialRelation.holds (fun _ => true) := by
  have hr : (finish ⟨0, [], [], [], [0], []⟩ [] none).Represents ⟨0, [], [], [], [0], []⟩ :=
    represents_finish ⟨by decide, by decide, by decide, by decide, by decide⟩ _ _
  obtain ⟨f, e⟩ := (C28_release (ob := false) bruteBuild bruteBuild_ok _ hr (Circuit.wf_of_wfb (by decide))).2 ⟨rfl, by decide⟩
  have H := C28_release_meaning bruteBuild bruteBuild_ok _ hr (Circuit.wf_of_wfb (by decide)) e (fun _ => true)
  refine ⟨f, e, H.2.2.2 ⟨0, by decide, rfl⟩, H.2.1.2 (fun i p hp => by cases hp), ?_⟩
  have : (fromAig false bruteBuild (finish ⟨0, [], [], [], [0], []⟩ [] none) false).toOption.map Fsts.getInitialRelation = some ⟨[]⟩ := by
    decide +kernel
  rw [e] at this
  have := Option.some.inj this
  rw [this]
  intro l hl; cases hl

/-- C73: if the number of variables times `d` is 2³¹ and the last gate matters neither for the next state nor for the bad literals (so
that no literal gets the number 0), a release build always returns; it reports counterexamples of fewer than `d` steps only, and these are
shortest.  Without timeouts it finds them whenever there are any, and answers `NoCTX { depth_reached: limit }` otherwise — whatever longer counterexamples the
circuit has, and whatever the limit. -/
theorem C73_release (env : Env) (he : env.Correct 2147483647) (clock : Clock) (h : Built f c ob) (d : Nat) (hd : c.maxVar * d = 2147483648)
    (hp : 0 < c.ands.length) (hn : ¬ c.InCone (c.latches.map Prod.fst) (c.ands.length - 1)) (hb : ¬ c.InCone (badLits c ob) (c.ands.length - 1))
    (limit : Nat) (hl : limit < 2147483648) (t : Nat) :
    ∃ r t', search false env clock f limit t = .ok (r, t') ∧
      (∀ a k, r = .ctx a k → k < d ∧ k ≤ limit ∧ c.Shortest (badLits c ob) k) ∧
      ((∀ k, clock.expired k = false ∧ clock.finished k = true) →
        ((∃ j, j < d ∧ j ≤ limit ∧ c.UnsafeAt (badLits c ob) j) → ∃ a k, r = .ctx a k) ∧
        ((¬ ∃ j, j < d ∧ j ≤ limit ∧ c.UnsafeAt (badLits c ob) j) → r = .noCtx limit)) := by
  obtain ⟨r, t', e, hr⟩ := search_wrap he (clock := clock) (sys_of h) ⟨hp, hn, hb⟩ hd hl t
  refine ⟨r, t', e, ?_, fun hc => ?_⟩
  · rintro a k rfl; exact hr
  · cases r with
    | ctx a k => exact ⟨fun _ => ⟨a, k, rfl⟩, fun H => absurd ⟨k, hr.1, hr.2.1, hr.2.2.1⟩ H⟩
    | noCtx e =>
      obtain ⟨rfl, H⟩ := hr hc
      exact ⟨fun ⟨j, h1, h2, h3⟩ => absurd h3 (H j h1 h2), fun _ => rfl⟩

/-- C73: a debug build panics instead, at the first depth whose last frame leaves the range of literals if not before, unless there is a
shorter counterexample, the clock runs out, or there are no bad literals. -/
theorem C73_debug (env : Env) (he : env.Correct 2147483647) (clock : Clock) (hc : ∀ k, clock.expired k = false ∧ clock.finished k = true)
    (h : Built f c ob) (hb : badLits c ob ≠ []) (k limit : Nat) (hk : 2147483648 ≤ c.maxVar * k) (hl : k ≤ limit)
    (hs : ∀ j, j < k → ¬ c.UnsafeAt (badLits c ob) j) (t : Nat) : ∃ site, search true env clock f limit t = .error (.panic site) :=
  search_debug he hc (sys_of h) hb hk hl hs t

/-! ## A circuit with 2²⁰ variables -/

/-- A row of `k` latches behind `n` inputs.  All are reset to 0, the first gets 1, each other one the value of its left neighbour; the last one is bad.
One gate, on two inputs, feeds an output. -/
def pipeline (n k : Nat) : Circuit :=
  ⟨n, (List.range k).map fun i => (if i = 0 then 1 else 2 * (n + i), 0), [(4, 2)], [2 * (n + k + 1)], [2 * (n + k)], []⟩

theorem pipeline_latch {n k i : Nat} {p : Nat × Nat} (h : (pipeline n k).latches[i]? = some p) :
    i < k ∧ p = (if i = 0 then 1 else 2 * (n + i), 0) := by
  unfold pipeline at h
  simp only [List.getElem?_map] at h
  have hi : i < k := by
    rcases Nat.lt_or_ge i k with h1 | h1
    · exact h1
    · rw [List.getElem?_eq_none (by simpa using h1)] at h; cases h
  rw [List.getElem?_range hi] at h
  exact ⟨hi, (Option.some.inj h).symm⟩

theorem pipeline_maxVar (n k : Nat) : (pipeline n k).maxVar = n + k + 1 := by
  unfold Circuit.maxVar pipeline; simp

theorem pipeline_wf {n k : Nat} (hn : 2 ≤ n) : (pipeline n k).WF where
  next_ok := by
    intro i p h
    obtain ⟨hi, rfl⟩ := pipeline_latch h
    unfold Circuit.LitOK
    rw [pipeline_maxVar]
    dsimp only
    split <;> omega
  reset_ok := by
    intro i p h
    obtain ⟨hi, rfl⟩ := pipeline_latch h
    exact .inl rfl
  and_ok := by
    intro i p h
    unfold pipeline at h
    match i, h with
    | 0, h =>
      cases h
      have : (pipeline n k).andVar 0 = 1 + n + k := by unfold Circuit.andVar pipeline; simp
      rw [this]; simp only; omega
  out_ok := by
    intro l h
    have : l = 2 * (n + k + 1) := by simpa [pipeline] using h
    subst this
    unfold Circuit.LitOK; rw [pipeline_maxVar]; omega
  bad_ok := by
    intro l h
    have : l = 2 * (n + k) := by simpa [pipeline] using h
    subst this
    unfold Circuit.LitOK; rw [pipeline_maxVar]; omega
  con_ok := by intro l h; cases h

/-- The last latch is 1 after `k` clocks. -/
theorem pipeline_unsafe {n k : Nat} (hn : 2 ≤ n) (hk : 1 ≤ k) : (pipeline n k).UnsafeAt [2 * (n + k)] k := by
  refine ⟨fun t x => decide (n < x ∧ x ≤ n + k ∧ x ≤ n + t), ⟨?_, ?_, ?_⟩, ⟨2 * (n + k), by simp, ?_⟩⟩
  · intro i p h
    obtain ⟨hi, rfl⟩ := pipeline_latch h
    refine ⟨fun _ => decide_eq_false ?_, fun h => by cases h⟩
    have e : (pipeline n k).latchVar i = 1 + n + i := rfl
    rw [e]
    omega
  · intro t _
    refine ⟨decide_eq_false (by omega), fun i p h => ?_⟩
    unfold pipeline at h
    match i, h with
    | 0, h =>
      cases h
      have : (pipeline n k).andVar 0 = 1 + n + k := by unfold Circuit.andVar pipeline; simp
      rw [this]
      have e1 : decide (n < 1 + n + k ∧ 1 + n + k ≤ n + k ∧ 1 + n + k ≤ n + t) = false := decide_eq_false (by omega)
      have e2 : decide (n < 1 ∧ 1 ≤ n + k ∧ 1 ≤ n + t) = false := decide_eq_false (by omega)
      show decide _ = (_ && xor (decide (n < 1 ∧ 1 ≤ n + k ∧ 1 ≤ n + t)) false)
      rw [e1, e2]; simp
  · intro t _ i p h
    obtain ⟨hi, rfl⟩ := pipeline_latch h
    show decide (n < 1 + n + i ∧ 1 + n + i ≤ n + k ∧ 1 + n + i ≤ n + (t + 1)) = _
    by_cases h0 : i = 0
    · subst h0
      rw [decide_eq_true (by omega)]
      simp [litVal]
    · dsimp only
      rw [if_neg h0]
      unfold litVal
      have e1 : 2 * (n + i) / 2 = n + i := by omega
      have e2 : 2 * (n + i) % 2 = 0 := by omega
      rw [e1, e2]
      simp only [Nat.zero_ne_one, decide_false, Bool.xor_false]
      apply decide_eq_decide.2
      omega
  · unfold litVal
    have e1 : 2 * (n + k) / 2 = n + k := by omega
    have e2 : 2 * (n + k) % 2 = 0 := by omega
    rw [e1, e2]
    simp only [Nat.zero_ne_one, decide_false, Bool.xor_false]
    exact decide_eq_true (by omega)

/-- And not before. -/
theorem pipeline_shortest {n k : Nat} {j : Nat} (hj : j < k) : ¬ (pipeline n k).UnsafeAt [2 * (n + k)] j := by
  rintro ⟨w, he, b, hb, hbad⟩
  have hlen : (pipeline n k).latches.length = k := by unfold pipeline; simp
  have key : ∀ t, t ≤ j → ∀ i, t ≤ i → i < k → w t (n + 1 + i) = false := by
    intro t
    induction t with
    | zero =>
      intro _ i _ hi
      obtain ⟨p, hp⟩ : ∃ p, (pipeline n k).latches[i]? = some p := ⟨_, List.getElem?_eq_getElem (by omega)⟩
      have := (he.init i p hp).1 (by obtain ⟨_, rfl⟩ := pipeline_latch hp; rfl)
      have e : (pipeline n k).latchVar i = n + 1 + i := by unfold Circuit.latchVar pipeline; simp; omega
      rwa [e] at this
    | succ t ih =>
      intro ht i hti hi
      obtain ⟨p, hp⟩ : ∃ p, (pipeline n k).latches[i]? = some p := ⟨_, List.getElem?_eq_getElem (by omega)⟩
      have := he.step t (by omega) i p hp
      obtain ⟨_, rfl⟩ := pipeline_latch hp
      have e : (pipeline n k).latchVar i = n + 1 + i := by unfold Circuit.latchVar pipeline; simp; omega
      rw [e] at this
      rw [this]
      dsimp only
      rw [if_neg (by omega)]
      unfold litVal
      have e1 : 2 * (n + i) / 2 = n + 1 + (i - 1) := by omega
      have e2 : 2 * (n + i) % 2 = 0 := by omega
      rw [e1, e2, ih (by omega) (i - 1) (by omega) (by omega)]
      rfl
  have : b = 2 * (n + k) := by simpa using hb
  subst this
  unfold litVal at hbad
  have e1 : 2 * (n + k) / 2 = n + 1 + (k - 1) := by omega
  have e2 : 2 * (n + k) % 2 = 0 := by omega
  rw [e1, e2, key j (Nat.le_refl _) (k - 1) (by omega) (by omega)] at hbad
  cases hbad

/-- Its only gate has no part in the next state or the bad literal. -/
theorem pipeline_cone {n k : Nat} {ls : List Nat} (h : ∀ l ∈ ls, l / 2 ≤ n + k) : ¬ (pipeline n k).InCone ls 0 := by
  have hv : ∀ j, (pipeline n k).andVar j = 1 + n + k + j := by intro j; unfold Circuit.andVar pipeline; simp
  intro hc
  have key : ∀ i, (pipeline n k).InCone ls i → False := by
    intro i hi
    induction hi with
    | root hm e _ => have := h _ hm; rw [hv] at e; omega
    | input _ _ _ _ _ ih => exact ih
  exact key 0 hc

theorem pipeline_supported {n k : Nat} (hn : 2 ≤ n) (hm : 2 * (n + k + 1) < 2147483648) : Supported (pipeline n k) false where
  wf := pipeline_wf hn
  encodable := Circuit.Small.encodable (by unfold Circuit.Small; rw [pipeline_maxVar]; exact hm)
  constraints := rfl
  bad := by
    intro l hl
    have : l = 2 * (n + k) := by simpa [badLits, pipeline] using hl
    omega

/-- The circuit of the counterexample: 1 046 527 inputs, 2048 latches, 1 gate.  As a binary AIGER file it has a few thousand bytes. -/
def long : Circuit := pipeline 1046527 2048

theorem pipeline_fits {n k : Nat} (hm : n + k + 1 < 2147483648) : (pipeline n k).Fits := by
  have hl : (pipeline n k).latches.length = k := by unfold pipeline; simp
  refine ⟨rfl, ?_, ?_, ?_, ?_⟩
  · rw [pipeline_maxVar]; omega
  · show 1 * 8 ≤ _; decide
  · show 1 * 8 ≤ _; decide
  · show 0 * 8 ≤ _; decide

theorem long_built : ∃ f, Built f long false :=
  ⟨_, systemOf_built (pipeline_fits (by decide)) (pipeline_supported (by decide) (by decide))⟩

/-- C73: for a circuit with 2²⁰ variables whose last latch becomes bad after exactly 2048 clocks, a release build answers `NoCTX` for every
limit.  (The claim of C35 and C37 without their assumption on the variables.) -/
theorem C73_refuted : ∃ (f : Fsts) (c : Circuit), Built f c false ∧ c.maxVar = 1048576 ∧ c.Shortest (badLits c false) 2048 ∧
    ∀ (env : Env), env.Correct 2147483647 → ∀ (clock : Clock), (∀ k, clock.expired k = false ∧ clock.finished k = true) →
      ∀ limit, limit < 2147483648 → ∀ t, ∃ t', search false env clock f limit t = .ok (.noCtx limit, t') := by
  obtain ⟨f, hf⟩ := long_built
  have hbad : badLits long false = [2 * (1046527 + 2048)] := rfl
  have hsh : ∀ j, j < 2048 → ¬ long.UnsafeAt (badLits long false) j := fun j hj => pipeline_shortest hj
  refine ⟨f, long, hf, pipeline_maxVar _ _, ⟨pipeline_unsafe (by decide) (by decide), hsh⟩, fun env he clock hc limit hl t => ?_⟩
  obtain ⟨r, t', e, _, h2⟩ := C73_release env he clock hf 2048 (by unfold long; rw [pipeline_maxVar]) (by decide)
    (pipeline_cone fun l hl => by
      obtain ⟨p, hp, rfl⟩ := List.mem_map.1 hl
      obtain ⟨i, hi⟩ := List.mem_iff_getElem?.1 hp
      obtain ⟨hi, rfl⟩ := pipeline_latch hi
      dsimp only
      split <;> omega)
    (pipeline_cone fun l hl => by
      rw [hbad] at hl
      have := List.mem_singleton.1 hl
      omega) limit hl t
  rw [(h2 hc).2 (by rintro ⟨j, hj, _, hU⟩; exact hsh j hj hU)] at e
  exact ⟨t', e⟩

/-- A debug build panics on it, with every limit from 2048 on. -/
example : ∃ f, Built f long false ∧ ∀ (env : Env), env.Correct 2147483647 → ∀ (clock : Clock),
    (∀ k, clock.expired k = false ∧ clock.finished k = true) → ∀ limit, 2048 ≤ limit → ∀ t, ∃ site, search true env clock f limit t = .error (.panic site) := by
  obtain ⟨f, hf⟩ := long_built
  refine ⟨f, hf, fun env he clock hc limit hl t => ?_⟩
  exact C73_debug env he clock hc hf (by show [_] ≠ []; simp) 2048 limit (by unfold long; rw [pipeline_maxVar]; decide) hl
    (fun j hj => pipeline_shortest hj) t

/-- The solvers assumed exist. -/
example : Brute.env.Correct 2147483647 := (Brute.env_ok_upTo _).correct

/-- Tagging in a release build: variables 3 and 4 of a system with 2³⁰ + 1 variables, two frames on. -/
example : (⟨[], ⟨[]⟩, ⟨0, []⟩, ⟨0, []⟩, ⟨[]⟩, 1073741825, [], [], [], []⟩ : Fsts).addTagsToClause false (Clause.new [⟨6⟩, ⟨9⟩]) 2 =
    .ok (Clause.new [⟨10⟩, ⟨13⟩]) := by decide +kernel

end Verif.Props
