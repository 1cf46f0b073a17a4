import Verif.Props.Bmc
import Verif.Spec.BmcLimit

/-!
# C71: what the depth limit of BMC decides

No contract on the back-end and nothing assumed of the system: the statements are about the loop alone.
-/

namespace Verif.Props

open BMC

variable {dbg : Bool} {env : Env} {clock : Clock} {f : Fsts}

theorem loop_split (initial : Cube) (notP0 tr : CNF) (s : Nat) (n : Nat) : ∀ depth,
    (∀ limit x, searchLoop dbg env clock f initial notP0 tr limit (n + x) depth (s + depth) =
      searchLoop dbg env clock f initial notP0 tr limit x (depth + n) (s + depth + n)) ∨
    ∃ o, (∀ limit x, searchLoop dbg env clock f initial notP0 tr limit (n + x) depth (s + depth) = o) ∧
      ∀ r t', o = .ok (r, t') → ∃ k q, depth ≤ k ∧ k < depth + n ∧ t' = s + q ∧ EndsAt clock k q r := by
  induction n with
  | zero => exact fun depth => .inl fun limit x => by rw [Nat.zero_add]; rfl
  | succ n ih =>
    intro depth
    cases hx : clock.expired depth with
    | true =>
      refine .inr ⟨(toI32 "bmc.rs:121 try_into" depth).bind fun d => .ok (.noCtx (d - 1), s + depth), fun limit x => ?_, fun r t' e => ?_⟩
      · rw [Nat.succ_add]
        unfold searchLoop
        rw [hx]
        cases toI32 "bmc.rs:121 try_into" depth <;> rfl
      · cases h : toI32 "bmc.rs:121 try_into" depth with
        | error _ => rw [h] at e; cases e
        | ok d =>
          rw [h] at e
          obtain ⟨rfl, rfl⟩ := Prod.mk.inj (Except.ok.inj e)
          rw [toI32_ok h]
          exact ⟨depth, depth, Nat.le_refl _, by omega, rfl, .expired depth hx⟩
    | false =>
      cases hg : satFormula dbg f initial notP0 tr depth with
      | error e =>
        refine .inr ⟨.error e, fun limit x => ?_, fun r t' e => by cases e⟩
        rw [Nat.succ_add]
        unfold searchLoop
        rw [hx, hg]
        rfl
      | ok g =>
        cases hf : clock.finished depth with
        | false =>
          have hc : timedSatCall env clock depth g (s + depth) = .ok (.timeOut, s + depth + 1) := by rw [timedSatCall_run, hf]; rfl
          refine .inr ⟨(toI32 "bmc.rs:140 try_into" depth).bind fun d => .ok (.noCtx (d - 1), s + depth + 1), fun limit x => ?_, fun r t' e => ?_⟩
          · rw [Nat.succ_add]
            unfold searchLoop
            rw [hx, hg, if_neg Bool.false_ne_true]
            show ((timedSatCall env clock depth g _).bind _ : Res (BMCResult × Nat)) = _
            rw [hc]
            cases toI32 "bmc.rs:140 try_into" depth <;> rfl
          · cases h : toI32 "bmc.rs:140 try_into" depth with
            | error _ => rw [h] at e; cases e
            | ok d =>
              rw [h] at e
              obtain ⟨rfl, rfl⟩ := Prod.mk.inj (Except.ok.inj e)
              rw [toI32_ok h]
              exact ⟨depth, depth + 1, Nat.le_refl _, by omega, rfl, .timeOut depth hf⟩
        | true =>
          cases hj : join (env.solve (s + depth) g) with
          | error e =>
            have hc : timedSatCall env clock depth g (s + depth) = .error e := by rw [timedSatCall_run, hf, hj]; rfl
            refine .inr ⟨.error e, fun limit x => ?_, fun r t' e => by cases e⟩
            rw [Nat.succ_add]
            unfold searchLoop
            rw [hx, hg, if_neg Bool.false_ne_true]
            show ((timedSatCall env clock depth g _).bind _ : Res (BMCResult × Nat)) = _
            rw [hc]
            rfl
          | ok a =>
            have hc : timedSatCall env clock depth g (s + depth) = .ok (.noTimeOut a, s + depth + 1) := by rw [timedSatCall_run, hf, hj]; rfl
            cases a with
            | sat a =>
              refine .inr ⟨.ok (.ctx a depth, s + depth + 1), fun limit x => ?_, fun r t' e => ?_⟩
              · rw [Nat.succ_add]
                unfold searchLoop
                rw [hx, hg, if_neg Bool.false_ne_true]
                show ((timedSatCall env clock depth g _).bind _ : Res (BMCResult × Nat)) = _
                rw [hc]
                rfl
              · obtain ⟨rfl, rfl⟩ := Prod.mk.inj (Except.ok.inj e)
                exact ⟨depth, depth + 1, Nat.le_refl _, by omega, rfl, .ctx a depth⟩
            | unsat =>
              have step : ∀ limit x, searchLoop dbg env clock f initial notP0 tr limit (n + 1 + x) depth (s + depth) =
                  searchLoop dbg env clock f initial notP0 tr limit (n + x) (depth + 1) (s + (depth + 1)) := by
                intro limit x
                rw [Nat.succ_add]
                conv => lhs; unfold searchLoop
                rw [hx, hg, if_neg Bool.false_ne_true]
                show ((timedSatCall env clock depth g _).bind _ : Res (BMCResult × Nat)) = _
                rw [hc]
                rfl
              rcases ih (depth + 1) with h | ⟨o, h1, h2⟩
              · refine .inl fun limit x => ?_
                rw [step, h]
                congr 1 <;> omega
              · refine .inr ⟨o, fun limit x => by rw [step, h1], fun r t' e => ?_⟩
                obtain ⟨k, q, hk, hk', h3⟩ := h2 r t' e
                exact ⟨k, q, by omega, by omega, h3⟩

theorem EndsAt.early {k q : Nat} {r : BMCResult} {limit : Nat} (h : EndsAt clock k q r) (hk : k ≤ limit) : Early limit r := by
  cases h with
  | ctx => exact hk
  | expired => show (k : Int) - 1 < limit; omega
  | timeOut => show (k : Int) - 1 < limit; omega

theorem EndsAt.late {k q : Nat} {r : BMCResult} {limit : Nat} (h : EndsAt clock k q r) (he : Early limit r) : k ≤ limit := by
  cases h with
  | ctx => exact he
  | expired => have : (k : Int) - 1 < limit := he; omega
  | timeOut => have : (k : Int) - 1 < limit := he; omega

theorem search_eq {limit : Nat} (hl : limit + 1 < 4294967296) (t : Nat) : search dbg env clock f limit t =
    searchLoop dbg env clock f f.getInitialRelation (f.getUnsafetyProperty.toCnf.append f.getStateToSafetyTranslation) f.getTransitionRelation limit
      (limit + 1) 0 t := by
  unfold search
  have : u32Add dbg "bmc.rs:112 overflow" limit 1 = .ok (limit + 1) := by
    unfold u32Add
    rw [if_pos (show limit + 1 < u32Size from hl)]
  rw [this]
  rfl

theorem last_eq {limit depth t : Nat} {initial : Cube} {notP0 tr : CNF} : searchLoop dbg env clock f initial notP0 tr limit 0 depth t =
    (toI32 "bmc.rs:148 try_into" limit).bind fun d => .ok (.noCtx d, t) := by
  unfold searchLoop
  cases toI32 "bmc.rs:148 try_into" limit <;> rfl

/-- Either every depth up to the smaller limit is passed, or both runs end there in the same way. -/
theorem search_split {l l' : Nat} (hl : l ≤ l') (hu : l' + 1 < 4294967296) (t : Nat) :
    (search dbg env clock f l t = (toI32 "bmc.rs:148 try_into" l).bind (fun d => .ok (.noCtx d, t + (l + 1))) ∧
      search dbg env clock f l' t = searchLoop dbg env clock f f.getInitialRelation
        (f.getUnsafetyProperty.toCnf.append f.getStateToSafetyTranslation) f.getTransitionRelation l' (l' - l) (l + 1) (t + (l + 1))) ∨
    (search dbg env clock f l' t = search dbg env clock f l t ∧ ∀ r t', search dbg env clock f l t = .ok (r, t') →
      ∃ k q, k ≤ l ∧ t' = t + q ∧ EndsAt clock k q r) := by
  rw [search_eq hu, search_eq (by omega : l + 1 < 4294967296)]
  rcases loop_split (dbg := dbg) (env := env) (clock := clock) (f := f) f.getInitialRelation
    (f.getUnsafetyProperty.toCnf.append f.getStateToSafetyTranslation) f.getTransitionRelation t (l + 1) 0 with h | ⟨o, h1, h2⟩
  · refine .inl ⟨?_, ?_⟩
    · have := h l 0
      rw [last_eq] at this
      exact this
    · have := h l' (l' - l)
      rw [show l + 1 + (l' - l) = l' + 1 by omega, Nat.zero_add] at this
      exact this
  · have e1 := h1 l 0
    have e2 := h1 l' (l' - l)
    rw [show l + 1 + (l' - l) = l' + 1 by omega] at e2
    refine .inr ⟨e2.trans e1.symm, fun r t' e => ?_⟩
    obtain ⟨k, q, _, hk, h3, h4⟩ := h2 r t' (e1.symm.trans e)
    exact ⟨k, q, by omega, h3, h4⟩

theorem EndsAt.asked {k q : Nat} {r : BMCResult} (h : EndsAt clock k q r) : k ≤ q := by cases h <;> omega

theorem late_loop {l l' t t' : Nat} {initial : Cube} {notP0 tr : CNF} {r : BMCResult} (hl : l ≤ l')
    (h : searchLoop dbg env clock f initial notP0 tr l' (l' - l) (l + 1) (t + (l + 1)) = .ok (r, t')) : ¬ Early l r ∧ t + (l + 1) ≤ t' := by
  rcases loop_split (dbg := dbg) (env := env) (clock := clock) (f := f) initial notP0 tr t (l' - l) (l + 1) with h1 | ⟨o, h1, h2⟩
  · have := h1 l' 0
    rw [last_eq, Nat.add_zero, h] at this
    cases hx : toI32 "bmc.rs:148 try_into" l' with
    | error _ => rw [hx] at this; cases this
    | ok d =>
      rw [hx] at this
      obtain ⟨rfl, rfl⟩ := Prod.mk.inj (Except.ok.inj this)
      rw [toI32_ok hx]
      exact ⟨fun he => by have : (l' : Int) < l := he; omega, by omega⟩
  · have := h1 l' 0
    rw [Nat.add_zero, h] at this
    obtain ⟨k, q, hk, _, h3, h4⟩ := h2 r t' this.symm
    have := EndsAt.asked h4
    exact ⟨fun he => by have := EndsAt.late h4 he; omega, by omega⟩

/-- C71: one query per depth, from 0 on.  A run that ends at depth `k` has asked `k + 1` queries (`k` if the clock had expired before), a run that
reaches its limit `limit + 1`. -/
theorem C71_queries (dbg : Bool) (env : Env) (clock : Clock) (f : Fsts) (limit : Nat) (hl : limit + 1 < 4294967296) (t : Nat) (r : BMCResult) (t' : Nat)
    (h : search dbg env clock f limit t = .ok (r, t')) :
    (∃ k q, k ≤ limit ∧ t' = t + q ∧ EndsAt clock k q r) ∨ (r = .noCtx limit ∧ t' = t + (limit + 1)) := by
  rcases search_split (Nat.le_refl limit) hl t with ⟨e, _⟩ | ⟨_, h1⟩
  · rw [h] at e
    cases hx : toI32 "bmc.rs:148 try_into" limit with
    | error _ => rw [hx] at e; cases e
    | ok d =>
      rw [hx] at e
      obtain ⟨rfl, rfl⟩ := Prod.mk.inj (Except.ok.inj e)
      rw [toI32_ok hx]
      exact .inr ⟨rfl, rfl⟩
  · exact .inl (h1 r t' h)

/-- C71: results below the smaller limit are the same for both limits. -/
theorem C71_same (dbg : Bool) (env : Env) (clock : Clock) (f : Fsts) (l l' : Nat) (hl : l ≤ l') (hu : l' + 1 < 4294967296) (t : Nat) (r : BMCResult)
    (t' : Nat) (hr : Early l r) : search dbg env clock f l t = .ok (r, t') ↔ search dbg env clock f l' t = .ok (r, t') := by
  rcases search_split hl hu t with ⟨e1, e2⟩ | ⟨e, _⟩
  · constructor
    · intro h
      rcases C71_queries dbg env clock f l (by omega) t r t' h with ⟨k, q, hk, h1, h2⟩ | ⟨rfl, _⟩
      · exfalso
        rw [h] at e1
        cases hx : toI32 "bmc.rs:148 try_into" l with
        | error _ => rw [hx] at e1; cases e1
        | ok d =>
          rw [hx] at e1
          obtain ⟨rfl, _⟩ := Prod.mk.inj (Except.ok.inj e1)
          rw [toI32_ok hx] at hr
          exact Int.lt_irrefl _ hr
      · exact absurd hr (Int.lt_irrefl _)
    · intro h
      rw [h] at e2
      exact absurd hr (late_loop hl e2.symm).1
  · rw [e]

/-- C71: a run that reaches its limit is only continued by a run with a larger one: that one has nothing to say about the depths passed. -/
theorem C71_continues (dbg : Bool) (env : Env) (clock : Clock) (f : Fsts) (l l' : Nat) (hl : l ≤ l') (hu : l' + 1 < 4294967296) (t t1 : Nat)
    (h : search dbg env clock f l t = .ok (.noCtx l, t1)) (r : BMCResult) (t' : Nat) (h' : search dbg env clock f l' t = .ok (r, t')) :
    ¬ Early l r ∧ t1 ≤ t' := by
  refine ⟨fun hr => ?_, ?_⟩
  · have := (C71_same dbg env clock f l l' hl hu t r t' hr).2 h'
    rw [h] at this
    obtain ⟨rfl, _⟩ := Prod.mk.inj (Except.ok.inj this)
    exact Int.lt_irrefl _ hr
  · rcases search_split hl hu t with ⟨e1, e2⟩ | ⟨e, _⟩
    · rw [h'] at e2
      have h1 := (late_loop hl e2.symm).2
      rcases C71_queries dbg env clock f l (by omega) t _ t1 h with ⟨k, q, hk, _, h3⟩ | ⟨_, h2⟩
      · exact absurd (EndsAt.early h3 hk) (Int.lt_irrefl _)
      · omega
    · rw [h', h] at e
      obtain ⟨_, rfl⟩ := Prod.mk.inj (Except.ok.inj e)
      exact Nat.le_refl _

/-- C71: a panic on the way is met with every larger limit; the other panic is the limit itself not fitting the result. -/
theorem C71_panics (dbg : Bool) (env : Env) (clock : Clock) (f : Fsts) (l l' : Nat) (hl : l ≤ l') (hu : l' + 1 < 4294967296) (t : Nat) (e : Err)
    (h : search dbg env clock f l t = .error e) : search dbg env clock f l' t = .error e ∨ 2147483648 ≤ l := by
  rcases search_split hl hu t with ⟨e1, _⟩ | ⟨e1, _⟩
  · rw [h] at e1
    refine .inr (Nat.le_of_not_lt fun hlt => ?_)
    unfold toI32 at e1
    rw [if_pos hlt] at e1
    cases e1
  · rw [e1, h]; exact .inl rfl

/-! ## The shift register of `Props/Bmc`, and runs that meet each hypothesis -/

example : (search true Brute.env patient (systemOf shifter false) 4 7).toOption.map Prod.snd = some 11 := by decide +kernel
example : (search true Brute.env patient (systemOf shifter false) 2 7).toOption = some (.noCtx 2, 10) := by decide +kernel
/-- The clock expires before depth 2. -/
example : (search true Brute.env ⟨fun k => k == 2, fun _ => true⟩ (systemOf shifter false) 4 7).toOption = some (.noCtx 1, 9) := by decide +kernel
/-- The query of depth 2 does not finish. -/
example : (search true Brute.env ⟨fun _ => false, fun k => k < 2⟩ (systemOf shifter false) 4 7).toOption = some (.noCtx 1, 10) := by decide +kernel
/-- A result below the limit: the hypothesis of `C71_same` holds and both limits give it. -/
example : Early 4 (.noCtx 1) := by show (1 : Int) < 4; decide
example (r : BMCResult) (t' : Nat) (h : search true Brute.env patient (systemOf shifter false) 3 0 = .ok (r, t')) (hr : Early 3 r) :
    search true Brute.env patient (systemOf shifter false) 20 0 = .ok (r, t') := (C71_same _ _ _ _ 3 20 (by decide) (by decide) 0 r t' hr).1 h
example : ((search true Brute.env patient (systemOf shifter false) 3 0).toOption.map Prod.fst).map (fun | .ctx _ d => d | .noCtx _ => 99) = some 3 := by
  decide +kernel
/-- A solver that panics at its second call. -/
example : (search true { Brute.env with solve := fun t g => if t = 1 then panicR "solver" else Brute.env.solve t g } patient (systemOf shifter false) 1 0) =
    .error (.panic "bmc.rs:74 unwrap") := by decide +kernel

end Verif.Props
