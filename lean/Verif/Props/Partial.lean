import Verif.Proofs.Complete
import Verif.Props.GiveUp
import Verif.Props.Simulated

/-!
# Property C75: solvers whose models leave variables open

`Env.Correct` and `StatefulImpl.Correct` are the contracts without completeness: `UnSat` only if unsatisfiable, `Sat` only with values that
extend to a satisfying valuation, nothing about which variables have a value.  The provers read a model in one place,
`extract_state_from_assignment`, which unwraps the value of every latch.
-/

namespace Verif.Props

open Verif.Fsts Verif.IC3

variable {f : Fsts} {c : Circuit} {ob : Bool}

/-- The `unwrap` of a latch's value in `extract_state_from_assignment`. -/
def openLatch : String := "features.rs:107 unwrap"

theorem open_mem : ∃ s ∈ [openLatch], (Err.panic "features.rs:107 unwrap") = .panic s := ⟨_, List.mem_cons_self, rfl⟩

theorem PanicsOr.ok {α : Type} {sites : List String} {x y : Res α} {a : α} (h : PanicsOr sites x y) (e : x = .ok a) : y = .ok a := by
  rcases h with ⟨s, _, h⟩ | h
  · rw [e] at h; cases h
  · rw [← h]; exact e

theorem PanicsOr.error {α : Type} {site : String} {x y : Res α} {err : Err} (h : PanicsOr [site] x y) (e : x = .error err) :
    err = .panic site ∨ y = .error err := by
  rcases h with ⟨s, hs, h⟩ | h
  · rw [e] at h; cases h
    rw [List.mem_singleton] at hs
    exact .inl (by rw [hs])
  · exact .inr (by rw [← h]; exact e)

/-- C75: over any solver whatever, `IC3Stateless` panics at that `unwrap` or ends as it does over a solver that gives the same answers with
more values. -/
theorem C75_more_values (dbg : Bool) (env env' : Env) (ho : env.order = env'.order) (hsh : env.shuffle = env'.shuffle)
    (hsolve : ∀ t g, env'.solve t g = env.solve t g ∨ ∃ a b, env.solve t g = .ok (.sat a) ∧ env'.solve t g = .ok (.sat b) ∧
      ∀ n x, a.getValue n = some x → b.getValue n = some x) (sched : Sched) (fuel : Nat) :
    PanicsOr [openLatch] (proveStateless dbg env sched f fuel) (proveStateless dbg env' sched f fuel) := by
  refine .of_follows (proveStateless_near (Prof.refl dbg) sched f ⟨fun t g => ?_, ho, hsh⟩ (FuelLe.refl fuel))
  rcases hsolve t g with e | ⟨a, b, e, e', h⟩
  · rw [e]
    cases env.solve t g with
    | ok r => exact ⟨r, rfl, .refl r⟩
    | error e => exact .inr rfl
  · rw [e, e']
    exact ⟨_, rfl, .inr ⟨open_mem, h⟩⟩

theorem stateless_complete (dbg : Bool) (env : Env) (sched : Sched) (f : Fsts) (fuel : Nat) :
    PanicsOr [openLatch] (proveStateless dbg env sched f fuel) (proveStateless dbg (env.complete []) sched f fuel) :=
  .of_follows (proveStateless_near (Prof.refl dbg) sched f (Env.near_complete open_mem env) (FuelLe.refl fuel))

theorem stateful_complete (dbg : Bool) (I : StatefulImpl) (sched : Sched) (f : Fsts) (fuel : Nat) :
    PanicsOr [openLatch] (proveStateful dbg I sched f fuel) (proveStateful dbg (I.complete []) sched f fuel) :=
  .of_follows (proveStateful_follows dbg sched f (StatefulImpl.like_complete open_mem I) (FuelLe.refl fuel))

theorem pdr_complete (dbg : Bool) (I : StatefulImpl) (sched : Sched) (f : Fsts) (fuel : Nat) :
    PanicsOr [openLatch] (PDR.run dbg I sched f fuel) (PDR.run dbg (I.complete []) sched f fuel) :=
  .of_follows (PDR.run_follows (Prof.refl dbg) sched f (StatefulImpl.like_complete open_mem I) (FuelLe.refl fuel))

/-- C75 (`IC3Stateless`): over a solver that may leave variables open, the verdicts mean what they mean over a complete one, apart from the
conversion of a depth above 2^32 the only possible panic is that `unwrap`, and the same number of iterations is enough. -/
theorem C75_ic3_stateless (dbg : Bool) (env : Env) (he : env.Correct) (sched : Sched) (hsched : sched.OK) (h : Built f c ob) (hs : c.Small)
    (fuel : Nat) :
    (∀ inv, proveStateless dbg env sched f fuel = .ok (.proof inv) → c.Safe (badLits c ob) ∧
      ∀ (dbg' : Bool) (env' : Env), env'.Correct → ∀ t, ∃ t', f.checkInvariant dbg' env' inv t = .ok ((), t')) ∧
    (∀ d, proveStateless dbg env sched f fuel = .ok (.ctx d) →
      ∃ e, c.Shortest (badLits c ob) e ∧ (e ≤ 1 ∧ d = e ∨ 1 ≤ d ∧ d < e)) ∧
    (∀ site, proveStateless dbg env sched f fuel = .error (.panic site) →
      (site = "ic3 depth try_into" ∧ c.Remote (badLits c ob)) ∨ site = openLatch) ∧
    ((2 ^ c.latches.length + 1) * (2 ^ c.latches.length + 2) < fuel → proveStateless dbg env sched f fuel ≠ .error .fuel) := by
  have hc := stateless_complete dbg env sched f fuel
  refine ⟨fun inv e => C38_proof dbg _ (he.complete (Env.values_nil _ _)) sched hsched h hs fuel inv (hc.ok e),
    fun d e => C39_ctx dbg _ (he.complete (Env.values_nil _ _)) sched hsched h hs fuel d (hc.ok e), fun site e => ?_, fun hfuel e => ?_⟩
  · rcases hc.error e with e' | e'
    · cases e'; exact .inr rfl
    · exact .inl (C40_no_panic dbg _ (he.complete (Env.values_nil _ _)) sched hsched h hs fuel site e')
  · rcases hc.error e with e' | e'
    · cases e'
    · rcases C40_terminates dbg _ (he.complete (Env.values_nil _ _)) sched hsched h hs fuel hfuel with ⟨r, e2⟩ | ⟨_, e2⟩ <;> rw [e'] at e2 <;> cases e2

/-- C75 (`IC3Stateful`): the same over a stateful solver, which may fail with the errors in `G` in addition. -/
theorem C75_ic3_stateful (dbg : Bool) (I : StatefulImpl) (G : Err → Prop) (O : I.Correct G) (sched : Sched) (hsched : sched.OK) (h : Built f c ob)
    (hs : c.Small) (fuel : Nat) :
    (∀ inv, proveStateful dbg I sched f fuel = .ok (.proof inv) → c.Safe (badLits c ob) ∧
      ∀ (dbg' : Bool) (env' : Env), env'.Correct → ∀ t, ∃ t', f.checkInvariant dbg' env' inv t = .ok ((), t')) ∧
    (∀ d, proveStateful dbg I sched f fuel = .ok (.ctx d) →
      ∃ e, c.Shortest (badLits c ob) e ∧ (e ≤ 1 ∧ d = e ∨ 1 ≤ d ∧ d < e)) ∧
    (∀ site, proveStateful dbg I sched f fuel = .error (.panic site) →
      (site = "ic3 depth try_into" ∧ c.Remote (badLits c ob)) ∨ site = openLatch ∨ G (.panic site)) ∧
    ((2 ^ c.latches.length + 1) * (2 ^ c.latches.length + 2) < fuel → proveStateful dbg I sched f fuel = .error .fuel → G .fuel) := by
  have hc := stateful_complete dbg I sched f fuel
  have hr := proveStateful_ends dbg (O.complete O.values_nil) hsched (smallSys_of h hs) fuel
  have hv := stateful_sound_of_ends hr
  refine ⟨fun inv e => hv.1 inv (hc.ok e), fun d e => hv.2 d (hc.ok e), fun site e => ?_, fun hfuel e => ?_⟩
  · rcases hc.error e with e' | e'
    · cases e'; exact .inr (.inl rfl)
    · rw [e'] at hr
      rcases hr with (⟨h1, _⟩ | ⟨h1, h2⟩) | h1
      · cases h1
      · cases h1; exact .inl ⟨rfl, h2⟩
      · exact .inr (.inr h1)
  · rcases hc.error e with e' | e'
    · cases e'
    · rw [e'] at hr
      rcases hr with (⟨_, h2⟩ | ⟨h1, _⟩) | h1
      · unfold IC3.enough at h2
        rw [Nat.add_mul] at hfuel
        omega
      · cases h1
      · exact h1

/-- C75 (PDR): the same, with the conditions PDR has anyway: a `Proof` is trustworthy in debug builds and for covered circuits, a `CTX` for covered
circuits. -/
theorem C75_pdr (dbg : Bool) (I : StatefulImpl) (G : Err → Prop) (O : I.Correct G) (sched : Sched) (hsched : sched.OK) (h : Built f c ob)
    (hs : c.Small) (fuel : Nat) :
    (∀ inv, PDR.run dbg I sched f fuel = .ok (.proof inv) → dbg = true ∨ c.Covered (badLits c ob) → c.Safe (badLits c ob) ∧
      ∀ (dbg' : Bool) (env' : Env), env'.Correct → ∀ t, ∃ t', f.checkInvariant dbg' env' inv t = .ok ((), t')) ∧
    (∀ d, PDR.run dbg I sched f fuel = .ok (.ctx d) → c.Covered (badLits c ob) →
      ∃ e, c.Shortest (badLits c ob) e ∧ d ≤ e ∧ (d = 0 ↔ e = 0)) ∧
    (∀ site, PDR.run dbg I sched f fuel = .error (.panic site) →
      (site = "pdr depth try_into" ∧ 32 ≤ c.latches.length ∧ (c.Covered (badLits c ob) → c.Remote (badLits c ob))) ∨ (site = "pdr.rs:568" ∧ dbg = true ∧ ¬ c.Covered (badLits c ob)) ∨
        site = openLatch ∨ G (.panic site)) ∧
    (pdrBound (2 ^ c.latches.length + 1) < fuel → PDR.run dbg I sched f fuel = .error .fuel → G .fuel) := by
  have hc := pdr_complete dbg I sched f fuel
  have hr := PDR.run_ends dbg (O.complete O.values_nil) hsched (smallSys_of h hs) fuel
  refine ⟨fun inv e hg => ?_, fun d e hg => ?_, fun site e => ?_, fun hfuel e => ?_⟩
  · rw [hc.ok e] at hr
    have hv := hr.2 hg.symm
    exact ⟨hv.1, hv.2.2⟩
  · rw [hc.ok e] at hr
    exact PDR.Outcome.shortest (sys := f) hr (.inl hg) hg
  · rcases hc.error e with e' | e'
    · cases e'; exact .inr (.inr (.inl rfl))
    · rw [e'] at hr
      rcases hr with (⟨h1, _⟩ | ⟨h1, h2⟩ | ⟨h1, h2⟩ | ⟨h1, _⟩) | h1
      · cases h1
      · cases h1; exact .inl ⟨rfl, h2⟩
      · cases h1; exact .inr (.inl ⟨rfl, h2⟩)
      · cases h1; exact .inr (.inr (.inl rfl))
      · exact .inr (.inr (.inr h1))
  · rcases hc.error e with e' | e'
    · cases e'
    · rw [e'] at hr
      rcases hr with (⟨_, h2⟩ | ⟨h1, _⟩ | ⟨h1, _⟩ | ⟨h1, _⟩) | h1
      · exact absurd hfuel (Nat.not_lt.2 h2)
      · cases h1
      · cases h1
      · cases h1
      · exact h1

/-- C75: whatever a prover returns over such a solver, it also returns over a complete one, so everything proved about returned results (C45, C72,
C74) holds for it. -/
theorem C75_prover_run (dbg : Bool) (sched : Sched) (hsched : sched.OK) (fuel : Nat) (r : ProofResult) :
    (∀ env : Env, env.Correct → proveStateless dbg env sched f fuel = .ok r → ProverRun f c ob (.ok r)) ∧
    (∀ (I : StatefulImpl) (G : Err → Prop), I.Correct G → proveStateful dbg I sched f fuel = .ok r → ProverRun f c ob (.ok r)) ∧
    (∀ (I : StatefulImpl) (G : Err → Prop), I.Correct G → c.Covered (badLits c ob) → PDR.run dbg I sched f fuel = .ok r →
      ProverRun f c ob (.ok r)) := by
  refine ⟨fun env he e => ?_, fun I G O e => ?_, fun I G O hg e => ?_⟩
  · rw [← (stateless_complete dbg env sched f fuel).ok e]
    exact .stateless dbg _ sched fuel (he.complete (Env.values_nil _ _)) hsched
  · rw [← (stateful_complete dbg I sched f fuel).ok e]
    exact .stateful dbg _ G sched fuel (O.complete O.values_nil) hsched
  · rw [← (pdr_complete dbg I sched f fuel).ok e]
    exact .pdr dbg _ G sched fuel (O.complete O.values_nil) hsched hg

/-- C75: the front-ends over back-ends about whose completeness nothing is known: Splr and Varisat as stateless solvers, CaDiCaL as a stateful one. -/
theorem C75_front_ends (dbg : Bool) (order : Nat → List Clause → List Clause) (ho : ∀ t l, (order t l).Perm l)
    (shuffle : Nat → List Literal → List Literal) (hsh : ∀ t l, (shuffle t l).Perm l) :
    (∀ be, (∀ t, SplrOK (be t)) → (splrEnv dbg be order shuffle).Correct 2147483647) ∧
    (∀ be, (∀ t, VarisatOK (be t)) → (varisatEnv dbg be order shuffle).Correct 2147483647) ∧
    (∀ be, CdOK be → Nonempty ((CaDiCal.impl true be).Correct (· = .panic counterOverflow))) := by
  refine ⟨fun be hb => ⟨fun t g hw hg => ?_, ho, hsh⟩, fun be hb => ⟨fun t g hw hg => ?_, ho, hsh⟩, fun be hb => ⟨CaDiCal.implCorrect hb⟩⟩
  · obtain ⟨r, e, hr, _⟩ := C12_splr dbg (be t) (hb t) g hg hw
    exact ⟨r, e, hr⟩
  · obtain ⟨r, e, hr, _⟩ := C12_varisat dbg (be t) (hb t) g hg hw
    exact ⟨r, e, hr⟩

theorem Env.Correct.weaken {env : Env} {V W : Nat} (h : env.Correct V) (hV : W ≤ V) : env.Correct W :=
  ⟨fun t g hw hg => h.solve t g hw (good_mono hg hV), h.order, h.shuffle⟩

/-! ## Values for the latches are enough -/

/-- The variable of a latch. -/
def IsLatch (c : Circuit) (n : Nat) : Prop := ∃ i, i < c.latches.length ∧ n = c.latchVar i

theorem isLatch_iff (h : Built f c ob) (n : Nat) : n ∈ f.stateLits ↔ IsLatch c n := mem_states h.laws

theorem PanicsOr.none {α : Type} {x y : Res α} (h : PanicsOr [] x y) : x = y := by
  rcases h with ⟨_, h, _⟩ | h
  · cases h
  · exact h

/-- C75: a solver whose models value the latches might as well value everything: some correct and complete solver gives the same runs. -/
theorem C75_latches (h : Built f c ob) :
    (∀ env : Env, env.Correct → env.Values (IsLatch c) → ∃ env' : Env, env'.OK ∧
      ∀ dbg sched fuel, proveStateless dbg env sched f fuel = proveStateless dbg env' sched f fuel) ∧
    (∀ (I : StatefulImpl) (G : Err → Prop) (O : I.Correct G), O.Values (IsLatch c) → ∃ J : StatefulImpl, Nonempty (J.OK G) ∧
      ∀ dbg sched fuel, proveStateful dbg I sched f fuel = proveStateful dbg J sched f fuel ∧
        PDR.run dbg I sched f fuel = PDR.run dbg J sched f fuel) := by
  refine ⟨fun env he hv => ⟨env.complete f.stateLits, he.complete fun t g hw hg a e n hn => hv t g hw hg a e n ((isLatch_iff h n).1 hn),
      fun dbg sched fuel => PanicsOr.none (.of_follows (proveStateless_near (Prof.refl dbg) sched f (Env.same_complete env) (FuelLe.refl fuel)))⟩,
    fun I G O hv => ⟨I.complete f.stateLits, ⟨O.complete fun t s cs cube clause hr h1 h2 h3 a s' e l hl n hn =>
      hv t s cs cube clause hr h1 h2 h3 a s' e l hl n ((isLatch_iff h n).1 hn)⟩, fun dbg sched fuel => ⟨?_, ?_⟩⟩⟩
  · exact PanicsOr.none (.of_follows (proveStateful_follows dbg sched f (StatefulImpl.same_complete I) (FuelLe.refl fuel)))
  · exact PanicsOr.none (.of_follows (PDR.run_follows (Prof.refl dbg) sched f (StatefulImpl.same_complete I) (FuelLe.refl fuel)))

/-- C75: so over such solvers the provers decide safety, under the conditions they need anyway. -/
theorem C75_latches_decides (dbg : Bool) (sched : Sched) (hsched : sched.OK) (h : Built f c ob) (hs : c.Small) (hl : ¬ c.Remote (badLits c ob)) (fuel : Nat) :
    (∀ env : Env, env.Correct → env.Values (IsLatch c) → (2 ^ c.latches.length + 1) * (2 ^ c.latches.length + 2) < fuel →
      (c.Safe (badLits c ob) ↔ ∃ inv, proveStateless dbg env sched f fuel = .ok (.proof inv)) ∧
      ((∃ d, c.UnsafeAt (badLits c ob) d) ↔ ∃ d, proveStateless dbg env sched f fuel = .ok (.ctx d))) ∧
    (∀ (I : StatefulImpl) (O : I.Correct), O.Values (IsLatch c) → (2 ^ c.latches.length + 1) * (2 ^ c.latches.length + 2) < fuel →
      (c.Safe (badLits c ob) ↔ ∃ inv, proveStateful dbg I sched f fuel = .ok (.proof inv)) ∧
      ((∃ d, c.UnsafeAt (badLits c ob) d) ↔ ∃ d, proveStateful dbg I sched f fuel = .ok (.ctx d))) ∧
    (∀ (I : StatefulImpl) (O : I.Correct), O.Values (IsLatch c) → GateBads c ob → pdrBound (2 ^ c.latches.length + 1) < fuel →
      (c.Safe (badLits c ob) ↔ ∃ inv, PDR.run dbg I sched f fuel = .ok (.proof inv)) ∧
      ((∃ d, c.UnsafeAt (badLits c ob) d) ↔ ∃ d, PDR.run dbg I sched f fuel = .ok (.ctx d))) := by
  refine ⟨fun env he hv hfuel => ?_, fun I O hv hfuel => ?_, fun I O hv hg hfuel => ?_⟩
  · obtain ⟨env', he', e⟩ := (C75_latches h).1 env he hv
    rw [e]
    exact C40_decides dbg env' he' sched hsched h hs hl fuel hfuel
  · obtain ⟨J, ⟨OJ⟩, e⟩ := (C75_latches h).2 I _ O hv
    rw [(e dbg sched fuel).1]
    exact C41_decides dbg J OJ sched hsched h hs hl fuel hfuel
  · obtain ⟨J, ⟨OJ⟩, e⟩ := (C75_latches h).2 I _ O hv
    rw [(e dbg sched fuel).2]
    exact C44_decides dbg J OJ sched hsched h hs hg hl fuel hfuel

/-! ## Concrete back-ends that leave variables open -/

/-- The answer without the values above `n`. -/
def _root_.Verif.SatResponse.upTo (n : Nat) : SatResponse → SatResponse
  | .unsat => .unsat
  | .sat a => .sat ⟨a.trueVars.filter (· ≤ n), a.falseVars.filter (· ≤ n)⟩

theorem upTo_getValue (a : Assignment) (n k : Nat) :
    (Assignment.mk (a.trueVars.filter (· ≤ n)) (a.falseVars.filter (· ≤ n))).getValue k = if k ≤ n then a.getValue k else none := by
  unfold Assignment.getValue
  simp only [List.mem_filter, decide_eq_true_eq]
  by_cases h : k ≤ n <;> simp [h]

/-- A solver made to report the variables up to `n` only. -/
def envUpTo (n : Nat) (env : Env) : Env := ⟨fun t g => (env.solve t g).map (SatResponse.upTo n), env.order, env.shuffle⟩

theorem envUpTo_correct (n : Nat) {env : Env} {V : Nat} (h : env.OK V) : (envUpTo n env).Correct V := by
  refine ⟨fun t g hw hg => ?_, h.order, h.shuffle⟩
  obtain ⟨r, e, hr⟩ := h.solve t g hw hg
  refine ⟨r.upTo n, by show (env.solve t g).map _ = _; rw [e]; rfl, ?_⟩
  cases r with
  | unsat => exact hr
  | sat a =>
    obtain ⟨⟨v, h1, h2⟩, _⟩ := hr
    refine ⟨v, h1, fun k b hk => ?_⟩
    rw [upTo_getValue] at hk
    split at hk
    · exact h2 k b hk
    · cases hk

theorem envUpTo_values (n : Nat) {env : Env} {V : Nat} (h : env.OK V) : (envUpTo n env).Values (· ≤ n) V := by
  intro t g hw hg a e k hk h1 h2
  obtain ⟨r, e', hr⟩ := h.solve t g hw hg
  have e : (env.solve t g).map (SatResponse.upTo n) = .ok (.sat a) := e
  rw [e'] at e
  cases r with
  | unsat => cases e
  | sat b =>
    cases e
    rw [upTo_getValue, if_pos hk]
    exact hr.2 k h1 h2

/-- The same for a stateful solver. -/
def implUpTo (n : Nat) (I : StatefulImpl) : StatefulImpl :=
  ⟨I.S, I.new, I.addCnf, fun t cube clause s => (I.solve t cube clause s).map fun p => (p.1.upTo n, p.2)⟩

def implUpTo_correct (n : Nat) {I : StatefulImpl} {G : Err → Prop} (O : I.OK G) : (implUpTo n I).Correct G where
  Rep := O.Rep
  new := O.new
  addCnf := O.addCnf
  solve := by
    intro t s cs cube clause hr h1 h2 h3
    have := O.solve t s cs cube clause hr h1 h2 h3
    show Ends G ((I.solve t cube clause s).map _) _
    match I.solve t cube clause s, this with
    | .error e, h' => exact h'
    | .ok (.unsat, s'), h' => exact ⟨h'.1, h'.2.1⟩
    | .ok (.sat a, s'), h' =>
      obtain ⟨v, h4, h5⟩ := h'.2.1
      refine ⟨h'.1, v, h4, fun k b hk => ?_⟩
      rw [upTo_getValue] at hk
      split at hk
      · exact h5 k b hk
      · cases hk

theorem implUpTo_values (n : Nat) {I : StatefulImpl} {G : Err → Prop} (O : I.OK G) : (implUpTo_correct n O).Values (· ≤ n) := by
  intro t s cs cube clause hr h1 h2 h3 a s' e l hl k hk h4 h5
  have := O.solve t s cs cube clause hr h1 h2 h3
  have e : (I.solve t cube clause s).map (fun p => (p.1.upTo n, p.2)) = .ok (.sat a, s') := e
  revert this e
  cases I.solve t cube clause s with
  | error e => intro _ e; cases e
  | ok p =>
    obtain ⟨r, s''⟩ := p
    cases r with
    | unsat => intro _ e; cases e
    | sat b =>
      intro h' e
      cases e
      rw [upTo_getValue, if_pos hk]
      exact h'.2.2 l hl k h4 h5

theorem ring_latch {n : Nat} (h : IsLatch ring n) : n ≤ 3 := by
  obtain ⟨i, hi, rfl⟩ := h
  have : ring.latches.length = 3 := rfl
  show 1 + 0 + i ≤ 3
  omega

/-- The same environment without any values. -/
def bare (env : Env) : Env := ⟨fun t g => (env.solve t g).map fun | .sat _ => .sat ⟨[], []⟩ | .unsat => .unsat, env.order, env.shuffle⟩

theorem bare_less (env : Env) (t : Nat) (g : CNF) : env.solve t g = (bare env).solve t g ∨
    ∃ a b, (bare env).solve t g = .ok (.sat a) ∧ env.solve t g = .ok (.sat b) ∧ ∀ n x, a.getValue n = some x → b.getValue n = some x := by
  unfold bare
  dsimp only
  cases env.solve t g with
  | error e => exact .inl rfl
  | ok r =>
    cases r with
    | unsat => exact .inl rfl
    | sat a => exact .inr ⟨_, a, rfl, rfl, fun n x h => by simp [Assignment.getValue] at h⟩

/-- Reports the variables up to `n` only. -/
def lowSplr (n : Nat) (cls : List (List Int)) : SplrAnswer :=
  match Brute.splr cls with
  | .sat m => .sat (m.filter (fun x => x.natAbs ≤ n))
  | r => r

theorem lowSplr_ok (n : Nat) : SplrOK (lowSplr n) where
  noErr := by
    intro cls h e
    unfold lowSplr at e
    split at e
    · cases e
    · exact Brute.splr_ok.noErr cls h e
  empty := by
    intro cls h e
    unfold lowSplr at e
    split at e
    · cases e
    · exact Brute.splr_ok.empty cls h e
  unsat := by
    intro cls h e
    unfold lowSplr at e
    split at e
    · cases e
    · exact Brute.splr_ok.unsat cls h e
  sat := by
    intro cls m h e
    unfold lowSplr at e
    split at e
    · next m' e' =>
      cases e
      obtain ⟨v, h1, h2⟩ := Brute.splr_ok.sat cls m' h e'
      exact ⟨v, h1, fun x hx => h2 x (List.mem_filter.1 hx).1⟩
    · next hne => exact absurd e (hne m)

/-- Reports the value of a variable only if it is the first true one of some clause. -/
def thriftyCd : CdBackend := fun t db asm =>
  match Brute.cd t db asm with
  | (some true, val) =>
    let needed := (db ++ asm.map fun x => [x]).filterMap fun c => c.find? fun x => val x == some true
    (some true, fun x => if x ∈ needed ∨ -x ∈ needed then val x else none)
  | r => r

theorem thriftyCd_sat {t : Nat} {db : List (List Int)} {asm : List Int} (h : (thriftyCd t db asm).1 = some true) :
    (Brute.cd t db asm).1 = some true ∧ (∀ x, ((Brute.cd t db asm).2 x).isSome) ∧
      (∀ x b, (thriftyCd t db asm).2 x = some b → (Brute.cd t db asm).2 x = some b) ∧
      ∀ c ∈ db ++ asm.map (fun x => [x]), (∃ x ∈ c, (Brute.cd t db asm).2 x = some true) → ∃ x ∈ c, (thriftyCd t db asm).2 x = some true := by
  have hsome : (Brute.cd t db asm).1 = some true → ∀ x, ((Brute.cd t db asm).2 x).isSome := by
    unfold Brute.cd
    split
    · exact fun _ _ => rfl
    · intro h; cases h
  unfold thriftyCd at h ⊢
  split at h
  · next val e =>
    rw [e] at hsome ⊢
    refine ⟨rfl, hsome rfl, fun x b hb => ?_, fun c hc ⟨x, hx, hv⟩ => ?_⟩
    · dsimp only at hb
      split at hb
      · exact hb
      · cases hb
    · cases hf : c.find? fun x => val x == some true with
      | none => exact absurd (beq_iff_eq.2 hv) (List.find?_eq_none.1 hf x hx)
      | some y =>
        refine ⟨y, List.mem_of_find?_eq_some hf, ?_⟩
        dsimp only
        rw [if_pos (.inl (List.mem_filterMap.2 ⟨c, hc, hf⟩))]
        have hy := List.find?_some hf
        simpa using hy
  · next hne => exact absurd (Prod.ext h rfl : Brute.cd t db asm = (some true, _)) (hne _)

theorem thriftyCd_fst (t : Nat) (db : List (List Int)) (asm : List Int) : (thriftyCd t db asm).1 = (Brute.cd t db asm).1 := by
  unfold thriftyCd
  split
  · next e => rw [e]
  · rfl

theorem thriftyCd_ok : CdOK thriftyCd where
  decided := by intro t db asm h1 h2; rw [thriftyCd_fst]; exact Brute.cd_ok.decided t db asm h1 h2
  unsat := by intro t db asm h1 h2; rw [thriftyCd_fst]; exact Brute.cd_ok.unsat t db asm h1 h2
  sat := by
    intro t db asm h1 h2 e β hβ
    obtain ⟨hs, ht, hk, hn⟩ := thriftyCd_sat e
    obtain ⟨γ, hγ⟩ := Brute.cd_ok.consistent t db asm h1 h2 hs
    obtain ⟨hdb, hasm⟩ := Brute.cd_ok.sat t db asm h1 h2 hs γ hγ
    have hval : ∀ x, intHolds γ x → (Brute.cd t db asm).2 x = some true := fun x hx => by
      obtain ⟨b, hb⟩ := Option.isSome_iff_exists.1 (ht x)
      rw [hb, (hγ x b hb).1 hx]
    refine ⟨fun c hc => ?_, fun x hx => ?_⟩
    · obtain ⟨x, hx, hv⟩ := hdb c hc
      obtain ⟨y, hy, hv⟩ := hn c (List.mem_append_left _ hc) ⟨x, hx, hval x hv⟩
      exact ⟨y, hy, (hβ y true hv).2 rfl⟩
    · obtain ⟨y, hy, hv⟩ := hn [x] (List.mem_append_right _ (List.mem_map.2 ⟨x, hx, rfl⟩)) ⟨x, List.mem_singleton.2 rfl, hval x (hasm x hx)⟩
      rw [List.mem_singleton] at hy
      exact hy ▸ (hβ y true hv).2 rfl
  consistent := by
    intro t db asm h1 h2 e
    obtain ⟨hs, _, hk, _⟩ := thriftyCd_sat e
    obtain ⟨γ, hγ⟩ := Brute.cd_ok.consistent t db asm h1 h2 hs
    exact ⟨γ, fun x b hb => hγ x b (hk x b hb)⟩

theorem exists_proof {x : Res ProofResult} (h : verdict x = some none) : ∃ inv, x = .ok (.proof inv) := by
  match x, h with
  | .ok (.proof inv), _ => exact ⟨inv, rfl⟩

/-- Splr reporting only the variables up to `n`. -/
def lowEnv (n : Nat) : Env := splrEnv true (fun _ => lowSplr n) (fun _ l => l) (fun _ l => l)

theorem lowEnv_correct (n : Nat) : (lowEnv n).Correct :=
  Env.Correct.weaken ((C75_front_ends true _ (fun _ l => List.Perm.refl l) _ fun _ l => List.Perm.refl l).1 _ fun _ => lowSplr_ok n) (by decide)

/-- The shift register and the ring, with values for the three latches only and with none; `lazy` needs none. -/
example : verdict (proveStateless true (lowEnv 3) plain (systemOf shifter false) 10) = some (some 1) ∧
    site (proveStateless true (lowEnv 2) plain (systemOf shifter false) 10) = some openLatch ∧
    verdict (proveStateless true (lowEnv 3) plain (systemOf ring false) 10) = some none ∧
    site (proveStateless true (lowEnv 0) plain (systemOf ring false) 10) = some openLatch ∧
    verdict (proveStateless true (lowEnv 0) plain (systemOf lazy false) 10) = some none := by
  refine ⟨?_, ?_, ?_, ?_, ?_⟩ <;> decide +kernel

/-- PDR over the thrifty CaDiCaL panics on the ring, `IC3Stateful` proves it. -/
example : site (PDR.run true (CaDiCal.impl true thriftyCd) plain (systemOf ring false) 30) = some openLatch ∧
    verdict (PDR.run true (CaDiCal.impl true thriftyCd) plain (systemOf lazy false) 30) = some none ∧
    verdict (proveStateful true (CaDiCal.impl true thriftyCd) plain (systemOf ring false) 10) = some none := by
  refine ⟨?_, ?_, ?_⟩ <;> decide +kernel

example : ∃ e, shifter.Shortest (badLits shifter false) e ∧ (e ≤ 1 ∧ 1 = e ∨ 1 ≤ 1 ∧ 1 < e) :=
  (C75_ic3_stateless true (lowEnv 3) (lowEnv_correct 3) plain plain_ok shifter_built (by unfold Circuit.Small; decide) 10).2.1 1 (by decide +kernel)

example : ring.Safe (badLits ring false) := by
  obtain ⟨inv, e⟩ : ∃ inv, proveStateful true (CaDiCal.impl true thriftyCd) plain (systemOf ring false) 10 = .ok (.proof inv) :=
    exists_proof (by decide +kernel)
  exact ((C75_ic3_stateful true _ _ (CaDiCal.implCorrect thriftyCd_ok) plain plain_ok ring_built (by unfold Circuit.Small; decide) 10).1 inv e).1

example : lazy.Safe (badLits lazy false) := by
  obtain ⟨inv, e⟩ : ∃ inv, PDR.run true (CaDiCal.impl true thriftyCd) plain (systemOf lazy false) 30 = .ok (.proof inv) :=
    exists_proof (by decide +kernel)
  exact ((C75_pdr true _ _ (CaDiCal.implCorrect thriftyCd_ok) plain plain_ok lazy_built (by unfold Circuit.Small; decide) 30).1 inv e (.inl rfl)).1

example : ProverRun (systemOf shifter false) shifter false (.ok (.ctx 1)) := by
  have e : proveStateless true (lowEnv 3) plain (systemOf shifter false) 10 = .ok (.ctx 1) := by decide +kernel
  exact (C75_prover_run true plain plain_ok 10 (.ctx 1)).1 _ (lowEnv_correct 3) e

/-- The values of more variables change nothing where the run does not panic. -/
example : PanicsOr [openLatch] (proveStateless true (bare Brute.env) plain (systemOf ring false) 10) (proveStateless true Brute.env plain (systemOf ring false) 10) ∧
    site (proveStateless true (bare Brute.env) plain (systemOf ring false) 10) = some openLatch :=
  ⟨C75_more_values true (bare Brute.env) Brute.env rfl rfl (bare_less Brute.env) plain 10, by decide +kernel⟩

/-- The gate of the ring is variable 4; with the values of its latches 1 to 3 alone the three provers prove it. -/
example : (∃ inv, proveStateless true (envUpTo 3 Brute.env) plain (systemOf ring false) 91 = .ok (.proof inv)) ∧
    (∃ inv, proveStateful true (implUpTo 3 (MiniSat.impl true Brute.ms)) plain (systemOf ring false) 91 = .ok (.proof inv)) := by
  have hd := C75_latches_decides true plain plain_ok ring_built (by unfold Circuit.Small; decide) (not_remote ring_built.1 (by decide)) 91
  have hsafe : ring.Safe (badLits ring false) := by
    obtain ⟨inv, e⟩ : ∃ inv, proveStateless true Brute.env plain (systemOf ring false) 10 = .ok (.proof inv) := exists_proof (by decide +kernel)
    exact (C38_proof true Brute.env Brute.env_ok plain plain_ok ring_built (by unfold Circuit.Small; decide) 10 inv e).1
  exact ⟨((hd.1 (envUpTo 3 Brute.env) (envUpTo_correct 3 Brute.env_ok) fun t g hw hg a e n hn =>
      envUpTo_values 3 Brute.env_ok t g hw hg a e n (ring_latch hn)) (by decide)).1.1 hsafe,
    ((hd.2.1 (implUpTo 3 (MiniSat.impl true Brute.ms)) (implUpTo_correct 3 (MiniSat.implOK true Brute.ms_ok)) fun t s cs cube clause hr h1 h2 h3 a s' e l hl n hn =>
      implUpTo_values 3 (MiniSat.implOK true Brute.ms_ok) t s cs cube clause hr h1 h2 h3 a s' e l hl n (ring_latch hn)) (by decide)).1.1 hsafe⟩

/-- PDR with the same values; one latch fewer and it panics. -/
example : verdict (PDR.run true (implUpTo 3 (MiniSat.impl true Brute.ms)) plain (systemOf ring false) 30) = some none ∧
    site (PDR.run true (implUpTo 2 (MiniSat.impl true Brute.ms)) plain (systemOf ring false) 30) = some openLatch := by
  refine ⟨?_, ?_⟩ <;> decide +kernel

example : ∃ J : StatefulImpl, Nonempty J.OK ∧ ∀ dbg sched fuel,
    proveStateful dbg (implUpTo 3 (MiniSat.impl true Brute.ms)) sched (systemOf ring false) fuel = proveStateful dbg J sched (systemOf ring false) fuel ∧
      PDR.run dbg (implUpTo 3 (MiniSat.impl true Brute.ms)) sched (systemOf ring false) fuel = PDR.run dbg J sched (systemOf ring false) fuel :=
  (C75_latches ring_built).2 _ _ (implUpTo_correct 3 (MiniSat.implOK true Brute.ms_ok)) fun t s cs cube clause hr h1 h2 h3 a s' e l hl n hn =>
    implUpTo_values 3 (MiniSat.implOK true Brute.ms_ok) t s cs cube clause hr h1 h2 h3 a s' e l hl n (ring_latch hn)

end Verif.Props
