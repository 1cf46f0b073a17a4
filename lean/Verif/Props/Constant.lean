import Verif.Proofs.Constant
import Verif.Props.Wrap
import Verif.Props.Pdr
import Verif.Props.Stateful

/-!
# Property C76: constant bad literals in release builds

`from_aig` rejects a constant bad literal only through a debug assertion (`C28_constant_bad`, `C28_release`).  A release build hands the
provers a system whose unsafety clause mentions variable 0, which nothing sets to false.
-/

namespace Verif.Props

open Verif.Fsts

variable {f : Fsts} {c : Circuit} {ob : Bool}

/-- `f` is what a release build's `from_aig` returned for a graph that stores `c`, and a bad literal of `c` is a constant. -/
structure ConstantBuilt (f : Fsts) (c : Circuit) (ob : Bool) : Prop where
  wf : c.WF
  constant : ∃ b ∈ badLits c ob, b < 2
  built : ∃ be a, be.OK ∧ a.Represents c ∧ fromAig false be a ob = .ok f

namespace ConstantBuilt

theorem release (h : ConstantBuilt f c ob) : ReleaseLaws f c (badLits c ob) ∧ (Encodable c → Laws f c (badLits c ob)) ∧ c.maxVar < 2147483647 := by
  obtain ⟨be, a, hb, hr, e⟩ := h.built
  obtain ⟨hc, hm⟩ := (C28_release be hb a hr h.wf).1 ⟨f, e⟩
  obtain ⟨f', e', h1, h2⟩ := fromAig_release hb hr h.wf hm hc ob
  rw [e] at e'
  cases e'
  exact ⟨h1, h2, hm⟩

theorem tags (h : ConstantBuilt f c ob) (hv : 0 < c.maxVar) {g : CNF} (hg : f.unsafety ∈ g.clauses) :
    f.addTagsToRelation false g 1 = .error (.panic "features.rs:27") := by
  obtain ⟨h1, -, hm⟩ := h.release
  obtain ⟨b, hb, hlt⟩ := h.constant
  exact addTags_zero (by rw [h1.maxLit]; omega) (by rw [h1.maxLit]; omega) ⟨_, hg, zero_mem h1.unsafety hb hlt⟩

theorem lit (h : ConstantBuilt f c ob) : ∀ b ∈ badLits c ob, c.LitOK b := by
  intro b hb
  unfold badLits at hb
  rcases List.mem_append.1 hb with hb | hb
  · exact h.wf.bad_ok b hb
  · split at hb
    · exact h.wf.out_ok b hb
    · cases hb

end ConstantBuilt

/-- One latch that keeps its reset value 0, and the constant 0 as only bad literal. -/
def neverBad : Circuit := ⟨0, [(2, 0)], [], [], [0], []⟩

/-- The same with a latch that may start anyhow. -/
def neverBadOpen : Circuit := ⟨0, [(2, 2)], [], [], [0], []⟩

/-- What the release build makes of a circuit. -/
def releaseOf (c : Circuit) : Fsts :=
  match fromAig false bruteBuild (finish c [] none) false with
  | .ok f => f
  | .error _ => systemOf c false

theorem releaseOf_built {c : Circuit} (hc : c.Fits) (hw : c.WF) (h1 : c.constraints = []) (h2 : c.maxVar < 2147483647)
    (hb : ∃ b ∈ badLits c false, b < 2) : ConstantBuilt (releaseOf c) c false := by
  have hr : (finish c [] none).Represents c := represents_finish hc _ _
  obtain ⟨f, e⟩ := (C28_release (ob := false) bruteBuild bruteBuild_ok _ hr hw).2 ⟨h1, h2⟩
  refine ⟨hw, hb, bruteBuild, _, bruteBuild_ok, hr, ?_⟩
  unfold releaseOf
  rw [e]

theorem neverBad_built : ConstantBuilt (releaseOf neverBad) neverBad false :=
  releaseOf_built ⟨by decide, by decide, by decide, by decide, by decide⟩ (Circuit.wf_of_wfb (by decide)) rfl (by decide) (by decide)
theorem neverBadOpen_built : ConstantBuilt (releaseOf neverBadOpen) neverBadOpen false :=
  releaseOf_built ⟨by decide, by decide, by decide, by decide, by decide⟩ (Circuit.wf_of_wfb (by decide)) rfl (by decide) (by decide)

/-- C76: both IC3 provers panic in their constructors, with every solver. -/
theorem C76_ic3 (h : ConstantBuilt f c ob) (hv : 0 < c.maxVar) (env : Env) (I : StatefulImpl) (sched : Sched) (fuel : Nat) :
    IC3.proveStateless false env sched f fuel = .error (.panic "features.rs:27") ∧
    IC3.proveStateful false I sched f fuel = .error (.panic "features.rs:27") := by
  have e : IC3.formulas false f = .error (.panic "features.rs:27") := by
    unfold IC3.formulas
    dsimp only
    rw [h.tags hv (g := f.getStateToSafetyTranslation.append f.getUnsafetyProperty.toCnf)
      (CNF.mem_append.2 (.inr (Clause.mem_toCnf.2 rfl)))]
    rfl
  constructor
  · unfold IC3.proveStateless; rw [e]; rfl
  · unfold IC3.proveStateful; rw [e]; rfl

example : IC3.proveStateless false Brute.env plain (releaseOf neverBad) 30 = .error (.panic "features.rs:27") ∧
    IC3.proveStateful false (MiniSat.impl false Brute.ms) plain (releaseOf neverBad) 30 = .error (.panic "features.rs:27") :=
  C76_ic3 neverBad_built (by decide) Brute.env (MiniSat.impl false Brute.ms) plain 30

/-- C76: BMC asks the solver about an initial state, in a formula that mentions variable 0.  Unless the answer is a model it panics at
depth 1, so it never reports a counterexample of one step or more, nor the absence of one. -/
theorem C76_bmc (h : ConstantBuilt f c ob) (hv : 0 < c.maxVar) (env : Env) (clock : Clock) (limit t : Nat) (hl : limit < 4294967295) :
    ∃ g : CNF, (∀ v, g.holds v ↔ f.getInitialRelation.holds v ∧ f.getStateToSafetyTranslation.holds v ∧ f.getUnsafetyProperty.holds v) ∧
      BMC.search false env clock f limit t =
        if clock.expired 0 then .ok (.noCtx (-1), t)
        else if clock.finished 0 then
          match env.solve t g with
          | .error (.panic _) => .error (.panic "bmc.rs:74 unwrap")
          | .error .fuel => .error .fuel
          | .ok (.sat a) => .ok (.ctx a 0, t + 1)
          | .ok .unsat => if limit = 0 ∨ clock.expired 1 then .ok (.noCtx 0, t + 1) else .error (.panic "features.rs:27")
        else .ok (.noCtx (-1), t + 1) := by
  refine ⟨f.getInitialRelation.toCnf.append (f.getUnsafetyProperty.toCnf.append f.getStateToSafetyTranslation), fun v => ?_, ?_⟩
  · rw [CNF.holds_append, CNF.holds_append, Cube.toCnf_holds, Clause.toCnf_holds]
    exact ⟨fun ⟨a, b, c⟩ => ⟨a, c, b⟩, fun ⟨a, b, c⟩ => ⟨a, c, b⟩⟩
  · have e0 : BMC.satFormula false f f.getInitialRelation (f.getUnsafetyProperty.toCnf.append f.getStateToSafetyTranslation)
        f.getTransitionRelation 0 = .ok (f.getInitialRelation.toCnf.append (f.getUnsafetyProperty.toCnf.append f.getStateToSafetyTranslation)) := by
      simp [BMC.satFormula, addTagsToRelation, u32Mul, bumpCnf, u32Size, bind, Except.bind, pure, Except.pure]
    have e1 : BMC.satFormula false f f.getInitialRelation (f.getUnsafetyProperty.toCnf.append f.getStateToSafetyTranslation)
        f.getTransitionRelation 1 = .error (.panic "features.rs:27") := by
      have := h.tags hv (g := f.getUnsafetyProperty.toCnf.append f.getStateToSafetyTranslation)
        (CNF.mem_append.2 (.inl (Clause.mem_toCnf.2 rfl)))
      simp [BMC.satFormula, BMC.unrollStep, this, List.range_succ]
      simp [addTagsToRelation, u32Mul, bumpCnf, u32Size, bind, Except.bind, Functor.map, Except.map]
    have eu : u32Add false "bmc.rs:112 overflow" limit 1 = .ok (limit + 1) := by
      unfold u32Add; rw [if_pos (by show _ < 4294967296; omega)]
    have es : BMC.search false env clock f limit t = BMC.searchLoop false env clock f f.getInitialRelation
        (f.getUnsafetyProperty.toCnf.append f.getStateToSafetyTranslation) f.getTransitionRelation limit (limit + 1) 0 t := by
      unfold BMC.search; rw [eu]; rfl
    generalize f.getInitialRelation.toCnf.append (f.getUnsafetyProperty.toCnf.append f.getStateToSafetyTranslation) = g at *
    rw [es]
    by_cases h0 : clock.expired 0 <;> by_cases hf : clock.finished 0 <;> by_cases h1 : clock.expired 1 <;>
      rcases hs : env.solve t g with (_ | _) | (_ | _) <;> cases limit <;>
      simp [BMC.searchLoop, e0, e1, h0, h1, hf, hs, panicR, BMC.toI32, BMC.timedSatCall, nextTick, BMC.join, bind, StateT.bind, liftM,
        monadLift, MonadLift.monadLift, StateT.lift, Except.bind, pure, StateT.pure, Except.pure, get, getThe, set, MonadStateOf.get,
        MonadStateOf.set, StateT.get, StateT.set]

/-- With a solver that keeps variable 0 false, as in the circuit, the search ends in the panic. -/
example (env : Env) (h : ∀ t g, env.solve t g = .ok .unsat) :
    BMC.search false env ⟨fun _ => false, fun _ => true⟩ (releaseOf neverBad) 5 0 = .error (.panic "features.rs:27") := by
  obtain ⟨g, -, e⟩ := C76_bmc neverBad_built (by decide) env ⟨fun _ => false, fun _ => true⟩ 5 0 (by decide)
  rw [e, h]; rfl

/-- C76: PDR over MiniSat answers `CTX { depth: 0 }`, whatever the circuit does, or fails to read the state off the solver's model.  The
latter can happen only if some latch starts with any value and no bad literal is a gate. -/
theorem C76_pdr (h : ConstantBuilt f c ob) (hE : Encodable c) {be : MsBackend} (hb : MsOK be) (sched : Sched) (fuel : Nat) :
    PDR.run false (MiniSat.impl false be) sched f (fuel + 1) = .ok (.ctx 0) ∨
      (PDR.run false (MiniSat.impl false be) sched f (fuel + 1) = .error (.panic "features.rs:107 unwrap") ∧
        (∀ b ∈ badLits c ob, b / 2 < c.andVar 0) ∧ ∃ p ∈ c.latches, 2 ≤ p.2) := by
  obtain ⟨-, hL, hm⟩ := h.release
  obtain ⟨b, hbm, hlt⟩ := h.constant
  refine PDR.run_constant (hL hE) h.wf h.lit (by omega) (V := 2147483647) (by omega)
    (fun i hi => by have := hE.latch_lt i hi; omega) hbm hlt sched (fun g hg hV => ?_) fuel
  obtain ⟨s, e, hr⟩ := MiniSat.addCnf_rep MiniSat.rep_new (f := g) (by omega) hg.le_max
  obtain ⟨r, s', e', -, h1, h2⟩ := MiniSat.solve_ok false hb 0 hr none none trivial trivial trivial
  exact ⟨s, e, r, s', e', h1, h2⟩

/-- C76: the same with CaDiCaL as the solver objects. -/
theorem C76_pdr_cadical (h : ConstantBuilt f c ob) (hs : 2 * c.maxVar + 2 < 2147483648) {be : CdBackend} (hb : CdOK be) (ht : CdTotal be)
    (sched : Sched) (fuel : Nat) :
    PDR.run false (CaDiCal.impl false be) sched f (fuel + 1) = .ok (.ctx 0) ∨
      (PDR.run false (CaDiCal.impl false be) sched f (fuel + 1) = .error (.panic "features.rs:107 unwrap") ∧
        (∀ b ∈ badLits c ob, b / 2 < c.andVar 0) ∧ ∃ p ∈ c.latches, 2 ≤ p.2) := by
  obtain ⟨-, hL, hm⟩ := h.release
  obtain ⟨b, hbm, hlt⟩ := h.constant
  have hE : Encodable c := Circuit.Small.encodable (by unfold Circuit.Small; omega)
  refine PDR.run_constant (hL hE) h.wf h.lit (by omega) (V := 2 * c.maxVar) (by omega)
    (fun i hi => by have := latchVar_le c hi; omega) hbm hlt sched (fun g hg hV => ?_) fuel
  obtain ⟨s, e, hr, hlen⟩ := CaDiCal.addCnf_rep false CaDiCal.rep_new (f := g) (by
    unfold CaDiCal.size; simp [CaDiCal.new]; omega) hg.le_max
  obtain ⟨r, s', e', -, -, h1, h2⟩ := CaDiCal.solve_ok false hb 0 hr none none (by
    unfold CaDiCal.sizeQuery CaDiCal.sizeOpt
    simp [hlen]; unfold CaDiCal.size; simp [CaDiCal.new]; omega) trivial trivial trivial
  exact ⟨s, e, r, s', e', h1, h2 ht⟩

/-- C76: so if the constant 0 is the only bad literal, which can never be true, a release build of PDR answers wrongly. -/
theorem C76_refuted (h : ConstantBuilt f c ob) (hE : Encodable c) (h0 : ∀ b ∈ badLits c ob, b = 0) (hr : ∀ p ∈ c.latches, p.2 < 2)
    {be : MsBackend} (hb : MsOK be) (sched : Sched) (fuel : Nat) :
    c.Safe (badLits c ob) ∧ PDR.run false (MiniSat.impl false be) sched f (fuel + 1) = .ok (.ctx 0) := by
  refine ⟨fun d ⟨w, hw, b, hbm, ht⟩ => ?_, ?_⟩
  · rw [h0 b hbm] at ht
    have := (hw.frame d (Nat.le_refl d)).1
    simp [litVal, this] at ht
  · refine (C76_pdr h hE hb sched fuel).resolve_right fun ⟨_, _, p, hp, h2⟩ => ?_
    have := hr p hp; omega

example : neverBad.Safe [0] ∧ PDR.run false (MiniSat.impl false Brute.ms) backwards (releaseOf neverBad) 30 = .ok (.ctx 0) :=
  C76_refuted neverBad_built (Circuit.Small.encodable (by unfold Circuit.Small; decide)) (by decide) (by decide) Brute.ms_ok backwards 29

/-- The other outcome of `C76_pdr` occurs. -/
example : PDR.run false (MiniSat.impl false Brute.ms) plain (releaseOf neverBadOpen) 30 = .error (.panic "features.rs:107 unwrap") := by
  refine ((C76_pdr neverBadOpen_built (Circuit.Small.encodable (by unfold Circuit.Small; decide)) Brute.ms_ok plain 29).resolve_left fun e => ?_).1
  have hs : site (PDR.run false (MiniSat.impl false Brute.ms) plain (releaseOf neverBadOpen) 30) = some "features.rs:107 unwrap" := by decide +kernel
  rw [e] at hs; cases hs

example : PDR.run false (CaDiCal.impl false idealCd) plain (releaseOf neverBad) 30 = .ok (.ctx 0) :=
  (C76_pdr_cadical neverBad_built (by decide) idealCd_ok idealCd_total plain 29).resolve_right fun ⟨_, _, h⟩ => absurd h (by decide)

end Verif.Props
