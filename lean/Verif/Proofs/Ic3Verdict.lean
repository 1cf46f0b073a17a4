import Verif.Proofs.Ic3Stateless
import Verif.Proofs.Ic3Stateful
import Verif.Proofs.FstsInvariant

/-! # IC3: what the returned verdicts mean -/

namespace Verif.IC3

open Fsts

variable {f : Fsts} {c : Circuit} {bads : List Nat}

/-- `inv` talks about one clock cycle and consists of learned clauses over latches, true in all initial states, and of `rest`. -/
structure Made (c : Circuit) (rest inv : CNF) : Prop extends OneFrame c inv where
  made : ∃ learned : List Clause, (∀ d ∈ learned, LatchClause c d ∧ ∀ v, c.Init v → d.holds v) ∧
    ∀ d, d ∈ inv.clauses ↔ d ∈ learned ∨ d ∈ rest.clauses

/-- What both versions of IC3 add to their frames. -/
abbrev propCnf (f : Fsts) : CNF := f.stateToSafety.append f.getSafetyProperty.toCnf

/-- The meaning of a verdict. -/
def Verdict (f : Fsts) (c : Circuit) (bads : List Nat) (rest : CNF) : ProofResult → Prop
  | .ctx d => CtxDepth c bads d
  | .proof inv => c.Safe bads ∧ Made c rest inv ∧
      ∀ (dbg : Bool) (env : Env), env.Correct → ∀ t, ∃ t', checkInvariant dbg env f inv t = .ok ((), t')

theorem oneFrame_of_enc {g : CNF} {P : Val → Prop} (h : Enc c g P) : OneFrame c g := ⟨h.wf, h.num⟩

/-- Two equal consecutive frames and the property form an inductive invariant that `check_invariant` accepts. -/
theorem certificate (S : SmallSys f c bads) {fm : Formulas} (hfm : FormsOK f c bads fm) {n k i : Nat} {fs : List CNF}
    (hf : Frames c bads n (k + 1) fs) (hi : 1 ≤ i) (hik : i ≤ k) (he : (fr fs i).len = (fr fs (i + 1)).len) :
    Verdict f c bads (propCnf f) (.proof ((fr fs i).append fm.p0)) := by
  have henc : Enc c ((fr fs i).append fm.p0) (InF c bads fs i) := by
    have := hfm.enc S.laws hf.ok i
    rwa [if_neg (by omega)] at this
  have hone := oneFrame_of_enc henc
  have hp0 : ∀ w, fm.p0.holds w ↔ f.stateToSafety.holds w ∧ ¬ f.unsafety.holds w := by
    intro w
    rw [hfm.p0_eq, CNF.holds_append, Cube.toCnf_holds]
    show _ ∧ (f.unsafety.not).holds w ↔ _
    rw [Clause.holds_not]
  have hin : ∀ w, fm.p0.holds w → ¬ c.BadAt bads w := fun w hw hb =>
    ((hp0 w).1 hw).2 ((unsafety_iff S.laws S.wf S.bad ((hp0 w).1 hw).1).2 hb)
  have hacc : ∀ (dbg : Bool) (env : Env), env.Correct → ∀ t, ∃ t', checkInvariant dbg env f ((fr fs i).append fm.p0) t = .ok ((), t') := by
    intro dbg env hok t
    refine (checkInvariant_iff dbg hok S.laws S.wf S.bad S.small hone t).2 ⟨?_, ?_, ?_⟩
    · intro w hw hS
      refine CNF.holds_append.2 ⟨hf.init i w hw, (hp0 w).2 ⟨hS, fun hU => ?_⟩⟩
      exact hf.good w hw ((unsafety_iff S.laws S.wf S.bad hS).1 hU)
    · intro w hT hinv _ hS'
      obtain ⟨h1, h2⟩ := CNF.holds_append.1 hinv
      have ht := transition_sound S.laws S.wf hT
      have hF : InF c bads fs i w := ⟨h1, by rw [if_neg (by omega)]; exact hin w h2⟩
      refine CNF.holds_append.2 ⟨hf.fix hi he (hf.step i w _ hF ht), (hp0 _).2 ⟨hS', fun hU => ?_⟩⟩
      exact hf.safe i w _ (by omega) hF ht ((unsafety_iff S.laws S.wf S.bad hS').1 hU)
    · intro w hinv _
      exact ((hp0 w).1 (CNF.holds_append.1 hinv).2).2
  refine ⟨?_, ⟨hone, _, fun d hd => ⟨hf.ok.clause hd, fun v hv => hf.init i v hv d hd⟩, fun d => by rw [hfm.p0_eq]; exact CNF.mem_append⟩, hacc⟩
  intro d hd
  obtain ⟨v, hr, hbad⟩ := (Circuit.unsafeAt_iff S.wf S.bad.lit d).1 hd
  have key : ∀ d v, c.Reach d v → InF c bads fs i v := by
    intro d v hr
    induction hr with
    | init hv => exact hf.inF_init i hv
    | step _ ht ih =>
      exact ⟨hf.fix hi he (hf.step i _ _ ih ht), by rw [if_neg (by omega)]; exact hf.safe i _ _ (by omega) ih ht⟩
  have := (key d v hr).2
  rw [if_neg (by omega)] at this
  exact this hbad

theorem verdict_of_answer {σ : Type} {A : IC3 σ} (S : SmallSys f c bads) (hfm : FormsOK f c bads A.forms) {r : ProofResult}
    (h : Answer A c bads r) : Verdict f c bads (propCnf f) r := by
  cases r with
  | ctx d => exact h
  | proof inv =>
    obtain ⟨n, k, i, fs, hf, hi, hik, he, rfl⟩ := h
    exact certificate S hfm hf hi hik he

/-- The failures that remain possible. -/
def Failure (c : Circuit) (bads : List Nat) (fuel : Nat) (e : Err) : Prop :=
  (e = .fuel ∧ fuel ≤ enough c) ∨ (e = .panic "ic3 depth try_into" ∧ c.Remote bads)

theorem depthOK {F : Err → Prop} {fuel : Nat} (hF : ∀ e, Failure c bads fuel e → F e) : DepthOK c bads F := by
  by_cases h : c.Remote bads
  · exact .inr (hF _ (.inr ⟨rfl, h⟩))
  · exact .inl fun e he => Nat.le_of_not_lt fun hlt => h ⟨e, he, Nat.le_of_lt hlt⟩

theorem fuelOK {F : Err → Prop} {fuel : Nat} (hF : ∀ e, Failure c bads fuel e → F e) : F .fuel ∨ enough c < fuel := by
  by_cases h : enough c < fuel
  · exact .inr h
  · exact .inl (hF _ (.inl ⟨rfl, by omega⟩))

theorem proveStateless_spec (dbg : Bool) {env : Env} (he : env.OK) {sched : Sched} (hsched : sched.OK) (S : SmallSys f c bads)
    (fuel : Nat) : (∃ r, proveStateless dbg env sched f fuel = .ok r ∧ Verdict f c bads (propCnf f) r) ∨
      ∃ e, proveStateless dbg env sched f fuel = .error e ∧ Failure c bads fuel e := by
  obtain ⟨fm, h1, hfm⟩ := formulas_ok dbg S
  unfold proveStateless
  rw [h1]
  rcases GTri.elim (prove_spec (Stateless.contract (dbg := dbg) S he hsched hfm) (depthOK fun _ h => h) fuel (fuelOK fun _ h => h) (.inl rfl) fun _ => rfl) (s := ⟨[], 0⟩) rfl with
    ⟨r, s', _, e, _, ha, _⟩ | ⟨e, h, hF⟩
  · refine .inl ⟨r, ?_, verdict_of_answer (A := stateless dbg env sched f fm) S hfm ha⟩
    show (do let r ← (stateless dbg env sched f fm).prove fuel ⟨[], 0⟩; return r.1) = _
    rw [e]; rfl
  · refine .inr ⟨e, ?_, hF⟩
    show (do let r ← (stateless dbg env sched f fm).prove fuel ⟨[], 0⟩; return r.1) = _
    rw [h]; rfl

/-- With solver objects that may fail as in `F`, these are the only additional failures. -/
theorem proveStateful_ends (dbg : Bool) {I : StatefulImpl} {F : Err → Prop} (O : I.OK F) {sched : Sched} (hsched : sched.OK)
    (S : SmallSys f c bads) (fuel : Nat) :
    Ends (fun e => Failure c bads fuel e ∨ F e) (proveStateful dbg I sched f fuel) (Verdict f c bads (propCnf f)) := by
  obtain ⟨fm, h1, hfm⟩ := formulas_ok dbg S
  have hinit : f.getInitialRelation.toCnf = fm.initial := hfm.initial.symm
  have hr : fm.initial.Ready := by
    rw [hfm.initial]
    exact (Enc.initial S.laws).ready S.small
  have O' := O.weaken (F' := fun e => Failure c bads fuel e ∨ F e) fun _ h => .inr h
  unfold proveStateful
  rw [h1, hinit]
  show Ends _ (do
      let initialSolver ← I.addCnf fm.initial I.new
      let r ← (stateful dbg I sched f fm).prove fuel ⟨[], [], initialSolver, [], 0⟩
      return r.1) _
  refine Ends.bind (Stateful.addCnf_ok O' O'.new hr) fun x _ hrep => ?_
  have hInv : Stateful.Inv O' fm (⟨[], [], x, [], 0⟩ : Stateful I) [] :=
    ⟨rfl, rfl, rfl, fun i y h => by simp at h, fun i y h => by simp at h, _, hrep, fun d => by simp⟩
  have hF1 : ∀ e, Failure c bads fuel e → Failure c bads fuel e ∨ F e := fun _ h => .inl h
  rcases GTri.elim (prove_spec (Stateful.contract (dbg := dbg) S O' hsched hfm) (depthOK hF1) fuel (fuelOK (F := fun e => Failure c bads fuel e ∨ F e) hF1) (.inl rfl) fun _ => rfl)
    (s := (⟨[], [], x, [], 0⟩ : Stateful I)) hInv with ⟨r, s', _, e, _, ha, _⟩ | ⟨e, h, hF⟩
  · refine Ends.of_ok (a := r) ?_ (verdict_of_answer (A := stateful dbg I sched f fm) S hfm ha)
    rw [e]; rfl
  · refine Ends.of_error (e := e) ?_ hF
    rw [h]; rfl

theorem proveStateful_spec (dbg : Bool) {I : StatefulImpl} (O : I.OK) {sched : Sched} (hsched : sched.OK) (S : SmallSys f c bads)
    (fuel : Nat) : (∃ r, proveStateful dbg I sched f fuel = .ok r ∧ Verdict f c bads (propCnf f) r) ∨
      ∃ e, proveStateful dbg I sched f fuel = .error e ∧ Failure c bads fuel e := by
  have h := proveStateful_ends dbg O hsched S fuel
  cases hr : proveStateful dbg I sched f fuel with
  | ok r => rw [hr] at h; exact .inl ⟨r, rfl, h⟩
  | error e => rw [hr] at h; exact .inr ⟨e, rfl, h.resolve_right id⟩

end Verif.IC3
