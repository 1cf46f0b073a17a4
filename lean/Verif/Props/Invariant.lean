import Verif.Props.Simulated

/-!
# Property C74: the invariants of the provers

What the formula carried by `Proof` is made of, and that it is an inductive invariant of the circuit.
-/

namespace Verif.Props

open Verif.Fsts Verif.IC3

variable {f f' : Fsts} {c : Circuit} {ob : Bool}

/-- All variables of the clause are latches. -/
def OverLatches (c : Circuit) (d : Clause) : Prop := ∀ l ∈ d.lits, ∃ i, i < c.latches.length ∧ l.number = c.latchVar i

/-- The valuations agree on all latches. -/
def SameLatches (c : Circuit) (v w : Val) : Prop := ∀ i, i < c.latches.length → v (c.latchVar i) = w (c.latchVar i)

/-- A clause a prover may learn: not empty, over latches, and true in all initial states. -/
structure Learned (c : Circuit) (d : Clause) : Prop where
  nonempty : d.lits ≠ []
  latches : OverLatches c d
  init : ∀ v, c.Init v → d.holds v

theorem learned_of {d : Clause} (h : LatchClause c d ∧ ∀ v, c.Init v → d.holds v) : Learned c d := by
  refine ⟨fun e => ?_, h.1.lits, h.2⟩
  obtain ⟨v, hv⟩ := Circuit.exists_init c
  obtain ⟨l, hl, _⟩ := h.2 v hv
  have hl : l ∈ d.lits := hl
  rw [e] at hl
  cases hl

/-- `inv` is made of learned clauses and of the clauses the system has for the property; the learned ones are enough to describe it in the
circuit: it holds if they do and no bad literal is 1. -/
def Ic3Invariant (f : Fsts) (c : Circuit) (bads : List Nat) (inv : CNF) : Prop :=
  ∃ learned : List Clause, (∀ d ∈ learned, Learned c d) ∧
    (∀ d, d ∈ inv.clauses ↔ d ∈ learned ∨ d ∈ f.getStateToSafetyTranslation.clauses ∨ d ∈ f.getSafetyProperty.toCnf.clauses) ∧
    ∀ v, c.Frame v → (inv.holds v ↔ (∀ d ∈ learned, d.holds v) ∧ ¬ Circuit.BadNow bads v)

theorem ic3Invariant_of (h : Built f c ob) {inv : CNF} (hm : Made c (propCnf f) inv) : Ic3Invariant f c (badLits c ob) inv := by
  have hw := h.1.wf
  have hb := badsOK_of h.1
  obtain ⟨learned, h1, h2⟩ := hm.made
  refine ⟨learned, fun d hd => learned_of (h1 d hd), fun d => (h2 d).trans (or_congr Iff.rfl CNF.mem_append), fun v hv => ?_⟩
  have hS : f.stateToSafety.holds v := safety_complete h.laws hw (v := v) fun x _ hx => (Circuit.frame_eval_eq hw hv hx).symm
  have hp : (propCnf f).holds v ↔ ¬ Circuit.BadNow (badLits c ob) v := by
    rw [CNF.holds_append, Cube.toCnf_holds]
    show _ ∧ (f.unsafety.not).holds v ↔ _
    rw [Clause.holds_not, unsafety_iff h.laws hw hb hS, frame_bad hw hb.lit hv]
    exact ⟨fun h => h.2, fun h => ⟨hS, h⟩⟩
  rw [← hp]
  constructor
  · exact fun hi => ⟨fun d hd => hi d ((h2 d).2 (.inl hd)), fun d hd => hi d ((h2 d).2 (.inr hd))⟩
  · rintro ⟨h3, h4⟩ d hd
    exact ((h2 d).1 hd).elim (h3 d) (h4 d)

/-- C74: the invariant of `IC3Stateless` consists of learned clauses and the property. -/
theorem C74_ic3_stateless (dbg : Bool) (env : Env) (he : env.OK) (sched : Sched) (hsched : sched.OK) (h : Built f c ob) (hs : c.Small)
    (fuel : Nat) (inv : CNF) (hp : proveStateless dbg env sched f fuel = .ok (.proof inv)) : Ic3Invariant f c (badLits c ob) inv := by
  rcases proveStateless_spec dbg he hsched (smallSys_of h hs) fuel with ⟨r, e', hv⟩ | ⟨e', h1, _⟩
  · rw [hp] at e'; cases e'; exact ic3Invariant_of h hv.2.1
  · rw [hp] at h1; cases h1

/-- C74: so does that of `IC3Stateful`, whatever failures its solver objects may have. -/
theorem C74_ic3_stateful (dbg : Bool) (I : StatefulImpl) (F : Err → Prop) (O : I.OK F) (sched : Sched) (hsched : sched.OK) (h : Built f c ob)
    (hs : c.Small) (fuel : Nat) (inv : CNF) (hp : proveStateful dbg I sched f fuel = .ok (.proof inv)) :
    Ic3Invariant f c (badLits c ob) inv := by
  have := proveStateful_ends dbg O hsched (smallSys_of h hs) fuel
  rw [hp] at this
  exact ic3Invariant_of h this.2.1

/-- C74: the invariant of PDR consists of learned clauses alone, so it is a condition on the latches: inputs and gates do not matter. -/
theorem C74_pdr (dbg : Bool) (I : StatefulImpl) (F : Err → Prop) (O : I.OK F) (sched : Sched) (hsched : sched.OK) (h : Built f c ob)
    (hs : c.Small) (hg : dbg = true ∨ c.Covered (badLits c ob)) (fuel : Nat) (inv : CNF)
    (hp : PDR.run dbg I sched f fuel = .ok (.proof inv)) :
    (∀ d ∈ inv.clauses, Learned c d) ∧ ∀ v w, SameLatches c v w → inv.holds v → inv.holds w := by
  have := PDR.run_ends dbg O hsched (smallSys_of h hs) fuel
  rw [hp] at this
  obtain ⟨learned, h1, h2⟩ := (this.2 hg.symm).2.1.made
  have h3 : ∀ d ∈ inv.clauses, d ∈ learned := fun d hd => ((h2 d).1 hd).resolve_right fun h => by simp [CNF.new] at h
  exact ⟨fun d hd => learned_of (h1 d (h3 d hd)), fun v w hvw hv d hd => (h1 d (h3 d hd)).1.holds_congr hvw (hv d hd)⟩

/-- C34: an accepted candidate, over whatever variables of the circuit, holds in all initial states, is preserved by every clock, and excludes
bad states. -/
theorem C34_inductive (dbg : Bool) (env : Env) (he : env.Correct) (h : Built f c ob) (hs : c.Small) (inv : CNF) (hi : inv.WF)
    (hn : ∀ d ∈ inv.clauses, ∀ l ∈ d.lits, 1 ≤ l.number ∧ l.number ≤ c.maxVar) (t t' : Nat)
    (hc : f.checkInvariant dbg env inv t = .ok ((), t')) :
    (∀ v, c.Frame v → c.Init v → inv.holds v) ∧
    (∀ v v', c.Frame v → c.Frame v' → c.Step v v' → inv.holds v → inv.holds v') ∧
    (∀ v, c.Frame v → inv.holds v → ¬ Circuit.BadNow (badLits c ob) v) := by
  have hw := h.1.wf
  have hb := badsOK_of h.1
  have hone : OneFrame c inv := ⟨hi, hn⟩
  obtain ⟨h1, h2, h3⟩ := (checkInvariant_iff dbg he h.laws hw hb hs hone t).1 ⟨t', hc⟩
  have wires : ∀ {v}, c.Frame v → Wires c v v := fun hv x _ hx => (Circuit.frame_eval_eq hw hv hx).symm
  have hS : ∀ {v}, c.Frame v → f.stateToSafety.holds v := fun hv => safety_complete h.laws hw (wires hv)
  refine ⟨fun v hv hI => h1 v hI (hS hv), fun v v' hv hv' hst hinv => ?_, fun v hv hinv hbad => ?_⟩
  · let w : Val := fun x => if x ≤ c.maxVar then v x else v' (x - c.maxVar)
    have e1 : ∀ x, 1 ≤ x → x ≤ c.maxVar → w x = v x := fun x _ hx => if_pos hx
    have e2 : ∀ x, 1 ≤ x → x ≤ c.maxVar → w (x + c.maxVar) = v' x := fun x h1 _ => by
      show (if x + c.maxVar ≤ c.maxVar then _ else _) = _
      rw [if_neg (by omega), Nat.add_sub_cancel]
    have w1 : Wires c v w := fun x h1 hx => by rw [e1 x h1 hx]; exact wires hv x h1 hx
    have w2 : Wires c v' (fun x => w (x + c.maxVar)) := fun x h1 hx => by
      show w (x + c.maxVar) = _
      rw [e2 x h1 hx]; exact wires hv' x h1 hx
    have hT : f.transition.holds w := transition_complete h.laws hw ((frame_trans hw hv).2 hst) w1 fun i hi =>
      e2 _ (by unfold Circuit.latchVar; omega) (by unfold Circuit.latchVar Circuit.maxVar; omega)
    have := h2 w hT (hone.holds_congr (fun x h1 hx => (e1 x h1 hx).symm) hinv) (safety_complete h.laws hw w1) (safety_complete h.laws hw w2)
    exact hone.holds_congr e2 this
  · exact h3 v hinv (hS hv) ((unsafety_iff h.laws hw hb (hS hv)).2 ((frame_bad hw hb.lit hv).2 hbad))

/-- C34: candidates may also mention variables beyond the circuit's.  As long as renaming keeps them in the range of the solver, an accepted one
holds at every clock of every execution if variable `k * maxVar + x` is read as variable `x` of `k` clocks later. -/
theorem C34_unrolled (dbg : Bool) (V : Nat) (hV : 2147483646 ≤ V) (hV' : V ≤ 2147483647) (env : Env) (he : env.Correct V) (h : Built f c ob)
    (hs : c.Small) (inv : CNF) (hi : inv.WF) (hn : ∀ d ∈ inv.clauses, ∀ l ∈ d.lits, 1 ≤ l.number ∧ l.number + c.maxVar ≤ V) (t t' : Nat)
    (hc : f.checkInvariant dbg env inv t = .ok ((), t')) (w : Nat → Val) (d : Nat) (hE : c.Exec w d) :
    inv.holds fun x => if c.maxVar = 0 then w d x else w (d + (x - 1) / c.maxVar) ((x - 1) % c.maxVar + 1) :=
  checkInvariant_unrolled dbg hV hV' he h.laws h.1.wf (badsOK_of h.1) hs ⟨hi, hn⟩ hc hE

/-- C34 (sound, any candidate in range): no candidate, over whatever variables, is accepted for an unsafe circuit. -/
theorem C34_any (dbg : Bool) (V : Nat) (hV : 2147483646 ≤ V) (hV' : V ≤ 2147483647) (env : Env) (he : env.Correct V) (h : Built f c ob)
    (hs : c.Small) (inv : CNF) (hi : inv.WF) (hn : ∀ d ∈ inv.clauses, ∀ l ∈ d.lits, 1 ≤ l.number ∧ l.number + c.maxVar ≤ V) (t t' : Nat)
    (hc : f.checkInvariant dbg env inv t = .ok ((), t')) : c.Safe (badLits c ob) :=
  checkInvariant_any_sound dbg hV hV' he h.laws h.1.wf (badsOK_of h.1) hs ⟨hi, hn⟩ hc

/-- C34 (sound, debug builds): with a solver for the whole range of literals there is no condition on the candidate's variables at all. -/
theorem C34_debug (env : Env) (he : env.Correct 2147483647) (h : Built f c ob) (hs : c.Small) (inv : CNF) (hi : inv.WF) (t t' : Nat)
    (hc : f.checkInvariant true env inv t = .ok ((), t')) : c.Safe (badLits c ob) :=
  checkInvariant_debug_sound he h.laws h.1.wf (badsOK_of h.1) hs hi hc

/-- C42, for all circuits and both build profiles: the formula of a `Proof` is a condition on the latches, it is preserved by every clock and
it excludes bad states.  What may be missing, in release builds of circuits that are not covered, is that it holds initially. -/
theorem C42_closed (dbg : Bool) (I : StatefulImpl) (F : Err → Prop) (O : I.OK F) (sched : Sched) (hsched : sched.OK) (h : Built f c ob)
    (hs : c.Small) (fuel : Nat) (inv : CNF) (hp : PDR.run dbg I sched f fuel = .ok (.proof inv)) :
    (∀ d ∈ inv.clauses, OverLatches c d) ∧
    (∀ v v', c.Frame v → c.Step v v' → inv.holds v → inv.holds v') ∧
    (∀ v, c.Frame v → inv.holds v → ¬ Circuit.BadNow (badLits c ob) v) := by
  have := PDR.run_ends dbg O hsched (smallSys_of h hs) fuel
  rw [hp] at this
  have hc := this.1
  exact ⟨fun d hd => (hc.latch d hd).lits, fun v v' hv hst => hc.step v v' ((frame_trans h.1.wf hv).2 hst),
    fun v hv hi hb => hc.good v hi ((frame_bad h.1.wf (badsOK_of h.1).lit hv).2 hb)⟩

/-- C42: so a `Proof` can be relied on if its formula holds initially, and `check_invariant` finds out: for all circuits and build profiles it
accepts the formula exactly then, and then no bad state is reachable. -/
theorem C42_checked (dbg : Bool) (I : StatefulImpl) (F : Err → Prop) (O : I.OK F) (sched : Sched) (hsched : sched.OK) (h : Built f c ob)
    (hs : c.Small) (fuel : Nat) (inv : CNF) (hp : PDR.run dbg I sched f fuel = .ok (.proof inv)) (dbg' : Bool) (env : Env) (he : env.Correct) (t : Nat) :
    ((∃ t', f.checkInvariant dbg' env inv t = .ok ((), t')) ↔ ∀ v, c.Init v → inv.holds v) ∧
    ((∀ v, c.Init v → inv.holds v) → c.Safe (badLits c ob)) := by
  have hr := PDR.run_ends dbg O hsched (smallSys_of h hs) fuel
  rw [hp] at hr
  have hc := hr.1
  have hw := h.1.wf
  have key : (∃ t', f.checkInvariant dbg' env inv t = .ok ((), t')) ↔ ∀ v, c.Init v → inv.holds v := by
    rw [checkInvariant_iff dbg' he h.laws hw (badsOK_of h.1) hs hc.one t]
    constructor
    · intro ⟨h1, _, _⟩ v hv
      have hI : c.Init (c.evalVar v) := hv.congr fun i hi => (Circuit.evalVar_latch c v hi).symm
      have hS : f.stateToSafety.holds (c.evalVar v) := safety_complete h.laws hw (v := v) fun x _ _ => rfl
      exact fun d hd => (hc.latch d hd).holds_congr (fun i hi => Circuit.evalVar_latch c v hi) (h1 _ hI hS d hd)
    · intro h0
      refine ⟨fun w hI _ => h0 w hI, fun w hT hi _ _ => hc.step w _ (transition_sound h.laws hw hT) hi, fun w hi hS hU => ?_⟩
      exact hc.good w hi ((unsafety_iff h.laws hw (badsOK_of h.1) hS).1 hU)
  refine ⟨key, fun h0 => ?_⟩
  obtain ⟨t', e⟩ := key.2 h0
  exact C34_sound dbg' env he h hs inv hc.one.wf hc.one.num t t' e

/-- C74: the invariant of every prover holds in all initial states, is preserved by every clock, whether or not the state it starts from is
reachable, and excludes bad states. -/
theorem C74_inductive (h : Built f c ob) (hs : c.Small) (inv : CNF) (hr : ProverRun f c ob (.ok (.proof inv))) :
    (∀ v, c.Frame v → c.Init v → inv.holds v) ∧
    (∀ v v', c.Frame v → c.Frame v' → c.Step v v' → inv.holds v → inv.holds v') ∧
    (∀ v, c.Frame v → inv.holds v → ¬ Circuit.BadNow (badLits c ob) v) := by
  obtain ⟨_, _, hone, hacc⟩ := hr.verdict h hs rfl
  obtain ⟨t', hc⟩ := hacc true Brute.env Brute.env_correct 0
  exact C34_inductive true Brute.env Brute.env_correct h hs inv hone.wf hone.num 0 t' hc

/-- C74: two invariants of one circuit, from whichever provers, are together an inductive invariant again. -/
theorem C74_conjunction (h : Built f c ob) (h' : Built f' c ob) (hs : c.Small) (inv inv' : CNF) (hr : ProverRun f c ob (.ok (.proof inv)))
    (hr' : ProverRun f' c ob (.ok (.proof inv'))) (dbg : Bool) (env : Env) (he : env.Correct) (t : Nat) :
    ∃ t', f.checkInvariant dbg env (inv.append inv') t = .ok ((), t') := by
  obtain ⟨_, _, hone, hacc⟩ := hr.verdict h hs rfl
  obtain ⟨_, _, hone', _⟩ := hr'.verdict h' hs rfl
  have hw := h.1.wf
  have hb := badsOK_of h.1
  have hboth : OneFrame c (inv.append inv') := ⟨hone.wf.append hone'.wf, fun d hd => (CNF.mem_append.1 hd).elim (hone.num d) (hone'.num d)⟩
  obtain ⟨a1, a2, a3⟩ := (checkInvariant_iff dbg he h.laws hw hb hs hone.toOneFrame t).1 (hacc dbg env he t)
  obtain ⟨b1, b2, _⟩ := (checkInvariant_iff dbg he h.laws hw hb hs hone'.toOneFrame t).1 (C72_portable h' h hs inv' hr' dbg env he t)
  refine (checkInvariant_iff dbg he h.laws hw hb hs hboth t).2 ⟨fun w h1 h2 => ?_, fun w h1 h2 h3 h4 => ?_, fun w h1 h2 => ?_⟩
  · exact CNF.holds_append.2 ⟨a1 w h1 h2, b1 w h1 h2⟩
  · obtain ⟨h5, h6⟩ := CNF.holds_append.1 h2
    exact CNF.holds_append.2 ⟨a2 w h1 h5 h3 h4, b2 w h1 h6 h3 h4⟩
  · exact a3 w (CNF.holds_append.1 h1).1 h2

/-! ## Concrete cases -/

/-- `lazy`: the second latch copies the first, which toggles; the gate says that both are 1.  IC3 needs no clause besides the property: the
three clauses of the gate and "the gate is 0". -/
def lazyIc3 : CNF := ⟨3, [⟨[⟨4⟩, ⟨7⟩]⟩, ⟨[⟨2⟩, ⟨7⟩]⟩, ⟨[⟨3⟩, ⟨5⟩, ⟨6⟩]⟩, ⟨[⟨7⟩]⟩]⟩
theorem lazy_ic3_run : proveStateless true Brute.env plain (systemOf lazy false) 20 = .ok (.proof lazyIc3) := by decide +kernel
example : Ic3Invariant (systemOf lazy false) lazy [6] lazyIc3 :=
  C74_ic3_stateless true Brute.env Brute.env_ok plain plain_ok lazy_built (by unfold Circuit.Small; decide) 20 lazyIc3 lazy_ic3_run

/-- `ring`: IC3 learns "each of the three latches is 0". -/
def ringIc3 : CNF := ⟨4, [⟨[⟨5⟩]⟩, ⟨[⟨7⟩]⟩, ⟨[⟨3⟩]⟩, ⟨[⟨6⟩, ⟨9⟩]⟩, ⟨[⟨4⟩, ⟨9⟩]⟩, ⟨[⟨5⟩, ⟨7⟩, ⟨8⟩]⟩, ⟨[⟨9⟩]⟩]⟩
theorem ring_ic3_run : proveStateful true (MiniSat.impl true Brute.ms) plain (systemOf ring false) 20 = .ok (.proof ringIc3) := by
  decide +kernel
example : Ic3Invariant (systemOf ring false) ring [8] ringIc3 :=
  C74_ic3_stateful true _ _ (MiniSat.implOK true Brute.ms_ok) plain plain_ok ring_built (by unfold Circuit.Small; decide) 20 ringIc3 ring_ic3_run

/-- PDR's invariants: "not both latches are 1" for `lazy` and "each of the three latches is 0" for `ring`, without anything about the gate. -/
def lazyPdr : CNF := ⟨2, [⟨[⟨3⟩, ⟨5⟩]⟩]⟩
theorem lazy_pdr_run : PDR.run true (MiniSat.impl true Brute.ms) plain (systemOf lazy false) 30 = .ok (.proof lazyPdr) := by decide +kernel
def ringPdrInv : CNF := ⟨3, [⟨[⟨7⟩]⟩, ⟨[⟨3⟩]⟩, ⟨[⟨5⟩]⟩]⟩
theorem ring_pdr_run : PDR.run true (MiniSat.impl true Brute.ms) plain (systemOf ring false) 30 = .ok (.proof ringPdrInv) := by
  decide +kernel
example : (∀ d ∈ lazyPdr.clauses, Learned lazy d) ∧ ∀ v w, SameLatches lazy v w → lazyPdr.holds v → lazyPdr.holds w :=
  C74_pdr true _ _ (MiniSat.implOK true Brute.ms_ok) plain plain_ok lazy_built (by unfold Circuit.Small; decide) (.inl rfl) 30 lazyPdr
    lazy_pdr_run

/-- The wrong `Proof` of a release build for `latchBad`: the formula is the empty clause, which every clock preserves; `check_invariant` rejects it
because it does not hold initially. -/
def latchBadPdr : CNF := ⟨0, [⟨[]⟩]⟩
theorem latchBad_pdr_run : PDR.run false (MiniSat.impl false Brute.ms) plain (systemOf latchBad false) 30 = .ok (.proof latchBadPdr) := by
  decide +kernel
example : ∀ v, latchBad.Frame v → latchBadPdr.holds v → ¬ Circuit.BadNow [2] v :=
  (C42_closed false _ _ (MiniSat.implOK false Brute.ms_ok) plain plain_ok latchBad_built (by unfold Circuit.Small; decide) 30 latchBadPdr
    latchBad_pdr_run).2.2
example (dbg : Bool) (env : Env) (he : env.Correct) : ¬ ∃ t', (systemOf latchBad false).checkInvariant dbg env latchBadPdr 0 = .ok ((), t') := by
  rw [(C42_checked false _ _ (MiniSat.implOK false Brute.ms_ok) plain plain_ok latchBad_built (by unfold Circuit.Small; decide) 30 latchBadPdr
    latchBad_pdr_run dbg env he 0).1]
  intro h
  obtain ⟨v, hv⟩ := Circuit.exists_init latchBad
  obtain ⟨l, hl, _⟩ := h v hv ⟨[]⟩ (List.mem_singleton.2 rfl)
  cases hl

theorem lazy_ic3_prover : ProverRun (systemOf lazy false) lazy false (.ok (.proof lazyIc3)) := by
  rw [← lazy_ic3_run]; exact .stateless _ _ _ _ Brute.env_ok plain_ok
theorem ring_ic3_prover : ProverRun (systemOf ring false) ring false (.ok (.proof ringIc3)) := by
  rw [← ring_ic3_run]; exact .stateful _ _ _ _ _ (MiniSat.implOK true Brute.ms_ok) plain_ok
theorem ring_pdr_prover : ProverRun (systemOf ring false) ring false (.ok (.proof ringPdrInv)) := by
  rw [← ring_pdr_run]; exact .pdr _ _ _ _ _ (MiniSat.implOK true Brute.ms_ok) plain_ok ring_gate.1

example := C74_inductive ring_built (by unfold Circuit.Small; decide) ringPdrInv ring_pdr_prover
example (dbg : Bool) (env : Env) (he : env.Correct) : ∃ t', (systemOf ring false).checkInvariant dbg env (ringIc3.append ringPdrInv) 0 = .ok ((), t') :=
  C74_conjunction ring_built ring_built (by unfold Circuit.Small; decide) _ _ ring_ic3_prover ring_pdr_prover dbg env he 0

example : ∀ v, lazy.Frame v → lazyIc3.holds v → ¬ Circuit.BadNow [6] v :=
  (C74_inductive lazy_built (by unfold Circuit.Small; decide) lazyIc3 lazy_ic3_prover).2.2

/-- C34_inductive applies to candidates over gates. -/
example : ∀ v v', lazy.Frame v → lazy.Frame v' → lazy.Step v v' → lazyIc3.holds v → lazyIc3.holds v' := by
  obtain ⟨t', e⟩ := C72_portable lazy_built lazy_built (by unfold Circuit.Small; decide) lazyIc3 lazy_ic3_prover true Brute.env Brute.env_correct 0
  exact (C34_inductive true Brute.env Brute.env_correct lazy_built (by unfold Circuit.Small; decide) lazyIc3
    ⟨by decide, fun d hd => by
      revert d; unfold Clause.Sorted; decide, by decide, by decide⟩ (by decide) 0 t' e).2.1

/-- "Not both latches are 1", once more weakened by a variable that belongs to the cycle after the next. -/
def lazyFar : CNF := (CNF.new.addClause (Clause.new [⟨3⟩, ⟨5⟩])).addClause (Clause.new [⟨3⟩, ⟨5⟩, ⟨16⟩])
theorem lazyFar_wf : lazyFar.WF := (CNF.WF.new.addClause (Clause.sorted_new _)).addClause (Clause.sorted_new _)
theorem lazyFar_accepted (dbg : Bool) : ∃ t', (systemOf lazy false).checkInvariant dbg Brute.env lazyFar 0 = .ok ((), t') := by
  have e : ((systemOf lazy false).checkInvariant dbg Brute.env lazyFar 0).isOk = true := by revert dbg; decide +kernel
  generalize (systemOf lazy false).checkInvariant dbg Brute.env lazyFar 0 = r at e
  match r, e with
  | .ok ((), t'), _ => exact ⟨t', rfl⟩
example : lazy.Safe [6] := by
  obtain ⟨t', e⟩ := lazyFar_accepted true
  exact C34_debug Brute.env (Brute.env_ok_upTo _).correct lazy_built (by unfold Circuit.Small; decide) lazyFar lazyFar_wf 0 t' e
example : lazy.Safe [6] := by
  obtain ⟨t', e⟩ := lazyFar_accepted false
  exact C34_any false 2147483647 (by decide) (by decide) Brute.env (Brute.env_ok_upTo _).correct lazy_built (by unfold Circuit.Small; decide) lazyFar lazyFar_wf
    (by decide) 0 t' e
example (w : Nat → Val) (d : Nat) (hE : lazy.Exec w d) : lazyFar.holds fun x => w (d + (x - 1) / 3) ((x - 1) % 3 + 1) := by
  obtain ⟨t', e⟩ := lazyFar_accepted true
  exact C34_unrolled true 2147483647 (by decide) (by decide) Brute.env (Brute.env_ok_upTo _).correct lazy_built (by unfold Circuit.Small; decide) lazyFar lazyFar_wf
    (by decide) 0 t' e w d hE

end Verif.Props
