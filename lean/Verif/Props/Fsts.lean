import Verif.Proofs.Brute
import Verif.Proofs.FstsInvariant
import Verif.Proofs.FstsReject
import Verif.Props.AigUse
import Verif.Proofs.Extract

/-!
# Properties C25–C34: the finite state transition system

`Fsts.Built f c ob`: `f` is what `from_aig` returned for a graph storing the supported circuit `c` (Spec/Build).  By C17 every
graph read from a file stores a well-formed circuit.
-/

namespace Verif.Props

open Verif.Fsts

/-! ## Concrete systems used below -/

/-- Hash orders that do nothing and an exhaustive solver. -/
def bruteBuild : BuildEnv := ⟨id, id, fun f => .ok (Brute.solve f)⟩
theorem bruteBuild_ok : bruteBuild.OK := ⟨fun l => List.Perm.refl l, fun l => List.Perm.refl l, fun f hw hg =>
  ⟨_, rfl, (Brute.solve_ok f (fun c hc l hl => (hg c hc l hl).1) hw.le_max).correct⟩⟩

theorem supported_of {c : Circuit} {ob : Bool} (hw : c.wfb = true) (hs : c.Small) (hc : c.constraints = [])
    (hb : ∀ l ∈ badLits c ob, 2 ≤ l) : Supported c ob := ⟨Circuit.wf_of_wfb hw, hs.encodable, hc, hb⟩

theorem toggle_supported : Supported toggle false := supported_of (by decide) (by unfold Circuit.Small; decide) rfl (by decide)
theorem counter_supported : Supported counter true := supported_of (by decide) (by unfold Circuit.Small; decide) rfl (by decide)

/-- The system built for a circuit (a placeholder when the construction panics). -/
def systemOf (c : Circuit) (ob : Bool) : Fsts :=
  match fromAig true bruteBuild (finish c [] none) ob with
  | .ok f => f
  | .error _ => ⟨[], ⟨[]⟩, ⟨0, []⟩, ⟨0, []⟩, ⟨[]⟩, 0, [], [], [], []⟩

theorem systemOf_built {c : Circuit} {ob : Bool} (hF : c.Fits) (hs : Supported c ob) : Built (systemOf c ob) c ob := by
  have hr := represents_finish hF [] none
  obtain ⟨f, e, _⟩ := fromAig_ok true bruteBuild_ok hr hs.wf hs.encodable hs.constraints ob hs.bad
  refine ⟨hs, true, bruteBuild, _, bruteBuild_ok, hr, ?_⟩
  unfold systemOf
  rw [e]

theorem toggle_built : Built (systemOf toggle false) toggle false := systemOf_built toggle_fits toggle_supported
theorem counter_built : Built (systemOf counter true) counter true :=
  systemOf_built ⟨by decide, by decide, by decide, by decide, by decide⟩ counter_supported

/-- The strings printed by the repository's documentation tests for `counter.aig` (getting.rs:49-53). -/
example : String.fromUTF8? ⟨(systemOf counter false).getTransitionRelation.display.toArray⟩ =
    some "p cnf 8 12\n1 -7 0\n-1 -5 0\n-1 7 0\n2 -8 0\n-2 -4 0\n-2 8 0\n-3 -4 0\n4 -5 0\n5 -6 0\n-5 6 0\n1 -4 5 0\n2 3 4 0" := by
  decide +kernel
example : String.fromUTF8? ⟨(systemOf counter false).getInitialRelation.display.toArray⟩ = some "p cnf 3 3\n-1 0\n-2 0\n-3 0" := by
  decide +kernel

variable {f : Fsts} {c : Circuit} {ob : Bool}

/-- `v` gives the inputs and latches the same values as `u`. -/
def Agree (c : Circuit) (u v : Val) : Prop := ∀ x, 1 ≤ x → x ≤ c.numInputs + c.latches.length → v x = u x

theorem Agree.base {u v : Val} (h : Agree c u v) : c.SameBase v u := by
  intro x h1 h2
  exact h x h1 (by unfold Circuit.andVar at h2; omega)

theorem base_agree {u v : Val} (h : c.SameBase v u) : Agree c u v := by
  intro x h1 h2
  exact h x h1 (by unfold Circuit.andVar; omega)

theorem badsOK_of (h : Supported c ob) : BadsOK c (badLits c ob) := ⟨badLits_ok h.wf ob, h.bad⟩

theorem frame_eval {v : Val} (hw : c.WF) (h : c.Frame v) {x : Nat} (hx : x ≤ c.maxVar) : c.evalVar v x = v x :=
  Circuit.frame_eval_eq hw h hx

theorem frame_lit {v : Val} (hw : c.WF) (h : c.Frame v) {l : Nat} (hl : c.LitOK l) : litVal (c.evalVar v) l = litVal v l :=
  litVal_congr (frame_eval hw h hl)

theorem frame_trans {v v' : Val} (hw : c.WF) (h : c.Frame v) : c.Trans v v' ↔ c.Step v v' := by
  unfold Circuit.Trans Circuit.Step
  constructor
  · intro ht i p hp; rw [ht i p hp]; exact frame_lit hw h (hw.next_ok i p hp)
  · intro ht i p hp; rw [ht i p hp]; exact (frame_lit hw h (hw.next_ok i p hp)).symm

theorem frame_bad {v : Val} {bads : List Nat} (hw : c.WF) (hb : ∀ l ∈ bads, c.LitOK l) (h : c.Frame v) :
    c.BadAt bads v ↔ Circuit.BadNow bads v := by
  unfold Circuit.BadAt Circuit.BadNow
  constructor
  · rintro ⟨b, hb1, hb2⟩; exact ⟨b, hb1, by rwa [frame_lit hw h (hb b hb1)] at hb2⟩
  · rintro ⟨b, hb1, hb2⟩; exact ⟨b, hb1, by rwa [frame_lit hw h (hb b hb1)]⟩

/-! ## C25: initial relation -/

/-- C25: the initial relation holds exactly in the reset states. -/
theorem C25_initial (h : Built f c ob) (v : Val) : f.getInitialRelation.toCnf.holds v ↔
    ∀ (i : Nat) (p : Nat × Nat), c.latches[i]? = some p →
      (p.2 = 0 → v (c.latchVar i) = false) ∧ (p.2 = 1 → v (c.latchVar i) = true) := by
  rw [Cube.toCnf_holds]; exact initial_holds h.laws

/-- A latch that starts at 1 and one that starts anyhow. -/
def mixed : Circuit := ⟨0, [(2, 1), (3, 4)], [], [], [], []⟩
example : Built (systemOf mixed false) mixed false :=
  systemOf_built ⟨by decide, by decide, by decide, by decide, by decide⟩
    (supported_of (by decide) (by unfold Circuit.Small; decide) rfl (by decide))
example : (systemOf mixed false).getInitialRelation = ⟨[⟨2⟩]⟩ := by decide +kernel

/-! ## C26: transition relation -/

/-- C26 (sound): in every model of the transition relation the primed latch variables carry the successor of the state and inputs. -/
theorem C26_sound (h : Built f c ob) (w v : Val) (hT : f.getTransitionRelation.holds w) (hv : c.Frame v) (ha : Agree c w v) :
    c.Step v (fun x => w (x + f.getMaxLiteralNumber)) := by
  rw [show f.getMaxLiteralNumber = c.maxVar from h.laws.maxLit]
  rw [← frame_trans h.1.wf hv]
  exact Circuit.Trans.congr h.1.wf (fun x h1 h2 => (ha.base x h1 h2).symm) (fun _ _ => rfl) (transition_sound h.laws h.1.wf hT)

/-- C26 (total): every state and input vector extends to a model. -/
theorem C26_total (h : Built f c ob) (u : Val) : ∃ w, f.getTransitionRelation.holds w ∧ Agree c u w := by
  obtain ⟨v', ht, _⟩ := Circuit.trans_exists c u u
  exact ⟨join c u v', transition_join h.laws h.1.wf ht, base_agree (join_wires c u v').base⟩

/-- C26 (complete): any two consecutive clock cycles of the circuit, laid side by side, are a model. -/
theorem C26_complete (h : Built f c ob) (v v' : Val) (hv : c.Frame v) (hs : c.Step v v') :
    f.getTransitionRelation.holds (fun x => if x ≤ c.maxVar then v x else v' (x - c.maxVar)) := by
  refine transition_complete h.laws h.1.wf ((frame_trans h.1.wf hv).2 hs) ?_ ?_
  · intro x _ hx
    show (if x ≤ c.maxVar then v x else _) = _
    rw [if_pos hx, frame_eval h.1.wf hv hx]
  · intro i hi
    have := latchVar_le c hi
    show (if c.latchVar i + c.maxVar ≤ c.maxVar then _ else v' (c.latchVar i + c.maxVar - c.maxVar)) = _
    rw [if_neg (by omega)]
    congr 1; omega

example : Built (systemOf toggle false) toggle false ∧ (systemOf toggle false).getMaxLiteralNumber = 5 :=
  ⟨toggle_built, by decide +kernel⟩
/-- Input 1 at state 0: the gates compute 0, 0… and the latch becomes 1. -/
example : toggle.Frame (fun x => x = 1 || x = 4) ∧ toggle.Step (fun x => x = 1 || x = 4) (fun x => x = 2) := by
  constructor
  · refine ⟨by decide, ?_⟩
    intro i p hp
    match i, hp with
    | 0, hp => simp [toggle] at hp; subst hp; decide
    | 1, hp => simp [toggle] at hp; subst hp; decide
    | 2, hp => simp [toggle] at hp; subst hp; decide
    | _ + 3, hp => simp [toggle] at hp
  · intro i p hp
    match i, hp with
    | 0, hp => simp [toggle] at hp; subst hp; decide
    | _ + 1, hp => simp [toggle] at hp

/-! ## C27: safety translation -/

/-- C27: the unsafety clause together with the translation is satisfiable over a state and inputs iff a bad literal is 1 there. -/
theorem C27_bad (h : Built f c ob) (u : Val) :
    (∃ w, Agree c u w ∧ f.getStateToSafetyTranslation.holds w ∧ f.getUnsafetyProperty.holds w) ↔
    ∃ v, Agree c u v ∧ c.Frame v ∧ Circuit.BadNow (badLits c ob) v := by
  have hw := h.1.wf
  have hb := badsOK_of h.1
  constructor
  · rintro ⟨w, ha, hS, hU⟩
    refine ⟨c.evalVar w, ?_, Circuit.frame_evalVar hw w, (unsafety_iff h.laws hw hb hS).1 hU⟩
    intro x h1 h2
    rw [Circuit.sameBase_evalVar c w x h1 (by unfold Circuit.andVar; omega)]
    exact ha x h1 h2
  · rintro ⟨v, ha, hf, hbad⟩
    have hwr : Wires c v v := fun x _ hx => (frame_eval hw hf hx).symm
    have hS := safety_complete h.laws hw hwr
    exact ⟨v, ha, hS, (unsafety_iff h.laws hw hb hS).2 ((frame_bad hw hb.lit hf).2 hbad)⟩

/-- C27: with the safety property instead, iff no bad literal is 1 there. -/
theorem C27_good (h : Built f c ob) (u : Val) :
    (∃ w, Agree c u w ∧ f.getStateToSafetyTranslation.holds w ∧ f.getSafetyProperty.holds w) ↔
    ∃ v, Agree c u v ∧ c.Frame v ∧ ¬ Circuit.BadNow (badLits c ob) v := by
  have hw := h.1.wf
  have hb := badsOK_of h.1
  have hp : ∀ w, f.getSafetyProperty.holds w ↔ ¬ f.unsafety.holds w := fun w => Clause.holds_not
  constructor
  · rintro ⟨w, ha, hS, hU⟩
    refine ⟨c.evalVar w, ?_, Circuit.frame_evalVar hw w, fun hbad => (hp w).1 hU ((unsafety_iff h.laws hw hb hS).2 hbad)⟩
    intro x h1 h2
    rw [Circuit.sameBase_evalVar c w x h1 (by unfold Circuit.andVar; omega)]
    exact ha x h1 h2
  · rintro ⟨v, ha, hf, hbad⟩
    have hwr : Wires c v v := fun x _ hx => (frame_eval hw hf hx).symm
    have hS := safety_complete h.laws hw hwr
    exact ⟨v, ha, hS, (hp v).2 fun hU => hbad ((frame_bad hw hb.lit hf).1 ((unsafety_iff h.laws hw hb hS).1 hU))⟩

/-- The two cases exclude each other: wire values are determined by the state and the inputs. -/
theorem C27_exclusive (h : Supported c ob) (u v v' : Val) (hv : c.Frame v) (hv' : c.Frame v') (ha : Agree c u v) (ha' : Agree c u v') :
    Circuit.BadNow (badLits c ob) v ↔ Circuit.BadNow (badLits c ob) v' := by
  have hb := badsOK_of h
  rw [← frame_bad h.wf hb.lit hv, ← frame_bad h.wf hb.lit hv']
  have hs : c.SameBase v v' := fun x h1 h2 => (ha.base x h1 h2).trans (ha'.base x h1 h2).symm
  exact ⟨Circuit.BadAt.congr h.wf hb.lit hs, Circuit.BadAt.congr h.wf hb.lit (fun x h1 h2 => (hs x h1 h2).symm)⟩

example : Built (systemOf counter true) counter true ∧ badLits counter true = [10] := ⟨counter_built, rfl⟩
example : (systemOf counter true).getStateToSafetyTranslation.len = 6 := by decide +kernel

/-! ## C28: acceptance -/

/-- C28: constraints are rejected in every build profile. -/
theorem C28_constraints (dbg : Bool) (be : BuildEnv) (a : Aig) (hr : a.Represents c) (h : c.constraints ≠ []) :
    ∃ site, fromAig dbg be a ob = .error (.panic site) := fromAig_constraints dbg be hr ob h

/-- C28: too many variables are rejected in every build profile. -/
theorem C28_variables (dbg : Bool) (be : BuildEnv) (a : Aig) (hr : a.Represents c) (h : 2147483647 ≤ c.maxVar) :
    ∃ site, fromAig dbg be a ob = .error (.panic site) := fromAig_large dbg be hr ob h

/-- C28: supported circuits are accepted in every build profile. -/
theorem C28_accepts (dbg : Bool) (be : BuildEnv) (hb : be.OK) (a : Aig) (hr : a.Represents c) (hs : Supported c ob) :
    ∃ f, fromAig dbg be a ob = .ok f := by
  obtain ⟨f, e, _⟩ := fromAig_ok dbg hb hr hs.wf hs.encodable hs.constraints ob hs.bad
  exact ⟨f, e⟩

/-- C28: in debug builds exactly the supported circuits are accepted. -/
theorem C28_debug (be : BuildEnv) (hb : be.OK) (a : Aig) (hr : a.Represents c) (hw : c.WF) :
    (∃ f, fromAig true be a ob = .ok f) ↔ Supported c ob :=
  ⟨fun ⟨_, e⟩ => fromAig_debug_ok hr hw ob e, C28_accepts true be hb a hr⟩

/-- C28: a constant bad literal makes debug builds panic. -/
theorem C28_constant_bad (be : BuildEnv) (hb : be.OK) (a : Aig) (hr : a.Represents c) (hw : c.WF) (hE : Encodable c)
    (hc : c.constraints = []) (l : Nat) (hl : l ∈ badLits c ob) (hlt : l < 2) :
    ∃ site, fromAig true be a ob = .error (.panic site) := fromAig_constant_bad hb hr hw hE hc ob hl hlt

/-- A circuit whose only output is the constant true. -/
def constantBad : Circuit := ⟨0, [], [], [1], [], []⟩
example : (finish constantBad [] none).Represents constantBad := represents_finish ⟨by decide, by decide, by decide, by decide, by decide⟩ _ _
/-- Debug builds panic on it; release builds go on with literal number 0. -/
example : fromAig true bruteBuild (finish constantBad [] none) true = .error (.panic "literal.rs:29 Literal number may not be zero.") ∧
    (fromAig false bruteBuild (finish constantBad [] none) true).toOption.map Fsts.getUnsafetyProperty = some ⟨[⟨1⟩]⟩ := by
  decide +kernel
/-- A circuit with a constraint. -/
example : (finish ⟨1, [], [], [], [], [2]⟩ [] none).Represents ⟨1, [], [], [], [], [2]⟩ :=
  represents_finish ⟨by decide, by decide, by decide, by decide, by decide⟩ _ _

/-! ## C29: tags -/

/-- C29 (relations): success, meaning. -/
theorem C29_relation (dbg : Bool) (f : Fsts) (g : CNF) (tags : Nat) (hg : g.WF) (h1 : ∀ d ∈ g.clauses, ∀ l ∈ d.lits, 1 ≤ l.number)
    (h : g.maxVar + f.maxLiteral * tags < 2147483648) :
    ∃ r, f.addTagsToRelation dbg g tags = .ok r ∧ ∀ v, r.holds v ↔ g.holds (fun x => v (x + f.maxLiteral * tags)) :=
  ⟨_, addTagsToRelation_ok dbg f hg h1 h, fun _ => CNF.holds_shift⟩

/-- C29 (cubes): success, meaning. -/
theorem C29_cube (dbg : Bool) (f : Fsts) (g : Cube) (tags : Nat) (hg : g.Sorted) (hm : f.maxLiteral * tags < 4294967296)
    (h : ∀ l ∈ g.lits, 1 ≤ l.number ∧ l.number + f.maxLiteral * tags < 2147483648) :
    ∃ r, f.addTagsToCube dbg g tags = .ok r ∧ ∀ v, r.holds v ↔ g.holds (fun x => v (x + f.maxLiteral * tags)) :=
  ⟨_, addTagsToCube_ok dbg f hg hm h, fun _ => Cube.holds_shift⟩

/-- C29 (clauses): success, meaning. -/
theorem C29_clause (dbg : Bool) (f : Fsts) (g : Clause) (tags : Nat) (hg : g.Sorted) (hm : f.maxLiteral * tags < 4294967296)
    (h : ∀ l ∈ g.lits, 1 ≤ l.number ∧ l.number + f.maxLiteral * tags < 2147483648) :
    ∃ r, f.addTagsToClause dbg g tags = .ok r ∧ ∀ v, r.holds v ↔ g.holds (fun x => v (x + f.maxLiteral * tags)) :=
  ⟨_, addTagsToClause_ok dbg f hg hm h, fun _ => Clause.holds_shift⟩

/-- C29: tagging by 0 is the identity. -/
theorem C29_zero (dbg : Bool) (f : Fsts) (g : CNF) (s : Cube) (d : Clause) : f.addTagsToRelation dbg g 0 = .ok g ∧
    f.addTagsToCube dbg s 0 = .ok s ∧ f.addTagsToClause dbg d 0 = .ok d := by
  refine ⟨?_, rfl, rfl⟩
  unfold addTagsToRelation bumpCnf u32Mul
  rw [Nat.mul_zero]
  rfl

/-- C29: tags compose additively. -/
theorem C29_compose (dbg : Bool) (f : Fsts) (g : CNF) (m n : Nat) (hg : g.WF) (h1 : ∀ d ∈ g.clauses, ∀ l ∈ d.lits, 1 ≤ l.number)
    (h : g.maxVar + f.maxLiteral * (m + n) < 2147483648) :
    (f.addTagsToRelation dbg g m >>= fun r => f.addTagsToRelation dbg r n) = f.addTagsToRelation dbg g (m + n) := by
  have e : f.maxLiteral * (m + n) = f.maxLiteral * m + f.maxLiteral * n := Nat.mul_add _ _ _
  rw [addTagsToRelation_ok dbg f hg h1 (tags := m) (by omega), ok_bind, addTagsToRelation_ok dbg f hg h1 h, e,
    ← CNF.shift_shift hg]
  refine addTagsToRelation_ok dbg f hg.shift ?_ ?_
  · intro d hd l hl
    obtain ⟨e, he, rfl⟩ := CNF.mem_shift.1 hd
    obtain ⟨m, hm, rfl⟩ := List.mem_map.1 hl
    have := h1 e he m hm
    rw [Literal.number_shift]; omega
  · rcases (hg.shift (n := f.maxLiteral * m)).attained with h0 | ⟨d, hd, l, hl, e2⟩
    · omega
    · obtain ⟨d', hd', rfl⟩ := CNF.mem_shift.1 hd
      obtain ⟨l', hl', rfl⟩ := List.mem_map.1 hl
      rw [Literal.number_shift] at e2
      have := hg.le_max d' hd' l' hl'
      omega

/-- C29: the same for clauses and cubes. -/
theorem C29_compose_clause (dbg : Bool) (f : Fsts) (g : Clause) (m n : Nat) (hg : g.Sorted) (hm : f.maxLiteral * (m + n) < 4294967296)
    (h : ∀ l ∈ g.lits, 1 ≤ l.number ∧ l.number + f.maxLiteral * (m + n) < 2147483648) :
    (f.addTagsToClause dbg g m >>= fun r => f.addTagsToClause dbg r n) = f.addTagsToClause dbg g (m + n) := by
  have e : f.maxLiteral * (m + n) = f.maxLiteral * m + f.maxLiteral * n := Nat.mul_add _ _ _
  rw [addTagsToClause_ok dbg f hg (tags := m) (by omega) (fun l hl => by have := h l hl; omega), ok_bind,
    addTagsToClause_ok dbg f hg hm h, e, ← Clause.shift_shift]
  refine addTagsToClause_ok dbg f (Clause.sorted_shift hg) (by omega) fun l hl => ?_
  obtain ⟨l', hl', rfl⟩ := List.mem_map.1 hl
  have := h l' hl'
  rw [Literal.number_shift]; omega

theorem C29_compose_cube (dbg : Bool) (f : Fsts) (g : Cube) (m n : Nat) (hg : g.Sorted) (hm : f.maxLiteral * (m + n) < 4294967296)
    (h : ∀ l ∈ g.lits, 1 ≤ l.number ∧ l.number + f.maxLiteral * (m + n) < 2147483648) :
    (f.addTagsToCube dbg g m >>= fun r => f.addTagsToCube dbg r n) = f.addTagsToCube dbg g (m + n) := by
  have e : f.maxLiteral * (m + n) = f.maxLiteral * m + f.maxLiteral * n := Nat.mul_add _ _ _
  rw [addTagsToCube_ok dbg f hg (tags := m) (by omega) (fun l hl => by have := h l hl; omega), ok_bind,
    addTagsToCube_ok dbg f hg hm h, e, ← Cube.shift_shift]
  refine addTagsToCube_ok dbg f (Cube.sorted_shift hg) (by omega) fun l hl => ?_
  obtain ⟨l', hl', rfl⟩ := List.mem_map.1 hl
  have := h l' hl'
  rw [Literal.number_shift]; omega

/-- C29: a debug build tags exactly when the shift fits a `u32` and no variable is 0 or leaves the range of literals; otherwise it panics.
(By `C29_zero` nothing is checked for 0 tags.) -/
theorem C29_debug (f : Fsts) (tags : Nat) (ht : f.maxLiteral * tags ≠ 0) :
    (∀ g : CNF, if f.maxLiteral * tags < 4294967296 ∧ ∀ d ∈ g.iter, ∀ l ∈ d.iter, 1 ≤ l.number ∧ l.number + f.maxLiteral * tags < 2147483648
      then ∃ r, f.addTagsToRelation true g tags = .ok r else ∃ site, f.addTagsToRelation true g tags = .error (.panic site)) ∧
    (∀ s : Cube, if f.maxLiteral * tags < 4294967296 ∧ ∀ l ∈ s.iter, 1 ≤ l.number ∧ l.number + f.maxLiteral * tags < 2147483648
      then ∃ r, f.addTagsToCube true s tags = .ok r else ∃ site, f.addTagsToCube true s tags = .error (.panic site)) ∧
    (∀ d : Clause, if f.maxLiteral * tags < 4294967296 ∧ ∀ l ∈ d.iter, 1 ≤ l.number ∧ l.number + f.maxLiteral * tags < 2147483648
      then ∃ r, f.addTagsToClause true d tags = .ok r else ∃ site, f.addTagsToClause true d tags = .error (.panic site)) := by
  have h0 : tags ≠ 0 := by rintro rfl; exact ht (Nat.mul_zero _)
  refine ⟨fun g => ?_, fun s => ?_, fun d => ?_⟩
  · rcases addTagsToRelation_debug f g tags ht with ⟨h, e⟩ | ⟨h, e⟩
    · refine (if_pos ?_).mpr e; exact h
    · refine (if_neg ?_).mpr e; exact h
  · rcases addTagsToCube_debug f s tags h0 with ⟨h, e⟩ | ⟨h, e⟩
    · refine (if_pos ?_).mpr e; exact h
    · refine (if_neg ?_).mpr e; exact h
  · rcases addTagsToClause_debug f d tags h0 with ⟨h, e⟩ | ⟨h, e⟩
    · refine (if_pos ?_).mpr e; exact h
    · refine (if_neg ?_).mpr e; exact h

/-- The counter has 5 variables: 858993460 tags are the first whose shift overflows a `u32`.  A debug build panics, even for the empty cube; a release
build shifts by 4 instead, so variable 1 becomes variable 5. -/
example : (systemOf counter true).maxLiteral = 5 ∧
    (systemOf counter true).addTagsToCube true ⟨[]⟩ 858993459 = .ok ⟨[]⟩ ∧
    (systemOf counter true).addTagsToCube true ⟨[]⟩ 858993460 = .error (.panic "features.rs:73 overflow") ∧
    (systemOf counter true).addTagsToCube false ⟨[⟨2⟩]⟩ 858993460 = .ok ⟨[⟨10⟩]⟩ := by decide +kernel

/-- The transition relation of the counter meets the hypotheses for three tags. -/
example : (systemOf counter true).transition.maxVar + (systemOf counter true).maxLiteral * 3 = 23 := by decide +kernel
example : (systemOf counter true).addTagsToCube true ⟨[⟨3⟩, ⟨4⟩]⟩ 2 = .ok ⟨[⟨23⟩, ⟨24⟩]⟩ := by decide +kernel

/-! ## C30: is_cube_initial -/

/-- C30: for cubes without complementary literals the answer is exact. -/
theorem C30_exact (h : Built f c ob) (s : Cube) (hs : ∀ l ∈ s.iter, l.not ∉ s.iter) :
    f.isCubeInitial s = true ↔ ∃ v, c.Init v ∧ s.holds v := isCubeInitial_iff h.laws hs

/-- C30: for any cube, `false` is right. -/
theorem C30_false (h : Built f c ob) (s : Cube) (hs : f.isCubeInitial s = false) : ¬ ∃ v, c.Init v ∧ s.holds v := by
  rintro ⟨v, hi, hv⟩
  rw [isCubeInitial_of_init h.laws hi hv] at hs; cases hs

example : (∀ l ∈ (Cube.new [⟨3⟩, ⟨5⟩]).iter, l.not ∉ (Cube.new [⟨3⟩, ⟨5⟩]).iter) ∧
    (systemOf counter true).isCubeInitial (Cube.new [⟨3⟩, ⟨5⟩]) = true ∧
    (systemOf counter true).isCubeInitial (Cube.new [⟨2⟩, ⟨5⟩]) = false := by decide +kernel
/-- A contradictory cube over a variable that is not a latch is called initial. -/
example : (systemOf counter true).isCubeInitial (Cube.new [⟨8⟩, ⟨9⟩]) = true := by decide +kernel

/-! ## C31: extract_state_from_assignment -/

/-- C31: with all latches valued, the result is the cube of the latch values. -/
theorem C31_extract (dbg : Bool) (h : Built f c ob) (a : Assignment) (u : Val)
    (hv : ∀ i, i < c.latches.length → a.getValue (c.latchVar i) = some (u (c.latchVar i))) :
    ∃ s, f.extractState dbg a = .ok s ∧
      (∀ v, s.holds v ↔ ∀ i, i < c.latches.length → v (c.latchVar i) = u (c.latchVar i)) ∧
      s.len = c.latches.length ∧ ∀ i, i < c.latches.length → ∃ l ∈ s.iter, l.number = c.latchVar i := by
  have hm : c.maxVar < 2147483648 := by have := h.1.encodable.max_lt; omega
  refine ⟨_, extractState_ok dbg h.laws hm hv, fun v => stateCube_holds, ?_, ?_⟩
  · have e : (stateCube c u).lits.length = _ := (sortBy_perm Literal.le _).length_eq
    rw [List.length_map, List.length_range'] at e
    exact e
  · intro i hi
    exact ⟨_, mem_stateCube.2 ⟨i, hi, rfl⟩, valueLit_number _ _⟩

/-- C31: if a latch has no value, the function panics at the `unwrap` of the missing value. -/
theorem C31_panics (dbg : Bool) (h : Built f c ob) (a : Assignment) (i : Nat) (hi : i < c.latches.length)
    (hv : a.getValue (c.latchVar i) = none) : f.extractState dbg a = .error (.panic "features.rs:107 unwrap") :=
  extractState_panic dbg h.laws (by have := h.1.encodable.max_lt; omega) hi hv

example : (systemOf counter true).extractState true ⟨[2, 3, 4], [1, 5]⟩ = .ok ⟨[⟨3⟩, ⟨4⟩, ⟨6⟩]⟩ := by decide +kernel
example : (systemOf counter true).extractState true ⟨[1], [2]⟩ = .error (.panic "features.rs:107 unwrap") := by decide +kernel

/-! ## C32, C33: cones of influence of the latches -/

/-- `s` fixes every latch. -/
def Full (c : Circuit) (s : Cube) : Prop := ∀ i, i < c.latches.length → ∃ l ∈ s.iter, l.number = c.latchVar i

theorem kept_agree {s : Cube} {k : List Nat} (hst : ∀ n ∈ k, ∃ i, i < c.latches.length ∧ n = c.latchVar i) (hF : Full c s) {v w : Val}
    (hv : s.holds v) (hw : (Cube.new (s.iter.filter (fun l => k.contains l.number))).holds w) : ∀ x ∈ k, v x = w x := by
  intro x hx
  obtain ⟨i, hi, rfl⟩ := hst x hx
  obtain ⟨l, hl, e⟩ := hF i hi
  rw [Cube.holds_new] at hw
  have h1 := hv l hl
  have h2 := hw l (by rw [List.mem_filter]; exact ⟨hl, by rw [e]; simpa using hx⟩)
  unfold Literal.holds at h1 h2
  rw [e] at h1 h2
  rw [h1, h2]

/-- C32: a state and any state in its reduced cube have, under equal inputs, the same successor. -/
theorem C32_successor (h : Built f c ob) (s : Cube) (hF : Full c s) (v w : Val) (hfv : c.Frame v) (hfw : c.Frame w)
    (hin : ∀ x, 1 ≤ x → x ≤ c.numInputs → v x = w x) (hv : s.holds v) (hw : (f.intersectTransition s).holds w) (v' : Val) :
    c.Step v v' ↔ c.Step w v' := by
  have hk := kept_agree (k := f.coneTransition) (fun n hn => (mem_states h.laws).1 ((h.laws.coneTransition n).1 hn).1) hF hv hw
  rw [← frame_trans h.1.wf hfv, ← frame_trans h.1.wf hfw]
  have key : ∀ (i : Nat) (p : Nat × Nat), c.latches[i]? = some p → litVal (c.evalVar v) p.1 = litVal (c.evalVar w) p.1 :=
    fun i p hp => transition_cone_indep h.laws h.1.wf hin hk hp
  constructor
  · intro ht i p hp; rw [ht i p hp, key i p hp]
  · intro ht i p hp; rw [ht i p hp, key i p hp]

/-- A latch (variable 2) that nothing reads is dropped. -/
def lazy : Circuit := ⟨0, [(3, 0), (2, 0)], [(4, 2)], [], [6], []⟩
theorem lazy_built : Built (systemOf lazy false) lazy false :=
  systemOf_built ⟨by decide, by decide, by decide, by decide, by decide⟩
    (supported_of (by decide) (by unfold Circuit.Small; decide) rfl (by decide))
example : Full lazy ⟨[⟨2⟩, ⟨5⟩]⟩ ∧ (systemOf lazy false).intersectTransition ⟨[⟨2⟩, ⟨5⟩]⟩ = ⟨[⟨2⟩]⟩ := by
  refine ⟨?_, by decide +kernel⟩
  intro i hi
  match i, hi with
  | 0, _ => exact ⟨⟨2⟩, by decide, by decide⟩
  | 1, _ => exact ⟨⟨5⟩, by decide, by decide⟩

/-- C33, as far as it is true: when every latch that is itself a bad literal is also read by a gate in the cone (in particular when no
bad literal is a latch), a state and any state in its reduced cube agree, under equal inputs, on every bad literal, hence on being bad.
Missing: the other circuits, where the claim is false (`C33_counterexample`, `C33_exact`). -/
theorem C33_partial (h : Built f c ob) (hl : c.Covered (badLits c ob)) (s : Cube)
    (hF : Full c s) (v w : Val) (hfv : c.Frame v) (hfw : c.Frame w) (hin : ∀ x, 1 ≤ x → x ≤ c.numInputs → v x = w x)
    (hv : s.holds v) (hw : (f.intersectSafety s).holds w) :
    (∀ b ∈ badLits c ob, litVal v b = litVal w b) ∧ (Circuit.BadNow (badLits c ob) v ↔ Circuit.BadNow (badLits c ob) w) := by
  have hb := badsOK_of h.1
  have hk := kept_agree (k := f.coneSafety) (fun n hn => (mem_states h.laws).1 ((h.laws.coneSafety n).1 hn).1) hF hv hw
  have key : ∀ b ∈ badLits c ob, litVal v b = litVal w b := fun b hbm => by
    rw [← frame_lit h.1.wf hfv (hb.lit b hbm), ← frame_lit h.1.wf hfw (hb.lit b hbm)]
    exact safety_cone_indep h.laws h.1.wf hb hl hin hk hbm
  refine ⟨key, ?_, ?_⟩
  · rintro ⟨b, h1, h2⟩; exact ⟨b, h1, by rw [← key b h1]; exact h2⟩
  · rintro ⟨b, h1, h2⟩; exact ⟨b, h1, by rw [key b h1]; exact h2⟩

/-- A circuit without a latch among its bad literals is covered. -/
theorem covered_of_noLatch {ls : List Nat} (hl : ∀ b ∈ ls, ∀ i, i < c.latches.length → b / 2 ≠ c.latchVar i) : c.Covered ls :=
  fun b hb i hi e => absurd e (hl b hb i hi)

/-- C33: the circuits of `C33_partial` are exactly those for which reducing a state keeps every bad literal. -/
theorem C33_exact (h : Built f c ob) : c.Covered (badLits c ob) ↔
    ∀ (s : Cube) (v w : Val), Full c s → c.Frame v → c.Frame w → (∀ x, 1 ≤ x → x ≤ c.numInputs → v x = w x) →
      s.holds v → (f.intersectSafety s).holds w → ∀ b ∈ badLits c ob, litVal v b = litVal w b := by
  constructor
  · exact fun hl s v w hF hfv hfw hin hv hw => (C33_partial h hl s hF v w hfv hfw hin hv hw).1
  · intro hall b hb i hi he
    refine Classical.byContradiction fun hn => ?_
    have hwf := h.1.wf
    have hlat : ∀ j, c.latchVar j = c.latchVar i → j = i := fun j e => by unfold Circuit.latchVar at e; omega
    have hv : ∀ j, j < c.latches.length → c.evalVar (fun _ => false) (c.latchVar j) = false := fun j hj => Circuit.evalVar_latch c _ hj
    have hw : ∀ j, j < c.latches.length → c.evalVar (fun x => x == c.latchVar i) (c.latchVar j) = (c.latchVar j == c.latchVar i) :=
      fun j hj => Circuit.evalVar_latch c _ hj
    have key := hall (stateCube c (c.evalVar fun _ => false)) (c.evalVar fun _ => false) (c.evalVar fun x => x == c.latchVar i)
      (fun j hj => ⟨_, mem_stateCube.2 ⟨j, hj, rfl⟩, valueLit_number _ _⟩) (Circuit.frame_evalVar hwf _) (Circuit.frame_evalVar hwf _) ?_
      (stateCube_holds.2 fun _ _ => rfl) ?_ b hb
    · unfold litVal at key
      rw [he, hv i hi, hw i hi] at key
      simp at key
    · intro x h1 h2
      have h3 : x < c.andVar 0 := by unfold Circuit.andVar; omega
      rw [Circuit.evalVar_base c _ (by omega) h3, Circuit.evalVar_base c _ (by omega) h3]
      have : x ≠ c.latchVar i := by unfold Circuit.latchVar; omega
      simp [this]
    · unfold intersectSafety
      rw [Cube.holds_new]
      intro l hl
      obtain ⟨hl, hk⟩ := List.mem_filter.1 hl
      obtain ⟨j, hj, rfl⟩ := mem_stateCube.1 hl
      rw [valueLit_number] at hk
      obtain ⟨j', hj', e, hr⟩ := (mem_coneSafety h.laws hwf).1 (by simpa using hk)
      obtain rfl : j = j' := by unfold Circuit.latchVar at e; omega
      rw [valueLit_holds, hv j hj, hw j hj]
      have : c.latchVar j ≠ c.latchVar i := fun e => hn (hlat j e ▸ hr)
      simpa using this

example : Built (systemOf lazy false) lazy false ∧ lazy.Covered (badLits lazy false) :=
  ⟨lazy_built, covered_of_noLatch (by decide)⟩

/-- Latch 1 keeps its reset value 0, latch 2 toggles, and the gate is `latch 1 ∧ latch 2`; bad literals: latch 1 and the gate. -/
def seen : Circuit := ⟨0, [(2, 0), (5, 0)], [(4, 2)], [], [2, 6], []⟩
theorem seen_built : Built (systemOf seen false) seen false :=
  systemOf_built ⟨by decide, by decide, by decide, by decide, by decide⟩
    (supported_of (by decide) (by unfold Circuit.Small; decide) rfl (by decide))
/-- A latch among the bad literals, and still covered. -/
theorem seen_covered : seen.Covered (badLits seen false) := by
  intro b hb i hi he
  refine ⟨0, (4, 2), rfl, .root (l := 6) (by decide) (by decide) (by decide), by decide, by decide, ?_⟩
  match i, hi with
  | 0, _ => exact .inr (by decide)
  | 1, _ => exact .inl (by decide)
example : (systemOf seen false).intersectSafety ⟨[⟨2⟩, ⟨5⟩]⟩ = ⟨[⟨2⟩, ⟨5⟩]⟩ := by decide +kernel

/-- One latch that rises after one clock and is itself the bad literal. -/
def latchBad : Circuit := ⟨0, [(1, 0)], [], [], [2], []⟩
theorem latchBad_built : Built (systemOf latchBad false) latchBad false :=
  systemOf_built ⟨by decide, by decide, by decide, by decide, by decide⟩
    (supported_of (by decide) (by unfold Circuit.Small; decide) rfl (by decide))

/-- C33 fails in general: the bad state's reduced cube is empty, so it also contains the good state. -/
theorem C33_counterexample : ∃ (f : Fsts) (c : Circuit) (s : Cube) (v w : Val), Built f c false ∧ Full c s ∧ c.Frame v ∧ c.Frame w ∧
    (∀ x, 1 ≤ x → x ≤ c.numInputs → v x = w x) ∧ s.holds v ∧ (f.intersectSafety s).holds w ∧
    Circuit.BadNow (badLits c false) v ∧ ¬ Circuit.BadNow (badLits c false) w := by
  refine ⟨systemOf latchBad false, latchBad, ⟨[⟨2⟩]⟩, fun x => x == 1, fun _ => false, latchBad_built, ?_, ?_, ?_, ?_, ?_, ?_, ?_, ?_⟩
  · intro i hi
    match i, hi with
    | 0, _ => exact ⟨⟨2⟩, by decide, by decide⟩
  · exact ⟨by decide, fun i p hp => by simp [latchBad] at hp⟩
  · exact ⟨by decide, fun i p hp => by simp [latchBad] at hp⟩
  · intro x h1 h2; have : x ≤ 0 := h2; omega
  · intro l hl; simp [Cube.iter] at hl; subst hl; decide
  · have e : (systemOf latchBad false).intersectSafety ⟨[⟨2⟩]⟩ = ⟨[]⟩ := by decide +kernel
    rw [e]; intro l hl; simp [Cube.iter] at hl
  · exact ⟨2, by decide, by decide⟩
  · rintro ⟨b, hb, hv⟩
    have : b = 2 := by simpa [badLits, latchBad] using hb
    subst this; revert hv; decide

/-! ## C34: check_invariant -/

/-- C34 (sound): if `check_invariant` returns for a candidate over the circuit's variables, the circuit is safe. -/
theorem C34_sound (dbg : Bool) (env : Env) (he : env.Correct) (h : Built f c ob) (hs : c.Small) (inv : CNF) (hi : inv.WF)
    (hn : ∀ d ∈ inv.clauses, ∀ l ∈ d.lits, 1 ≤ l.number ∧ l.number ≤ c.maxVar) (t t' : Nat)
    (hc : f.checkInvariant dbg env inv t = .ok ((), t')) : c.Safe (badLits c ob) :=
  checkInvariant_sound dbg he h.laws h.1.wf (badsOK_of h.1) hs ⟨hi, hn⟩ hc

/-- C34 (complete): it returns for every candidate over inputs and latches that holds in all reset states, is preserved by every
clock, and excludes bad states. -/
theorem C34_complete (dbg : Bool) (env : Env) (he : env.Correct) (h : Built f c ob) (hs : c.Small) (inv : CNF) (hi : inv.WF)
    (hn : ∀ d ∈ inv.clauses, ∀ l ∈ d.lits, 1 ≤ l.number ∧ l.number ≤ c.numInputs + c.latches.length)
    (h1 : ∀ v, c.Frame v → c.Init v → inv.holds v)
    (h2 : ∀ v v', c.Frame v → c.Frame v' → c.Step v v' → inv.holds v → inv.holds v')
    (h3 : ∀ v, c.Frame v → inv.holds v → ¬ Circuit.BadNow (badLits c ob) v) (t : Nat) :
    ∃ t', f.checkInvariant dbg env inv t = .ok ((), t') := by
  have hw := h.1.wf
  have hbase : ∀ d ∈ inv.clauses, ∀ l ∈ d.lits, BaseLit c l := fun d hd l hl => by
    have := hn d hd l hl
    exact ⟨this.1, by unfold Circuit.andVar; omega⟩
  have hE : ∀ v, inv.holds (c.evalVar v) ↔ inv.holds v := by
    intro v
    have hs := Circuit.sameBase_evalVar c v
    constructor
    · intro g d hd
      obtain ⟨l, hl, hlv⟩ := g d hd
      exact ⟨l, hl, ((hbase d hd l hl).holds_congr hs).1 hlv⟩
    · intro g d hd
      obtain ⟨l, hl, hlv⟩ := g d hd
      exact ⟨l, hl, ((hbase d hd l hl).holds_congr hs).2 hlv⟩
  refine checkInvariant_complete dbg he h.laws hw (badsOK_of h.1) hs hi hbase ?_ ?_ ?_ t
  · intro v hv
    exact (hE v).1 (h1 _ (Circuit.frame_evalVar hw v) (hv.congr fun i hi => (Circuit.evalVar_latch c v hi).symm))
  · intro v v' hv ht
    refine (hE v').1 (h2 _ _ (Circuit.frame_evalVar hw v) (Circuit.frame_evalVar hw v') ?_ ((hE v).2 hv))
    intro i p hp
    rw [Circuit.evalVar_latch c v' (getElem?_lt hp)]
    exact ht i p hp
  · intro v hv
    exact h3 _ (Circuit.frame_evalVar hw v) ((hE v).2 hv)

/-- C34 (exact): for a candidate over inputs, latches and the gates the bad literals depend on, it returns if and only if the candidate
holds in all reset states, is preserved by every clock, and excludes bad states. -/
theorem C34_exact (dbg : Bool) (env : Env) (he : env.Correct) (h : Built f c ob) (hs : c.Small) (inv : CNF) (hi : inv.WF)
    (hn : ∀ d ∈ inv.clauses, ∀ l ∈ d.lits, 1 ≤ l.number ∧ l.number ≤ c.maxVar ∧
      ∀ i, i < c.ands.length → l.number = c.andVar i → c.InCone (badLits c ob) i) (t : Nat) :
    (∃ t', f.checkInvariant dbg env inv t = .ok ((), t')) ↔
      (∀ v, c.Frame v → c.Init v → inv.holds v) ∧
      (∀ v v', c.Frame v → c.Frame v' → c.Step v v' → inv.holds v → inv.holds v') ∧
      (∀ v, c.Frame v → inv.holds v → ¬ Circuit.BadNow (badLits c ob) v) := by
  have hw := h.1.wf
  have hb := badsOK_of h.1
  have hone := OneFrame.of_cone hi hn
  have hE : ∀ {v}, c.Frame v → (inv.holds (c.evalVar v) ↔ inv.holds v) := fun hv =>
    ⟨hone.holds_congr fun x _ hx => Circuit.frame_eval_eq hw hv hx, hone.holds_congr fun x _ hx => (Circuit.frame_eval_eq hw hv hx).symm⟩
  rw [checkInvariant_exact dbg he h.laws hw hb hs hi hn t]
  refine ⟨fun ⟨h1, h2, h3⟩ => ⟨?_, ?_, ?_⟩, fun ⟨h1, h2, h3⟩ => ⟨?_, ?_, ?_⟩⟩
  · intro v hv hI; exact (hE hv).1 (h1 v hI)
  · intro v v' hv hv' hst hinv; exact (hE hv').1 (h2 v v' ((hE hv).2 hinv) ((frame_trans hw hv).2 hst))
  · intro v hv hinv hbad; exact h3 v ((hE hv).2 hinv) ((frame_bad hw hb.lit hv).2 hbad)
  · intro v hI
    exact h1 _ (Circuit.frame_evalVar hw v) (hI.congr fun i hi => (Circuit.evalVar_latch c v hi).symm)
  · intro v v' hv ht
    refine h2 _ _ (Circuit.frame_evalVar hw v) (Circuit.frame_evalVar hw v') ?_ hv
    intro i p hp
    rw [Circuit.evalVar_latch c v' (getElem?_lt hp)]
    exact ht i p hp
  · intro v hv; exact h3 _ (Circuit.frame_evalVar hw v) hv

/-- C34: an accepted candidate, over whatever variables of the circuit, holds at every clock of every execution. -/
theorem C34_holds (dbg : Bool) (env : Env) (he : env.Correct) (h : Built f c ob) (hs : c.Small) (inv : CNF) (hi : inv.WF)
    (hn : ∀ d ∈ inv.clauses, ∀ l ∈ d.lits, 1 ≤ l.number ∧ l.number ≤ c.maxVar) (t t' : Nat)
    (hc : f.checkInvariant dbg env inv t = .ok ((), t')) (w : Nat → Val) (d : Nat) (hE : c.Exec w d) : inv.holds (w d) :=
  checkInvariant_exec dbg he h.laws h.1.wf (badsOK_of h.1) hs ⟨hi, hn⟩ hc hE

/-- `lazy` is safe: "latch 2 is 0 or latch 1 is 0" holds initially and is preserved; the exhaustive solver accepts it. -/
example : ((systemOf lazy false).checkInvariant true Brute.env ⟨2, [⟨[⟨3⟩, ⟨5⟩]⟩]⟩ 0).isOk = true := by decide +kernel
example : ((systemOf latchBad false).checkInvariant true Brute.env ⟨1, [⟨[⟨3⟩]⟩]⟩ 0).isOk = false := by decide +kernel

/-- Two gates that are always 0, computed from a latch that stays 0; only the first one is a bad literal. -/
def twoGates : Circuit := ⟨0, [(2, 0)], [(2, 2), (3, 2)], [], [4], []⟩
theorem twoGates_built : Built (systemOf twoGates false) twoGates false :=
  systemOf_built ⟨by decide, by decide, by decide, by decide, by decide⟩
    (supported_of (by decide) (by unfold Circuit.Small; decide) rfl (by decide))

/-- "The first gate is 0" is accepted.  "The latch and the second gate are 0" holds in every execution and is rejected: the formulas do not say what
gates compute that no bad literal depends on, so `C34_exact` does not extend to such candidates. -/
example : ((systemOf twoGates false).checkInvariant true Brute.env ⟨2, [⟨[⟨5⟩]⟩]⟩ 0).isOk = true := by decide +kernel
example : ((systemOf twoGates false).checkInvariant true Brute.env ⟨3, [⟨[⟨3⟩]⟩, ⟨[⟨7⟩]⟩]⟩ 0).isOk = false := by decide +kernel
example (w : Nat → Val) (d : Nat) (hE : twoGates.Exec w d) : (⟨3, [⟨[⟨3⟩]⟩, ⟨[⟨7⟩]⟩]⟩ : CNF).holds (w d) := by
  have h0 : ∀ t, t ≤ d → w t 1 = false := by
    intro t
    induction t with
    | zero => intro _; exact (hE.init 0 _ rfl).1 rfl
    | succ t ih =>
      intro ht
      have := hE.step t (by omega) 0 _ rfl
      have e : litVal (w t) 2 = w t 1 := by simp [litVal]
      rw [e, ih (by omega)] at this
      exact this
  have h1 := h0 d (Nat.le_refl _)
  have h2 := (hE.frame d (Nat.le_refl _)).2 1 _ rfl
  have e2 : w d 3 = false := by
    have e : w d (twoGates.andVar 1) = w d 3 := rfl
    rw [← e, h2]
    simp [litVal, h1]
  intro x hx
  rcases List.mem_cons.1 hx with rfl | hx
  · exact ⟨⟨3⟩, List.Mem.head _, by simp [Literal.holds, Literal.number, Literal.isNegated, h1]⟩
  · rcases List.mem_cons.1 hx with rfl | hx
    · exact ⟨⟨7⟩, List.Mem.head _, by simp [Literal.holds, Literal.number, Literal.isNegated, e2]⟩
    · cases hx

end Verif.Props
