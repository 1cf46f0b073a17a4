import Verif.Proofs.FstsRelease
import Verif.Proofs.PdrVerdict
import Verif.Proofs.Stateful
import Verif.Model.Bmc

/-! # Release builds on a clause with variable 0 -/

namespace Verif

namespace Fsts

theorem bumpLiteral_release_cases (n : Nat) (l : Literal) :
    (l.number ≠ 0 ∧ ∃ r, bumpLiteral false n l = .ok r) ∨ (l.number = 0 ∧ bumpLiteral false n l = .error (.panic "features.rs:27")) := by
  unfold bumpLiteral assertR
  by_cases h : l.number = 0
  · exact .inr ⟨h, by simp [h, panicR, bind, Except.bind]⟩
  · refine .inl ⟨h, ?_⟩
    have e : (l.number != 0) = true := by simp [h]
    rw [e, if_pos rfl]
    have e2 : ∃ m, u32Add false "features.rs:29 overflow" l.number n = .ok m := by
      unfold u32Add; split
      · exact ⟨_, rfl⟩
      · exact ⟨_, rfl⟩
    obtain ⟨m, e2⟩ := e2
    rw [e2]
    show ∃ r, (do
      let newLit ← Literal.new false m
      return newLit.negateIfTrue l.isNegated : Res Literal) = .ok r
    rw [new_release]
    exact ⟨_, rfl⟩

theorem mapM_bump_release (n : Nat) (ls : List Literal) :
    ((∀ l ∈ ls, l.number ≠ 0) ∧ ∃ r, ls.mapM (bumpLiteral false n) = .ok r) ∨
      ((∃ l ∈ ls, l.number = 0) ∧ ls.mapM (bumpLiteral false n) = .error (.panic "features.rs:27")) := by
  induction ls with
  | nil => exact .inl ⟨by simp, [], rfl⟩
  | cons l ls ih =>
    rw [List.mapM_cons]
    rcases bumpLiteral_release_cases n l with ⟨h, r, e⟩ | ⟨h, e⟩
    · rw [e]
      rcases ih with ⟨h2, r2, e2⟩ | ⟨h2, e2⟩
      · exact .inl ⟨by simpa [h] using h2, _, by rw [e2]; rfl⟩
      · exact .inr ⟨by obtain ⟨x, hx, h0⟩ := h2; exact ⟨x, List.mem_cons_of_mem _ hx, h0⟩, by rw [e2]; rfl⟩
    · exact .inr ⟨⟨l, List.mem_cons_self .., h⟩, by rw [e]; rfl⟩

theorem bumpClause_release_cases (d : Clause) (n : Nat) :
    ((∀ l ∈ d.iter, l.number ≠ 0) ∧ ∃ r, bumpClause false d n = .ok r) ∨
      ((∃ l ∈ d.iter, l.number = 0) ∧ bumpClause false d n = .error (.panic "features.rs:27")) := by
  unfold bumpClause
  rcases mapM_bump_release n d.iter with ⟨h, r, e⟩ | ⟨h, e⟩
  · exact .inl ⟨h, _, by rw [e]; rfl⟩
  · exact .inr ⟨h, by rw [e]; rfl⟩

theorem foldlM_bump_release (n : Nat) (cs : List Clause) (g : CNF) (h : ∃ d ∈ cs, ∃ l ∈ d.iter, l.number = 0) :
    cs.foldlM (fun acc c => do return acc.addClause (← bumpClause false c n)) g = (.error (.panic "features.rs:27") : Res CNF) := by
  induction cs generalizing g with
  | nil => simp at h
  | cons d cs ih =>
    rw [List.foldlM_cons]
    rcases bumpClause_release_cases d n with ⟨h2, r, e⟩ | ⟨_, e⟩
    · rw [e]
      refine ih _ ?_
      obtain ⟨x, hx, l, hl, h0⟩ := h
      rcases List.mem_cons.1 hx with rfl | hx
      · exact absurd h0 (h2 l hl)
      · exact ⟨x, hx, l, hl, h0⟩
    · rw [e]; rfl

/-- A formula that mentions variable 0 cannot be moved to another frame, not even by a release build. -/
theorem addTags_zero {f : Fsts} {g : CNF} {tags : Nat} (hm : 0 < f.maxLiteral * tags) (hlt : f.maxLiteral * tags < 4294967296)
    (h : ∃ d ∈ g.clauses, ∃ l ∈ d.lits, l.number = 0) : f.addTagsToRelation false g tags = .error (.panic "features.rs:27") := by
  unfold addTagsToRelation u32Mul
  rw [if_pos (by show _ < 4294967296; exact hlt)]
  show bumpCnf false g _ = _
  unfold bumpCnf
  have e : (f.maxLiteral * tags == 0) = false := by simpa using Nat.pos_iff_ne_zero.1 hm
  rw [e]
  exact foldlM_bump_release _ _ _ h

variable {f : Fsts} {c : Circuit} {bads : List Nat}

theorem zero_mem (h : f.unsafety = Clause.new (bads.map Literal.mk)) {b : Nat} (hb : b ∈ bads) (hlt : b < 2) : ∃ l ∈ f.unsafety.lits, l.number = 0 := by
  refine ⟨⟨b⟩, ?_, ?_⟩
  · rw [h, Clause.mem_new]; exact List.mem_map.2 ⟨b, hb, rfl⟩
  · show b / 2 = 0; omega

/-- Variable 0 is free, so a constant bad literal can be made true in an initial state. -/
theorem bad_possible (h : Laws f c bads) (hw : c.WF) {b : Nat} (hb : b ∈ bads) (hlt : b < 2) :
    ∃ v, f.initialStates.holds v ∧ f.stateToSafety.holds v ∧ f.unsafety.holds v := by
  obtain ⟨u, hu⟩ := Circuit.exists_init c
  refine ⟨fun x => if x = 0 then b == 0 else c.evalVar u x, (initial_holds h).2 ?_, safety_complete h hw (v := u) fun x hx _ => ?_,
    (unsafety_holds h).2 ⟨b, hb, ?_⟩⟩
  · intro i p hp
    have hi : i < c.latches.length := (List.getElem?_eq_some_iff.1 hp).1
    have e : c.latchVar i ≠ 0 := by unfold Circuit.latchVar; omega
    show (_ → (if c.latchVar i = 0 then _ else _) = _) ∧ (_ → (if c.latchVar i = 0 then _ else _) = _)
    rw [if_neg e, Circuit.evalVar_latch c u hi]
    exact hu i p hp
  · show (if x = 0 then _ else _) = _
    rw [if_neg (by omega)]
  · have : b = 0 ∨ b = 1 := by omega
    rcases this with rfl | rfl <;> rfl

end Fsts

theorem CNF.WF.max_le {f : CNF} (h : f.WF) {V : Nat} (hV : ∀ d ∈ f.clauses, ∀ l ∈ d.lits, l.number ≤ V) : f.maxVar ≤ V := by
  rcases h.attained with h0 | ⟨c, hc, l, hl, e⟩
  · omega
  · rw [← e]; exact hV c hc l hl

namespace PDR

open Fsts

variable {f : Fsts} {c : Circuit} {bads : List Nat}

/-- What `prove` does if the first query can be answered with a model. -/
theorem run_first (I : StatefulImpl) (sched : Sched) (f : Fsts) (fuel : Nat) {a b t a' : I.S} {m : Assignment}
    (e1 : I.addCnf (formulas f).initialAndNotP I.new = .ok a) (e2 : I.addCnf (formulas f).initial I.new = .ok b)
    (e3 : I.addCnf (formulas f).initialAndT I.new = .ok t) (e4 : I.solve 0 none none a = .ok (.sat m, a')) :
    run false I sched f (fuel + 1) = (match f.extractState false m with
      | .ok _ => .ok (.ctx 0)
      | .error e => .error e) := by
  have hpush (z : Cube) : PQueue.push [] (⟨z, .ok 0⟩ : TCube) 0 = [(⟨z, .ok 0⟩, 0)] := rfl
  have hpop (z : Cube) (n : Nat) : PQueue.pop [((⟨z, .ok 0⟩ : TCube), 0)] n = some ((⟨z, .ok 0⟩, 0), []) := by
    simp [PQueue.pop, PQueue.best, Nat.mod_one]
  cases he : f.extractState false m with
  | ok z =>
    simp [run, prove, newFrame, newFrameSolvers, checkLengths, mainLoop, getBadCube, depth, call, fresh, recBlockCube, blockQueue, hpush, hpop,
      St.sols, St.setSols, indexR, unwrapR, swapAt, debugAssertR, depthU32, u32Size, e1, e2, e3, e4, he, bind, pure, StateT.bind, StateT.pure,
      Except.bind, Except.pure, get, getThe, set, MonadStateOf.get, MonadStateOf.set, StateT.get, StateT.set, liftM, monadLift, MonadLift.monadLift,
      StateT.lift]
  | error e =>
    simp [run, prove, newFrame, newFrameSolvers, checkLengths, mainLoop, getBadCube, depth, call, fresh,
      St.sols, St.setSols, indexR, unwrapR, swapAt, debugAssertR, e1, e2, e3, e4, he, bind, pure, StateT.bind, StateT.pure,
      Except.bind, Except.pure, get, getThe, set, MonadStateOf.get, MonadStateOf.set, StateT.get, StateT.set, liftM, monadLift, MonadLift.monadLift,
      StateT.lift]

/-- The formulas the first solvers get. -/
theorem first_wf (h : Laws f c bads) (hw : c.WF) (hb : ∀ b ∈ bads, c.LitOK b) {V : Nat} (hV : c.maxVar ≤ V)
    (hL : ∀ i, i < c.latches.length → c.latchVar i + c.maxVar ≤ V) :
    ∀ g ∈ [(formulas f).initialAndNotP, (formulas f).initial, (formulas f).initialAndT], g.WF ∧ g.maxVar ≤ V := by
  have hI : f.initialStates.toCnf.Ready V := Cube.toCnf_ready (initial_good_le h hV)
  have hT : f.transition.Ready V := transition_ready_enc h hw hV hL
  have hS : f.stateToSafety.Ready V := h.safety_wf.ready fun d hd l hl => by
    have := safety_number h hw hd hl; exact ⟨this.1, by omega⟩
  have hIT : ((CNF.new.append f.initialStates.toCnf).append f.transition).Ready V := (CNF.Ready.new.append hI).append hT
  have hIS : ((CNF.new.append f.initialStates.toCnf).append f.stateToSafety).Ready V := (CNF.Ready.new.append hI).append hS
  have hN : (((CNF.new.append f.initialStates.toCnf).append f.stateToSafety).addClause f.unsafety).WF := hIS.wf.addClause (unsafety_sorted h)
  intro g hg
  simp only [List.mem_cons, List.not_mem_nil, or_false] at hg
  rcases hg with rfl | rfl | rfl
  · refine ⟨hN, hN.max_le fun d hd l hl => ?_⟩
    rcases CNF.mem_addClause.1 hd with hd | rfl
    · exact (hIS.good d hd l hl).2
    · rw [h.unsafety, Clause.mem_new] at hl
      obtain ⟨b, hbm, rfl⟩ := List.mem_map.1 hl
      have : b / 2 ≤ c.maxVar := hb b hbm
      rw [literal_number_mk]; omega
  · exact ⟨hI.wf, hI.max_le⟩
  · exact ⟨hIT.wf, hIT.max_le⟩

/-- PDR on a system with a constant bad literal, for solver objects that answer a first query about well-formed formulas correctly. -/
theorem run_constant (h : Laws f c bads) (hw : c.WF) (hb : ∀ b ∈ bads, c.LitOK b) (hm : c.maxVar < 2147483648) {V : Nat} (hV : c.maxVar ≤ V)
    (hL : ∀ i, i < c.latches.length → c.latchVar i + c.maxVar ≤ V) {b : Nat} (hbm : b ∈ bads) (hlt : b < 2) {I : StatefulImpl} (sched : Sched)
    (hI : ∀ g : CNF, g.WF → g.maxVar ≤ V → ∃ s, I.addCnf g I.new = .ok s ∧ ∃ r s', I.solve 0 none none s = .ok (r, s') ∧
      QueryCorrect g.iter none none r ∧ QueryTotal g.iter none none r) (fuel : Nat) :
    run false I sched f (fuel + 1) = .ok (.ctx 0) ∨
      (run false I sched f (fuel + 1) = .error (.panic "features.rs:107 unwrap") ∧ (∀ b ∈ bads, b / 2 < c.andVar 0) ∧
        ∃ p ∈ c.latches, 2 ≤ p.2) := by
  have hF := first_wf h hw hb hV hL
  obtain ⟨a, e1, r, a', e4, hq, ht⟩ := hI _ (hF (formulas f).initialAndNotP (by simp)).1 (hF (formulas f).initialAndNotP (by simp)).2
  obtain ⟨s2, e2, -⟩ := hI _ (hF (formulas f).initial (by simp)).1 (hF (formulas f).initial (by simp)).2
  obtain ⟨s3, e3, -⟩ := hI _ (hF (formulas f).initialAndT (by simp)).1 (hF (formulas f).initialAndT (by simp)).2
  cases r with
  | unsat =>
    obtain ⟨v, h1, h2, h3⟩ := bad_possible h hw hbm hlt
    refine absurd ⟨?_, trivial, trivial⟩ (hq v)
    have : (formulas f).initialAndNotP.holds v :=
      CNF.holds_addClause.2 ⟨CNF.holds_append.2 ⟨CNF.holds_append.2 ⟨fun d hd => by simp [CNF.new, CNF.iter] at hd, Cube.toCnf_holds.2 h1⟩, h2⟩, h3⟩
    exact this
  | sat m =>
    rw [run_first I sched f fuel e1 e2 e3 e4]
    by_cases hall : ∀ i, i < c.latches.length → (m.getValue (c.latchVar i)).isSome
    · refine .inl ?_
      rw [extractState_ok false h hm (u := fun n => (m.getValue n).getD false) fun i hi => ?_]
      obtain ⟨x, hx⟩ := Option.isSome_iff_exists.1 (hall i hi)
      rw [hx]; rfl
    · refine .inr ?_
      obtain ⟨i, hi, hn⟩ : ∃ i, i < c.latches.length ∧ m.getValue (c.latchVar i) = none := by
        refine Classical.byContradiction fun hc => hall fun i hi => ?_
        cases hg : m.getValue (c.latchVar i) with
        | some x => rfl
        | none => exact absurd ⟨i, hi, hg⟩ hc
      refine ⟨by rw [extractState_panic false h hm hi hn], fun b' hb' => ?_, ?_⟩
      · refine Classical.byContradiction fun hge => ?_
        have := ht ⟨b'⟩ (.inl ⟨f.unsafety, CNF.mem_addClause.2 (.inr rfl), by
          show _ ∈ f.unsafety.lits
          rw [h.unsafety, Clause.mem_new]; exact List.mem_map.2 ⟨b', hb', rfl⟩⟩) (c.latchVar i)
          (by unfold Circuit.latchVar; omega) (by rw [literal_number_mk]; unfold Circuit.latchVar; unfold Circuit.andVar at hge; omega)
        rw [hn] at this; cases this
      · refine Classical.byContradiction fun hno => ?_
        have hlen : c.latches[i]? = some c.latches[i] := List.getElem?_eq_getElem hi
        have hr : c.latches[i].2 < 2 := Classical.byContradiction fun h2 => hno ⟨_, List.getElem_mem hi, by omega⟩
        obtain ⟨l, hl, hnum⟩ : ∃ l ∈ f.initialStates.lits, l.number = c.latchVar i := by
          have : c.latches[i].2 = 0 ∨ c.latches[i].2 = 1 := by omega
          rcases this with h0 | h1
          · exact ⟨_, (mem_initial h).2 ⟨i, _, hlen, .inl ⟨h0, rfl⟩⟩, by rw [literal_number_mk]; omega⟩
          · exact ⟨_, (mem_initial h).2 ⟨i, _, hlen, .inr ⟨h1, rfl⟩⟩, by rw [literal_number_mk]; omega⟩
        have hmem : Clause.new [l] ∈ f.initialStates.toCnf.clauses := by
          unfold Cube.toCnf
          exact (Cube.foldl_toCnf_mem _ _ _).2 (.inr ⟨l, hl, rfl⟩)
        have := ht l (.inl ⟨Clause.new [l], CNF.mem_addClause.2 (.inl (CNF.mem_append.2 (.inl (CNF.mem_append.2 (.inr hmem))))), by
          show l ∈ (Clause.new [l]).lits
          rw [Clause.mem_new]; simp⟩) (c.latchVar i) (by unfold Circuit.latchVar; omega) (by omega)
        rw [hn] at this; cases this

end PDR

end Verif
