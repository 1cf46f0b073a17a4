import Verif.Proofs.Query
import Verif.Proofs.FormulaLogic

/-! # `IC3Stateless` meets the contract -/

namespace Verif.IC3.Stateless

open Fsts

variable {f : Fsts} {c : Circuit} {bads : List Nat} {env : Env} {sched : Sched} {fm : Formulas} {dbg : Bool} {F : Err → Prop}

/-- The state represents the frames it holds. -/
def Inv (s : Stateless) (fs : List CNF) : Prop := s.clauses = fs

theorem next_spec (fs : List CNF) : GTri F Inv fs next (fun _ fs' => fs' = fs) := fun s hs => ⟨fs, hs, rfl⟩

theorem satCall_spec (he : env.OK) {g : CNF} (hg : g.Ready) (fs : List CNF) :
    GTri F Inv fs (satCall env g) (fun r fs' => fs' = fs ∧ AnswerOK g r) := by
  refine GTri.bind (next_spec fs) ?_
  rintro t fs rfl
  obtain ⟨r, hr, ha⟩ := he.solve t g hg.wf hg.good
  exact GTri.lift_ok hr ⟨rfl, ha⟩

theorem getFk_spec {fs : List CNF} {k : Nat} (hk : k < fs.length) :
    GTri F Inv fs (getFk fm k) (fun g fs' => fs' = fs ∧ g = (fr fs k).append (if k = 0 then fm.initial else fm.p0)) := by
  intro s hs
  have e : getFk fm k s = .ok ((fr fs k).append (if k = 0 then fm.initial else fm.p0), s) := by
    have hs' : s.clauses = fs := hs
    show (do let g ← (liftM (indexR "ic3_stateless_solver.rs:102 index" s.clauses k) : StateT Stateless Res CNF)
             pure (g.append (if k = 0 then fm.initial else fm.p0)) : StateT Stateless Res CNF) s = _
    unfold indexR
    rw [hs', fr_get hk]
    rfl
  rw [e]
  exact ⟨fs, hs, rfl, rfl⟩

/-- The contract. -/
def contract (S : SmallSys f c bads) (he : env.OK) (hsched : sched.OK) (hfm : FormsOK f c bads fm) :
    Contract (stateless dbg env sched f fm) c bads F where
  Inv := Inv
  laws := S.laws
  wf := S.wf
  bad := S.bad
  range := by have := S.small; unfold Circuit.Small at this; omega
  sched := hsched
  clauses := fun h => h
  tick := next_spec
  addClause := by
    intro fs i d _ _ hi _ s hs
    have e : Stateless.addClause i d s = .ok ((), { s with clauses := fs.set i ((fr fs i).addClause d) }) := by
      have hs' : s.clauses = fs := hs
      show (do let g ← (liftM (indexR "ic3_stateless_solver.rs:229 index" s.clauses i) : StateT Stateless Res CNF)
               set { s with clauses := s.clauses.set i (g.addClause d) } : StateT Stateless Res Unit) s = _
      unfold indexR
      rw [hs', fr_get hi]
      rfl
    show Post _ _ (Stateless.addClause i d s)
    rw [e]
    exact ⟨_, rfl, rfl⟩
  pushFrame := by
    intro fs _ s hs
    have hs' : s.clauses = fs := hs
    exact ⟨fs ++ [CNF.new], by show s.clauses ++ [CNF.new] = _; rw [hs'], rfl⟩
  enterFrame := by
    intro fs k _ _ hlen s hs
    have hs' : s.clauses = fs := hs
    have e : (stateless dbg env sched f fm).enterFrame k s = .ok ((), s) := by
      show (liftM (debugAssertR dbg "ic3_stateless_solver.rs:420" (s.clauses.length == k + 2)) : StateT Stateless Res Unit) s = _
      cases dbg with
      | false => rfl
      | true => rw [hs', hlen rfl]; simp [debugAssertR, assertR]; rfl
    rw [e]
    exact ⟨fs, hs, rfl⟩
  badIn0 := by
    intro fs
    have h1 : Enc c ((CNF.new.append fm.initial).append fm.notP0) (fun v => c.Init v ∧ c.BadAt bads v) := by
      refine (((Enc.base (c := c) CNF.WF.new (by simp [CNF.new])).append (by rw [hfm.initial]; exact Enc.initial S.laws)).append
        hfm.notP0).congr fun v => ?_
      simp [CNF.new, CNF.holds, CNF.iter]
    refine (satCall_spec he (h1.ready S.small) fs).mono ?_
    rintro r fs' ⟨rfl, ha⟩
    refine ⟨rfl, (ha.enc h1).trans ?_⟩
    exact ⟨fun h v a b => h v ⟨a, b⟩, fun h v hv => h v hv.1 hv.2⟩
  badIn1 := by
    intro fs
    have h1 : Enc c fm.initial c.Init := by rw [hfm.initial]; exact Enc.initial S.laws
    have hr : (((CNF.new.append fm.initial).append fm.transition).append fm.notP1).Ready := by
      rw [hfm.transition, hfm.notP1]
      exact ((CNF.Ready.new.append (h1.ready S.small)).append (transition_ready S.laws S.wf S.small)).append
        (hfm.notP0.shift_ready S.small)
    refine (satCall_spec he hr fs).mono ?_
    rintro r fs' ⟨rfl, ha⟩
    have := Ans.step_iff S.laws S.wf h1 hfm.notP0 (H := fun w => (((CNF.new.append fm.initial).append fm.transition).append fm.notP1).holds w)
      (fun w => by
        rw [CNF.holds_append, CNF.holds_append, CNF.holds_append, hfm.transition, hfm.notP1]
        simp [CNF.new, CNF.holds, CNF.iter, and_assoc])
      (Ans.of_answer S.laws hr (fun d hd => by rw [CNF.mem_append, CNF.mem_append, hfm.transition]; exact .inl (.inr hd)) ha)
    exact ⟨rfl, this⟩
  badFrom := by
    intro fs k hok hk
    have h1 := hfm.enc S.laws hok k
    refine GTri.bind (getFk_spec hk) ?_
    rintro g fs ⟨rfl, rfl⟩
    have hr : (((CNF.new.append ((fr fs k).append (if k = 0 then fm.initial else fm.p0))).append fm.transition).append fm.notP1).Ready := by
      rw [hfm.transition, hfm.notP1]
      exact ((CNF.Ready.new.append (h1.ready S.small)).append (transition_ready S.laws S.wf S.small)).append
        (hfm.notP0.shift_ready S.small)
    refine (satCall_spec he hr fs).mono ?_
    rintro r fs ⟨rfl, ha⟩
    refine ⟨rfl, Ans.step S.laws S.wf h1 hfm.notP0 (fun w => ?_) (Ans.of_answer S.laws hr (fun d hd => ?_) ha)⟩
    · rw [CNF.holds_append (f := CNF.append _ _), CNF.holds_append (f := CNF.append _ _), CNF.holds_append (f := CNF.new), hfm.transition, hfm.notP1]
      simp only [CNF.new, CNF.holds, CNF.iter, List.not_mem_nil, false_implies, implies_true, true_and, and_assoc]
    · rw [CNF.mem_append, CNF.mem_append, hfm.transition]; exact .inl (.inr hd)
  cubeReach := by
    intro fs i s hok hi hs
    have h1 := hfm.enc S.laws hok i
    have h2 := hs.enc
    refine GTri.bind (getFk_spec hi) ?_
    rintro g fs ⟨rfl, rfl⟩
    refine GTri.bind (GTri.lift_ok (Q := fun g fs' => g = s.toCnf.shift c.maxVar ∧ fs' = fs) (h2.shift_ok dbg S.small S.laws.maxLit) ⟨rfl, rfl⟩) ?_
    rintro _ fs ⟨rfl, rfl⟩
    have hr : (((CNF.new.append ((fr fs i).append (if i = 0 then fm.initial else fm.p0))).append fm.transition).append
        (s.toCnf.shift c.maxVar)).Ready := by
      rw [hfm.transition]
      exact ((CNF.Ready.new.append (h1.ready S.small)).append (transition_ready S.laws S.wf S.small)).append
        (h2.shift_ready S.small)
    refine (satCall_spec he hr fs).mono ?_
    rintro r fs ⟨rfl, ha⟩
    refine ⟨rfl, Ans.step S.laws S.wf h1 h2 (fun w => ?_) (Ans.of_answer S.laws hr (fun d hd => ?_) ha)⟩
    · rw [CNF.holds_append (f := CNF.append _ _), CNF.holds_append (f := CNF.append _ _), CNF.holds_append (f := CNF.new), hfm.transition]
      simp only [CNF.new, CNF.holds, CNF.iter, List.not_mem_nil, false_implies, implies_true, true_and, and_assoc]
    · rw [CNF.mem_append, CNF.mem_append, hfm.transition]; exact .inl (.inr hd)
  cubeReachNew := by
    intro fs i s hok hi hs
    have h1 := hfm.enc S.laws hok i
    have h2 := hs.enc
    refine GTri.bind (getFk_spec hi) ?_
    rintro g fs ⟨rfl, rfl⟩
    refine GTri.bind (GTri.lift_ok (Q := fun g fs' => g = s.toCnf.shift c.maxVar ∧ fs' = fs) (h2.shift_ok dbg S.small S.laws.maxLit) ⟨rfl, rfl⟩) ?_
    rintro _ fs ⟨rfl, rfl⟩
    have hr : ((((CNF.new.append ((fr fs i).append (if i = 0 then fm.initial else fm.p0))).append fm.transition).addClause s.not).append
        (s.toCnf.shift c.maxVar)).Ready := by
      rw [hfm.transition]
      exact (((CNF.Ready.new.append (h1.ready S.small)).append (transition_ready S.laws S.wf S.small)).addClause
        hs.not.sorted (hs.not.good S.small)).append (h2.shift_ready S.small)
    refine GTri.bind (satCall_spec he hr fs) ?_
    rintro r fs ⟨rfl, ha⟩
    have hiff := Ans.step_iff S.laws S.wf (Enc.addClause h1 hs.not) h2
      (H := fun w => ((((CNF.new.append ((fr fs i).append (if i = 0 then fm.initial else fm.p0))).append fm.transition).addClause s.not).append
        (s.toCnf.shift c.maxVar)).holds w) (fun w => by
          rw [CNF.holds_append (f := CNF.addClause _ _), CNF.holds_addClause, CNF.holds_addClause, CNF.holds_append (f := CNF.append _ _),
            CNF.holds_append (f := CNF.new), hfm.transition]
          constructor
          · rintro ⟨⟨⟨⟨_, a⟩, b⟩, d⟩, e⟩; exact ⟨⟨a, d⟩, b, e⟩
          · rintro ⟨⟨a, d⟩, b, e⟩; exact ⟨⟨⟨⟨fun _ h => by simp [CNF.new, CNF.iter] at h, a⟩, b⟩, d⟩, e⟩)
      (Ans.of_answer S.laws hr (fun d hd => by
        rw [CNF.mem_append, CNF.mem_addClause, CNF.mem_append, hfm.transition]; exact .inl (.inl (.inr hd))) ha)
    have fin : r ≠ .unsat ↔ ∃ v v', InF c bads fs i v ∧ ¬ s.holds v ∧ c.Trans v v' ∧ s.holds v' := by
      constructor
      · intro hne
        refine Classical.byContradiction fun hno => hne (hiff.2 ?_)
        rintro v v' ⟨a, b⟩ ht hs'
        rw [Cube.holds_not] at b
        exact hno ⟨v, v', a, b, ht, hs'⟩
      · rintro ⟨v, v', a, b, ht, hs'⟩ he
        exact hiff.1 he v v' ⟨a, by rw [Cube.holds_not]; exact b⟩ ht hs'
    cases r with
    | unsat => exact GTri.pure ⟨rfl, by rw [← fin]; simp⟩
    | sat a => exact GTri.pure ⟨rfl, by rw [← fin]; simp⟩
  clauseInductive := by
    intro fs i d hok hi hd _
    have h1 := hfm.enc S.laws hok i
    have h2 := hd.not.enc
    have h3 : Enc c (fm.initial.append d.not.toCnf) (fun v => c.Init v ∧ d.not.holds v) :=
      (by rw [hfm.initial]; exact Enc.initial S.laws : Enc c fm.initial c.Init).append h2
    refine GTri.bind (satCall_spec he (h3.ready S.small) fs) ?_
    rintro r fs ⟨rfl, ha⟩
    have hi1 := ha.enc h3
    cases r with
    | sat a =>
      refine GTri.pure ⟨rfl, ⟨fun h => by simp at h, fun hrel => ?_⟩⟩
      have := hi1.2 (fun v hv => by
        have := hrel.1 v hv.1
        rw [Clause.holds_not] at hv
        exact hv.2 this)
      simp at this
    | unsat =>
      have hinit : ∀ v, c.Init v → d.holds v := fun v hv => Classical.byContradiction fun hn =>
        hi1.1 rfl v ⟨hv, by rw [Clause.holds_not]; exact hn⟩
      refine GTri.bind (getFk_spec hi) ?_
      rintro g fs ⟨rfl, rfl⟩
      refine GTri.bind (GTri.lift_ok (Q := fun g fs' => g = d.not.toCnf.shift c.maxVar ∧ fs' = fs) (h2.shift_ok dbg S.small S.laws.maxLit)
        ⟨rfl, rfl⟩) ?_
      rintro _ fs ⟨rfl, rfl⟩
      have h4 := Enc.addClause h1 hd
      have hr : (((((fr fs i).append (if i = 0 then fm.initial else fm.p0))).addClause d).append fm.transition |>.append
          (d.not.toCnf.shift c.maxVar)).Ready := by
        rw [hfm.transition]
        exact ((h4.ready S.small).append (transition_ready S.laws S.wf S.small)).append (h2.shift_ready S.small)
      refine GTri.bind (satCall_spec he hr fs) ?_
      rintro r fs ⟨rfl, ha⟩
      have hiff := Ans.step_iff S.laws S.wf h4 h2
        (H := fun w => (((((fr fs i).append (if i = 0 then fm.initial else fm.p0))).addClause d).append fm.transition |>.append
          (d.not.toCnf.shift c.maxVar)).holds w) (fun w => by
            rw [CNF.holds_append (f := CNF.append _ _), CNF.holds_append (f := CNF.addClause _ _), hfm.transition, and_assoc])
        (Ans.of_answer S.laws hr (fun e he => by rw [CNF.mem_append, CNF.mem_append, hfm.transition]; exact .inl (.inr he)) ha)
      have fin : r = .unsat ↔ Rel c bads fs i d := by
        rw [hiff]
        constructor
        · intro h
          refine ⟨hinit, fun v v' hv hdv ht => Classical.byContradiction fun hn => h v v' ⟨hv, hdv⟩ ht ?_⟩
          rw [Clause.holds_not]; exact hn
        · rintro h v v' ⟨hv, hdv⟩ ht hn
          rw [Clause.holds_not] at hn
          exact hn (h.2 v v' hv hdv ht)
      cases r with
      | unsat => exact GTri.pure ⟨rfl, by rw [← fin]; simp⟩
      | sat a => exact GTri.pure ⟨rfl, by rw [← fin]; simp⟩

end Verif.IC3.Stateless
