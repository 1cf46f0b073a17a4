import Verif.Proofs.Query
import Verif.Proofs.Ends
import Verif.Proofs.FormulaLogic
import Verif.Proofs.FstsInvariant
import Verif.Spec.Ic3State

/-! # `IC3Stateful` meets the contract -/

namespace Verif.IC3.Stateful

open Fsts

variable {f : Fsts} {c : Circuit} {bads : List Nat} {I : StatefulImpl} {sched : Sched} {fm : Formulas} {dbg : Bool} {F : Err → Prop}

variable {O : I.OK F}

theorem next_spec (fs : List CNF) : GTri F (Inv O fm) fs next (fun _ fs' => fs' = fs) :=
  fun _ hs => ⟨fs, ⟨hs.clauses, hs.lenA, hs.lenB, hs.fiT, hs.fiP, hs.init⟩, rfl⟩

theorem run_get_bind {σ β : Type} {k : σ → StateT σ Res β} {s : σ} : ((get : StateT σ Res σ) >>= k) s = k s s := rfl

theorem next_run (s : Stateful I) : next s = .ok (s.tick, { s with tick := s.tick + 1 }) := rfl

theorem addCnf_ok (O : I.OK F) {x : I.S} {cs : List Clause} {g : CNF} (hx : O.Rep x cs) (hg : g.Ready) :
    Ends F (I.addCnf g x) (fun y => O.Rep y (cs ++ g.clauses)) :=
  O.addCnf x cs g hx (hg.mono (by decide)).good hg.le_max (Nat.lt_succ_of_le (hg.mono (by decide)).max_le)

/-- A query with its own solver object. -/
theorem callCustom_spec {g : CNF} (hg : g.Ready) (fs : List CNF) :
    GTri F (Inv O fm) fs (callCustom g) (fun r fs' => fs' = fs ∧ QueryCorrect g.clauses none none r ∧ QueryTotal g.clauses none none r) := by
  refine GTri.bind (next_spec fs) ?_
  rintro t fs rfl
  refine GTri.bind (GTri.ends (addCnf_ok O O.new hg)) ?_
  rintro y fs ⟨hrep, rfl⟩
  refine GTri.bind (GTri.ends (O.solve t y _ none none hrep trivial trivial trivial)) ?_
  rintro ⟨r, z⟩ fs ⟨⟨_, h1, h2⟩, rfl⟩
  exact GTri.pure ⟨rfl, by simpa using h1, by simpa using h2⟩

theorem callInitial_spec {cube : Cube} (hg : cube.Good) (fs : List CNF) :
    GTri F (Inv O fm) fs (callInitial (some cube) none) (fun r fs' => fs' = fs ∧
      (r = .unsat ↔ ∀ w, ¬ (fm.initial.holds w ∧ cube.holds w))) := by
  intro s hs
  obtain ⟨cs, hrep, hmem⟩ := hs.init
  show Post F _ ((do let (r, solver) ← (liftM (I.solve s.tick (some cube) none s.initialSolver) : StateT (Stateful I) Res _)
                     set { s with tick := s.tick + 1, initialSolver := solver }
                     pure r : StateT (Stateful I) Res SatResponse) { s with tick := s.tick + 1 })
  refine Post.lift_bind (O.solve s.tick s.initialSolver cs (some cube) none hrep hg trivial trivial) ?_
  rintro ⟨r, z⟩ ⟨hrep', h1, h2⟩
  refine ⟨fs, ⟨hs.clauses, hs.lenA, hs.lenB, hs.fiT, hs.fiP, ⟨cs, hrep', hmem⟩⟩, rfl, ?_⟩
  have hH : ∀ w, QueryHolds cs (some cube) none w ↔ fm.initial.holds w ∧ cube.holds w := by
    intro w
    constructor
    · rintro ⟨a, b, _⟩; exact ⟨fun d hd => a d ((hmem d).2 hd), b⟩
    · rintro ⟨a, b⟩; exact ⟨fun d hd => a d ((hmem d).1 hd), b, trivial⟩
  cases r with
  | unsat => exact ⟨fun _ w hw => h1 w ((hH w).2 hw), fun _ => rfl⟩
  | sat a =>
    obtain ⟨w, hw, _⟩ := h1
    exact ⟨fun h => by simp at h, fun h => absurd ((hH w).1 hw) (h w)⟩

/-- A query of `F_i ∧ T`. -/
theorem callFiAndT_spec (h : Laws f c bads) (hT : fm.transition = f.transition) {fs : List CNF} {i : Nat} (hi : i < fs.length)
    {cube : Option Cube} {clause : Option Clause} (hc : optHolds Cube.Good cube) (hd : optHolds Clause.Good clause)
    (hsd : optHolds (fun c : Clause => c.lits.Pairwise (fun a b => a.le b = true)) clause) :
    GTri F (Inv O fm) fs (callFiAndT i cube clause) (fun r fs' => fs' = fs ∧
      Ans c (fun w => ((fr fs i).append (baseOf fm i)).holds w ∧ f.transition.holds w ∧
        optHolds (fun x : Cube => x.holds w) cube ∧ optHolds (fun x : Clause => x.holds w) clause) r) := by
  intro s hs
  have hlt : i < s.fiAndT.length := by rw [hs.lenA]; exact hi
  have hget := List.getElem?_eq_getElem hlt
  generalize s.fiAndT[i] = x at hget
  obtain ⟨cs, hrep, hmem⟩ := hs.fiT i x hget
  show Post F _ ((do let solver ← (liftM (indexR "ic3_stateful_solver.rs:170 index" s.fiAndT i) : StateT (Stateful I) Res _)
                     let (r, solver) ← (liftM (I.solve s.tick cube clause solver) : StateT (Stateful I) Res _)
                     set { s with tick := s.tick + 1, fiAndT := s.fiAndT.set i solver }
                     pure r : StateT (Stateful I) Res SatResponse) { s with tick := s.tick + 1 })
  rw [run_lift_bind (a := x) (by unfold indexR; rw [hget]; rfl)]
  refine Post.lift_bind (O.solve s.tick x cs cube clause hrep hc hd hsd) ?_
  rintro ⟨r, z⟩ ⟨hrep', h1, h2⟩
  refine ⟨fs, ⟨hs.clauses, by simp [hs.lenA], hs.lenB, ?_, hs.fiP, hs.init⟩, rfl, ?_⟩
  · intro j y hy
    dsimp only at hy
    rw [List.getElem?_set, if_pos hlt] at hy
    split at hy
    · rename_i hij; subst hij
      have := Option.some.inj hy; subst this
      exact ⟨cs, hrep', hmem⟩
    · exact hs.fiT j y hy
  · refine (Ans.of_query h (fun d hd => (hmem d).2 (.inr (.inr (by rw [hT]; exact hd)))) h1 h2).congr fun w => ?_
    unfold QueryHolds
    rw [CNF.holds_append]
    constructor
    · rintro ⟨a, b⟩
      exact ⟨⟨fun d hd => a d ((hmem d).2 (.inl hd)), fun d hd => a d ((hmem d).2 (.inr (.inl hd)))⟩,
        fun d hd => a d ((hmem d).2 (.inr (.inr (by rw [hT]; exact hd)))), b⟩
    · rintro ⟨⟨a1, a2⟩, a3, b⟩
      refine ⟨fun d hd => ?_, b⟩
      rcases (hmem d).1 hd with hd | hd | hd
      · exact a1 d hd
      · exact a2 d hd
      · exact a3 d (by rw [← hT]; exact hd)

/-- A query of `F_i ∧ T ∧ ¬P'`. -/
theorem callNotP_spec (h : Laws f c bads) (hT : fm.transition = f.transition) {fs : List CNF} {i : Nat} (hi : i < fs.length) :
    GTri F (Inv O fm) fs (callNotP i none none) (fun r fs' => fs' = fs ∧
      Ans c (fun w => ((fr fs i).append (baseOf fm i)).holds w ∧ f.transition.holds w ∧ fm.notP1.holds w) r) := by
  intro s hs
  have hlt : i < s.fiAndTAndNotP.length := by rw [hs.lenB]; exact hi
  have hget := List.getElem?_eq_getElem hlt
  generalize s.fiAndTAndNotP[i] = x at hget
  obtain ⟨cs, hrep, hmem⟩ := hs.fiP i x hget
  show Post F _ ((do let solver ← (liftM (indexR "ic3_stateful_solver.rs:173 index" s.fiAndTAndNotP i) : StateT (Stateful I) Res _)
                     let (r, solver) ← (liftM (I.solve s.tick none none solver) : StateT (Stateful I) Res _)
                     set { s with tick := s.tick + 1, fiAndTAndNotP := s.fiAndTAndNotP.set i solver }
                     pure r : StateT (Stateful I) Res SatResponse) { s with tick := s.tick + 1 })
  rw [run_lift_bind (a := x) (by unfold indexR; rw [hget]; rfl)]
  refine Post.lift_bind (O.solve s.tick x cs none none hrep trivial trivial trivial) ?_
  rintro ⟨r, z⟩ ⟨hrep', h1, h2⟩
  refine ⟨fs, ⟨hs.clauses, hs.lenA, by simp [hs.lenB], hs.fiT, ?_, hs.init⟩, rfl, ?_⟩
  · intro j y hy
    dsimp only at hy
    rw [List.getElem?_set, if_pos hlt] at hy
    split at hy
    · rename_i hij; subst hij
      have := Option.some.inj hy; subst this
      exact ⟨cs, hrep', hmem⟩
    · exact hs.fiP j y hy
  · refine (Ans.of_query h (fun d hd => (hmem d).2 (.inr (.inr (.inl (by rw [hT]; exact hd))))) h1 h2).congr fun w => ?_
    unfold QueryHolds
    rw [CNF.holds_append]
    constructor
    · rintro ⟨a, _⟩
      exact ⟨⟨fun d hd => a d ((hmem d).2 (.inl hd)), fun d hd => a d ((hmem d).2 (.inr (.inl hd)))⟩,
        fun d hd => a d ((hmem d).2 (.inr (.inr (.inl (by rw [hT]; exact hd))))),
        fun d hd => a d ((hmem d).2 (.inr (.inr (.inr hd))))⟩
    · rintro ⟨⟨a1, a2⟩, a3, a4⟩
      refine ⟨fun d hd => ?_, trivial, trivial⟩
      rcases (hmem d).1 hd with hd | hd | hd | hd
      · exact a1 d hd
      · exact a2 d hd
      · exact a3 d (by rw [← hT]; exact hd)
      · exact a4 d hd

theorem debugAssert_ok (dbg : Bool) (site : String) {b : Bool} (h : b = true) : debugAssertR dbg site b = .ok () := by
  subst h; cases dbg <;> rfl

theorem addClause_spec (hsm : c.Small) {fs : List CNF} {i : Nat} {d : Clause} (hi : i < fs.length) (hd : LatchClause c d) :
    GTri F (Inv O fm) fs (Stateful.addClause dbg i d) (fun _ fs' => fs' = fs.set i ((fr fs i).addClause d)) := by
  intro s hs
  have hg : d.toCnf.Ready := Clause.toCnf_ready hd.sorted (hd.good hsm)
  have hcl : ∀ e, e ∈ d.toCnf.clauses ↔ e = d := fun e => by simp [Clause.toCnf, CNF.mem_addClause, CNF.new]
  have hltA : i < s.fiAndT.length := by rw [hs.lenA]; exact hi
  have hgetA := List.getElem?_eq_getElem hltA
  generalize s.fiAndT[i] = x at hgetA
  obtain ⟨csA, hrepA, hmemA⟩ := hs.fiT i x hgetA
  have hltB : i < s.fiAndTAndNotP.length := by rw [hs.lenB]; exact hi
  have hgetB := List.getElem?_eq_getElem hltB
  generalize s.fiAndTAndNotP[i] = y at hgetB
  obtain ⟨csB, hrepB, hmemB⟩ := hs.fiP i y hgetB
  have h1 : debugAssertR dbg "ic3_stateful_solver.rs:106" (s.clauses.length == s.fiAndT.length) = .ok () :=
    debugAssert_ok _ _ (by rw [hs.clauses, hs.lenA]; simp)
  have h2 : debugAssertR dbg "ic3_stateful_solver.rs:107" (s.clauses.length == s.fiAndTAndNotP.length) = .ok () :=
    debugAssert_ok _ _ (by rw [hs.clauses, hs.lenB]; simp)
  have h3 : indexR "ic3_stateful_solver.rs:112 index" s.clauses i = .ok (fr fs i) := by
    unfold indexR; rw [hs.clauses, fr_get hi]; rfl
  have h4 : indexR "ic3_stateful_solver.rs:113 index" s.fiAndT i = .ok x := by unfold indexR; rw [hgetA]; rfl
  have h5 : indexR "ic3_stateful_solver.rs:114 index" s.fiAndTAndNotP i = .ok y := by unfold indexR; rw [hgetB]; rfl
  unfold Stateful.addClause
  rw [run_get_bind, run_lift_bind h1, run_lift_bind h2, run_lift_bind h3, run_lift_bind h4]
  refine Post.lift_bind (addCnf_ok O hrepA hg) fun x' hrepA' => ?_
  rw [run_lift_bind h5]
  refine Post.lift_bind (addCnf_ok O hrepB hg) fun y' hrepB' => ?_
  rw [hs.clauses]
  refine ⟨_, ⟨rfl, by simp [hs.lenA], by simp [hs.lenB], ?_, ?_, hs.init⟩, rfl⟩
  · intro j z hz
    dsimp only at hz
    rw [List.getElem?_set, if_pos hltA] at hz
    rw [fr_set _ _ _ hi]
    split at hz
    · rename_i hij; subst hij
      have := Option.some.inj hz; subst this
      refine ⟨_, hrepA', fun e => ?_⟩
      rw [if_pos rfl, List.mem_append, hcl, hmemA, CNF.mem_addClause]
      constructor
      · rintro ((h | h) | h)
        · exact .inl (.inl h)
        · exact .inr h
        · exact .inl (.inr h)
      · rintro ((h | h) | h)
        · exact .inl (.inl h)
        · exact .inr h
        · exact .inl (.inr h)
    · rename_i hij
      rw [if_neg (fun e => hij e.symm)]
      exact hs.fiT j z hz
  · intro j z hz
    dsimp only at hz
    rw [List.getElem?_set, if_pos hltB] at hz
    rw [fr_set _ _ _ hi]
    split at hz
    · rename_i hij; subst hij
      have := Option.some.inj hz; subst this
      refine ⟨_, hrepB', fun e => ?_⟩
      rw [if_pos rfl, List.mem_append, hcl, hmemB, CNF.mem_addClause]
      constructor
      · rintro ((h | h) | h)
        · exact .inl (.inl h)
        · exact .inr h
        · exact .inl (.inr h)
      · rintro ((h | h) | h)
        · exact .inl (.inl h)
        · exact .inr h
        · exact .inl (.inr h)
    · rename_i hij
      rw [if_neg (fun e => hij e.symm)]
      exact hs.fiP j z hz

theorem pushFrame_spec (S : SmallSys f c bads) (hfm : FormsOK f c bads fm) {fs : List CNF} :
    GTri F (Inv O fm) fs (Stateful.pushFrame dbg fm) (fun _ fs' => fs' = fs ++ [CNF.new]) := by
  intro s hs
  have hTr : fm.transition.Ready := by rw [hfm.transition]; exact transition_ready S.laws S.wf S.small
  have hNr : fm.notP1.Ready := by rw [hfm.notP1]; exact hfm.notP0.shift_ready S.small
  have hIr : fm.initial.Ready := by rw [hfm.initial]; exact (Enc.initial S.laws).ready S.small
  have hBr : (baseOf fm fs.length).Ready := by
    unfold baseOf; split
    · exact hIr
    · exact hfm.p0.ready S.small
  have hbase : (if s.fiAndT.isEmpty then fm.initial else fm.p0) = baseOf fm fs.length := by
    unfold baseOf
    rw [← hs.lenA]
    cases s.fiAndT <;> simp
  have h1 : debugAssertR dbg "ic3_stateful_solver.rs:122" (s.clauses.length == s.fiAndT.length) = .ok () :=
    debugAssert_ok _ _ (by rw [hs.clauses, hs.lenA]; simp)
  have h2 : debugAssertR dbg "ic3_stateful_solver.rs:123" (s.clauses.length == s.fiAndTAndNotP.length) = .ok () :=
    debugAssert_ok _ _ (by rw [hs.clauses, hs.lenB]; simp)
  unfold Stateful.pushFrame
  rw [run_get_bind, run_lift_bind h1, run_lift_bind h2]
  refine Post.lift_bind (addCnf_ok O O.new hTr) fun a1 ra1 => ?_
  refine Post.lift_bind (addCnf_ok O O.new hTr) fun b1 rb1 => ?_
  refine Post.lift_bind (addCnf_ok O rb1 hNr) fun b2 rb2 => ?_
  rw [hbase]
  refine Post.lift_bind (addCnf_ok O ra1 hBr) fun a3 ra3 => ?_
  refine Post.lift_bind (addCnf_ok O rb2 hBr) fun b3 rb3 => ?_
  have hnil : ∀ d : Clause, d ∉ CNF.new.clauses := fun d => by simp [CNF.new]
  refine ⟨_, ⟨by show s.clauses ++ _ = _; rw [hs.clauses], by simp [hs.lenA], by simp [hs.lenB], ?_, ?_, hs.init⟩, rfl⟩
  · intro j z hz
    dsimp only at hz
    rw [fr_push]
    by_cases hj : j < s.fiAndT.length
    · rw [List.getElem?_append_left hj] at hz
      exact hs.fiT j z hz
    · rw [List.getElem?_append_right (by omega)] at hz
      have hj' : j - s.fiAndT.length = 0 := by
        cases h0 : j - s.fiAndT.length with
        | zero => rfl
        | succ n => rw [h0] at hz; simp at hz
      rw [hj'] at hz
      have := Option.some.inj hz; subst this
      have hjl : j = fs.length := by have := hs.lenA; omega
      subst hjl
      refine ⟨_, ra3, fun d => ?_⟩
      rw [fr_ge (Nat.le_refl _)]
      simp only [List.nil_append, List.mem_append, hnil, false_or]
      exact Or.comm
  · intro j z hz
    dsimp only at hz
    rw [fr_push]
    by_cases hj : j < s.fiAndTAndNotP.length
    · rw [List.getElem?_append_left hj] at hz
      exact hs.fiP j z hz
    · rw [List.getElem?_append_right (by omega)] at hz
      have hj' : j - s.fiAndTAndNotP.length = 0 := by
        cases h0 : j - s.fiAndTAndNotP.length with
        | zero => rfl
        | succ n => rw [h0] at hz; simp at hz
      rw [hj'] at hz
      have := Option.some.inj hz; subst this
      have hjl : j = fs.length := by have := hs.lenB; omega
      subst hjl
      refine ⟨_, rb3, fun d => ?_⟩
      rw [fr_ge (Nat.le_refl _)]
      simp only [List.nil_append, List.mem_append, hnil, false_or]
      constructor
      · rintro ((h | h) | h)
        · exact .inr (.inl h)
        · exact .inr (.inr h)
        · exact .inl h
      · rintro (h | h | h)
        · exact .inr h
        · exact .inl (.inl h)
        · exact .inl (.inr h)

/-- Answers of custom queries. -/
theorem custom_iff {g : CNF} {r : SatResponse} (h : QueryCorrect g.clauses none none r) : r = .unsat ↔ ∀ w, ¬ g.holds w := by
  have hH : ∀ w, QueryHolds g.clauses none none w ↔ g.holds w := fun w => ⟨fun h => h.1, fun h => ⟨h, trivial, trivial⟩⟩
  cases r with
  | unsat => exact ⟨fun _ w hw => h w ((hH w).2 hw), fun _ => rfl⟩
  | sat a =>
    obtain ⟨w, hw, _⟩ := h
    exact ⟨fun h => by simp at h, fun hn => absurd ((hH w).1 hw) (hn w)⟩

theorem intersectsInitial_spec (h : Laws f c bads) (hi : fm.initial = f.initialStates.toCnf) {cube : Cube} (hg : cube.Good)
    (fs : List CNF) : GTri F (Inv O fm) fs (intersectsInitial cube) (fun b fs' => fs' = fs ∧ (b = true ↔ ∃ v, c.Init v ∧ cube.holds v)) := by
  refine GTri.bind (callInitial_spec hg fs) ?_
  rintro r fs ⟨rfl, hr⟩
  have : r = .unsat ↔ ¬ ∃ v, c.Init v ∧ cube.holds v := by
    rw [hr, hi]
    simp only [Cube.toCnf_holds, initial_holds h]
    exact ⟨fun h ⟨v, hv⟩ => h v hv, fun h v hv => h ⟨v, hv⟩⟩
  cases r with
  | unsat => exact GTri.pure ⟨rfl, ⟨fun h => by simp at h, fun h => absurd h (this.1 rfl)⟩⟩
  | sat a => exact GTri.pure ⟨rfl, ⟨fun _ => Classical.byContradiction fun hn => by simpa using this.2 hn, fun _ => rfl⟩⟩

/-- The contract. -/
def contract (S : SmallSys f c bads) (O : I.OK F) (hsched : sched.OK) (hfm : FormsOK f c bads fm) :
    Contract (stateful dbg I sched f fm) c bads F where
  Inv := Inv O fm
  laws := S.laws
  wf := S.wf
  bad := S.bad
  range := by have := S.small; unfold Circuit.Small at this; omega
  sched := hsched
  clauses := fun h => h.clauses
  tick := next_spec
  addClause := fun _ _ hi hd => addClause_spec S.small hi hd
  pushFrame := fun _ => pushFrame_spec S hfm
  enterFrame := by
    intro fs k hok hle hlen s hs
    have e : (stateful dbg I sched f fm).enterFrame k s = .ok ((), s) := by
      have h1 : debugAssertR dbg "ic3_stateful_solver.rs:502" (s.clauses.length == k + 2) = .ok () := by
        cases dbg with
        | false => rfl
        | true => exact debugAssert_ok _ _ (by rw [hs.clauses, hlen rfl]; simp)
      have h2 : indexR "ic3_stateful_solver.rs:118 index" s.clauses 0 = .ok (fr fs 0) := by
        unfold indexR; rw [hs.clauses, fr_get (by omega)]; rfl
      have h3 : assertR "ic3_stateful_solver.rs:503" ((fr fs 0).len == 0) = .ok () := by
        unfold CNF.len; rw [hok.zero]; rfl
      unfold stateful
      dsimp only
      rw [run_get_bind, run_lift_bind h1]
      cases dbg with
      | false => rfl
      | true =>
        simp only [if_true]
        rw [run_lift_bind h2]
        show (liftM (assertR _ _) : StateT (Stateful I) Res Unit) s = _
        rw [h3]; rfl
    rw [e]
    exact ⟨fs, hs, rfl⟩
  badIn0 := by
    intro fs
    have h1 : Enc c ((CNF.new.append fm.initial).append fm.notP0) (fun v => c.Init v ∧ c.BadAt bads v) := by
      refine (((Enc.base (c := c) CNF.WF.new (by simp [CNF.new])).append (by rw [hfm.initial]; exact Enc.initial S.laws)).append
        hfm.notP0).congr fun v => ?_
      simp [CNF.new, CNF.holds, CNF.iter]
    refine (callCustom_spec (h1.ready S.small) fs).mono ?_
    rintro r fs' ⟨rfl, ha, _⟩
    refine ⟨rfl, (custom_iff ha).trans ?_⟩
    constructor
    · exact fun h v a b => h _ (h1.complete v _ ⟨a, b⟩ (fun x _ _ => rfl))
    · exact fun h w hw => h w (h1.sound w hw).1 (h1.sound w hw).2
  badIn1 := by
    intro fs
    have h1 : Enc c fm.initial c.Init := by rw [hfm.initial]; exact Enc.initial S.laws
    have hr : (((CNF.new.append fm.initial).append fm.transition).append fm.notP1).Ready := by
      rw [hfm.transition, hfm.notP1]
      exact ((CNF.Ready.new.append (h1.ready S.small)).append (transition_ready S.laws S.wf S.small)).append
        (hfm.notP0.shift_ready S.small)
    refine (callCustom_spec hr fs).mono ?_
    rintro r fs' ⟨rfl, ha, hb⟩
    have hmem : ∀ d ∈ f.transition.clauses, d ∈ (((CNF.new.append fm.initial).append fm.transition).append fm.notP1).clauses :=
      fun d hd => by rw [CNF.mem_append, CNF.mem_append, hfm.transition]; exact .inl (.inr hd)
    exact ⟨rfl, Ans.step_iff S.laws S.wf h1 hfm.notP0
      (H := QueryHolds (((CNF.new.append fm.initial).append fm.transition).append fm.notP1).clauses none none)
      (fun w => by
        have : QueryHolds (((CNF.new.append fm.initial).append fm.transition).append fm.notP1).clauses none none w ↔
            (((CNF.new.append fm.initial).append fm.transition).append fm.notP1).holds w := ⟨fun h => h.1, fun h => ⟨h, trivial, trivial⟩⟩
        rw [this, CNF.holds_append, CNF.holds_append, CNF.holds_append, hfm.transition, hfm.notP1]
        simp [CNF.new, CNF.holds, CNF.iter, and_assoc])
      (Ans.of_query S.laws hmem ha hb)⟩
  badFrom := by
    intro fs k hok hk
    refine (callNotP_spec S.laws hfm.transition hk).mono ?_
    rintro r fs ⟨rfl, ha⟩
    exact ⟨rfl, Ans.step S.laws S.wf (hfm.enc S.laws hok k) hfm.notP0 (fun w => by rw [hfm.notP1]; rfl) ha⟩
  cubeReach := by
    intro fs i s hok hi hs
    refine GTri.bind (GTri.lift_ok (Q := fun g fs' => g = s.shift c.maxVar ∧ fs' = fs) (hs.shift_ok dbg S.laws.maxLit S.small) ⟨rfl, rfl⟩) ?_
    rintro _ fs ⟨rfl, rfl⟩
    refine (callFiAndT_spec S.laws hfm.transition hi (cube := some (s.shift c.maxVar)) (clause := none)
      (hs.shift_good S.small) trivial trivial).mono ?_
    rintro r fs ⟨rfl, ha⟩
    refine ⟨rfl, Ans.step S.laws S.wf (hfm.enc S.laws hok i) hs.enc (fun w => ?_) ha⟩
    rw [Cube.shift_toCnf_holds]
    exact ⟨fun ⟨a, b, d, _⟩ => ⟨a, b, d⟩, fun ⟨a, b, d⟩ => ⟨a, b, d, trivial⟩⟩
  cubeReachNew := by
    intro fs i s hok hi hs
    refine GTri.bind (GTri.lift_ok (Q := fun g fs' => g = s.shift c.maxVar ∧ fs' = fs) (hs.shift_ok dbg S.laws.maxLit S.small) ⟨rfl, rfl⟩) ?_
    rintro _ fs ⟨rfl, rfl⟩
    refine GTri.bind (callFiAndT_spec S.laws hfm.transition hi (cube := some (s.shift c.maxVar)) (clause := some s.not)
      (hs.shift_good S.small) (hs.not.good S.small) hs.not.sorted) ?_
    rintro r fs ⟨rfl, ha⟩
    have hiff := Ans.step_iff S.laws S.wf (Enc.addClause (hfm.enc S.laws hok i) hs.not) hs.enc (fun w => by
      rw [Cube.shift_toCnf_holds, CNF.holds_addClause]
      exact ⟨fun ⟨a, b, d, e⟩ => ⟨⟨a, e⟩, b, d⟩, fun ⟨⟨a, e⟩, b, d⟩ => ⟨a, b, d, e⟩⟩) ha
    have fin : r ≠ .unsat ↔ ∃ v v', InF c bads fs i v ∧ ¬ s.holds v ∧ c.Trans v v' ∧ s.holds v' := by
      constructor
      · intro hne
        refine Classical.byContradiction fun hno => hne (hiff.2 ?_)
        rintro v v' ⟨a, b⟩ ht hs'
        rw [Cube.holds_not] at b
        exact hno ⟨v, v', a, b, ht, hs'⟩
      · rintro ⟨v, v', a, b, ht, hs'⟩ he
        exact hiff.1 he v v' ⟨a, by rw [Cube.holds_not]; exact b⟩ ht hs'
    cases r with
    | unsat => exact GTri.pure ⟨rfl, by rw [← fin]; simp⟩
    | sat a => exact GTri.pure ⟨rfl, by rw [← fin]; simp⟩
  clauseInductive := by
    intro fs i d hok hi hd hcompl
    have hcube : ∀ l ∈ d.not.iter, l.not ∉ d.not.iter := by
      intro l hl hn
      have h1 := Clause.mem_not.1 hl
      have h2 := Clause.mem_not.1 hn
      exact hcompl _ h1 h2
    have hinit := isCubeInitial_iff S.laws hcube
    have key : ∀ v, d.not.holds v ↔ ¬ d.holds v := fun v => Clause.holds_not
    show GTri F (Inv O fm) fs (Stateful.clauseInductive dbg f d i) _
    unfold Stateful.clauseInductive
    refine GTri.ite (fun ht => ?_) (fun hf => ?_)
    · have hfalse : (false = true ↔ Rel c bads fs i d) := by
        refine ⟨fun h => by simp at h, fun hrel => ?_⟩
        obtain ⟨v, h1, h2⟩ := hinit.1 ht
        exact absurd (hrel.1 v h1) ((key v).1 h2)
      cases dbg with
      | false => exact GTri.pure ⟨rfl, hfalse⟩
      | true =>
        simp only [if_true]
        refine GTri.bind (intersectsInitial_spec S.laws hfm.initial (hd.not.good S.small) fs) ?_
        rintro b fs ⟨rfl, hb⟩
        have hbt := hb.2 (hinit.1 ht)
        subst hbt
        refine GTri.bind (GTri.lift_ok (Q := fun _ fs' => fs' = fs) rfl rfl) ?_
        rintro _ fs rfl
        exact GTri.pure ⟨rfl, hfalse⟩
    · have hi1 : ∀ v, c.Init v → d.holds v := fun v hv => Classical.byContradiction fun hn => hf (hinit.2 ⟨v, hv, (key v).2 hn⟩)
      have fin : GTri F (Inv O fm) fs (do return !(← clauseTagSat dbg f i d) : StateT (Stateful I) Res Bool)
          (fun r fs' => fs' = fs ∧ (r = true ↔ Rel c bads fs i d)) := by
        have hs := hd.not
        refine GTri.bind (R := fun b fs' => fs' = fs ∧ (b = false ↔ Rel c bads fs i d)) ?_ ?_
        · refine GTri.bind (GTri.lift_ok (Q := fun g fs' => g = d.not.shift c.maxVar ∧ fs' = fs) (hs.shift_ok dbg S.laws.maxLit S.small)
            ⟨rfl, rfl⟩) ?_
          rintro _ fs ⟨rfl, rfl⟩
          refine GTri.bind (callFiAndT_spec S.laws hfm.transition hi (cube := some (d.not.shift c.maxVar)) (clause := some d)
            (hs.shift_good S.small) (hd.good S.small) hd.sorted) ?_
          rintro r fs ⟨rfl, ha⟩
          have hiff := Ans.step_iff S.laws S.wf (Enc.addClause (hfm.enc S.laws hok i) hd) hs.enc (fun w => by
            rw [Cube.shift_toCnf_holds, CNF.holds_addClause]
            exact ⟨fun ⟨a, b, d, e⟩ => ⟨⟨a, e⟩, b, d⟩, fun ⟨⟨a, e⟩, b, d⟩ => ⟨a, b, d, e⟩⟩) ha
          have hrel : r = .unsat ↔ Rel c bads fs i d := by
            rw [hiff]
            constructor
            · intro h
              refine ⟨hi1, fun v v' hv hdv ht => Classical.byContradiction fun hn => h v v' ⟨hv, hdv⟩ ht ((key v').2 hn)⟩
            · rintro h v v' ⟨hv, hdv⟩ ht hn
              exact (key v').1 hn (h.2 v v' hv hdv ht)
          cases r with
          | unsat => exact GTri.pure ⟨rfl, by rw [← hrel]; simp⟩
          | sat a => exact GTri.pure ⟨rfl, by rw [← hrel]; simp⟩
        · rintro b fs ⟨rfl, hb⟩
          exact GTri.pure ⟨rfl, by rw [← hb]; cases b <;> simp⟩
      cases dbg with
      | false => exact fin
      | true =>
        simp only [if_true]
        refine GTri.bind (intersectsInitial_spec S.laws hfm.initial (hd.not.good S.small) fs) ?_
        rintro b fs ⟨rfl, hb⟩
        have hbf : b = false := by
          cases b with
          | false => rfl
          | true =>
            obtain ⟨v, h1, h2⟩ := hb.1 rfl
            exact absurd (hi1 v h1) ((key v).1 h2)
        subst hbf
        refine GTri.bind (GTri.lift_ok (Q := fun _ fs' => fs' = fs) rfl rfl) ?_
        rintro _ fs rfl
        exact fin

end Verif.IC3.Stateful
