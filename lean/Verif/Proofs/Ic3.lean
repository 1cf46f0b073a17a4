import Verif.Proofs.Ic3Frames
import Verif.Spec.Sched

/-! # IC3: the shared algorithm is correct for every correct set of solver operations -/

namespace Verif.IC3

open Fsts

variable {σ : Type} {c : Circuit} {bads : List Nat} {fs fs' : List CNF}

/-- An answer that gives the latches their values in `v`. -/
def Values (c : Circuit) (a : Assignment) (v : Val) : Prop := ∀ i, i < c.latches.length → a.getValue (c.latchVar i) = some (v (c.latchVar i))

/-- What the operations of an `IC3` record do to the abstract frames `fs`, and what the solver answers mean;
`F`: the errors that may end a run. -/
structure Contract (A : IC3 σ) (c : Circuit) (bads : List Nat) (F : Err → Prop) where
  Inv : σ → List CNF → Prop
  laws : Laws A.fsts c bads
  wf : c.WF
  bad : BadsOK c bads
  range : c.maxVar < 2147483648
  sched : A.sched.OK
  clauses : ∀ {s fs}, Inv s fs → A.clauses s = fs
  tick : ∀ fs, GTri F Inv fs A.tick (fun _ fs' => fs' = fs)
  addClause : ∀ {fs i d}, FsOK c fs → 1 ≤ i → i < fs.length → LatchClause c d →
    GTri F Inv fs (A.addClause i d) (fun _ fs' => fs' = fs.set i ((fr fs i).addClause d))
  pushFrame : ∀ {fs}, FsOK c fs → GTri F Inv fs A.pushFrame (fun _ fs' => fs' = fs ++ [CNF.new])
  enterFrame : ∀ {fs k}, FsOK c fs → k + 2 ≤ fs.length → (A.dbg = true → fs.length = k + 2) → GTri F Inv fs (A.enterFrame k) (fun _ fs' => fs' = fs)
  badIn0 : ∀ fs, GTri F Inv fs A.badIn0 (fun r fs' => fs' = fs ∧ (r = .unsat ↔ ∀ v, c.Init v → ¬ c.BadAt bads v))
  badIn1 : ∀ fs, GTri F Inv fs A.badIn1 (fun r fs' => fs' = fs ∧
    (r = .unsat ↔ ∀ v v', c.Init v → c.Trans v v' → ¬ c.BadAt bads v'))
  badFrom : ∀ {fs k}, FsOK c fs → k < fs.length → GTri F Inv fs (A.badFrom k) (fun r fs' => fs' = fs ∧
    (r = .unsat → ∀ v v', InF c bads fs k v → c.Trans v v' → ¬ c.BadAt bads v') ∧
    ∀ a, r = .sat a → ∃ v v', InF c bads fs k v ∧ c.Trans v v' ∧ c.BadAt bads v' ∧ Values c a v)
  cubeReach : ∀ {fs i s}, FsOK c fs → i < fs.length → LatchCube c s → GTri F Inv fs (A.cubeReach i s) (fun r fs' => fs' = fs ∧
    (r = .unsat → ∀ v v', InF c bads fs i v → c.Trans v v' → ¬ s.holds v') ∧
    ∀ a, r = .sat a → ∃ v v', InF c bads fs i v ∧ c.Trans v v' ∧ s.holds v' ∧ Values c a v)
  cubeReachNew : ∀ {fs i s}, FsOK c fs → i < fs.length → LatchCube c s → GTri F Inv fs (A.cubeReachNew i s) (fun r fs' => fs' = fs ∧
    (r = true ↔ ∃ v v', InF c bads fs i v ∧ ¬ s.holds v ∧ c.Trans v v' ∧ s.holds v'))
  clauseInductive : ∀ {fs i d}, FsOK c fs → i < fs.length → LatchClause c d → (∀ l ∈ d.lits, l.not ∉ d.lits) →
    GTri F Inv fs (A.clauseInductive d i) (fun r fs' => fs' = fs ∧ (r = true ↔ Rel c bads fs i d))

variable {A : IC3 σ} {F : Err → Prop} {k m x : Nat}

namespace Contract

theorem frame (K : Contract A c bads F) {i : Nat} (hi : i < fs.length) :
    GTri F K.Inv fs (A.frame i) (fun g fs' => fs' = fs ∧ g = fr fs i) := by
  intro s hs
  have e : A.frame i s = .ok (fr fs i, s) := by
    have := K.clauses hs
    show (do let g ← (liftM (indexR "ic3 clauses[k]" (A.clauses s) i) : StateT σ Res CNF); pure g : StateT σ Res CNF) s = _
    unfold indexR
    rw [this, fr_get hi]
    rfl
  rw [e]
  exact ⟨fs, hs, rfl, rfl⟩

theorem getFk (K : Contract A c bads F) {i : Nat} (hi : i < fs.length) :
    GTri F K.Inv fs (A.getFk i) (fun g fs' => fs' = fs ∧ g = (fr fs i).append (if i = 0 then A.forms.initial else A.forms.p0)) := by
  refine GTri.bind (K.frame hi) ?_
  rintro g fs' ⟨rfl, rfl⟩
  exact GTri.pure ⟨rfl, rfl⟩

end Contract

/-! ## Literals of the negation of a state -/

/-- A literal that says a latch differs from its value in `u`. -/
def NotState (c : Circuit) (u : Val) (l : Literal) : Prop :=
  ∃ i, i < c.latches.length ∧ l = (valueLit (c.latchVar i) (u (c.latchVar i))).not

theorem NotState.latch {u : Val} {l : Literal} (h : NotState c u l) : LatchLit c l := by
  obtain ⟨i, hi, rfl⟩ := h
  exact LatchLit.not ⟨i, hi, valueLit_number _ _⟩

theorem NotState.false {u : Val} {l : Literal} (h : NotState c u l) : ¬ l.holds u := by
  obtain ⟨i, hi, rfl⟩ := h
  rw [Literal.holds_not]
  exact fun hn => hn (valueLit_holds.2 rfl)

theorem NotState.compl {u : Val} {l : Literal} (h : NotState c u l) (h' : NotState c u l.not) : False := by
  have h1 := h.false
  have h2 := h'.false
  rw [Literal.holds_not] at h2
  exact h2 h1

theorem notState_clause {u : Val} {ls : List Literal} (h : ∀ l ∈ ls, NotState c u l) :
    LatchClause c (Clause.new ls) ∧ (∀ l ∈ (Clause.new ls).lits, l.not ∉ (Clause.new ls).lits) ∧ ¬ (Clause.new ls).holds u := by
  refine ⟨⟨Clause.sorted_new _, fun l hl => (h l (Clause.mem_new.1 hl)).latch⟩, ?_, ?_⟩
  · intro l hl hn
    exact (h l (Clause.mem_new.1 hl)).compl (h _ (Clause.mem_new.1 hn))
  · rw [Clause.holds_new]
    rintro ⟨l, hl, hv⟩
    exact (h l hl).false hv

theorem mem_not_stateCube {u : Val} {l : Literal} (hl : l ∈ (stateCube c u).not.lits) : NotState c u l := by
  obtain ⟨i, hi, e⟩ := mem_stateCube.1 (Cube.mem_not.1 hl)
  exact ⟨i, hi, by rw [← e, Literal.not_not]⟩

theorem Rel.congr {i : Nat} {d d' : Clause} (h : ∀ v, d.holds v ↔ d'.holds v) (hr : Rel c bads fs i d) : Rel c bads fs i d' :=
  ⟨fun v hv => (h v).1 (hr.1 v hv), fun v v' hv hd ht => (h v').1 (hr.2 v v' hv ((h v).2 hd) ht)⟩

theorem clause_new_perm_holds {a b : List Literal} (h : a.Perm b) (v : Val) : (Clause.new a).holds v ↔ (Clause.new b).holds v := by
  rw [Clause.holds_new, Clause.holds_new]
  constructor
  · rintro ⟨l, hl, hv⟩; exact ⟨l, h.mem_iff.1 hl, hv⟩
  · rintro ⟨l, hl, hv⟩; exact ⟨l, h.mem_iff.2 hl, hv⟩

/-! ## `get_subclause_of_not_s_that_is_inductive_relative_to_fi` -/

theorem subclauseLoop_spec (K : Contract A c bads F) (hok : FsOK c fs) {i : Nat} (hi : i < fs.length) (u : Val) :
    ∀ (budget : Nat) (lits : List Literal) (j : Nat), lits.length ≤ budget + j → (∀ l ∈ lits, NotState c u l) →
      Rel c bads fs i (Clause.new lits) →
      GTri F K.Inv fs (A.subclauseLoop i budget lits j)
        (fun r fs' => fs' = fs ∧ (∀ l ∈ r, NotState c u l) ∧ Rel c bads fs i (Clause.new r)) := by
  intro budget
  induction budget with
  | zero =>
    intro lits j hb hl hr
    unfold subclauseLoop
    rw [if_neg (by omega)]
    exact GTri.pure ⟨rfl, hl, hr⟩
  | succ budget ih =>
    intro lits j hb hl hr
    unfold subclauseLoop
    refine GTri.ite (fun hj => ?_) (fun _ => GTri.pure ⟨rfl, hl, hr⟩)
    obtain ⟨x, rest, hsr, hperm⟩ := swapRemove_spec hj
    refine GTri.bind (GTri.lift_ok (a := (x, rest)) (Q := fun p fs' => p = (x, rest) ∧ fs' = fs) (by rw [hsr]; rfl) ⟨rfl, rfl⟩) ?_
    rintro _ fs ⟨rfl, rfl⟩
    have hrest : ∀ l ∈ rest, NotState c u l := fun l h => hl l (hperm.mem_iff.2 (by simp [h]))
    have hx : NotState c u x := hl x (hperm.mem_iff.2 (by simp))
    have hlen := hperm.length_eq
    rw [List.length_cons] at hlen
    have hc := notState_clause hrest
    refine GTri.bind (K.clauseInductive hok hi hc.1 hc.2.1) ?_
    rintro b fs ⟨rfl, hb'⟩
    refine GTri.ite (fun hbt => ?_) (fun _ => ?_)
    · exact ih rest j (by omega) hrest (hb'.1 hbt)
    · obtain ⟨r, hsw, hp2⟩ := swapAt_spec (l := rest ++ [x]) (i := j) (j := (rest ++ [x]).length - 1) (by simp; omega) (by simp)
      refine GTri.bind (GTri.lift_ok (a := r) (Q := fun p fs'' => p = r ∧ fs'' = _) (by rw [hsw]; rfl) ⟨rfl, rfl⟩) ?_
      rintro r fs ⟨rfl, rfl⟩
      have hp3 : r.Perm lits := hp2.trans ((List.perm_append_comm (l₁ := rest) (l₂ := [x])).trans hperm.symm)
      refine ih r (j + 1) (by rw [hp3.length_eq]; omega) (fun l h => hl l (hp3.mem_iff.1 h)) ?_
      exact hr.congr (clause_new_perm_holds hp3.symm)

/-- `u` is not initial, and its negation is inductive relative to `F_i`. -/
def Sep (c : Circuit) (bads : List Nat) (fs : List CNF) (i : Nat) (u : Val) : Prop :=
  ¬ c.Init u ∧ ∀ v v', InF c bads fs i v → ¬ c.SameState v u → c.Trans v v' → ¬ c.SameState v' u

theorem stateCube_not_holds {u v : Val} : (stateCube c u).not.holds v ↔ ¬ c.SameState v u := by
  rw [Cube.holds_not, stateCube_holds]

theorem Sep.rel {i : Nat} {u : Val} (h : Sep c bads fs i u) : Rel c bads fs i (stateCube c u).not := by
  refine ⟨fun v hv => ?_, fun v v' hv hd ht => ?_⟩
  · rw [stateCube_not_holds]; exact fun hs => h.1 (hv.congr hs)
  · rw [stateCube_not_holds] at hd ⊢; exact h.2 v v' hv hd ht

theorem subclause_spec (K : Contract A c bads F) (hok : FsOK c fs) {i : Nat} (hi : i < fs.length) {u : Val} (h : Sep c bads fs i u) :
    GTri F K.Inv fs (A.subclause (stateCube c u) i)
      (fun d fs' => fs' = fs ∧ LatchClause c d ∧ ¬ d.holds u ∧ Rel c bads fs i d) := by
  unfold subclause
  refine GTri.bind (K.tick fs) ?_
  rintro t fs rfl
  have hp := K.sched.shuffle t (stateCube c u).not.iter
  have hl : ∀ l ∈ A.sched.shuffle t (stateCube c u).not.iter, NotState c u l := fun l hl => mem_not_stateCube (hp.mem_iff.1 hl)
  have hr : Rel c bads fs i (Clause.new (A.sched.shuffle t (stateCube c u).not.iter)) := by
    refine h.rel.congr fun v => ?_
    rw [Clause.holds_new]
    constructor
    · rintro ⟨l, hm, hv⟩; exact ⟨l, hp.mem_iff.2 hm, hv⟩
    · rintro ⟨l, hm, hv⟩; exact ⟨l, hp.mem_iff.1 hm, hv⟩
  refine GTri.bind (subclauseLoop_spec K hok hi u _ _ _ (by omega) hl hr) ?_
  rintro r fs ⟨rfl, h1, h2⟩
  have := notState_clause h1
  exact GTri.pure ⟨rfl, this.1, this.2.2, h2⟩

/-! ## `generate_clause` -/

theorem addToFrames_spec (K : Contract A c bads F) {d : Clause} (hd : LatchClause c d) :
    ∀ (n a : Nat) (fs : List CNF), FsOK c fs → 1 ≤ a → a + n ≤ fs.length →
      GTri F K.Inv fs (A.addToFrames d (List.range' a n)) (fun _ fs' => Added fs fs' d a (a + n)) := by
  intro n
  induction n with
  | zero =>
    intro a fs _ _ _
    exact GTri.pure ⟨rfl, fun j => by rw [if_neg (by omega)]⟩
  | succ n ih =>
    intro a fs hok ha hlen
    rw [List.range'_succ]
    unfold addToFrames
    refine GTri.bind (K.addClause hok ha (by omega) hd) ?_
    rintro _ fs rfl
    refine (ih (a + 1) _ (hok.set (by omega) ha hd) (by omega) (by simp; omega)).mono ?_
    intro _ fs' h
    refine ⟨by rw [h.len]; simp, fun j => ?_⟩
    rw [h.fr, fr_set _ _ _ (by omega)]
    by_cases h1 : j = a
    · subst h1
      rw [if_neg (by omega), if_pos rfl, if_pos (by omega)]
    · rw [if_neg h1]
      by_cases h2 : a + 1 ≤ j ∧ j < a + 1 + n
      · rw [if_pos h2, if_pos (by omega)]
      · rw [if_neg h2, if_neg (by omega)]

/-- `u` is outside frame `n`. -/
def Blocked (fs : List CNF) (n : Nat) (u : Val) : Prop := ¬ (fr fs n).holds u

theorem Blocked.grow {n : Nat} {u : Val} (h : Blocked fs n u) (hg : Grow fs fs') : Blocked fs' n u := fun hh => h (hg.holds hh)

theorem generateClause_spec (K : Contract A c bads F) (hf : Frames c bads (k + x) m fs) {i : Nat} (hi : i ≤ k) {u : Val}
    (h : Sep c bads fs i u) :
    GTri F K.Inv fs (A.generateClause (stateCube c u) i)
      (fun _ fs' => Frames c bads (k + x) m fs' ∧ Grow fs fs' ∧ ∀ j, 1 ≤ j → j ≤ i + 1 → Blocked fs' j u) := by
  unfold generateClause
  refine GTri.bind (subclause_spec K hf.ok (by rw [hf.len]; omega) h) ?_
  rintro d fs ⟨rfl, hd, hnu, hrel⟩
  refine (addToFrames_spec K hd (i + 1) 1 _ hf.ok (by omega) (by rw [hf.len]; omega)).mono ?_
  intro _ fs' ha
  rw [show 1 + (i + 1) = i + 2 by omega] at ha
  refine ⟨hf.added ha hd hrel, ha.grow, fun j h1 h2 hh => hnu (hh d (ha.mem.2 (.inr ⟨by omega, rfl⟩)))⟩

/-! ## `inductively_generalize` -/

theorem generalizeLoop_spec (K : Contract A c bads F) (hf : Frames c bads (k + x) m fs) {u : Val} :
    ∀ (n a : Nat), 1 ≤ a → a + n = k + 1 → Sep c bads fs (a - 1) u →
      GTri F K.Inv fs (A.generalizeLoop (stateCube c u) k (List.range' a n))
        (fun r fs' => Frames c bads (k + x) m fs' ∧ Grow fs fs' ∧
          ∃ n', r = .success n' ∧ a - 1 ≤ n' ∧ n' ≤ k ∧ ∀ j, 1 ≤ j → j ≤ n' + 1 → Blocked fs' j u) := by
  intro n
  induction n with
  | zero =>
    intro a ha he hsep
    have : a - 1 = k := by omega
    rw [this] at hsep
    unfold generalizeLoop
    refine GTri.bind (generateClause_spec K hf (Nat.le_refl _) hsep) ?_
    rintro _ fs' ⟨h1, h2, h3⟩
    exact GTri.pure ⟨h1, h2, k, rfl, by omega, Nat.le_refl _, h3⟩
  | succ n ih =>
    intro a ha he hsep
    rw [List.range'_succ]
    unfold generalizeLoop
    refine GTri.bind (K.cubeReachNew hf.ok (by rw [hf.len]; omega) (stateCube_latchCube c u)) ?_
    rintro b fs ⟨rfl, hb⟩
    refine GTri.ite (fun _ => ?_) (fun hbf => ?_)
    · refine GTri.bind (generateClause_spec K hf (by omega) hsep) ?_
      rintro _ fs' ⟨h1, h2, h3⟩
      exact GTri.pure ⟨h1, h2, a - 1, rfl, by omega, by omega, h3⟩
    · refine (ih (a + 1) (by omega) (by omega) ⟨hsep.1, ?_⟩).mono ?_
      · intro v v' hv hn ht hs
        refine hbf (hb.2 ⟨v, v', hv, ?_, ht, stateCube_holds.2 hs⟩)
        rw [stateCube_holds]; exact hn
      · rintro r fs' ⟨h1, h2, n', rfl, h3, h4⟩
        exact ⟨h1, h2, n', rfl, by omega, h4⟩

/-- `min` is a level whose successors do not contain `u`; if it is negative nothing is assumed. -/
theorem inductivelyGeneralize_spec (K : Contract A c bads F) (hf : Frames c bads (k + x) m fs) {u : Val} {min : Int} (hk : 1 ≤ k) (hmin : min ≤ k)
    (hinit : ¬ c.Init u)
    (hsep : 0 ≤ min → ∀ v v', InF c bads fs min.toNat v → c.Trans v v' → ¬ c.SameState v' u) :
    GTri F K.Inv fs (A.inductivelyGeneralize (stateCube c u) min k)
      (fun r fs' => (r = .failure ∧ fs' = fs ∧ ∃ v, c.Init v ∧ c.Trans v u) ∨
        (Frames c bads (k + x) m fs' ∧ Grow fs fs' ∧ ∃ n, r = .success n ∧ min ≤ n ∧ n ≤ k ∧ ∀ j, 1 ≤ j → j ≤ n + 1 → Blocked fs' j u)) := by
  unfold inductivelyGeneralize
  dsimp only
  have hstart : 1 ≤ (max 1 (min + 1)).toNat ∧ (max 1 (min + 1)).toNat ≤ k + 1 ∧ min ≤ ((max 1 (min + 1)).toNat : Int) - 1 ∧
      (0 ≤ min → (max 1 (min + 1)).toNat - 1 = min.toNat) ∧ (min < 0 → (max 1 (min + 1)).toNat = 1) := by omega
  generalize hst : (max 1 (min + 1)).toNat = st at hstart
  have fin : Sep c bads fs (st - 1) u → GTri F K.Inv fs (A.generalizeLoop (stateCube c u) k (List.range' st (k + 1 - st)))
      (fun r fs' => (r = .failure ∧ fs' = fs ∧ ∃ v, c.Init v ∧ c.Trans v u) ∨
        (Frames c bads (k + x) m fs' ∧ Grow fs fs' ∧ ∃ n, r = .success n ∧ min ≤ n ∧ n ≤ k ∧ ∀ j, 1 ≤ j → j ≤ n + 1 → Blocked fs' j u)) := by
    intro hs
    refine (generalizeLoop_spec K hf _ _ hstart.1 (by omega) hs).mono ?_
    rintro r fs' ⟨h1, h2, n', rfl, h3, h4⟩
    exact .inr ⟨h1, h2, n', rfl, by omega, h4⟩
  refine GTri.ite (fun hneg => ?_) (fun hpos => ?_)
  · refine GTri.bind (K.cubeReachNew hf.ok (by rw [hf.len]; omega) (stateCube_latchCube c u)) ?_
    rintro b fs ⟨rfl, hb⟩
    refine GTri.ite (fun hbt => ?_) (fun hbf => ?_)
    · obtain ⟨v, v', hv, _, ht, hs⟩ := hb.1 hbt
      have hi := hv.2
      rw [if_pos rfl] at hi
      exact GTri.pure (.inl ⟨rfl, rfl, v, hi, ht.congr K.wf (fun _ _ _ => rfl) (stateCube_holds.1 hs)⟩)
    · refine fin ⟨hinit, ?_⟩
      rw [hstart.2.2.2.2 hneg]
      intro v v' hv hn ht hs
      refine hbf (hb.2 ⟨v, v', hv, ?_, ht, stateCube_holds.2 hs⟩)
      rw [stateCube_holds]; exact hn
  · refine fin ⟨hinit, ?_⟩
    rw [hstart.2.2.2.1 (by omega)]
    exact fun v v' hv _ ht => hsep (by omega) v v' hv ht

/-! ## `push_generalization` -/

/-- The entries of the queue are distinct doomed states outside their frames. -/
structure QueueOK (c : Circuit) (bads : List Nat) (k : Nat) (fs : List CNF) (q : PQueue Cube) : Prop where
  keys : (q.map Prod.fst).Nodup
  entry : ∀ e ∈ q, 1 ≤ e.2 ∧ e.2 ≤ k + 1 ∧ ∃ u, e.1 = stateCube c u ∧ DoomedState c bads u ∧ Blocked fs e.2 u

theorem QueueOK.grow {q : PQueue Cube} (h : QueueOK c bads k fs q) (hg : Grow fs fs') : QueueOK c bads k fs' q :=
  ⟨h.keys, fun e he => by
    obtain ⟨h1, h2, u, h3, h4, h5⟩ := h.entry e he
    exact ⟨h1, h2, u, h3, h4, h5.grow hg⟩⟩

theorem QueueOK.perm {q q' : PQueue Cube} (h : QueueOK c bads k fs q) (hp : q.Perm q') : QueueOK c bads k fs q' :=
  ⟨(hp.map _).nodup_iff.1 h.keys, fun e he => h.entry e (hp.mem_iff.2 he)⟩

theorem QueueOK.push {q : PQueue Cube} (h : QueueOK c bads k fs q) {u : Val} {n : Nat} (hn : stateCube c u ∉ q.map Prod.fst) (h1 : 1 ≤ n)
    (h2 : n ≤ k + 1) (hd : DoomedState c bads u) (hb : Blocked fs n u) :
    QueueOK c bads k fs (q.push (stateCube c u) n) ∧ (q.push (stateCube c u) n).Perm ((stateCube c u, n) :: q) := by
  rw [PQueue.push_of_notMem hn]
  have hp : (q ++ [(stateCube c u, n)]).Perm ((stateCube c u, n) :: q) := List.perm_append_comm
  refine ⟨QueueOK.perm ⟨?_, ?_⟩ hp.symm, hp⟩
  · rw [List.map_cons, List.nodup_cons]; exact ⟨hn, h.keys⟩
  · intro e he
    rcases List.mem_cons.1 he with rfl | he
    · exact ⟨h1, h2, u, rfl, hd, hb⟩
    · exact h.entry e he

/-- Termination measure of the queue. -/
def mu (c : Circuit) (k : Nat) (q : PQueue Cube) : Nat :=
  ((allStates c).countP (fun s => !(q.map Prod.fst).contains s)) * (k + 1) + (q.map (fun e => k + 1 - e.2)).sum

theorem mu_perm {q q' : PQueue Cube} (h : q.Perm q') : mu c k q = mu c k q' := by
  unfold mu
  have e : (fun s => !(q.map Prod.fst).contains s) = (fun s => !(q'.map Prod.fst).contains s) := by
    funext s
    congr 1
    rw [Bool.eq_iff_iff, List.contains_iff_mem, List.contains_iff_mem]
    exact (h.map _).mem_iff
  rw [e, (h.map (fun e => k + 1 - e.2)).sum_nat]

/-- Raising the level of one entry. -/
theorem mu_raise {q : PQueue Cube} {s : Cube} {n n' : Nat} (h : n < n') (hk : n' ≤ k + 1) : mu c k ((s, n') :: q) < mu c k ((s, n) :: q) := by
  unfold mu
  simp only [List.map_cons, List.sum_cons]
  omega

/-- Adding a new state. -/
theorem mu_new {q : PQueue Cube} {u : Val} {n : Nat} (hn : stateCube c u ∉ q.map Prod.fst) (h1 : 1 ≤ n) :
    mu c k ((stateCube c u, n) :: q) < mu c k q := by
  unfold mu
  have : (allStates c).countP (fun s => !(((stateCube c u, n) :: q).map Prod.fst).contains s)
      < (allStates c).countP (fun s => !(q.map Prod.fst).contains s) := by
    refine countP_lt ?_ (mem_allStates c u) ?_ ?_
    · intro x _ hx
      simp only [List.map_cons, Bool.not_eq_true', List.contains_eq_mem, decide_eq_false_iff_not, List.mem_cons, not_or] at hx ⊢
      exact hx.2
    · simpa using hn
    · simp
  generalize (allStates c).countP (fun s => !(q.map Prod.fst).contains s) = b at this
  generalize (allStates c).countP (fun s => !(((stateCube c u, n) :: q).map Prod.fst).contains s) = a at this
  simp only [List.map_cons, List.sum_cons]
  have h2 : (a + 1) * (k + 1) ≤ b * (k + 1) := Nat.mul_le_mul_right _ this
  rw [Nat.add_mul] at h2
  omega

theorem mu_single (q : Cube × Nat) : mu c k [q] ≤ 2 ^ c.latches.length * (k + 1) + (k + 1) := by
  unfold mu
  have : (allStates c).countP (fun s => !([q].map Prod.fst).contains s) ≤ 2 ^ c.latches.length := by
    rw [← allStates_length]; exact List.countP_le_length
  have := Nat.mul_le_mul_right (k + 1) this
  simp only [List.map_cons, List.map_nil, List.sum_cons, List.sum_nil] at this ⊢
  omega

/-- A valuation in `F_n` one step before a state outside frame `n` is outside `F_(n-1)`. -/
theorem Frames.pred (hf : Frames c bads k m fs) {n : Nat} (hn : 1 ≤ n) {v v' u : Val} (hv : InF c bads fs n v) (ht : c.Trans v v')
    (hs : c.SameState v' u) (hb : Blocked fs n u) : ¬ InF c bads fs (n - 1) v := by
  intro h
  have := hf.step (n - 1) v v' h ht
  rw [show n - 1 + 1 = n by omega] at this
  exact hb (hf.ok.holds_congr hs this)

/-- What is known of a valuation in `F_n` outside `F_(n-1)`. -/
theorem Frames.low (hf : Frames c bads k m fs) {n : Nat} (hn : 1 ≤ n) {v : Val} (hv : InF c bads fs n v) (hl : ¬ InF c bads fs (n - 1) v) :
    ¬ c.Init v ∧ (0 ≤ (n : Int) - 2 → ∀ w w', InF c bads fs ((n : Int) - 2).toNat w → c.Trans w w' → ¬ c.SameState w' v) := by
  refine ⟨fun hi => hl (hf.inF_init _ hi), fun h2 w w' hw ht hs => hl ⟨?_, ?_⟩⟩
  · have := hf.step _ w w' hw ht
    rw [show ((n : Int) - 2).toNat + 1 = n - 1 by omega] at this
    exact hf.ok.holds_congr hs this
  · have := hv.2
    rw [if_neg (by omega)] at this ⊢
    exact this

theorem failure_unsafe (K : Contract A c bads F) {u : Val} (hd : DoomedState c bads u) (h : ∃ v, c.Init v ∧ c.Trans v u) : ∃ d, c.UnsafeAt bads d := by
  obtain ⟨v, hi, ht⟩ := h
  exact doomedState_unsafe K.wf K.bad hd (.step (.init hi) ht)

theorem pushGeneralization_spec (K : Contract A c bads F) (hk : 1 ≤ k) :
    ∀ (fuel : Nat) (q : PQueue Cube) (fs : List CNF), Frames c bads (k + x) m fs → QueueOK c bads k fs q → q ≠ [] →
      (F .fuel ∨ mu c k q < fuel) →
      GTri F K.Inv fs (A.pushGeneralization k fuel q) (fun r fs' =>
        (r = false → Frames c bads (k + x) m fs' ∧ ∃ d, c.UnsafeAt bads d) ∧
        (r = true → Frames c bads (k + x) m fs' ∧ Grow fs fs' ∧ ∀ u, stateCube c u ∈ q.map Prod.fst → Blocked fs' (k + 1) u)) := by
  intro fuel
  induction fuel with
  | zero =>
    intro q fs _ _ _ hF
    exact GTri.error (hF.resolve_right (by omega))
  | succ fuel ih =>
    intro q fs hf hq hne hF
    unfold pushGeneralization
    refine GTri.bind (K.tick fs) ?_
    rintro t fs rfl
    obtain ⟨⟨s, n⟩, q', hpop, hperm, hmin⟩ := PQueue.pop_spec hq.keys hne (A.sched.pick t q.length)
    refine GTri.bind (GTri.lift_ok (a := ((s, n), q')) (Q := fun p fs'' => p = ((s, n), q') ∧ fs'' = _) (by rw [hpop]; rfl) ⟨rfl, rfl⟩) ?_
    rintro _ fs ⟨rfl, rfl⟩
    dsimp only
    have hq2 := hq.perm hperm
    obtain ⟨h1n, h2n, u, rfl, hdoom, hblk⟩ := hq2.entry (s, n) (by simp)
    dsimp only at h1n h2n hblk
    have hkeys := hq2.keys
    rw [List.map_cons, List.nodup_cons] at hkeys
    have hq' : QueueOK c bads k _ q' := ⟨hkeys.2, fun e he => hq2.entry e (by simp [he])⟩
    have hmem : ∀ u', stateCube c u' ∈ q.map Prod.fst ↔ stateCube c u' = stateCube c u ∨ stateCube c u' ∈ q'.map Prod.fst := by
      intro u'
      rw [(hperm.map Prod.fst).mem_iff, List.map_cons, List.mem_cons]
    rw [mu_perm hperm] at hF
    refine GTri.ite (fun hgt => ?_) (fun hle => ?_)
    · -- the least level is above `k`
      refine GTri.pure ⟨fun h => by simp at h, fun _ => ⟨hf, Grow.refl _, fun u' hu' => ?_⟩⟩
      have : ∃ e ∈ (stateCube c u, n) :: q', e.1 = stateCube c u' ∧ n ≤ e.2 := by
        rcases (hmem u').1 hu' with h | h
        · exact ⟨(stateCube c u, n), by simp, h.symm, Nat.le_refl _⟩
        · obtain ⟨e, he, e1⟩ := List.mem_map.1 h
          exact ⟨e, by simp [he], e1, hmin e he⟩
      obtain ⟨e, he, e1, e2⟩ := this
      obtain ⟨_, h4, w, h5, _, h6⟩ := hq2.entry e he
      have : e.2 = k + 1 := by omega
      rw [this] at h6
      rw [e1] at h5
      exact fun hh => h6 (hf.ok.holds_congr (stateCube_inj h5) hh)
    · refine GTri.bind (K.cubeReach hf.ok (by rw [hf.len]; omega) (stateCube_latchCube c u)) ?_
      rintro r fs ⟨rfl, hun, hsat⟩
      cases r with
      | sat a =>
        obtain ⟨v, v', hv, ht, hs, hval⟩ := hsat a rfl
        rw [stateCube_holds] at hs
        have hex := extractState_ok A.dbg K.laws K.range hval
        refine GTri.bind (GTri.lift_ok (Q := fun p fs'' => p = stateCube c v ∧ fs'' = _) hex ⟨rfl, rfl⟩) ?_
        rintro _ fs ⟨rfl, rfl⟩
        have hlow := hf.low h1n hv (hf.pred h1n hv ht hs hblk)
        have hdv : DoomedState c bads v := doomedState_pred K.wf hdoom ht hs
        refine GTri.bind (inductivelyGeneralize_spec K hf hk (by omega) hlow.1 hlow.2) ?_
        rintro r fs' (⟨rfl, rfl, hfail⟩ | ⟨hf', hg, m', rfl, hm1, hm2, hblk'⟩)
        · exact GTri.pure ⟨fun _ => ⟨hf, failure_unsafe K hdv hfail⟩, fun h => by simp at h⟩
        · have hs1 := (hq'.grow hg).push (n := n) hkeys.1 h1n h2n hdoom (hblk.grow hg)
          have hnew : stateCube c v ∉ (q'.push (stateCube c u) n).map Prod.fst := by
            intro hin
            rw [(hs1.2.map Prod.fst).mem_iff] at hin
            obtain ⟨e, he, e1⟩ := List.mem_map.1 hin
            obtain ⟨_, _, w, h5, _, h6⟩ := hq2.entry e he
            have hge : n ≤ e.2 := by
              rcases List.mem_cons.1 he with rfl | he
              · exact Nat.le_refl _
              · exact hmin e he
            rw [e1] at h5
            exact h6 (hf.ok.holds_congr (stateCube_inj h5) (hf.holds_le h1n hge hv.1))
          have hs2 := hs1.1.push (n := m' + 1) hnew (by omega) (by omega) hdv (hblk' _ (by omega) (Nat.le_refl _))
          refine (ih _ fs' hf' hs2.1 ?_ ?_).mono ?_
          · intro h0
            have := hs2.2.length_eq
            rw [h0] at this
            simp at this
          · refine hF.imp_right fun hF => ?_
            rw [mu_perm hs2.2]
            have h3 := mu_new (k := k) hnew (n := m' + 1) (by omega)
            rw [mu_perm hs1.2] at h3
            omega
          · rintro r fs'' ⟨hr1, hr2⟩
            refine ⟨hr1, fun hr => ?_⟩
            obtain ⟨h1, h2, h3⟩ := hr2 hr
            refine ⟨h1, hg.trans h2, fun u' hu' => h3 u' ?_⟩
            rw [(hs2.2.map Prod.fst).mem_iff, List.map_cons, List.mem_cons, (hs1.2.map Prod.fst).mem_iff, List.map_cons, List.mem_cons]
            exact .inr ((hmem u').1 hu')
      | unsat =>
        have hun := hun rfl
        have hni : ¬ c.Init u := fun hi => hblk (hf.init n u hi)
        have hsep : 0 ≤ (n : Int) → ∀ v v', InF c bads fs (n : Int).toNat v → c.Trans v v' → ¬ c.SameState v' u := by
          intro _ v v' hv ht hs
          exact hun v v' hv ht (stateCube_holds.2 hs)
        refine GTri.bind (inductivelyGeneralize_spec K hf hk (by omega) hni hsep) ?_
        rintro r fs'' (⟨rfl, rfl, hfail⟩ | ⟨hf', hg, m', rfl, hm1, hm2, hblk'⟩)
        · exact GTri.pure ⟨fun _ => ⟨hf, failure_unsafe K hdoom hfail⟩, fun h => by simp at h⟩
        · have hs1 := (hq'.grow hg).push (n := m' + 1) hkeys.1 (by omega) (by omega) hdoom (hblk' _ (by omega) (Nat.le_refl _))
          refine (ih _ fs'' hf' hs1.1 ?_ ?_).mono ?_
          · intro h0
            have := hs1.2.length_eq
            rw [h0] at this
            simp at this
          · refine hF.imp_right fun hF => ?_
            rw [mu_perm hs1.2]
            have h3 := mu_raise (c := c) (q := q') (s := stateCube c u) (k := k) (n := n) (n' := m' + 1) (by omega) (by omega)
            omega
          · rintro r fs3 ⟨hr1, hr2⟩
            refine ⟨hr1, fun hr => ?_⟩
            obtain ⟨h1, h2, h3⟩ := hr2 hr
            refine ⟨h1, hg.trans h2, fun u' hu' => h3 u' ?_⟩
            rw [(hs1.2.map Prod.fst).mem_iff, List.map_cons, List.mem_cons]
            exact (hmem u').1 hu'

/-! ## `strengthen` -/

/-- Enough fuel for one run of `push_generalization` at level `k`. -/
def pushFuel (c : Circuit) (k : Nat) : Nat := 2 ^ c.latches.length * (k + 1) + (k + 1)

theorem depthU32_spec {I : σ → List CNF → Prop} (hd : k < u32Size ∨ F (.panic "ic3 depth try_into")) :
    GTri F I fs (liftM (depthU32 k) : StateT σ Res Nat) (fun r fs' => r = k ∧ fs' = fs) := by
  unfold depthU32
  split
  · exact GTri.lift_ok rfl ⟨rfl, rfl⟩
  · exact GTri.error (hd.resolve_left ‹_›)

theorem strengthen_spec (K : Contract A c bads F) (hk : 1 ≤ k) (hd : (∃ e, c.UnsafeAt bads e) → k < u32Size ∨ F (.panic "ic3 depth try_into")) (fuel : Nat)
    (hfuel : F .fuel ∨ pushFuel c k < fuel) :
    ∀ (rounds : Nat) (fs : List CNF), Frames c bads (k + x) k fs → (F .fuel ∨ satCount c (fr fs k) < rounds) →
      GTri F K.Inv fs (A.strengthen fuel k rounds) (fun r fs' =>
        (r = none → Frames c bads (k + x) (k + 1) fs') ∧ (∀ d, r = some d → d = k ∧ Frames c bads (k + x) k fs' ∧ ∃ d, c.UnsafeAt bads d)) := by
  intro rounds
  induction rounds with
  | zero =>
    intro fs _ hF
    exact GTri.error (hF.resolve_right (by omega))
  | succ rounds ih =>
    intro fs hf hF
    unfold strengthen
    refine GTri.bind (K.badFrom (k := k) hf.ok (by rw [hf.len]; omega)) ?_
    rintro r fs ⟨rfl, hun, hsat⟩
    cases r with
    | unsat =>
      refine GTri.pure ⟨fun _ => ?_, fun d h => by simp at h⟩
      refine { hf with safe := fun i v v' hi hv ht => ?_ }
      by_cases h : i = k
      · subst h; exact hun rfl v v' hv ht
      · exact hf.safe i v v' (by omega) hv ht
    | sat a =>
      obtain ⟨v, v', hv, ht, hbad, hval⟩ := hsat a rfl
      have hex := extractState_ok A.dbg K.laws K.range hval
      refine GTri.bind (GTri.lift_ok (Q := fun p fs'' => p = stateCube c v ∧ fs'' = _) hex ⟨rfl, rfl⟩) ?_
      rintro _ fs ⟨rfl, rfl⟩
      have hl : ¬ InF c bads fs (k - 1) v := fun h => hf.safe (k - 1) v v' (by omega) h ht hbad
      have hlow := hf.low hk hv hl
      have hdv : DoomedState c bads v := ⟨v, fun _ _ => rfl, .step ht (.now hbad)⟩
      refine GTri.bind (inductivelyGeneralize_spec K hf hk (by omega) hlow.1 hlow.2) ?_
      rintro r fs1 (⟨rfl, rfl, hfail⟩ | ⟨hf', hg, n, rfl, hm1, hm2, hblk⟩)
      · have hu := failure_unsafe K hdv hfail
        refine GTri.bind (depthU32_spec (hd hu)) ?_
        rintro _ fs ⟨rfl, rfl⟩
        exact GTri.pure ⟨fun h => by simp at h, fun _ h => ⟨(Option.some.inj h).symm, hf, hu⟩⟩
      · have hq : QueueOK c bads k fs1 (PQueue.push [] (stateCube c v) (n + 1)) ∧ _ :=
          QueueOK.push (n := n + 1) ⟨by simp, by simp⟩ (by simp) (by omega) (by omega) hdv (hblk _ (by omega) (Nat.le_refl _))
        refine GTri.bind (pushGeneralization_spec K hk fuel _ fs1 hf' hq.1 ?_ ?_) ?_
        · intro h0
          have := hq.2.length_eq
          rw [h0] at this
          simp at this
        · refine hfuel.imp_right fun hfuel => ?_
          rw [mu_perm hq.2]
          have := mu_single (c := c) (k := k) (stateCube c v, n + 1)
          unfold pushFuel at hfuel
          omega
        · rintro b fs2 ⟨hb1, hb2⟩
          refine GTri.ite (fun hbt => ?_) (fun hbf => ?_)
          · obtain ⟨hf2, hg2, hblk2⟩ := hb2 hbt
            refine ih fs2 hf2 (hF.imp_right fun hF => ?_)
            have hb3 : ¬ (fr fs2 k).holds v := fun hh =>
              hblk2 v ((hq.2.map Prod.fst).mem_iff.2 (by simp)) (hf2.holds_le hk (by omega) hh)
            have := satCount_lt (c := c) (g := fr fs2 k) (g' := fr fs k) (fun u hu => (hg.trans hg2).holds hu) hv.1
              (fun w hs hh => hb3 (hf2.ok.holds_congr (sameState_symm hs) hh))
            omega
          · have hu := hb1 (by simpa using hbf)
            refine GTri.bind (depthU32_spec (hd hu.2)) ?_
            rintro _ fs ⟨rfl, rfl⟩
            exact GTri.pure ⟨fun h => by simp at h, fun _ h => ⟨(Option.some.inj h).symm, hu⟩⟩

/-! ## `propagate_clauses` -/

/-- Some transition from `F_i` leads outside `d`. -/
def Escapes (c : Circuit) (bads : List Nat) (fs : List CNF) (i : Nat) (d : Clause) : Prop :=
  ∃ v v', InF c bads fs i v ∧ c.Trans v v' ∧ ¬ d.holds v'

theorem Escapes.congr {i : Nat} {d : Clause} (h : Escapes c bads fs i d) (e : fr fs' i = fr fs i) : Escapes c bads fs' i d := by
  obtain ⟨v, v', h1, h2⟩ := h
  exact ⟨v, v', ⟨by rw [e]; exact h1.1, h1.2⟩, h2⟩

theorem propagateLoop_spec (K : Contract A c bads F) {i : Nat} (h1 : 1 ≤ i) (h2 : i ≤ k) :
    ∀ (cs : List Clause) (fs : List CNF), Frames c bads (k + x) m fs → (∀ d ∈ cs, d ∈ (fr fs i).clauses) →
      GTri F K.Inv fs (A.propagateLoop i cs) (fun _ fs' => Frames c bads (k + x) m fs' ∧ Grow fs fs' ∧
        (∀ j, j ≠ i + 1 → fr fs' j = fr fs j) ∧ ∀ d ∈ cs, d ∈ (fr fs' (i + 1)).clauses ∨ Escapes c bads fs' i d) := by
  intro cs
  induction cs with
  | nil => intro fs hf _; exact GTri.pure ⟨hf, Grow.refl _, fun _ _ => rfl, by simp⟩
  | cons d cs ih =>
    intro fs hf hcs
    unfold propagateLoop
    have hd : d ∈ (fr fs i).clauses := hcs d (by simp)
    refine GTri.bind (K.cubeReach hf.ok (by rw [hf.len]; omega) (hf.ok.clause hd).not) ?_
    rintro r fs ⟨rfl, hun, hsat⟩
    cases r with
    | unsat =>
      refine GTri.bind (K.addClause hf.ok (by omega) (by rw [hf.len]; omega) (hf.ok.clause hd)) ?_
      rintro _ fs rfl
      have hlen : i + 1 < fs.length := by rw [hf.len]; omega
      have ha : Added fs (fs.set (i + 1) ((fr fs (i + 1)).addClause d)) d (i + 1) (i + 2) := by
        refine ⟨by simp, fun j => ?_⟩
        rw [fr_set _ _ _ hlen]
        by_cases hj : j = i + 1
        · subst hj; rw [if_pos rfl, if_pos (by omega)]
        · rw [if_neg hj, if_neg (by omega)]
      have hf' := hf.propagated h1 ha hd (fun v v' hv ht => by
        have := hun rfl v v' hv ht
        rw [Clause.holds_not] at this
        exact Classical.byContradiction this)
      have hfr : ∀ j, j ≠ i + 1 → fr (fs.set (i + 1) ((fr fs (i + 1)).addClause d)) j = fr fs j := by
        intro j hj
        rw [fr_set _ _ _ hlen, if_neg hj]
      refine (ih _ hf' ?_).mono ?_
      · intro e he
        rw [hfr i (by omega)]; exact hcs e (by simp [he])
      · rintro _ fs2 ⟨h3, h4, h5, h6⟩
        refine ⟨h3, ha.grow.trans h4, fun j hj => (h5 j hj).trans (hfr j hj), ?_⟩
        intro e he
        rcases List.mem_cons.1 he with rfl | he
        · exact .inl (h4.sub _ _ (ha.mem.2 (.inr ⟨by omega, rfl⟩)))
        · exact h6 e he
    | sat a =>
      obtain ⟨v, v', hv, ht, hs, _⟩ := hsat a rfl
      refine (ih _ hf (fun e he => hcs e (by simp [he]))).mono ?_
      rintro _ fs2 ⟨h3, h4, h5, h6⟩
      refine ⟨h3, h4, h5, ?_⟩
      intro e he
      rcases List.mem_cons.1 he with rfl | he
      · refine .inr (Escapes.congr ⟨v, v', hv, ht, ?_⟩ (h5 i (by omega)))
        rw [Clause.holds_not] at hs; exact hs
      · exact h6 e he

/-- Every clause of frame `i` that is missing in frame `i + 1` is violated one step after `F_i`. -/
def Tight (c : Circuit) (bads : List Nat) (fs : List CNF) (i : Nat) : Prop :=
  ∀ d ∈ (fr fs i).clauses, d ∈ (fr fs (i + 1)).clauses ∨ Escapes c bads fs i d

theorem propagateFrames_spec (K : Contract A c bads F) :
    ∀ (n a : Nat) (fs : List CNF), 1 ≤ a → a + n = k + 1 → Frames c bads (k + x) m fs →
      GTri F K.Inv fs (A.propagateFrames (List.range' a n)) (fun _ fs' => Frames c bads (k + x) m fs' ∧
        (∀ j, j ≤ a → fr fs' j = fr fs j) ∧ ∀ i, a ≤ i → i ≤ k → Tight c bads fs' i) := by
  intro n
  induction n with
  | zero =>
    intro a fs ha he hf
    exact GTri.pure ⟨hf, fun _ _ => rfl, fun i h1 h2 => by omega⟩
  | succ n ih =>
    intro a fs ha he hf
    rw [List.range'_succ]
    unfold propagateFrames
    refine GTri.bind (K.frame (by rw [hf.len]; omega)) ?_
    rintro g fs ⟨rfl, rfl⟩
    refine GTri.bind (K.tick _) ?_
    rintro t fs rfl
    have hp := K.sched.order t (fr fs a).iter
    refine GTri.bind (propagateLoop_spec K ha (by omega) _ _ hf (fun d hd => hp.mem_iff.1 hd)) ?_
    rintro _ fs1 ⟨h1, h2, h3, h4⟩
    refine (ih (a + 1) fs1 (by omega) (by omega) h1).mono ?_
    rintro _ fs2 ⟨h5, h6, h7⟩
    refine ⟨h5, fun j hj => ?_, fun i hi1 hi2 => ?_⟩
    · rw [h6 j (by omega), h3 j (by omega)]
    · by_cases e : i = a
      · subst e
        intro d hd
        rw [h6 i (by omega), h3 i (by omega)] at hd
        rw [h6 (i + 1) (Nat.le_refl _)]
        exact (h4 d (hp.mem_iff.2 hd)).imp_right fun h => h.congr (h6 i (by omega))
      · exact h7 i (by omega) hi2

theorem propagateClauses_spec (K : Contract A c bads F) (hf : Frames c bads (k + x) m fs) :
    GTri F K.Inv fs (A.propagateClauses k) (fun _ fs' => Frames c bads (k + x) m fs' ∧ ∀ i, 1 ≤ i → i ≤ k → Tight c bads fs' i) :=
  (propagateFrames_spec K k 1 fs (Nat.le_refl _) (by omega) hf).mono fun _ _ h => ⟨h.1, h.2.2⟩

/-! ## Looking for a fixpoint -/

theorem findFixpoint_spec (K : Contract A c bads F) (hf : Frames c bads (k + x) m fs) :
    ∀ (n a : Nat), 1 ≤ a → a + n = k + 1 →
      GTri F K.Inv fs (A.findFixpoint (List.range' a n)) (fun r fs' => fs' = fs ∧
        (∀ g, r = some g → ∃ i, a ≤ i ∧ i ≤ k ∧ (fr fs i).len = (fr fs (i + 1)).len ∧ g = (fr fs i).append A.forms.p0 ∧
          ∀ j, a ≤ j → j < i → (fr fs j).len ≠ (fr fs (j + 1)).len) ∧
        (r = none → ∀ i, a ≤ i → i ≤ k → (fr fs i).len ≠ (fr fs (i + 1)).len)) := by
  intro n
  induction n with
  | zero =>
    intro a ha he
    exact GTri.pure ⟨rfl, fun g h => by simp at h, fun _ i h1 h2 => by omega⟩
  | succ n ih =>
    intro a ha he
    rw [List.range'_succ]
    unfold findFixpoint
    refine GTri.bind (K.frame (by rw [hf.len]; omega)) ?_
    rintro g fs ⟨rfl, rfl⟩
    refine GTri.bind (K.frame (i := a + 1) (by rw [hf.len]; omega)) ?_
    rintro g fs ⟨rfl, rfl⟩
    have hassert : debugAssertR A.dbg "ic3 clauses[i+1] in clauses[i]" ((fr fs (a + 1)).iter.all (fun c => (fr fs a).contains c)) = .ok () := by
      have : (fr fs (a + 1)).iter.all (fun c => (fr fs a).contains c) = true := by
        rw [List.all_eq_true]
        intro d hd
        have := hf.mono a ha d hd
        simpa [CNF.contains] using this
      rw [this]
      cases A.dbg <;> rfl
    refine GTri.bind (GTri.lift_ok (Q := fun _ fs' => fs' = fs) hassert rfl) ?_
    rintro _ fs rfl
    refine GTri.ite (fun heq => ?_) (fun hne => ?_)
    · refine GTri.bind (K.getFk (i := a) (by rw [hf.len]; omega)) ?_
      rintro g fs1 ⟨rfl, hg⟩
      rw [if_neg (by omega)] at hg
      exact GTri.pure ⟨rfl, fun g' h => ⟨a, Nat.le_refl _, by omega, heq, by rw [← Option.some.inj h, hg], fun j h1 h2 => by omega⟩, fun h => by simp at h⟩
    · refine (ih (a + 1) (by omega) (by omega)).mono ?_
      rintro r fs ⟨rfl, h1, h2⟩
      refine ⟨rfl, fun g hg => ?_, fun h i hi1 hi2 => ?_⟩
      · obtain ⟨i, hi1, hi2, hi3, hi4, hi5⟩ := h1 g hg
        refine ⟨i, by omega, hi2, hi3, hi4, fun j hj1 hj2 => ?_⟩
        by_cases e : j = a
        · subst e; exact hne
        · exact hi5 j (by omega) hj2
      · by_cases e : i = a
        · subst e; exact hne
        · exact h2 h i (by omega) hi2

theorem sub_of_len {l l' : List Clause} (hn : l'.Nodup) (hs : ∀ d ∈ l', d ∈ l) (hl : l.length ≤ l'.length) : ∀ d ∈ l, d ∈ l' := by
  induction l' generalizing l with
  | nil =>
    have : l = [] := List.eq_nil_of_length_eq_zero (by simpa using hl)
    subst this; simp
  | cons a l' ih =>
    rw [List.nodup_cons] at hn
    intro d hd
    have ha : a ∈ l := hs a (by simp)
    have hp := List.perm_cons_erase ha
    by_cases e : d = a
    · subst e; simp
    · refine List.mem_cons_of_mem _ (ih (l := l.erase a) hn.2 ?_ ?_ d ?_)
      · intro x hx
        have hxl := hs x (by simp [hx])
        have hne : x ≠ a := by intro e; subst e; exact hn.1 hx
        exact (List.mem_erase_of_ne hne).2 hxl
      · have := hp.length_eq
        simp only [List.length_cons] at this hl
        omega
      · exact (List.mem_erase_of_ne e).2 hd

/-- Equally long frames are equal as sets. -/
theorem Frames.fix (hf : Frames c bads k m fs) {i : Nat} (hi : 1 ≤ i) (he : (fr fs i).len = (fr fs (i + 1)).len) {v : Val}
    (hv : (fr fs (i + 1)).holds v) : (fr fs i).holds v :=
  fun d hd => hv d (sub_of_len (hf.ok.wf (i + 1)).nodup (hf.mono i hi) (Nat.le_of_eq he) d hd)

/-- Without a fixpoint the number of states grows from frame to frame. -/
theorem Frames.chain (hf : Frames c bads (k + x) m fs) (ht : ∀ i, 1 ≤ i → i ≤ k → Tight c bads fs i)
    (hne : ∀ i, 1 ≤ i → i ≤ k → (fr fs i).len ≠ (fr fs (i + 1)).len) : ∀ i, i ≤ k → i + 1 ≤ satCount c (fr fs (i + 1)) := by
  intro i
  induction i with
  | zero =>
    intro _
    obtain ⟨v, hv⟩ := c.exists_init
    exact satCount_pos (hf.init 1 v hv)
  | succ i ih =>
    intro hi
    have h1 := ih (by omega)
    refine Nat.lt_of_le_of_lt h1 ?_
    have : ∃ d ∈ (fr fs (i + 1)).clauses, d ∉ (fr fs (i + 1 + 1)).clauses := by
      refine Classical.byContradiction fun hno => hne (i + 1) (by omega) hi ?_
      have hsub : ∀ d ∈ (fr fs (i + 1)).clauses, d ∈ (fr fs (i + 1 + 1)).clauses :=
        fun d hd => Classical.byContradiction fun hn => hno ⟨d, hd, hn⟩
      have hp : (fr fs (i + 1)).clauses.Perm (fr fs (i + 1 + 1)).clauses :=
        (List.perm_ext_iff_of_nodup (hf.ok.wf _).nodup (hf.ok.wf _).nodup).2 fun d => ⟨hsub d, hf.mono (i + 1) (by omega) d⟩
      exact hp.length_eq
    obtain ⟨d, hd, hnd⟩ := this
    obtain ⟨v, v', hv, htr, hdv⟩ := (ht (i + 1) (by omega) hi d hd).resolve_left hnd
    refine satCount_lt (fun u hu => hf.holds_le (by omega) (by omega) hu) (u := v') (hf.step (i + 1) v v' hv htr) ?_
    intro w hs hw
    exact hdv (hf.ok.holds_congr (sameState_symm hs) hw d hd)

/-! ## The main loop -/

/-- What a reported depth means: exact for counterexamples of at most one step, below the shortest one otherwise. -/
def CtxDepth (c : Circuit) (bads : List Nat) (d : Nat) : Prop := ∃ e, c.Shortest bads e ∧ (e ≤ 1 ∧ d = e ∨ 1 ≤ d ∧ d < e)

theorem shortest_of {e : Nat} (h : c.UnsafeAt bads e) : ∃ e', c.Shortest bads e' := by
  induction e using Nat.strongRecOn with
  | _ e ih =>
    by_cases hj : ∃ j, j < e ∧ c.UnsafeAt bads j
    · obtain ⟨j, hlt, hu⟩ := hj
      exact ih j hlt hu
    · exact ⟨e, h, fun j hlt hu => hj ⟨j, hlt, hu⟩⟩

/-- What the provers' answers mean. -/
def Answer (A : IC3 σ) (c : Circuit) (bads : List Nat) : ProofResult → Prop
  | .ctx d => CtxDepth c bads d
  | .proof inv => ∃ (n k i : Nat) (fs : List CNF), Frames c bads n (k + 1) fs ∧ 1 ≤ i ∧ i ≤ k ∧
      (fr fs i).len = (fr fs (i + 1)).len ∧ inv = (fr fs i).append A.forms.p0

/-- Enough fuel for everything. -/
def enough (c : Circuit) : Nat := 2 ^ c.latches.length * (2 ^ c.latches.length + 2) + (2 ^ c.latches.length + 2)

theorem enough_push (hk : k ≤ 2 ^ c.latches.length + 1) : pushFuel c k ≤ enough c := by
  unfold pushFuel enough
  have := Nat.mul_le_mul_left (2 ^ c.latches.length) (show k + 1 ≤ 2 ^ c.latches.length + 2 by omega)
  omega

/-- Which failures are possible at all: depths that do not fit a `u32` need a counterexample that is even longer. -/
def DepthOK (c : Circuit) (bads : List Nat) (F : Err → Prop) : Prop := (∀ e, c.Shortest bads e → e ≤ u32Size) ∨ F (.panic "ic3 depth try_into")

/-- The frames a returning call of `prove` may leave behind. -/
inductive Used (c : Circuit) (bads : List Nat) : List CNF → Prop where
  | none : c.UnsafeAt bads 0 ∨ c.UnsafeAt bads 1 → Used c bads []
  | frames {n m : Nat} {fs : List CNF} : Frames c bads n m fs → 1 ≤ m → Used c bads fs

theorem mainLoop_spec (K : Contract A c bads F) (hd : DepthOK c bads F) (fuel : Nat) (hfuel : F .fuel ∨ enough c < fuel) (hx : A.dbg = true → x = 0) :
    ∀ (rounds k : Nat) (fs : List CNF), 1 ≤ k → Frames c bads (k - 1 + x) k fs → k ≤ 2 ^ c.latches.length + 1 →
      (F .fuel ∨ 2 ^ c.latches.length + 1 - k < rounds) →
      GTri F K.Inv fs (A.mainLoop fuel rounds k) (fun r fs' => Answer A c bads r ∧ Used c bads fs') := by
  intro rounds
  induction rounds with
  | zero =>
    intro k fs _ _ _ hF
    exact GTri.error (hF.resolve_right (by omega))
  | succ rounds ih =>
    intro k fs hk hf hkb hF
    unfold mainLoop
    refine GTri.bind (K.pushFrame hf.ok) ?_
    rintro _ fs rfl
    have hf1 := hf.push
    rw [show k - 1 + x + 1 = k + x by omega] at hf1
    refine GTri.bind (K.enterFrame hf1.ok (by rw [hf1.len]; omega) fun e => by rw [hf1.len, hx e]) ?_
    rintro _ fs rfl
    have hdk : (∃ e, c.UnsafeAt bads e) → k < u32Size ∨ F (.panic "ic3 depth try_into") := fun ⟨e, he⟩ => hd.imp_left fun hd => by
      obtain ⟨e', he'⟩ := shortest_of he
      exact Nat.lt_of_lt_of_le (Nat.lt_of_not_le fun hle => hf.lower K.wf K.bad hle he'.1) (hd e' he')
    refine GTri.bind (strengthen_spec K hk hdk fuel (hfuel.imp_right fun h => ?_) fuel _ hf1 (hfuel.imp_right fun h => ?_)) ?_
    · have := enough_push (c := c) hkb; omega
    · have := satCount_le c (fr (fs ++ [CNF.new]) k)
      unfold enough at h; omega
    · rintro r fs2 ⟨h1, h2⟩
      cases r with
      | some d =>
        obtain ⟨_, hf2, e, he⟩ := h2 d rfl
        refine GTri.bind (depthU32_spec (hdk ⟨e, he⟩)) ?_
        rintro _ fs ⟨rfl, rfl⟩
        obtain ⟨e', he'⟩ := shortest_of he
        exact GTri.pure ⟨⟨e', he', .inr ⟨hk, Nat.lt_of_not_le fun hle => hf.lower K.wf K.bad hle he'.1⟩⟩, .frames hf2 hk⟩
      | none =>
        refine GTri.bind (propagateClauses_spec K (h1 rfl)) ?_
        rintro _ fs3 ⟨hf3, htight⟩
        refine GTri.bind (findFixpoint_spec K hf3 k 1 (Nat.le_refl _) (by omega)) ?_
        rintro r fs ⟨rfl, hsome, hnone⟩
        cases r with
        | some inv =>
          obtain ⟨i, hi1, hi2, he, hinv, _⟩ := hsome inv rfl
          exact GTri.pure ⟨⟨_, k, i, _, hf3, hi1, hi2, he, hinv⟩, .frames hf3 (by omega)⟩
        | none =>
          have hc := hf3.chain htight (hnone rfl) k (Nat.le_refl _)
          have := satCount_le c (fr fs (k + 1))
          refine ih (k + 1) _ (by omega) (by rw [show k + 1 - 1 + x = k + x by omega]; exact hf3) (by omega) (hF.imp_right fun h => by omega)

theorem frames_start (hok : ∀ v, c.Init v → ¬ c.BadAt bads v) (h1 : ∀ v v', c.Init v → c.Trans v v' → ¬ c.BadAt bads v') :
    Frames c bads 0 1 (([] ++ [CNF.new]) ++ [CNF.new]) := by
  have hfr : ∀ i, fr (([] ++ [CNF.new]) ++ [CNF.new]) i = CNF.new := fun i => by rw [fr_push, fr_push]; rfl
  have hh : ∀ v, CNF.new.holds v := fun v d hd => by simp [CNF.new, CNF.iter] at hd
  refine ⟨rfl, FsOK.nil.push.push, ?_, ?_, hok, ?_, ?_⟩
  · intro i _ d hd; rw [hfr] at hd ⊢; exact hd
  · intro i v _; rw [hfr]; exact hh v
  · intro i v v' _ _; rw [hfr]; exact hh v'
  · intro i v v' hi hv ht
    have := hv.2
    rw [if_pos (by omega)] at this
    exact h1 v v' this ht

theorem Frames.weaken (h : Frames c bads k m fs) {m' : Nat} (hm : m' ≤ m) : Frames c bads k m' fs :=
  { h with safe := fun i v v' hi => h.safe i v v' (by omega) }

/-- The frames at the beginning of a call of `prove`. -/
def Start (c : Circuit) (bads : List Nat) (fs : List CNF) : Prop := fs = [] ∨ Used c bads fs

theorem Start.ok (h : Start c bads fs) : FsOK c fs := by
  rcases h with rfl | h
  · exact FsOK.nil
  · cases h with
    | none _ => exact FsOK.nil
    | frames hf _ => exact hf.ok

theorem Start.frames (h : Start c bads fs) (h0 : ∀ v, c.Init v → ¬ c.BadAt bads v)
    (h1 : ∀ v v', c.Init v → c.Trans v v' → ¬ c.BadAt bads v') :
    ∃ x, Frames c bads x 1 ((fs ++ [CNF.new]) ++ [CNF.new]) ∧ x = fs.length := by
  rcases h with rfl | h
  · exact ⟨0, frames_start h0 h1, rfl⟩
  · cases h with
    | none _ => exact ⟨0, frames_start h0 h1, rfl⟩
    | frames hf hm => exact ⟨_, (hf.weaken hm).push.push, hf.len.symm⟩

theorem prove_spec (K : Contract A c bads F) (hd : DepthOK c bads F) (fuel : Nat) (hfuel : F .fuel ∨ enough c < fuel) {fs : List CNF}
    (hst : Start c bads fs) (hdbg : A.dbg = true → fs = []) :
    GTri F K.Inv fs (A.prove fuel) (fun r fs' => Answer A c bads r ∧ Used c bads fs') := by
  unfold prove
  have keep : c.UnsafeAt bads 0 ∨ c.UnsafeAt bads 1 → Used c bads fs := by
    intro hu
    rcases hst with rfl | h
    · exact .none hu
    · exact h
  refine GTri.bind (K.badIn0 fs) ?_
  rintro r fs ⟨rfl, h0⟩
  cases r with
  | sat a =>
    have hu : c.UnsafeAt bads 0 := by
      refine Classical.byContradiction fun hno => ?_
      have := h0.2 fun v hv hb => hno ((Circuit.unsafeAt_iff K.wf K.bad.lit 0).2 ⟨v, .init hv, hb⟩)
      simp at this
    exact GTri.pure ⟨⟨0, ⟨hu, fun j hj => by omega⟩, .inl ⟨by omega, rfl⟩⟩, keep (.inl hu)⟩
  | unsat =>
    have h0 := h0.1 rfl
    refine GTri.bind (K.badIn1 _) ?_
    rintro r fs ⟨rfl, h1⟩
    cases r with
    | sat a =>
      have hu : c.UnsafeAt bads 1 := by
        refine Classical.byContradiction fun hno => ?_
        have := h1.2 fun v v' hv ht hb => hno ((Circuit.unsafeAt_iff K.wf K.bad.lit 1).2 ⟨v', .step (.init hv) ht, hb⟩)
        simp at this
      refine GTri.pure ⟨⟨1, ⟨hu, fun j hj => ?_⟩, .inl ⟨by omega, rfl⟩⟩, keep (.inr hu)⟩
      · rw [Circuit.unsafeAt_iff K.wf K.bad.lit]
        have : j = 0 := by omega
        subst this
        rintro ⟨v, hr, hb⟩
        cases hr with
        | init hi => exact h0 v hi hb
    | unsat =>
      have h1 := h1.1 rfl
      obtain ⟨x, hfx, hx⟩ := hst.frames h0 h1
      refine GTri.bind (K.pushFrame hst.ok) ?_
      rintro _ fs' rfl
      refine GTri.bind (K.pushFrame hst.ok.push) ?_
      rintro _ fs' rfl
      refine mainLoop_spec (x := x) K hd fuel hfuel (fun e => by rw [hx, hdbg e]; rfl) fuel 1 _ (Nat.le_refl _)
        (by rw [show 1 - 1 + x = x by omega]; exact hfx) (Nat.le_add_left _ _)
        (hfuel.imp_right fun h => by unfold enough at h; generalize 2 ^ c.latches.length = z at *; omega)

end Verif.IC3
