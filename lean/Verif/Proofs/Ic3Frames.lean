import Verif.Proofs.FstsEnc
import Verif.Proofs.Hoare
import Verif.Proofs.Choice
import Verif.Model.Ic3
import Verif.Spec.Frames

/-! # IC3: the theory of frames -/

namespace Verif.IC3

open Fsts

variable {c : Circuit} {bads : List Nat} {fs fs' : List CNF}

/-- The set `F_i`. -/
def InF (c : Circuit) (bads : List Nat) (fs : List CNF) (i : Nat) (v : Val) : Prop :=
  (fr fs i).holds v ∧ if i = 0 then c.Init v else ¬ c.BadAt bads v

structure LatchClause (c : Circuit) (d : Clause) : Prop where
  sorted : d.Sorted
  lits : ∀ l ∈ d.lits, LatchLit c l

structure LatchCube (c : Circuit) (s : Cube) : Prop where
  sorted : s.Sorted
  lits : ∀ l ∈ s.lits, LatchLit c l

/-- Frames hold clauses over latches; frame 0 holds none. -/
structure FsOK (c : Circuit) (fs : List CNF) : Prop where
  wf : ∀ i, (fr fs i).WF
  lits : ∀ i, ∀ d ∈ (fr fs i).clauses, ∀ l ∈ d.lits, LatchLit c l
  zero : (fr fs 0).clauses = []

theorem FsOK.clause (h : FsOK c fs) {i : Nat} {d : Clause} (hd : d ∈ (fr fs i).clauses) : LatchClause c d :=
  ⟨(h.wf i).sorted d hd, h.lits i d hd⟩

theorem LatchClause.holds_congr {d : Clause} (h : LatchClause c d) {v w : Val} (hs : c.SameState v w) : d.holds v → d.holds w := by
  rintro ⟨l, hl, hv⟩
  exact ⟨l, hl, ((h.lits l hl).holds_congr hs).1 hv⟩

theorem LatchClause.not {d : Clause} (h : LatchClause c d) : LatchCube c d.not :=
  ⟨Cube.sorted_of_not d, fun l hl => by
    have := (h.lits _ (Clause.mem_not.1 hl)).not
    rwa [Literal.not_not] at this⟩

theorem LatchCube.not {s : Cube} (h : LatchCube c s) : LatchClause c s.not :=
  ⟨Clause.sorted_of_not s, fun l hl => by
    have := (h.lits _ (Cube.mem_not.1 hl)).not
    rwa [Literal.not_not] at this⟩

theorem stateCube_latchCube (c : Circuit) (u : Val) : LatchCube c (stateCube c u) :=
  ⟨Cube.sorted_new _, fun _ hl => stateCube_latch hl⟩

theorem FsOK.holds_congr (h : FsOK c fs) {i : Nat} {v w : Val} (hs : c.SameState v w) : (fr fs i).holds v → (fr fs i).holds w :=
  fun hv d hd => (h.clause hd).holds_congr hs (hv d hd)

theorem sameState_symm {v w : Val} (h : c.SameState v w) : c.SameState w v := fun i hi => (h i hi).symm

theorem stateCube_inj {u v : Val} (h : stateCube c u = stateCube c v) : c.SameState u v := by
  have : (stateCube c u).holds u := stateCube_holds.2 (fun _ _ => rfl)
  rw [h] at this
  exact stateCube_holds.1 this

/-! ## Updating frames -/

theorem fr_set (i j : Nat) (g : CNF) (hi : i < fs.length) : fr (fs.set i g) j = if j = i then g else fr fs j := by
  unfold fr
  rw [List.getD_eq_getElem?_getD, List.getD_eq_getElem?_getD, List.getElem?_set]
  by_cases h : i = j
  · subst h; simp [hi]
  · rw [if_neg h, if_neg (fun e => h e.symm)]

theorem fr_push (j : Nat) : fr (fs ++ [CNF.new]) j = fr fs j := by
  unfold fr
  rw [List.getD_eq_getElem?_getD, List.getD_eq_getElem?_getD]
  by_cases h : j < fs.length
  · rw [List.getElem?_append_left h]
  · rw [List.getElem?_append_right (by omega), List.getElem?_eq_none (l := fs) (by omega)]
    cases hj : j - fs.length with
    | zero => rfl
    | succ n => rfl

theorem fr_ge {j : Nat} (h : fs.length ≤ j) : fr fs j = CNF.new := by
  unfold fr
  rw [List.getD_eq_getElem?_getD, List.getElem?_eq_none h]; rfl

theorem fr_get {j : Nat} (h : j < fs.length) : fs[j]? = some (fr fs j) := by
  unfold fr
  rw [List.getD_eq_getElem?_getD, List.getElem?_eq_getElem h]; rfl

theorem FsOK.push (h : FsOK c fs) : FsOK c (fs ++ [CNF.new]) :=
  ⟨fun i => by rw [fr_push]; exact h.wf i, fun i => by rw [fr_push]; exact h.lits i, by rw [fr_push]; exact h.zero⟩

theorem FsOK.nil : FsOK c [] := ⟨fun _ => CNF.WF.new, fun _ d hd => by simp [fr, CNF.new] at hd, rfl⟩

theorem FsOK.set (h : FsOK c fs) {i : Nat} (hi : i < fs.length) (h1 : 1 ≤ i) {d : Clause} (hd : LatchClause c d) :
    FsOK c (fs.set i ((fr fs i).addClause d)) where
  wf := by
    intro j
    rw [fr_set _ _ _ hi]
    split
    · exact (h.wf i).addClause hd.sorted
    · exact h.wf j
  lits := by
    intro j
    rw [fr_set _ _ _ hi]
    split
    · intro e he
      rcases CNF.mem_addClause.1 he with he | rfl
      · exact h.lits i e he
      · exact hd.lits
    · exact h.lits j
  zero := by rw [fr_set _ _ _ hi, if_neg (by omega)]; exact h.zero

/-- Frames only gain clauses. -/
structure Grow (fs fs' : List CNF) : Prop where
  len : fs'.length = fs.length
  sub : ∀ i, ∀ d ∈ (fr fs i).clauses, d ∈ (fr fs' i).clauses

theorem Grow.refl (fs : List CNF) : Grow fs fs := ⟨rfl, fun _ _ h => h⟩
theorem Grow.trans {fs'' : List CNF} (h : Grow fs fs') (h' : Grow fs' fs'') : Grow fs fs'' :=
  ⟨by rw [h'.len, h.len], fun i d hd => h'.sub i d (h.sub i d hd)⟩
theorem Grow.holds (h : Grow fs fs') {i : Nat} {v : Val} (hv : (fr fs' i).holds v) : (fr fs i).holds v := fun d hd => hv d (h.sub i d hd)
theorem Grow.inF (h : Grow fs fs') {i : Nat} {v : Val} (hv : InF c bads fs' i v) : InF c bads fs i v := ⟨h.holds hv.1, hv.2⟩

theorem Grow.set {i : Nat} (hi : i < fs.length) (d : Clause) : Grow fs (fs.set i ((fr fs i).addClause d)) where
  len := by simp
  sub := by
    intro j e he
    rw [fr_set _ _ _ hi]
    split
    · rename_i h; subst h; exact CNF.mem_addClause.2 (.inl he)
    · exact he

/-! ## The invariant -/

/-- `k`: current level; bad states are not one step away from `F_i` for `i < m`. -/
structure Frames (c : Circuit) (bads : List Nat) (k m : Nat) (fs : List CNF) : Prop where
  len : fs.length = k + 2
  ok : FsOK c fs
  mono : ∀ i, 1 ≤ i → ∀ d ∈ (fr fs (i + 1)).clauses, d ∈ (fr fs i).clauses
  init : ∀ i v, c.Init v → (fr fs i).holds v
  good : ∀ v, c.Init v → ¬ c.BadAt bads v
  step : ∀ i v v', InF c bads fs i v → c.Trans v v' → (fr fs (i + 1)).holds v'
  safe : ∀ i v v', i < m → InF c bads fs i v → c.Trans v v' → ¬ c.BadAt bads v'

variable {k m : Nat}

theorem Frames.mono_le (h : Frames c bads k m fs) {i j : Nat} (hi : 1 ≤ i) (hij : i ≤ j) :
    ∀ d ∈ (fr fs j).clauses, d ∈ (fr fs i).clauses := by
  induction j with
  | zero => omega
  | succ j ih =>
    intro d hd
    by_cases e : i = j + 1
    · subst e; exact hd
    · exact ih (by omega) d (h.mono j (by omega) d hd)

theorem Frames.holds_le (h : Frames c bads k m fs) {i j : Nat} (hi : 1 ≤ i) (hij : i ≤ j) {v : Val} (hv : (fr fs i).holds v) :
    (fr fs j).holds v := fun d hd => hv d (h.mono_le hi hij d hd)

theorem Frames.inF_init (h : Frames c bads k m fs) (i : Nat) {v : Val} (hv : c.Init v) : InF c bads fs i v := by
  refine ⟨h.init i v hv, ?_⟩
  split
  · exact hv
  · exact h.good v hv

theorem Frames.inF_le (h : Frames c bads k m fs) {i j : Nat} (hij : i ≤ j) {v : Val} (hv : InF c bads fs i v) : InF c bads fs j v := by
  by_cases h0 : i = 0
  · have := hv.2
    rw [if_pos h0] at this
    exact h.inF_init j this
  · have h2 := hv.2
    rw [if_neg h0] at h2
    exact ⟨h.holds_le (by omega) hij hv.1, by rw [if_neg (by omega)]; exact h2⟩

/-- States reachable in at most `m` steps are good, and lie in the frames. -/
theorem Frames.reach (h : Frames c bads k m fs) {j : Nat} {v : Val} (hr : c.Reach j v) :
    (j ≤ m → ¬ c.BadAt bads v) ∧ (j ≤ m → InF c bads fs j v) := by
  induction hr with
  | init hi => exact ⟨fun _ => h.good _ hi, fun _ => h.inF_init 0 hi⟩
  | @step d v v' _ ht ih =>
    have g : d + 1 ≤ m → ¬ c.BadAt bads v' := fun hd => h.safe d v v' (by omega) (ih.2 (by omega)) ht
    exact ⟨g, fun hd => ⟨h.step d v v' (ih.2 (by omega)) ht, by rw [if_neg (by omega)]; exact g hd⟩⟩

theorem Frames.lower (h : Frames c bads k m fs) (hw : c.WF) (hb : BadsOK c bads) {j : Nat} (hj : j ≤ m) : ¬ c.UnsafeAt bads j := by
  rw [Circuit.unsafeAt_iff hw hb.lit]
  rintro ⟨v, hr, hbad⟩
  exact (h.reach hr).1 hj hbad

theorem Frames.push (h : Frames c bads k m fs) : Frames c bads (k + 1) m (fs ++ [CNF.new]) where
  len := by simp [h.len]
  ok := h.ok.push
  mono := by simpa only [fr_push] using h.mono
  init := by simpa only [fr_push] using h.init
  good := h.good
  step := by simpa only [fr_push, InF] using h.step
  safe := by simpa only [fr_push, InF] using h.safe

/-- Adding clauses keeps the invariant, if they are added downwards closed, are true initially, and are inductive relative to the
frame below. -/
theorem Frames.grow (h : Frames c bads k m fs) (hg : Grow fs fs') (hok : FsOK c fs')
    (hmono : ∀ i, 1 ≤ i → ∀ d ∈ (fr fs' (i + 1)).clauses, d ∈ (fr fs' i).clauses)
    (hinit : ∀ i, ∀ d ∈ (fr fs' i).clauses, d ∉ (fr fs i).clauses → ∀ v, c.Init v → d.holds v)
    (hstep : ∀ i, ∀ d ∈ (fr fs' (i + 1)).clauses, d ∉ (fr fs (i + 1)).clauses → ∀ v v', InF c bads fs' i v → c.Trans v v' → d.holds v') :
    Frames c bads k m fs' where
  len := by rw [hg.len, h.len]
  ok := hok
  mono := hmono
  init := by
    intro i v hv d hd
    by_cases hd' : d ∈ (fr fs i).clauses
    · exact h.init i v hv d hd'
    · exact hinit i d hd hd' v hv
  good := h.good
  step := by
    intro i v v' hv ht d hd
    by_cases hd' : d ∈ (fr fs (i + 1)).clauses
    · exact h.step i v v' (hg.inF hv) ht d hd'
    · exact hstep i d hd hd' v v' hv ht
  safe := fun i v v' hi hv ht => h.safe i v v' hi (hg.inF hv) ht

/-- `d` is true initially and inductive relative to `F_i`. -/
def Rel (c : Circuit) (bads : List Nat) (fs : List CNF) (i : Nat) (d : Clause) : Prop :=
  (∀ v, c.Init v → d.holds v) ∧ ∀ v v', InF c bads fs i v → d.holds v → c.Trans v v' → d.holds v'

/-- `fs'` is `fs` with `d` added to the frames `a ≤ j < b`. -/
structure Added (fs fs' : List CNF) (d : Clause) (a b : Nat) : Prop where
  len : fs'.length = fs.length
  fr : ∀ j, fr fs' j = if a ≤ j ∧ j < b then (fr fs j).addClause d else fr fs j

theorem Added.grow {d : Clause} {a b : Nat} (h : Added fs fs' d a b) : Grow fs fs' where
  len := h.len
  sub := by
    intro i e he
    rw [h.fr]
    split
    · exact CNF.mem_addClause.2 (.inl he)
    · exact he

theorem Added.mem {d : Clause} {a b : Nat} (h : Added fs fs' d a b) {j : Nat} {e : Clause} :
    e ∈ (IC3.fr fs' j).clauses ↔ e ∈ (IC3.fr fs j).clauses ∨ ((a ≤ j ∧ j < b) ∧ e = d) := by
  rw [h.fr]
  split
  · rename_i hj
    rw [CNF.mem_addClause]
    constructor
    · rintro (h | h)
      · exact .inl h
      · exact .inr ⟨hj, h⟩
    · rintro (h | h)
      · exact .inl h
      · exact .inr h.2
  · rename_i hj
    constructor
    · exact .inl
    · rintro (h | h)
      · exact h
      · exact absurd h.1 hj

theorem Added.ok {d : Clause} {a b : Nat} (h : Added fs fs' d a b) (hok : FsOK c fs) (ha : 1 ≤ a) (hd : LatchClause c d) : FsOK c fs' where
  wf := by
    intro i
    rw [h.fr]
    split
    · exact (hok.wf i).addClause hd.sorted
    · exact hok.wf i
  lits := by
    intro i e he
    rcases h.mem.1 he with he | ⟨_, rfl⟩
    · exact hok.lits i e he
    · exact hd.lits
  zero := by rw [h.fr, if_neg (by omega)]; exact hok.zero

/-- Adding a clause that is inductive relative to `F_n` to the frames `1..n+1`. -/
theorem Frames.added (h : Frames c bads k m fs) {d : Clause} {n : Nat} (ha : Added fs fs' d 1 (n + 2)) (hd : LatchClause c d)
    (hrel : Rel c bads fs n d) : Frames c bads k m fs' := by
  refine h.grow ha.grow (ha.ok h.ok (by omega) hd) ?_ ?_ ?_
  · intro i hi e he
    rcases ha.mem.1 he with he | ⟨hj, rfl⟩
    · exact ha.mem.2 (.inl (h.mono i hi e he))
    · exact ha.mem.2 (.inr ⟨by omega, rfl⟩)
  · intro i e he hn v hv
    rcases ha.mem.1 he with he | ⟨_, rfl⟩
    · exact absurd he hn
    · exact hrel.1 v hv
  · intro i e he hn v v' hv ht
    rcases ha.mem.1 he with he | ⟨hj, rfl⟩
    · exact absurd he hn
    · refine hrel.2 v v' (h.inF_le (by omega) (ha.grow.inF hv)) ?_ ht
      by_cases h0 : i = 0
      · have := hv.2
        rw [if_pos h0] at this
        exact hrel.1 v this
      · exact hv.1 _ (ha.mem.2 (.inr ⟨by omega, rfl⟩))

/-- Copying a clause of frame `i` to frame `i + 1`. -/
theorem Frames.propagated (h : Frames c bads k m fs) {d : Clause} {i : Nat} (hi : 1 ≤ i) (ha : Added fs fs' d (i + 1) (i + 2))
    (hd : d ∈ (fr fs i).clauses) (hstep : ∀ v v', InF c bads fs i v → c.Trans v v' → d.holds v') : Frames c bads k m fs' := by
  refine h.grow ha.grow (ha.ok h.ok (by omega) (h.ok.clause hd)) ?_ ?_ ?_
  · intro j hj e he
    rcases ha.mem.1 he with he | ⟨hj', rfl⟩
    · exact ha.mem.2 (.inl (h.mono j hj e he))
    · have : j = i := by omega
      subst this
      exact ha.mem.2 (.inl hd)
  · intro j e he hn v hv
    rcases ha.mem.1 he with he | ⟨_, rfl⟩
    · exact absurd he hn
    · exact h.init i v hv _ hd
  · intro j e he hn v v' hv ht
    rcases ha.mem.1 he with he | ⟨hj, rfl⟩
    · exact absurd he hn
    · have : j = i := by omega
      subst this
      exact hstep v v' (ha.grow.inF hv) ht

/-! ## States that lead to bad -/

/-- A bad valuation can be reached from `v`. -/
inductive Doomed (c : Circuit) (bads : List Nat) : Val → Prop where
  | now {v : Val} : c.BadAt bads v → Doomed c bads v
  | step {v v' : Val} : c.Trans v v' → Doomed c bads v' → Doomed c bads v

/-- Some valuation with the latches of `u` leads to bad. -/
def DoomedState (c : Circuit) (bads : List Nat) (u : Val) : Prop := ∃ v, c.SameState v u ∧ Doomed c bads v

theorem doomed_unsafe (hw : c.WF) (hb : BadsOK c bads) {v : Val} (h : Doomed c bads v) : ∀ {d : Nat}, c.Reach d v → ∃ d', c.UnsafeAt bads d' := by
  induction h with
  | @now v hbad => intro d hr; exact ⟨d, (Circuit.unsafeAt_iff hw hb.lit d).2 ⟨v, hr, hbad⟩⟩
  | step ht _ ih => intro d hr; exact ih (.step hr ht)

theorem doomedState_unsafe (hw : c.WF) (hb : BadsOK c bads) {u : Val} (h : DoomedState c bads u) {d : Nat} (hr : c.Reach d u) :
    ∃ d', c.UnsafeAt bads d' := by
  obtain ⟨v, hs, hd⟩ := h
  exact doomed_unsafe hw hb hd (hr.congr hw (sameState_symm hs))

/-- A predecessor of a doomed state is doomed. -/
theorem doomedState_pred (hw : c.WF) {v v' u : Val} (h : DoomedState c bads u) (ht : c.Trans v v') (hs : c.SameState v' u) :
    DoomedState c bads v := by
  obtain ⟨w, hws, hd⟩ := h
  exact ⟨v, fun _ _ => rfl, .step (ht.congr hw (fun _ _ _ => rfl) (fun i hi => (hs i hi).trans (hws i hi).symm)) hd⟩

/-! ## Counting states -/

/-- All bit vectors of a length. -/
def bitLists : Nat → List (List Bool)
  | 0 => [[]]
  | n + 1 => (bitLists n).map (List.cons false) ++ (bitLists n).map (List.cons true)

theorem bitLists_length (n : Nat) : (bitLists n).length = 2 ^ n := by
  induction n with
  | zero => rfl
  | succ n ih => simp [bitLists, ih, Nat.pow_succ]; omega

theorem mem_bitLists (bs : List Bool) : bs ∈ bitLists bs.length := by
  induction bs with
  | nil => simp [bitLists]
  | cons b bs ih =>
    simp only [List.length_cons, bitLists, List.mem_append, List.mem_map]
    cases b
    · exact .inl ⟨bs, ih, rfl⟩
    · exact .inr ⟨bs, ih, rfl⟩

/-- Cubes of all states. -/
def allStates (c : Circuit) : List Cube :=
  (bitLists c.latches.length).map fun bs => Cube.new (List.zipWith valueLit (List.range' (1 + c.numInputs) c.latches.length) bs)

theorem allStates_length (c : Circuit) : (allStates c).length = 2 ^ c.latches.length := by simp [allStates, bitLists_length]

theorem zipWith_map_self {α β γ : Type} (f : α → β → γ) (g : α → β) (l : List α) : List.zipWith f l (l.map g) = l.map (fun x => f x (g x)) := by
  induction l with
  | nil => rfl
  | cons a l ih => simp [ih]

theorem mem_allStates (c : Circuit) (u : Val) : stateCube c u ∈ allStates c := by
  unfold allStates
  rw [List.mem_map]
  refine ⟨(List.range' (1 + c.numInputs) c.latches.length).map u, ?_, ?_⟩
  · have := mem_bitLists ((List.range' (1 + c.numInputs) c.latches.length).map u)
    simpa using this
  · rw [zipWith_map_self]; rfl

theorem countP_le {α : Type} {p q : α → Bool} {l : List α} (h : ∀ x ∈ l, p x = true → q x = true) : l.countP p ≤ l.countP q :=
  List.countP_mono_left h

theorem countP_lt {α : Type} {p q : α → Bool} {l : List α} (h : ∀ x ∈ l, p x = true → q x = true) {x : α} (hx : x ∈ l)
    (hq : q x = true) (hp : p x = false) : l.countP p < l.countP q := by
  induction l with
  | nil => simp at hx
  | cons a l ih =>
    rw [List.countP_cons, List.countP_cons]
    have hle : l.countP p ≤ l.countP q := countP_le fun y hy => h y (by simp [hy])
    rcases List.mem_cons.1 hx with rfl | hx
    · rw [if_pos hq, if_neg (by simp [hp])]; omega
    · have := ih (fun y hy => h y (by simp [hy])) hx
      have ha := h a (by simp)
      by_cases hpa : p a = true
      · rw [if_pos hpa, if_pos (ha hpa)]; omega
      · rw [if_neg hpa]; omega

open Classical in
/-- Number of states that satisfy `g`. -/
noncomputable def satCount (c : Circuit) (g : CNF) : Nat := (allStates c).countP (fun s => decide (∃ u, s = stateCube c u ∧ g.holds u))

theorem satCount_le (c : Circuit) (g : CNF) : satCount c g ≤ 2 ^ c.latches.length := by
  unfold satCount
  rw [← allStates_length]
  exact List.countP_le_length

open Classical in
theorem satCount_pos {g : CNF} {u : Val} (hu : g.holds u) : 0 < satCount c g := by
  unfold satCount
  exact List.countP_pos_iff.2 ⟨stateCube c u, mem_allStates c u, decide_eq_true ⟨u, rfl, hu⟩⟩

open Classical in
theorem satCount_lt {g g' : CNF} (h : ∀ u, g.holds u → g'.holds u) {u : Val} (hu : g'.holds u)
    (hn : ∀ w, c.SameState u w → ¬ g.holds w) : satCount c g < satCount c g' := by
  unfold satCount
  refine countP_lt (x := stateCube c u) ?_ (mem_allStates c u) ?_ ?_
  · intro s _ hs
    obtain ⟨w, e, hw⟩ := of_decide_eq_true hs
    exact decide_eq_true ⟨w, e, h w hw⟩
  · exact decide_eq_true ⟨u, rfl, hu⟩
  · refine decide_eq_false ?_
    rintro ⟨w, e, hw⟩
    exact hn w (stateCube_inj e) hw

end Verif.IC3
