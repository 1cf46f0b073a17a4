import Verif.Proofs.Ic3
import Verif.Proofs.Ic3Stateless
import Verif.Proofs.Ic3Stateful

/-! # IC3: exact effect of the single steps on arbitrary frames -/

namespace Verif

theorem swapRemove_take {α : Type} {l rest : List α} {j : Nat} {x : α} (h : swapRemove l j = some (x, rest)) :
    l[j]? = some x ∧ rest.take j = l.take j ∧ swapAt (rest ++ [x]) j ((rest ++ [x]).length - 1) = some l := by
  unfold swapRemove at h
  split at h
  · rename_i a y hx hy
    obtain ⟨h1, h2⟩ := Prod.mk.inj (Option.some.inj h)
    subst h1 h2
    have hj : j < l.length := (List.getElem?_eq_some_iff.1 hx).1
    have hne : l ≠ [] := by intro e; subst e; simp at hj
    obtain ⟨l', z, rfl⟩ : ∃ l' z, l = l' ++ [z] := ⟨l.dropLast, l.getLast hne, (List.dropLast_concat_getLast hne).symm⟩
    have hyz : z = y := by simpa using hy
    subst hyz
    refine ⟨hx, ?_, ?_⟩
    · by_cases hlt : j < l'.length
      · rw [List.set_append_left _ _ hlt, List.dropLast_concat, List.take_set_of_le (Nat.le_refl _), List.take_append_of_le_length (by omega)]
      · have : j = l'.length := by simp at hj; omega
        subst this
        simp
    · unfold swapAt
      by_cases hlt : j < l'.length
      · rw [List.set_append_left _ _ hlt, List.dropLast_concat]
        have e1 : (l'.set j z ++ [a])[j]? = some z := by
          rw [List.getElem?_append_left (by simpa using hlt), List.getElem?_set_self]; simpa using hlt
        have e2 : (l'.set j z ++ [a])[(l'.set j z ++ [a]).length - 1]? = some a := by simp
        rw [e1, e2]
        have hxa : l'[j]? = some a := by rwa [List.getElem?_append_left hlt] at hx
        have : l'[j] = a := by rw [List.getElem?_eq_getElem hlt] at hxa; exact Option.some.inj hxa
        simp only [Option.some.injEq]
        rw [List.set_append_left _ _ (by simpa using hlt), List.set_set, ← this, List.set_getElem_self]
        rw [List.set_append_right _ _ (by simp)]
        simp
      · have : j = l'.length := by simp at hj; omega
        subst this
        have : a = z := by simpa using hx.symm
        subst this
        simp
  · cases h

namespace IC3

open Fsts Ic3Spec

variable {σ : Type} {c : Circuit} {bads : List Nat} {fs fs' : List CNF} {A : IC3 σ} {F : Err → Prop} {k : Nat}

/-! ## From valuations of all wires to valuations of inputs and latches -/

theorem fsOK_of (h : FramesOK c fs) : FsOK c fs := ⟨h.wf, h.latch, h.zero⟩

theorem FsOK.framesOK (h : FsOK c fs) : FramesOK c fs := ⟨h.wf, h.lits, h.zero⟩

theorem holds_eval {d : Clause} (h : ∀ l ∈ d.lits, LatchLit c l) {v : Val} : d.holds (c.evalVar v) ↔ d.holds v := by
  unfold Clause.holds
  constructor
  · rintro ⟨l, hl, hh⟩; exact ⟨l, hl, ((h l hl).holds_congr fun i hi => Circuit.evalVar_latch c v hi).1 hh⟩
  · rintro ⟨l, hl, hh⟩; exact ⟨l, hl, ((h l hl).holds_congr fun i hi => Circuit.evalVar_latch c v hi).2 hh⟩

theorem eval_frame (hw : c.WF) {v : Val} (hv : c.Frame v) {x : Nat} (hx : x ≤ c.maxVar) : c.evalVar v x = v x :=
  Circuit.frame_unique hw (Circuit.frame_evalVar hw v) hv (fun y h1 h2 => Circuit.evalVar_base c v (by omega) h2) x hx

theorem step_eval (hw : c.WF) {v v' : Val} (hv : c.Frame v) : c.Step v v' ↔ c.Trans v v' := by
  have e : ∀ (i : Nat) p, c.latches[i]? = some p → litVal (c.evalVar v) p.1 = litVal v p.1 :=
    fun i p hp => litVal_congr (eval_frame hw hv (hw.next_ok i p hp))
  constructor
  · intro h i p hp; rw [h i p hp, e i p hp]
  · intro h i p hp; rw [h i p hp, e i p hp]

theorem badNow_eval (hw : c.WF) (hb : BadsOK c bads) {v : Val} (hv : c.Frame v) : Circuit.BadNow bads v ↔ c.BadAt bads v := by
  constructor
  · rintro ⟨b, h1, h2⟩; exact ⟨b, h1, by rw [litVal_congr (eval_frame hw hv (hb.lit b h1))]; exact h2⟩
  · rintro ⟨b, h1, h2⟩; exact ⟨b, h1, by rw [← litVal_congr (eval_frame hw hv (hb.lit b h1))]; exact h2⟩

theorem member_inF (hw : c.WF) (hb : BadsOK c bads) {i : Nat} {v : Val} (h : Member c bads fs i v) : InF c bads fs i v := by
  refine ⟨h.2.1, ?_⟩
  have := h.2.2
  split
  · rename_i h0; rwa [if_pos h0] at this
  · rename_i h0; rw [if_neg h0] at this; rwa [← badNow_eval hw hb h.1]

theorem inF_member (hw : c.WF) (hok : FsOK c fs) {i : Nat} {v : Val} (h : InF c bads fs i v) : Member c bads fs i (c.evalVar v) := by
  refine ⟨Circuit.frame_evalVar hw v, hok.holds_congr (fun i hi => (Circuit.evalVar_latch c v hi).symm) h.1, ?_⟩
  have := h.2
  split
  · rename_i h0; rw [if_pos h0] at this; exact this.congr fun i hi => (Circuit.evalVar_latch c v hi).symm
  · rename_i h0; rw [if_neg h0] at this; exact this

theorem pushable_iff (hw : c.WF) (hb : BadsOK c bads) (hok : FsOK c fs) {i : Nat} {d : Clause} :
    Pushable c bads fs i d ↔ ∀ v v', InF c bads fs i v → c.Trans v v' → d.holds v' := by
  constructor
  · intro h v v' hv ht
    exact h (c.evalVar v) v' (inF_member hw hok hv) ht
  · intro h v v' hv ht
    exact h v v' (member_inF hw hb hv) ((step_eval hw hv.1).1 ht)

theorem inductive_iff (hw : c.WF) (hb : BadsOK c bads) (hok : FsOK c fs) {i : Nat} {d : Clause} (hd : ∀ l ∈ d.lits, LatchLit c l) :
    Inductive c bads fs i d ↔ Rel c bads fs i d := by
  unfold Inductive Rel
  refine and_congr_right fun _ => ?_
  constructor
  · intro h v v' hv hdv ht
    exact h (c.evalVar v) v' (inF_member hw hok hv) ((holds_eval hd).2 hdv) ht
  · intro h v v' hv hdv ht
    exact h v v' (member_inF hw hb hv) hdv ((step_eval hw hv.1).1 ht)

theorem enterable_iff (hw : c.WF) (hb : BadsOK c bads) (hok : FsOK c fs) {i : Nat} {s : Cube} (hs : ∀ l ∈ s.lits, LatchLit c l) :
    Enterable c bads fs i s ↔ ∃ v v', InF c bads fs i v ∧ ¬ s.holds v ∧ c.Trans v v' ∧ s.holds v' := by
  constructor
  · rintro ⟨v, v', hv, h1, h2, h3⟩
    exact ⟨v, v', member_inF hw hb hv, h1, (step_eval hw hv.1).1 h2, h3⟩
  · rintro ⟨v, v', hv, h1, h2, h3⟩
    refine ⟨c.evalVar v, v', inF_member hw hok hv, fun hh => h1 ?_, h2, h3⟩
    intro l hl
    exact ((hs l hl).holds_congr fun i hi => Circuit.evalVar_latch c v hi).1 (hh l hl)

theorem latchCube_of {s : Cube} (hs : StateCube c s) : LatchCube c s := by
  have h := hs.latch
  obtain ⟨ls, rfl⟩ := hs.built
  exact ⟨Cube.sorted_new _, h⟩

theorem stateCube_congr {u v : Val} (h : c.SameState u v) : stateCube c u = stateCube c v := by
  unfold stateCube
  congr 1
  refine List.map_congr_left fun n hn => ?_
  obtain ⟨i, hi, rfl⟩ := List.mem_range'.1 hn
  have := h i hi
  unfold Circuit.latchVar at this
  rw [Nat.one_mul, this]

/-! ## `get_subclause_of_not_s_that_is_inductive_relative_to_fi` -/

/-- `l` was needed in some clause between `r` and `S`. -/
def Needed (c : Circuit) (bads : List Nat) (fs : List CNF) (i : Nat) (S r : List Literal) (l : Literal) : Prop :=
  ∃ e : Clause, (∀ x ∈ r, x ≠ l → x ∈ e.lits) ∧ l ∉ e.lits ∧ (∀ x ∈ e.lits, x ∈ S) ∧ ¬ Rel c bads fs i e

theorem Needed.mono {i : Nat} {S r r' : List Literal} {l : Literal} (h : Needed c bads fs i S r l) (hr : ∀ x ∈ r', x ∈ r) :
    Needed c bads fs i S r' l := by
  obtain ⟨e, h1, h2⟩ := h
  exact ⟨e, fun x hx => h1 x (hr x hx), h2⟩

theorem subclauseLoop_exact (K : Contract A c bads F) (hok : FsOK c fs) {i : Nat} (hi : i < fs.length) {S : List Literal}
    (hS : ∀ l ∈ S, LatchLit c l) (hcons : ∀ l ∈ S, l.not ∉ S) :
    ∀ (budget : Nat) (lits : List Literal) (j : Nat), lits.length ≤ budget + j → lits.Nodup → (∀ l ∈ lits, l ∈ S) →
      Rel c bads fs i (Clause.new lits) → (∀ l ∈ lits.take j, Needed c bads fs i S lits l) →
      GTri F K.Inv fs (A.subclauseLoop i budget lits j)
        (fun r fs' => fs' = fs ∧ (∀ l ∈ r, l ∈ S) ∧ Rel c bads fs i (Clause.new r) ∧ ∀ l ∈ r, Needed c bads fs i S r l) := by
  intro budget
  induction budget with
  | zero =>
    intro lits j hb _ hl hr hnd
    unfold subclauseLoop
    rw [if_neg (by omega)]
    exact GTri.pure ⟨rfl, hl, hr, fun l h => hnd l (by rw [List.take_of_length_le (by omega)]; exact h)⟩
  | succ budget ih =>
    intro lits j hb hnodup hl hr hnd
    unfold subclauseLoop
    refine GTri.ite (fun hj => ?_) (fun hj => GTri.pure ⟨rfl, hl, hr, fun l h => hnd l (by rw [List.take_of_length_le (by omega)]; exact h)⟩)
    obtain ⟨x, rest, hsr, hperm⟩ := swapRemove_spec hj
    obtain ⟨hx, htake, hback⟩ := swapRemove_take hsr
    refine GTri.bind (GTri.lift_ok (a := (x, rest)) (Q := fun p fs' => p = (x, rest) ∧ fs' = fs) (by rw [hsr]; rfl) ⟨rfl, rfl⟩) ?_
    rintro _ fs ⟨rfl, rfl⟩
    have hsub : ∀ l ∈ rest, l ∈ lits := fun l h => hperm.mem_iff.2 (by simp [h])
    have hnd' := hperm.nodup_iff.1 hnodup
    rw [List.nodup_cons] at hnd'
    have hlen := hperm.length_eq
    rw [List.length_cons] at hlen
    have hmem : ∀ l ∈ (Clause.new rest).lits, l ∈ S := fun l h => hl l (hsub l (Clause.mem_new.1 h))
    refine GTri.bind (K.clauseInductive hok hi ⟨Clause.sorted_new _, fun l h => hS l (hmem l h)⟩
      (fun l h hn => hcons l (hmem l h) (hmem _ hn))) ?_
    rintro b fs ⟨rfl, hb'⟩
    refine GTri.ite (fun hbt => ?_) (fun hbf => ?_)
    · refine (ih rest j (by omega) hnd'.2 (fun l h => hl l (hsub l h)) (hb'.1 hbt) ?_)
      intro l h
      rw [htake] at h
      exact (hnd l h).mono hsub
    · refine GTri.bind (GTri.lift_ok (a := lits) (Q := fun p fs'' => p = lits ∧ fs'' = _) (by rw [hback]; rfl) ⟨rfl, rfl⟩) ?_
      rintro p fs2 ⟨hp, hf⟩
      subst hf
      rw [hp]
      refine ih lits (j + 1) (by omega) hnodup hl hr ?_
      intro l h
      rw [List.take_add_one, hx] at h
      rcases List.mem_append.1 h with h | h
      · exact hnd l h
      · have : l = x := by simpa using h
        subst this
        refine ⟨Clause.new rest, ?_, fun h => hnd'.1 (Clause.mem_new.1 h), hmem, fun h => hbf (hb'.2 h)⟩
        intro y hy hne
        rcases List.mem_cons.1 (hperm.mem_iff.1 hy) with h | h
        · exact absurd h hne
        · exact Clause.mem_new.2 h

theorem not_injective {a b : Literal} (h : a.not = b.not) : a = b := by
  rw [← Literal.not_not a, h, Literal.not_not]

theorem subclause_exact (K : Contract A c bads F) (hok : FsOK c fs) {i : Nat} (hi : i < fs.length) {s : Cube} (hs : StateCube c s)
    (h : Inductive c bads fs i s.not) :
    GTri F K.Inv fs (A.subclause s i) (fun d fs' => fs' = fs ∧ LatchClause c d ∧ Generalizes c bads fs i s d) := by
  have hS : ∀ l ∈ s.not.lits, LatchLit c l := by
    intro l hl
    have := LatchLit.not (hs.latch _ (Cube.mem_not.1 hl))
    rwa [Literal.not_not] at this
  have hcons : ∀ l ∈ s.not.lits, l.not ∉ s.not.lits := by
    intro l hl hn
    exact hs.consistent _ (Cube.mem_not.1 hl) (Cube.mem_not.1 hn)
  have hnodup : s.not.lits.Nodup := by
    unfold Cube.not Clause.new
    rw [(sortBy_perm _ _).nodup_iff]
    exact List.Pairwise.map _ (fun a b hab h => hab (not_injective h)) hs.nodup
  unfold subclause
  refine GTri.bind (K.tick fs) ?_
  rintro t fs rfl
  have hp := K.sched.shuffle t s.not.iter
  have hr : Rel c bads fs i (Clause.new (A.sched.shuffle t s.not.iter)) := by
    refine ((inductive_iff K.wf K.bad hok hS).1 h).congr fun v => ?_
    rw [Clause.holds_new]
    constructor
    · rintro ⟨l, hm, hv⟩; exact ⟨l, hp.mem_iff.2 hm, hv⟩
    · rintro ⟨l, hm, hv⟩; exact ⟨l, hp.mem_iff.1 hm, hv⟩
  refine GTri.bind (subclauseLoop_exact K hok hi hS hcons _ _ 0 (by omega) (hp.nodup_iff.2 hnodup) (fun l hl => hp.mem_iff.1 hl) hr
    (by simp)) ?_
  rintro r fs ⟨rfl, h1, h2, h3⟩
  have hr' : ∀ l ∈ (Clause.new r).lits, LatchLit c l := fun l hl => hS l (h1 l (Clause.mem_new.1 hl))
  refine GTri.pure ⟨rfl, ⟨Clause.sorted_new _, hr'⟩, ?_, (inductive_iff K.wf K.bad hok hr').2 h2, ?_⟩
  · intro l hl
    exact Cube.mem_not.1 (h1 l (Clause.mem_new.1 hl))
  · intro l hl
    obtain ⟨e, e1, e2, e3, e4⟩ := h3 l (Clause.mem_new.1 hl)
    refine ⟨e, fun x hx => e1 x (Clause.mem_new.1 hx), e2, fun x hx => Cube.mem_not.1 (e3 x hx), fun hh => e4 ?_⟩
    exact (inductive_iff K.wf K.bad hok fun x hx => hS x (e3 x hx)).1 hh

theorem generateClause_exact (K : Contract A c bads F) (hok : FsOK c fs) {i : Nat} (hi : i + 1 < fs.length) {s : Cube} (hs : StateCube c s)
    (h : Inductive c bads fs i s.not) :
    GTri F K.Inv fs (A.generateClause s i) (fun _ fs' => ∃ d, LatchClause c d ∧ Generalizes c bads fs i s d ∧ Added fs fs' d 1 (i + 2)) := by
  unfold generateClause
  refine GTri.bind (subclause_exact K hok (by omega) hs h) ?_
  rintro d fs ⟨rfl, hd, hg⟩
  refine (addToFrames_spec K hd (i + 1) 1 _ hok (by omega) (by omega)).mono ?_
  intro _ fs' ha
  rw [show 1 + (i + 1) = i + 2 by omega] at ha
  exact ⟨d, hd, hg, ha⟩

/-! ## `inductively_generalize` -/

/-- The result of `inductively_generalize(s, min, k)`. -/
def GenOutcome (c : Circuit) (bads : List Nat) (fs : List CNF) (s : Cube) (min : Int) (k : Nat) (r : GenResult) (fs' : List CNF) : Prop :=
  (r = .failure ∧ fs' = fs ∧ min < 0 ∧ Enterable c bads fs 0 s) ∨
  ∃ n d, r = .success n ∧ min ≤ n ∧ n ≤ k ∧ (∀ j : Nat, min < j → j ≤ n → ¬ Enterable c bads fs j s) ∧
    (n = k ∨ Enterable c bads fs (n + 1) s) ∧ Generalizes c bads fs n s d ∧ AddedUpTo fs fs' d n

theorem inductive_of_not_enterable (hinit : ∀ v, c.Init v → ¬ s.holds v) {i : Nat} (h : ¬ Enterable c bads fs i s) :
    Inductive c bads fs i s.not := by
  refine ⟨fun v hv => Cube.holds_not.2 (hinit v hv), fun v v' hv hd ht => Cube.holds_not.2 fun hh => h ⟨v, v', hv, Cube.holds_not.1 hd, ht, hh⟩⟩

theorem generalizeLoop_exact (K : Contract A c bads F) (hok : FsOK c fs) (hlen : k + 2 ≤ fs.length) {s : Cube} (hs : StateCube c s)
    (hinit : ∀ v, c.Init v → ¬ s.holds v) :
    ∀ (n a : Nat), 1 ≤ a → a + n = k + 1 → Inductive c bads fs (a - 1) s.not →
      GTri F K.Inv fs (A.generalizeLoop s k (List.range' a n)) (fun r fs' => ∃ n d, r = .success n ∧ a ≤ n + 1 ∧ n ≤ k ∧
        (∀ j : Nat, a ≤ j → j ≤ n → ¬ Enterable c bads fs j s) ∧ (n = k ∨ Enterable c bads fs (n + 1) s) ∧ Generalizes c bads fs n s d ∧
        Added fs fs' d 1 (n + 2)) := by
  have hlc := latchCube_of hs
  intro n
  induction n with
  | zero =>
    intro a ha he hind
    have : a - 1 = k := by omega
    rw [this] at hind
    unfold generalizeLoop
    refine GTri.bind (generateClause_exact K hok (by omega) hs hind) ?_
    rintro _ fs' ⟨d, _, h2, h3⟩
    exact GTri.pure ⟨k, d, rfl, by omega, Nat.le_refl _, fun j h1 h2 => by omega, .inl rfl, h2, h3⟩
  | succ n ih =>
    intro a ha he hind
    rw [List.range'_succ]
    unfold generalizeLoop
    refine GTri.bind (K.cubeReachNew hok (by omega) hlc) ?_
    rintro b fs ⟨rfl, hb⟩
    rw [← enterable_iff K.wf K.bad hok hs.latch] at hb
    refine GTri.ite (fun hbt => ?_) (fun hbf => ?_)
    · refine GTri.bind (generateClause_exact K hok (by omega) hs hind) ?_
      rintro _ fs' ⟨d, _, h2, h3⟩
      refine GTri.pure ⟨a - 1, d, rfl, by omega, by omega, fun j h1 h2 => by omega, .inr ?_, h2, h3⟩
      rw [show a - 1 + 1 = a by omega]; exact hb.1 hbt
    · have hna : ¬ Enterable c bads fs a s := fun h => hbf (hb.2 h)
      refine (ih (a + 1) (by omega) (by omega) (inductive_of_not_enterable hinit hna)).mono ?_
      rintro r fs' ⟨n', d, rfl, h1, h2, h3, h4⟩
      refine ⟨n', d, rfl, by omega, h2, fun j hj1 hj2 => ?_, h4⟩
      by_cases e : j = a
      · subst e; exact hna
      · exact h3 j (by omega) hj2

theorem inductivelyGeneralize_exact (K : Contract A c bads F) (hok : FsOK c fs) (hlen : k + 2 ≤ fs.length) {s : Cube} (hs : StateCube c s)
    (hinit : ∀ v, c.Init v → ¬ s.holds v) {min : Int} (hmin : min ≤ k) (hsep : 0 ≤ min → Inductive c bads fs min.toNat s.not) :
    GTri F K.Inv fs (A.inductivelyGeneralize s min k) (GenOutcome c bads fs s min k) := by
  have hlc := latchCube_of hs
  unfold inductivelyGeneralize
  dsimp only
  have hstart : 1 ≤ (max 1 (min + 1)).toNat ∧ (max 1 (min + 1)).toNat ≤ k + 1 ∧ min ≤ ((max 1 (min + 1)).toNat : Int) - 1 ∧
      (0 ≤ min → (max 1 (min + 1)).toNat - 1 = min.toNat) ∧ (min < 0 → (max 1 (min + 1)).toNat = 1) := by omega
  generalize hst : (max 1 (min + 1)).toNat = st at hstart
  have fin : Inductive c bads fs (st - 1) s.not → (min < 0 → ¬ Enterable c bads fs 0 s) →
      GTri F K.Inv fs (A.generalizeLoop s k (List.range' st (k + 1 - st))) (GenOutcome c bads fs s min k) := by
    intro hind h0
    refine (generalizeLoop_exact K hok hlen hs hinit _ _ hstart.1 (by omega) hind).mono ?_
    rintro r fs' ⟨n, d, rfl, h1, h2, h3, h4, h5, h6⟩
    refine .inr ⟨n, d, rfl, by omega, h2, fun j hj1 hj2 => ?_, h4, h5, h6.len, fun j => ?_⟩
    · by_cases e : j = 0
      · subst e; exact h0 (by omega)
      · exact h3 j (by omega) hj2
    · rw [h6.fr]
      by_cases hj : 1 ≤ j ∧ j ≤ n + 1
      · rw [if_pos hj, if_pos (by omega)]
      · rw [if_neg hj, if_neg (by omega)]
  refine GTri.ite (fun hneg => ?_) (fun hpos => ?_)
  · refine GTri.bind (K.cubeReachNew hok (by omega) hlc) ?_
    rintro b fs ⟨rfl, hb⟩
    rw [← enterable_iff K.wf K.bad hok hs.latch] at hb
    refine GTri.ite (fun hbt => GTri.pure (.inl ⟨rfl, rfl, hneg, hb.1 hbt⟩)) (fun hbf => ?_)
    have h0 : ¬ Enterable c bads fs 0 s := fun h => hbf (hb.2 h)
    refine fin ?_ (fun _ => h0)
    rw [hstart.2.2.2.2 hneg]
    exact inductive_of_not_enterable hinit h0
  · refine fin ?_ (fun h => absurd h hpos)
    rw [hstart.2.2.2.1 (by omega)]
    exact hsep (by omega)

/-! ## `propagate_clauses` -/

theorem propagateLoop_exact (K : Contract A c bads F) {i : Nat} (h1 : 1 ≤ i) :
    ∀ (cs : List Clause) (fs : List CNF), FsOK c fs → i + 1 < fs.length → (∀ d ∈ cs, d ∈ (fr fs i).clauses) →
      GTri F K.Inv fs (A.propagateLoop i cs) (fun _ fs' => FsOK c fs' ∧ fs'.length = fs.length ∧
        (∀ j, j ≠ i + 1 → fr fs' j = fr fs j) ∧
        ∀ d, d ∈ (fr fs' (i + 1)).clauses ↔ d ∈ (fr fs (i + 1)).clauses ∨ (d ∈ cs ∧ Pushable c bads fs i d)) := by
  intro cs
  induction cs with
  | nil => intro fs hok _ _; exact GTri.pure ⟨hok, rfl, fun _ _ => rfl, by simp⟩
  | cons d cs ih =>
    intro fs hok hlen hcs
    unfold propagateLoop
    have hd : d ∈ (fr fs i).clauses := hcs d (by simp)
    refine GTri.bind (K.cubeReach hok (by omega) (hok.clause hd).not) ?_
    rintro r fs ⟨rfl, hun, hsat⟩
    cases r with
    | unsat =>
      refine GTri.bind (K.addClause hok (by omega) hlen (hok.clause hd)) ?_
      rintro _ fs rfl
      have hok' := hok.set hlen (by omega) (hok.clause hd)
      have hpush : Pushable c bads fs i d := (pushable_iff K.wf K.bad hok).2 fun v v' hv ht => by
        have := hun rfl v v' hv ht
        rw [Clause.holds_not] at this
        exact Classical.byContradiction this
      have hfr : ∀ j, j ≠ i + 1 → fr (fs.set (i + 1) ((fr fs (i + 1)).addClause d)) j = fr fs j := by
        intro j hj
        rw [fr_set _ _ _ hlen, if_neg hj]
      have hpc : ∀ e, Pushable c bads (fs.set (i + 1) ((fr fs (i + 1)).addClause d)) i e ↔ Pushable c bads fs i e := by
        intro e
        unfold Pushable Member
        rw [hfr i (by omega)]
      refine (ih _ hok' (by simpa using hlen) ?_).mono ?_
      · intro e he
        rw [hfr i (by omega)]; exact hcs e (by simp [he])
      · rintro _ fs2 ⟨h3, h4, h5, h6⟩
        refine ⟨h3, by simpa using h4, fun j hj => (h5 j hj).trans (hfr j hj), fun e => ?_⟩
        rw [h6 e, fr_set _ _ _ hlen, if_pos rfl, CNF.mem_addClause, hpc]
        constructor
        · rintro ((h | rfl) | ⟨h, h'⟩)
          · exact .inl h
          · exact .inr ⟨by simp, hpush⟩
          · exact .inr ⟨by simp [h], h'⟩
        · rintro (h | ⟨h, h'⟩)
          · exact .inl (.inl h)
          · rcases List.mem_cons.1 h with rfl | h
            · exact .inl (.inr rfl)
            · exact .inr ⟨h, h'⟩
    | sat a =>
      obtain ⟨v, v', hv, ht, hs, _⟩ := hsat a rfl
      have hno : ¬ Pushable c bads fs i d := by
        rw [pushable_iff K.wf K.bad hok]
        intro h
        rw [Clause.holds_not] at hs
        exact hs (h v v' hv ht)
      refine (ih _ hok hlen (fun e he => hcs e (by simp [he]))).mono ?_
      rintro _ fs2 ⟨h3, h4, h5, h6⟩
      refine ⟨h3, h4, h5, fun e => ?_⟩
      rw [h6 e]
      constructor
      · rintro (h | ⟨h, h'⟩)
        · exact .inl h
        · exact .inr ⟨by simp [h], h'⟩
      · rintro (h | ⟨h, h'⟩)
        · exact .inl h
        · rcases List.mem_cons.1 h with rfl | h
          · exact absurd h' hno
          · exact .inr ⟨h, h'⟩

theorem propagateFrames_exact (K : Contract A c bads F) :
    ∀ (n a : Nat) (fs : List CNF), 1 ≤ a → a + n = k + 1 → FsOK c fs → k + 1 < fs.length →
      GTri F K.Inv fs (A.propagateFrames (List.range' a n)) (fun _ fs' => fs'.length = fs.length ∧
        (∀ j, j ≤ a → fr fs' j = fr fs j) ∧ (∀ j, k + 1 < j → fr fs' j = fr fs j) ∧
        ∀ i, a ≤ i → i ≤ k → ∀ d, d ∈ (fr fs' (i + 1)).clauses ↔
          d ∈ (fr fs (i + 1)).clauses ∨ (d ∈ (fr fs' i).clauses ∧ Pushable c bads fs' i d)) := by
  intro n
  induction n with
  | zero =>
    intro a fs ha he _ _
    exact GTri.pure ⟨rfl, fun _ _ => rfl, fun _ _ => rfl, fun i h1 h2 => by omega⟩
  | succ n ih =>
    intro a fs ha he hok hlen
    rw [List.range'_succ]
    unfold propagateFrames
    refine GTri.bind (K.frame (by omega)) ?_
    rintro g fs ⟨rfl, rfl⟩
    refine GTri.bind (K.tick _) ?_
    rintro t fs rfl
    have hp := K.sched.order t (fr fs a).iter
    refine GTri.bind (propagateLoop_exact K ha _ _ hok (by omega) (fun d hd => hp.mem_iff.1 hd)) ?_
    rintro _ fs1 ⟨h1, h2, h3, h4⟩
    refine (ih (a + 1) fs1 (by omega) (by omega) h1 (by omega)).mono ?_
    rintro _ fs2 ⟨h5, h6, h7, h8⟩
    refine ⟨by rw [h5, h2], fun j hj => ?_, fun j hj => ?_, fun i hi1 hi2 d => ?_⟩
    · rw [h6 j (by omega), h3 j (by omega)]
    · rw [h7 j hj, h3 j (by omega)]
    · by_cases e : i = a
      · subst e
        have ei : fr fs2 i = fr fs i := by rw [h6 i (by omega), h3 i (by omega)]
        have ep : Pushable c bads fs2 i d ↔ Pushable c bads fs i d := by unfold Pushable Member; rw [ei]
        rw [h6 (i + 1) (Nat.le_refl _), h4 d, ei, ep, hp.mem_iff]
        rfl
      · rw [h8 i (by omega) hi2 d, h3 (i + 1) (by omega)]

theorem propagateClauses_exact (K : Contract A c bads F) (hok : FsOK c fs) (hlen : k + 1 < fs.length) :
    GTri F K.Inv fs (A.propagateClauses k) (fun _ fs' => Propagated c bads fs k fs') :=
  (propagateFrames_exact K k 1 fs (Nat.le_refl _) (by omega) hok hlen).mono fun _ _ h => ⟨h.1, h.2.1, h.2.2.1, h.2.2.2⟩

/-! ## The four invariants -/

theorem frames_of_invariants (hw : c.WF) (hb : BadsOK c bads) {n m : Nat} (h : Invariants c bads fs n m) : Frames c bads n m fs := by
  have hok := fsOK_of h.ok
  refine ⟨h.len, hok, h.mono, h.init, ?_, ?_, ?_⟩
  · intro v hv
    exact h.good _ (Circuit.frame_evalVar hw v) (hv.congr fun i hi => (Circuit.evalVar_latch c v hi).symm)
  · intro i v v' hv ht
    exact h.step i (c.evalVar v) v' (inF_member hw hok hv) ht
  · intro i v v' hi hv ht
    refine h.safe i (c.evalVar v) (c.evalVar v') hi (inF_member hw hok hv) ?_ (Circuit.frame_evalVar hw v')
    intro j p hp
    rw [Circuit.evalVar_latch c v' (List.getElem?_eq_some_iff.1 hp).1]
    exact ht j p hp

theorem invariants_of_frames (hw : c.WF) (hb : BadsOK c bads) {n m : Nat} (h : Frames c bads n m fs) : Invariants c bads fs n m := by
  refine ⟨h.len, h.ok.framesOK, h.mono, h.init, ?_, ?_, ?_⟩
  · intro v hv hi
    rw [badNow_eval hw hb hv]; exact h.good v hi
  · intro i v v' hv ht
    exact h.step i v v' (member_inF hw hb hv) ((step_eval hw hv.1).1 ht)
  · intro i v v' hi hv ht hv'
    rw [badNow_eval hw hb hv']
    exact h.safe i v v' hi (member_inF hw hb hv) ((step_eval hw hv.1).1 ht)

theorem sameNext_iff (hf : Frames c bads k m fs) {i : Nat} (hi : 1 ≤ i) : SameNext fs i ↔ (fr fs i).len = (fr fs (i + 1)).len := by
  constructor
  · intro h
    exact ((List.perm_ext_iff_of_nodup (hf.ok.wf _).nodup (hf.ok.wf _).nodup).2 h).length_eq
  · intro he d
    exact ⟨fun hd => sub_of_len (hf.ok.wf (i + 1)).nodup (hf.mono i hi) (Nat.le_of_eq he) d hd, hf.mono i hi d⟩

/-! ## Both provers -/

theorem prover_contract {f : Fsts} {Inv : σ → List CNF → Prop} (S : SmallSys f c bads) (P : Prover f A Inv) :
    ∃ K : Contract A c bads (fun _ => False), K.Inv = Inv ∧ FormsOK f c bads A.forms ∧ A.fsts = f := by
  cases P with
  | stateless he hs hfm =>
    obtain ⟨fm', h1, h2⟩ := formulas_ok _ S
    rw [hfm] at h1; cases h1
    exact ⟨Stateless.contract S he hs h2, rfl, h2, rfl⟩
  | stateful O hs hfm =>
    obtain ⟨fm', h1, h2⟩ := formulas_ok _ S
    rw [hfm] at h1; cases h1
    exact ⟨Stateful.contract S O hs h2, rfl, h2, rfl⟩

theorem runs_of {α γ : Type} {fs : γ} {Inv : σ → γ → Prop} {m : StateT σ Res α} {Q : α → γ → Prop}
    (h : GTri (fun _ => False) Inv fs m Q) : Runs Inv m fs Q := by
  intro s hs
  rcases GTri.elim h hs with ⟨r, s', fs', e, hi, hq⟩ | ⟨e, _, hF⟩
  · exact ⟨r, s', fs', e, hi, hq⟩
  · exact hF.elim

theorem isState_stateCube {v : Val} : IsState c v (stateCube c v) := by
  intro l
  show l ∈ (stateCube c v).lits ↔ _
  rw [mem_stateCube]
  constructor
  · rintro ⟨i, hi, rfl⟩
    exact ⟨valueLit_holds.2 rfl, i, hi, valueLit_number _ _⟩
  · rintro ⟨hl, i, hi, hn⟩
    refine ⟨i, hi, ?_⟩
    have h1 : (valueLit (c.latchVar i) (v (c.latchVar i))).holds v := valueLit_holds.2 rfl
    have h2 := valueLit_number (c.latchVar i) (v (c.latchVar i))
    generalize valueLit (c.latchVar i) (v (c.latchVar i)) = m at h1 h2
    unfold Literal.holds at hl h1
    refine Literal.ext' (by rw [hn, h2]) ?_
    rw [h2, ← hn, hl] at h1
    revert h1
    cases l.isNegated <;> cases m.isNegated <;> simp

end IC3

end Verif
