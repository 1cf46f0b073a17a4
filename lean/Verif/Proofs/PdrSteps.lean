import Verif.Proofs.PdrVerdict
import Verif.Proofs.Ic3Steps

/-! # PDR: exact effect of the single steps -/

namespace Verif.PDR

open Fsts IC3

variable {sys : Fsts} {c : Circuit} {bads : List Nat} {f f' f0 : List (List Cube)} {I : StatefulImpl} {F : Err → Prop} {O : I.OK F} {d m k : Nat}

/-! ## From valuations of all wires to valuations of inputs and latches -/

theorem latchCube_of {z : Cube} (h : PdrSpec.OverLatches c z) : LatchCube c z := by
  have hl := h.latch
  obtain ⟨ls, rfl⟩ := h.built
  exact ⟨Cube.sorted_new _, hl⟩

theorem overLatches_of {z : Cube} (h : LatchCube c z) : PdrSpec.OverLatches c z := ⟨⟨z.lits, (Cube.new_lits h.sorted).symm⟩, h.lits⟩

theorem cubes_of (h : PdrSpec.FramesOK c f) : ∀ j, ∀ z ∈ fr f j, LatchCube c z := fun j z hz => latchCube_of (h j z hz)

theorem subsumes_spec {a b : Cube} : subsumes a b = true ↔ PdrSpec.Subsumes a b := subsumes_iff

theorem not_subsumes {a b : Cube} : subsumes a b = false ↔ ¬ PdrSpec.Subsumes a b := by
  rw [← subsumes_spec, Bool.not_eq_true]

theorem eval_sameState (v : Val) : c.SameState (c.evalVar v) v := fun _ hi => Circuit.evalVar_latch c v hi

theorem cube_eval {z : Cube} (hz : LatchCube c z) {v : Val} : z.holds (c.evalVar v) ↔ z.holds v :=
  ⟨latchCube_congr hz (eval_sameState v), latchCube_congr hz (sameState_symm (eval_sameState v))⟩

theorem rr_of_member {i : Nat} {v : Val} (h : PdrSpec.Member c f i v) : RR c f i v := h.2

theorem member_of_rr (hw : c.WF) (hc : ∀ j, ∀ z ∈ fr f j, LatchCube c z) {i : Nat} {v : Val} (h : RR c f i v) :
    PdrSpec.Member c f i (c.evalVar v) :=
  ⟨Circuit.frame_evalVar hw v, fun e => (h.1 e).congr (sameState_symm (eval_sameState v)), fun j hj z hz hv =>
    h.2 j hj z hz ((cube_eval (hc j z hz)).1 hv)⟩

theorem reachable_iff (hw : c.WF) (hc : ∀ j, ∀ z ∈ fr f j, LatchCube c z) {z : Cube} : PdrSpec.Reachable c f k z ↔ Stuck c f k z := by
  constructor
  · rintro ⟨v, v', hv, ht, hz⟩; exact ⟨v, v', rr_of_member hv, (step_eval hw hv.1).1 ht, hz⟩
  · rintro ⟨v, v', hv, ht, hz⟩; exact ⟨c.evalVar v, v', member_of_rr hw hc hv, ht, hz⟩

/-- `z` can be entered from `R_k` outside `z`. -/
def Enter (c : Circuit) (f : List (List Cube)) (k : Nat) (z : Cube) : Prop := ∃ v v', RR c f k v ∧ ¬ z.holds v ∧ c.Trans v v' ∧ z.holds v'

theorem enterable_iff (hw : c.WF) (hc : ∀ j, ∀ z ∈ fr f j, LatchCube c z) {z : Cube} (hz : LatchCube c z) :
    PdrSpec.Enterable c f k z ↔ Enter c f k z := by
  constructor
  · rintro ⟨v, v', hv, hn, ht, hz⟩; exact ⟨v, v', rr_of_member hv, hn, (step_eval hw hv.1).1 ht, hz⟩
  · rintro ⟨v, v', hv, hn, ht, hzv⟩
    exact ⟨c.evalVar v, v', member_of_rr hw hc hv, fun h => hn ((cube_eval hz).1 h), ht, hzv⟩

theorem leads_of (hw : c.WF) {p : Cube} {Q Q' : Val → Prop} (hQ : ∀ x, Q x → Q' (c.evalVar x)) (h : Leads c p Q) : PdrSpec.Leads c p Q' := by
  intro w hpw
  obtain ⟨x, hx, hq⟩ := h w hpw
  exact ⟨c.evalVar x, Circuit.frame_evalVar hw x, fun i hi => (eval_sameState x i hi).trans (hx i hi), hQ x hq⟩

theorem relative_of (hw : c.WF) (hc : ∀ j, ∀ z ∈ fr f j, LatchCube c z) {z : Cube} (hz : LatchCube c z) {p : Param} {r : TCube}
    (h : Relative c f p k z r) : PdrSpec.Relative c f p k z r := by
  rcases h with ⟨e, h⟩ | ⟨e, v, v', ⟨hv, hn⟩, ht, hzv, h1, h2⟩
  · refine .inl ⟨e, ?_⟩
    split
    · rename_i hp
      rw [reachable_iff hw hc]
      rintro ⟨v, v', hv, ht, hzv⟩
      exact h v v' ⟨hv, fun h' => absurd hp h'⟩ ht hzv
    · rw [enterable_iff hw hc hz]
      rintro ⟨v, v', hv, hn, ht, hzv⟩
      exact h v v' ⟨hv, fun _ => hn⟩ ht hzv
  · refine .inr ⟨e, ?_, h2, ?_⟩
    · split
      · rw [reachable_iff hw hc]; exact ⟨v, v', hv, ht, hzv⟩
      · rename_i hp
        rw [enterable_iff hw hc hz]; exact ⟨v, v', hv, hn hp, ht, hzv⟩
    · intro hp
      obtain ⟨a1, a2, a3⟩ := h1 hp
      refine ⟨overLatches_of a1, c.evalVar v, v', member_of_rr hw hc hv, fun h => hn (by rw [hp]; simp) ((cube_eval hz).1 h), (cube_eval a1).2 a2, ht, hzv, ?_⟩
      exact leads_of hw (fun x hx => hx) a3

theorem stored_of {z : Cube} (h : Put z k f f') : PdrSpec.Stored f z k f' := by
  have split : ∀ {l l' : List Cube}, l'.Perm (l.filter (fun x => !subsumes z x)) →
      ∃ r, l.Perm (l' ++ r) ∧ (∀ x ∈ l', ¬ PdrSpec.Subsumes z x) ∧ ∀ x ∈ r, PdrSpec.Subsumes z x := by
    intro l l' h
    refine ⟨l.filter (fun x => subsumes z x), ?_, fun x hx => ?_, fun x hx => ?_⟩
    · have := List.filter_append_perm (fun x => !subsumes z x) l
      simp only [Bool.not_not] at this
      exact this.symm.trans (h.symm.append_right _)
    · have := List.mem_filter.1 (h.mem_iff.1 hx)
      exact not_subsumes.1 (by simpa using this.2)
    · exact subsumes_spec.1 (List.mem_filter.1 hx).2
  refine ⟨h.len, h.other, fun j h1 h2 => split (h.below j h1 h2), ?_⟩
  obtain ⟨l, hl, e⟩ := h.at
  obtain ⟨r, h1, h2, h3⟩ := split hl
  exact ⟨l, r, e, h1, h2, h3⟩

/-! ## `generalize` -/

/-- `l` was needed in some cube between `r` and `Z`. -/
def Needed (c : Circuit) (f : List (List Cube)) (k : Nat) (Z r : List Literal) (l : Literal) : Prop :=
  ∃ e : Cube, (∀ x ∈ r, x ≠ l → x ∈ e.lits) ∧ l ∉ e.lits ∧ (∀ x ∈ e.lits, x ∈ Z) ∧ (PdrSpec.Initial c e ∨ Enter c f k e)

theorem Needed.mono {Z r r' : List Literal} {l : Literal} (h : Needed c f k Z r l) (hr : ∀ x ∈ r', x ∈ r) : Needed c f k Z r' l := by
  obtain ⟨e, h1, h2⟩ := h
  exact ⟨e, fun x hx => h1 x (hr x hx), h2⟩

theorem generalizeLoop_exact {A : PDR I} (S : SmallSys sys c bads) (hA : A.fsts = sys) (hc : ∀ j, ∀ z ∈ fr f j, LatchCube c z)
    (hlen : f.length = d + 2) (hk : k + 1 ≤ d) {Z : List Literal} (hZ : ∀ x ∈ Z, LatchLit c x) (hcons : ∀ x ∈ Z, x.not ∉ Z) :
    ∀ (b : Nat) (lits : List Literal) (j : Nat), lits.length ≤ b + j → lits.Nodup → (∀ x ∈ lits, x ∈ Z) → Rel c True f k (Cube.new lits) →
    (∀ l ∈ lits.take j, Needed c f k Z lits l) →
    GTri F (Inv O (formulas sys)) f (A.generalizeLoop (.ok (k + 1)) b lits j) (fun r f' => f' = f ∧ (∀ x ∈ r, x ∈ Z) ∧
      Rel c True f k (Cube.new r) ∧ ∀ l ∈ r, Needed c f k Z r l) := by
  intro b
  induction b with
  | zero =>
    intro lits j hb _ hl hr hnd
    unfold generalizeLoop
    rw [if_neg (by omega)]
    exact GTri.pure ⟨rfl, hl, hr, fun l h => hnd l (by rw [List.take_of_length_le (by omega)]; exact h)⟩
  | succ b ih =>
    intro lits j hb hnodup hl hr hnd
    unfold generalizeLoop
    refine GTri.ite (fun hj => ?_) (fun hj => GTri.pure ⟨rfl, hl, hr, fun l h => hnd l (by rw [List.take_of_length_le (by omega)]; exact h)⟩)
    obtain ⟨x, rest, hsr, hperm⟩ := swapRemove_spec hj
    obtain ⟨hx, htake, hback⟩ := swapRemove_take hsr
    refine GTri.bind (GTri.lift_ok (a := (x, rest)) (Q := fun y f' => y = (x, rest) ∧ f' = f) (by rw [hsr]; rfl) ⟨rfl, rfl⟩) ?_
    rintro _ f ⟨rfl, rfl⟩
    dsimp only
    have hsub : ∀ l ∈ rest, l ∈ lits := fun l h => hperm.mem_iff.2 (by simp [h])
    have hnd' := hperm.nodup_iff.1 hnodup
    rw [List.nodup_cons] at hnd'
    have hlenr := hperm.length_eq
    rw [List.length_cons] at hlenr
    have hmem : ∀ l ∈ (Cube.new rest).lits, l ∈ Z := fun l h => hl l (hsub l (Cube.mem_new.1 h))
    have hrest : ∀ y ∈ rest, LatchLit c y := fun y hy => hZ y (hl y (hsub y hy))
    have hin : A.isInitial (Cube.new rest) = sys.isCubeInitial (Cube.new rest) := by unfold isInitial; rw [hA]
    have hini : sys.isCubeInitial (Cube.new rest) = true ↔ PdrSpec.Initial c (Cube.new rest) :=
      isCubeInitial_iff S.laws fun l h hn => hcons l (hmem l h) (hmem _ hn)
    refine GTri.bind (R := fun b f' => f' = f ∧ (b = true → Rel c True f k (Cube.new rest)) ∧
      (b = false → PdrSpec.Initial c (Cube.new rest) ∨ Enter c f k (Cube.new rest))) ?_ ?_
    · refine GTri.ite (fun hi => GTri.pure ⟨rfl, fun h => Bool.noConfusion h, fun _ => .inl (hini.1 (by rw [← hin]; exact hi))⟩) (fun hi => ?_)
      refine GTri.bind (solveRelative_spec S hA hc hlen hk (latchCube_new hrest) _) ?_
      rintro r f ⟨rfl, hrel⟩
      refine GTri.pure ⟨rfl, fun h => ?_, fun h => ?_⟩
      · exact (rel_of_relative S.laws (by rw [← hin]; simpa using hi) hrel (of_decide_eq_true h)).2
      · rcases hrel with ⟨rfl, _⟩ | ⟨_, v, v', ⟨hv, hn⟩, ht, hzv, _⟩
        · simp at h
        · exact .inr ⟨v, v', hv, hn (by simp), ht, hzv⟩
    · rintro dr f ⟨rfl, hdr, hdf⟩
      refine GTri.ite (fun h => ?_) (fun h => ?_)
      · refine ih rest j (by omega) hnd'.2 (fun l hm => hl l (hsub l hm)) (hdr h) ?_
        intro l hm
        rw [htake] at hm
        exact (hnd l hm).mono hsub
      · refine GTri.bind (GTri.lift_ok (a := lits) (Q := fun y f' => y = lits ∧ f' = f) (by rw [hback]; rfl) ⟨rfl, rfl⟩) ?_
        rintro p f2 ⟨hp, hf⟩
        subst hf
        rw [hp]
        refine ih lits (j + 1) (by omega) hnodup hl hr ?_
        intro l hm
        rw [List.take_add_one, hx] at hm
        rcases List.mem_append.1 hm with hm | hm
        · exact hnd l hm
        · have : l = x := by simpa using hm
          subst this
          refine ⟨Cube.new rest, ?_, fun h => hnd'.1 (Cube.mem_new.1 h), hmem, hdf (by simpa using h)⟩
          intro y hy hne
          rcases List.mem_cons.1 (hperm.mem_iff.1 hy) with h | h
          · exact absurd h hne
          · exact Cube.mem_new.2 h

theorem generalize_exact {A : PDR I} (S : SmallSys sys c bads) (hA : A.fsts = sys) (hsch : A.sched.OK) (hc : ∀ j, ∀ z ∈ fr f j, LatchCube c z)
    (hlen : f.length = d + 2) (hk : k + 1 ≤ d) {z : Cube} (hz : Ic3Spec.StateCube c z) (hi : ¬ PdrSpec.Initial c z)
    (he : ¬ PdrSpec.Enterable c f k z) :
    GTri F (Inv O (formulas sys)) f (A.generalize ⟨z, .ok (k + 1)⟩) (fun r f' => f' = f ∧ ∃ y, r = ⟨y, .ok (k + 1)⟩ ∧ PdrSpec.OverLatches c y ∧
      PdrSpec.Generalizes c f k z y) := by
  have hzl : LatchCube c z := IC3.latchCube_of hz
  rw [enterable_iff S.wf hc hzl] at he
  have hr : Rel c True f k z := ⟨fun _ v hv hzv => hi ⟨v, hv, hzv⟩, fun v v' hv hn ht hzv => he ⟨v, v', hv, hn, ht, hzv⟩⟩
  unfold generalize
  refine GTri.bind (fresh_spec f) ?_
  rintro t f rfl
  have hp := hsch.shuffle t z.iter
  refine GTri.bind (generalizeLoop_exact S hA hc hlen hk hzl.lits hz.consistent _ (A.sched.shuffle t z.iter) 0 (Nat.le_refl _)
    (hp.nodup_iff.2 hz.nodup) (fun x hx => hp.mem_iff.1 hx) (hr.congr fun v => ?_) (by simp)) ?_
  · rw [Cube.holds_new]
    exact ⟨fun h x hx => h x (hp.mem_iff.1 hx), fun h x hx => h x (hp.mem_iff.2 hx)⟩
  · rintro r f ⟨rfl, h1, h2, h3⟩
    have hy := latchCube_new fun x hx => hzl.lits x (h1 x hx)
    refine GTri.pure ⟨rfl, _, rfl, overLatches_of hy, fun l hl => h1 l (Cube.mem_new.1 hl), ?_, ?_, ?_⟩
    · rintro ⟨v, hv, hvy⟩; exact h2.1 trivial v hv hvy
    · rw [enterable_iff S.wf hc hy]
      rintro ⟨v, v', hv, hn, ht, hzv⟩
      exact h2.2 v v' hv hn ht hzv
    · intro l hl
      obtain ⟨e, e1, e2, e3, e4⟩ := h3 l (Cube.mem_new.1 hl)
      refine ⟨Cube.new e.lits, fun x hx hne => Cube.mem_new.2 (e1 x (Cube.mem_new.1 hx) hne), fun h => e2 (Cube.mem_new.1 h),
        fun x hx => e3 x (Cube.mem_new.1 hx), ?_⟩
      have hh : ∀ v, (Cube.new e.lits).holds v ↔ e.holds v := fun v => by rw [Cube.holds_new]; exact Iff.rfl
      have he : LatchCube c (Cube.new e.lits) := latchCube_new fun x hx => hzl.lits x (e3 x hx)
      rw [enterable_iff S.wf hc he]
      unfold PdrSpec.Initial Enter at e4 ⊢
      simp only [hh]
      exact e4

/-! ## Moving a cube forward -/

theorem forwardLoop_exact {A : PDR I} (S : SmallSys sys c bads) (hA : A.fsts = sys) (hc : ∀ j, ∀ z ∈ fr f j, LatchCube c z)
    (hlen : f.length = d + 2) {z : Cube} (hz : LatchCube c z) : ∀ (b k : Nat), k + 1 ≤ d → d ≤ b + k + 1 →
    GTri F (Inv O (formulas sys)) f (A.forwardLoop b ⟨z, .ok (k + 1)⟩ (k + 1)) (fun r f' => f' = f ∧ ∃ k', r = ⟨z, .ok (k' + 1)⟩ ∧ k ≤ k' ∧
      (∀ n, k < n → n ≤ k' → ¬ Enter c f n z) ∧ (d ≤ k' + 2 ∨ Enter c f (k' + 1) z) ∧ k' + 1 ≤ d ∧ (k < k' → k' + 2 ≤ d)) := by
  intro b
  induction b with
  | zero =>
    intro k hk hb
    unfold forwardLoop
    refine GTri.bind (depth_spec hlen) ?_
    rintro d' f' ⟨e1, e2⟩
    rw [e1, e2]
    clear e1 e2 d' f'
    rw [if_neg (by omega), if_neg (by omega)]
    exact GTri.pure ⟨rfl, k, rfl, Nat.le_refl _, fun n h1 h2 => by omega, .inl (by omega), hk, fun h => by omega⟩
  | succ b ih =>
    intro k hk hb
    unfold forwardLoop
    refine GTri.bind (depth_spec hlen) ?_
    rintro d' f' ⟨e1, e2⟩
    rw [e1, e2]
    clear e1 e2 d' f'
    rw [if_neg (by omega)]
    refine GTri.ite (fun hlt => ?_) (fun hge => GTri.pure ⟨rfl, k, rfl, Nat.le_refl _, fun n h1 h2 => by omega, .inl (by omega), hk, fun h => by omega⟩)
    refine GTri.bind (GTri.lift_ok (a := ⟨z, .ok (k + 1 + 1)⟩) (Q := fun y f' => y = ⟨z, .ok (k + 1 + 1)⟩ ∧ f' = f) rfl ⟨rfl, rfl⟩) ?_
    rintro _ f ⟨rfl, rfl⟩
    refine GTri.bind (solveRelative_spec S hA hc hlen (k := k + 1) (by omega) hz _) ?_
    rintro y f ⟨rfl, hrel⟩
    rcases hrel with ⟨rfl, hrel⟩ | ⟨e, v, v', ⟨hv, hn⟩, ht, hzv, _⟩
    · rw [if_pos (by simp)]
      refine GTri.bind (GTri.assert (by simp)) ?_
      rintro _ f rfl
      dsimp only
      refine (ih (k + 1) (by omega) (by omega)).mono ?_
      rintro r f ⟨rfl, k', h1, h2, h3, h4, h5, h6⟩
      refine ⟨rfl, k', h1, by omega, fun n hn1 hn2 => ?_, h4, h5, fun _ => ?_⟩
      · by_cases e : n = k + 1
        · subst e
          rintro ⟨v, v', hv, hn, ht, hzv⟩
          exact hrel v v' ⟨hv, fun _ => hn⟩ ht hzv
        · exact h3 n (by omega) hn2
      · by_cases e : k + 1 < k'
        · exact h6 e
        · omega
    · rw [if_neg (by rw [e]; simp)]
      exact GTri.pure ⟨rfl, k, rfl, Nat.le_refl _, fun n h1 h2 => by omega, .inr ⟨v, v', hv, hn (by simp), ht, hzv⟩, hk, fun h => by omega⟩

/-! ## Propagation -/

/-- Propagation out of frame `k`. -/
structure Stage (c : Circuit) (k : Nat) (f f' : List (List Cube)) : Prop where
  len : f'.length = f.length
  high : ∀ j, k + 1 < j → fr f' j = fr f j
  low : ∀ j, j < k → ∀ z, z ∈ fr f' j ↔ z ∈ fr f j
  «at» : ∀ z ∈ fr f' k, z ∈ fr f k
  up : ∀ z ∈ fr f' (k + 1), z ∈ fr f (k + 1) ∨ (z ∈ fr f k ∧ ¬ Stuck c f k z)
  kept : ∀ j, ∀ z ∈ fr f j, ∃ i, j ≤ i ∧ ∃ x ∈ fr f' i, subsumes x z = true
  same : ∀ i v, i ≤ k → (RC f' i v ↔ RC f i v)

theorem Stage.refl (f : List (List Cube)) : Stage c k f f :=
  ⟨rfl, fun _ _ => rfl, fun _ _ _ => Iff.rfl, fun _ h => h, fun _ h => .inl h, fun j z hz => ⟨j, Nat.le_refl _, z, hz, subsumes_refl z⟩, fun _ _ _ => Iff.rfl⟩

theorem Stage.stuck (h : Stage c k f f') {i : Nat} (hi : i ≤ k) {z : Cube} : Stuck c f' i z ↔ Stuck c f i z := by
  unfold Stuck RR
  simp only [h.same i _ hi]

theorem Stage.trans {f1 : List (List Cube)} (h : Stage c k f f1) (h' : Stage c k f1 f') : Stage c k f f' where
  len := by rw [h'.len, h.len]
  high := fun j hj => by rw [h'.high j hj, h.high j hj]
  low := fun j hj z => (h'.low j hj z).trans (h.low j hj z)
  «at» := fun z hz => h.at z (h'.at z hz)
  up := by
    intro z hz
    rcases h'.up z hz with hz | ⟨hz, hs⟩
    · exact h.up z hz
    · exact .inr ⟨h.at z hz, fun hs' => hs ((h.stuck (Nat.le_refl _)).2 hs')⟩
  kept := by
    intro j z hz
    obtain ⟨i, hi, x, hx, hxz⟩ := h.kept j z hz
    obtain ⟨i', hi', y, hy, hyx⟩ := h'.kept i x hx
    exact ⟨i', by omega, y, hy, subsumes_trans hyx hxz⟩
  same := fun i v hi => (h'.same i v hi).trans (h.same i v hi)

theorem Stage.put {L : Prop} (h : Frames c bads L d m f) {z : Cube} (hz : z ∈ fr f k) (hn : ¬ Stuck c f k z) (hp : Put z (k + 1) f f') :
    Stage c k f f' where
  len := hp.len
  high := fun j hj => hp.other j (.inr hj)
  low := by
    intro j hj x
    constructor
    · intro hx
      rcases hp.mem hx with ⟨hx, _⟩ | ⟨e, _⟩
      · exact hx
      · omega
    · exact fun hx => hp.keep hx (h.across j k hj x hx z hz)
  «at» := by
    intro x hx
    rcases hp.mem hx with ⟨hx, _⟩ | ⟨e, _⟩
    · exact hx
    · omega
  up := by
    intro x hx
    rcases hp.mem hx with ⟨hx, _⟩ | ⟨_, rfl⟩
    · exact .inl hx
    · exact .inr ⟨hz, hn⟩
  kept := by
    intro j x hx
    by_cases hj : j = 0 ∨ k + 1 < j
    · exact ⟨j, Nat.le_refl _, x, by rw [hp.other j hj]; exact hx, subsumes_refl x⟩
    · cases hs : subsumes z x with
      | false => exact ⟨j, Nat.le_refl _, x, hp.keep hx hs, subsumes_refl x⟩
      | true => exact ⟨k + 1, by omega, z, hp.self, hs⟩
  same := by
    intro i v hi
    rw [hp.rc]
    exact ⟨fun h => h.1, fun h => ⟨h, fun _ => h k hi z hz⟩⟩

theorem propagateLoop_exact {A : PDR I} {L : Prop} (S : SmallSys sys c bads) (hA : A.fsts = sys) (hk : 1 ≤ k) (hkd : k + 1 ≤ d) :
    ∀ (b index : Nat) (f : List (List Cube)), Frames c bads L d m f → (fr f k).length ≤ b + index →
      (∀ (j : Nat) (x : Cube), j < index → (fr f k)[j]? = some x → Stuck c f k x) →
      GTri F (Inv O (formulas sys)) f (A.propagateLoop k b index) (fun _ f' => Frames c bads L d m f' ∧ Stage c k f f' ∧
        ∀ x ∈ fr f' k, Stuck c f' k x) := by
  intro b
  induction b with
  | zero =>
    intro index f hf hb hst
    unfold propagateLoop
    refine GTri.read fun s hs => ?_
    refine GTri.bind (GTri.lift_ok (a := fr f k) (Q := fun y f' => y = fr f k ∧ f' = f) (by
      unfold indexR; rw [hs.f_eq, fr_get (by rw [hf.len]; omega)]; rfl) ⟨rfl, rfl⟩) ?_
    rintro _ f ⟨rfl, rfl⟩
    rw [List.getElem?_eq_none (by omega)]
    refine GTri.pure ⟨hf, .refl f, fun x hx => ?_⟩
    obtain ⟨j, hj⟩ := List.mem_iff_getElem?.1 hx
    exact hst j x (by have := getElem?_lt hj; omega) hj
  | succ b ih =>
    intro index f hf hb hst
    unfold propagateLoop
    refine GTri.read fun s hs => ?_
    refine GTri.bind (GTri.lift_ok (a := fr f k) (Q := fun y f' => y = fr f k ∧ f' = f) (by
      unfold indexR; rw [hs.f_eq, fr_get (by rw [hf.len]; omega)]; rfl) ⟨rfl, rfl⟩) ?_
    rintro _ f ⟨rfl, rfl⟩
    cases hget : (fr f k)[index]? with
    | none =>
      refine GTri.pure ⟨hf, .refl f, fun x hx => ?_⟩
      obtain ⟨j, hj⟩ := List.mem_iff_getElem?.1 hx
      refine hst j x ?_ hj
      have := getElem?_lt hj
      rw [List.getElem?_eq_none_iff] at hget
      omega
    | some z =>
      have hzm : z ∈ fr f k := List.mem_iff_getElem?.2 ⟨index, hget⟩
      dsimp only
      refine GTri.bind (solveRelative_spec S hA hf.cubes hf.len (k := k) hkd (hf.cubes k z hzm) _) ?_
      rintro r f ⟨rfl, hrel⟩
      rcases hrel with ⟨rfl, hrel⟩ | ⟨e, v, v', hv, ht, hzv, _⟩
      · rw [if_pos (by simp)]
        have hr : ∀ v v', RR c f k v → c.Trans v v' → ¬ z.holds v' := fun v v' hv ht => hrel v v' ⟨hv, fun h => absurd rfl h⟩ ht
        have hn : ¬ Stuck c f k z := fun ⟨v, v', hv, ht, hz⟩ => hr v v' hv ht hz
        refine GTri.bind (addBlockedCube_spec S hf.len (by omega) hkd (hf.cubes k z hzm)) ?_
        intro _ f1 hput
        have hmv := Frames.move hf hkd hzm hr hput
        have hsg := Stage.put hf hzm hn hput
        have hpre := hput.pre k hk (by omega) index (fun i x hi hx => by
          have hw := hf.within k
          obtain ⟨hi1, rfl⟩ := List.getElem?_eq_some_iff.1 hx
          obtain ⟨hi2, rfl⟩ := List.getElem?_eq_some_iff.1 hget
          exact (List.pairwise_iff_getElem.1 hw i index hi1 hi2 hi).2)
        refine (ih index f1 hmv.frames ?_ ?_).mono ?_
        · have hl := (hput.below k hk (by omega)).length_eq
          have : ((fr f k).filter (fun x => !subsumes z x)).length < (fr f k).length := by
            rw [List.length_filter_lt_length_iff_exists]
            exact ⟨z, hzm, by simp [subsumes_refl]⟩
          omega
        · intro j x hj hx
          rw [hpre j hj] at hx
          exact (hst j x hj hx).congr hmv
        · rintro _ f2 ⟨h0, h1, h2⟩
          exact ⟨h0, hsg.trans h1, h2⟩
      · rw [if_neg (by rw [e]; simp)]
        refine ih (index + 1) f hf (by omega) fun j x hj hx => ?_
        by_cases hj' : j < index
        · exact hst j x hj' hx
        · have : j = index := by omega
          subst this
          rw [hget] at hx
          cases hx
          exact ⟨v, v', hv.1, ht, hzv⟩

/-- Propagation out of the frames `1..=n`. -/
structure Stages (c : Circuit) (n : Nat) (f f' : List (List Cube)) : Prop where
  len : f'.length = f.length
  high : ∀ j, n + 1 < j → fr f' j = fr f j
  source : ∀ j, ∀ z ∈ fr f' j, ∃ i, i ≤ j ∧ z ∈ fr f i ∧ ∀ k, i ≤ k → k < j → ¬ Stuck c f' k z
  kept : ∀ j, ∀ z ∈ fr f j, ∃ i, j ≤ i ∧ ∃ x ∈ fr f' i, subsumes x z = true
  stuck : ∀ k, 1 ≤ k → k ≤ n → ∀ z ∈ fr f' k, Stuck c f' k z

theorem Stages.zero (f : List (List Cube)) : Stages c 0 f f :=
  ⟨rfl, fun _ _ => rfl, fun j z hz => ⟨j, Nat.le_refl _, hz, fun k h1 h2 => by omega⟩, fun j z hz => ⟨j, Nat.le_refl _, z, hz, subsumes_refl z⟩,
    fun k h1 h2 => by omega⟩

theorem Stages.succ {n : Nat} (h : Stages c n f0 f) (h' : Stage c (n + 1) f f') (hs : ∀ x ∈ fr f' (n + 1), Stuck c f' (n + 1) x) :
    Stages c (n + 1) f0 f' where
  len := by rw [h'.len, h.len]
  high := fun j hj => by rw [h'.high j hj, h.high j (by omega)]
  source := by
    intro j z hz
    have old : ∀ i, i ≤ n + 2 → z ∈ fr f i → ∃ i', i' ≤ i ∧ z ∈ fr f0 i' ∧ ∀ k, i' ≤ k → k < i → ¬ Stuck c f' k z := by
      intro i hi hz
      obtain ⟨i', h1, h2, h3⟩ := h.source i z hz
      exact ⟨i', h1, h2, fun k hk1 hk2 hst => h3 k hk1 hk2 ((h'.stuck (by omega)).1 hst)⟩
    by_cases hj : n + 2 < j
    · rw [h'.high j hj, h.high j (by omega)] at hz
      exact ⟨j, Nat.le_refl _, hz, fun k h1 h2 => by omega⟩
    by_cases hj1 : j < n + 1
    · exact old j (by omega) ((h'.low j hj1 z).1 hz)
    by_cases hj2 : j = n + 1
    · subst hj2; exact old _ (by omega) (h'.at z hz)
    have hj3 : j = n + 2 := by omega
    subst hj3
    rcases h'.up z hz with hz | ⟨hz, hn⟩
    · exact old _ (by omega) hz
    · obtain ⟨i', h1, h2, h3⟩ := old _ (by omega) hz
      refine ⟨i', by omega, h2, fun k hk1 hk2 hst => ?_⟩
      by_cases e : k = n + 1
      · subst e; exact hn ((h'.stuck (Nat.le_refl _)).1 hst)
      · exact h3 k hk1 (by omega) hst
  kept := by
    intro j z hz
    obtain ⟨i, hi, x, hx, hxz⟩ := h.kept j z hz
    obtain ⟨i', hi', y, hy, hyx⟩ := h'.kept i x hx
    exact ⟨i', by omega, y, hy, subsumes_trans hyx hxz⟩
  stuck := by
    intro k hk1 hk2 z hz
    by_cases e : k = n + 1
    · subst e; exact hs z hz
    · exact (h'.stuck (by omega)).2 (h.stuck k hk1 (by omega) z ((h'.low k (by omega) z).1 hz))

theorem propagateFrames_exact {A : PDR I} {L : Prop} (S : SmallSys sys c bads) (hA : A.fsts = sys) : ∀ (n k : Nat) (f : List (List Cube)),
    k + 1 + n = d → Frames c bads L d m f → Stages c k f0 f → (∀ i, 1 ≤ i → i ≤ k → fr f i ≠ []) →
    GTri F (Inv O (formulas sys)) f (A.propagateFrames (List.range' (k + 1) n)) (fun r f' => Frames c bads L d m f' ∧
      (r = none → Stages c (d - 1) f0 f' ∧ ∀ i, 1 ≤ i → i < d → fr f' i ≠ []) ∧
      ∀ k', r = some k' → 1 ≤ k' ∧ k' < d ∧ Stages c k' f0 f' ∧ fr f' k' = [] ∧ ∀ i, 1 ≤ i → i < k' → fr f' i ≠ []) := by
  intro n
  induction n with
  | zero =>
    intro k f hn hf hst hne
    refine GTri.pure ⟨hf, fun _ => ⟨?_, fun i h1 h2 => hne i h1 (by omega)⟩, fun k h => by simp at h⟩
    rw [show d - 1 = k by omega]; exact hst
  | succ n ih =>
    intro k f hn hf hst hne
    rw [List.range'_succ]
    unfold propagateFrames
    refine GTri.read fun s hs => ?_
    refine GTri.bind (GTri.lift_ok (a := fr f (k + 1)) (Q := fun y f' => y = fr f (k + 1) ∧ f' = f) (by
      unfold indexR; rw [hs.f_eq, fr_get (by rw [hf.len]; omega)]; rfl) ⟨rfl, rfl⟩) ?_
    rintro _ f ⟨rfl, rfl⟩
    refine GTri.bind (propagateLoop_exact S hA (by omega) (by omega) _ 0 f hf (Nat.le_refl _) (fun j x hj => by omega)) ?_
    rintro _ f1 ⟨hf1, hsg, hstuck⟩
    have hst1 := hst.succ hsg hstuck
    have hne1 : ∀ i, 1 ≤ i → i ≤ k → fr f1 i ≠ [] := by
      intro i h1 h2 e
      obtain ⟨x, hx⟩ := List.exists_mem_of_ne_nil _ (hne i h1 h2)
      have := (hsg.low i (by omega) x).2 hx
      rw [e] at this
      cases this
    refine GTri.read fun s hs => ?_
    refine GTri.bind (GTri.lift_ok (a := fr f1 (k + 1)) (Q := fun y f' => y = fr f1 (k + 1) ∧ f' = f1) (by
      unfold indexR; rw [hs.f_eq, fr_get (by rw [hf1.len]; omega)]; rfl) ⟨rfl, rfl⟩) ?_
    rintro _ f1 ⟨rfl, rfl⟩
    refine GTri.ite (fun he => ?_) (fun he => ?_)
    · refine GTri.pure ⟨hf1, fun h => by simp at h, fun k' e => ?_⟩
      cases e
      exact ⟨by omega, by omega, hst1, by simpa using he, fun i h1 h2 => hne1 i h1 (by omega)⟩
    · refine ih (k + 1) f1 (by omega) hf1 hst1 fun i h1 h2 => ?_
      by_cases e : i = k + 1
      · subst e; simpa using he
      · exact hne1 i h1 (by omega)

theorem propagateBlockedCubes_exact {A : PDR I} {L : Prop} (S : SmallSys sys c bads) (hA : A.fsts = sys) (hd : 1 ≤ d) (hf : Frames c bads L d m f) :
    GTri F (Inv O (formulas sys)) f A.propagateBlockedCubes (fun r f' => Frames c bads L d m f' ∧
      (r = none → Stages c (d - 1) f f' ∧ ∀ i, 1 ≤ i → i < d → fr f' i ≠ []) ∧
      ∀ k', r = some k' → 1 ≤ k' ∧ k' < d ∧ Stages c k' f f' ∧ fr f' k' = [] ∧ ∀ i, 1 ≤ i → i < k' → fr f' i ≠ []) := by
  unfold propagateBlockedCubes
  refine GTri.bind (depth_spec hf.len) ?_
  rintro d' f' ⟨e1, e2⟩
  rw [e1, e2]
  exact propagateFrames_exact S hA (d - 1) 0 f (by omega) hf (.zero f) (fun i h1 h2 => by omega)

theorem propagated_of {n : Nat} (hw : c.WF) (hc : ∀ j, ∀ z ∈ fr f' j, LatchCube c z) (h : Stages c n f f') : PdrSpec.Propagated c f n f' where
  len := h.len
  high := h.high
  source := by
    intro j z hz
    obtain ⟨i, h1, h2, h3⟩ := h.source j z hz
    exact ⟨i, h1, h2, fun k hk1 hk2 hr => h3 k hk1 hk2 ((reachable_iff hw hc).1 hr)⟩
  kept := by
    intro j z hz
    obtain ⟨i, hi, x, hx, hxz⟩ := h.kept j z hz
    exact ⟨i, hi, x, hx, subsumes_spec.1 hxz⟩
  stuck := fun k h1 h2 z hz => (reachable_iff hw hc).2 (h.stuck k h1 h2 z hz)

/-! ## The invariants -/

theorem frames_of (hw : c.WF) (h : PdrSpec.Invariants c bads f d m) : Frames c bads True d m f where
  len := h.len
  zero := h.zero
  inf := h.inf
  cubes := cubes_of h.ok
  init := fun _ v hv j z hz hzv => h.init j z hz ⟨v, hv, hzv⟩
  step := fun i v v' hv ht => h.step i _ v' (member_of_rr hw (cubes_of h.ok) hv) ht
  good := fun i v hi hv => h.good i _ hi (member_of_rr hw (cubes_of h.ok) hv)
  within := fun j => (h.within j).imp fun h => ⟨not_subsumes.2 h.1, not_subsumes.2 h.2⟩
  across := fun i j hij a ha b hb => not_subsumes.2 (h.across i j hij a ha b hb)

theorem invariants_of (hw : c.WF) (hb : BadsOK c bads) (h : Frames c bads True d m f) : PdrSpec.Invariants c bads f d m where
  len := h.len
  ok := fun j z hz => overLatches_of (h.cubes j z hz)
  zero := h.zero
  inf := h.inf
  init := fun j z hz ⟨v, hv, hzv⟩ => h.init trivial v hv j z hz hzv
  step := fun i v v' hv ht => h.step i v v' (rr_of_member hv) ((step_eval hw hv.1).1 ht)
  good := fun i v hi hv hbad => h.good i v hi (rr_of_member hv) ((badNow_eval hw hb hv.1).1 hbad)
  within := fun j => (h.within j).imp fun h => ⟨not_subsumes.1 h.1, not_subsumes.1 h.2⟩
  across := fun i j hij a ha b hb => not_subsumes.1 (h.across i j hij a ha b hb)

end Verif.PDR
