import Verif.Proofs.PdrBlock

/-! # PDR: propagating cubes -/

namespace Verif.PDR

open Fsts IC3

variable {sys : Fsts} {c : Circuit} {bads : List Nat} {f f' : List (List Cube)} {I : StatefulImpl} {F : Err → Prop} {O : I.OK F} {d m k : Nat} {L : Prop}

/-- `z` can be reached in one step from `R_k`. -/
def Stuck (c : Circuit) (f : List (List Cube)) (k : Nat) (z : Cube) : Prop := ∃ v v', RR c f k v ∧ c.Trans v v' ∧ z.holds v'

/-- Propagation out of frame `k` leaves the sets up to `R_k` as they were. -/
structure Prop1 (c : Circuit) (bads : List Nat) (L : Prop) (d m k : Nat) (f f' : List (List Cube)) : Prop where
  frames : Frames c bads L d m f'
  mono : ∀ i v, RC f' i v → RC f i v
  same : ∀ i v, i ≤ k → RC f i v → RC f' i v

theorem Prop1.refl (h : Frames c bads L d m f) : Prop1 c bads L d m k f f := ⟨h, fun _ _ h => h, fun _ _ _ h => h⟩

theorem Prop1.trans {f1 f2 : List (List Cube)} (h : Prop1 c bads L d m k f f1) (h' : Prop1 c bads L d m k f1 f2) : Prop1 c bads L d m k f f2 :=
  ⟨h'.frames, fun i v hv => h.mono i v (h'.mono i v hv), fun i v hi hv => h'.same i v hi (h.same i v hi hv)⟩

theorem Stuck.congr {z : Cube} (h : Prop1 c bads L d m k f f') (hs : Stuck c f k z) : Stuck c f' k z := by
  obtain ⟨v, v', hv, ht, hz⟩ := hs
  exact ⟨v, v', ⟨hv.1, h.same k v (Nat.le_refl _) hv.2⟩, ht, hz⟩

/-- Moving a cube of frame `k` to frame `k + 1`. -/
theorem Frames.move (h : Frames c bads L d m f) (hkd : k + 1 ≤ d) {z : Cube} (hz : z ∈ fr f k)
    (hr : ∀ v v', RR c f k v → c.Trans v v' → ¬ z.holds v') (hp : Put z (k + 1) f f') : Prop1 c bads L d m k f f' where
  frames := h.put hp hkd (h.cubes k z hz) ⟨fun hL v hv => h.init hL v hv k z hz, fun v v' hv _ ht => hr v v' hv ht⟩
    fun j hj x hx => h.across k j (by omega) z hz x hx
  mono := fun i v hv => (hp.rc.1 hv).1
  same := fun i v hi hv => hp.rc.2 ⟨hv, fun _ => hv k hi z hz⟩

theorem propagateLoop_spec {A : PDR I} (S : SmallSys sys c bads) (hA : A.fsts = sys) (hk : 1 ≤ k) (hkd : k + 1 ≤ d) :
    ∀ (b index : Nat) (f : List (List Cube)), Frames c bads L d m f → (fr f k).length ≤ b + index →
      (∀ (j : Nat) (x : Cube), j < index → (fr f k)[j]? = some x → Stuck c f k x) →
      GTri F (Inv O (formulas sys)) f (A.propagateLoop k b index) (fun _ f' => Prop1 c bads L d m k f f' ∧ ∀ x ∈ fr f' k, Stuck c f' k x) := by
  intro b
  induction b with
  | zero =>
    intro index f hf hb hst
    unfold propagateLoop
    refine GTri.read fun s hs => ?_
    refine GTri.bind (GTri.lift_ok (a := fr f k) (Q := fun y f' => y = fr f k ∧ f' = f) (by
      unfold indexR; rw [hs.f_eq, fr_get (by rw [hf.len]; omega)]; rfl) ⟨rfl, rfl⟩) ?_
    rintro _ f ⟨rfl, rfl⟩
    rw [List.getElem?_eq_none (by omega)]
    refine GTri.pure ⟨.refl hf, fun x hx => ?_⟩
    obtain ⟨j, hj⟩ := List.mem_iff_getElem?.1 hx
    exact hst j x (by have := getElem?_lt hj; omega) hj
  | succ b ih =>
    intro index f hf hb hst
    unfold propagateLoop
    refine GTri.read fun s hs => ?_
    refine GTri.bind (GTri.lift_ok (a := fr f k) (Q := fun y f' => y = fr f k ∧ f' = f) (by
      unfold indexR; rw [hs.f_eq, fr_get (by rw [hf.len]; omega)]; rfl) ⟨rfl, rfl⟩) ?_
    rintro _ f ⟨rfl, rfl⟩
    cases hget : (fr f k)[index]? with
    | none =>
      refine GTri.pure ⟨.refl hf, fun x hx => ?_⟩
      obtain ⟨j, hj⟩ := List.mem_iff_getElem?.1 hx
      refine hst j x ?_ hj
      have := getElem?_lt hj
      rw [List.getElem?_eq_none_iff] at hget
      omega
    | some z =>
      have hzm : z ∈ fr f k := List.mem_iff_getElem?.2 ⟨index, hget⟩
      dsimp only
      refine GTri.bind (solveRelative_spec S hA hf.cubes hf.len (k := k) hkd (hf.cubes k z hzm) _) ?_
      rintro r f ⟨rfl, hrel⟩
      rcases hrel with ⟨rfl, hrel⟩ | ⟨e, v, v', hv, ht, hzv, _⟩
      · rw [if_pos (by simp)]
        have hr : ∀ v v', RR c f k v → c.Trans v v' → ¬ z.holds v' := fun v v' hv ht => hrel v v' ⟨hv, fun h => absurd rfl h⟩ ht
        refine GTri.bind (addBlockedCube_spec S hf.len (by omega) hkd (hf.cubes k z hzm)) ?_
        intro _ f1 hput
        have hmv := Frames.move hf hkd hzm hr hput
        have hpre := hput.pre k hk (by omega) index (fun i x hi hx => by
          have hw := hf.within k
          obtain ⟨hi1, rfl⟩ := List.getElem?_eq_some_iff.1 hx
          obtain ⟨hi2, rfl⟩ := List.getElem?_eq_some_iff.1 hget
          exact (List.pairwise_iff_getElem.1 hw i index hi1 hi2 hi).2)
        refine (ih index f1 hmv.frames ?_ ?_).mono ?_
        · have hl := (hput.below k hk (by omega)).length_eq
          have : ((fr f k).filter (fun x => !subsumes z x)).length < (fr f k).length := by
            rw [List.length_filter_lt_length_iff_exists]
            exact ⟨z, hzm, by simp [subsumes_refl]⟩
          omega
        · intro j x hj hx
          rw [hpre j hj] at hx
          exact (hst j x hj hx).congr hmv
        · rintro _ f2 ⟨h1, h2⟩
          exact ⟨hmv.trans h1, h2⟩
      · rw [if_neg (by rw [e]; simp)]
        refine ih (index + 1) f hf (by omega) fun j x hj hx => ?_
        by_cases hj' : j < index
        · exact hst j x hj' hx
        · have : j = index := by omega
          subst this
          rw [hget] at hx
          cases hx
          exact ⟨v, v', hv.1, ht, hzv⟩

/-- Frames below `k` differ from the next one. -/
def StrictBelow (f : List (List Cube)) (k : Nat) : Prop := ∀ j, 1 ≤ j → j < k → ∃ w, RC f (j + 1) w ∧ ¬ RC f j w

/-- The result of propagation. -/
def Propagated (c : Circuit) (bads : List Nat) (L : Prop) (d m : Nat) (f : List (List Cube)) (r : Option Nat) (f' : List (List Cube)) : Prop :=
  Frames c bads L d m f' ∧ (∀ i v, RC f' i v → RC f i v) ∧ (r = none → Strict f' d) ∧
    ∀ k, r = some k → 1 ≤ k ∧ k < d ∧ fr f' k = []

theorem propagateFrames_spec {A : PDR I} (S : SmallSys sys c bads) (hA : A.fsts = sys) : ∀ (n k : Nat) (f : List (List Cube)), 1 ≤ k →
    k + n = d → Frames c bads L d m f → StrictBelow f k →
    GTri F (Inv O (formulas sys)) f (A.propagateFrames (List.range' k n)) (fun r f' => Propagated c bads L d m f r f') := by
  intro n
  induction n with
  | zero =>
    intro k f hk hn hf hst
    refine GTri.pure ⟨hf, fun _ _ h => h, fun _ j h1 h2 => hst j h1 (by omega), fun k h => by simp at h⟩
  | succ n ih =>
    intro k f hk hn hf hst
    rw [List.range'_succ]
    unfold propagateFrames
    refine GTri.read fun s hs => ?_
    refine GTri.bind (GTri.lift_ok (a := fr f k) (Q := fun y f' => y = fr f k ∧ f' = f) (by
      unfold indexR; rw [hs.f_eq, fr_get (by rw [hf.len]; omega)]; rfl) ⟨rfl, rfl⟩) ?_
    rintro _ f ⟨rfl, rfl⟩
    refine GTri.bind (propagateLoop_spec S hA hk (by omega) _ 0 f hf (Nat.le_refl _) (fun j x hj => by omega)) ?_
    rintro _ f1 ⟨hp, hstuck⟩
    have hf1 := hp.frames
    refine GTri.read fun s hs => ?_
    refine GTri.bind (GTri.lift_ok (a := fr f1 k) (Q := fun y f' => y = fr f1 k ∧ f' = f1) (by
      unfold indexR; rw [hs.f_eq, fr_get (by rw [hf1.len]; omega)]; rfl) ⟨rfl, rfl⟩) ?_
    rintro _ f1 ⟨rfl, rfl⟩
    refine GTri.ite (fun he => ?_) (fun he => ?_)
    · refine GTri.pure ⟨hf1, hp.mono, fun h => by simp at h, fun k' e => ?_⟩
      cases e
      exact ⟨hk, by omega, by simpa using he⟩
    · have hst1 : StrictBelow f1 (k + 1) := by
        intro j h1 h2
        by_cases hj : j < k
        · obtain ⟨w, hw, hn⟩ := hst j h1 hj
          exact ⟨w, hp.same _ w (by omega) hw, fun h => hn (hp.mono _ w h)⟩
        · have : j = k := by omega
          subst this
          obtain ⟨x, hx⟩ := List.exists_mem_of_ne_nil (fr f1 j) (by simpa using he)
          obtain ⟨v, v', hv, ht, hxv⟩ := hstuck x hx
          exact ⟨v', hf1.step j v v' hv ht, fun hr => hr j (Nat.le_refl _) x hx hxv⟩
      refine (ih (k + 1) f1 (by omega) (by omega) hf1 hst1).mono ?_
      rintro r f2 ⟨h1, h2, h3, h4⟩
      exact ⟨h1, fun i v h => hp.mono i v (h2 i v h), h3, h4⟩

theorem propagateBlockedCubes_spec {A : PDR I} (S : SmallSys sys c bads) (hA : A.fsts = sys) (hd : 1 ≤ d) (hf : Frames c bads L d m f) :
    GTri F (Inv O (formulas sys)) f A.propagateBlockedCubes (fun r f' => Propagated c bads L d m f r f') := by
  unfold propagateBlockedCubes
  refine GTri.bind (depth_spec hf.len) ?_
  rintro d' f' ⟨e1, e2⟩
  rw [e1, e2]
  exact propagateFrames_spec S hA (d - 1) 1 f (Nat.le_refl _) (by omega) hf (fun j h1 h2 => by omega)

end Verif.PDR
