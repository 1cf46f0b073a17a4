import Verif.Proofs.PdrQuery

/-! # PDR: the obligation queue -/

namespace Verif.PDR

open Fsts IC3

variable {sys : Fsts} {c : Circuit} {bads : List Nat} {f f' : List (List Cube)} {I : StatefulImpl} {F : Err → Prop} {O : I.OK F} {d m k : Nat} {L : Prop}

/-- A proof obligation: a cube of states.  If every bad latch is covered, all of them lead to a bad state, and none of them is reachable in fewer
steps than its frame. -/
structure Ob (c : Circuit) (bads : List Nat) (d : Nat) (e : TCube × Nat) : Prop where
  frame : e.1.frame = .ok e.2
  le : e.2 ≤ d
  latch : LatchCube c e.1.cube
  nonempty : ∃ v, e.1.cube.holds v
  doomed : c.Covered bads → ∀ w, e.1.cube.holds w → DoomedState c bads w
  away : c.Covered bads → ∀ j, j < e.2 → ∀ v, c.Reach j v → ¬ e.1.cube.holds v
  zero : e.2 = 0 → ∃ v, c.Init v ∧ e.1.cube.holds v

/-- The invariant of the queue. -/
structure Queue (c : Circuit) (bads : List Nat) (d : Nat) (q : PQueue TCube) : Prop where
  nodup : (q.map Prod.fst).Nodup
  ob : ∀ e ∈ q, Ob c bads d e

theorem latchCube_congr {p : Cube} (hp : LatchCube c p) {v w : Val} (hs : c.SameState v w) (h : p.holds v) : p.holds w :=
  fun l hl => ((hp.lits l hl).holds_congr hs).1 (h l hl)

theorem push_cases {q : PQueue TCube} (hq : Queue c bads d q) (s : Cube) (n : Nat) :
    (q.push ⟨s, .ok n⟩ n = q ∧ ((⟨s, .ok n⟩ : TCube), n) ∈ q) ∨
      ((⟨s, .ok n⟩ : TCube) ∉ q.map Prod.fst ∧ q.push ⟨s, .ok n⟩ n = q ++ [(⟨s, .ok n⟩, n)]) := by
  by_cases h : (⟨s, .ok n⟩ : TCube) ∈ q.map Prod.fst
  · left
    have key : ∀ e ∈ q, e.1 = ⟨s, .ok n⟩ → e = (⟨s, .ok n⟩, n) := by
      rintro ⟨e1, e2⟩ he rfl
      have := (hq.ob _ he).frame
      have : n = e2 := Frame.ok.inj this
      rw [this]
    constructor
    · unfold PQueue.push
      rw [if_pos h]
      conv => rhs; rw [← List.map_id q]
      refine List.map_congr_left fun e he => ?_
      split
      · rename_i h'; exact (key e he h').symm
      · rfl
    · obtain ⟨e, he, e1⟩ := List.mem_map.1 h
      rw [← key e he e1]; exact he
  · exact .inr ⟨h, PQueue.push_of_notMem h⟩

theorem Queue.snoc {q : PQueue TCube} (hq : Queue c bads d q) {e : TCube × Nat} (he : Ob c bads d e) (hn : e.1 ∉ q.map Prod.fst) :
    Queue c bads d (q ++ [e]) where
  nodup := by
    rw [List.map_append, List.nodup_append]
    refine ⟨hq.nodup, by simp, fun a ha b hb => ?_⟩
    simp at hb
    rintro rfl
    exact hn (hb ▸ ha)
  ob := by
    intro x hx
    rw [List.mem_append] at hx
    rcases hx with hx | hx
    · exact hq.ob x hx
    · simp at hx; rw [hx]; exact he

theorem Queue.push {q : PQueue TCube} (hq : Queue c bads d q) {s : Cube} {n : Nat} (he : Ob c bads d (⟨s, .ok n⟩, n)) :
    Queue c bads d (q.push ⟨s, .ok n⟩ n) := by
  rcases push_cases hq s n with ⟨e, _⟩ | ⟨h, e⟩
  · rw [e]; exact hq
  · rw [e]; exact hq.snoc he h

theorem mem_push {q : PQueue TCube} (hq : Queue c bads d q) {s : Cube} {n : Nat} {x : TCube × Nat} :
    x ∈ q.push ⟨s, .ok n⟩ n ↔ x ∈ q ∨ x = (⟨s, .ok n⟩, n) := by
  rcases push_cases hq s n with ⟨e, h⟩ | ⟨h, e⟩
  · rw [e]; exact ⟨.inl, fun h' => h'.elim id fun e' => e' ▸ h⟩
  · rw [e, List.mem_append]; simp

theorem Queue.of_perm {q q' : PQueue TCube} {e : TCube × Nat} (hq : Queue c bads d q) (hp : q.Perm (e :: q')) :
    Ob c bads d e ∧ Queue c bads d q' ∧ e.1 ∉ q'.map Prod.fst := by
  have hn := (hp.map Prod.fst).nodup_iff.1 hq.nodup
  rw [List.map_cons, List.nodup_cons] at hn
  exact ⟨hq.ob e (hp.mem_iff.2 (by simp)), ⟨hn.2, fun x hx => hq.ob x (hp.mem_iff.2 (by simp [hx]))⟩, hn.1⟩

/-! ## The measure -/

/-- How far the obligations are from leaving the queue. -/
def phi (d : Nat) (q : PQueue TCube) : Nat := (q.map (fun e => d + 1 - e.2)).sum

theorem phi_perm {q q' : PQueue TCube} {e : TCube × Nat} (hp : q.Perm (e :: q')) : phi d q = (d + 1 - e.2) + phi d q' := by
  unfold phi
  rw [(hp.map _).sum_nat, List.map_cons, List.sum_cons]

theorem phi_snoc {q : PQueue TCube} {e : TCube × Nat} : phi d (q ++ [e]) = phi d q + (d + 1 - e.2) := by
  unfold phi
  simp

theorem phi_push {q : PQueue TCube} (hq : Queue c bads d q) (s : Cube) (n : Nat) : phi d (q.push ⟨s, .ok n⟩ n) ≤ phi d q + (d + 1 - n) := by
  rcases push_cases hq s n with ⟨e, _⟩ | ⟨_, e⟩
  · rw [e]; omega
  · rw [e, phi_snoc]; exact Nat.le_refl _

/-- `a` is the frame of the newest obligation, whose states are not all excluded yet; `d + 1` if there is none. -/
def Fresh (d : Nat) (f : List (List Cube)) (q : PQueue TCube) (a : Nat) : Prop :=
  a = d + 1 ∨ (a ≤ d ∧ ∃ e ∈ q, e.2 = a ∧ (∃ v, RC f a v ∧ e.1.cube.holds v) ∧ ∀ x ∈ q, x ≠ e → a < x.2)

/-! ## One obligation -/

/-- What handling the obligation `(s, k + 1)` does. -/
def Handled (c : Circuit) (bads : List Nat) (L : Prop) (d k : Nat) (f : List (List Cube)) (s : Cube) (q q' : PQueue TCube) (f' : List (List Cube)) : Prop :=
  (∃ z k', Put z (k' + 1) f f' ∧ k ≤ k' ∧ k' + 1 ≤ d ∧ subsumes z s = true ∧ Frames c bads L d d f' ∧
    ((k + 1 < d ∧ q' = q.push ⟨s, .ok (k + 2)⟩ (k + 2)) ∨ (k + 1 = d ∧ q' = q))) ∨
  (f' = f ∧ ∃ p v v', q' = (q.push ⟨p, .ok k⟩ k).push ⟨s, .ok (k + 1)⟩ (k + 1) ∧ LatchCube c p ∧ RR c f k v ∧ p.holds v ∧ s.holds v' ∧
    Leads c p (fun x => c.Trans x v'))

/-- Why the first assertion of the loop holds, may fail or is not compiled in. -/
structure Guard (c : Circuit) (bads : List Nat) (L : Prop) (dbg : Bool) (F : Err → Prop) : Prop where
  of_covered : c.Covered bads → L
  cases : L → c.Covered bads ∨ dbg = true
  panic : c.Covered bads ∨ dbg = false ∨ F (.panic "pdr.rs:568")

theorem handle_spec {A : PDR I} (S : SmallSys sys c bads) (hA : A.fsts = sys) (hG : Guard c bads L A.dbg F) (hsch : A.sched.OK) (hf : Frames c bads L d d f) {s : Cube}
    (hob : Ob c bads d (⟨s, .ok (k + 1)⟩, k + 1)) (hblk : ∀ j, k + 1 ≤ j → ∀ z ∈ fr f j, subsumes z s = false) (q : PQueue TCube) :
    GTri F (Inv O (formulas sys)) f (A.handle ⟨s, .ok (k + 1)⟩ (k + 1) q) (fun q' f' => Handled c bads L d k f s q q' f') := by
  have hkd : k + 1 ≤ d := hob.le
  unfold handle
  have hni : sys.isCubeInitial s = false → ∀ v, c.Init v → ¬ s.holds v := by
    intro h v hv hs
    rw [isCubeInitial_of_init S.laws hv hs] at h
    exact Bool.noConfusion h
  have haway : c.Covered bads → sys.isCubeInitial s = false := by
    intro hN
    obtain ⟨v, hv⟩ := hob.nonempty
    cases h : sys.isCubeInitial s with
    | false => rfl
    | true =>
      obtain ⟨w, hw, hsw⟩ := (isCubeInitial_iff S.laws (holds_consistent hv)).1 h
      exact absurd hsw (hob.away hN 0 (by simp) w (.init hw))
  refine GTri.bind (R := fun _ f' => f' = f ∧ (L → ∀ v, c.Init v → ¬ s.holds v)) ?_ ?_
  · unfold isInitial
    rw [hA]
    cases h : sys.isCubeInitial s with
    | false => exact (GTri.assert rfl).mono fun _ f' e => ⟨e, fun _ => hni h⟩
    | true =>
      have hN : ¬ c.Covered bads := fun hN => by rw [haway hN] at h; exact Bool.noConfusion h
      rcases hG.panic.resolve_left hN with hd | hF
      · rw [hd]
        exact GTri.lift_ok rfl ⟨rfl, fun hL => absurd ((hG.cases hL).resolve_left hN) (by rw [hd]; simp)⟩
      · cases hd : A.dbg with
        | false => exact GTri.lift_ok rfl ⟨rfl, fun hL => absurd ((hG.cases hL).resolve_left hN) (by rw [hd]; simp)⟩
        | true => exact GTri.error hF
  rintro _ f ⟨rfl, hinit⟩
  refine GTri.bind (solveRelative_spec S hA hf.cubes hf.len hkd hob.latch _) ?_
  rintro r f ⟨rfl, hrel⟩
  rcases hrel with ⟨rfl, hrel⟩ | ⟨e, v, v', hv, ht, hzv, hmod⟩
  · rw [if_pos (by simp)]
    have hr : Rel c L f k s := ⟨hinit, fun v v' hv hnz ht => hrel v v' ⟨hv, fun _ => hnz⟩ ht⟩
    refine GTri.bind (generalize_spec S hA hsch hf.cubes hf.len hkd hob.latch hr) ?_
    rintro _ f ⟨rfl, y, rfl, hy, hys, hyr⟩
    refine GTri.bind (GTri.assert (by simp)) ?_
    rintro _ f rfl
    dsimp only
    refine GTri.bind (depth_spec hf.len) ?_
    rintro d' f' ⟨e1, e2⟩
    rw [e1, e2]
    clear e1 e2 d' f'
    refine GTri.bind (forwardLoop_spec S hA hf.cubes hf.len hy d k hkd (by omega) hyr) ?_
    rintro _ f ⟨rfl, k', rfl, hk', hkd', hr'⟩
    refine GTri.bind (GTri.assert (by simp)) ?_
    rintro _ f rfl
    refine GTri.bind (addBlockedCube_spec S hf.len (by omega) hkd' hy) ?_
    intro _ f1 hput
    have hf1 : Frames c bads L d d f1 := hf.put hput hkd' hy hr' fun j hj x hx => by
      cases h : subsumes x y with
      | false => rfl
      | true => rw [← hblk j (by omega) x hx]; exact (subsumes_trans h hys).symm
    refine GTri.bind (GTri.assert (by simp)) ?_
    rintro _ f1 rfl
    refine GTri.bind (depth_spec hf1.len) ?_
    rintro d' f' ⟨e1, e2⟩
    rw [e1, e2]
    clear e1 e2 d' f'
    refine GTri.ite (fun h => ?_) (fun h => ?_)
    · refine GTri.bind (GTri.lift_ok (a := ⟨s, .ok (k + 1 + 1)⟩) (Q := fun y f' => y = ⟨s, .ok (k + 1 + 1)⟩ ∧ f' = f1) rfl ⟨rfl, rfl⟩) ?_
      rintro _ f1 ⟨rfl, rfl⟩
      dsimp only
      exact GTri.pure (.inl ⟨y, k', hput, hk', hkd', hys, hf1, .inl ⟨h.1, rfl⟩⟩)
    · refine GTri.pure (.inl ⟨y, k', hput, hk', hkd', hys, hf1, .inr ⟨?_, rfl⟩⟩)
      have : ¬ k + 1 < d := fun h' => h ⟨h', by simp⟩
      omega
  · rw [if_neg (by rw [e]; simp)]
    obtain ⟨h1, h2, h3⟩ := hmod.1 rfl
    refine GTri.bind (GTri.assert (by simp)) ?_
    rintro _ f rfl
    exact GTri.pure (.inr ⟨rfl, r.cube, v, v', rfl, h1, hv.1, h2, hzv, h3⟩)

theorem doomedState_congr {v w : Val} (hs : c.SameState v w) (h : DoomedState c bads v) : DoomedState c bads w := by
  obtain ⟨x, h1, h2⟩ := h
  exact ⟨x, fun i hi => (h1 i hi).trans (hs i hi), h2⟩

/-- The obligation of a predecessor cube. -/
theorem Ob.pred (hw : c.WF) {s p : Cube} (h : Ob c bads d (⟨s, .ok (k + 1)⟩, k + 1)) (hp : LatchCube c p) {v v' : Val} (hv : RR c f k v)
    (hpv : p.holds v) (hs : s.holds v') (hl : Leads c p (fun x => c.Trans x v')) : Ob c bads d (⟨p, .ok k⟩, k) where
  frame := rfl
  le := Nat.le_of_succ_le h.le
  latch := hp
  nonempty := ⟨v, hpv⟩
  doomed := by
    intro hN w hpw
    obtain ⟨x, hx, ht⟩ := hl w hpw
    exact doomedState_congr hx (doomedState_pred hw (h.doomed hN v' hs) ht (fun _ _ => rfl))
  away := by
    intro hN j hj w hr hpw
    obtain ⟨x, hx, ht⟩ := hl w hpw
    exact h.away hN (j + 1) (Nat.succ_lt_succ hj) v' (.step (hr.congr hw (sameState_symm hx)) ht) hs
  zero := fun e => ⟨v, hv.1 e, hpv⟩

/-- The obligation moved one frame up once its cube is blocked. -/
theorem Ob.next (hCL : c.Covered bads → L) {s z : Cube} {k' : Nat} (h : Ob c bads d (⟨s, .ok (k + 1)⟩, k + 1)) (hf : Frames c bads L d m f') (hz : z ∈ fr f' (k' + 1))
    (hk : k ≤ k') (hzs : subsumes z s = true) (hd : k + 1 < d) : Ob c bads d (⟨s, .ok (k + 2)⟩, k + 2) where
  frame := rfl
  le := hd
  latch := h.latch
  nonempty := h.nonempty
  doomed := h.doomed
  away := by
    intro hN j hj v hr hs
    by_cases hj' : j < k + 1
    · exact h.away hN j hj' v hr hs
    · have : j = k + 1 := by dsimp only at hj; omega
      subst this
      exact (hf.reach (hCL hN) hr).2 (k' + 1) (by omega) z hz (subsumes_holds hzs hs)
  zero := fun e => by dsimp only at e; omega

/-- Budget that is enough for the queue. -/
noncomputable def budget (c : Circuit) (d : Nat) (f : List (List Cube)) (q : PQueue TCube) (a : Nat) : Nat :=
  phi d q + (d + 2) * ((d + 2) * weight c d f + a)

/-- The result of `rec_block_cube`. -/
def Blocked (c : Circuit) (bads : List Nat) (L : Prop) (d : Nat) (s0 : Cube) (f : List (List Cube)) (r : Bool) (f' : List (List Cube)) : Prop :=
  Frames c bads L d d f' ∧ (∀ i v, RC f' i v → RC f i v) ∧ (r = true → ∀ v, RC f' d v → ¬ s0.holds v) ∧
    (r = false → c.Covered bads → ∃ j, c.UnsafeAt bads j)

theorem arith_sat {d w a a' x y : Nat} (ha : a' + 1 ≤ a) (hx : y ≤ x + (d + 1)) :
    y + (d + 2) * ((d + 2) * w + a') < x + (d + 2) * ((d + 2) * w + a) := by
  have : (d + 2) * ((d + 2) * w + a') + (d + 2) ≤ (d + 2) * ((d + 2) * w + a) := by
    rw [← Nat.mul_succ]; exact Nat.mul_le_mul_left _ (by omega)
  omega

theorem arith_unsat {d w w' x y : Nat} (hw : w' ≤ w) (hx : y < x) :
    y + (d + 2) * ((d + 2) * w' + (d + 1)) < x + (d + 2) * ((d + 2) * w + (d + 1)) := by
  have : (d + 2) * ((d + 2) * w' + (d + 1)) ≤ (d + 2) * ((d + 2) * w + (d + 1)) :=
    Nat.mul_le_mul_left _ (Nat.add_le_add_right (Nat.mul_le_mul_left _ hw) _)
  omega

theorem arith_fresh {d w w' a x y : Nat} (hw : w' < w) (hx : y < x) :
    y + (d + 2) * ((d + 2) * w' + (d + 1)) < x + (d + 2) * ((d + 2) * w + a) := by
  have h1 : (d + 2) * w' + (d + 2) ≤ (d + 2) * w := by rw [← Nat.mul_succ]; exact Nat.mul_le_mul_left _ hw
  have : (d + 2) * ((d + 2) * w' + (d + 1)) ≤ (d + 2) * ((d + 2) * w + a) := Nat.mul_le_mul_left _ (by omega)
  omega

theorem blockQueue_spec {A : PDR I} (S : SmallSys sys c bads) (hA : A.fsts = sys) (hG : Guard c bads L A.dbg F) (hsch : A.sched.OK) (s0 : Cube) :
    ∀ (fuel : Nat) (q : PQueue TCube) (f : List (List Cube)) (a : Nat), Frames c bads L d d f → Queue c bads d q → Fresh d f q a →
      (F .fuel ∨ budget c d f q a ≤ fuel) → (((⟨s0, .ok d⟩ : TCube), d) ∈ q ∨ ∀ v, RC f d v → ¬ s0.holds v) →
      GTri F (Inv O (formulas sys)) f (A.blockQueue fuel q) (fun r f' => Blocked c bads L d s0 f r f') := by
  intro fuel
  induction fuel with
  | zero =>
    intro q f a hf hq hfr hb h0
    unfold blockQueue
    cases q with
    | nil =>
      rw [if_pos List.isEmpty_nil]
      refine GTri.pure ⟨hf, fun _ _ h => h, fun _ => ?_, fun h => by simp at h⟩
      rcases h0 with h0 | h0
      · simp at h0
      · exact h0
    | cons e q =>
      rw [if_neg (by simp)]
      refine GTri.error (hb.resolve_right fun hb => ?_)
      have h2 := (hq.ob e (by simp)).le
      unfold budget phi at hb
      rw [List.map_cons, List.sum_cons] at hb
      omega
  | succ fuel ih =>
    intro q f a hf hq hfr hb h0
    unfold blockQueue
    by_cases hne : q = []
    · subst hne
      rw [if_pos List.isEmpty_nil]
      refine GTri.pure ⟨hf, fun _ _ h => h, fun _ => ?_, fun h => by simp at h⟩
      rcases h0 with h0 | h0
      · simp at h0
      · exact h0
    rw [if_neg (by simpa using hne)]
    dsimp only
    refine GTri.bind (fresh_spec f) ?_
    rintro t f rfl
    obtain ⟨e, q1, hpop, hperm, hmin⟩ := PQueue.pop_spec hq.nodup hne (A.sched.pick t q.length)
    refine GTri.bind (GTri.lift_ok (a := (e, q1)) (Q := fun y f' => y = (e, q1) ∧ f' = f) (by rw [hpop]; rfl) ⟨rfl, rfl⟩) ?_
    rintro _ f ⟨rfl, rfl⟩
    obtain ⟨hob, hq1, hkey⟩ := hq.of_perm hperm
    obtain ⟨⟨s, fs⟩, n⟩ := e
    obtain rfl : fs = .ok n := hob.frame
    dsimp only at hkey hmin ⊢
    by_cases hn : n = 0
    · subst hn
      rw [if_pos rfl]
      obtain ⟨v, hv, hs⟩ := hob.zero rfl
      exact GTri.pure ⟨hf, fun _ _ h => h, fun h => by simp at h, fun _ hN => doomedState_unsafe S.wf S.bad (hob.doomed hN v hs) (.init hv)⟩
    rw [if_neg hn]
    obtain ⟨k, rfl⟩ : ∃ k, n = k + 1 := ⟨n - 1, by omega⟩
    have hkd : k + 1 ≤ d := hob.le
    have hphi := phi_perm (d := d) hperm
    dsimp only at hphi
    refine GTri.bind (isBlocked_spec S hf.len (by omega) hkd s) ?_
    rintro b f ⟨rfl, hblk, hnbl⟩
    -- the popped obligation is the fresh one, if there is one
    have hfe : ∀ a, a ≤ d → Fresh d f q a → a = k + 1 ∧ ∃ v, RC f (k + 1) v ∧ s.holds v := by
      rintro a ha (h | ⟨_, e, he, h1, h2, h3⟩)
      · omega
      · by_cases hee : ((⟨s, .ok (k + 1)⟩ : TCube), k + 1) = e
        · subst hee
          dsimp only at h1 h2
          subst h1
          exact ⟨rfl, h2⟩
        · have hlt := h3 _ (hperm.mem_iff.2 (by simp)) hee
          have := hmin e (by
            rcases List.mem_cons.1 (hperm.mem_iff.1 he) with h | h
            · exact absurd h.symm hee
            · exact h)
          dsimp only at hlt
          omega
    refine GTri.ite (fun hbt => ?_) (fun hbf => ?_)
    · have hexc := hblk hbt
      have ha : a = d + 1 := by
        rcases hfr with h | ⟨ha, h⟩
        · exact h
        · obtain ⟨_, v, hv, hs⟩ := hfe a ha (.inr ⟨ha, h⟩)
          exact absurd hs (hexc v hv)
      refine ih q1 f (d + 1) hf hq1 (.inl rfl) ?_ ?_
      · refine hb.imp id fun hb => ?_
        unfold budget at *
        rw [ha, hphi] at hb
        omega
      · rcases h0 with h0 | h0
        · rcases List.mem_cons.1 (hperm.mem_iff.1 h0) with h | h
          · right
            have e1 : s0 = s := (TCube.mk.inj (Prod.mk.inj h).1).1
            have e2 : d = k + 1 := (Prod.mk.inj h).2
            rw [e1]
            exact fun v hv => hexc v (e2 ▸ hv)
          · exact .inl h
        · exact .inr h0
    · refine GTri.bind (handle_spec S hA hG hsch hf hob (hnbl (by simpa using hbf)) q1) ?_
      rintro q2 f2 (⟨z, k', hput, hk', hkd', hzs, hf2, hq2⟩ | ⟨rfl, p, v, v', hq2, hp, hv, hpv, hsv, hl⟩)
      · have hmono : ∀ i v, RC f2 i v → RC f i v := fun i v h => (hput.rc.1 h).1
        have hexc : ∀ v, RC f2 (k + 1) v → ¬ s.holds v := fun v hv => blocked_excludes hput.self (by omega) hzs hv
        have hwm : weight c d f2 ≤ weight c d f := weight_mono hmono
        have hphi2 : phi d q2 < phi d q ∧ Queue c bads d q2 ∧ ∀ x ∈ q1, x ∈ q2 := by
          rcases hq2 with ⟨hlt, rfl⟩ | ⟨_, rfl⟩
          · have := phi_push hq1 s (k + 2)
            exact ⟨by omega, hq1.push (hob.next hG.of_covered hf2 hput.self hk' hzs hlt), fun x hx => (mem_push hq1).2 (.inl hx)⟩
          · exact ⟨by omega, hq1, fun x hx => hx⟩
        refine (ih q2 f2 (d + 1) hf2 hphi2.2.1 (.inl rfl) ?_ ?_).mono ?_
        · refine hb.imp id fun hb => ?_
          have : budget c d f2 q2 (d + 1) < budget c d f q a := by
            rcases hfr with h | ⟨ha, h⟩
            · subst h; exact arith_unsat hwm hphi2.1
            · obtain ⟨ha', u, hu, hsu⟩ := hfe a ha (.inr ⟨ha, h⟩)
              refine arith_fresh (weight_lt hmono (j := k + 1) (by omega) hkd hu fun w hw hr => ?_) hphi2.1
              exact hexc w hr (latchCube_congr hob.latch hw hsu)
          omega
        · rcases h0 with h0 | h0
          · rcases List.mem_cons.1 (hperm.mem_iff.1 h0) with h | h
            · right
              have e1 : s0 = s := (TCube.mk.inj (Prod.mk.inj h).1).1
              have e2 : d = k + 1 := (Prod.mk.inj h).2
              rw [e1]
              exact fun v hv => hexc v (e2 ▸ hv)
            · exact .inl (hphi2.2.2 _ h)
          · exact .inr fun v hv => h0 v (hmono d v hv)
        · rintro r f3 ⟨h1, h2, h3, h4⟩
          exact ⟨h1, fun i v h => hmono i v (h2 i v h), h3, h4⟩
      · have hpk : (⟨p, .ok k⟩ : TCube) ∉ q1.map Prod.fst := by
          intro h
          obtain ⟨x, hx, e⟩ := List.mem_map.1 h
          have h1 := (hq1.ob x hx).frame
          rw [e] at h1
          have := Frame.ok.inj h1
          have := hmin x hx
          omega
        rw [PQueue.push_of_notMem hpk] at hq2
        have hobp := hob.pred S.wf hp hv hpv hsv hl
        have hq1' := hq1.snoc hobp hpk
        have hsk : (⟨s, .ok (k + 1)⟩ : TCube) ∉ (q1 ++ [((⟨p, .ok k⟩ : TCube), k)]).map Prod.fst := by
          intro h
          rw [List.map_append, List.mem_append] at h
          rcases h with h | h
          · exact hkey h
          · simp at h
        rw [PQueue.push_of_notMem hsk] at hq2
        have hq2' := hq1'.snoc hob hsk
        subst hq2
        have hmem : ∀ x, x ∈ q1 ++ [((⟨p, .ok k⟩ : TCube), k)] ++ [((⟨s, .ok (k + 1)⟩ : TCube), k + 1)] ↔
            x ∈ q1 ∨ x = (⟨p, .ok k⟩, k) ∨ x = (⟨s, .ok (k + 1)⟩, k + 1) := by
          intro x; simp only [List.mem_append, List.mem_singleton, or_assoc]
        refine ih _ f2 k hf hq2' (.inr ⟨by omega, (⟨p, .ok k⟩, k), (hmem _).2 (.inr (.inl rfl)), rfl, ⟨v, hv.2, hpv⟩, fun x hx hne => ?_⟩) ?_ ?_
        · rcases (hmem x).1 hx with h | h | h
          · have := hmin x h; omega
          · exact absurd h hne
          · rw [h]; exact Nat.lt_succ_self k
        · refine hb.imp id fun hb => ?_
          have : budget c d f2 (q1 ++ [((⟨p, .ok k⟩ : TCube), k)] ++ [((⟨s, .ok (k + 1)⟩ : TCube), k + 1)]) k < budget c d f2 q a := by
            refine arith_sat (x := phi d q) ?_ ?_
            · rcases hfr with h | ⟨ha, h⟩
              · omega
              · have := (hfe a ha (.inr ⟨ha, h⟩)).1; omega
            · rw [phi_snoc, phi_snoc, hphi]
              dsimp only
              omega
          omega
        · rcases h0 with h0 | h0
          · left
            rw [hmem]
            rcases List.mem_cons.1 (hperm.mem_iff.1 h0) with h | h
            · exact .inr (.inr h)
            · exact .inl h
          · exact .inr h0

theorem recBlockCube_spec {A : PDR I} (S : SmallSys sys c bads) (hA : A.fsts = sys) (hG : Guard c bads L A.dbg F) (hsch : A.sched.OK) (hf : Frames c bads L d d f) {s0 : Cube}
    (hs : LatchCube c s0) {v : Val} (hv : RR c f d v) (hsv : s0.holds v) (hbad : c.Covered bads → Leads c s0 (c.BadAt bads)) {fuel : Nat}
    (hfuel : F .fuel ∨ 1 + (d + 2) * ((d + 2) * weight c d f + (d + 1)) ≤ fuel) :
    GTri F (Inv O (formulas sys)) f (A.recBlockCube fuel ⟨s0, .ok d⟩) (fun r f' => Blocked c bads L d s0 f r f') := by
  have hob : Ob c bads d (⟨s0, .ok d⟩, d) := by
    refine ⟨rfl, Nat.le_refl _, hs, ⟨v, hsv⟩, fun hN w hw => ?_, fun hN j hj w hr hw => ?_, fun e => ⟨v, hv.1 e, hsv⟩⟩
    · obtain ⟨x, h1, h2⟩ := hbad hN w hw
      exact ⟨x, h1, .now h2⟩
    · obtain ⟨x, h1, h2⟩ := hbad hN w hw
      exact hf.good j x hj (hf.reach (hG.of_covered hN) (hr.congr S.wf (sameState_symm h1))) h2
  unfold recBlockCube
  dsimp only
  have e : PQueue.push [] (⟨s0, .ok d⟩ : TCube) d = [(⟨s0, .ok d⟩, d)] := rfl
  rw [e]
  refine blockQueue_spec S hA hG hsch s0 fuel _ f (d + 1) hf ⟨by simp, fun x hx => ?_⟩ (.inl rfl) ?_ (.inl (by simp))
  · simp at hx; rw [hx]; exact hob
  · refine hfuel.imp id fun hfuel => ?_
    unfold budget phi
    simp only [List.map_cons, List.map_nil, List.sum_cons, List.sum_nil]
    omega

end Verif.PDR
