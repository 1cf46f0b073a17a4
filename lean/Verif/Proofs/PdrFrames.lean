import Verif.Proofs.Ic3Frames
import Verif.Spec.PdrState

/-! # PDR: the theory of blocked cubes -/

namespace Verif.PDR

open Fsts IC3

variable {c : Circuit} {bads : List Nat} {f f' : List (List Cube)}

/-! ## Subsumption -/

theorem subsumes_iff {a b : Cube} : subsumes a b = true ↔ ∀ l ∈ a.lits, l ∈ b.lits := by
  unfold subsumes Cube.iter
  rw [List.all_eq_true]
  simp

theorem subsumes_holds {a b : Cube} (h : subsumes a b = true) {v : Val} (hv : b.holds v) : a.holds v :=
  fun l hl => hv l (subsumes_iff.1 h l hl)

theorem subsumes_refl (a : Cube) : subsumes a a = true := subsumes_iff.2 fun _ h => h

theorem subsumes_trans {a b z : Cube} (h : subsumes a b = true) (h' : subsumes b z = true) : subsumes a z = true :=
  subsumes_iff.2 fun l hl => subsumes_iff.1 h' l (subsumes_iff.1 h l hl)

/-! ## Removing subsumed cubes -/

theorem swapRemove_prefix {α : Type} {l : List α} {i : Nat} {x : α} {rest : List α} (h : swapRemove l i = some (x, rest)) {j : Nat}
    (hj : j < i) : rest[j]? = l[j]? := by
  unfold swapRemove at h
  cases h1 : l[i]? with
  | none => rw [h1] at h; simp at h
  | some a =>
    cases h2 : l.getLast? with
    | none => rw [h1, h2] at h; simp at h
    | some y =>
      rw [h1, h2] at h
      have hr : (l.set i y).dropLast = rest := by simpa using (congrArg Prod.snd (Option.some.inj h))
      have hi := getElem?_lt h1
      rw [← hr, List.getElem?_dropLast, List.length_set, if_pos (by omega), List.getElem?_set, if_neg (by omega)]

theorem removeSubsumed_spec (z : Cube) : ∀ (b : Nat) (l : List Cube) (i : Nat), l.length ≤ b + i →
    (∀ (j : Nat) (x : Cube), j < i → l[j]? = some x → subsumes z x = false) →
    ∃ l', removeSubsumed z b l i = .ok l' ∧ l'.Perm (l.filter (fun x => !subsumes z x)) ∧
      ∀ p, (∀ (j : Nat) (x : Cube), j < p → l[j]? = some x → subsumes z x = false) → ∀ j, j < p → l'[j]? = l[j]? := by
  intro b
  induction b with
  | zero =>
    intro l i hb hpre
    unfold removeSubsumed
    rw [List.getElem?_eq_none (by omega)]
    refine ⟨l, rfl, ?_, fun _ _ _ _ => rfl⟩
    rw [List.filter_eq_self.2]
    intro x hx
    obtain ⟨j, hj⟩ := List.mem_iff_getElem?.1 hx
    have := getElem?_lt hj
    rw [hpre j x (by omega) hj]; rfl
  | succ b ih =>
    intro l i hb hpre
    unfold removeSubsumed
    cases hi : l[i]? with
    | none =>
      have hlen := List.getElem?_eq_none_iff.1 hi
      refine ⟨l, rfl, ?_, fun _ _ _ _ => rfl⟩
      rw [List.filter_eq_self.2]
      intro x hx
      obtain ⟨j, hj⟩ := List.mem_iff_getElem?.1 hx
      have := getElem?_lt hj
      rw [hpre j x (by omega) hj]; rfl
    | some x =>
      dsimp only
      have hlt := getElem?_lt hi
      by_cases hs : subsumes z x = true
      · rw [if_pos hs]
        obtain ⟨y, rest, hsr, hperm⟩ := swapRemove_spec hlt
        have hyx : y = x := by
          have := hsr
          unfold swapRemove at this
          rw [hi] at this
          cases h2 : l.getLast? with
          | none => rw [h2] at this; simp at this
          | some w => rw [h2] at this; simpa using (congrArg Prod.fst (Option.some.inj this)).symm
        subst hyx
        have hlen := hperm.length_eq
        rw [List.length_cons] at hlen
        obtain ⟨l', h1, h2, h3⟩ := ih rest i (by omega) (fun j x hj hx => hpre j x hj (by rw [← swapRemove_prefix hsr hj]; exact hx))
        refine ⟨l', ?_, ?_, ?_⟩
        · rw [hsr]; exact h1
        · refine h2.trans ?_
          have := hperm.filter (fun x => !subsumes z x)
          rw [List.filter_cons_of_neg (by simp [hs])] at this
          exact this.symm
        · intro p hp j hj
          have hpi : p ≤ i := by
            by_cases hpi : p ≤ i
            · exact hpi
            · have := hp i y (by omega) hi
              rw [this] at hs; cases hs
          rw [h3 p (fun j x hj hx => hp j x hj (by rw [← swapRemove_prefix hsr (by omega)]; exact hx)) j hj]
          exact swapRemove_prefix hsr (by omega)
      · rw [if_neg hs]
        refine ih l (i + 1) (by omega) ?_
        intro j y hj hy
        by_cases hji : j < i
        · exact hpre j y hji hy
        · have : j = i := by omega
          subst this
          rw [hi] at hy
          have := Option.some.inj hy; subst this
          simpa using hs

/-! ## Frames -/

theorem fr_get {j : Nat} (h : j < f.length) : f[j]? = some (fr f j) := by
  unfold fr
  rw [List.getD_eq_getElem?_getD, List.getElem?_eq_getElem h]; rfl

theorem fr_ge {j : Nat} (h : f.length ≤ j) : fr f j = [] := by
  unfold fr
  rw [List.getD_eq_getElem?_getD, List.getElem?_eq_none h]; rfl

theorem fr_set (i j : Nat) (l : List Cube) (hi : i < f.length) : fr (f.set i l) j = if j = i then l else fr f j := by
  unfold fr
  rw [List.getD_eq_getElem?_getD, List.getD_eq_getElem?_getD, List.getElem?_set]
  by_cases h : i = j
  · subst h; simp [hi]
  · rw [if_neg h, if_neg (fun e => h e.symm)]

theorem fr_push (j : Nat) : fr (f ++ [[]]) j = fr f j := by
  unfold fr
  rw [List.getD_eq_getElem?_getD, List.getD_eq_getElem?_getD]
  by_cases h : j < f.length
  · rw [List.getElem?_append_left h]
  · rw [List.getElem?_append_right (by omega), List.getElem?_eq_none (l := f) (by omega)]
    cases hj : j - f.length with
    | zero => rfl
    | succ n => rfl

/-- The set `R_i`. -/
def RR (c : Circuit) (f : List (List Cube)) (i : Nat) (v : Val) : Prop := (i = 0 → c.Init v) ∧ RC f i v

theorem RC.mono {i j : Nat} (h : RC f i v) (hij : i ≤ j) : RC f j v := fun k hk => h k (by omega)

theorem rc_push (i : Nat) (v : Val) : RC (f ++ [[]]) i v ↔ RC f i v := by unfold RC; simp only [fr_push]

/-- The result of `add_blocked_cube`: `z` stored at index `k`, cubes it subsumes removed from indices `1..=k`. -/
structure Put (z : Cube) (k : Nat) (f f' : List (List Cube)) : Prop where
  len : f'.length = f.length
  other : ∀ j, (j = 0 ∨ k < j) → fr f' j = fr f j
  below : ∀ j, 1 ≤ j → j < k → (fr f' j).Perm ((fr f j).filter (fun x => !subsumes z x))
  «at» : ∃ l, l.Perm ((fr f k).filter (fun x => !subsumes z x)) ∧ fr f' k = l ++ [z]
  pre : ∀ j, 1 ≤ j → j < k → ∀ p, (∀ (i : Nat) (x : Cube), i < p → (fr f j)[i]? = some x → subsumes z x = false) →
    ∀ i, i < p → (fr f' j)[i]? = (fr f j)[i]?

/-- `removeFrames` over distinct indices. -/
theorem removeFrames_spec (z : Cube) : ∀ (ds : List Nat) (f : List (List Cube)), ds.Nodup → (∀ d ∈ ds, d < f.length) →
    ∃ f', removeFrames z ds f = .ok f' ∧ f'.length = f.length ∧ (∀ j, j ∉ ds → fr f' j = fr f j) ∧
      ∀ j ∈ ds, (fr f' j).Perm ((fr f j).filter (fun x => !subsumes z x)) ∧
        ∀ p, (∀ (i : Nat) (x : Cube), i < p → (fr f j)[i]? = some x → subsumes z x = false) →
          ∀ i, i < p → (fr f' j)[i]? = (fr f j)[i]? := by
  intro ds
  induction ds with
  | nil => intro f _ _; exact ⟨f, rfl, rfl, fun _ _ => rfl, fun j hj => by simp at hj⟩
  | cons d ds ih =>
    intro f hn hd
    rw [List.nodup_cons] at hn
    have hdl := hd d (by simp)
    obtain ⟨l', h1, h2, h3⟩ := removeSubsumed_spec z (fr f d).length (fr f d) 0 (by omega) (fun j x hj => by omega)
    obtain ⟨f', h4, h5, h6, h7⟩ := ih (f.set d l') hn.2 (fun x hx => by rw [List.length_set]; exact hd x (by simp [hx]))
    refine ⟨f', ?_, by rw [h5, List.length_set], ?_, ?_⟩
    · unfold removeFrames indexR
      rw [fr_get hdl]
      show (removeSubsumed z (fr f d).length (fr f d) 0 >>= fun l' => removeFrames z ds (f.set d l')) = _
      rw [h1]; exact h4
    · intro j hj
      rw [List.mem_cons] at hj
      have hj1 : j ≠ d := fun e => hj (.inl e)
      rw [h6 j (fun e => hj (.inr e)), fr_set _ _ _ hdl, if_neg hj1]
    · intro j hj
      by_cases hjd : j = d
      · subst hjd
        rw [h6 j hn.1, fr_set _ _ _ hdl, if_pos rfl]
        exact ⟨h2, h3⟩
      · have hm : j ∈ ds := by
          rcases List.mem_cons.1 hj with h | h
          · exact absurd h hjd
          · exact h
        have := h7 j hm
        rw [fr_set _ _ _ hdl, if_neg hjd] at this
        exact this

theorem put_spec (z : Cube) {k : Nat} (hk : 1 ≤ k) (hkl : k < f.length) :
    ∃ f1, removeFrames z (List.range' 1 k) f = .ok f1 ∧ f1.length = f.length ∧ Put z k f (f1.set k (fr f1 k ++ [z])) := by
  obtain ⟨f1, h1, h2, h3, h4⟩ := removeFrames_spec z (List.range' 1 k) f List.nodup_range' (fun d hd => by
    rw [List.mem_range'_1] at hd; omega)
  have hk1 : k < f1.length := by omega
  refine ⟨f1, h1, h2, by rw [List.length_set, h2], ?_, ?_, ?_, ?_⟩
  · intro j hj
    rw [fr_set _ _ _ hk1, if_neg (by omega)]
    exact h3 j (by rw [List.mem_range'_1]; omega)
  · intro j hj hjk
    rw [fr_set _ _ _ hk1, if_neg (by omega)]
    exact (h4 j (by rw [List.mem_range'_1]; omega)).1
  · refine ⟨fr f1 k, (h4 k (by rw [List.mem_range'_1]; omega)).1, ?_⟩
    rw [fr_set _ _ _ hk1, if_pos rfl]
  · intro j hj hjk
    rw [fr_set _ _ _ hk1, if_neg (by omega)]
    exact (h4 j (by rw [List.mem_range'_1]; omega)).2

variable {z : Cube} {k d m : Nat} {L : Prop}

theorem Put.mem (h : Put z k f f') {j : Nat} {x : Cube} (hx : x ∈ fr f' j) :
    (x ∈ fr f j ∧ (1 ≤ j → j ≤ k → subsumes z x = false)) ∨ (j = k ∧ x = z) := by
  by_cases h0 : j = 0 ∨ k < j
  · rw [h.other j h0] at hx
    exact .inl ⟨hx, fun _ _ => by omega⟩
  · by_cases hjk : j < k
    · have := (h.below j (by omega) hjk).mem_iff.1 hx
      rw [List.mem_filter] at this
      exact .inl ⟨this.1, fun _ _ => by simpa using this.2⟩
    · have : j = k := by omega
      subst this
      obtain ⟨l, hl, e⟩ := h.at
      rw [e, List.mem_append] at hx
      rcases hx with hx | hx
      · have := hl.mem_iff.1 hx
        rw [List.mem_filter] at this
        exact .inl ⟨this.1, fun _ _ => by simpa using this.2⟩
      · exact .inr ⟨rfl, by simpa using hx⟩

theorem Put.self (h : Put z k f f') : z ∈ fr f' k := by
  obtain ⟨l, _, e⟩ := h.at
  rw [e]; simp

theorem Put.keep (h : Put z k f f') {j : Nat} {x : Cube} (hx : x ∈ fr f j) (hs : subsumes z x = false) : x ∈ fr f' j := by
  by_cases h0 : j = 0 ∨ k < j
  · rw [h.other j h0]; exact hx
  · by_cases hjk : j < k
    · exact (h.below j (by omega) hjk).mem_iff.2 (List.mem_filter.2 ⟨hx, by simp [hs]⟩)
    · have : j = k := by omega
      subst this
      obtain ⟨l, hl, e⟩ := h.at
      rw [e, List.mem_append]
      exact .inl (hl.mem_iff.2 (List.mem_filter.2 ⟨hx, by simp [hs]⟩))

theorem Put.rc (h : Put z k f f') {i : Nat} {v : Val} : RC f' i v ↔ RC f i v ∧ (i ≤ k → ¬ z.holds v) := by
  constructor
  · intro hv
    have hz : i ≤ k → ¬ z.holds v := fun hik => hv k hik z h.self
    refine ⟨fun j hj x hx hxv => ?_, hz⟩
    by_cases hs : subsumes z x = false
    · exact hv j hj x (h.keep hx hs) hxv
    · by_cases hjk : j = 0 ∨ k < j
      · exact hv j hj x (by rw [h.other j hjk]; exact hx) hxv
      · exact hz (by omega) (subsumes_holds (by simpa using hs) hxv)
  · rintro ⟨hv, hz⟩ j hj x hx
    rcases h.mem hx with ⟨hx, _⟩ | ⟨rfl, rfl⟩
    · exact hv j hj x hx
    · exact hz hj

/-- Neither of two cubes subsumes the other. -/
def Incomp (a b : Cube) : Prop := subsumes a b = false ∧ subsumes b a = false

/-- The invariant of the stored cubes at depth `d`; `R_i` holds no bad valuation for `i < m`.  `L` is a condition under which no blocked cube
contains an initial state. -/
structure Frames (c : Circuit) (bads : List Nat) (L : Prop) (d m : Nat) (f : List (List Cube)) : Prop where
  len : f.length = d + 2
  zero : fr f 0 = []
  inf : fr f (d + 1) = []
  cubes : ∀ j, ∀ z ∈ fr f j, LatchCube c z
  init : L → ∀ v, c.Init v → ∀ j, ∀ z ∈ fr f j, ¬ z.holds v
  step : ∀ i v v', RR c f i v → c.Trans v v' → RC f (i + 1) v'
  good : ∀ i v, i < m → RR c f i v → ¬ c.BadAt bads v
  within : ∀ j, (fr f j).Pairwise Incomp
  across : ∀ i j, i < j → ∀ a ∈ fr f i, ∀ b ∈ fr f j, subsumes b a = false

theorem Frames.rr_init (h : Frames c bads L d m f) (hL : L) {v : Val} (hv : c.Init v) (i : Nat) : RR c f i v :=
  ⟨fun _ => hv, fun j _ => h.init hL v hv j⟩

theorem RR.mono {i j : Nat} {v : Val} (hv : RR c f i v) (hij : i ≤ j) : RR c f j v := ⟨fun e => hv.1 (by omega), hv.2.mono hij⟩

/-- States reachable in `j` steps lie in `R_j`. -/
theorem Frames.reach (h : Frames c bads L d m f) (hL : L) {j : Nat} {v : Val} (hr : c.Reach j v) : RR c f j v := by
  induction hr with
  | init hi => exact h.rr_init hL hi 0
  | step _ ht ih => exact ⟨fun e => by omega, h.step _ _ _ ih ht⟩

theorem Frames.lower (h : Frames c bads L d m f) (hL : L) (hw : c.WF) (hb : BadsOK c bads) {j : Nat} (hj : j < m) : ¬ c.UnsafeAt bads j := by
  rw [Circuit.unsafeAt_iff hw hb.lit]
  rintro ⟨v, hr, hbad⟩
  exact h.good j v hj (h.reach hL hr) hbad

theorem Frames.rc_congr (h : Frames c bads L d m f) {i : Nat} {v w : Val} (hs : c.SameState v w) (hv : RC f i v) : RC f i w := by
  refine fun j hj z hz hw => hv j hj z hz fun l hl => ?_
  exact (((h.cubes j z hz).lits l hl).holds_congr (sameState_symm hs)).1 (hw l hl)

theorem Frames.rr_congr (h : Frames c bads L d m f) {i : Nat} {v w : Val} (hs : c.SameState v w) (hv : RR c f i v) : RR c f i w :=
  ⟨fun e => (hv.1 e).congr hs, h.rc_congr hs hv.2⟩

/-- `z` excludes no initial state (if `L`) and is unreachable from `R_i` outside `z`. -/
def Rel (c : Circuit) (L : Prop) (f : List (List Cube)) (i : Nat) (z : Cube) : Prop :=
  (L → ∀ v, c.Init v → ¬ z.holds v) ∧ ∀ v v', RR c f i v → ¬ z.holds v → c.Trans v v' → ¬ z.holds v'

/-- Storing a cube that is unreachable relative to the frame below. -/
theorem Frames.put (h : Frames c bads L d m f) (hp : Put z (k + 1) f f') (hk : k + 1 ≤ d) (hz : LatchCube c z) (hr : Rel c L f k z)
    (hs : ∀ j, k + 1 ≤ j → ∀ x ∈ fr f j, subsumes x z = false) : Frames c bads L d m f' where
  len := by rw [hp.len, h.len]
  zero := by rw [hp.other 0 (.inl rfl)]; exact h.zero
  inf := by rw [hp.other _ (.inr (by omega))]; exact h.inf
  cubes := by
    intro j x hx
    rcases hp.mem hx with ⟨hx, _⟩ | ⟨_, rfl⟩
    · exact h.cubes j x hx
    · exact hz
  init := by
    intro hL v hv j x hx
    rcases hp.mem hx with ⟨hx, _⟩ | ⟨_, rfl⟩
    · exact h.init hL v hv j x hx
    · exact hr.1 hL v hv
  step := by
    intro i v v' hv ht
    have hv0 : RR c f i v := ⟨hv.1, (hp.rc.1 hv.2).1⟩
    refine hp.rc.2 ⟨h.step i v v' hv0 ht, fun hik => ?_⟩
    exact hr.2 v v' (hv0.mono (by omega)) ((hp.rc.1 hv.2).2 (by omega)) ht
  good := fun i v hi hv => h.good i v hi ⟨hv.1, (hp.rc.1 hv.2).1⟩
  within := by
    have symm : ∀ {a b : Cube}, Incomp a b → Incomp b a := fun h => ⟨h.2, h.1⟩
    intro j
    by_cases h0 : j = 0 ∨ k + 1 < j
    · rw [hp.other j h0]; exact h.within j
    · by_cases hjk : j < k + 1
      · exact ((hp.below j (by omega) hjk).pairwise_iff symm).2 ((h.within j).filter _)
      · have : j = k + 1 := by omega
        subst this
        obtain ⟨l, hl, e⟩ := hp.at
        rw [e, List.pairwise_append]
        refine ⟨(hl.pairwise_iff symm).2 ((h.within _).filter _), List.pairwise_singleton _ _, ?_⟩
        intro a ha b hb
        have hb' : b = z := by simpa using hb
        subst hb'
        have := List.mem_filter.1 (hl.mem_iff.1 ha)
        exact ⟨hs _ (Nat.le_refl _) a this.1, by simpa using this.2⟩
  across := by
    intro i j hij a ha b hb
    rcases hp.mem ha with ⟨ha, ha'⟩ | ⟨hi, rfl⟩
    · rcases hp.mem hb with ⟨hb, _⟩ | ⟨hj, rfl⟩
      · exact h.across i j hij a ha b hb
      · by_cases h0 : i = 0
        · subst h0; rw [h.zero] at ha; simp at ha
        · exact ha' (by omega) (by omega)
    · rcases hp.mem hb with ⟨hb, _⟩ | ⟨hj, rfl⟩
      · exact hs j (by omega) b hb
      · omega

theorem Frames.raise (h : Frames c bads L d m f) (hg : ∀ v, RR c f m v → ¬ c.BadAt bads v) : Frames c bads L d (m + 1) f where
  len := h.len
  zero := h.zero
  inf := h.inf
  cubes := h.cubes
  init := h.init
  step := h.step
  good := fun i v hi hv => by
    by_cases e : i = m
    · subst e; exact hg v hv
    · exact h.good i v (by omega) hv
  within := h.within
  across := h.across

theorem Frames.push (h : Frames c bads L d m f) : Frames c bads L (d + 1) m (f ++ [[]]) where
  len := by simp [h.len]
  zero := by rw [fr_push]; exact h.zero
  inf := by rw [fr_push]; exact fr_ge (by rw [h.len]; omega)
  cubes := by simpa only [fr_push] using h.cubes
  init := by simpa only [fr_push] using h.init
  step := by simpa only [RR, rc_push] using h.step
  good := by simpa only [RR, rc_push] using h.good
  within := by simpa only [fr_push] using h.within
  across := by simpa only [fr_push] using h.across

theorem Frames.start : Frames c bads L 0 0 [[], []] := by
  have e : ∀ j, fr [[], []] j = [] := by
    intro j
    match j with
    | 0 => rfl
    | 1 => rfl
    | j + 2 => rfl
  have hr : ∀ i v, RC [[], []] i v := fun i v j _ z hz => by rw [e] at hz; simp at hz
  exact ⟨rfl, rfl, rfl, fun j z hz => by rw [e] at hz; simp at hz, fun _ _ _ j z hz => by rw [e] at hz; simp at hz, fun _ _ _ _ _ => hr _ _,
    fun i v hi => by omega, fun j => by rw [e]; exact .nil, fun i j _ a ha => by rw [e] at ha; simp at ha⟩

/-! ## Counting states -/

open Classical in
/-- Number of states that satisfy `P`. -/
noncomputable def cnt (c : Circuit) (P : Val → Prop) : Nat := (allStates c).countP (fun s => decide (∃ u, s = stateCube c u ∧ P u))

theorem cnt_le (c : Circuit) (P : Val → Prop) : cnt c P ≤ 2 ^ c.latches.length := by
  unfold cnt
  rw [← allStates_length]
  exact List.countP_le_length

open Classical in
theorem cnt_mono {P Q : Val → Prop} (h : ∀ u, P u → Q u) : cnt c P ≤ cnt c Q := by
  unfold cnt
  refine countP_le fun s _ hs => ?_
  obtain ⟨w, e, hw⟩ := of_decide_eq_true hs
  exact decide_eq_true ⟨w, e, h w hw⟩

open Classical in
theorem cnt_lt {P Q : Val → Prop} (h : ∀ u, P u → Q u) {u : Val} (hu : Q u) (hn : ∀ w, c.SameState u w → ¬ P w) : cnt c P < cnt c Q := by
  unfold cnt
  refine countP_lt (x := stateCube c u) ?_ (mem_allStates c u) ?_ ?_
  · intro s _ hs
    obtain ⟨w, e, hw⟩ := of_decide_eq_true hs
    exact decide_eq_true ⟨w, e, h w hw⟩
  · exact decide_eq_true ⟨u, rfl, hu⟩
  · refine decide_eq_false ?_
    rintro ⟨w, e, hw⟩
    exact hn w (stateCube_inj e) hw

/-- Total size of `R_1 … R_d`. -/
noncomputable def weight (c : Circuit) (d : Nat) (f : List (List Cube)) : Nat := ((List.range' 1 d).map (fun j => cnt c (RC f j))).sum

theorem sum_le {l : List Nat} {g h : Nat → Nat} (hle : ∀ x ∈ l, g x ≤ h x) : (l.map g).sum ≤ (l.map h).sum := by
  induction l with
  | nil => simp
  | cons a l ih =>
    have := ih fun x hx => hle x (by simp [hx])
    have := hle a (by simp)
    simp only [List.map_cons, List.sum_cons]; omega

theorem sum_lt {l : List Nat} {g h : Nat → Nat} (hle : ∀ x ∈ l, g x ≤ h x) {x : Nat} (hx : x ∈ l) (hlt : g x < h x) :
    (l.map g).sum < (l.map h).sum := by
  induction l with
  | nil => simp at hx
  | cons a l ih =>
    simp only [List.map_cons, List.sum_cons]
    have h1 := hle a (by simp)
    rcases List.mem_cons.1 hx with rfl | hx
    · have := sum_le (l := l) (g := g) (h := h) fun y hy => hle y (by simp [hy]); omega
    · have := ih (fun y hy => hle y (by simp [hy])) hx; omega

theorem weight_le (c : Circuit) (d : Nat) (f : List (List Cube)) : weight c d f ≤ d * 2 ^ c.latches.length := by
  unfold weight
  have := sum_le (l := List.range' 1 d) (g := fun j => cnt c (RC f j)) (h := fun _ => 2 ^ c.latches.length) fun x _ => cnt_le c _
  refine Nat.le_trans this (Nat.le_of_eq ?_)
  have : ∀ (a n N : Nat), ((List.range' a n).map (fun _ => N)).sum = n * N := by
    intro a n N
    induction n generalizing a with
    | zero => simp
    | succ n ih => rw [List.range'_succ, List.map_cons, List.sum_cons, ih, Nat.succ_mul]; omega
  exact this 1 d _

theorem weight_mono (h : ∀ i v, RC f' i v → RC f i v) : weight c d f' ≤ weight c d f := sum_le fun x _ => cnt_mono (h x)

theorem weight_lt (h : ∀ i v, RC f' i v → RC f i v) {j : Nat} (h1 : 1 ≤ j) (hj : j ≤ d) {u : Val} (hu : RC f j u)
    (hn : ∀ w, c.SameState u w → ¬ RC f' j w) : weight c d f' < weight c d f :=
  sum_lt (fun x _ => cnt_mono (h x)) (x := j) (by rw [List.mem_range'_1]; omega) (cnt_lt (h j) hu hn)

/-- Consecutive frames differ below `d`. -/
def Strict (f : List (List Cube)) (d : Nat) : Prop := ∀ k, 1 ≤ k → k < d → ∃ w, RC f (k + 1) w ∧ ¬ RC f k w

/-- The number of frames is bounded by the number of states. -/
theorem Frames.depth_le (h : Frames c bads L d m f) (hs : Strict f d) : d ≤ 2 ^ c.latches.length + 1 := by
  have key : ∀ k, k + 1 ≤ d → k ≤ cnt c (RC f (k + 1)) := by
    intro k
    induction k with
    | zero => intro _; omega
    | succ k ih =>
      intro hk
      have h1 := ih (by omega)
      obtain ⟨w, hw1, hw2⟩ := hs (k + 1) (by omega) (by omega)
      have := cnt_lt (c := c) (P := RC f (k + 1)) (Q := RC f (k + 1 + 1)) (fun u hu => hu.mono (by omega)) hw1
        (fun u hu hk' => hw2 (h.rc_congr (sameState_symm hu) hk'))
      omega
  by_cases h0 : d = 0
  · subst h0; exact Nat.zero_le _
  · have := key (d - 1) (by omega)
    have := cnt_le c (RC f (d - 1 + 1))
    omega

end Verif.PDR
