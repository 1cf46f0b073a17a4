import Verif.Proofs.Verbose
import Verif.Proofs.Ic3Verdict
import Verif.Proofs.PdrVerdict

/-! # How many rounds the searches take -/

namespace Verif

open Fsts IC3

/-! ## The length of a shortest counterexample -/

/-- Reachable in at most `k` steps. -/
def Circuit.Within (c : Circuit) (k : Nat) (v : Val) : Prop := ∃ j, j ≤ k ∧ c.Reach j v

/-- Until the first bad state is found, every step adds a state. -/
theorem Circuit.Shortest.grows {c : Circuit} {bads : List Nat} {e : Nat} (hw : c.WF) (hb : ∀ l ∈ bads, c.LitOK l) (h : c.Shortest bads e) :
    ∀ k, k ≤ e → k + 1 ≤ PDR.cnt c (c.Within k) := by
  intro k
  induction k with
  | zero =>
    intro _
    obtain ⟨v, hv⟩ := c.exists_init
    exact Nat.lt_of_le_of_lt (Nat.zero_le _) (PDR.cnt_lt (P := fun _ => False) (fun _ h => h.elim) (u := v) ⟨0, Nat.le_refl _, .init hv⟩ fun _ _ h => h)
  | succ k ih =>
    intro hk
    refine Nat.lt_of_le_of_lt (ih (by omega)) ?_
    have hex : ∃ u, c.Within (k + 1) u ∧ ¬ c.Within k u := by
      refine Classical.byContradiction fun hno => ?_
      have closed : ∀ u, c.Within (k + 1) u → c.Within k u := fun u hu => Classical.byContradiction fun h => hno ⟨u, hu, h⟩
      have all : ∀ j v, c.Reach j v → c.Within k v := by
        intro j v hr
        induction hr with
        | init hv => exact ⟨0, Nat.zero_le _, .init hv⟩
        | step _ ht ih =>
          obtain ⟨i, hi, hr⟩ := ih
          exact closed _ ⟨i + 1, by omega, .step hr ht⟩
      obtain ⟨v, hr, hbad⟩ := (Circuit.unsafeAt_iff hw hb e).1 h.1
      obtain ⟨j, hj, hr⟩ := all e v hr
      exact h.2 j (by omega) ((Circuit.unsafeAt_iff hw hb j).2 ⟨v, hr, hbad⟩)
    obtain ⟨u, hu, hn⟩ := hex
    refine PDR.cnt_lt (fun w ⟨j, hj, hr⟩ => ⟨j, by omega, hr⟩) hu fun w hs ⟨j, hj, hr⟩ => hn ⟨j, hj, ?_⟩
    exact hr.congr hw (sameState_symm hs)

theorem Circuit.Shortest.lt {c : Circuit} {bads : List Nat} {e : Nat} (hw : c.WF) (hb : ∀ l ∈ bads, c.LitOK l) (h : c.Shortest bads e) :
    e < 2 ^ c.latches.length :=
  Nat.lt_of_lt_of_le (h.grows hw hb e (Nat.le_refl _)) (PDR.cnt_le c _)

/-- Circuits with at most 32 latches are never remote. -/
theorem Circuit.Remote.latches {c : Circuit} {bads : List Nat} (hw : c.WF) (hb : ∀ l ∈ bads, c.LitOK l) (h : c.Remote bads) :
    32 < c.latches.length := by
  obtain ⟨e, he, h32⟩ := h
  have h1 : 2 ^ 32 < 2 ^ c.latches.length := Nat.lt_of_le_of_lt h32 (he.lt hw hb)
  exact (Nat.pow_lt_pow_iff_right (by decide)).1 h1

namespace IC3

variable {σ : Type} {A : IC3 σ} {c : Circuit} {bads : List Nat} {F : Err → Prop} {fs : List CNF} {k x m : Nat}

theorem report_spec {J : σ → List CNF → Prop} (v : Bool) : GTri F J fs (A.report v k) (fun p fs' => fs' = fs ∧ ∀ q ∈ p, q.level = k) := by
  intro s hs
  cases v with
  | false => exact ⟨fs, hs, rfl, fun q hq => by cases hq⟩
  | true => exact ⟨fs, hs, rfl, fun q hq => by rw [List.mem_singleton.1 hq]⟩

theorem findFixpointV_spec (K : Contract A c bads F) (hF : ∀ e, F e) (v : Bool) (hf : Frames c bads (k + x) m fs) :
    ∀ (n a : Nat), 1 ≤ a → a + n = k + 1 →
      GTri F K.Inv fs (A.findFixpointV v k (List.range' a n)) (fun r fs' => fs' = fs ∧ (∀ q ∈ r.1, q.level = k) ∧
        (r.2 = none → ∀ i, a ≤ i → i ≤ k → (fr fs i).len ≠ (fr fs (i + 1)).len)) := by
  intro n
  induction n with
  | zero =>
    intro a ha he
    exact GTri.pure ⟨rfl, (fun q h => by cases h), fun _ i h1 h2 => by omega⟩
  | succ n ih =>
    intro a ha he
    rw [List.range'_succ]
    unfold findFixpointV
    refine GTri.bind (K.frame (by rw [hf.len]; omega)) ?_
    rintro g fs ⟨rfl, rfl⟩
    refine GTri.bind (K.frame (i := a + 1) (by rw [hf.len]; omega)) ?_
    rintro g fs ⟨rfl, rfl⟩
    refine GTri.bind (GTri.lift (Q := fun _ fs' => fs' = fs) (fun _ _ => rfl) fun e _ => hF e) ?_
    rintro _ fs rfl
    refine GTri.ite (fun heq => ?_) (fun hne => ?_)
    · refine GTri.bind (report_spec v) ?_
      rintro p fs1 ⟨rfl, hp⟩
      refine GTri.bind (K.getFk (i := a) (by rw [hf.len]; omega)) ?_
      rintro g fs1 ⟨rfl, hg⟩
      exact GTri.pure ⟨rfl, hp, fun h => by cases h⟩
    · refine (ih (a + 1) (by omega) (by omega)).mono ?_
      rintro r fs ⟨rfl, h1, h2⟩
      refine ⟨rfl, h1, fun h i hi1 hi2 => ?_⟩
      by_cases e : i = a
      · subst e; exact hne
      · exact h2 h i (by omega) hi2

theorem mainLoopV_rounds (K : Contract A c bads F) (hF : ∀ e, F e) (v : Bool) (fuel : Nat) (hx : A.dbg = true → x = 0) :
    ∀ (rounds k : Nat) (fs : List CNF), 1 ≤ k → Frames c bads (k - 1 + x) k fs → k ≤ 2 ^ c.latches.length →
      GTri F K.Inv fs (A.mainLoopV v fuel rounds k) (fun r _ => ∀ q ∈ r.1, q.level ≤ 2 ^ c.latches.length) := by
  intro rounds
  induction rounds with
  | zero => exact fun k fs _ _ _ => GTri.error (hF _)
  | succ rounds ih =>
    intro k fs hk hf hkb
    unfold mainLoopV
    refine GTri.bind (K.pushFrame hf.ok) ?_
    rintro _ fs rfl
    have hf1 := hf.push
    rw [show k - 1 + x + 1 = k + x by omega] at hf1
    refine GTri.bind (report_spec v) ?_
    rintro p fs1 ⟨rfl, hp⟩
    have hp : ∀ q ∈ p, q.level ≤ 2 ^ c.latches.length := fun q hq => by rw [hp q hq]; exact hkb
    refine GTri.bind (K.enterFrame hf1.ok (by rw [hf1.len]; omega) fun e => by rw [hf1.len, hx e]) ?_
    rintro _ fs rfl
    refine GTri.bind (strengthen_spec K hk (fun _ => .inr (hF _)) fuel (.inl (hF _)) fuel _ hf1 (.inl (hF _))) ?_
    rintro r fs2 ⟨h1, h2⟩
    cases r with
    | some d => exact GTri.bind (GTri.lift (Q := fun _ _ => True) (fun _ _ => trivial) fun e _ => hF e) fun _ _ _ => GTri.pure hp
    | none =>
      refine GTri.bind (propagateClauses_spec K (h1 rfl)) ?_
      rintro _ fs3 ⟨hf3, htight⟩
      refine GTri.bind (findFixpointV_spec K hF v hf3 k 1 (Nat.le_refl _) (by omega)) ?_
      rintro ⟨p', r⟩ fs ⟨rfl, hl, hnone⟩
      have hp' : ∀ q ∈ p', q.level ≤ 2 ^ c.latches.length := fun q hq => by rw [hl q hq]; exact hkb
      cases r with
      | some inv =>
        exact GTri.pure fun q hq => (List.mem_append.1 hq).elim (hp q) (hp' q)
      | none =>
        have hc := hf3.chain htight (hnone rfl) k (Nat.le_refl _)
        have := satCount_le c (fr fs (k + 1))
        refine GTri.bind (ih (k + 1) _ (by omega) (by rw [show k + 1 - 1 + x = k + x by omega]; exact hf3) (by omega)) ?_
        rintro ⟨ps, r⟩ fs' hps
        refine GTri.pure fun q hq => ?_
        rcases List.mem_append.1 hq with hq | hq
        · exact (List.mem_append.1 hq).elim (hp q) (hp' q)
        · exact hps q hq

theorem proveV_rounds (K : Contract A c bads F) (hF : ∀ e, F e) (v : Bool) (fuel : Nat) :
    GTri F K.Inv [] (A.proveV v fuel) (fun r _ => ∀ q ∈ r.1, q.level ≤ 2 ^ c.latches.length) := by
  unfold proveV
  refine GTri.bind (K.badIn0 []) ?_
  rintro r fs ⟨rfl, h0⟩
  cases r with
  | sat a => exact GTri.pure fun q hq => by cases hq
  | unsat =>
    refine GTri.bind (K.badIn1 _) ?_
    rintro r fs ⟨rfl, h1⟩
    cases r with
    | sat a => exact GTri.pure fun q hq => by cases hq
    | unsat =>
      refine GTri.bind (K.pushFrame FsOK.nil) ?_
      rintro _ fs rfl
      refine GTri.bind (K.pushFrame FsOK.nil.push) ?_
      rintro _ fs rfl
      exact mainLoopV_rounds (x := 0) K hF v fuel (fun _ => rfl) fuel 1 _ (Nat.le_refl _) (frames_start (h0.1 rfl) (h1.1 rfl)) Nat.one_le_two_pow

theorem proveStatelessV_rounds (v dbg : Bool) {env : Env} (he : env.OK) {sched : Sched} (hsched : sched.OK) {f : Fsts} (S : SmallSys f c bads)
    (fuel : Nat) {r : List Report × ProofResult} (h : proveStatelessV v dbg env sched f fuel = .ok r) : ∀ q ∈ r.1, q.level ≤ 2 ^ c.latches.length := by
  obtain ⟨fm, h1, hfm⟩ := formulas_ok dbg S
  unfold proveStatelessV at h
  rw [h1] at h
  simp only [bind_ok, pure_ok] at h
  obtain ⟨_, e, y, e', rfl⟩ := h
  cases e
  obtain ⟨_, _, hq⟩ := Tri.elim (proveV_rounds (Stateless.contract (dbg := dbg) (F := fun _ => True) S he hsched hfm) (fun _ => trivial) v fuel)
    (s := ⟨[], 0⟩) rfl e'
  exact hq

theorem proveStatefulV_rounds (v dbg : Bool) {I : StatefulImpl} {G : Err → Prop} (O : I.OK G) {sched : Sched} (hsched : sched.OK) {f : Fsts}
    (S : SmallSys f c bads) (fuel : Nat) {r : List Report × ProofResult} (h : proveStatefulV v dbg I sched f fuel = .ok r) :
    ∀ q ∈ r.1, q.level ≤ 2 ^ c.latches.length := by
  obtain ⟨fm, h1, hfm⟩ := formulas_ok dbg S
  have hinit : f.getInitialRelation.toCnf = fm.initial := hfm.initial.symm
  have hr : fm.initial.Ready := by
    rw [hfm.initial]
    exact (Enc.initial S.laws).ready S.small
  have O' := O.weaken (F' := fun _ => True) fun _ _ => trivial
  unfold proveStatefulV at h
  rw [h1, hinit] at h
  simp only [bind_ok, pure_ok] at h
  obtain ⟨_, e, x, ex, y, e', rfl⟩ := h
  cases e
  have hrep := Stateful.addCnf_ok O' O'.new hr
  rw [ex] at hrep
  have hInv : Stateful.Inv O' fm (⟨[], [], x, [], 0⟩ : Stateful I) [] :=
    ⟨rfl, rfl, rfl, fun i y h => by simp at h, fun i y h => by simp at h, _, hrep, fun d => by simp⟩
  obtain ⟨_, _, hq⟩ := Tri.elim (proveV_rounds (Stateful.contract (dbg := dbg) S O' hsched hfm) (fun _ => trivial) v fuel) hInv e'
  exact hq

end IC3

namespace PDR

variable {I : StatefulImpl} {F : Err → Prop} {O : I.OK F} {sys : Fsts} {c : Circuit} {bads : List Nat} {L : Prop} {f : List (List Cube)} {d m : Nat}

/-- Initial states are in every frame, so even the first one is not empty. -/
theorem Frames.depth_le_init (h : Frames c bads L d m f) (hL : L) (hs : Strict f d) : d ≤ 2 ^ c.latches.length := by
  have key : ∀ k, k + 1 ≤ d → k + 1 ≤ cnt c (RC f (k + 1)) := by
    intro k
    induction k with
    | zero =>
      intro _
      obtain ⟨v, hv⟩ := c.exists_init
      exact Nat.lt_of_le_of_lt (Nat.zero_le _) (cnt_lt (P := fun _ => False) (fun _ h => h.elim) (h.rr_init hL hv 1).2 fun _ _ h => h)
    | succ k ih =>
      intro hk
      have h1 := ih (by omega)
      obtain ⟨w, hw1, hw2⟩ := hs (k + 1) (by omega) (by omega)
      have := cnt_lt (c := c) (P := RC f (k + 1)) (Q := RC f (k + 1 + 1)) (fun u hu => hu.mono (by omega)) hw1
        (fun u hu hk' => hw2 (h.rc_congr (sameState_symm hu) hk'))
      omega
  by_cases h0 : d = 0
  · subst h0; exact Nat.zero_le _
  · have := key (d - 1) (by omega)
    have := cnt_le c (RC f (d - 1 + 1))
    omega

theorem report_spec (v : Bool) (hl : f.length = d + 2) :
    GTri F (Inv O (formulas sys)) f (report (I := I) v) (fun p f' => f' = f ∧ ∀ q ∈ p, q.level = d) := by
  cases v with
  | false => exact GTri.pure ⟨rfl, fun q hq => by cases hq⟩
  | true =>
    refine GTri.read fun s hs => GTri.bind (depth_spec hl) ?_
    rintro d' f' ⟨rfl, rfl⟩
    exact GTri.pure ⟨rfl, fun q hq => by rw [List.mem_singleton.1 hq]⟩

theorem mainLoopV_rounds {A : PDR I} (S : SmallSys sys c bads) (hA : A.fsts = sys) (hfm : A.forms = formulas sys) (hG : Guard c bads L A.dbg F)
    (hsch : A.sched.OK) (hF : ∀ e, F e) (v : Bool) (fuel N : Nat) (hN : ∀ d m f, Frames c bads L d m f → Strict f d → d ≤ N) :
    ∀ (rounds d : Nat) (f : List (List Cube)), Frames c bads L d d f → d ≤ N →
      GTri F (Inv O (formulas sys)) f (A.mainLoopV v fuel rounds) (fun r _ => ∀ q ∈ r.1, q.level ≤ N) := by
  intro rounds
  induction rounds with
  | zero => exact fun d f _ _ => GTri.error (hF _)
  | succ rounds ih =>
    intro d f hf hd
    unfold mainLoopV
    refine GTri.bind (getBadCube_spec S hA (.inr (hF _)) hf.cubes hf.len) ?_
    rintro r f ⟨rfl, hnone, hsome⟩
    cases r with
    | some s =>
      obtain ⟨hs, ⟨v, hv, hsv, hvb⟩, hbad⟩ := hsome s rfl
      dsimp only
      refine GTri.bind (depth_spec hf.len) ?_
      rintro d' f' ⟨e1, e2⟩
      rw [e1, e2]
      clear e1 e2 d' f'
      refine GTri.bind (recBlockCube_spec S hA hG hsch hf hs hv hsv hbad (.inl (hF _))) ?_
      rintro b f1 ⟨hf1, hmono, ht, hfl⟩
      cases b with
      | true =>
        rw [if_pos rfl]
        exact ih d f1 hf1 hd
      | false =>
        rw [if_neg (by simp)]
        refine GTri.bind (depth_spec hf1.len) ?_
        rintro d' f' ⟨e1, e2⟩
        rw [e1, e2]
        exact GTri.bind (GTri.lift (Q := fun _ _ => True) (fun _ _ => trivial) fun e _ => hF e) fun _ _ _ => GTri.pure fun q hq => by cases hq
    | none =>
      dsimp only
      have hr := (hf.raise (hnone rfl)).push
      refine GTri.bind (report_spec v hf.len) ?_
      rintro p f' ⟨rfl, hp⟩
      have hp : ∀ q ∈ p, q.level ≤ N := fun q hq => by rw [hp q hq]; exact hd
      refine GTri.bind (newFrame_spec S hfm (by rw [hf.len]; omega) (by rw [hf.len]; exact hf.inf)) ?_
      rintro _ f1 rfl
      refine GTri.bind (propagateBlockedCubes_spec S hA (by omega) hr) ?_
      rintro r f2 ⟨hf2, hmono, hstr, hprf⟩
      cases r with
      | some k =>
        obtain ⟨h1, h2, h3⟩ := hprf k rfl
        dsimp only
        refine GTri.bind (R := fun _ _ => True) ?_ fun _ _ _ => GTri.pure hp
        unfold getRi
        refine GTri.read fun s hs => ?_
        refine GTri.bind (GTri.lift (Q := fun _ _ => True) (fun _ _ => trivial) fun e _ => hF e) fun _ _ _ => ?_
        refine GTri.bind (GTri.lift (Q := fun _ _ => True) (fun _ _ => trivial) fun e _ => hF e) fun _ _ _ => ?_
        exact GTri.ite (fun _ => GTri.pure trivial) fun _ => GTri.pure trivial
      | none =>
        refine GTri.bind (ih (d + 1) f2 hf2 (hN _ _ _ hf2 (hstr rfl))) ?_
        rintro ⟨ps, r⟩ f' hps
        exact GTri.pure fun q hq => (List.mem_append.1 hq).elim (hp q) (hps q)

theorem runV_rounds (v dbg : Bool) {I : StatefulImpl} {G : Err → Prop} (O : I.OK G) {sched : Sched} (hsched : sched.OK) (S : SmallSys sys c bads)
    (fuel : Nat) {r : List Report × ProofResult} (h : runV v dbg I sched sys fuel = .ok r) :
    (∀ q ∈ r.1, q.level ≤ 2 ^ c.latches.length + 1) ∧ (Trusted dbg c bads → ∀ q ∈ r.1, q.level ≤ 2 ^ c.latches.length) := by
  have O' := O.weaken (F' := fun _ => True) fun _ _ => trivial
  have hG : Guard c bads (Trusted dbg c bads) dbg (fun _ => True) := ⟨.inl, id, .inr (.inr trivial)⟩
  have key : ∀ N, (∀ d m f, Frames c bads (Trusted dbg c bads) d m f → Strict f d → d ≤ N) → ∀ q ∈ r.1, q.level ≤ N := by
    intro N hN
    have hspec : GTri (fun _ => True) (Inv O' (formulas sys)) [[]] (do
        PDR.newFrame ⟨dbg, sys, sched, formulas sys⟩
        PDR.mainLoopV (I := I) ⟨dbg, sys, sched, formulas sys⟩ v fuel fuel) (fun r _ => ∀ q ∈ r.1, q.level ≤ N) := by
      refine GTri.bind (newFrame_spec S rfl (by simp) rfl) ?_
      rintro _ f rfl
      exact mainLoopV_rounds S rfl rfl hG hsched (fun _ => trivial) v fuel N hN fuel 0 [[], []] Frames.start (Nat.zero_le _)
    have hInv : Inv O' (formulas sys) (⟨[[]], [], [], [], true, true, 0⟩ : St I) [[]] :=
      ⟨rfl, fun w => by cases w <;> rfl, fun w i x h => by cases w <;> simp [St.sols] at h⟩
    unfold runV at h
    simp only [bind_ok, pure_ok] at h
    obtain ⟨y, e, rfl⟩ := h
    obtain ⟨_, _, hq⟩ := Tri.elim hspec (s := (⟨[[]], [], [], [], true, true, 0⟩ : St I)) hInv e
    exact hq
  exact ⟨key _ fun d m f hf hs => hf.depth_le hs, fun hL => key _ fun d m f hf hs => hf.depth_le_init hL hs⟩

end PDR

end Verif
