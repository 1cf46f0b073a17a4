import Verif.Proofs.PdrPropagate
import Verif.Proofs.Ic3Verdict

/-! # PDR: the main loop and the meaning of its verdicts -/

namespace Verif.PDR

open Fsts IC3

variable {sys : Fsts} {c : Circuit} {bads : List Nat} {f f' : List (List Cube)} {I : StatefulImpl} {F : Err → Prop} {O : I.OK F} {d m k : Nat} {L : Prop}

/-- What the invariant of a `Proof` satisfies whatever the circuit: it is a condition on latches, closed under clocks, without bad states. -/
structure Closed (c : Circuit) (bads : List Nat) (inv : CNF) : Prop where
  one : OneFrame c inv
  latch : ∀ d ∈ inv.clauses, LatchClause c d
  step : ∀ v v', c.Trans v v' → inv.holds v → inv.holds v'
  good : ∀ v, inv.holds v → ¬ c.BadAt bads v

theorem closed_of (hf : Frames c bads L d m f) (hk : 1 ≤ k) (hkm : k < m) (he : fr f k = []) : Closed c bads (riCnf f k) where
  one := oneFrame_of_enc (riCnf_enc hf.cubes k)
  latch := fun d hd => by
    obtain ⟨j, _, z, hz, rfl⟩ := riCnf_mem.1 hd
    exact (hf.cubes j z hz).not
  step := fun v v' ht hv => by
    refine riCnf_holds.2 fun j hj z hz => ?_
    by_cases hjk : j = k
    · rw [hjk, he] at hz; simp at hz
    · exact hf.step k v v' ⟨fun e => by omega, riCnf_holds.1 hv⟩ ht j (by omega) z hz
  good := fun v hv => hf.good k v hkm ⟨fun e => by omega, riCnf_holds.1 hv⟩

/-- An empty frame below the depth yields an inductive invariant that `check_invariant` accepts. -/
theorem certificate (S : SmallSys sys c bads) (hf : Frames c bads L d m f) (hL : L) (hk : 1 ≤ k) (hkm : k < m) (he : fr f k = []) :
    Verdict sys c bads CNF.new (.proof (riCnf f k)) := by
  have henc := riCnf_enc hf.cubes k
  have hone := oneFrame_of_enc henc
  have hfix : ∀ v, RC f (k + 1) v → RC f k v := by
    intro v h j hj z hz
    by_cases hjk : j = k
    · rw [hjk, he] at hz; simp at hz
    · exact h j (by omega) z hz
  have hrr : ∀ {v}, RC f k v → RR c f k v := fun h => ⟨fun e => by omega, h⟩
  refine ⟨?_, ⟨hone, (riCnf f k).clauses, fun d hd => ?_, fun d => by simp [CNF.new]⟩, ?_⟩
  · intro j hj
    obtain ⟨v, hr, hbad⟩ := (Circuit.unsafeAt_iff S.wf S.bad.lit j).1 hj
    have key : ∀ j v, c.Reach j v → RC f k v := by
      intro j v hr
      induction hr with
      | init hv => exact (hf.rr_init hL hv k).2
      | step _ ht ih => exact hfix _ (hf.step k _ _ (hrr ih) ht)
    exact hf.good k v hkm (hrr (key j v hr)) hbad
  · obtain ⟨j, _, z, hz, rfl⟩ := riCnf_mem.1 hd
    exact ⟨(hf.cubes j z hz).not, fun v hv => Cube.holds_not.2 (hf.init hL v hv j z hz)⟩
  · intro dbg env hok t
    refine (checkInvariant_iff dbg hok S.laws S.wf S.bad S.small hone t).2 ⟨?_, ?_, ?_⟩
    · intro w hw _
      exact riCnf_holds.2 (hf.rr_init hL hw k).2
    · intro w hT hinv _ _
      exact riCnf_holds.2 (hfix _ (hf.step k w _ (hrr (riCnf_holds.1 hinv)) (transition_sound S.laws S.wf hT)))
    · intro w hinv hS hU
      exact hf.good k w hkm (hrr (riCnf_holds.1 hinv)) ((unsafety_iff S.laws S.wf S.bad hS).1 hU)

/-- The number of frames is at most this. -/
def most (c : Circuit) : Nat := 2 ^ c.latches.length + 1

/-- Enough fuel for everything. -/
def enough (c : Circuit) : Nat :=
  1 + (most c + 2) * ((most c + 2) * (most c * most c) + (most c + 1)) + (most c + 1) * (most c + 2) + most c

theorem queue_fuel (hd : d ≤ most c) : 1 + (d + 2) * ((d + 2) * weight c d f + (d + 1)) ≤ enough c := by
  have hw := weight_le c d f
  unfold enough
  have h1 : weight c d f ≤ most c * most c := Nat.le_trans hw (Nat.mul_le_mul hd (Nat.le_succ _))
  generalize most c = N at *
  have h2 : (d + 2) * weight c d f ≤ (N + 2) * (N * N) := Nat.mul_le_mul (by omega) h1
  have h3 : (d + 2) * ((d + 2) * weight c d f + (d + 1)) ≤ (N + 2) * ((N + 2) * (N * N) + (N + 1)) := Nat.mul_le_mul (by omega) (by omega)
  omega

/-- Rounds of the main loop that are enough. -/
noncomputable def rank (c : Circuit) (d : Nat) (f : List (List Cube)) : Nat := (most c + 1 - d) * (most c + 2) + cnt c (RC f d)

theorem cnt_most (c : Circuit) (P : Val → Prop) : cnt c P ≤ most c := Nat.le_trans (cnt_le c P) (Nat.le_succ _)

def DepthOK (c : Circuit) (bads : List Nat) (F : Err → Prop) : Prop :=
  c.latches.length < 32 ∨ (c.Covered bads ∧ ∀ e, c.Shortest bads e → e < u32Size) ∨ F (.panic "pdr depth try_into")

/-- The meaning of a verdict if blocked cubes exclude no initial state (`L`), and what is left of it otherwise. -/
def Outcome (sys : Fsts) (c : Circuit) (bads : List Nat) (L : Prop) : ProofResult → Prop
  | .ctx d => (L → ∀ j, j < d → ¬ c.UnsafeAt bads j) ∧ (c.Covered bads → ∃ e, c.UnsafeAt bads e) ∧ (d = 0 → c.UnsafeAt bads 0)
  | .proof inv => Closed c bads inv ∧ (L → Verdict sys c bads CNF.new (.proof inv))

theorem Outcome.shortest (h : Outcome sys c bads L (.ctx d)) (hL : L) (hc : c.Covered bads) :
    ∃ e, c.Shortest bads e ∧ d ≤ e ∧ (d = 0 ↔ e = 0) := by
  obtain ⟨hmin, hex, h0⟩ := h
  obtain ⟨e, he⟩ := hex hc
  obtain ⟨e, he⟩ := shortest_of he
  have hle : d ≤ e := Nat.le_of_not_lt fun hlt => hmin hL e hlt he.1
  exact ⟨e, he, hle, fun hd => Classical.byContradiction fun hne => he.2 0 (by omega) (h0 hd), fun he0 => by omega⟩

theorem mainLoop_spec {A : PDR I} (S : SmallSys sys c bads) (hA : A.fsts = sys) (hfm : A.forms = formulas sys) (hG : Guard c bads L A.dbg F)
    (hsch : A.sched.OK) (hD : Deep c bads ∨ F (.panic "features.rs:107 unwrap")) (hdep : DepthOK c bads F) (fuel : Nat) (hfuel : F .fuel ∨ enough c < fuel) :
    ∀ (rounds d : Nat) (f : List (List Cube)), Frames c bads L d d f → d ≤ most c → (F .fuel ∨ rank c d f < rounds) →
      GTri F (Inv O (formulas sys)) f (A.mainLoop fuel rounds) (fun r f' => Outcome sys c bads L r ∧ 2 ≤ f'.length) := by
  intro rounds
  induction rounds with
  | zero =>
    intro d f hf hd hF
    exact GTri.error (hF.resolve_right (by omega))
  | succ rounds ih =>
    intro d f hf hd hF
    unfold mainLoop
    refine GTri.bind (getBadCube_spec S hA hD hf.cubes hf.len) ?_
    rintro r f ⟨rfl, hnone, hsome⟩
    cases r with
    | some s =>
      obtain ⟨hs, ⟨v, hv, hsv, hvb⟩, hbad⟩ := hsome s rfl
      dsimp only
      refine GTri.bind (depth_spec hf.len) ?_
      rintro d' f' ⟨e1, e2⟩
      rw [e1, e2]
      clear e1 e2 d' f'
      refine GTri.bind (recBlockCube_spec S hA hG hsch hf hs hv hsv hbad (hfuel.imp id fun h => Nat.le_trans (queue_fuel hd) (Nat.le_of_lt h))) ?_
      rintro b f1 ⟨hf1, hmono, ht, hfl⟩
      cases b with
      | true =>
        rw [if_pos rfl]
        refine ih d f1 hf1 hd (hF.imp id fun hF => ?_)
        have : cnt c (RC f1 d) < cnt c (RC f d) := cnt_lt (hmono d) hv.2 fun w hw hr => ht rfl w hr (latchCube_congr hs hw hsv)
        unfold rank at *
        omega
      | false =>
        rw [if_neg (by simp)]
        refine GTri.bind (depth_spec hf1.len) ?_
        rintro d' f' ⟨e1, e2⟩
        rw [e1, e2]
        clear e1 e2 d' f'
        refine GTri.bind (R := fun r f' => r = d ∧ f' = f1) ?_ ?_
        · unfold depthU32
          by_cases hlt : d < u32Size
          · rw [if_pos hlt]; exact GTri.lift_ok rfl ⟨rfl, rfl⟩
          · rw [if_neg hlt]
            refine GTri.error ((hdep.resolve_left fun h => hlt ?_).resolve_left fun ⟨hc, h⟩ => hlt ?_)
            rotate_left
            · obtain ⟨e, he⟩ := hfl rfl hc
              obtain ⟨e, he⟩ := shortest_of he
              exact Nat.lt_of_le_of_lt (Nat.le_of_not_lt fun h => hf1.lower (hG.1 hc) S.wf S.bad h he.1) (h e he)
            have : 2 ^ c.latches.length ≤ 2 ^ 31 := Nat.pow_le_pow_right (by omega) (by omega)
            unfold u32Size
            unfold most at hd
            omega
        · rintro d' f' ⟨rfl, rfl⟩
          exact GTri.pure ⟨⟨fun hL j hj => hf1.lower hL S.wf S.bad hj, hfl rfl,
            fun h0 => (Circuit.unsafeAt_iff S.wf S.bad.lit 0).2 ⟨v, .init (hv.1 h0), hvb⟩⟩, by rw [hf1.len]; omega⟩
    | none =>
      dsimp only
      have hr := (hf.raise (hnone rfl)).push
      refine GTri.bind (newFrame_spec S hfm (by rw [hf.len]; omega) (by rw [hf.len]; exact hf.inf)) ?_
      rintro _ f1 rfl
      refine GTri.bind (propagateBlockedCubes_spec S hA (by omega) hr) ?_
      rintro r f2 ⟨hf2, hmono, hstr, hprf⟩
      cases r with
      | some k =>
        obtain ⟨h1, h2, h3⟩ := hprf k rfl
        dsimp only
        refine GTri.bind (R := fun g f' => g = riCnf f2 k ∧ f' = f2) ?_ ?_
        · unfold getRi
          refine GTri.read fun s hs => ?_
          refine GTri.bind (GTri.lift_ok (a := []) (Q := fun y f' => y = [] ∧ f' = f2) (by
            unfold indexR; rw [hs.f_eq, fr_get (by rw [hf2.len]; omega), hf2.zero]; rfl) ⟨rfl, rfl⟩) ?_
          rintro _ f2 ⟨rfl, rfl⟩
          refine GTri.bind (GTri.lift_ok (a := ()) (Q := fun _ f' => f' = f2) rfl rfl) ?_
          rintro _ f2 rfl
          rw [if_neg (by omega), hs.f_eq]
          exact GTri.pure ⟨rfl, rfl⟩
        · rintro _ f' ⟨rfl, rfl⟩
          exact GTri.pure ⟨⟨closed_of hf2 h1 (by omega) h3, fun hL => certificate S hf2 hL h1 (by omega) h3⟩, by rw [hf2.len]; omega⟩
      | none =>
        have hd2 := hf2.depth_le (hstr rfl)
        refine ih (d + 1) f2 hf2 hd2 (hF.imp id fun hF => ?_)
        have hc := cnt_most c (RC f2 (d + 1))
        have hd2 : d + 1 ≤ most c := hd2
        unfold rank at *
        generalize most c = N at *
        have : (N + 1 - d) * (N + 2) = (N + 1 - (d + 1)) * (N + 2) + (N + 2) := by
          rw [← Nat.succ_mul]; congr 1; omega
        omega

/-- The verdicts mean what they say: every bad latch is covered, or the debug assertions are compiled in. -/
def Trusted (dbg : Bool) (c : Circuit) (bads : List Nat) : Prop := c.Covered bads ∨ dbg = true

/-- The failures that remain possible. -/
def Failure (dbg : Bool) (c : Circuit) (bads : List Nat) (fuel : Nat) (e : Err) : Prop :=
  (e = .fuel ∧ fuel ≤ enough c) ∨ (e = .panic "pdr depth try_into" ∧ 32 ≤ c.latches.length ∧ (c.Covered bads → c.Remote bads)) ∨
    (e = .panic "pdr.rs:568" ∧ dbg = true ∧ ¬ c.Covered bads) ∨ (e = .panic "features.rs:107 unwrap" ∧ ¬ Deep c bads)

/-- The first call of `prove` on a new object. -/
theorem prove_spec (dbg : Bool) {I : StatefulImpl} {F : Err → Prop} (O : I.OK F) {sched : Sched} (hsched : sched.OK) (S : SmallSys sys c bads)
    (fuel : Nat) (hF : ∀ e, Failure dbg c bads fuel e → F e) :
    Post F (fun r s => Outcome sys c bads (Trusted dbg c bads) r ∧ ∃ f, Inv O (formulas sys) s f ∧ 2 ≤ f.length)
      (PDR.prove (I := I) ⟨dbg, sys, sched, formulas sys⟩ fuel ⟨[], [], [], [], true, true, 0⟩) := by
  have hfuel : F .fuel ∨ enough c < fuel := by
    by_cases h : enough c < fuel
    · exact .inr h
    · exact .inl (hF _ (.inl ⟨rfl, by omega⟩))
  have hdep : DepthOK c bads F := by
    by_cases h : c.latches.length < 32
    · exact .inl h
    · by_cases h' : c.Covered bads → c.Remote bads
      · exact .inr (.inr (hF _ (.inr (.inl ⟨rfl, by omega, h'⟩))))
      · refine .inr (.inl (Classical.byContradiction fun hn => h' fun hc => Classical.byContradiction fun hd => hn ⟨hc, fun e he => ?_⟩))
        exact Nat.lt_of_not_le fun hle => hd ⟨e, he, hle⟩
  have hG : Guard c bads (Trusted dbg c bads) dbg F := by
    refine ⟨.inl, id, ?_⟩
    by_cases hN : c.Covered bads
    · exact .inl hN
    · cases dbg with
      | false => exact .inr (.inl rfl)
      | true => exact .inr (.inr (hF _ (.inr (.inr (.inl ⟨rfl, rfl, hN⟩)))))
  have hD : Deep c bads ∨ F (.panic "features.rs:107 unwrap") := by
    by_cases hD : Deep c bads
    · exact .inl hD
    · exact .inr (hF _ (.inr (.inr (.inr ⟨rfl, hD⟩))))
  have hspec : GTri F (Inv O (formulas sys)) [[]] (do
      PDR.newFrame ⟨dbg, sys, sched, formulas sys⟩
      PDR.mainLoop (I := I) ⟨dbg, sys, sched, formulas sys⟩ fuel fuel)
      (fun r f' => Outcome sys c bads (Trusted dbg c bads) r ∧ 2 ≤ f'.length) := by
    refine GTri.bind (newFrame_spec S rfl (by simp) rfl) ?_
    rintro _ f rfl
    refine mainLoop_spec S rfl rfl hG hsched hD hdep fuel hfuel fuel 0 [[], []] Frames.start (Nat.zero_le _) (hfuel.imp id fun h => ?_)
    have hc := cnt_most c (RC [[], []] 0)
    unfold rank
    unfold enough at h
    generalize most c = N at *
    rw [Nat.sub_zero]
    omega
  have hInv : Inv O (formulas sys) (⟨[[]], [], [], [], true, true, 0⟩ : St I) [[]] :=
    ⟨rfl, fun w => by cases w <;> rfl, fun w i x h => by cases w <;> simp [St.sols] at h⟩
  exact (hspec _ hInv).mono (fun _ h => h) fun r s ⟨f, h1, h2, h3⟩ => ⟨h2, f, h1, h3⟩

/-- With solver objects that may fail as in `G`, these are the only additional failures. -/
theorem run_ends (dbg : Bool) {I : StatefulImpl} {G : Err → Prop} (O : I.OK G) {sched : Sched} (hsched : sched.OK) (S : SmallSys sys c bads)
    (fuel : Nat) : Ends (fun e => Failure dbg c bads fuel e ∨ G e) (run dbg I sched sys fuel) (Outcome sys c bads (Trusted dbg c bads)) := by
  have h := prove_spec dbg (O.weaken (F' := fun e => Failure dbg c bads fuel e ∨ G e) fun _ h => .inr h) hsched S fuel fun _ h => .inl h
  show Ends _ (do
      let r ← PDR.prove (I := I) ⟨dbg, sys, sched, formulas sys⟩ fuel ⟨[], [], [], [], true, true, 0⟩
      return r.1) _
  match hm : PDR.prove (I := I) ⟨dbg, sys, sched, formulas sys⟩ fuel ⟨[], [], [], [], true, true, 0⟩, h with
  | .ok (r, s), h => exact h.1
  | .error e, h => exact h

theorem run_spec (dbg : Bool) {I : StatefulImpl} (O : I.OK) {sched : Sched} (hsched : sched.OK) (S : SmallSys sys c bads) (fuel : Nat) :
    (∃ r, run dbg I sched sys fuel = .ok r ∧ Outcome sys c bads (Trusted dbg c bads) r) ∨
      ∃ e, run dbg I sched sys fuel = .error e ∧ Failure dbg c bads fuel e := by
  have h := run_ends dbg O hsched S fuel
  cases hr : run dbg I sched sys fuel with
  | ok r => rw [hr] at h; exact .inl ⟨r, rfl, h⟩
  | error e => rw [hr] at h; exact .inr ⟨e, rfl, h.resolve_right id⟩

/-- A bad initial state is found at once, whatever the circuit. -/
theorem run_zero (dbg : Bool) {I : StatefulImpl} (O : I.OK) {sched : Sched} (hsched : sched.OK) (S : SmallSys sys c bads) (fuel : Nat)
    (h0 : c.UnsafeAt bads 0) : run dbg I sched sys (fuel + 1) = .ok (.ctx 0) ∨
      (¬ Deep c bads ∧ run dbg I sched sys (fuel + 1) = .error (.panic "features.rs:107 unwrap")) := by
  obtain ⟨v, hr, hbad⟩ := (Circuit.unsafeAt_iff S.wf S.bad.lit 0).1 h0
  have hinit : c.Init v := by cases hr; assumption
  let F : Err → Prop := fun e => ¬ Deep c bads ∧ e = .panic "features.rs:107 unwrap"
  let O' : I.OK F := O.weaken fun _ h => h.elim
  have hD : Deep c bads ∨ F (.panic "features.rs:107 unwrap") := by
    by_cases hD : Deep c bads
    · exact .inl hD
    · exact .inr ⟨hD, rfl⟩
  have hspec : GTri F (Inv O' (formulas sys)) [[]] (do
      PDR.newFrame ⟨dbg, sys, sched, formulas sys⟩
      PDR.mainLoop (I := I) ⟨dbg, sys, sched, formulas sys⟩ (fuel + 1) (fuel + 1)) (fun r _ => r = .ctx 0) := by
    refine GTri.bind (newFrame_spec S rfl (by simp) rfl) ?_
    rintro _ f rfl
    unfold mainLoop
    have hf : Frames c bads True 0 0 [[], []] := Frames.start
    refine GTri.bind (getBadCube_spec S rfl hD hf.cubes hf.len) ?_
    rintro r f ⟨rfl, hnone, -⟩
    cases r with
    | none => exact absurd hbad (hnone rfl v ⟨fun _ => hinit, fun j _ z hz => by
        match j, hz with
        | 0, hz => cases hz
        | 1, hz => cases hz
        | j + 2, hz => cases hz⟩)
    | some s =>
      dsimp only
      refine GTri.bind (depth_spec hf.len) ?_
      rintro d' f' ⟨rfl, rfl⟩
      refine GTri.bind (R := fun b f' => b = false ∧ f' = [[], []]) ?_ ?_
      · unfold recBlockCube
        dsimp only
        have e : PQueue.push [] (⟨s, .ok 0⟩ : TCube) 0 = [(⟨s, .ok 0⟩, 0)] := rfl
        rw [e]
        unfold blockQueue
        rw [if_neg (by simp)]
        dsimp only
        refine GTri.bind (fresh_spec _) ?_
        rintro t f rfl
        obtain ⟨x, q1, hpop, hperm, -⟩ := PQueue.pop_spec (q := [((⟨s, .ok 0⟩ : TCube), 0)]) (by simp) (by simp)
          (sched.pick t 1)
        refine GTri.bind (GTri.lift_ok (a := (x, q1)) (Q := fun y f' => y = (x, q1) ∧ f' = [[], []])
          (by show unwrapR _ (PQueue.pop _ (sched.pick t 1)) = _; rw [hpop]; rfl) ⟨rfl, rfl⟩) ?_
        rintro _ f ⟨rfl, rfl⟩
        have hx : x = (⟨s, .ok 0⟩, 0) := by
          have := hperm.mem_iff (a := x)
          simp at this
          exact this
        subst hx
        exact GTri.pure ⟨rfl, rfl⟩
      · rintro b f' ⟨rfl, rfl⟩
        rw [if_neg (by simp)]
        refine GTri.bind (depth_spec hf.len) ?_
        rintro d' f' ⟨rfl, rfl⟩
        refine GTri.bind (R := fun r f' => r = 0) (GTri.lift_ok rfl rfl) ?_
        rintro _ f' rfl
        exact GTri.pure rfl
  have hInv : Inv O' (formulas sys) (⟨[[]], [], [], [], true, true, 0⟩ : St I) [[]] :=
    ⟨rfl, fun w => by cases w <;> rfl, fun w i x h => by cases w <;> simp [St.sols] at h⟩
  have h : Post F (fun r s => ∃ f', Inv O' (formulas sys) s f' ∧ r = .ctx 0)
      (PDR.prove (I := I) ⟨dbg, sys, sched, formulas sys⟩ (fuel + 1) ⟨[], [], [], [], true, true, 0⟩) := hspec _ hInv
  show ((do
      let r ← PDR.prove (I := I) ⟨dbg, sys, sched, formulas sys⟩ (fuel + 1) ⟨[], [], [], [], true, true, 0⟩
      return r.1) : Res ProofResult) = _ ∨ _ ∧ ((do
      let r ← PDR.prove (I := I) ⟨dbg, sys, sched, formulas sys⟩ (fuel + 1) ⟨[], [], [], [], true, true, 0⟩
      return r.1) : Res ProofResult) = _
  match hm : PDR.prove (I := I) ⟨dbg, sys, sched, formulas sys⟩ (fuel + 1) ⟨[], [], [], [], true, true, 0⟩, h with
  | .ok (r, s), h =>
    obtain ⟨_, _, rfl⟩ := h
    exact .inl rfl
  | .error e, h =>
    obtain ⟨h1, rfl⟩ : F e := h
    exact .inr ⟨h1, rfl⟩

end Verif.PDR
