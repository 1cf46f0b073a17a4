import Verif.Proofs.Ic3Verdict

/-! # IC3: several calls of `prove` on one object -/

namespace Verif.IC3

open Fsts

section

variable {σ : Type} {A : IC3 σ} {c : Circuit} {bads : List Nat} {F : Err → Prop} {fs : List CNF}

/-- Without debug assertions every call gives a right answer, whatever the calls before it have left behind. -/
theorem proveTimes_spec (K : Contract A c bads F) (hdbg : A.dbg = false) : ∀ (fuels : List Nat) (fs : List CNF),
    (∀ n ∈ fuels, DepthOK c bads F ∧ (F .fuel ∨ enough c < n)) → Start c bads fs →
    GTri F K.Inv fs (A.proveTimes fuels) (fun rs _ => rs.length = fuels.length ∧ ∀ r ∈ rs, Answer A c bads r) := by
  intro fuels
  induction fuels with
  | nil => intro fs _ _; exact GTri.pure ⟨rfl, fun r hr => by simp at hr⟩
  | cons n ns ih =>
    intro fs hn hst
    unfold proveTimes
    obtain ⟨h1, h2⟩ := hn n (by simp)
    refine GTri.bind (prove_spec K h1 n h2 hst (by rw [hdbg]; simp)) ?_
    rintro r fs' ⟨ha, hu⟩
    refine GTri.bind (ih fs' (fun k hk => hn k (by simp [hk])) (.inr hu)) ?_
    rintro rs fs'' ⟨hl, hrs⟩
    refine GTri.pure ⟨by simp [hl], fun r' hr' => ?_⟩
    rcases List.mem_cons.1 hr' with rfl | hr'
    · exact ha
    · exact hrs r' hr'

/-- Counterexamples of at most one step are found before any frame is touched. -/
theorem prove_early (K : Contract A c bads F) {e : Nat} (he : c.Shortest bads e) (h1 : e ≤ 1) (fuel : Nat) (fs : List CNF) :
    GTri F K.Inv fs (A.prove fuel) (fun r fs' => r = .ctx e ∧ fs' = fs) := by
  unfold prove
  refine GTri.bind (K.badIn0 fs) ?_
  rintro r fs ⟨rfl, h0⟩
  have key0 : r = .unsat ↔ ¬ c.UnsafeAt bads 0 := by
    rw [h0, Circuit.unsafeAt_iff K.wf K.bad.lit]
    refine ⟨fun h ⟨v, hr, hb⟩ => ?_, fun h v hv hb => h ⟨v, .init hv, hb⟩⟩
    cases hr with
    | init hi => exact h v hi hb
  cases r with
  | sat a =>
    have hu : c.UnsafeAt bads 0 := Classical.byContradiction fun h => by simpa using key0.2 h
    have : e = 0 := Classical.byContradiction fun h => he.2 0 (by omega) hu
    subst this
    exact GTri.pure ⟨rfl, rfl⟩
  | unsat =>
    have hno := key0.1 rfl
    have he1 : e = 1 := Classical.byContradiction fun h => hno (by have := he.1; rwa [show e = 0 by omega] at this)
    subst he1
    refine GTri.bind (K.badIn1 _) ?_
    rintro r fs ⟨rfl, h1⟩
    cases r with
    | sat a => exact GTri.pure ⟨rfl, rfl⟩
    | unsat =>
      obtain ⟨v, hr, hb⟩ := (Circuit.unsafeAt_iff K.wf K.bad.lit 1).1 he.1
      cases hr with
      | step hi ht =>
        cases hi with
        | init hi => exact absurd hb (h1.1 rfl _ _ hi ht)

theorem proveTimes_early (K : Contract A c bads F) {e : Nat} (he : c.Shortest bads e) (h1 : e ≤ 1) : ∀ (fuels : List Nat) (fs : List CNF),
    GTri F K.Inv fs (A.proveTimes fuels) (fun rs _ => rs = fuels.map fun _ => .ctx e) := by
  intro fuels
  induction fuels with
  | nil => intro fs; exact GTri.pure rfl
  | cons n ns ih =>
    intro fs
    unfold proveTimes
    refine GTri.bind (prove_early K he h1 n fs) ?_
    rintro _ _ ⟨rfl, rfl⟩
    refine GTri.bind (ih _) ?_
    rintro _ _ rfl
    exact GTri.pure rfl

/-- When the assertion on the number of frames is compiled in, a call that finds frames of an earlier one does not get past it. -/
theorem prove_again {site : String} (K : Contract A c bads F) (hsite : F (.panic site))
    (hfail : ∀ {fs k s}, K.Inv s fs → fs.length ≠ k + 2 → A.enterFrame k s = .error (.panic site))
    (h0 : ¬ c.UnsafeAt bads 0) (h1 : ¬ c.UnsafeAt bads 1) (hu : Used c bads fs) (fuel : Nat) :
    GTri F K.Inv fs (A.prove (fuel + 1)) (fun _ _ => False) := by
  have hst : Start c bads fs := .inr hu
  have hpos : 1 ≤ fs.length := by
    cases hu with
    | none h => exact (h.elim h0 h1).elim
    | frames hf hm => have := hf.len; omega
  unfold prove
  refine GTri.bind (K.badIn0 fs) ?_
  rintro r fs ⟨rfl, hb0⟩
  have key0 : r = .unsat := hb0.2 fun v hv hb => h0 ((Circuit.unsafeAt_iff K.wf K.bad.lit 0).2 ⟨v, .init hv, hb⟩)
  subst key0
  refine GTri.bind (K.badIn1 _) ?_
  rintro r fs ⟨rfl, hb1⟩
  have key1 : r = .unsat := hb1.2 fun v v' hv ht hb => h1 ((Circuit.unsafeAt_iff K.wf K.bad.lit 1).2 ⟨v', .step (.init hv) ht, hb⟩)
  subst key1
  refine GTri.bind (K.pushFrame hst.ok) ?_
  rintro _ fs' rfl
  refine GTri.bind (K.pushFrame hst.ok.push) ?_
  rintro _ fs' rfl
  unfold mainLoop
  refine GTri.bind (K.pushFrame hst.ok.push.push) ?_
  rintro _ fs' rfl
  refine GTri.bind (R := fun _ _ => False) ?_ fun _ _ h => h.elim
  intro s hs
  rw [hfail hs (by simp only [List.length_append, List.length_singleton]; omega)]
  exact hsite

end

variable {f : Fsts} {c : Circuit} {bads : List Nat}

/-! ## `IC3Stateless` -/

theorem Stateless.enterFrame_fails {env : Env} {sched : Sched} {fm : Formulas} {k : Nat} {s : Stateless} (h : s.clauses.length ≠ k + 2) :
    (stateless true env sched f fm).enterFrame k s = .error (.panic "ic3_stateless_solver.rs:420") := by
  show (liftM (debugAssertR true "ic3_stateless_solver.rs:420" (s.clauses.length == k + 2)) : StateT Stateless Res Unit) s = _
  rw [show (s.clauses.length == k + 2) = false by simpa using h]
  rfl

/-- The failures that remain possible in one of several calls. -/
def Failures (c : Circuit) (bads : List Nat) (fuels : List Nat) (e : Err) : Prop := ∃ n ∈ fuels, Failure c bads n e

theorem failures_ok {F : Err → Prop} {fuels : List Nat} (hF : ∀ e, Failures c bads fuels e → F e) :
    ∀ n ∈ fuels, DepthOK c bads F ∧ (F .fuel ∨ enough c < n) := fun n hn =>
  ⟨depthOK (fuel := n) fun e h => hF e ⟨n, hn, h⟩, fuelOK fun e h => hF e ⟨n, hn, h⟩⟩

theorem repeatStateless_spec {env : Env} (he : env.OK) {sched : Sched} (hsched : sched.OK) (S : SmallSys f c bads) (fuels : List Nat) :
    Ends (Failures c bads fuels) (repeatStateless false env sched f fuels)
      (fun rs => rs.length = fuels.length ∧ ∀ r ∈ rs, Verdict f c bads (propCnf f) r) := by
  obtain ⟨fm, h1, hfm⟩ := formulas_ok false S
  unfold repeatStateless
  rw [h1]
  show Ends _ (do let r ← (stateless false env sched f fm).proveTimes fuels ⟨[], 0⟩; return r.1) _
  rcases GTri.elim (proveTimes_spec (Stateless.contract (dbg := false) S he hsched hfm) rfl fuels [] (failures_ok fun _ h => h) (.inl rfl))
    (s := ⟨[], 0⟩) rfl with ⟨rs, s', _, e, _, hl, ha⟩ | ⟨e, h, hF⟩
  · rw [e]
    exact ⟨hl, fun r hr => verdict_of_answer (A := stateless false env sched f fm) S hfm (ha r hr)⟩
  · rw [h]; exact hF

theorem repeatStateless_early (dbg : Bool) {env : Env} (he : env.OK) {sched : Sched} (hsched : sched.OK) (S : SmallSys f c bads)
    {e : Nat} (hs : c.Shortest bads e) (h1 : e ≤ 1) (fuels : List Nat) :
    repeatStateless dbg env sched f fuels = .ok (fuels.map fun _ => .ctx e) := by
  obtain ⟨fm, h2, hfm⟩ := formulas_ok dbg S
  unfold repeatStateless
  rw [h2]
  show (do let r ← (stateless dbg env sched f fm).proveTimes fuels ⟨[], 0⟩; return r.1) = _
  rcases GTri.elim (proveTimes_early (Stateless.contract (dbg := dbg) (F := fun _ => False) S he hsched hfm) hs h1 fuels [])
    (s := ⟨[], 0⟩) rfl with ⟨rs, s', _, e, _, rfl⟩ | ⟨e, h, hF⟩
  · rw [e]; rfl
  · exact hF.elim

theorem repeatStateless_debug {env : Env} (he : env.OK) {sched : Sched} (hsched : sched.OK) (S : SmallSys f c bads)
    (h0 : ¬ c.UnsafeAt bads 0) (h1 : ¬ c.UnsafeAt bads 1) {n : Nat} {r : ProofResult} (m : Nat) (ns : List Nat)
    (hr : proveStateless true env sched f n = .ok r) :
    repeatStateless true env sched f (n :: (m + 1) :: ns) = .error (.panic "ic3_stateless_solver.rs:420") := by
  obtain ⟨fm, h2, hfm⟩ := formulas_ok true S
  unfold proveStateless at hr
  unfold repeatStateless
  rw [h2] at hr ⊢
  replace hr : (do let r ← (stateless true env sched f fm).prove n ⟨[], 0⟩; return r.1) = .ok r := hr
  show (do let r ← (stateless true env sched f fm).proveTimes (n :: (m + 1) :: ns) ⟨[], 0⟩; return r.1) = _
  unfold proveTimes
  rcases GTri.elim (prove_spec (Stateless.contract (dbg := true) (F := Failure c bads n) S he hsched hfm) (depthOK fun _ h => h) n (fuelOK fun _ h => h)
    (.inl rfl) fun _ => rfl) (s := ⟨[], 0⟩) rfl with ⟨r', s', fs, e, hI, _, hu⟩ | ⟨e, h, _⟩
  · have h3 := prove_again (Stateless.contract (dbg := true) (F := fun e => e = .panic "ic3_stateless_solver.rs:420") S he hsched hfm) rfl
      (fun {fs k s} hs hne => Stateless.enterFrame_fails (by have hs' : s.clauses = fs := hs; rwa [hs'])) h0 h1 hu m
    rcases GTri.elim h3 (s := s') hI with ⟨_, _, _, _, _, h⟩ | ⟨e', h, rfl⟩
    · exact h.elim
    · unfold proveTimes
      show (do
        let r ← (do
          let r ← (stateless true env sched f fm).prove n ⟨[], 0⟩
          let rs ← (do
            let r' ← (stateless true env sched f fm).prove (m + 1) r.2
            let rs ← (stateless true env sched f fm).proveTimes ns r'.2
            return (r'.1 :: rs.1, rs.2) : Res (List ProofResult × Stateless))
          return (r.1 :: rs.1, rs.2) : Res (List ProofResult × Stateless))
        return r.1) = _
      rw [e]
      show (do
        let r ← (do
          let rs ← (do
            let r' ← (stateless true env sched f fm).prove (m + 1) s'
            let rs ← (stateless true env sched f fm).proveTimes ns r'.2
            return (r'.1 :: rs.1, rs.2) : Res (List ProofResult × Stateless))
          return (r' :: rs.1, rs.2) : Res (List ProofResult × Stateless))
        return r.1) = _
      rw [h]
      rfl
  · rw [h] at hr; cases hr

/-! ## `IC3Stateful` -/

theorem Stateful.enterFrame_fails {I : StatefulImpl} {sched : Sched} {fm : Formulas} {k : Nat} {s : Stateful I} (h : s.clauses.length ≠ k + 2) :
    (stateful true I sched f fm).enterFrame k s = .error (.panic "ic3_stateful_solver.rs:502") := by
  have h1 : debugAssertR true "ic3_stateful_solver.rs:502" (s.clauses.length == k + 2) = .error (.panic "ic3_stateful_solver.rs:502") := by
    rw [show (s.clauses.length == k + 2) = false by simpa using h]
    rfl
  unfold stateful
  dsimp only
  rw [run_get_bind, h1]
  rfl

theorem Stateful.inv_start {I : StatefulImpl} {G : Err → Prop} (O : I.OK G) {fm : Formulas} {x : I.S} (hrep : O.Rep x ([] ++ fm.initial.clauses)) :
    Stateful.Inv O fm (⟨[], [], x, [], 0⟩ : Stateful I) [] :=
  ⟨rfl, rfl, rfl, fun i y h => by simp at h, fun i y h => by simp at h, _, hrep, fun d => by simp⟩

theorem repeatStateful_ends {I : StatefulImpl} {G : Err → Prop} (O : I.OK G) {sched : Sched} (hsched : sched.OK)
    (S : SmallSys f c bads) (fuels : List Nat) :
    Ends (fun e => Failures c bads fuels e ∨ G e) (repeatStateful false I sched f fuels)
      (fun rs => rs.length = fuels.length ∧ ∀ r ∈ rs, Verdict f c bads (propCnf f) r) := by
  obtain ⟨fm, h1, hfm⟩ := formulas_ok false S
  have hinit : f.getInitialRelation.toCnf = fm.initial := hfm.initial.symm
  have hr : fm.initial.Ready := by
    rw [hfm.initial]
    exact (Enc.initial S.laws).ready S.small
  have O' := O.weaken (F' := fun e => Failures c bads fuels e ∨ G e) fun _ h => .inr h
  unfold repeatStateful
  rw [h1, hinit]
  show Ends _ (do
      let initialSolver ← I.addCnf fm.initial I.new
      let r ← (stateful false I sched f fm).proveTimes fuels ⟨[], [], initialSolver, [], 0⟩
      return r.1) _
  refine Ends.bind (Stateful.addCnf_ok O' O'.new hr) fun x _ hrep => ?_
  rcases GTri.elim (proveTimes_spec (Stateful.contract (dbg := false) S O' hsched hfm) rfl fuels [] (failures_ok fun _ h => .inl h) (.inl rfl))
    (s := (⟨[], [], x, [], 0⟩ : Stateful I)) (Stateful.inv_start O' hrep) with ⟨rs, s', _, e, _, hl, ha⟩ | ⟨e, h, hF⟩
  · rw [e]
    exact ⟨hl, fun r hr => verdict_of_answer (A := stateful false I sched f fm) S hfm (ha r hr)⟩
  · rw [h]; exact hF

theorem repeatStateful_early (dbg : Bool) {I : StatefulImpl} {G : Err → Prop} (O : I.OK G) {sched : Sched} (hsched : sched.OK)
    (S : SmallSys f c bads) {e : Nat} (hs : c.Shortest bads e) (h1 : e ≤ 1) (fuels : List Nat) :
    Ends G (repeatStateful dbg I sched f fuels) (fun rs => rs = fuels.map fun _ => .ctx e) := by
  obtain ⟨fm, h2, hfm⟩ := formulas_ok dbg S
  have hinit : f.getInitialRelation.toCnf = fm.initial := hfm.initial.symm
  have hr : fm.initial.Ready := by
    rw [hfm.initial]
    exact (Enc.initial S.laws).ready S.small
  unfold repeatStateful
  rw [h2, hinit]
  show Ends _ (do
      let initialSolver ← I.addCnf fm.initial I.new
      let r ← (stateful dbg I sched f fm).proveTimes fuels ⟨[], [], initialSolver, [], 0⟩
      return r.1) _
  refine Ends.bind (Stateful.addCnf_ok O O.new hr) fun x _ hrep => ?_
  rcases GTri.elim (proveTimes_early (Stateful.contract (dbg := dbg) S O hsched hfm) hs h1 fuels [])
    (s := (⟨[], [], x, [], 0⟩ : Stateful I)) (Stateful.inv_start O hrep) with ⟨rs, s', _, e, _, rfl⟩ | ⟨e, h, hF⟩
  · rw [e]; rfl
  · rw [h]; exact hF

theorem repeatStateful_debug {I : StatefulImpl} {G : Err → Prop} (O : I.OK G) {sched : Sched} (hsched : sched.OK) (S : SmallSys f c bads)
    (h0 : ¬ c.UnsafeAt bads 0) (h1 : ¬ c.UnsafeAt bads 1) {n : Nat} {r : ProofResult} (m : Nat) (ns : List Nat)
    (hrun : proveStateful true I sched f n = .ok r) :
    Ends (fun e => e = .panic "ic3_stateful_solver.rs:502" ∨ G e) (repeatStateful true I sched f (n :: (m + 1) :: ns)) (fun _ => False) := by
  obtain ⟨fm, h2, hfm⟩ := formulas_ok true S
  have hinit : f.getInitialRelation.toCnf = fm.initial := hfm.initial.symm
  have hr : fm.initial.Ready := by
    rw [hfm.initial]
    exact (Enc.initial S.laws).ready S.small
  unfold proveStateful at hrun
  unfold repeatStateful
  rw [h2, hinit] at hrun ⊢
  replace hrun : (do
      let initialSolver ← I.addCnf fm.initial I.new
      let r ← (stateful true I sched f fm).prove n ⟨[], [], initialSolver, [], 0⟩
      return r.1) = .ok r := hrun
  show Ends _ (do
      let initialSolver ← I.addCnf fm.initial I.new
      let r ← (stateful true I sched f fm).proveTimes (n :: (m + 1) :: ns) ⟨[], [], initialSolver, [], 0⟩
      return r.1) _
  refine Ends.bind ((Stateful.addCnf_ok O O.new hr).mono (fun _ h => .inr h) fun _ h => h) fun x hx hrep => ?_
  rw [hx] at hrun
  replace hrun : (do
      let r ← (stateful true I sched f fm).prove n ⟨[], [], x, [], 0⟩
      return r.1) = .ok r := hrun
  rcases GTri.elim (prove_spec (Stateful.contract (dbg := true) S (O.weaken (F' := fun e => Failure c bads n e ∨ G e) fun _ h => .inr h) hsched hfm)
    (depthOK (fuel := n) fun _ h => .inl h) n (fuelOK (F := fun e => Failure c bads n e ∨ G e) fun _ h => .inl h) (.inl rfl) fun _ => rfl)
    (s := (⟨[], [], x, [], 0⟩ : Stateful I)) (Stateful.inv_start _ hrep) with ⟨r', s', fs, e, hI, _, hu⟩ | ⟨e, h, _⟩
  · have h3 := prove_again (Stateful.contract (dbg := true) S
      (O.weaken (F' := fun e => e = .panic "ic3_stateful_solver.rs:502" ∨ G e) fun _ h => .inr h) hsched hfm) (.inl rfl)
      (fun {fs k s} hs hne => Stateful.enterFrame_fails (by rwa [Stateful.Inv.clauses hs])) h0 h1 hu m
    have hI' : Stateful.Inv (O.weaken (F' := fun e => e = .panic "ic3_stateful_solver.rs:502" ∨ G e) fun _ h => .inr h) fm s' fs :=
      ⟨hI.clauses, hI.lenA, hI.lenB, hI.fiT, hI.fiP, hI.init⟩
    rcases GTri.elim h3 (s := s') hI' with ⟨_, _, _, _, _, h⟩ | ⟨e', h, hG⟩
    · exact h.elim
    · unfold proveTimes
      unfold proveTimes
      show Ends _ (do
        let r ← (do
          let r ← (stateful true I sched f fm).prove n ⟨[], [], x, [], 0⟩
          let rs ← (do
            let r' ← (stateful true I sched f fm).prove (m + 1) r.2
            let rs ← (stateful true I sched f fm).proveTimes ns r'.2
            return (r'.1 :: rs.1, rs.2) : Res (List ProofResult × Stateful I))
          return (r.1 :: rs.1, rs.2) : Res (List ProofResult × Stateful I))
        return r.1) _
      rw [e]
      show Ends _ (do
        let r ← (do
          let rs ← (do
            let r' ← (stateful true I sched f fm).prove (m + 1) s'
            let rs ← (stateful true I sched f fm).proveTimes ns r'.2
            return (r'.1 :: rs.1, rs.2) : Res (List ProofResult × Stateful I))
          return (r' :: rs.1, rs.2) : Res (List ProofResult × Stateful I))
        return r.1) _
      rw [h]
      exact hG
  · rw [h] at hrun; cases hrun

end Verif.IC3
