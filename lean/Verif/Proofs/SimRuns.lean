import Verif.Proofs.SimIc3

/-! # Related runs of the two IC3 provers, of `check_invariant` and of bounded model checking -/

namespace Verif

variable {F : Err → Prop} {S : List Nat}

/-- Two environments that differ only in how the solver fails. -/
structure Env.Like (F : Err → Prop) (env env' : Env) : Prop where
  solve : ∀ t g, Follows F (env.solve t g) (env'.solve t g)
  order : env.order = env'.order
  shuffle : env.shuffle = env'.shuffle

theorem Env.Like.refl (env : Env) : Env.Like F env env := ⟨fun _ _ => Follows.refl _, rfl, rfl⟩

/-- Two environments that differ only in how the solver fails and in how many variables its answers value. -/
structure Env.Near (F : Err → Prop) (S : List Nat) (env env' : Env) : Prop where
  solve : ∀ t g, Both F (SatResponse.Near F S) (env.solve t g) (env'.solve t g)
  order : env.order = env'.order
  shuffle : env.shuffle = env'.shuffle

theorem Env.Like.near {env env' : Env} (h : Env.Like F env env') : Env.Near F S env env' := by
  refine ⟨fun t g => ?_, h.order, h.shuffle⟩
  have := h.solve t g
  cases e : env.solve t g with
  | ok a => exact ⟨a, this.ok e, .refl a⟩
  | error x => exact this.error e

/-- Two stateful solvers with related states, the second of which does what the first does. -/
structure StatefulImpl.LikeAt (F : Err → Prop) (S : List Nat) (T : Nat → Nat → Prop) (I J : StatefulImpl) (r : I.S → J.S → Prop) : Prop where
  new : r I.new J.new
  addCnf : ∀ g s t, r s t → Both F r (I.addCnf g s) (J.addCnf g t)
  solve : ∀ n m, T n m → ∀ cube clause s t, r s t →
    Both F (fun p q => p.1.Near F S q.1 ∧ r p.2 q.2) (I.solve n cube clause s) (J.solve m cube clause t)

/-- The same with calls at the same moments. -/
abbrev StatefulImpl.Like (F : Err → Prop) (S : List Nat) (I J : StatefulImpl) (r : I.S → J.S → Prop) : Prop := StatefulImpl.LikeAt F S (fun n m => n = m) I J r

theorem Both.of_follows {α : Type} {x y : Res α} (h : Follows F x y) : Both F (fun a b => a = b) x y := by
  cases x with
  | ok a => exact ⟨a, h, rfl⟩
  | error e => exact h

theorem StatefulImpl.Like.refl (I : StatefulImpl) : StatefulImpl.Like F S I I (fun s t => s = t) where
  new := rfl
  addCnf := by rintro g s _ rfl; exact Both.of_follows (Follows.refl _)
  solve := by
    rintro n _ rfl cube clause s _ rfl
    cases I.solve n cube clause s with
    | ok p => exact ⟨p, rfl, .refl _, rfl⟩
    | error e => exact .inr rfl

theorem MiniSat.likeAt (T : Nat → Nat → Prop) (be : MsBackend) (hT : ∀ n m, T n m → be n = be m) :
    StatefulImpl.LikeAt Any S T (MiniSat.impl true be) (MiniSat.impl false be) (fun (s t : MiniSat) => s = t) where
  new := rfl
  addCnf := by rintro g s _ rfl; exact Both.of_follows (Follows.refl _)
  solve := by
    rintro n m hnm cube clause s _ rfl
    have := MiniSat.solve_prof be n cube clause s
    have e : MiniSat.solve false be m cube clause s = MiniSat.solve false be n cube clause s := by
      unfold MiniSat.solve MiniSat.solveJustCube MiniSat.handleTemporaryExtraClause MiniSat.solveTranslated
      rw [hT n m hnm]
    show Both Any _ (MiniSat.solve true be n cube clause s) (MiniSat.solve false be m cube clause s)
    rw [e]
    cases h : MiniSat.solve true be n cube clause s with
    | ok p => exact ⟨p, this.ok h, .refl _, rfl⟩
    | error e => exact .inl trivial

theorem MiniSat.like (be : MsBackend) : StatefulImpl.Like Any S (MiniSat.impl true be) (MiniSat.impl false be) (fun (s t : MiniSat) => s = t) :=
  MiniSat.likeAt _ be fun _ _ h => congrArg be h

theorem CaDiCal.likeAt (T : Nat → Nat → Prop) (be : CdBackend) (hT : ∀ n m, T n m → be n = be m) :
    StatefulImpl.LikeAt Any S T (CaDiCal.impl true be) (CaDiCal.impl false be) (fun (s t : CaDiCal) => s = t) where
  new := rfl
  addCnf := by rintro g s _ rfl; exact Both.of_follows (CaDiCal.addCnf_prof g s)
  solve := by
    rintro n m hnm cube clause s _ rfl
    have := CaDiCal.solve_prof be n cube clause s
    have e : CaDiCal.solve false be m cube clause s = CaDiCal.solve false be n cube clause s := by
      unfold CaDiCal.solve CaDiCal.solveJustCube CaDiCal.handleTemporaryExtraClause CaDiCal.solveTranslated
      rw [hT n m hnm]
    show Both Any _ (CaDiCal.solve true be n cube clause s) (CaDiCal.solve false be m cube clause s)
    rw [e]
    cases h : CaDiCal.solve true be n cube clause s with
    | ok p => exact ⟨p, this.ok h, .refl _, rfl⟩
    | error e => exact .inl trivial

theorem CaDiCal.like (be : CdBackend) : StatefulImpl.Like Any S (CaDiCal.impl true be) (CaDiCal.impl false be) (fun (s t : CaDiCal) => s = t) :=
  CaDiCal.likeAt _ be fun _ _ h => congrArg be h

/-! ## Reading the first component of a run -/

theorem Sim.outcome {α σ τ : Type} {R : σ → τ → Prop} {x : StateT σ Res α} {y : StateT τ Res α} {s : σ} {t : τ} (h : Sim F R R x y) (hs : R s t) :
    Follows F (x s >>= fun r => Pure.pure r.1) (y t >>= fun r => Pure.pure r.1) := by
  have h1 := h s t hs
  match hx : x s, h1 with
  | .ok (a, s'), h1 =>
    obtain ⟨t', e, _⟩ := h1
    rw [e]; rfl
  | .error e, h1 =>
    rcases h1 with h1 | h1
    · exact .inl h1
    · rw [h1]; exact .inr rfl

namespace IC3

theorem formulas_prof {d d' : Bool} (h : Prof F d d') (f : Fsts) : Follows F (formulas d f) (formulas d' f) :=
  (Fsts.addTagsToRelation_prof h f _ _).bind fun _ => Follows.refl _

/-! ## `IC3Stateless` -/

namespace Stateless

abbrev Same (s t : Stateless) : Prop := s = t

theorem satCall_sim {env env' : Env} (h : Env.Near F S env env') (g : CNF) : SimV F (SatResponse.Near F S) Same Same (satCall env g) (satCall env' g) := by
  rintro s _ rfl
  have := h.solve s.tick g
  show RelV F (SatResponse.Near F S) Same (Except.bind (env.solve s.tick g) _) (Except.bind (env'.solve s.tick g) _)
  match hx : env.solve s.tick g, this with
  | .ok a, ⟨b, e, hab⟩ => rw [e]; exact ⟨b, _, rfl, hab, rfl⟩
  | .error e, h1 =>
    rcases h1 with h1 | h1
    · exact .inl h1
    · rw [h1]; exact .inr rfl

theorem self_sim {α : Type} (x : StateT Stateless Res α) : Sim F Same Same x x := by
  rintro s _ rfl
  cases hx : x s with
  | ok p => exact ⟨p.2, rfl, rfl⟩
  | error e => exact .inr rfl

theorem near_sim {α : Type} {k : SatResponse → StateT Stateless Res α} (hk : ∀ a b, k (.sat a) = k (.sat b)) (r r' : SatResponse)
    (hr : r.Near F S r') : Sim F Same Same (k r) (k r') := by
  match r, r', hr with
  | .sat a, .sat b, _ => rw [hk a b]; exact self_sim _
  | .unsat, .unsat, _ => exact self_sim _

theorem like {d d' : Bool} (hp : Prof F d d') {env env' : Env} (sched : Sched) (f : Fsts) (he : Env.Near F f.stateLits env env') (fm : Formulas) :
    Like F Same (stateless d env sched f fm) (stateless d' env' sched f fm) where
  fsts := rfl
  forms := rfl
  prof := hp
  clauses := by rintro s _ rfl; rfl
  tick := fun x y h => Sim.bind (self_sim _) fun t => h t t rfl
  addClause := fun _ _ => self_sim _
  pushFrame := self_sim _
  enterFrame := fun k => by
    refine Sim.read fun s t hs => ?_
    cases hs
    exact (Sim.lift (debugAssertR_follows hp _ _)).pre (by rintro _ _ ⟨rfl, rfl⟩; rfl)
  badIn0 := satCall_sim he _
  badIn1 := satCall_sim he _
  badFrom := fun k => (self_sim _).bindV fun _ => satCall_sim he _
  cubeReach := fun i s => (self_sim _).bindV fun _ => (Sim.lift (Fsts.addTagsToRelation_prof hp f _ _)).bindV fun _ => satCall_sim he _
  cubeReachNew := fun i s => (self_sim _).bind fun _ => (Sim.lift (Fsts.addTagsToRelation_prof hp f _ _)).bind fun _ =>
    (satCall_sim he _).bind (near_sim fun _ _ => rfl)
  clauseInductive := fun d i => by
    refine (satCall_sim he _).bind fun r r' hr => ?_
    match r, r', hr with
    | .sat a, .sat b, _ => exact self_sim _
    | .unsat, .unsat, _ => exact (self_sim _).bind fun _ => (Sim.lift (Fsts.addTagsToRelation_prof hp f _ _)).bind fun _ =>
        (satCall_sim he _).bind (near_sim fun _ _ => rfl)

end Stateless

theorem proveStateless_near {d d' : Bool} (hp : Prof F d d') {env env' : Env} (sched : Sched) (f : Fsts)
    (he : Env.Near F f.stateLits env env') {n m : Nat} (hf : FuelLe F n m) : Follows F (proveStateless d env sched f n) (proveStateless d' env' sched f m) :=
  (formulas_prof hp f).bind fun fm => Sim.outcome ((Stateless.like hp sched f he fm).prove hf) rfl

theorem proveStateless_follows {d d' : Bool} (hp : Prof F d d') {env env' : Env} (he : Env.Like F env env') (sched : Sched) (f : Fsts)
    {n m : Nat} (hf : FuelLe F n m) : Follows F (proveStateless d env sched f n) (proveStateless d' env' sched f m) :=
  proveStateless_near hp sched f he.near hf

/-! ## `IC3Stateful` -/

namespace Stateful

variable {I J : StatefulImpl} {T : Nat → Nat → Prop} {r r0 : I.S → J.S → Prop}

/-- Same frames, related solvers; `r0` relates the solvers for the initial states, `T` the call counters. -/
structure Same (T : Nat → Nat → Prop) (r r0 : I.S → J.S → Prop) (s : Stateful I) (t : Stateful J) : Prop where
  clauses : s.clauses = t.clauses
  fiAndT : Each r s.fiAndT t.fiAndT
  initialSolver : r0 s.initialSolver t.initialSolver
  fiAndTAndNotP : Each r s.fiAndTAndNotP t.fiAndTAndNotP
  tick : T s.tick t.tick

/-- The counters stay related. -/
def Steps (T : Nat → Nat → Prop) : Prop := ∀ n m, T n m → T (n + 1) (m + 1)

theorem at_same {s : Stateful I} {t : Stateful J} (h : Same T r r0 s t) : ∀ (s' : Stateful I) (t' : Stateful J), s' = s ∧ t' = t → Same T r r0 s' t' := by
  rintro _ _ ⟨rfl, rfl⟩; exact h

theorem next_sim (hT : Steps T) {α : Type} (x : Nat → StateT (Stateful I) Res α) (y : Nat → StateT (Stateful J) Res α)
    (h : ∀ n m, T n m → Sim F (Same T r r0) (Same T r r0) (x n) (y m)) : Sim F (Same T r r0) (Same T r r0) (next >>= x) (next >>= y) := by
  intro s t hs
  exact h s.tick t.tick hs.tick { s with tick := s.tick + 1 } { t with tick := t.tick + 1 }
    ⟨hs.clauses, hs.fiAndT, hs.initialSolver, hs.fiAndTAndNotP, hT _ _ hs.tick⟩

theorem next_simV (hT : Steps T) {α β : Type} {V : α → β → Prop} (x : Nat → StateT (Stateful I) Res α) (y : Nat → StateT (Stateful J) Res β)
    (h : ∀ n m, T n m → SimV F V (Same T r r0) (Same T r r0) (x n) (y m)) : SimV F V (Same T r r0) (Same T r r0) (next >>= x) (next >>= y) := by
  intro s t hs
  exact h s.tick t.tick hs.tick { s with tick := s.tick + 1 } { t with tick := t.tick + 1 }
    ⟨hs.clauses, hs.fiAndT, hs.initialSolver, hs.fiAndTAndNotP, hT _ _ hs.tick⟩

variable (L : StatefulImpl.LikeAt F S T I J r)
include L

theorem addClause_sim {d d' : Bool} (hp : Prof F d d') (j : Nat) (c : Clause) :
    Sim F (Same T r r0) (Same T r r0) (addClause (I := I) d j c) (addClause (I := J) d' j c) := by
  refine Sim.read fun s t h => ?_
  rw [h.clauses, h.fiAndT.1, h.fiAndTAndNotP.1]
  refine (Sim.lift (debugAssertR_follows hp _ _)).bind fun _ => (Sim.lift (debugAssertR_follows hp _ _)).bind fun _ => Sim.same.bind fun g =>
    Sim.both (h.fiAndT.index _ j) fun a b hab =>
    Sim.both (L.addCnf _ a b hab) fun a b hab => Sim.both (h.fiAndTAndNotP.index _ j) fun a' b' hab' =>
    Sim.both (L.addCnf _ a' b' hab') fun a' b' hab' => Sim.set ?_
  exact ⟨rfl, h.fiAndT.set hab j, h.initialSolver, h.fiAndTAndNotP.set hab' j, h.tick⟩

theorem pushFrame_sim {d d' : Bool} (hp : Prof F d d') (fm : Formulas) :
    Sim F (Same T r r0) (Same T r r0) (pushFrame (I := I) d fm) (pushFrame (I := J) d' fm) := by
  refine Sim.read fun s t h => ?_
  rw [h.clauses, h.fiAndT.1, h.fiAndTAndNotP.1, h.fiAndT.isEmpty]
  refine (Sim.lift (debugAssertR_follows hp _ _)).bind fun _ => (Sim.lift (debugAssertR_follows hp _ _)).bind fun _ =>
    Sim.both (L.addCnf _ _ _ L.new) fun a b hab =>
    Sim.both (L.addCnf _ _ _ L.new) fun a' b' hab' => Sim.both (L.addCnf _ a' b' hab') fun a' b' hab' =>
    Sim.both (L.addCnf _ a b hab) fun a b hab => Sim.both (L.addCnf _ a' b' hab') fun a' b' hab' => Sim.set ?_
  exact ⟨rfl, h.fiAndT.snoc hab, h.initialSolver, h.fiAndTAndNotP.snoc hab', h.tick⟩

theorem callCustom_sim (hT : Steps T) (g : CNF) : SimV F (SatResponse.Near F S) (Same T r r0) (Same T r r0) (callCustom (I := I) g) (callCustom (I := J) g) := by
  refine next_simV hT _ _ fun n m hnm => SimV.both (L.addCnf _ _ _ L.new) fun a b hab => SimV.both (L.solve n m hnm none none a b hab) fun p q hpq => ?_
  obtain ⟨x, y⟩ := p
  obtain ⟨x', y'⟩ := q
  obtain ⟨e, _⟩ := hpq
  exact SimV.pure e

theorem callInitial_sim (hT : Steps T) (cube : Option Cube) (clause : Option Clause) :
    SimV F (SatResponse.Near F S) (Same T r r) (Same T r r) (callInitial (I := I) cube clause) (callInitial (I := J) cube clause) := by
  refine next_simV hT _ _ fun n m hnm => SimV.read fun s t h => SimV.both (L.solve n m hnm cube clause _ _ h.initialSolver) fun p q hpq => ?_
  obtain ⟨x, y⟩ := p
  obtain ⟨x', y'⟩ := q
  obtain ⟨e, hy⟩ := hpq
  refine Sim.bindV (S := Same T r r) (Sim.set ?_) fun _ => SimV.pure e
  exact ⟨h.clauses, h.fiAndT, hy, h.fiAndTAndNotP, h.tick⟩

theorem callFiAndT_sim (hT : Steps T) (j : Nat) (cube : Option Cube) (clause : Option Clause) :
    SimV F (SatResponse.Near F S) (Same T r r0) (Same T r r0) (callFiAndT (I := I) j cube clause) (callFiAndT (I := J) j cube clause) := by
  refine next_simV hT _ _ fun n m hnm => SimV.read fun s t h => SimV.both (h.fiAndT.index _ j) fun a b hab =>
    SimV.both (L.solve n m hnm cube clause _ _ hab) fun p q hpq => ?_
  obtain ⟨x, y⟩ := p
  obtain ⟨x', y'⟩ := q
  obtain ⟨e, hy⟩ := hpq
  refine Sim.bindV (S := Same T r r0) (Sim.set ?_) fun _ => SimV.pure e
  exact ⟨h.clauses, h.fiAndT.set hy j, h.initialSolver, h.fiAndTAndNotP, h.tick⟩

theorem callNotP_sim (hT : Steps T) (j : Nat) (cube : Option Cube) (clause : Option Clause) :
    SimV F (SatResponse.Near F S) (Same T r r0) (Same T r r0) (callNotP (I := I) j cube clause) (callNotP (I := J) j cube clause) := by
  refine next_simV hT _ _ fun n m hnm => SimV.read fun s t h => SimV.both (h.fiAndTAndNotP.index _ j) fun a b hab =>
    SimV.both (L.solve n m hnm cube clause _ _ hab) fun p q hpq => ?_
  obtain ⟨x, y⟩ := p
  obtain ⟨x', y'⟩ := q
  obtain ⟨e, hy⟩ := hpq
  refine Sim.bindV (S := Same T r r0) (Sim.set ?_) fun _ => SimV.pure e
  exact ⟨h.clauses, h.fiAndT, h.initialSolver, h.fiAndTAndNotP.set hy j, h.tick⟩

theorem cubeReachNew_sim (hT : Steps T) {d d' : Bool} (hp : Prof F d d') (f : Fsts) (i : Nat) (s : Cube) :
    Sim F (Same T r r0) (Same T r r0) (cubeReachNew (I := I) d f i s) (cubeReachNew (I := J) d' f i s) := by
  refine (Sim.lift (Fsts.addTagsToCube_prof hp f _ _)).bind fun _ => (callFiAndT_sim L hT i _ _).bind fun a b hab => ?_
  match a, b, hab with
  | .sat _, .sat _, _ => exact Sim.pure _
  | .unsat, .unsat, _ => exact Sim.pure _

theorem clauseTagSat_sim (hT : Steps T) {d d' : Bool} (hp : Prof F d d') (f : Fsts) (i : Nat) (c : Clause) :
    Sim F (Same T r r0) (Same T r r0) (clauseTagSat (I := I) d f i c) (clauseTagSat (I := J) d' f i c) := by
  refine (Sim.lift (Fsts.addTagsToCube_prof hp f _ _)).bind fun _ => (callFiAndT_sim L hT i _ _).bind fun a b hab => ?_
  match a, b, hab with
  | .sat _, .sat _, _ => exact Sim.pure _
  | .unsat, .unsat, _ => exact Sim.pure _

theorem intersectsInitial_sim (hT : Steps T) (c : Cube) :
    Sim F (Same T r r) (Same T r r) (intersectsInitial (I := I) c) (intersectsInitial (I := J) c) := by
  refine (callInitial_sim L hT _ _).bind fun a b hab => ?_
  match a, b, hab with
  | .sat _, .sat _, _ => exact Sim.pure _
  | .unsat, .unsat, _ => exact Sim.pure _

theorem clauseInductive_sim (hT : Steps T) (d : Bool) (f : Fsts) (c : Clause) (i : Nat) :
    Sim F (Same T r r) (Same T r r) (clauseInductive (I := I) d f c i) (clauseInductive (I := J) d f c i) := by
  unfold clauseInductive
  dsimp only
  split
  · cases d
    · exact Sim.pure _
    · exact (intersectsInitial_sim L hT _).bind fun _ => Sim.same.bind fun _ => Sim.pure _
  · cases d
    · exact (clauseTagSat_sim L hT (Prof.refl _) f i c).bind fun _ => Sim.pure _
    · exact (intersectsInitial_sim L hT _).bind fun _ => Sim.same.bind fun _ => (clauseTagSat_sim L hT (Prof.refl _) f i c).bind fun _ => Sim.pure _

omit L in
theorem like (f : Fsts) (L : StatefulImpl.LikeAt F f.stateLits T I J r) (hT : Steps T) {d d' : Bool} (hp : Prof F d d') (sched : Sched)
    (hS : ∀ n m, T n m → sched.At n = sched.At m) (fm : Formulas)
    (hci : ∀ c i, Sim F (Same T r r0) (Same T r r0) (clauseInductive (I := I) d f c i) (clauseInductive (I := J) d' f c i)) :
    Like F (Same T r r0) (stateful d I sched f fm) (stateful d' J sched f fm) where
  fsts := rfl
  forms := rfl
  prof := hp
  clauses := fun s t h => h.clauses
  tick := fun x y h => next_sim hT x y fun n m hnm => h n m (hS n m hnm)
  addClause := fun j c => addClause_sim L hp j c
  pushFrame := pushFrame_sim L hp fm
  enterFrame := fun k => by
    refine Sim.read fun s t h => ?_
    rw [h.clauses]
    refine (Sim.lift (debugAssertR_follows hp _ _)).bind fun _ => ?_
    refine Sim.pre ?_ (at_same h)
    rcases hp with rfl | ⟨rfl, rfl, hF⟩
    · cases d
      · exact Sim.pure _
      · exact Sim.same.bind fun _ => Sim.same
    · intro s' t' h'
      show Rel F _ (Except.bind (Except.bind (indexR "ic3_stateful_solver.rs:118 index" t.clauses 0) fun a => .ok (a, s'))
        fun p => Except.bind (assertR "ic3_stateful_solver.rs:503" (p.1.len == 0)) fun a => .ok (a, p.2)) (.ok ((), t'))
      cases indexR "ic3_stateful_solver.rs:118 index" t.clauses 0 with
      | error e => exact .inl (hF e)
      | ok g =>
        simp only [Except.bind]
        cases g.len == 0
        · exact .inl (hF _)
        · exact ⟨t', rfl, h'⟩
  badIn0 := callCustom_sim L hT _
  badIn1 := callCustom_sim L hT _
  badFrom := fun k => callNotP_sim L hT k _ _
  cubeReach := fun i s => (Sim.lift (Fsts.addTagsToCube_prof hp f _ _)).bindV fun _ => callFiAndT_sim L hT i _ _
  cubeReachNew := fun i s => cubeReachNew_sim L hT hp f i s
  clauseInductive := hci

omit L

/-- The solver that only debug assertions ask. -/
theorem intersectsInitial_skip {P : Stateful I → Stateful J → Prop} (hP : ∀ s t x n, P s t → P { s with initialSolver := x, tick := n } t) (c : Cube)
    {α : Type} {k : Bool → StateT (Stateful I) Res α} {y : StateT (Stateful J) Res α} (h : ∀ b, Sim Any P P (k b) y) :
    Sim Any P P (intersectsInitial (I := I) c >>= k) y := by
  intro s t hs
  show Rel Any P (Except.bind ((intersectsInitial (I := I) c) s) fun p => k p.1 p.2) _
  have key : ∀ b s', intersectsInitial (I := I) c s = .ok (b, s') → P s' t := by
    intro b s' e
    unfold intersectsInitial callInitial next at e
    simp only [bind, StateT.bind, Except.bind, get, getThe, MonadStateOf.get, StateT.get, pure, Except.pure, set, StateT.set, StateT.pure, liftM, monadLift,
      MonadLift.monadLift, StateT.lift] at e
    split at e
    · cases e
    · rename_i v he
      split at he
      · cases he
      · rename_i v' he'
        split at he'
        · cases he'
        · cases he'
          cases he
          rename_i v _
          obtain ⟨x, solver⟩ := v
          cases x <;> (cases e; exact hP _ _ _ _ hs)
  cases e : intersectsInitial (I := I) c s with
  | ok p => exact h p.1 p.2 t (key _ _ e)
  | error x => exact .inl trivial

end Stateful

theorem proveStateful_follows (d : Bool) {I J : StatefulImpl} {r : I.S → J.S → Prop} (sched : Sched)
    (f : Fsts) (L : StatefulImpl.Like F f.stateLits I J r) {n m : Nat} (hf : FuelLe F n m) : Follows F (proveStateful d I sched f n) (proveStateful d J sched f m) := by
  refine Follows.bind_same fun fm => ?_
  have h0 := L.addCnf f.getInitialRelation.toCnf I.new J.new L.new
  have hT : Stateful.Steps (fun n m => n = m) := fun n m h => congrArg (· + 1) h
  match hx : I.addCnf f.getInitialRelation.toCnf I.new, h0 with
  | .ok a, h0 =>
    obtain ⟨b, e, hab⟩ := h0
    rw [e]
    exact Sim.outcome (s := ⟨[], [], a, [], 0⟩) (t := ⟨[], [], b, [], 0⟩)
      ((Stateful.like f L hT (Prof.refl d) sched (fun _ _ h => congrArg _ h) fm (Stateful.clauseInductive_sim L hT d f)).prove hf)
      ⟨rfl, Each.nil, hab, Each.nil, rfl⟩
  | .error e, h0 =>
    rcases h0 with h0 | h0
    · exact .inl h0
    · rw [h0]; exact .inr rfl

/-- Debug and release builds, when neither the solver nor the schedule looks at the clock. -/
theorem proveStateful_prof {I J : StatefulImpl} {r : I.S → J.S → Prop} (f : Fsts)
    (L : StatefulImpl.LikeAt Any f.stateLits (fun _ _ => True) I J r) (sched : Sched) (hS : ∀ n m, sched.At n = sched.At m) (n : Nat) :
    Follows Any (proveStateful true I sched f n) (proveStateful false J sched f n) := by
  refine (formulas_prof Prof.any f).bind fun fm => ?_
  have h0 := L.addCnf f.getInitialRelation.toCnf I.new J.new L.new
  have hT : Stateful.Steps (fun _ _ => True) := fun _ _ _ => trivial
  match hx : I.addCnf f.getInitialRelation.toCnf I.new, h0 with
  | .ok a, h0 =>
    obtain ⟨b, e, hab⟩ := h0
    rw [e]
    refine Sim.outcome (R := Stateful.Same (fun _ _ => True) r (fun _ _ => True)) (s := ⟨[], [], a, [], 0⟩) (t := ⟨[], [], b, [], 0⟩)
      ((Stateful.like f L hT Prof.any sched (fun n m _ => hS n m) fm fun c i => ?_).prove (FuelLe.refl n)) ⟨rfl, Each.nil, trivial, Each.nil, trivial⟩
    unfold Stateful.clauseInductive
    dsimp only
    have hP : ∀ (s : Stateful I) (t : Stateful J) x n, Stateful.Same (fun _ _ => True) r (fun _ _ => True) s t →
      Stateful.Same (fun _ _ => True) r (fun _ _ => True) { s with initialSolver := x, tick := n } t :=
      fun s t x n h => ⟨h.clauses, h.fiAndT, trivial, h.fiAndTAndNotP, trivial⟩
    have ha : ∀ {R : Stateful I → Stateful J → Prop} {α : Type} (site : String) (b : Bool) (x : StateT (Stateful I) Res α) (y : StateT (Stateful J) Res α),
        Sim Any R R x y → Sim Any R R ((liftM (assertR site b) : StateT (Stateful I) Res Unit) >>= fun _ => x) y := by
      intro R α site b x y h
      cases b
      · exact fun _ _ _ => .inl trivial
      · exact h
    split
    · exact Stateful.intersectsInitial_skip hP _ fun b => ha _ _ _ _ (Sim.pure _)
    · exact Stateful.intersectsInitial_skip hP _ fun b => ha _ _ _ _ ((Stateful.clauseTagSat_sim L hT Prof.any f i c).bind fun _ => Sim.pure _)
  | .error e, h0 => exact .inl trivial

end IC3

/-! ## Bounded model checking and `check_invariant`: build profiles -/

abbrev SameTick (s t : Nat) : Prop := s = t

theorem self_sim {α : Type} (x : M α) : Sim F SameTick SameTick x x := by
  rintro s _ rfl
  cases hx : x s with
  | ok p => exact ⟨p.2, rfl, rfl⟩
  | error e => exact .inr rfl

namespace BMC

theorem join_any {x y : Res SatResponse} (h : Follows Any x y) : Follows Any (join x) (join y) := by
  cases x with
  | ok a => rw [show y = .ok a from h]; rfl
  | error e => cases e <;> exact Follows.any_error

variable {d d' : Bool}

theorem satFormula_prof (hp : Prof F d d') (f : Fsts) (initial : Cube) (notP0 tr : CNF) (depth : Nat) :
    Follows F (satFormula d f initial notP0 tr depth) (satFormula d' f initial notP0 tr depth) :=
  (Follows.foldlM (fun _ _ => (Fsts.addTagsToRelation_prof hp f _ _).bind fun _ => Follows.refl _) _ _).bind fun _ =>
    (Fsts.addTagsToRelation_prof hp f _ _).bind fun _ => Follows.refl _

/-- The solver threads end alike. -/
def Joined (F : Err → Prop) (env env' : Env) : Prop := ∀ t g, Follows F (join (env.solve t g)) (join (env'.solve t g))

theorem timedSatCall_sim {env env' : Env} (he : Joined F env env') (clock : Clock) (depth : Nat) (g : CNF) :
    Sim F SameTick SameTick (timedSatCall env clock depth g) (timedSatCall env' clock depth g) := by
  refine (self_sim nextTick).bind fun t => ?_
  split
  · exact (Sim.lift (he t g)).bind fun _ => self_sim _
  · exact self_sim _

theorem searchLoop_sim (hp : Prof F d d') {env env' : Env} (he : Joined F env env') (clock : Clock) (f : Fsts) (initial : Cube) (notP0 tr : CNF)
    (limit n depth : Nat) : Sim F SameTick SameTick (searchLoop d env clock f initial notP0 tr limit n depth)
      (searchLoop d' env' clock f initial notP0 tr limit n depth) := by
  induction n generalizing depth with
  | zero => exact self_sim _
  | succ n ih =>
    unfold searchLoop
    split
    · exact self_sim _
    · refine (Sim.lift (satFormula_prof hp f initial notP0 tr depth)).bind fun g => (timedSatCall_sim he clock depth g).bind fun r => ?_
      match r with
      | .noTimeOut (.sat a) => exact self_sim _
      | .noTimeOut .unsat => exact ih _
      | .timeOut => exact self_sim _

theorem search_sim (hp : Prof F d d') {env env' : Env} (he : Joined F env env') (clock : Clock) (f : Fsts) (limit : Nat) :
    Sim F SameTick SameTick (search d env clock f limit) (search d' env' clock f limit) :=
  (Sim.lift (hp.follows (f := fun d => u32Add d _ _ _) (u32Add_prof _ _ _))).bind fun _ => searchLoop_sim hp he clock f _ _ _ limit _ _

end BMC

theorem solveCnf_sim {env env' : Env} (he : Env.Near F S env env') (g : CNF) : SimV F (SatResponse.Near F S) SameTick SameTick (env.solveCnf g) (env'.solveCnf g) :=
  (self_sim nextTick).bindV fun t => SimV.lift (he.solve t g)

theorem doesAImplyBLoop_sim {env env' : Env} (he : Env.Near F S env env') (a : CNF) (cs : List Clause) :
    Sim F SameTick SameTick (doesAImplyBLoop env a cs) (doesAImplyBLoop env' a cs) := by
  induction cs with
  | nil => exact self_sim _
  | cons c cs ih =>
    refine (solveCnf_sim he _).bind fun r r' hr => ?_
    match r, r', hr with
    | .sat _, .sat _, _ => exact self_sim _
    | .unsat, .unsat, _ => exact ih

theorem doesAImplyB_sim {env env' : Env} (he : Env.Near F S env env') (a b : CNF) :
    Sim F SameTick SameTick (doesAImplyB env a b) (doesAImplyB env' a b) := by
  refine Sim.bind (S := SameTick) ?_ fun _ => doesAImplyBLoop_sim he a _
  unfold Env.iterOrder
  rw [he.order]
  exact self_sim _

theorem isAAndBSatisfiable_sim {env env' : Env} (he : Env.Near F S env env') (a b : CNF) :
    Sim F SameTick SameTick (isAAndBSatisfiable env a b) (isAAndBSatisfiable env' a b) := by
  refine (solveCnf_sim he _).bind fun r r' hr => ?_
  match r, r', hr with
  | .sat _, .sat _, _ => exact self_sim _
  | .unsat, .unsat, _ => exact self_sim _

theorem Fsts.checkInvariant_sim {d d' : Bool} (hp : Prof F d d') {env env' : Env} (he : Env.Near F S env env') (f : Fsts) (inv : CNF) :
    Sim F SameTick SameTick (f.checkInvariant d env inv) (f.checkInvariant d' env' inv) :=
  (doesAImplyB_sim he _ _).bind fun _ => Sim.same.bind fun _ => (Sim.lift (Fsts.addTagsToRelation_prof hp f _ _)).bind fun _ =>
    (Sim.lift (Fsts.addTagsToRelation_prof hp f _ _)).bind fun _ => (doesAImplyB_sim he _ _).bind fun _ => Sim.same.bind fun _ =>
    (isAAndBSatisfiable_sim he _ _).bind fun _ => Sim.same

end Verif
