import Verif.Proofs.CountsIc3

/-! # Counters of SAT calls in the two IC3 provers -/

namespace Verif

theorem u32Add_one (dbg : Bool) (site : String) {n : Nat} (h : n < u32Size) :
    (n + 1 = u32Size ∧ dbg = true ∧ u32Add dbg site n 1 = .error (.panic site)) ∨
    (u32Add dbg site n 1 = .ok ((n + 1) % u32Size) ∧ (dbg = true → n + 1 < u32Size)) := by
  unfold u32Add
  by_cases h1 : n + 1 < u32Size
  · exact .inr ⟨by rw [if_pos h1, Nat.mod_eq_of_lt h1], fun _ => h1⟩
  · rw [if_neg h1]
    cases dbg with
    | false => exact .inr ⟨rfl, by simp⟩
    | true => exact .inl ⟨by omega, rfl, rfl⟩

theorem StatefulImpl.guard_hit {I : StatefulImpl} {p : Nat → Option Cube → Option Clause → Bool} {t : Nat} {cube : Option Cube} {clause : Option Clause}
    (h : p t cube clause = true) (x : I.S) : (I.guard p).solve t cube clause x = .error asked := if_pos (α := Res (SatResponse × I.S)) h

theorem StatefulImpl.guard_miss {I : StatefulImpl} {p : Nat → Option Cube → Option Clause → Bool} {t : Nat} {cube : Option Cube} {clause : Option Clause}
    (h : p t cube clause = false) (x : I.S) : (I.guard p).solve t cube clause x = I.solve t cube clause x :=
  if_neg (α := Res (SatResponse × I.S)) (by rw [h]; exact Bool.false_ne_true)

namespace Counted

variable {σ γ α β : Type}

theorem plain_bind (x : StateT σ Res α) (f : α → StateT σ Res β) : (plain (x >>= f) : StateT (Counted σ γ) Res β) = plain x >>= fun a => plain (f a) := by
  funext s
  show Except.bind (Except.bind (x s.base) fun p => f p.1 p.2) _ =
    Except.bind (Except.bind (x s.base) fun p => Except.ok (p.1, (⟨p.2, s.stats⟩ : Counted σ γ))) fun p => plain (f p.1) p.2
  cases x s.base <;> rfl

theorem plain_pure (a : α) : (plain (Pure.pure a : StateT σ Res α) : StateT (Counted σ γ) Res α) = Pure.pure a := rfl

theorem plain_lift (x : Res α) : (plain (liftM x : StateT σ Res α) : StateT (Counted σ γ) Res α) = liftM x := by
  funext s
  cases x <;> rfl

theorem plain_get (f : σ → StateT σ Res β) :
    (plain ((get : StateT σ Res σ) >>= f) : StateT (Counted σ γ) Res β) = (get : StateT (Counted σ γ) Res (Counted σ γ)) >>= fun s => plain (f s.base) := by
  rw [plain_bind]; rfl

end Counted

namespace IC3

/-! ## `IC3Stateless` -/

namespace Stateless

/-- The counter of `IC3Stateless`. -/
def meter (dbg : Bool) : Meter Stateless Nat Unit (Option Nat) (fun _ => Stateless) where
  none := none
  hit := fun t p => t = some p.1
  free := fun _ _ => False
  err := fun _ => asked
  same := fun _ => ⟨nofun, id⟩
  dbg := dbg
  over := .panic "ic3_stateless_solver.rs:90 overflow"
  clock := Stateless.tick
  view := fun _ s => s
  cnt := fun g _ => g
  good := fun g => g < u32Size
  key := fun _ => True
  count := fun _ => countC dbg

theorem meter_ok (dbg : Bool) : (meter dbg).OK := by
  refine ⟨fun g h _ => h, fun k _ b g (h : g < u32Size) => ?_⟩
  have e : countC dbg ⟨b, g⟩ = (u32Add dbg "ic3_stateless_solver.rs:90 overflow" g 1).map fun n => ((), (⟨b, n⟩ : C)) := by
    show Except.bind (Except.bind (u32Add dbg "ic3_stateless_solver.rs:90 overflow" g 1) fun n => Except.ok (n, _)) _ = _
    cases u32Add dbg "ic3_stateless_solver.rs:90 overflow" g 1 <;> rfl
  rcases u32Add_one dbg "ic3_stateless_solver.rs:90 overflow" h with ⟨h1, h2, h3⟩ | ⟨h1, h2⟩
  · exact .inl ⟨h1, h2, by show countC dbg ⟨b, g⟩ = _; rw [e, h3]; rfl⟩
  · refine .inr ⟨(g + 1) % u32Size, by show countC dbg ⟨b, g⟩ = _; rw [e, h1]; rfl, Nat.mod_lt _ (by decide), h2, rfl, fun k' hk => absurd rfl hk⟩

/-- The environments of the comparison. -/
def envs (env : Env) : Option Nat → Env
  | none => env
  | some n => env.failAt n

variable {dbg : Bool} {env : Env}

theorem satCall_asks (g : CNF) : (meter dbg).Asks () (satCall env g) (fun t => satCall (envs env t) g) := by
  intro s
  have e : ∀ (env : Env), satCall env g s = (env.solve s.tick g).map fun r => (r, { s with tick := s.tick + 1 }) := fun env => by
    show Except.bind (env.solve s.tick g) _ = _
    cases env.solve s.tick g <;> rfl
  rw [e]
  match h : env.solve s.tick g with
  | .ok r =>
    refine ⟨Nat.lt_succ_self _, fun t => .inr ?_⟩
    by_cases ht : t = some s.tick
    · subst ht
      refine .inl ⟨rfl, ?_⟩
      show satCall (env.failAt s.tick) g s = _
      rw [e]
      show Except.map _ (if s.tick = s.tick then _ else _) = _
      rw [if_pos rfl]; rfl
    · refine .inr ⟨ht, ?_⟩
      match t with
      | none =>
        show satCall env g s = _
        rw [e, h]; rfl
      | some n =>
        show satCall (env.failAt n) g s = _
        rw [e]
        show Except.map _ (if s.tick = n then _ else _) = _
        rw [if_neg (fun hc => ht (by rw [← hc])), h]; rfl
  | .error er =>
    show satCall env g s = _
    rw [e, h]; rfl

theorem satCall_runs (g : CNF) : (meter dbg).Runs (satCallC dbg env g) (fun t => satCall (envs env t) g) :=
  (satCall_asks g).runs (meter_ok dbg) trivial

theorem still {α : Type} {z : StateT Stateless Res α} (h : ∀ s a b, z s = .ok (a, b) → s.tick ≤ b.tick) :
    (meter dbg).Runs (Counted.plain z) (fun _ => z) := by
  refine Meter.Still.runs (meter_ok dbg) fun s => ?_
  match e : z s with
  | .ok (a, b) => exact ⟨h s a b e, fun _ => e⟩
  | .error er => exact rfl

theorem getFk_runs (fm : Formulas) (k : Nat) : (meter dbg).Runs (Counted.plain (getFk fm k)) (fun _ => getFk fm k) := by
  rw [show getFk fm k = (get >>= fun s => liftM (indexR "ic3_stateless_solver.rs:102 index" s.clauses k) >>= fun g =>
    Pure.pure (g.append (if k = 0 then fm.initial else fm.p0))) from rfl, Counted.plain_get]
  simp only [Counted.plain_bind, Counted.plain_lift, Counted.plain_pure]
  exact Meter.Runs.read fun s => ((Meter.Runs.lift (meter_ok dbg) _).bind fun _ => Meter.Runs.pure (meter_ok dbg) _) s

theorem counting (dbg : Bool) (env : Env) (sched : Sched) (f : Fsts) (fm : Formulas) :
    Counting (meter dbg) (statelessC dbg env sched f fm) (fun t => stateless dbg (envs env t) sched f fm) where
  ok := meter_ok dbg
  dbg := fun _ => rfl
  fsts := fun _ => rfl
  sched := fun _ => rfl
  forms := fun _ => rfl
  clauses := fun _ _ => rfl
  tick := still fun s a b h => by cases h; exact Nat.le_succ _
  addClause := fun j c => still fun s a b h => by
    have e : addClause j c s = (indexR "ic3_stateless_solver.rs:229 index" s.clauses j).map fun g => ((), { s with clauses := s.clauses.set j (g.addClause c) }) := by
      show Except.bind (Except.bind (indexR "ic3_stateless_solver.rs:229 index" s.clauses j) fun g => Except.ok (g, s)) _ = _
      cases indexR "ic3_stateless_solver.rs:229 index" s.clauses j <;> rfl
    rw [e] at h
    cases hi : indexR "ic3_stateless_solver.rs:229 index" s.clauses j with
    | ok g => rw [hi] at h; cases h; exact Nat.le_refl _
    | error er => rw [hi] at h; cases h
  pushFrame := still fun s a b h => by cases h; exact Nat.le_refl _
  enterFrame := fun k => still fun s a b h => by
    have e : (stateless dbg env sched f fm).enterFrame k s = (debugAssertR dbg "ic3_stateless_solver.rs:420" (s.clauses.length == k + 2)).map fun _ => ((), s) := by
      show (liftM (debugAssertR dbg "ic3_stateless_solver.rs:420" (s.clauses.length == k + 2)) : StateT Stateless Res Unit) s = _
      cases debugAssertR dbg "ic3_stateless_solver.rs:420" (s.clauses.length == k + 2) <;> rfl
    rw [e] at h
    cases hi : debugAssertR dbg "ic3_stateless_solver.rs:420" (s.clauses.length == k + 2) with
    | ok g => rw [hi] at h; cases h; exact Nat.le_refl _
    | error er => rw [hi] at h; cases h
  badIn0 := satCall_runs _
  badIn1 := satCall_runs _
  badFrom := fun k => (getFk_runs fm k).bind fun _ => satCall_runs _
  cubeReach := fun i s => (getFk_runs fm i).bind fun _ => (Meter.Runs.lift (meter_ok dbg) _).bind fun _ => satCall_runs _
  cubeReachNew := fun i s => (getFk_runs fm i).bind fun _ => (Meter.Runs.lift (meter_ok dbg) _).bind fun _ => (satCall_runs _).bind fun r => by
    cases r <;> exact Meter.Runs.pure (meter_ok dbg) _
  clauseInductive := fun d i => (satCall_runs _).bind fun r => by
    cases r with
    | sat a => exact Meter.Runs.pure (meter_ok dbg) _
    | unsat =>
      exact (getFk_runs fm i).bind fun _ => (Meter.Runs.lift (meter_ok dbg) _).bind fun _ => (satCall_runs _).bind fun r => by
        cases r <;> exact Meter.Runs.pure (meter_ok dbg) _

end Stateless

/-! ## `IC3Stateful` -/

namespace Stateful

variable {I : StatefulImpl}

/-- The calls on which the solvers of the comparison fail. -/
def picks : Option Nat → Nat → Option Cube → Option Clause → Bool
  | none, _, _, _ => false
  | some n, t, _, _ => t == n

theorem picks_iff (o : Option Nat) (n : Nat) (cube : Option Cube) (clause : Option Clause) : picks o n cube clause = true ↔ o = some n := by
  match o with
  | none => exact ⟨fun h => Bool.noConfusion h, fun h => by cases h⟩
  | some m =>
    show (n == m) = true ↔ _
    rw [beq_iff_eq]
    exact ⟨fun h => by rw [h], fun h => by injection h with h; exact h.symm⟩

/-- The same object with another solver. -/
def re (p : Nat → Option Cube → Option Clause → Bool) (s : Stateful I) : Stateful (I.guard p) :=
  ⟨s.clauses, s.fiAndT, s.initialSolver, s.fiAndTAndNotP, s.tick⟩

/-- The counter of `IC3Stateful`. -/
def meter (dbg : Bool) (I : StatefulImpl) : Meter (Stateful I) Nat Unit (Option Nat) (fun t => Stateful (I.guard (picks t))) where
  none := none
  hit := fun t p => t = some p.1
  free := fun _ _ => False
  err := fun _ => asked
  same := fun _ => ⟨nofun, id⟩
  dbg := dbg
  over := .panic "ic3_stateful_solver.rs:161 overflow"
  clock := Stateful.tick
  view := fun t s => re (picks t) s
  cnt := fun g _ => g
  good := fun g => g < u32Size
  key := fun _ => True
  count := fun _ => countC dbg

theorem meter_ok (dbg : Bool) (I : StatefulImpl) : (meter dbg I).OK := by
  refine ⟨fun g h _ => h, fun k _ b g (h : g < u32Size) => ?_⟩
  have e : countC dbg ⟨b, g⟩ = (u32Add dbg "ic3_stateful_solver.rs:161 overflow" g 1).map fun n => ((), (⟨b, n⟩ : C I)) := by
    show Except.bind (Except.bind (u32Add dbg "ic3_stateful_solver.rs:161 overflow" g 1) fun n => Except.ok (n, _)) _ = _
    cases u32Add dbg "ic3_stateful_solver.rs:161 overflow" g 1 <;> rfl
  rcases u32Add_one dbg "ic3_stateful_solver.rs:161 overflow" h with ⟨h1, h2, h3⟩ | ⟨h1, h2⟩
  · exact .inl ⟨h1, h2, by show countC dbg ⟨b, g⟩ = _; rw [e, h3]; rfl⟩
  · refine .inr ⟨(g + 1) % u32Size, by show countC dbg ⟨b, g⟩ = _; rw [e, h1]; rfl, Nat.mod_lt _ (by decide), h2, rfl, fun k' hk => absurd rfl hk⟩

/-- A step that prepares a solver and calls it once. -/
theorem asks_of {dbg : Bool} {cube : Option Cube} {clause : Option Clause}
    {z : ∀ I, StateT (Stateful I) Res SatResponse} {prep : ∀ I, Stateful I → Res I.S} {fin : ∀ I, Stateful I → I.S → Stateful I}
    (hz : ∀ I s, z I s = (prep I s).bind fun x => (I.solve s.tick cube clause x).bind fun q => .ok (q.1, fin I s q.2))
    (hp : ∀ I p s, prep (I.guard p) (re p s) = prep I s) (hf : ∀ I p s x, fin (I.guard p) (re p s) x = re p (fin I s x))
    (ht : ∀ I s x, s.tick < (fin I s x).tick) : (meter dbg I).Asks () (z I) (fun t => z (I.guard (picks t))) := by
  intro s
  have bad : ∀ (J : StatefulImpl) (u : Stateful J) er, prep J u = .error er → z J u = .error er := fun J u er h => by rw [hz, h]; rfl
  have stop : ∀ (J : StatefulImpl) (u : Stateful J) x er, prep J u = .ok x → J.solve u.tick cube clause x = .error er → z J u = .error er :=
    fun J u x er h h' => by
      rw [hz, h]
      show Except.bind (J.solve u.tick cube clause x) _ = _
      rw [h']; rfl
  have go : ∀ (J : StatefulImpl) (u : Stateful J) x q, prep J u = .ok x → J.solve u.tick cube clause x = .ok q → z J u = .ok (q.1, fin J u q.2) :=
    fun J u x q h h' => by
      rw [hz, h]
      show Except.bind (J.solve u.tick cube clause x) _ = _
      rw [h']; rfl
  cases h1 : prep I s with
  | error er =>
    rw [bad I s er h1]
    exact bad _ _ _ ((hp I _ s).trans h1)
  | ok x =>
    cases h2 : I.solve s.tick cube clause x with
    | error er =>
      rw [stop I s x er h1 h2]
      exact stop _ (re _ s) x er ((hp I _ s).trans h1) ((StatefulImpl.guard_miss rfl x).trans h2)
    | ok q =>
      rw [go I s x q h1 h2]
      refine ⟨ht I s q.2, fun t => .inr ?_⟩
      by_cases hne : t = some s.tick
      · subst hne
        refine .inl ⟨rfl, ?_⟩
        exact stop _ (re _ s) x asked ((hp I _ s).trans h1) (StatefulImpl.guard_hit ((picks_iff _ _ _ _).2 rfl) x)
      · have hm : picks t s.tick cube clause = false := Bool.eq_false_iff.2 fun hc => hne ((picks_iff _ _ _ _).1 hc)
        exact .inr ⟨hne, (go _ (re _ s) x q ((hp I _ s).trans h1) ((StatefulImpl.guard_miss hm x).trans h2)).trans (congrArg (fun u => Except.ok (q.1, u)) (hf I _ s q.2))⟩

theorem callCustom_asks {dbg : Bool} (g : CNF) : (meter dbg I).Asks () (callCustom g) (fun t => callCustom (I := I.guard (picks t)) g) := by
  refine asks_of (z := fun I => callCustom g) (cube := none) (clause := none) (prep := fun I s => I.addCnf g I.new)
    (fin := fun I s _ => { s with tick := s.tick + 1 }) (fun I s => ?_) (fun _ _ _ => rfl) (fun _ _ _ _ => rfl) (fun _ s _ => Nat.lt_succ_self _)
  show Except.bind (Except.bind (I.addCnf g I.new) fun x => Except.ok (x, _)) _ = _
  cases I.addCnf g I.new with
  | error er => rfl
  | ok x =>
    show Except.bind (Except.bind (I.solve s.tick none none x) fun x => Except.ok (x, _)) _ = Except.bind (I.solve s.tick none none x) _
    cases I.solve s.tick none none x <;> rfl

theorem callInitial_asks {dbg : Bool} (cube : Option Cube) (clause : Option Clause) :
    (meter dbg I).Asks () (callInitial cube clause) (fun t => callInitial (I := I.guard (picks t)) cube clause) := by
  refine asks_of (z := fun I => callInitial cube clause) (cube := cube) (clause := clause) (prep := fun I s => .ok s.initialSolver)
    (fin := fun I s x => { s with tick := s.tick + 1, initialSolver := x }) (fun I s => ?_) (fun _ _ _ => rfl) (fun _ _ _ _ => rfl)
    (fun _ s _ => Nat.lt_succ_self _)
  show Except.bind (Except.bind (I.solve s.tick cube clause s.initialSolver) fun x => Except.ok (x, _)) _ =
    Except.bind (I.solve s.tick cube clause s.initialSolver) _
  cases I.solve s.tick cube clause s.initialSolver <;> rfl

theorem callFiAndT_asks {dbg : Bool} (j : Nat) (cube : Option Cube) (clause : Option Clause) :
    (meter dbg I).Asks () (callFiAndT j cube clause) (fun t => callFiAndT (I := I.guard (picks t)) j cube clause) := by
  refine asks_of (z := fun I => callFiAndT j cube clause) (cube := cube) (clause := clause)
    (prep := fun I s => indexR "ic3_stateful_solver.rs:170 index" s.fiAndT j)
    (fin := fun I s x => { s with tick := s.tick + 1, fiAndT := s.fiAndT.set j x }) (fun I s => ?_) (fun _ _ _ => rfl) (fun _ _ _ _ => rfl)
    (fun _ s _ => Nat.lt_succ_self _)
  show Except.bind (Except.bind (indexR "ic3_stateful_solver.rs:170 index" s.fiAndT j) fun x => Except.ok (x, _)) _ = _
  cases indexR "ic3_stateful_solver.rs:170 index" s.fiAndT j with
  | error er => rfl
  | ok x =>
    show Except.bind (Except.bind (I.solve s.tick cube clause x) fun x => Except.ok (x, _)) _ = Except.bind (I.solve s.tick cube clause x) _
    cases I.solve s.tick cube clause x <;> rfl

theorem callNotP_asks {dbg : Bool} (j : Nat) (cube : Option Cube) (clause : Option Clause) :
    (meter dbg I).Asks () (callNotP j cube clause) (fun t => callNotP (I := I.guard (picks t)) j cube clause) := by
  refine asks_of (z := fun I => callNotP j cube clause) (cube := cube) (clause := clause)
    (prep := fun I s => indexR "ic3_stateful_solver.rs:173 index" s.fiAndTAndNotP j)
    (fin := fun I s x => { s with tick := s.tick + 1, fiAndTAndNotP := s.fiAndTAndNotP.set j x }) (fun I s => ?_) (fun _ _ _ => rfl) (fun _ _ _ _ => rfl)
    (fun _ s _ => Nat.lt_succ_self _)
  show Except.bind (Except.bind (indexR "ic3_stateful_solver.rs:173 index" s.fiAndTAndNotP j) fun x => Except.ok (x, _)) _ = _
  cases indexR "ic3_stateful_solver.rs:173 index" s.fiAndTAndNotP j with
  | error er => rfl
  | ok x =>
    show Except.bind (Except.bind (I.solve s.tick cube clause x) fun x => Except.ok (x, _)) _ = Except.bind (I.solve s.tick cube clause x) _
    cases I.solve s.tick cube clause x <;> rfl

variable {dbg : Bool}

theorem addClause_runs (j : Nat) (c : Clause) :
    (meter dbg I).Runs (Counted.plain (addClause dbg j c)) (fun t => addClause (I := I.guard (picks t)) dbg j c) := by
  unfold addClause
  rw [Counted.plain_get]
  simp only [Counted.plain_bind, Counted.plain_lift]
  have hM := meter_ok dbg I
  refine Meter.Runs.read fun s => Meter.At.lift fun _ => Meter.At.lift fun _ => Meter.At.lift fun g => Meter.At.lift fun a => Meter.At.lift fun a' =>
    Meter.At.lift fun b => Meter.At.lift fun b' => Meter.At.plainSet hM ?_ ?_
  · exact Nat.le_refl _
  · exact fun _ => rfl

theorem pushFrame_runs (fm : Formulas) :
    (meter dbg I).Runs (Counted.plain (pushFrame dbg fm)) (fun t => pushFrame (I := I.guard (picks t)) dbg fm) := by
  unfold pushFrame
  rw [Counted.plain_get]
  simp only [Counted.plain_bind, Counted.plain_lift]
  have hM := meter_ok dbg I
  refine Meter.Runs.read fun s => Meter.At.lift fun _ => Meter.At.lift fun _ => Meter.At.lift fun a => Meter.At.lift fun b => Meter.At.lift fun b' =>
    Meter.At.lift fun a' => Meter.At.lift fun b'' => Meter.At.plainSet hM ?_ ?_
  · exact Nat.le_refl _
  · exact fun _ => rfl

theorem next_runs : (meter dbg I).Runs (Counted.plain next) (fun t => next (I := I.guard (picks t))) :=
  Meter.Still.runs (meter_ok dbg I) fun _ => ⟨Nat.le_succ _, fun _ => rfl⟩

theorem enterFrame_runs (sched : Sched) (f : Fsts) (fm : Formulas) (k : Nat) : (meter dbg I).Runs (Counted.plain ((stateful dbg I sched f fm).enterFrame k))
    (fun t => (stateful dbg (I.guard (picks t)) sched f fm).enterFrame k) := by
  unfold stateful
  dsimp only
  rw [Counted.plain_get]
  simp only [Counted.plain_bind, Counted.plain_lift]
  have hM := meter_ok dbg I
  refine Meter.Runs.read fun s => Meter.At.lift fun _ => ?_
  cases dbg with
  | false => exact Meter.At.pure hM s _
  | true =>
    simp only [if_true, Counted.plain_bind, Counted.plain_lift]
    exact Meter.At.lift fun _ => Meter.Runs.lift hM _ s

theorem callCustom_runs (g : CNF) : (meter dbg I).Runs (callCustomC dbg g) (fun t => callCustom (I := I.guard (picks t)) g) :=
  (callCustom_asks g).runs (meter_ok dbg I) trivial

theorem callInitial_runs (cube : Option Cube) (clause : Option Clause) :
    (meter dbg I).Runs (callInitialC dbg cube clause) (fun t => callInitial (I := I.guard (picks t)) cube clause) :=
  (callInitial_asks cube clause).runs (meter_ok dbg I) trivial

theorem callFiAndT_runs (j : Nat) (cube : Option Cube) (clause : Option Clause) :
    (meter dbg I).Runs (callFiAndTC dbg j cube clause) (fun t => callFiAndT (I := I.guard (picks t)) j cube clause) :=
  (callFiAndT_asks j cube clause).runs (meter_ok dbg I) trivial

theorem callNotP_runs (j : Nat) (cube : Option Cube) (clause : Option Clause) :
    (meter dbg I).Runs (callNotPC dbg j cube clause) (fun t => callNotP (I := I.guard (picks t)) j cube clause) :=
  (callNotP_asks j cube clause).runs (meter_ok dbg I) trivial

theorem intersectsInitial_runs (cube : Cube) :
    (meter dbg I).Runs (intersectsInitialC dbg cube) (fun t => intersectsInitial (I := I.guard (picks t)) cube) :=
  (callInitial_runs _ _).bind fun r => by cases r <;> exact Meter.Runs.pure (meter_ok dbg I) _

theorem clauseTagSat_runs (f : Fsts) (i : Nat) (d : Clause) :
    (meter dbg I).Runs (clauseTagSatC dbg f i d) (fun t => clauseTagSat (I := I.guard (picks t)) dbg f i d) :=
  (Meter.Runs.lift (meter_ok dbg I) _).bind fun _ => (callFiAndT_runs _ _ _).bind fun r => by
    cases r <;> exact Meter.Runs.pure (meter_ok dbg I) _

theorem clauseInductive_runs (f : Fsts) (d : Clause) (i : Nat) :
    (meter dbg I).Runs (clauseInductiveC dbg f d i) (fun t => clauseInductive (I := I.guard (picks t)) dbg f d i) := by
  unfold clauseInductiveC clauseInductive
  have hM := meter_ok dbg I
  split
  · cases dbg with
    | false => exact Meter.Runs.pure hM _
    | true => exact (intersectsInitial_runs _).bind fun b => (Meter.Runs.lift hM _).bind fun _ => Meter.Runs.pure hM _
  · cases dbg with
    | false => exact (clauseTagSat_runs f i d).bind fun _ => Meter.Runs.pure hM _
    | true => exact (intersectsInitial_runs _).bind fun b => (Meter.Runs.lift hM _).bind fun _ => (clauseTagSat_runs f i d).bind fun _ => Meter.Runs.pure hM _

theorem counting (dbg : Bool) (I : StatefulImpl) (sched : Sched) (f : Fsts) (fm : Formulas) :
    Counting (meter dbg I) (statefulC dbg I sched f fm) (fun t => stateful dbg (I.guard (picks t)) sched f fm) where
  ok := meter_ok dbg I
  dbg := fun _ => rfl
  fsts := fun _ => rfl
  sched := fun _ => rfl
  forms := fun _ => rfl
  clauses := fun _ _ => rfl
  tick := next_runs
  addClause := addClause_runs
  pushFrame := pushFrame_runs fm
  enterFrame := enterFrame_runs sched f fm
  badIn0 := callCustom_runs _
  badIn1 := callCustom_runs _
  badFrom := fun k => callNotP_runs k none none
  cubeReach := fun i s => (Meter.Runs.lift (meter_ok dbg I) _).bind fun _ => callFiAndT_runs _ _ _
  cubeReachNew := fun i s => (Meter.Runs.lift (meter_ok dbg I) _).bind fun _ => (callFiAndT_runs _ _ _).bind fun r => by
    cases r <;> exact Meter.Runs.pure (meter_ok dbg I) _
  clauseInductive := clauseInductive_runs f

end Stateful

end IC3

/-! ## Whole runs -/

theorem Meter.num_unit (ts : List (Nat × Unit)) : Meter.num () ts = ts.length := by
  unfold Meter.num
  exact congrArg List.length (List.filter_eq_self.2 (fun _ _ => rfl))

theorem StatefulImpl.guard_none (I : StatefulImpl) : I.guard (IC3.Stateful.picks none) = I := rfl

namespace IC3

/-- There is a run without counters for each moment, in which the solver fails at that moment. -/
structure Single {σ : Type} {τ : Option Nat → Type} (M : Meter σ Nat Unit (Option Nat) τ) : Prop where
  hit : ∀ t p, M.hit t p ↔ t = some p.1
  free : ∀ t p, ¬ M.free t p
  err : ∀ t, M.err t = asked
  cnt : ∀ g, M.cnt g () = g

/-- The outcome of a comparison with a single counter. -/
theorem outcome {σ : Type} {τ : Option Nat → Type} {M : Meter σ Nat Unit (Option Nat) τ} {x : StateT (Counted σ Nat) Res ProofResult}
    {y : ∀ t, StateT (τ t) Res ProofResult} (h : M.Runs x y) (hM : Single M) (b : σ) (hg : M.good 0) :
    (∀ r s, x ⟨b, 0⟩ = .ok (r, s) → (∃ u, y M.none (M.view M.none b) = .ok (r, u)) ∧ ∃ ts : List Nat, ts.Pairwise (· < ·) ∧
      (∀ t, (t ∈ ts → y (some t) (M.view _ b) = .error asked) ∧ (t ∉ ts → ∃ u, y (some t) (M.view _ b) = .ok (r, u))) ∧
      s.stats = ts.length % u32Size ∧ (M.dbg = true → ts.length < u32Size)) ∧
    (∀ e, x ⟨b, 0⟩ = .error e → y M.none (M.view M.none b) = .error e ∨ (M.dbg = true ∧ e = M.over ∧ ∃ ts : List Nat, ts.Pairwise (· < ·) ∧
      ts.length + 1 = u32Size ∧ ∀ t ∈ ts, y (some t) (M.view _ b) = .error asked)) := by
  have h1 := h ⟨b, 0⟩ hg
  refine ⟨fun r s hx => ?_, fun e hx => ?_⟩
  · rw [hx] at h1
    obtain ⟨ts, hs, ht⟩ := h1
    refine ⟨?_, ts.map Prod.fst, hs.asc.1, fun t => ⟨fun hm => ?_, fun hm => ?_⟩, ?_, fun hd => ?_⟩
    · exact ⟨_, (ht M.none).none⟩
    · obtain ⟨p, hp, rfl⟩ := List.mem_map.1 hm
      rcases ht (some p.1) with ⟨q, _, hq⟩ | ⟨_, hy⟩ | ⟨hh, _⟩
      · exact absurd hq (hM.free _ _)
      · exact hM.err _ ▸ hy
      · exact absurd ⟨p, hp, (hM.hit _ _).2 rfl⟩ hh
    · rcases ht (some t) with ⟨q, _, hq⟩ | ⟨⟨p, hp, hn⟩, _⟩ | ⟨_, hy⟩
      · exact absurd hq (hM.free _ _)
      · have hn := (hM.hit _ _).1 hn
        injection hn with hn
        exact absurd (List.mem_map.2 ⟨p, hp, hn.symm⟩) hm
      · exact ⟨_, hy⟩
    · have := hs.cnt ()
      rw [hM.cnt, hM.cnt, Meter.num_unit, Nat.zero_add] at this
      rw [List.length_map]
      exact this
    · have := hs.debug hd ()
      rw [hM.cnt, Meter.num_unit, Nat.zero_add] at this
      rw [List.length_map]
      exact this
  · rw [hx] at h1
    rcases h1 with ⟨he, hd, ts, k, hf, _, hn, hp⟩ | h1
    · refine .inr ⟨hd, he, ts.map Prod.fst, hf.1, ?_, fun t hm => ?_⟩
      · rw [hM.cnt, Meter.num_unit, Nat.zero_add] at hn
        rw [List.length_map]
        exact hn
      · obtain ⟨p, hp', rfl⟩ := List.mem_map.1 hm
        rcases hp (some p.1) ⟨p, hp', (hM.hit _ _).2 rfl⟩ with ⟨q, _, hq⟩ | hy
        · exact absurd hq (hM.free _ _)
        · exact hM.err _ ▸ hy
    · exact .inl h1

theorem proveStateless_eq (dbg : Bool) (env : Env) (sched : Sched) (f : Fsts) (fuel : Nat) {fm : Formulas} (h : formulas dbg f = .ok fm) :
    proveStateless dbg env sched f fuel = ((stateless dbg env sched f fm).prove fuel ⟨[], 0⟩).map Prod.fst := by
  unfold proveStateless
  rw [h]
  show Except.bind ((stateless dbg env sched f fm).prove fuel ⟨[], 0⟩) _ = _
  cases (stateless dbg env sched f fm).prove fuel ⟨[], 0⟩ <;> rfl

theorem proveStatelessC_eq (dbg : Bool) (env : Env) (sched : Sched) (f : Fsts) (fuel : Nat) {fm : Formulas} (h : formulas dbg f = .ok fm) :
    proveStatelessC dbg env sched f fuel = ((statelessC dbg env sched f fm).prove fuel ⟨⟨[], 0⟩, 0⟩).map fun p => (p.1, p.2.stats) := by
  unfold proveStatelessC
  rw [h]
  show Except.bind ((statelessC dbg env sched f fm).prove fuel ⟨⟨[], 0⟩, 0⟩) _ = _
  cases (statelessC dbg env sched f fm).prove fuel ⟨⟨[], 0⟩, 0⟩ <;> rfl

theorem proveStateful_eq (dbg : Bool) (I : StatefulImpl) (sched : Sched) (f : Fsts) (fuel : Nat) {fm : Formulas} (h : formulas dbg f = .ok fm)
    {x : I.S} (hx : I.addCnf f.getInitialRelation.toCnf I.new = .ok x) :
    proveStateful dbg I sched f fuel = ((stateful dbg I sched f fm).prove fuel ⟨[], [], x, [], 0⟩).map Prod.fst := by
  unfold proveStateful
  rw [h]
  show Except.bind (I.addCnf f.getInitialRelation.toCnf I.new) _ = _
  rw [hx]
  show Except.bind ((stateful dbg I sched f fm).prove fuel ⟨[], [], x, [], 0⟩) _ = _
  cases (stateful dbg I sched f fm).prove fuel ⟨[], [], x, [], 0⟩ <;> rfl

theorem proveStatefulC_eq (dbg : Bool) (I : StatefulImpl) (sched : Sched) (f : Fsts) (fuel : Nat) {fm : Formulas} (h : formulas dbg f = .ok fm)
    {x : I.S} (hx : I.addCnf f.getInitialRelation.toCnf I.new = .ok x) :
    proveStatefulC dbg I sched f fuel = ((statefulC dbg I sched f fm).prove fuel ⟨⟨[], [], x, [], 0⟩, 0⟩).map fun p => (p.1, p.2.stats) := by
  unfold proveStatefulC
  rw [h]
  show Except.bind (I.addCnf f.getInitialRelation.toCnf I.new) _ = _
  rw [hx]
  show Except.bind ((statefulC dbg I sched f fm).prove fuel ⟨⟨[], [], x, [], 0⟩, 0⟩) _ = _
  cases (statefulC dbg I sched f fm).prove fuel ⟨⟨[], [], x, [], 0⟩, 0⟩ <;> rfl

/-- What a run with one counter has to do with the run without. -/
def Tells (dbg : Bool) (over : String) (counted : Res (ProofResult × Nat)) (run : Res ProofResult) (failAt : Nat → Res ProofResult) : Prop :=
  (∀ r n, counted = .ok (r, n) → run = .ok r ∧ ∃ ts, AsksAt failAt r ts ∧ n = ts.length % u32Size ∧ (dbg = true → ts.length < u32Size)) ∧
  (∀ e, counted = .error e → run = .error e ∨ (dbg = true ∧ e = .panic over ∧ ∃ ts : List Nat, ts.Pairwise (· < ·) ∧ ts.length + 1 = u32Size ∧
    ∀ t ∈ ts, failAt t = .error asked))

theorem tells_of {σ : Type} {τ : Option Nat → Type} {M : Meter σ Nat Unit (Option Nat) τ} {x : StateT (Counted σ Nat) Res ProofResult}
    {y : ∀ t, StateT (τ t) Res ProofResult} (h : M.Runs x y) (hM : Single M) (b : σ) (hg : M.good 0) {over : String}
    (ho : M.over = .panic over) {counted : Res (ProofResult × Nat)} {run : Res ProofResult} {failAt : Nat → Res ProofResult}
    (h1 : counted = (x ⟨b, 0⟩).map fun p => (p.1, p.2.stats)) (h2 : run = (y M.none (M.view M.none b)).map Prod.fst)
    (h3 : ∀ t, failAt t = (y (some t) (M.view _ b)).map Prod.fst) : Tells M.dbg over counted run failAt := by
  obtain ⟨ho1, ho2⟩ := outcome h hM b hg
  refine ⟨fun r n hr => ?_, fun e he => ?_⟩
  · cases hx : x ⟨b, 0⟩ with
    | error er => rw [h1, hx] at hr; cases hr
    | ok p =>
      obtain ⟨r', s⟩ := p
      rw [h1, hx] at hr
      cases hr
      obtain ⟨⟨u, hu⟩, ts, ha, ht, hn, hd⟩ := ho1 r' s hx
      refine ⟨by rw [h2, hu]; rfl, ts, ⟨ha, fun t => ⟨fun hm => ?_, fun hm => ?_⟩⟩, hn, hd⟩
      · rw [h3, (ht t).1 hm]; rfl
      · obtain ⟨u, hu⟩ := (ht t).2 hm
        rw [h3, hu]; rfl
  · cases hx : x ⟨b, 0⟩ with
    | ok p => rw [h1, hx] at he; cases he
    | error er =>
      rw [h1, hx] at he
      cases he
      rcases ho2 _ hx with hy | ⟨hd, he, ts, ha, hl, ht⟩
      · exact .inl (by rw [h2, hy]; rfl)
      · exact .inr ⟨hd, by rw [he, ho], ts, ha, hl, fun t hm => by rw [h3, ht t hm]; rfl⟩

theorem tells_fail {dbg : Bool} {over : String} {counted : Res (ProofResult × Nat)} {run : Res ProofResult} {failAt : Nat → Res ProofResult} {e : Err}
    (h1 : counted = .error e) (h2 : run = .error e) : Tells dbg over counted run failAt :=
  ⟨fun r n hr => (by rw [h1] at hr; cases hr), fun e' he => (by rw [h1] at he; cases he; exact .inl h2)⟩

theorem stateless_tells (dbg : Bool) (env : Env) (sched : Sched) (f : Fsts) (fuel : Nat) :
    Tells dbg "ic3_stateless_solver.rs:90 overflow" (proveStatelessC dbg env sched f fuel) (proveStateless dbg env sched f fuel)
      (fun t => proveStateless dbg (env.failAt t) sched f fuel) := by
  cases h : formulas dbg f with
  | error e => exact tells_fail (by unfold proveStatelessC; rw [h]; rfl) (by unfold proveStateless; rw [h]; rfl)
  | ok fm =>
    exact tells_of ((Stateless.counting dbg env sched f fm).prove fuel) ⟨fun _ _ => Iff.rfl, fun _ _ => id, fun _ => rfl, fun _ => rfl⟩ ⟨[], 0⟩ (by show 0 < u32Size; decide) rfl
      (proveStatelessC_eq dbg env sched f fuel h) (proveStateless_eq dbg env sched f fuel h) (fun t => proveStateless_eq dbg (env.failAt t) sched f fuel h)

theorem stateful_tells (dbg : Bool) (I : StatefulImpl) (sched : Sched) (f : Fsts) (fuel : Nat) :
    Tells dbg "ic3_stateful_solver.rs:161 overflow" (proveStatefulC dbg I sched f fuel) (proveStateful dbg I sched f fuel)
      (fun t => proveStateful dbg (I.failAt t) sched f fuel) := by
  cases h : formulas dbg f with
  | error e => exact tells_fail (by unfold proveStatefulC; rw [h]; rfl) (by unfold proveStateful; rw [h]; rfl)
  | ok fm =>
    cases hx : I.addCnf f.getInitialRelation.toCnf I.new with
    | error e =>
      refine tells_fail (e := e) ?_ ?_
      · unfold proveStatefulC
        rw [h]
        show Except.bind (I.addCnf f.getInitialRelation.toCnf I.new) _ = _
        rw [hx]; rfl
      · unfold proveStateful
        rw [h]
        show Except.bind (I.addCnf f.getInitialRelation.toCnf I.new) _ = _
        rw [hx]; rfl
    | ok x =>
      exact tells_of ((Stateful.counting dbg I sched f fm).prove fuel) ⟨fun _ _ => Iff.rfl, fun _ _ => id, fun _ => rfl, fun _ => rfl⟩ ⟨[], [], x, [], 0⟩ (by show 0 < u32Size; decide) rfl
        (proveStatefulC_eq dbg I sched f fuel h hx) (proveStateful_eq dbg I sched f fuel h hx)
        (fun t => proveStateful_eq dbg (I.failAt t) sched f fuel h hx)

end IC3

end Verif
