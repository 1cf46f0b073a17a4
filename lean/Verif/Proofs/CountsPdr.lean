import Verif.Proofs.CountsRuns

/-! # Counters of SAT calls in PDR -/

namespace Verif

namespace PDR

/-- The keys of `sat_call_stats` — pdr.rs:667-673. -/
def Stats.keys : List String := Stats.new.map Prod.fst

/-- Whether a call counted under this key passes a cube and a clause to the solver. -/
def Stats.kind (k : String) : Bool × Bool :=
  if k = "z_solve_relative_NoInd" then (true, false)
  else if k = "z_get_bad_cube" ∨ k = "z_is_blocked" then (false, false)
  else (true, true)

/-- All entries of `new`, with numbers below `u32::MAX + 1`. -/
def Stats.Good (g : Stats) : Prop := g.map Prod.fst = Stats.keys ∧ ∀ p ∈ g, p.2 < u32Size

theorem Stats.put_keys (g : Stats) (key : String) (n : Nat) : (g.put key n).map Prod.fst = g.map Prod.fst := by
  unfold Stats.put
  rw [List.map_map]
  refine List.map_congr_left fun p _ => ?_
  show (if p.1 == key then (p.1, n) else p).1 = p.1
  split <;> rfl

theorem Stats.lookup_put (g : Stats) (key k : String) (n : Nat) :
    (g.put key n).lookup k = if k = key then (g.lookup k).map fun _ => n else g.lookup k := by
  induction g with
  | nil => simp [Stats.put]
  | cons p g ih =>
    obtain ⟨a, m⟩ := p
    have e : Stats.put ((a, m) :: g) key n = (if a == key then (a, n) else (a, m)) :: Stats.put g key n := rfl
    rw [e]
    by_cases h1 : a = key
    · subst h1
      rw [beq_self_eq_true, if_pos rfl, List.lookup_cons, List.lookup_cons]
      by_cases h2 : k = a
      · subst h2; simp
      · rw [if_neg h2, beq_eq_false_iff_ne.2 h2, ih, if_neg h2]
    · rw [beq_eq_false_iff_ne.2 h1, if_neg (by simp), List.lookup_cons, List.lookup_cons]
      by_cases h2 : k = a
      · subst h2; rw [if_neg h1]; simp
      · rw [beq_eq_false_iff_ne.2 h2, ih]

theorem Stats.lookup_mem {g : Stats} {k : String} {n : Nat} (h : g.lookup k = some n) : (k, n) ∈ g := by
  induction g with
  | nil => cases h
  | cons p g ih =>
    obtain ⟨a, m⟩ := p
    rw [List.lookup_cons] at h
    by_cases h2 : k = a
    · subst h2
      rw [beq_self_eq_true] at h
      cases h
      exact List.mem_cons_self
    · rw [beq_eq_false_iff_ne.2 h2] at h
      exact List.mem_cons_of_mem _ (ih h)

theorem Stats.lookup_some {g : Stats} {k : String} (h : k ∈ g.map Prod.fst) : ∃ n, g.lookup k = some n := by
  induction g with
  | nil => cases h
  | cons p g ih =>
    obtain ⟨a, m⟩ := p
    rw [List.lookup_cons]
    by_cases h2 : k = a
    · subst h2
      exact ⟨m, by rw [beq_self_eq_true]⟩
    · rw [beq_eq_false_iff_ne.2 h2]
      rcases List.mem_cons.1 h with h | h
      · exact absurd h h2
      · exact ih h

/-- A list with the keys of `new` is determined by its entries. -/
theorem Stats.eq_of_keys {g : Stats} (h : g.map Prod.fst = Stats.keys) : g = Stats.keys.map fun k => (k, (g.lookup k).getD 0) := by
  match g, h with
  | [(a, x), (b, y), (c, z), (d, v), (e, w)], h =>
    have h : [a, b, c, d, e] = ["z_get_bad_cube", "z_is_blocked", "z_solve_relative_DoNotExtractModel", "z_solve_relative_NoInd", "z_solve_relative_ExtractModel"] := h
    injection h with h1 h; injection h with h2 h; injection h with h3 h; injection h with h4 h; injection h with h5 h
    subst h1; subst h2; subst h3; subst h4; subst h5
    rfl

/-- The runs without counters: with the same solver, or with one that fails or gives no assignment at some moment. -/
inductive Probe where
  | same
  | fail (n : Nat) (c d : Bool)
  | blank (n : Nat)
  | claim (n : Nat)

/-- What the solver answers instead. -/
def Probe.alter {S : Type} : Probe → Nat → Option Cube → Option Clause → Res (SatResponse × S) → Res (SatResponse × S)
  | .same, _, _, _, x => x
  | .fail n c d, t, cube, clause, x => if t == n && (cube.isSome == c && clause.isSome == d) then .error asked else x
  | .blank n, t, _, _, x => if t = n then x.map fun p => (if p.1 = .unsat then .unsat else .sat ⟨[], []⟩, p.2) else x
  | .claim n, t, _, _, x => if t = n then x.map fun p => (.sat ⟨[], []⟩, p.2) else x

/-- The solver that answers otherwise. -/
def _root_.Verif.StatefulImpl.probe (I : StatefulImpl) (o : Probe) : StatefulImpl :=
  { I with solve := fun t cube clause s => o.alter t cube clause (I.solve t cube clause s) }

variable {I : StatefulImpl}

/-- The same object with another solver. -/
def re (o : Probe) (s : St I) : St (I.probe o) := ⟨s.f, s.notP, s.ri, s.riT, s.conePred, s.coneBad, s.tick⟩

/-- The state read from no assignment. -/
def nothing (A : PDR I) : Res Cube := A.fsts.extractState A.dbg ⟨[], []⟩

/-- The calls on which the runs without counters fail. -/
def Probe.hit (A : PDR I) : Probe → Nat × String → Prop
  | .same, _ => False
  | .fail n c d, p => p.1 = n ∧ Stats.kind p.2 = (c, d)
  | .blank _, _ => False
  | .claim n, p => p.1 = n ∧ p.2 ∈ pdrReads ∧ ∃ e, A.nothing = .error e

/-- The calls after which nothing is said about the runs without counters. -/
def Probe.free (A : PDR I) : Probe → Nat × String → Prop
  | .same, _ => False
  | .fail _ _ _, _ => False
  | .blank n, p => p.1 = n ∧ p.2 ∈ pdrReads
  | .claim n, p => p.1 = n ∧ ¬ (p.2 ∈ pdrReads ∧ ∃ e, A.nothing = .error e)

/-- How the runs without counters fail. -/
def Probe.err (A : PDR I) : Probe → Err
  | .claim _ => match A.nothing with
    | .ok _ => asked
    | .error e => e
  | _ => asked

/-- The counters of PDR. -/
def meter (A : PDR I) : Meter (St I) Stats String Probe (fun t => St (I.probe t)) where
  none := .same
  hit := Probe.hit A
  free := Probe.free A
  err := Probe.err A
  same := fun _ => ⟨id, id⟩
  dbg := A.dbg
  over := .panic "pdr.rs sat_call_stats overflow"
  clock := St.tick
  view := fun t s => re t s
  cnt := fun g k => (g.lookup k).getD 0
  good := Stats.Good
  key := fun k => k ∈ Stats.keys
  count := fun k => countC A.dbg k

theorem meter_ok (A : PDR I) : (meter A).OK := by
  have lt : ∀ g, Stats.Good g → ∀ k, (g.lookup k).getD 0 < u32Size := fun g h k => by
    cases e : g.lookup k with
    | none => exact (by decide : 0 < u32Size)
    | some n => exact h.2 _ (Stats.lookup_mem e)
  refine ⟨lt, fun k hk b g h => ?_⟩
  obtain ⟨n, hn⟩ := Stats.lookup_some (h.1 ▸ hk : k ∈ g.map Prod.fst)
  have hlt : n < u32Size := h.2 _ (Stats.lookup_mem hn)
  have hc : (meter A).cnt g k = n := by show (g.lookup k).getD 0 = n; rw [hn]; rfl
  have e : countC A.dbg k ⟨b, g⟩ = (u32Add A.dbg "pdr.rs sat_call_stats overflow" n 1).map fun n => ((), (⟨b, g.put k n⟩ : C I)) := by
    show Except.bind (Except.bind (unwrapR "pdr.rs sat_call_stats unwrap" (g.lookup k)) fun n => Except.ok (n, _)) _ = _
    rw [hn]
    show Except.bind (Except.bind (u32Add A.dbg "pdr.rs sat_call_stats overflow" n 1) fun n => Except.ok (n, _)) _ = _
    cases u32Add A.dbg "pdr.rs sat_call_stats overflow" n 1 <;> rfl
  rw [hc]
  rcases u32Add_one A.dbg "pdr.rs sat_call_stats overflow" hlt with ⟨h1, h2, h3⟩ | ⟨h1, h2⟩
  · exact .inl ⟨h1, h2, by show countC A.dbg k ⟨b, g⟩ = _; rw [e, h3]; rfl⟩
  · refine .inr ⟨g.put k ((n + 1) % u32Size), by show countC A.dbg k ⟨b, g⟩ = _; rw [e, h1]; rfl, ⟨(Stats.put_keys g k _).trans h.1, fun p hp => ?_⟩, h2, ?_,
      fun k' hk' => ?_⟩
    · obtain ⟨q, hq, rfl⟩ := List.mem_map.1 hp
      split
      · exact Nat.mod_lt _ (by decide)
      · exact h.2 q hq
    · show ((g.put k _).lookup k).getD 0 = _
      rw [Stats.lookup_put, if_pos rfl, hn]; rfl
    · show ((g.put k _).lookup k').getD 0 = (g.lookup k').getD 0
      rw [Stats.lookup_put, if_neg hk']

/-- A call of a solver, and what is read from the answer. -/
def look {α : Type} (f : SatResponse → Res α) (w : Which) (i : Nat) (cube : Option Cube) (clause : Option Clause) : StateT (St I) Res α :=
  call w i cube clause >>= fun r => liftM (f r)

/-- The object after a call. -/
def after (s : St I) (w : Which) (i : Nat) (y : I.S) : St I := ({ s with tick := s.tick + 1 } : St I).setSols w ((s.sols w).set i y)

theorem look_eq {α : Type} (f : SatResponse → Res α) (w : Which) (i : Nat) (cube : Option Cube) (clause : Option Clause) (s : St I) :
    look f w i cube clause s = (indexR "pdr.rs solver index" (s.sols w) i).bind fun x => (I.solve s.tick cube clause x).bind fun q =>
      (f q.1).map fun a => (a, after s w i q.2) := by
  have e : indexR "pdr.rs solver index" (({ s with tick := s.tick + 1 } : St I).sols w) i = indexR "pdr.rs solver index" (s.sols w) i := by cases w <;> rfl
  show Except.bind (Except.bind (Except.bind (indexR "pdr.rs solver index" (({ s with tick := s.tick + 1 } : St I).sols w) i) fun x => Except.ok (x, _)) _) _ = _
  rw [e]
  cases indexR "pdr.rs solver index" (s.sols w) i with
  | error er => rfl
  | ok x =>
    show Except.bind (Except.bind (Except.bind (I.solve s.tick cube clause x) fun x => Except.ok (x, _)) _) _ = Except.bind (I.solve s.tick cube clause x) _
    cases I.solve s.tick cube clause x with
    | error er => rfl
    | ok q =>
      show Except.bind (f q.1) _ = Except.map _ (f q.1)
      cases f q.1 with
      | error er => rfl
      | ok a => cases w <;> rfl

theorem after_re (o : Probe) (s : St I) (w : Which) (i : Nat) (y : I.S) : after (I := I.probe o) (re o s) w i y = re o (after s w i y) := by
  cases w <;> rfl

theorem look_asks {α : Type} (A : PDR I) (f : SatResponse → Res α) (w : Which) (i : Nat) (cube : Option Cube) (clause : Option Clause) (k : String)
    (hk : Stats.kind k = (cube.isSome, clause.isSome))
    (hf : (k ∈ pdrReads ∧ ∀ e, A.nothing = .error e → f (.sat ⟨[], []⟩) = .error e) ∨ (k ∉ pdrReads ∧ ∀ a, f (.sat ⟨[], []⟩) = f (.sat a))) :
    (meter A).Asks k (look f w i cube clause) (fun t => look (I := I.probe t) f w i cube clause) := by
  intro s
  have probe : ∀ (o : Probe) x, indexR "pdr.rs solver index" (s.sols w) i = .ok x →
      look (I := I.probe o) f w i cube clause (re o s) =
        (o.alter s.tick cube clause (I.solve s.tick cube clause x)).bind fun q => (f q.1).map fun a => (a, re o (after s w i q.2)) := fun o x hx => by
    rw [look_eq, show indexR "pdr.rs solver index" ((re o s).sols w) i = indexR "pdr.rs solver index" (s.sols w) i by cases w <;> rfl, hx]
    show Except.bind (o.alter s.tick cube clause (I.solve s.tick cube clause x)) _ = _
    exact congrArg _ (funext fun q => congrArg (fun g => (f q.1).map g) (funext fun a => congrArg (Prod.mk a) (after_re o s w i q.2)))
  have real := look_eq f w i cube clause s
  cases h1 : indexR "pdr.rs solver index" (s.sols w) i with
  | error er =>
    rw [h1] at real
    rw [show look f w i cube clause s = .error er from real]
    show look (I := I.probe .same) f w i cube clause (re .same s) = .error er
    rw [look_eq, show indexR "pdr.rs solver index" ((re .same s).sols w) i = indexR "pdr.rs solver index" (s.sols w) i by cases w <;> rfl, h1]
    rfl
  | ok x =>
    rw [h1] at real
    have real : look f w i cube clause s = (I.solve s.tick cube clause x).bind fun q => (f q.1).map fun a => (a, after s w i q.2) := real
    cases h2 : I.solve s.tick cube clause x with
    | error er =>
      rw [h2] at real
      rw [show look f w i cube clause s = .error er from real]
      show look (I := I.probe .same) f w i cube clause (re .same s) = .error er
      rw [probe .same x h1, h2]; rfl
    | ok q =>
      rw [h2] at real
      have real : look f w i cube clause s = (f q.1).map fun a => (a, after s w i q.2) := real
      cases h3 : f q.1 with
      | error er =>
        rw [h3] at real
        rw [show look f w i cube clause s = .error er from real]
        show look (I := I.probe .same) f w i cube clause (re .same s) = .error er
        rw [probe .same x h1, h2]
        show Except.map _ (f q.1) = _
        rw [h3]; rfl
      | ok a =>
        rw [h3] at real
        rw [show look f w i cube clause s = .ok (a, after s w i q.2) from real]
        have go : ∀ o : Probe, o.alter s.tick cube clause (I.solve s.tick cube clause x) = .ok q →
            look (I := I.probe o) f w i cube clause (re o s) = .ok (a, re o (after s w i q.2)) := fun o ho => by
          rw [probe o x h1, ho]
          show Except.map _ (f q.1) = _
          rw [h3]; rfl
        refine ⟨by cases w <;> exact Nat.lt_succ_self _, fun o => ?_⟩
        cases o with
        | same => exact .inr (.inr ⟨id, go _ h2⟩)
        | fail n c d =>
          by_cases hh : s.tick = n ∧ Stats.kind k = (c, d)
          · refine .inr (.inl ⟨hh, ?_⟩)
            show look (I := I.probe (.fail n c d)) f w i cube clause (re (.fail n c d) s) = .error asked
            rw [probe _ x h1]
            obtain ⟨rfl, he⟩ := hh
            rw [hk] at he
            injection he with he1 he2
            show Except.bind (if (s.tick == s.tick && (cube.isSome == c && clause.isSome == d)) = true then _ else _) _ = _
            rw [if_pos (by simp [he1, he2])]; rfl
          · refine .inr (.inr ⟨hh, go _ ?_⟩)
            show (if (s.tick == n && (cube.isSome == c && clause.isSome == d)) = true then _ else _) = _
            rw [if_neg, h2]
            intro hc
            rw [Bool.and_eq_true, Bool.and_eq_true, beq_iff_eq, beq_iff_eq, beq_iff_eq] at hc
            exact hh ⟨hc.1, by rw [hk, hc.2.1, hc.2.2]⟩
        | blank n =>
          by_cases hn : s.tick = n
          · rcases hf with ⟨hr, _⟩ | ⟨hr, hf⟩
            · exact .inl ⟨hn, hr⟩
            · refine .inr (.inr ⟨id, ?_⟩)
              show look (I := I.probe (.blank n)) f w i cube clause (re (.blank n) s) = _
              rw [probe _ x h1]
              show Except.bind (if s.tick = n then _ else _) _ = _
              rw [if_pos hn, h2]
              show Except.map _ (f (if q.1 = .unsat then .unsat else .sat ⟨[], []⟩)) = _
              have e : f (if q.1 = .unsat then .unsat else .sat ⟨[], []⟩) = f q.1 := by
                cases q.1 with
                | unsat => rfl
                | sat b => exact hf b
              rw [e, h3]; rfl
          · refine .inr (.inr ⟨id, go _ ?_⟩)
            show (if s.tick = n then _ else _) = _
            rw [if_neg hn, h2]
        | claim n =>
          by_cases hn : s.tick = n
          · by_cases hl : k ∈ pdrReads ∧ ∃ e, A.nothing = .error e
            · refine .inr (.inl ⟨⟨hn, hl⟩, ?_⟩)
              obtain ⟨hr, e, he⟩ := hl
              rcases hf with ⟨_, hf⟩ | ⟨hf, _⟩
              · show look (I := I.probe (.claim n)) f w i cube clause (re (.claim n) s) = .error (Probe.err A (.claim n))
                rw [probe _ x h1]
                show Except.bind (if s.tick = n then _ else _) _ = _
                rw [if_pos hn, h2]
                show Except.map _ (f (.sat ⟨[], []⟩)) = _
                unfold Probe.err
                rw [hf e he, he]; rfl
              · exact absurd hr hf
            · exact .inl ⟨hn, hl⟩
          · refine .inr (.inr ⟨fun hc => hn hc.1, go _ ?_⟩)
            show (if s.tick = n then _ else _) = _
            rw [if_neg hn, h2]

variable {A : PDR I}

theorem fresh_runs : (meter A).Runs (Counted.plain fresh) (fun t => fresh (I := I.probe t)) :=
  Meter.Still.runs (meter_ok A) fun _ => ⟨Nat.le_succ _, fun _ => rfl⟩

theorem depth_runs : (meter A).Runs (Counted.plain depth) (fun t => depth (I := I.probe t)) := by
  unfold depth
  rw [Counted.plain_get]
  refine Meter.Runs.read fun s => ?_
  show (meter A).At s _ (fun t => if s.base.f.length < 2 then _ else _)
  split
  · rw [Counted.plain_lift]
    exact Meter.Runs.lift (meter_ok A) _ s
  · exact Meter.At.pure (meter_ok A) s _

theorem addAt_runs (w : Which) (i : Nat) (g : CNF) : (meter A).Runs (Counted.plain (addAt w i g)) (fun t => addAt (I := I.probe t) w i g) := by
  unfold addAt
  rw [Counted.plain_get]
  simp only [Counted.plain_bind, Counted.plain_lift]
  cases w <;>
  · refine Meter.Runs.read fun s => Meter.At.lift fun x => Meter.At.lift fun y => Meter.At.plainSet (meter_ok A) ?_ ?_
    · exact Nat.le_refl _
    · exact fun _ => rfl

theorem blockLoop_runs (g : CNF) (is : List Nat) : (meter A).Runs (Counted.plain (blockLoop g is)) (fun t => blockLoop (I := I.probe t) g is) := by
  induction is with
  | nil => exact Meter.Runs.pure (meter_ok A) _
  | cons i is ih =>
    unfold blockLoop
    simp only [Counted.plain_bind]
    exact (addAt_runs .ri i g).bind fun _ => (addAt_runs .notP i g).bind fun _ => (addAt_runs .riT i g).bind fun _ => ih

/-- The object with another solver. -/
def with' (A : PDR I) (o : Probe) : PDR (I.probe o) := ⟨A.dbg, A.fsts, A.sched, A.forms⟩

variable (A)

theorem checkLengths_runs (site : String) (k : Nat) :
    (meter A).Runs (Counted.plain (A.checkLengths site k)) (fun t => (A.with' t).checkLengths site k) := by
  unfold checkLengths
  rw [Counted.plain_get]
  simp only [Counted.plain_bind, Counted.plain_lift]
  exact Meter.Runs.read fun s => Meter.At.lift fun _ => Meter.At.lift fun _ => Meter.Runs.lift (meter_ok A) _ s

theorem blockCubeInSolver_runs (s : TCube) :
    (meter A).Runs (Counted.plain (A.blockCubeInSolver s)) (fun t => (A.with' t).blockCubeInSolver s) := by
  unfold blockCubeInSolver
  rw [Counted.plain_bind]
  refine (checkLengths_runs A _ _).bind fun _ => ?_
  dsimp only
  split
  · rw [Counted.plain_lift]
    exact Meter.Runs.lift (meter_ok A) _
  · rw [Counted.plain_get]
    exact Meter.Runs.read fun s => blockLoop_runs _ _ s
  · rw [Counted.plain_get]
    simp only [Counted.plain_bind, Counted.plain_lift]
    exact Meter.Runs.read fun s => Meter.At.lift fun _ => blockLoop_runs _ _ s

theorem newFrameSolvers_runs : (meter A).Runs (Counted.plain A.newFrameSolvers) (fun t => (A.with' t).newFrameSolvers) := by
  unfold newFrameSolvers
  rw [Counted.plain_bind]
  refine (checkLengths_runs A _ _).bind fun _ => ?_
  rw [Counted.plain_get]
  refine Meter.Runs.read fun s => ?_
  have hM := meter_ok A
  show (meter A).At s _ (fun t => if s.base.notP.isEmpty = true then _ else _)
  split
  · simp only [Counted.plain_bind, Counted.plain_lift]
    refine Meter.At.lift fun a => Meter.At.lift fun b => Meter.At.lift fun c => Meter.At.bind (Meter.At.plainSet hM ?_ ?_) fun _ => checkLengths_runs A _ _
    · exact Nat.le_refl _
    · exact fun _ => rfl
  · simp only [Counted.plain_bind, Counted.plain_lift]
    refine Meter.At.lift fun a => Meter.At.lift fun c => Meter.At.bind (Meter.At.plainSet hM ?_ ?_) fun _ => checkLengths_runs A _ _
    · exact Nat.le_refl _
    · exact fun _ => rfl

theorem newFrame_runs : (meter A).Runs (Counted.plain A.newFrame) (fun t => (A.with' t).newFrame) := by
  unfold newFrame
  rw [Counted.plain_get]
  refine Meter.Runs.read fun s => ?_
  have hM := meter_ok A
  show (meter A).At s _ (fun t => if s.base.f.length = 0 then _ else _)
  dsimp only
  split
  · rw [Counted.plain_lift]
    exact Meter.Runs.lift hM _ s
  · simp only [Counted.plain_bind, Counted.plain_lift]
    refine Meter.At.lift fun f => Meter.At.bind (Meter.At.plainSet hM ?_ ?_) fun _ => newFrameSolvers_runs A
    · exact Nat.le_refl _
    · exact fun _ => rfl

theorem addBlockedCube_runs (s : TCube) : (meter A).Runs (Counted.plain (A.addBlockedCube s)) (fun t => (A.with' t).addBlockedCube s) := by
  unfold addBlockedCube
  have hM := meter_ok A
  split
  · rw [Counted.plain_bind]
    refine depth_runs.bind fun d => ?_
    dsimp only
    rw [Counted.plain_get]
    simp only [Counted.plain_bind, Counted.plain_lift]
    refine Meter.Runs.read fun st => Meter.At.lift fun f => Meter.At.lift fun l => Meter.At.bind (Meter.At.plainSet hM ?_ ?_) fun _ =>
      blockCubeInSolver_runs A s
    · exact Nat.le_refl _
    · exact fun _ => rfl
  · rw [Counted.plain_lift]
    exact Meter.Runs.lift hM _

theorem getRi_runs (i : Nat) : (meter A).Runs (Counted.plain (A.getRi i)) (fun t => (A.with' t).getRi i) := by
  unfold getRi
  have hM := meter_ok A
  rw [Counted.plain_get]
  simp only [Counted.plain_bind, Counted.plain_lift]
  refine Meter.Runs.read fun st => Meter.At.lift fun l => Meter.At.lift fun _ => ?_
  show (meter A).At st _ (fun t => if i = 0 then _ else _)
  split <;> exact Meter.At.pure hM st _

/-- The state in the answer. -/
def state (A : PDR I) : SatResponse → Res (Option Cube)
  | .unsat => .ok none
  | .sat a => (A.fsts.extractState A.dbg a).map some

theorem state_nothing {e : Err} (h : A.nothing = .error e) : A.state (.sat ⟨[], []⟩) = .error e := by
  show Except.map some A.nothing = _
  rw [h]; rfl

/-- Only whether the formula is satisfiable. -/
def verdict (r : SatResponse) : Res Bool := .ok (decide (r = .unsat))

theorem plain_look {α : Type} (f : SatResponse → Res α) (w : Which) (i : Nat) (cube : Option Cube) (clause : Option Clause) :
    (Counted.plain (call w i cube clause) >>= fun r => liftM (f r) : StateT (C I) Res α) = Counted.plain (look f w i cube clause) := by
  unfold look
  simp only [Counted.plain_bind, Counted.plain_lift]

/-- A counted call whose answer is read, and what follows it. -/
theorem Runs.state {β : Type} {w : Which} {i : Nat} {cube : Option Cube} {clause : Option Clause} {k : String} (hkey : k ∈ Stats.keys)
    (hk : Stats.kind k = (cube.isSome, clause.isSome)) (hr : k ∈ pdrReads)
    {F : SatResponse → StateT (C I) Res β} {G : ∀ t, SatResponse → StateT (St (I.probe t)) Res β}
    {P : Cube → StateT (C I) Res β} {Q : ∀ t, Cube → StateT (St (I.probe t)) Res β}
    (hF : ∀ a, F (.sat a) = (liftM (A.fsts.extractState A.dbg a) : StateT (C I) Res Cube) >>= P)
    (hG : ∀ t a, G t (.sat a) = (liftM (A.fsts.extractState A.dbg a) : StateT (St (I.probe t)) Res Cube) >>= Q t)
    (h1 : (meter A).Runs (F .unsat) (fun t => G t .unsat)) (h2 : ∀ c, (meter A).Runs (P c) (fun t => Q t c)) :
    (meter A).Runs (countC A.dbg k >>= fun _ => Counted.plain (call w i cube clause) >>= F) (fun t => call w i cube clause >>= G t) := by
  have key : ∀ {σ : Type} (x : StateT σ Res SatResponse) (f : SatResponse → StateT σ Res β) (p : Cube → StateT σ Res β),
      (∀ a, f (.sat a) = (liftM (A.fsts.extractState A.dbg a) : StateT σ Res Cube) >>= p) →
      x >>= f = (x >>= fun r => (liftM (A.state r) : StateT σ Res (Option Cube))) >>= fun o => Option.rec (f .unsat) p o := fun x f p hf => by
    rw [bind_assoc]
    refine congrArg _ (funext fun r => ?_)
    cases r with
    | unsat => rfl
    | sat a =>
      rw [hf]
      funext s
      show Except.bind (Except.bind (A.fsts.extractState A.dbg a) fun c => Except.ok (c, s)) _ =
        Except.bind (Except.bind (Except.map some (A.fsts.extractState A.dbg a)) fun c => Except.ok (c, s)) _
      cases A.fsts.extractState A.dbg a <;> rfl
  rw [key _ F P hF, plain_look, show (fun t => call w i cube clause >>= G t) =
    fun t => look (I := I.probe t) A.state w i cube clause >>= fun o => Option.rec (G t .unsat) (Q t) o from funext fun t => key _ _ _ (hG t)]
  refine Meter.Asks.bind (meter_ok A) (look_asks A A.state w i cube clause k hk (.inl ⟨hr, fun _ => state_nothing A⟩)) hkey fun r => ?_
  cases r with
  | none => exact h1
  | some c => exact h2 c

/-- A counted call of whose answer only the verdict is used, and what follows it. -/
theorem Runs.verdict {β : Type} {w : Which} {i : Nat} {cube : Option Cube} {clause : Option Clause} {k : String} (hkey : k ∈ Stats.keys)
    (hk : Stats.kind k = (cube.isSome, clause.isSome)) (hr : k ∉ pdrReads)
    {F : SatResponse → StateT (C I) Res β} {G : ∀ t, SatResponse → StateT (St (I.probe t)) Res β}
    {P : StateT (C I) Res β} {Q : ∀ t, StateT (St (I.probe t)) Res β} (hF : ∀ a, F (.sat a) = P) (hG : ∀ t a, G t (.sat a) = Q t)
    (h1 : (meter A).Runs (F .unsat) (fun t => G t .unsat)) (h2 : (meter A).Runs P Q) :
    (meter A).Runs (countC A.dbg k >>= fun _ => Counted.plain (call w i cube clause) >>= F) (fun t => call w i cube clause >>= G t) := by
  have key : ∀ {σ : Type} (x : StateT σ Res SatResponse) (f : SatResponse → StateT σ Res β) (p : StateT σ Res β), (∀ a, f (.sat a) = p) →
      x >>= f = (x >>= fun r => (liftM (PDR.verdict r) : StateT σ Res Bool)) >>= fun o => Bool.rec p (f .unsat) o := fun x f p hf => by
    rw [bind_assoc]
    refine congrArg _ (funext fun r => ?_)
    cases r with
    | unsat => rfl
    | sat a => rw [hf]; rfl
  rw [key _ F P hF, plain_look, show (fun t => call w i cube clause >>= G t) =
    fun t => look (I := I.probe t) PDR.verdict w i cube clause >>= fun o => Bool.rec (Q t) (G t .unsat) o from funext fun t => key _ _ _ (hG t)]
  refine Meter.Asks.bind (meter_ok A) (look_asks A PDR.verdict w i cube clause k hk (.inr ⟨hr, fun _ => rfl⟩)) hkey fun r => ?_
  cases r with
  | true => exact h1
  | false => exact h2

theorem getBadCube_runs : (meter A).Runs A.getBadCubeC (fun t => (A.with' t).getBadCube) := by
  unfold getBadCubeC getBadCube
  have hM := meter_ok A
  refine depth_runs.bind fun d => Runs.state A List.mem_cons_self rfl List.mem_cons_self (fun _ => rfl) (fun _ _ => rfl) (Meter.Runs.pure hM _) fun bad =>
    Meter.Runs.read fun s => ?_
  show (meter A).At s _ (fun t => if s.base.coneBad = true then _ else _)
  split
  · refine Meter.At.lift fun _ => Meter.At.bind (Meter.At.set hM ?_ ?_) fun _ => Meter.Runs.pure hM _
    · exact Nat.le_refl _
    · exact fun _ => rfl
  · exact Meter.At.pure hM s _

theorem solverBlocked_runs (s : TCube) : (meter A).Runs (A.solverBlockedC s) (fun t => solverBlocked (I := I.probe t) s) := by
  have hM := meter_ok A
  obtain ⟨sc, sf⟩ := s
  cases sf with
  | ok i =>
    exact Runs.verdict A (List.mem_cons_of_mem _ List.mem_cons_self) rfl (by decide) (fun _ => rfl) (fun _ _ => rfl) (Meter.Runs.pure hM _)
      (Meter.Runs.pure hM _)
  | null => exact Meter.Runs.lift hM _
  | inf => exact Meter.Runs.lift hM _

theorem solveRelative_runs (s : TCube) (p : Param) : (meter A).Runs (A.solveRelativeC s p) (fun t => (A.with' t).solveRelative s p) := by
  unfold solveRelativeC solveRelative
  have hM := meter_ok A
  have hkey : p.key ∈ Stats.keys := by cases p <;> decide
  obtain ⟨sc, sf⟩ := s
  cases sf with
  | ok i =>
    refine Meter.Runs.read fun st => Meter.At.lift fun _ => Meter.At.lift fun c => ?_
    dsimp only
    by_cases h0 : i = 0
    · subst h0
      exact Meter.Runs.countFail hM hkey _ st
    · simp only [if_neg h0]
      by_cases hp : p = .extractModel
      · subst hp
        refine Meter.Runs.at ?_
        refine Runs.state A hkey rfl (by decide) (fun _ => if_pos rfl) (fun _ _ => if_pos rfl) (Meter.Runs.pure hM _) (fun x => Meter.Runs.read fun s => ?_)
        show (meter A).At s _ (fun t => if s.base.conePred = true then _ else _)
        split
        · refine Meter.At.lift fun _ => Meter.At.bind (Meter.At.set hM ?_ ?_) fun _ => Meter.Runs.pure hM _
          · exact Nat.le_refl _
          · exact fun _ => rfl
        · exact Meter.At.pure hM s _
      · refine Meter.Runs.at ?_
        refine Runs.verdict A hkey ?_ ?_ (fun _ => if_neg hp) (fun _ _ => if_neg hp) (Meter.Runs.pure hM _) (Meter.Runs.pure hM _)
        · cases p <;> rfl
        · cases p with
          | extractModel => exact absurd rfl hp
          | doNotExtractModel => decide
          | noInd => decide
  | null => exact Meter.Runs.lift hM _
  | inf => exact Meter.Runs.lift hM _

theorem isBlocked_runs (s : TCube) : (meter A).Runs (A.isBlockedC s) (fun t => isBlocked (I := I.probe t) s) := by
  have hM := meter_ok A
  obtain ⟨sc, sf⟩ := s
  cases sf with
  | ok i =>
    refine Meter.Runs.read fun st => ?_
    show (meter A).At st _ (fun t => if (st.base.f.drop i).any (fun cubes => cubes.any (fun c => subsumes c sc)) = true then _ else _)
    split
    · exact Meter.At.pure hM st _
    · exact solverBlocked_runs A _ st
  | null => exact Meter.Runs.lift hM _
  | inf => exact Meter.Runs.lift hM _

theorem generalizeLoop_runs (frame : Frame) (budget : Nat) (lits : List Literal) (j : Nat) :
    (meter A).Runs (A.generalizeLoopC frame budget lits j) (fun t => (A.with' t).generalizeLoop frame budget lits j) := by
  have hM := meter_ok A
  induction budget generalizing lits j with
  | zero =>
    unfold generalizeLoopC generalizeLoop
    split
    · exact Meter.Runs.lift hM _
    · exact Meter.Runs.pure hM _
  | succ budget ih =>
    unfold generalizeLoopC generalizeLoop
    split
    · refine (Meter.Runs.lift hM _).bind fun p => ?_
      obtain ⟨removed, rest⟩ := p
      dsimp only
      refine Meter.Runs.bind ?_ fun b => ?_
      · show (meter A).Runs _ (fun t => if A.isInitial (Cube.new rest) = true then _ else _)
        split
        · exact Meter.Runs.pure hM _
        · exact (solveRelative_runs A _ _).bind fun _ => Meter.Runs.pure hM _
      · cases b
        · exact (Meter.Runs.lift hM _).bind fun _ => ih _ _
        · exact ih _ _
    · exact Meter.Runs.pure hM _

theorem generalize_runs (s : TCube) : (meter A).Runs (A.generalizeC s) (fun t => (A.with' t).generalize s) :=
  fresh_runs.bind fun _ => (generalizeLoop_runs A _ _ _ _).bind fun _ => Meter.Runs.pure (meter_ok A) _

theorem propagateLoop_runs (k budget index : Nat) :
    (meter A).Runs (A.propagateLoopC k budget index) (fun t => (A.with' t).propagateLoop k budget index) := by
  have hM := meter_ok A
  induction budget generalizing index with
  | zero =>
    unfold propagateLoopC propagateLoop
    refine Meter.Runs.read fun s => Meter.At.lift fun l => ?_
    cases l[index]? with
    | none => exact Meter.At.pure hM s _
    | some c => exact Meter.Runs.lift hM _ s
  | succ budget ih =>
    unfold propagateLoopC propagateLoop
    refine Meter.Runs.read fun s => Meter.At.lift fun l => ?_
    cases l[index]? with
    | none => exact Meter.At.pure hM s _
    | some c =>
      refine Meter.At.bind (solveRelative_runs A _ _ s) fun r => ?_
      split
      · exact (addBlockedCube_runs A _).bind fun _ => ih _
      · exact ih _

theorem propagateFrames_runs (ks : List Nat) : (meter A).Runs (A.propagateFramesC ks) (fun t => (A.with' t).propagateFrames ks) := by
  have hM := meter_ok A
  induction ks with
  | nil => exact Meter.Runs.pure hM _
  | cons k ks ih =>
    refine Meter.Runs.read fun s => Meter.At.lift fun l => Meter.At.bind (propagateLoop_runs A _ _ _ s) fun _ => Meter.Runs.read fun s =>
      Meter.At.lift fun l => ?_
    split
    · exact Meter.At.pure hM s _
    · exact ih s

theorem propagateBlockedCubes_runs :
    (meter A).Runs A.propagateBlockedCubesC (fun t => (A.with' t).propagateBlockedCubes) :=
  depth_runs.bind fun _ => propagateFrames_runs A _

theorem forwardLoop_runs (budget : Nat) (z : TCube) (zf : Nat) :
    (meter A).Runs (A.forwardLoopC budget z zf) (fun t => (A.with' t).forwardLoop budget z zf) := by
  have hM := meter_ok A
  induction budget generalizing z zf with
  | zero =>
    unfold forwardLoopC forwardLoop
    refine depth_runs.bind fun d => ?_
    split
    · exact Meter.Runs.lift hM _
    · split
      · exact Meter.Runs.lift hM _
      · exact Meter.Runs.pure hM _
  | succ budget ih =>
    unfold forwardLoopC forwardLoop
    refine depth_runs.bind fun d => ?_
    split
    · exact Meter.Runs.lift hM _
    · split
      · refine (Meter.Runs.lift hM _).bind fun n => (solveRelative_runs A _ _).bind fun y => ?_
        split
        · refine (Meter.Runs.lift hM _).bind fun _ => ?_
          obtain ⟨yc, yf⟩ := y
          cases yf with
          | ok i => exact ih _ _
          | null => exact Meter.Runs.lift hM _
          | inf => exact Meter.Runs.lift hM _
        · exact Meter.Runs.pure hM _
      · exact Meter.Runs.pure hM _

theorem handle_runs (s : TCube) (sf : Nat) (q : PQueue TCube) : (meter A).Runs (A.handleC s sf q) (fun t => (A.with' t).handle s sf q) := by
  unfold handleC handle
  have hM := meter_ok A
  refine (Meter.Runs.lift hM _).bind fun _ => (solveRelative_runs A _ _).bind fun z => ?_
  split
  · refine (generalize_runs A _).bind fun z => (Meter.Runs.lift hM _).bind fun _ => ?_
    obtain ⟨zc, zf⟩ := z
    cases zf with
    | ok zf =>
      refine depth_runs.bind fun d => (forwardLoop_runs A _ _ _).bind fun z => (Meter.Runs.lift hM _).bind fun _ => (addBlockedCube_runs A _).bind fun _ =>
        (Meter.Runs.lift hM _).bind fun _ => depth_runs.bind fun d => ?_
      split
      · refine (Meter.Runs.lift hM _).bind fun n => ?_
        obtain ⟨nc, nf⟩ := n
        cases nf with
        | ok nf => exact Meter.Runs.pure hM _
        | null => exact Meter.Runs.lift hM _
        | inf => exact Meter.Runs.lift hM _
      · exact Meter.Runs.pure hM _
    | null => exact Meter.Runs.lift hM _
    | inf => exact Meter.Runs.lift hM _
  · exact (Meter.Runs.lift hM _).bind fun _ => Meter.Runs.pure hM _

theorem blockQueue_runs (fuel : Nat) (q : PQueue TCube) : (meter A).Runs (A.blockQueueC fuel q) (fun t => (A.with' t).blockQueue fuel q) := by
  have hM := meter_ok A
  induction fuel generalizing q with
  | zero =>
    unfold blockQueueC blockQueue
    split
    · exact Meter.Runs.pure hM _
    · exact Meter.Runs.lift hM _
  | succ fuel ih =>
    unfold blockQueueC blockQueue
    split
    · exact Meter.Runs.pure hM _
    · refine fresh_runs.bind fun t => (Meter.Runs.lift hM _).bind fun p => ?_
      obtain ⟨⟨⟨sc, sf⟩, i⟩, q⟩ := p
      cases sf with
      | ok sf =>
        dsimp only
        split
        · exact Meter.Runs.pure hM _
        · refine (isBlocked_runs A _).bind fun b => ?_
          cases b
          · exact (handle_runs A _ _ _).bind fun _ => ih _
          · exact ih _
      | null => exact Meter.Runs.lift hM _
      | inf => exact Meter.Runs.lift hM _

theorem recBlockCube_runs (fuel : Nat) (s : TCube) : (meter A).Runs (A.recBlockCubeC fuel s) (fun t => (A.with' t).recBlockCube fuel s) := by
  obtain ⟨sc, sf⟩ := s
  cases sf with
  | ok p => exact blockQueue_runs A _ _
  | null => exact Meter.Runs.lift (meter_ok A) _
  | inf => exact Meter.Runs.lift (meter_ok A) _

theorem mainLoop_runs (fuel rounds : Nat) : (meter A).Runs (A.mainLoopC fuel rounds) (fun t => (A.with' t).mainLoop fuel rounds) := by
  have hM := meter_ok A
  induction rounds with
  | zero => exact Meter.Runs.lift hM _
  | succ rounds ih =>
    unfold mainLoopC mainLoop
    refine (getBadCube_runs A).bind fun c => ?_
    cases c with
    | some c =>
      refine depth_runs.bind fun d => (recBlockCube_runs A _ _).bind fun b => ?_
      cases b
      · exact depth_runs.bind fun d => (Meter.Runs.lift hM _).bind fun _ => Meter.Runs.pure hM _
      · exact ih
    | none =>
      refine (newFrame_runs A).bind fun _ => (propagateBlockedCubes_runs A).bind fun o => ?_
      cases o with
      | some i => exact (getRi_runs A _).bind fun _ => Meter.Runs.pure hM _
      | none => exact ih

theorem prove_runs (fuel : Nat) : (meter A).Runs (A.proveC fuel) (fun t => (A.with' t).prove fuel) := by
  have h : (meter A).Runs (Counted.plain (modify fun s => { s with f := s.f ++ [[]] } : StateT (St I) Res PUnit))
      (fun t => (do let s ← get; set { s with f := s.f ++ [[]] } : StateT (St (I.probe t)) Res PUnit)) := by
    refine Meter.Still.runs (meter_ok A) fun s => ?_
    exact ⟨Nat.le_refl _, fun _ => rfl⟩
  exact h.bind fun _ => (newFrame_runs A).bind fun _ => mainLoop_runs A fuel fuel

/-- There is at most one call at a moment. -/
theorem unique {ts : List (Nat × String)} (h : (ts.map Prod.fst).Pairwise (· < ·)) {p q : Nat × String} (hp : p ∈ ts) (hq : q ∈ ts) (e : p.1 = q.1) :
    p = q := by
  induction ts with
  | nil => cases hp
  | cons a ts ih =>
    have h' := List.pairwise_cons.1 h
    have lt : ∀ b ∈ ts, a.1 < b.1 := fun b hb => h'.1 _ (List.mem_map_of_mem hb)
    rcases List.mem_cons.1 hp with hp' | hp'
    · rcases List.mem_cons.1 hq with hq' | hq'
      · rw [hp', hq']
      · have := lt q hq'; rw [← hp'] at this; omega
    · rcases List.mem_cons.1 hq with hq' | hq'
      · have := lt p hp'; rw [← hq'] at this; omega
      · exact ih h'.2 hp' hq'

/-- What a run with `sat_call_stats` has to do with runs without. -/
theorem run_tells (dbg : Bool) (I : StatefulImpl) (sched : Sched) (f : Fsts) (fuel : Nat) :
    (∀ r st, runC dbg I sched f fuel = .ok (r, st) → run dbg I sched f fuel = .ok r ∧ ∃ calls : List (Nat × String),
      (calls.map Prod.fst).Pairwise (· < ·) ∧ (∀ p ∈ calls, p.2 ∈ Stats.keys) ∧
      (∀ t c d, ((∃ p ∈ calls, p.1 = t ∧ Stats.kind p.2 = (c, d)) → run dbg (I.failOn t c d) sched f fuel = .error asked) ∧
        ((¬ ∃ p ∈ calls, p.1 = t ∧ Stats.kind p.2 = (c, d)) → run dbg (I.failOn t c d) sched f fuel = .ok r)) ∧
      (∀ t, (∀ k ∈ pdrReads, (t, k) ∉ calls) → run dbg (I.blankAt t) sched f fuel = .ok r) ∧
      (∀ t, ∀ k ∈ pdrReads, (t, k) ∈ calls → ∀ e, f.extractState dbg ⟨[], []⟩ = .error e → run dbg (I.claimAt t) sched f fuel = .error e) ∧
      st = Stats.keys.map (fun k => (k, Meter.num k calls % u32Size)) ∧ (dbg = true → ∀ k, Meter.num k calls < u32Size)) ∧
    (∀ e, runC dbg I sched f fuel = .error e → run dbg I sched f fuel = .error e ∨
      (dbg = true ∧ e = .panic "pdr.rs sat_call_stats overflow" ∧ ∃ (calls : List (Nat × String)) (k : String), (calls.map Prod.fst).Pairwise (· < ·) ∧
        k ∈ Stats.keys ∧ Meter.num k calls + 1 = u32Size ∧
        (∀ p ∈ calls, run dbg (I.failOn p.1 (Stats.kind p.2).1 (Stats.kind p.2).2) sched f fuel = .error asked) ∧
        (∀ t, ∀ k ∈ pdrReads, (t, k) ∈ calls → ∀ e, f.extractState dbg ⟨[], []⟩ = .error e → run dbg (I.claimAt t) sched f fuel = .error e))) := by
  let A : PDR I := ⟨dbg, f, sched, formulas f⟩
  let b : St I := ⟨[], [], [], [], true, true, 0⟩
  have hg : Stats.Good Stats.new := ⟨rfl, by decide⟩
  have h1 := prove_runs A fuel ⟨b, Stats.new⟩ hg
  have e1 : runC dbg I sched f fuel = (A.proveC fuel ⟨b, Stats.new⟩).map fun p => (p.1, p.2.stats) := by
    show Except.bind (A.proveC fuel ⟨b, Stats.new⟩) _ = _
    cases A.proveC fuel ⟨b, Stats.new⟩ <;> rfl
  have e2 : ∀ (J : StatefulImpl), run dbg J sched f fuel =
      ((⟨dbg, f, sched, formulas f⟩ : PDR J).prove fuel (⟨[], [], [], [], true, true, 0⟩ : St J)).map Prod.fst := fun J => by
    show Except.bind ((⟨dbg, f, sched, formulas f⟩ : PDR J).prove fuel (⟨[], [], [], [], true, true, 0⟩ : St J)) _ = _
    cases (⟨dbg, f, sched, formulas f⟩ : PDR J).prove fuel (⟨[], [], [], [], true, true, 0⟩ : St J) <;> rfl
  have ok : ∀ t r u, (A.with' t).prove fuel ((meter A).view t b) = .ok (r, u) → run dbg (I.probe t) sched f fuel = .ok r :=
    fun t r u h => (e2 (I.probe t)).trans ((congrArg (Except.map Prod.fst) h).trans rfl)
  have er : ∀ t e, (A.with' t).prove fuel ((meter A).view t b) = .error e → run dbg (I.probe t) sched f fuel = .error e :=
    fun t e h => (e2 (I.probe t)).trans ((congrArg (Except.map Prod.fst) h).trans rfl)
  have c0 : ∀ k, (meter A).cnt Stats.new k = 0 := fun k => by
    show (Stats.new.lookup k).getD 0 = 0
    cases e : Stats.new.lookup k with
    | none => rfl
    | some n =>
      have hz : ∀ p ∈ Stats.new, p.2 = 0 := by decide
      exact hz _ (Stats.lookup_mem e)
  have claim : ∀ ts : List (Nat × String), (ts.map Prod.fst).Pairwise (· < ·) → ∀ t, ∀ k ∈ pdrReads, (t, k) ∈ ts → ∀ e, f.extractState dbg ⟨[], []⟩ = .error e →
      (meter A).Hit (.claim t) ts ∧ ¬ (meter A).Free (.claim t) ts ∧ (meter A).err (.claim t) = e := fun ts ha t k hk hm e he => by
    refine ⟨⟨_, hm, rfl, hk, e, he⟩, ?_, ?_⟩
    · rintro ⟨p, hp, hpt, hn⟩
      have : p = (t, k) := unique ha hp hm hpt
      rw [this] at hn
      exact hn ⟨hk, e, he⟩
    · show Probe.err A (.claim t) = e
      unfold Probe.err
      rw [show A.nothing = .error e from he]
  refine ⟨fun r st hr => ?_, fun e he => ?_⟩
  · rw [e1] at hr
    cases hx : A.proveC fuel ⟨b, Stats.new⟩ with
    | error e => rw [hx] at hr; cases hr
    | ok p =>
      obtain ⟨r', s⟩ := p
      rw [hx] at hr
      cases hr
      rw [hx] at h1
      obtain ⟨ts, hs, ht⟩ := h1
      refine ⟨ok .same _ _ (ht .same).none, ts, hs.asc.1, hs.key, fun t c d => ⟨?_, fun hn => ?_⟩, fun t hn => ?_, fun t k hk hm e he => ?_, ?_, fun hd k => ?_⟩
      · rintro ⟨p, hp, rfl, hk⟩
        rcases ht (.fail p.1 c d) with ⟨_, _, hf⟩ | ⟨_, hy⟩ | ⟨hh, _⟩
        · exact hf.elim
        · exact er (.fail p.1 c d) _ hy
        · exact absurd ⟨p, hp, rfl, hk⟩ hh
      · rcases ht (.fail t c d) with ⟨_, _, hf⟩ | ⟨⟨p, hp, he⟩, _⟩ | ⟨_, hy⟩
        · exact hf.elim
        · exact absurd ⟨p, hp, he⟩ hn
        · exact ok (.fail t c d) _ _ hy
      · rcases ht (.blank t) with ⟨p, hp, rfl, hf⟩ | ⟨⟨p, _, hf⟩, _⟩ | ⟨_, hy⟩
        · exact absurd hp (hn _ hf)
        · exact hf.elim
        · exact ok (.blank t) _ _ hy
      · obtain ⟨hh, hf, hc⟩ := claim ts hs.asc.1 t k hk hm e he
        rcases ht (.claim t) with h | ⟨_, hy⟩ | ⟨h, _⟩
        · exact absurd h hf
        · exact er (.claim t) _ (hc ▸ hy)
        · exact absurd hh h
      · refine (Stats.eq_of_keys hs.good.1).trans (List.map_congr_left fun k _ => ?_)
        have := hs.cnt k
        rw [c0, Nat.zero_add] at this
        exact congrArg (Prod.mk k) this
      · have := hs.debug hd k
        rw [c0, Nat.zero_add] at this
        exact this
  · rw [e1] at he
    cases hx : A.proveC fuel ⟨b, Stats.new⟩ with
    | ok p => rw [hx] at he; cases he
    | error e' =>
      rw [hx] at he
      cases he
      rw [hx] at h1
      rcases h1 with ⟨he, hd, ts, k, hf, hk, hn, hp⟩ | h1
      · rw [c0, Nat.zero_add] at hn
        refine .inr ⟨hd, he, ts, k, hf.1, hk, hn, fun p hp' => ?_, fun t k hk hm e he => ?_⟩
        · rcases hp (.fail p.1 (Stats.kind p.2).1 (Stats.kind p.2).2) ⟨p, hp', rfl, rfl⟩ with ⟨_, _, h⟩ | hy
          · exact h.elim
          · exact er (.fail p.1 (Stats.kind p.2).1 (Stats.kind p.2).2) _ hy
        · obtain ⟨hh, hf, hc⟩ := claim ts hf.1 t k hk hm e he
          rcases hp _ hh with h | hy
          · exact absurd h hf
          · exact er (.claim t) _ (hc ▸ hy)
      · exact .inl (er .same _ h1)

end PDR

end Verif
