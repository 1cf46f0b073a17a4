import Verif.Model.Verbose
import Verif.Proofs.PdrFlags

/-! # Progress reports: they change nothing, and what they say -/

namespace Verif

variable {σ α β : Type}

/-- The reports dropped. -/
def Drops (m : StateT σ Res (List Report × α)) (m' : StateT σ Res α) : Prop := ∀ s, (m s).map (fun x => (x.1.2, x.2)) = m' s

namespace Drops

theorem pure (p : List Report) (a : α) : Drops (Pure.pure (p, a) : StateT σ Res _) (Pure.pure a) := fun _ => rfl

theorem error (e : Err) : Drops (liftM (.error e : Res (List Report × α)) : StateT σ Res _) (liftM (.error e : Res α)) := fun _ => rfl

theorem bind {m : StateT σ Res β} {k : β → StateT σ Res (List Report × α)} {k' : β → StateT σ Res α} (h : ∀ b, Drops (k b) (k' b)) :
    Drops (m >>= k) (m >>= k') := by
  intro s
  show Except.map _ (Except.bind (m s) fun p => k p.1 p.2) = Except.bind (m s) fun p => k' p.1 p.2
  cases m s with
  | ok p => exact h p.1 p.2
  | error e => rfl

/-- A step whose own reports are dropped as well. -/
theorem bind2 {m : StateT σ Res (List Report × β)} {m' : StateT σ Res β} {k : List Report × β → StateT σ Res (List Report × α)}
    {k' : β → StateT σ Res α} (hm : Drops m m') (h : ∀ p b, Drops (k (p, b)) (k' b)) : Drops (m >>= k) (m' >>= k') := by
  intro s
  show Except.map _ (Except.bind (m s) fun p => k p.1 p.2) = Except.bind (m' s) fun p => k' p.1 p.2
  rw [← hm s]
  cases m s with
  | ok p => exact h p.1.1 p.1.2 p.2
  | error e => rfl

/-- A step that only reads. -/
theorem skip {m : StateT σ Res β} {k : β → StateT σ Res (List Report × α)} {m' : StateT σ Res α} (hm : ∀ s, ∃ b, m s = .ok (b, s))
    (h : ∀ b, Drops (k b) m') : Drops (m >>= k) m' := by
  intro s
  show Except.map _ (Except.bind (m s) fun p => k p.1 p.2) = _
  obtain ⟨b, e⟩ := hm s
  rw [e]
  exact h b s

theorem after {m : StateT σ Res (List Report × α)} {m' : StateT σ Res α} (h : Drops m m') (q : List Report) :
    Drops (m >>= fun x => Pure.pure (q ++ x.1, x.2)) m' := by
  intro s
  show Except.map _ (Except.bind (m s) fun p => _) = _
  rw [← h s]
  cases m s <;> rfl

theorem ite {q : Prop} [Decidable q] {m n : StateT σ Res (List Report × α)} {m' n' : StateT σ Res α} (h1 : Drops m m') (h2 : Drops n n') :
    Drops (if q then m else n) (if q then m' else n') := by
  split
  · exact h1
  · exact h2

end Drops

namespace IC3

theorem report_reads (A : IC3 σ) (v : Bool) (k : Nat) (s : σ) : ∃ b, A.report v k s = .ok (b, s) := by
  cases v <;> exact ⟨_, rfl⟩

theorem findFixpointV_drops (A : IC3 σ) (v : Bool) (k : Nat) : ∀ is, Drops (A.findFixpointV v k is) (A.findFixpoint is)
  | [] => Drops.pure _ _
  | _ :: is => Drops.bind fun _ => Drops.bind fun _ => Drops.bind fun _ => Drops.ite
      (Drops.skip (A.report_reads v k) fun _ => Drops.bind fun _ => Drops.pure _ _) (findFixpointV_drops A v k is)

theorem mainLoopV_drops (A : IC3 σ) (v : Bool) (fuel : Nat) : ∀ rounds k, Drops (A.mainLoopV v fuel rounds k) (A.mainLoop fuel rounds k)
  | 0, _ => Drops.error _
  | rounds + 1, k => by
    refine Drops.bind fun _ => Drops.skip (A.report_reads v k) fun p => Drops.bind fun _ => Drops.bind fun r => ?_
    cases r with
    | some d => exact Drops.bind fun _ => Drops.pure _ _
    | none =>
      refine Drops.bind fun _ => Drops.bind2 (findFixpointV_drops A v k _) fun q r => ?_
      cases r with
      | some inv => exact Drops.pure _ _
      | none => exact (mainLoopV_drops A v fuel rounds (k + 1)).after (p ++ q)

theorem proveV_drops (A : IC3 σ) (v : Bool) (fuel : Nat) : Drops (A.proveV v fuel) (A.prove fuel) := by
  refine Drops.bind fun r => ?_
  cases r with
  | sat a => exact Drops.pure _ _
  | unsat =>
    refine Drops.bind fun r => ?_
    cases r with
    | sat a => exact Drops.pure _ _
    | unsat => exact Drops.bind fun _ => Drops.bind fun _ => mainLoopV_drops A v fuel _ _

end IC3

namespace IC3

/-- `P` stays true. -/
def Keep (P : σ → Prop) (m : StateT σ Res α) : Prop := Tri (fun _ => True) P m (fun _ s => P s)

namespace Keep

variable {P : σ → Prop}

theorem pure (a : α) : Keep P (Pure.pure a : StateT σ Res α) := Tri.pure fun _ h => h

theorem bind {m : StateT σ Res α} {k : α → StateT σ Res β} (h : Keep P m) (hk : ∀ a, Keep P (k a)) : Keep P (m >>= k) := Tri.bind h hk

theorem lift (r : Res α) : Keep P (liftM r : StateT σ Res α) := by
  refine Tri.lift fun s hs => ?_
  cases r with
  | ok a => exact hs
  | error e => trivial

theorem ite {q : Prop} [Decidable q] {m n : StateT σ Res α} (h1 : Keep P m) (h2 : Keep P n) : Keep P (if q then m else n) :=
  Tri.ite (fun _ => h1) (fun _ => h2)

theorem read {k : σ → StateT σ Res α} (h : ∀ s, P s → Keep P (k s)) : Keep P ((get : StateT σ Res σ) >>= k) :=
  fun s hs => h s hs s hs

theorem write {s' : σ} (h : P s') : Keep P (MonadStateOf.set s' : StateT σ Res PUnit) := Tri.set fun _ _ => h

theorem skip (r : Res α) {k : α → StateT σ Res β} {Q : β → σ → Prop} (hk : ∀ a, Tri (fun _ => True) P (k a) Q) :
    Tri (fun _ => True) P (liftM r >>= k) Q := Tri.bind (lift r) hk

theorem readP {k : σ → StateT σ Res α} {Q : α → σ → Prop} (h : ∀ s, P s → Tri (fun _ => True) P (k s) Q) :
    Tri (fun _ => True) P ((get : StateT σ Res σ) >>= k) Q := fun s hs => h s hs s hs

end Keep

/-- The operations keep the number of frames. -/
structure Steady (A : IC3 σ) : Prop where
  tick : ∀ n, Keep (fun s => (A.clauses s).length = n) A.tick
  addClause : ∀ n j c, Keep (fun s => (A.clauses s).length = n) (A.addClause j c)
  enterFrame : ∀ n k, Keep (fun s => (A.clauses s).length = n) (A.enterFrame k)
  badIn0 : ∀ n, Keep (fun s => (A.clauses s).length = n) A.badIn0
  badIn1 : ∀ n, Keep (fun s => (A.clauses s).length = n) A.badIn1
  badFrom : ∀ n k, Keep (fun s => (A.clauses s).length = n) (A.badFrom k)
  cubeReach : ∀ n k z, Keep (fun s => (A.clauses s).length = n) (A.cubeReach k z)
  cubeReachNew : ∀ n k z, Keep (fun s => (A.clauses s).length = n) (A.cubeReachNew k z)
  clauseInductive : ∀ n d i, Keep (fun s => (A.clauses s).length = n) (A.clauseInductive d i)
  pushFrame : ∀ n, Tri (fun _ => True) (fun s => (A.clauses s).length = n) A.pushFrame
    (fun _ s => (A.clauses s).length = n + 1 ∧ (A.clauses s).getLast? = some CNF.new)

section

variable {A : IC3 σ} (h : Steady A) {n : Nat}

theorem len_frame (k : Nat) : Keep (fun s => (A.clauses s).length = n) (A.frame k) := Keep.read fun _ _ => Keep.lift _

theorem len_getFk (k : Nat) : Keep (fun s => (A.clauses s).length = n) (A.getFk k) := Keep.bind (len_frame k) fun _ => Keep.pure _

include h

theorem len_propagateLoop (i : Nat) : ∀ cs, Keep (fun s => (A.clauses s).length = n) (A.propagateLoop i cs) := by
  intro cs
  induction cs with
  | nil => exact Keep.pure _
  | cons c cs ih =>
    unfold propagateLoop
    refine Keep.bind (h.cubeReach n _ _) fun r => ?_
    cases r with
    | unsat => exact Keep.bind (h.addClause n _ _) fun _ => ih
    | sat a => exact ih

theorem len_propagateFrames : ∀ is, Keep (fun s => (A.clauses s).length = n) (A.propagateFrames is)
  | [] => Keep.pure _
  | _ :: is => Keep.bind (len_frame _) fun _ => Keep.bind (h.tick n) fun _ => Keep.bind (len_propagateLoop h _ _) fun _ => len_propagateFrames is

theorem len_subclauseLoop (i : Nat) : ∀ b lits j, Keep (fun s => (A.clauses s).length = n) (A.subclauseLoop i b lits j) := by
  intro b
  induction b with
  | zero => intro lits j; unfold subclauseLoop; exact Keep.ite (Keep.lift _) (Keep.pure _)
  | succ b ih =>
    intro lits j
    unfold subclauseLoop
    refine Keep.ite (Keep.bind (Keep.lift _) fun x => ?_) (Keep.pure _)
    exact Keep.bind (h.clauseInductive n _ _) fun d => Keep.ite (ih _ _) (Keep.bind (Keep.lift _) fun _ => ih _ _)

theorem len_addToFrames (c : Clause) : ∀ js, Keep (fun s => (A.clauses s).length = n) (A.addToFrames c js)
  | [] => Keep.pure _
  | _ :: js => Keep.bind (h.addClause n _ _) fun _ => len_addToFrames c js

theorem len_generateClause (s : Cube) (i : Nat) : Keep (fun s => (A.clauses s).length = n) (A.generateClause s i) :=
  Keep.bind (Keep.bind (h.tick n) fun _ => Keep.bind (len_subclauseLoop h _ _ _ _) fun _ => Keep.pure _) fun _ => len_addToFrames h _ _

theorem len_generalizeLoop (s : Cube) (k : Nat) : ∀ is, Keep (fun s => (A.clauses s).length = n) (A.generalizeLoop s k is)
  | [] => Keep.bind (len_generateClause h _ _) fun _ => Keep.pure _
  | _ :: is => Keep.bind (h.cubeReachNew n _ _) fun _ => Keep.ite (Keep.bind (len_generateClause h _ _) fun _ => Keep.pure _)
      (len_generalizeLoop s k is)

theorem len_inductivelyGeneralize (s : Cube) (min : Int) (k : Nat) : Keep (fun s => (A.clauses s).length = n) (A.inductivelyGeneralize s min k) :=
  Keep.ite (Keep.bind (h.cubeReachNew n _ _) fun _ => Keep.ite (Keep.pure _) (len_generalizeLoop h _ _ _)) (len_generalizeLoop h _ _ _)

theorem len_pushGeneralization (k : Nat) : ∀ fuel q, Keep (fun s => (A.clauses s).length = n) (A.pushGeneralization k fuel q) := by
  intro fuel
  induction fuel with
  | zero => intro q; exact Keep.lift _
  | succ fuel ih =>
    intro q
    unfold pushGeneralization
    refine Keep.bind (h.tick n) fun _ => Keep.bind (Keep.lift _) fun x => Keep.ite (Keep.pure _) (Keep.bind (h.cubeReach n _ _) fun r => ?_)
    cases r with
    | sat a =>
      refine Keep.bind (Keep.lift _) fun p => Keep.bind (len_inductivelyGeneralize h _ _ _) fun g => ?_
      cases g with
      | failure => exact Keep.pure _
      | success m => exact ih _
    | unsat =>
      refine Keep.bind (len_inductivelyGeneralize h _ _ _) fun g => ?_
      cases g with
      | failure => exact Keep.pure _
      | success m => exact ih _

theorem len_strengthen (fuel k : Nat) : ∀ rounds, Keep (fun s => (A.clauses s).length = n) (A.strengthen fuel k rounds) := by
  intro rounds
  induction rounds with
  | zero => exact Keep.lift _
  | succ rounds ih =>
    unfold strengthen
    refine Keep.bind (h.badFrom n _) fun r => ?_
    cases r with
    | unsat => exact Keep.pure _
    | sat a =>
      refine Keep.bind (Keep.lift _) fun s => Keep.bind (len_inductivelyGeneralize h _ _ _) fun g => ?_
      cases g with
      | failure => exact Keep.bind (Keep.lift _) fun _ => Keep.pure _
      | success m => exact Keep.bind (len_pushGeneralization h _ _ _) fun _ => Keep.ite ih (Keep.bind (Keep.lift _) fun _ => Keep.pure _)

end

/-- One report in the round `k`. -/
def Shows (p : Report) : Prop := p.lengths.length = min 10 (p.level + 2)

theorem report_shows (A : IC3 σ) (k : Nat) : Tri (fun _ => True) (fun s => (A.clauses s).length = k + 2) (A.report true k)
    (fun p s => (∃ q, Shows q ∧ p = [q] ∧ q.level = k) ∧ (A.clauses s).length = k + 2) := by
  intro s hs
  refine ⟨⟨_, ?_, rfl, rfl⟩, hs⟩
  show (((A.clauses s).map CNF.len).reverse.take 10).length = _
  rw [List.length_take, List.length_reverse, List.length_map, hs]

theorem findFixpointV_lines (A : IC3 σ) (k : Nat) : ∀ is, Tri (fun _ => True) (fun s => (A.clauses s).length = k + 2) (A.findFixpointV true k is)
    (fun x s => ((∃ q, Shows q ∧ q.level = k ∧ x.1 = [q] ∧ ∃ g, x.2 = some g) ∨ x = ([], none)) ∧ (A.clauses s).length = k + 2)
  | [] => Tri.pure fun _ hs => ⟨.inr rfl, hs⟩
  | _ :: is => by
    refine Tri.bind (len_frame _) fun a => Tri.bind (len_frame _) fun b => Tri.bind (R := fun _ s => (A.clauses s).length = k + 2) (Keep.lift _) fun _ => ?_
    refine Tri.ite (fun _ => ?_) fun _ => findFixpointV_lines A k is
    refine Tri.bind (report_shows A k) fun p => Tri.of_pre (fun _ h => h.1) fun ⟨q, hq, hp, hk⟩ => ?_
    subst hp
    exact Tri.bind (Tri.pre (len_getFk _) fun _ h => h.2) fun g => Tri.pure fun _ hs => ⟨.inl ⟨q, hq, hk, rfl, g, rfl⟩, hs⟩

/-- What the reports of a run from round `k` say: one at the start of each round, and one more for a proof.  In the former the newest frame is empty. -/
def Lines (k : Nat) (x : List Report × ProofResult) : Prop :=
  (∀ p ∈ x.1, Shows p) ∧
  ((∃ d ps, x.2 = .ctx d ∧ x.1 = ps ∧ ps.map Report.level = List.range' k (d + 1 - k) ∧ k ≤ d ∧ ∀ p ∈ ps, p.lengths.head? = some 0) ∨
   (∃ g ps p, x.2 = .proof g ∧ x.1 = ps ++ [p] ∧ ps.map Report.level = List.range' k (p.level + 1 - k) ∧ k ≤ p.level ∧
      ∀ p ∈ ps, p.lengths.head? = some 0))

theorem report_new (A : IC3 σ) (k : Nat) : Tri (fun _ => True) (fun s => (A.clauses s).length = k + 2 ∧ (A.clauses s).getLast? = some CNF.new)
    (A.report true k) (fun p s => (∃ q, Shows q ∧ p = [q] ∧ q.level = k ∧ q.lengths.head? = some 0) ∧ (A.clauses s).length = k + 2) := by
  intro s hs
  obtain ⟨⟨q, h1, h2, h3⟩, h4⟩ := report_shows A k s hs.1
  refine ⟨⟨q, h1, h2, h3, ?_⟩, h4⟩
  cases h2
  show (((A.clauses s).map CNF.len).reverse.take 10).head? = _
  rw [List.head?_take, if_neg (by omega), List.head?_reverse, List.getLast?_map, hs.2]
  rfl

theorem mainLoopV_lines {A : IC3 σ} (h : Steady A) (fuel : Nat) : ∀ rounds k, Tri (fun _ => True) (fun s => (A.clauses s).length = k + 1)
    (A.mainLoopV true fuel rounds k) (fun x _ => Lines k x)
  | 0, _ => fun _ _ => trivial
  | rounds + 1, k => by
    unfold mainLoopV
    refine Tri.bind (h.pushFrame (k + 1)) fun _ => Tri.bind (report_new A k) fun p => ?_
    refine Tri.of_pre (fun _ h => h.1) fun ⟨q, hq, hp, hk, h0⟩ => ?_
    subst hp; subst hk
    refine Tri.bind (Tri.pre (h.enterFrame (q.level + 2) _) fun _ h => h.2) fun _ => Tri.bind (len_strengthen h _ _ _) fun r => ?_
    have one : ∀ p ∈ [q], Shows p := fun p hp => by rw [List.mem_singleton.1 hp]; exact hq
    have one0 : ∀ p ∈ [q], p.lengths.head? = some 0 := fun p hp => by rw [List.mem_singleton.1 hp]; exact h0
    cases r with
    | some d =>
      refine fun s _ => ?_
      show Post _ _ (Except.bind (Except.bind (depthU32 q.level) fun x => _) fun x => _)
      unfold depthU32
      by_cases hu : q.level < u32Size
      · rw [if_pos hu]
        refine ⟨one, .inl ⟨q.level, _, rfl, rfl, ?_, Nat.le_refl _, one0⟩⟩
        rw [show q.level + 1 - q.level = 1 by omega]; rfl
      · rw [if_neg hu]
        trivial
    | none =>
      refine Tri.bind (len_propagateFrames h _) fun _ => Tri.bind (findFixpointV_lines A q.level _) fun ⟨x, r⟩ => ?_
      refine Tri.of_pre (fun _ h => h.1) fun hx => ?_
      rcases hx with ⟨q', hq', hk', hx, g, hg⟩ | hx
      · obtain rfl : x = [q'] := hx
        obtain rfl : r = some g := hg
        refine Tri.pure fun _ _ => ⟨fun p hp => ?_, .inr ⟨g, [q], q', rfl, rfl, ?_, by omega, one0⟩⟩
        · rcases List.mem_append.1 hp with hp | hp
          · exact one p hp
          · rw [List.mem_singleton.1 hp]; exact hq'
        · rw [show q'.level + 1 - q.level = 1 by omega]; rfl
      · cases hx
        refine Tri.bind (Tri.pre (mainLoopV_lines h fuel rounds (q.level + 1)) fun _ h => h.2) fun ⟨ps, r⟩ => Tri.pure fun _ ⟨h1, h2⟩ => ⟨fun p hp => ?_, ?_⟩
        · rcases List.mem_cons.1 hp with rfl | hp
          · exact hq
          · exact h1 p hp
        · rcases h2 with ⟨d, ps', e1, e2, e3, e4, e5⟩ | ⟨g, ps', p, e1, e2, e3, e4, e5⟩
          · obtain rfl : ps = ps' := e2
            refine .inl ⟨d, q :: ps, e1, rfl, ?_, by omega, fun p hp => ?_⟩
            · show q.level :: ps.map Report.level = _
              rw [e3, show d + 1 - q.level = (d + 1 - (q.level + 1)) + 1 by omega, List.range'_succ]
            · rcases List.mem_cons.1 hp with rfl | hp
              · exact h0
              · exact e5 p hp
          · obtain rfl : ps = ps' ++ [p] := e2
            refine .inr ⟨g, q :: ps', p, e1, rfl, ?_, by omega, fun p hp => ?_⟩
            · show q.level :: ps'.map Report.level = _
              rw [e3, show p.level + 1 - q.level = (p.level + 1 - (q.level + 1)) + 1 by omega, List.range'_succ]
            · rcases List.mem_cons.1 hp with rfl | hp
              · exact h0
              · exact e5 p hp

theorem proveV_lines {A : IC3 σ} (h : Steady A) (fuel : Nat) : Tri (fun _ => True) (fun s => (A.clauses s).length = 0) (A.proveV true fuel)
    (fun x _ => (∃ d, d ≤ 1 ∧ x = ([], .ctx d)) ∨ Lines 1 x) := by
  unfold proveV
  refine Tri.bind (h.badIn0 0) fun r => ?_
  cases r with
  | sat a => exact Tri.pure fun _ _ => .inl ⟨0, by omega, rfl⟩
  | unsat =>
    refine Tri.bind (h.badIn1 0) fun r => ?_
    cases r with
    | sat a => exact Tri.pure fun _ _ => .inl ⟨1, by omega, rfl⟩
    | unsat =>
      refine Tri.bind (h.pushFrame 0) fun _ => Tri.bind (Tri.pre (h.pushFrame 1) fun _ h => h.1) fun _ => ?_
      exact Tri.conseq (mainLoopV_lines h fuel fuel 1) (fun _ h => h.1) (fun _ h => h) fun _ _ h => .inr h

theorem steady_stateless (dbg : Bool) (env : Env) (sched : Sched) (f : Fsts) (fm : Formulas) : Steady (stateless dbg env sched f fm) := by
  have tick : ∀ n, Keep (fun s : Stateless => s.clauses.length = n) Stateless.next := fun n =>
    Keep.read fun s hs => Keep.bind (Keep.write (P := fun s : Stateless => s.clauses.length = n) (s' := { s with tick := s.tick + 1 }) hs) fun _ => Keep.pure _
  have call : ∀ n g, Keep (fun s : Stateless => s.clauses.length = n) (Stateless.satCall env g) := fun n g =>
    Keep.bind (tick n) fun _ => Keep.lift _
  have fk : ∀ n k, Keep (fun s : Stateless => s.clauses.length = n) (Stateless.getFk fm k) := fun n k =>
    Keep.read fun _ _ => Keep.bind (Keep.lift _) fun _ => Keep.pure _
  refine ⟨tick, fun n j c => ?_, fun n k => ?_, fun n => call n _, fun n => call n _, fun n k => ?_, fun n k z => ?_, fun n k z => ?_, fun n d i => ?_, fun n => ?_⟩
  · exact Keep.read fun s hs => Keep.bind (Keep.lift _) fun _ => Keep.write ((List.length_set ..).trans hs)
  · exact Keep.read fun _ _ => Keep.lift _
  · exact Keep.bind (fk n k) fun _ => call n _
  · exact Keep.bind (fk n k) fun _ => Keep.bind (Keep.lift _) fun _ => call n _
  · exact Keep.bind (fk n k) fun _ => Keep.bind (Keep.lift _) fun _ => Keep.bind (call n _) fun r => by cases r <;> exact Keep.pure _
  · refine Keep.bind (call n _) fun r => ?_
    cases r with
    | sat a => exact Keep.pure _
    | unsat => exact Keep.bind (fk n i) fun _ => Keep.bind (Keep.lift _) fun _ => Keep.bind (call n _) fun r => by cases r <;> exact Keep.pure _
  · refine Tri.modify fun s hs => ⟨?_, ?_⟩
    · show (s.clauses ++ [CNF.new]).length = n + 1
      rw [List.length_append, show s.clauses.length = n from hs]; rfl
    · show (s.clauses ++ [CNF.new]).getLast? = some CNF.new
      simp

theorem steady_stateful (dbg : Bool) (I : StatefulImpl) (sched : Sched) (f : Fsts) (fm : Formulas) : Steady (stateful dbg I sched f fm) := by
  have tick : ∀ n, Keep (fun s : Stateful I => s.clauses.length = n) Stateful.next := fun n =>
    Keep.read fun s hs => Keep.bind (Keep.write (P := fun s : Stateful I => s.clauses.length = n) (s' := { s with tick := s.tick + 1 }) hs) fun _ => Keep.pure _
  have custom : ∀ n g, Keep (fun s : Stateful I => s.clauses.length = n) (Stateful.callCustom g) := fun n g =>
    Keep.bind (tick n) fun _ => Keep.bind (Keep.lift _) fun _ => Keep.bind (Keep.lift _) fun _ => Keep.pure _
  have init : ∀ n a b, Keep (fun s : Stateful I => s.clauses.length = n) (Stateful.callInitial a b) := fun n a b =>
    Keep.bind (tick n) fun _ => Keep.read fun _ hs => Keep.bind (Keep.lift _) fun _ =>
      Keep.bind (Keep.write (P := fun s : Stateful I => s.clauses.length = n) hs) fun _ => Keep.pure _
  have fiT : ∀ n j a b, Keep (fun s : Stateful I => s.clauses.length = n) (Stateful.callFiAndT j a b) := fun n j a b =>
    Keep.bind (tick n) fun _ => Keep.read fun _ hs => Keep.bind (Keep.lift _) fun _ => Keep.bind (Keep.lift _) fun _ =>
      Keep.bind (Keep.write (P := fun s : Stateful I => s.clauses.length = n) hs) fun _ => Keep.pure _
  have notP : ∀ n j a b, Keep (fun s : Stateful I => s.clauses.length = n) (Stateful.callNotP j a b) := fun n j a b =>
    Keep.bind (tick n) fun _ => Keep.read fun _ hs => Keep.bind (Keep.lift _) fun _ => Keep.bind (Keep.lift _) fun _ =>
      Keep.bind (Keep.write (P := fun s : Stateful I => s.clauses.length = n) hs) fun _ => Keep.pure _
  have meets : ∀ n z, Keep (fun s : Stateful I => s.clauses.length = n) (Stateful.intersectsInitial z) := fun n z =>
    Keep.bind (init n _ _) fun r => by cases r <;> exact Keep.pure _
  refine ⟨tick, fun n j c => ?_, fun n k => ?_, fun n => custom n _, fun n => custom n _, fun n k => notP n _ _ _, fun n k z => ?_, fun n k z => ?_,
    fun n d i => ?_, fun n => ?_⟩
  · exact Keep.read fun s hs => Keep.bind (Keep.lift _) fun _ => Keep.bind (Keep.lift _) fun _ => Keep.bind (Keep.lift _) fun _ => Keep.bind (Keep.lift _) fun _ =>
      Keep.bind (Keep.lift _) fun _ => Keep.bind (Keep.lift _) fun _ => Keep.bind (Keep.lift _) fun _ => Keep.write ((List.length_set ..).trans hs)
  · exact Keep.read fun _ _ => Keep.bind (Keep.lift _) fun _ => Keep.ite (Keep.bind (Keep.lift _) fun _ => Keep.lift _) (Keep.pure _)
  · exact Keep.bind (Keep.lift _) fun _ => fiT n _ _ _
  · exact Keep.bind (Keep.lift _) fun _ => Keep.bind (fiT n _ _ _) fun r => by cases r <;> exact Keep.pure _
  · have last : Keep (fun s : Stateful I => s.clauses.length = n) (do return !(← Stateful.clauseTagSat dbg f i d)) :=
      Keep.bind (Keep.bind (Keep.lift _) fun _ => Keep.bind (fiT n _ _ _) fun r => by cases r <;> exact Keep.pure _) fun _ => Keep.pure _
    show Keep _ (Stateful.clauseInductive dbg f d i)
    unfold Stateful.clauseInductive
    refine Keep.ite (Keep.ite (Keep.bind (meets n _) fun _ => Keep.bind (Keep.lift _) fun _ => Keep.pure _) (Keep.pure _))
      (Keep.ite (Keep.bind (meets n _) fun _ => Keep.bind (Keep.lift _) fun _ => last) last)
  · show Tri _ _ (Stateful.pushFrame dbg fm) _
    unfold Stateful.pushFrame
    refine Keep.readP fun s hs => ?_
    refine Keep.skip _ fun _ => Keep.skip _ fun _ => Keep.skip _ fun _ => Keep.skip _ fun _ => Keep.skip _ fun _ => Keep.skip _ fun _ =>
      Keep.skip _ fun _ => Tri.set fun _ _ => ?_
    refine ⟨?_, ?_⟩
    · show (s.clauses ++ [CNF.new]).length = n + 1
      rw [List.length_append, show s.clauses.length = n from hs]; rfl
    · show (s.clauses ++ [CNF.new]).getLast? = some CNF.new
      simp

theorem proveStatelessV_drops (v dbg : Bool) (env : Env) (sched : Sched) (f : Fsts) (fuel : Nat) :
    (proveStatelessV v dbg env sched f fuel).map Prod.snd = proveStateless dbg env sched f fuel := by
  unfold proveStatelessV proveStateless
  cases formulas dbg f with
  | error e => rfl
  | ok fm =>
    show Except.map _ (Except.bind ((stateless dbg env sched f fm).proveV v fuel ⟨[], 0⟩) fun x => _) =
      Except.bind ((stateless dbg env sched f fm).prove fuel ⟨[], 0⟩) fun x => _
    rw [← proveV_drops _ v fuel _]
    cases (stateless dbg env sched f fm).proveV v fuel ⟨[], 0⟩ <;> rfl

theorem proveStatefulV_drops (v dbg : Bool) (I : StatefulImpl) (sched : Sched) (f : Fsts) (fuel : Nat) :
    (proveStatefulV v dbg I sched f fuel).map Prod.snd = proveStateful dbg I sched f fuel := by
  unfold proveStatefulV proveStateful
  cases formulas dbg f with
  | error e => rfl
  | ok fm =>
    show Except.map _ (Except.bind (I.addCnf f.getInitialRelation.toCnf I.new) fun x => _) = Except.bind (I.addCnf f.getInitialRelation.toCnf I.new) fun x => _
    cases I.addCnf f.getInitialRelation.toCnf I.new with
    | error e => rfl
    | ok i =>
      show Except.map _ (Except.bind ((stateful dbg I sched f fm).proveV v fuel ⟨[], [], i, [], 0⟩) fun x => _) =
        Except.bind ((stateful dbg I sched f fm).prove fuel ⟨[], [], i, [], 0⟩) fun x => _
      rw [← proveV_drops _ v fuel _]
      cases (stateful dbg I sched f fm).proveV v fuel ⟨[], [], i, [], 0⟩ <;> rfl

theorem proveStatelessV_lines (dbg : Bool) (env : Env) (sched : Sched) (f : Fsts) (fuel : Nat) {x : List Report × ProofResult}
    (h : proveStatelessV true dbg env sched f fuel = .ok x) : (∃ d, d ≤ 1 ∧ x = ([], .ctx d)) ∨ Lines 1 x := by
  unfold proveStatelessV at h
  simp only [bind_ok, pure_ok] at h
  obtain ⟨fm, _, y, e, rfl⟩ := h
  exact Tri.elim (proveV_lines (steady_stateless dbg env sched f fm) fuel) rfl e

theorem proveStatefulV_lines (dbg : Bool) (I : StatefulImpl) (sched : Sched) (f : Fsts) (fuel : Nat) {x : List Report × ProofResult}
    (h : proveStatefulV true dbg I sched f fuel = .ok x) : (∃ d, d ≤ 1 ∧ x = ([], .ctx d)) ∨ Lines 1 x := by
  unfold proveStatefulV at h
  simp only [bind_ok, pure_ok] at h
  obtain ⟨fm, _, i, _, y, e, rfl⟩ := h
  exact Tri.elim (proveV_lines (steady_stateful dbg I sched f fm) fuel) rfl e

end IC3

namespace PDR

variable {I : StatefulImpl}

/-- The number of frames. -/
abbrev Len (n : Nat) (s : St I) : Prop := s.f.length = n

variable {n : Nat}

theorem len_setSols {s : St I} (h : Len n s) (w : Which) (l : List I.S) : Len n (s.setSols w l) := by
  cases w <;> exact h

theorem len_fresh : Keep (Len n) (fresh (I := I)) :=
  Keep.read fun s hs => Keep.bind (Keep.write (P := Len n) (s' := { s with tick := s.tick + 1 }) hs) fun _ => Keep.pure _

theorem len_depth : Keep (Len n) (depth (I := I)) := Keep.read fun _ _ => Keep.ite (Keep.lift _) (Keep.pure _)

theorem len_call (w : Which) (i : Nat) (cu : Option Cube) (cl : Option Clause) : Keep (Len n) (call (I := I) w i cu cl) :=
  Keep.bind len_fresh fun _ => Keep.read fun _ hs => Keep.bind (Keep.lift _) fun _ => Keep.bind (Keep.lift _) fun _ =>
    Keep.bind (Keep.write (len_setSols hs _ _)) fun _ => Keep.pure _

theorem len_addAt (w : Which) (i : Nat) (g : CNF) : Keep (Len n) (addAt (I := I) w i g) :=
  Keep.read fun _ hs => Keep.bind (Keep.lift _) fun _ => Keep.bind (Keep.lift _) fun _ => Keep.write (len_setSols hs _ _)

theorem len_isBlocked (t : TCube) : Keep (Len n) (isBlocked (I := I) t) := by
  unfold isBlocked solverBlocked
  cases t.frame with
  | ok i => exact Keep.read fun _ _ => Keep.ite (Keep.pure _) (Keep.bind (len_call _ _ _ _) fun r => by cases r <;> exact Keep.pure _)
  | null => exact Keep.lift _
  | inf => exact Keep.lift _

theorem len_blockLoop (g : CNF) : ∀ is, Keep (Len n) (blockLoop (I := I) g is)
  | [] => Keep.pure _
  | _ :: is => Keep.bind (len_addAt _ _ _) fun _ => Keep.bind (len_addAt _ _ _) fun _ => Keep.bind (len_addAt _ _ _) fun _ => len_blockLoop g is

theorem len_checkLengths (A : PDR I) (site : String) (k : Nat) : Keep (Len n) (A.checkLengths site k) :=
  Keep.read fun _ _ => Keep.bind (Keep.lift _) fun _ => Keep.bind (Keep.lift _) fun _ => Keep.lift _

theorem len_blockCubeInSolver (A : PDR I) (t : TCube) : Keep (Len n) (A.blockCubeInSolver t) := by
  unfold blockCubeInSolver
  refine Keep.bind (len_checkLengths A _ _) fun _ => ?_
  cases t.frame with
  | ok i => exact Keep.read fun _ _ => Keep.bind (Keep.lift _) fun _ => len_blockLoop _ _
  | null => exact Keep.lift _
  | inf => exact Keep.read fun _ _ => len_blockLoop _ _

theorem removeFrames_length (z : Cube) : ∀ (ds : List Nat) (f g : List (List Cube)), removeFrames z ds f = .ok g → g.length = f.length
  | [], f, g, h => by cases h; rfl
  | d :: ds, f, g, h => by
    unfold removeFrames at h
    simp only [bind_ok] at h
    obtain ⟨l, _, l', _, h⟩ := h
    rw [removeFrames_length z ds _ g h, List.length_set]

theorem len_addBlockedCube (A : PDR I) (t : TCube) : Keep (Len n) (A.addBlockedCube t) := by
  unfold addBlockedCube
  cases t.frame with
  | ok i =>
    refine Keep.bind len_depth fun d => Keep.read fun s hs => ?_
    refine Tri.bind (R := fun f s => f.length = n ∧ Len n s) (Tri.lift fun t ht => ?_) fun f => ?_
    · cases hr : removeFrames _ _ s.f with
      | ok g => exact ⟨(removeFrames_length _ _ _ _ hr).trans hs, ht⟩
      | error e => trivial
    · refine Tri.of_pre (A := f.length = n) (fun _ h => h.1) fun hf => Tri.pre (P := Len n) ?_ fun _ h => h.2
      exact Keep.bind (Keep.lift _) fun l => Keep.bind (Keep.write (P := Len n) ((List.length_set ..).trans hf)) fun _ => len_blockCubeInSolver A _
  | null => exact Keep.lift _
  | inf => exact Keep.lift _

theorem len_newFrameSolvers (A : PDR I) : Keep (Len n) A.newFrameSolvers := by
  unfold newFrameSolvers
  refine Keep.bind (len_checkLengths A _ _) fun _ => Keep.read fun s hs => ?_
  split
  · exact Keep.bind (Keep.lift _) fun _ => Keep.bind (Keep.lift _) fun _ => Keep.bind (Keep.lift _) fun _ =>
      Keep.bind (Keep.write (P := Len n) hs) fun _ => len_checkLengths A _ _
  · exact Keep.bind (Keep.lift _) fun _ => Keep.bind (Keep.lift _) fun _ =>
      Keep.bind (Keep.write (P := Len n) hs) fun _ => len_checkLengths A _ _

theorem swapAt_length {α : Type} {l l' : List α} {i j : Nat} (h : swapAt l i j = some l') : l'.length = l.length := by
  unfold swapAt at h
  split at h
  · cases h; simp
  · cases h

theorem len_newFrame (A : PDR I) : Tri (fun _ => True) (Len n) A.newFrame (fun _ s => Len (n + 1) s) := by
  unfold newFrame
  refine fun s hs => ?_
  refine Tri.ite (F := fun _ => True) (P := Len n) (Q := fun _ s => Len (n + 1) s) (m := liftM (panicR "pdr.rs:367 underflow" : Res Unit)) (fun _ => fun _ _ => trivial) (fun _ => ?_) s hs
  refine Tri.bind (R := fun f s => f.length = n + 1 ∧ Len n s) (Tri.lift fun t ht => ?_) fun f => ?_
  · cases hr : swapAt (s.f ++ [[]]) (s.f.length - 1) s.f.length with
    | some g => exact ⟨by rw [swapAt_length hr, List.length_append, hs]; rfl, ht⟩
    | none => trivial
  · refine Tri.of_pre (A := f.length = n + 1) (fun _ h => h.1) fun hf => ?_
    exact Tri.bind (R := fun _ s => Len (n + 1) s) (Tri.set fun _ _ => hf) fun _ => len_newFrameSolvers A

theorem len_getRi (A : PDR I) (i : Nat) : Keep (Len n) (A.getRi i) :=
  Keep.read fun _ _ => Keep.bind (Keep.lift _) fun _ => Keep.bind (Keep.lift _) fun _ => Keep.ite (Keep.pure _) (Keep.pure _)

theorem len_getBadCube (A : PDR I) : Keep (Len n) A.getBadCube := by
  unfold getBadCube
  refine Keep.bind len_depth fun _ => Keep.bind (len_call _ _ _ _) fun r => ?_
  cases r with
  | unsat => exact Keep.pure _
  | sat a =>
    exact Keep.bind (Keep.lift _) fun _ => Keep.read fun _ hs => Keep.ite (Keep.bind (Keep.lift _) fun _ => Keep.bind (Keep.write (P := Len n) hs) fun _ =>
      Keep.pure _) (Keep.pure _)

theorem len_solveRelative (A : PDR I) (t : TCube) (q : Param) : Keep (Len n) (A.solveRelative t q) := by
  unfold solveRelative
  cases t.frame with
  | null => exact Keep.lift _
  | inf => exact Keep.lift _
  | ok i =>
    refine Keep.read fun _ _ => Keep.bind (Keep.lift _) fun _ => Keep.bind (Keep.lift _) fun _ => Keep.ite (Keep.lift _) ?_
    refine Keep.bind (len_call _ _ _ _) fun r => ?_
    cases r with
    | unsat => exact Keep.pure _
    | sat a =>
      exact Keep.ite (Keep.bind (Keep.lift _) fun _ => Keep.read fun _ hs => Keep.ite (Keep.bind (Keep.lift _) fun _ =>
        Keep.bind (Keep.write (P := Len n) hs) fun _ => Keep.pure _) (Keep.pure _)) (Keep.pure _)

section

variable {A : PDR I}

theorem len_generalizeLoop (fr : Frame) : ∀ b lits j, Keep (Len n) (A.generalizeLoop fr b lits j) := by
  intro b
  induction b with
  | zero => intro lits j; unfold generalizeLoop; exact Keep.ite (Keep.lift _) (Keep.pure _)
  | succ b ih =>
    intro lits j
    unfold generalizeLoop
    refine Keep.ite (Keep.bind (Keep.lift _) fun x => ?_) (Keep.pure _)
    refine Keep.bind (Keep.ite (Keep.pure _) (Keep.bind (len_solveRelative A _ _) fun _ => Keep.pure _)) fun d => ?_
    exact Keep.ite (ih _ _) (Keep.bind (Keep.lift _) fun _ => ih _ _)

theorem len_generalize (t : TCube) : Keep (Len n) (A.generalize t) :=
  Keep.bind len_fresh fun _ => Keep.bind (len_generalizeLoop _ _ _ _) fun _ => Keep.pure _

theorem len_propagateLoop (k : Nat) : ∀ b i, Keep (Len n) (A.propagateLoop k b i) := by
  intro b
  induction b with
  | zero =>
    intro i
    unfold propagateLoop
    refine Keep.read fun s _ => Keep.bind (Keep.lift _) fun l => ?_
    cases l[i]? <;> first | exact Keep.pure _ | exact Keep.lift _
  | succ b ih =>
    intro i
    unfold propagateLoop
    refine Keep.read fun s _ => Keep.bind (Keep.lift _) fun l => ?_
    cases l[i]? with
    | none => exact Keep.pure _
    | some c =>
      exact Keep.bind (len_solveRelative A _ _) fun r => Keep.ite (Keep.bind (len_addBlockedCube A _) fun _ => ih _) (ih _)

theorem len_propagateFrames : ∀ ks, Keep (Len n) (A.propagateFrames ks)
  | [] => Keep.pure _
  | _ :: ks => Keep.read fun _ _ => Keep.bind (Keep.lift _) fun _ => Keep.bind (len_propagateLoop _ _ _) fun _ => Keep.read fun _ _ =>
      Keep.bind (Keep.lift _) fun _ => Keep.ite (Keep.pure _) (len_propagateFrames ks)

theorem len_propagate : Keep (Len n) A.propagateBlockedCubes := Keep.bind len_depth fun _ => len_propagateFrames _

theorem len_forwardLoop : ∀ b z zf, Keep (Len n) (A.forwardLoop b z zf) := by
  intro b
  induction b with
  | zero =>
    intro z zf
    unfold forwardLoop
    exact Keep.bind len_depth fun _ => Keep.ite (Keep.lift _) (Keep.ite (Keep.lift _) (Keep.pure _))
  | succ b ih =>
    intro z zf
    unfold forwardLoop
    refine Keep.bind len_depth fun _ => Keep.ite (Keep.lift _) (Keep.ite ?_ (Keep.pure _))
    refine Keep.bind (Keep.lift _) fun n => Keep.bind (len_solveRelative A _ _) fun y => Keep.ite (Keep.bind (Keep.lift _) fun _ => ?_) (Keep.pure _)
    cases y.frame with
    | ok i => exact ih _ _
    | null => exact Keep.lift _
    | inf => exact Keep.lift _

theorem len_handle (t : TCube) (sf : Nat) (q : PQueue TCube) : Keep (Len n) (A.handle t sf q) := by
  unfold handle
  refine Keep.bind (Keep.lift _) fun _ => Keep.bind (len_solveRelative A _ _) fun z => Keep.ite ?_ (Keep.bind (Keep.lift _) fun _ => Keep.pure _)
  refine Keep.bind (len_generalize _) fun z => Keep.bind (Keep.lift _) fun _ => ?_
  cases z.frame with
  | ok i =>
    refine Keep.bind len_depth fun _ => Keep.bind (len_forwardLoop _ _ _) fun z => Keep.bind (Keep.lift _) fun _ =>
      Keep.bind (len_addBlockedCube A _) fun _ => Keep.bind (Keep.lift _) fun _ => Keep.bind len_depth fun _ => Keep.ite ?_ (Keep.pure _)
    refine Keep.bind (Keep.lift _) fun n => ?_
    cases n.frame with
    | ok i => exact Keep.pure _
    | null => exact Keep.lift _
    | inf => exact Keep.lift _
  | null => exact Keep.lift _
  | inf => exact Keep.lift _

theorem len_blockQueue : ∀ fuel q, Keep (Len n) (A.blockQueue fuel q) := by
  intro fuel
  induction fuel with
  | zero => intro q; unfold blockQueue; exact Keep.ite (Keep.pure _) (Keep.lift _)
  | succ fuel ih =>
    intro q
    unfold blockQueue
    refine Keep.ite (Keep.pure _) (Keep.bind len_fresh fun _ => Keep.bind (Keep.lift _) fun x => ?_)
    obtain ⟨⟨s, n⟩, q⟩ := x
    dsimp only
    cases s.frame with
    | ok i =>
      exact Keep.ite (Keep.pure _) (Keep.bind (len_isBlocked _) fun _ => Keep.ite (ih _) (Keep.bind (len_handle _ _ _) fun _ => ih _))
    | null => exact Keep.lift _
    | inf => exact Keep.lift _

theorem len_recBlockCube (fuel : Nat) (t : TCube) : Keep (Len n) (A.recBlockCube fuel t) := by
  unfold recBlockCube
  cases t.frame with
  | ok i => exact len_blockQueue _ _
  | null => exact Keep.lift _
  | inf => exact Keep.lift _


end

theorem depth_ok {d : Nat} {s : St I} (h : Len (d + 2) s) : depth (I := I) s = .ok (d, s) := by
  have h : s.f.length = d + 2 := h
  show (if s.f.length < 2 then liftM (panicR "pdr.rs:360 underflow" : Res Nat) else pure (s.f.length - 2) : StateT (St I) Res Nat) s = _
  rw [if_neg (by omega), h]
  rfl

theorem mainLoopV_drops (A : PDR I) (v : Bool) (fuel : Nat) : ∀ rounds d s, Len (d + 2) s →
    (A.mainLoopV v fuel rounds s).map (fun x => (x.1.2, x.2)) = A.mainLoop fuel rounds s
  | 0, _, _, _ => rfl
  | rounds + 1, d, s, hs => by
    show Except.map _ (Except.bind (A.getBadCube s) fun x => _) = Except.bind (A.getBadCube s) fun x => _
    cases h1 : A.getBadCube s with
    | error e => rfl
    | ok x =>
      obtain ⟨o, s1⟩ := x
      have hs1 : Len (d + 2) s1 := (len_getBadCube A).elim hs h1
      cases o with
      | some c =>
        show Except.map _ (Except.bind (depth s1) fun x => _) = Except.bind (depth s1) fun x => _
        rw [depth_ok hs1]
        show Except.map _ (Except.bind (A.recBlockCube fuel ⟨c, .ok d⟩ s1) fun x => _) = Except.bind (A.recBlockCube fuel ⟨c, .ok d⟩ s1) fun x => _
        cases h2 : A.recBlockCube fuel ⟨c, .ok d⟩ s1 with
        | error e => rfl
        | ok x =>
          obtain ⟨b, s2⟩ := x
          cases b with
          | true => exact mainLoopV_drops A v fuel rounds d s2 ((len_recBlockCube _ _).elim hs1 h2)
          | false => exact (Drops.bind fun _ => Drops.bind fun _ => Drops.pure _ _ : Drops
              (do let d ← depth (I := I); return ([], ProofResult.ctx (← liftM (depthU32 d)))) (do let d ← depth; return ProofResult.ctx (← liftM (depthU32 d)))) s2
      | none =>
        obtain ⟨p, hp⟩ : ∃ p, report v s1 = .ok (p, s1) := by
          cases v with
          | false => exact ⟨_, rfl⟩
          | true =>
            refine ⟨[⟨d, s1.f.map List.length⟩], ?_⟩
            show Except.bind (depth s1) _ = _
            rw [depth_ok hs1]
            rfl
        show Except.map _ (Except.bind (report v s1) fun x => _) = _
        rw [hp]
        show Except.map _ (Except.bind (A.newFrame s1) fun x => _) = Except.bind (A.newFrame s1) fun x => _
        cases h2 : A.newFrame s1 with
        | error e => rfl
        | ok x =>
          obtain ⟨_, s2⟩ := x
          have hs2 : Len (d + 1 + 2) s2 := (len_newFrame A).elim hs1 h2
          show Except.map _ (Except.bind (A.propagateBlockedCubes s2) fun x => _) = Except.bind (A.propagateBlockedCubes s2) fun x => _
          cases h3 : A.propagateBlockedCubes s2 with
          | error e => rfl
          | ok x =>
            obtain ⟨o, s3⟩ := x
            cases o with
            | some i => exact (Drops.bind fun _ => Drops.pure _ _ : Drops (do return (p, ProofResult.proof (← A.getRi i))) (do return ProofResult.proof (← A.getRi i))) s3
            | none =>
              have ih := mainLoopV_drops A v fuel rounds (d + 1) s3 (len_propagate.elim hs2 h3)
              show _ = A.mainLoop fuel rounds s3
              rw [← ih]
              show Except.map _ (Except.bind (A.mainLoopV v fuel rounds s3) fun x => _) = _
              cases A.mainLoopV v fuel rounds s3 <;> rfl

/-- What the reports of a run from depth `d` say. -/
def Lines (d : Nat) (x : List Report × ProofResult) : Prop :=
  (∀ p ∈ x.1, p.lengths.length = p.level + 2) ∧ x.1.map Report.level = List.range' d x.1.length ∧
  (∀ e, x.2 = .ctx e → e = d + x.1.length) ∧ (∀ g, x.2 = .proof g → x.1 ≠ [])

theorem mainLoopV_lines (A : PDR I) (fuel : Nat) : ∀ rounds d, Tri (fun _ => True) (Len (d + 2)) (A.mainLoopV true fuel rounds) (fun x _ => Lines d x)
  | 0, _ => fun _ _ => trivial
  | rounds + 1, d => by
    refine Tri.bind (R := fun _ => Len (d + 2)) (len_getBadCube A) fun o => ?_
    cases o with
    | some c =>
      have dep : Tri (fun _ => True) (Len (d + 2)) (depth (I := I)) (fun r s => r = d ∧ Len (d + 2) s) := fun s hs => by
        rw [depth_ok hs]
        exact ⟨rfl, hs⟩
      refine Tri.bind (R := fun _ => Len (d + 2)) len_depth fun _ => Tri.bind (R := fun _ => Len (d + 2)) (len_recBlockCube _ _) fun b => ?_
      refine Tri.ite (fun _ => mainLoopV_lines A fuel rounds d) fun _ => Tri.bind dep fun r => ?_
      refine Tri.of_pre (A := r = d) (fun _ h => h.1) fun hr => ?_
      subst hr
      unfold depthU32
      split
      · exact fun _ _ => ⟨(fun p h => by cases h), rfl, (fun e h => by cases h; rfl), (fun g h => by cases h)⟩
      · exact fun _ _ => trivial
    | none =>
      have rep : Tri (fun _ => True) (Len (d + 2)) (report (I := I) true) (fun p s => (∃ l, l.length = d + 2 ∧ p = [⟨d, l⟩]) ∧ Len (d + 2) s) := by
        intro s hs
        show Post _ _ (Except.bind (depth s) _)
        rw [depth_ok hs]
        exact ⟨⟨_, (List.length_map ..).trans hs, rfl⟩, hs⟩
      refine Tri.bind rep fun p => Tri.of_pre (A := ∃ l, l.length = d + 2 ∧ p = [⟨d, l⟩]) (fun _ h => h.1) fun ⟨l, hl, hp⟩ => ?_
      subst hp
      refine Tri.pre (P := Len (d + 2)) ?_ fun _ h => h.2
      refine Tri.bind (R := fun _ => Len (d + 1 + 2)) (len_newFrame A) fun _ => Tri.bind (R := fun _ => Len (d + 1 + 2)) len_propagate fun o => ?_
      cases o with
      | some i =>
        refine Tri.bind (R := fun _ => Len (d + 1 + 2)) (len_getRi A i) fun g => Tri.pure fun _ _ => ⟨fun p h => ?_, rfl, (fun e h => by cases h), (fun g _ h => by cases h)⟩
        rw [List.mem_singleton] at h
        subst h; exact hl
      | none =>
        refine Tri.bind (mainLoopV_lines A fuel rounds (d + 1)) fun ⟨ps, r⟩ => Tri.pure fun _ ⟨h1, h2, h3, h4⟩ => ⟨fun p h => ?_, ?_, fun e h => ?_, fun g h => by simp⟩
        · rcases List.mem_cons.1 h with rfl | h
          · exact hl
          · exact h1 p h
        · show d :: ps.map Report.level = List.range' d (ps.length + 1)
          rw [List.range'_succ, h2]
        · have := h3 e h
          show e = d + (ps.length + 1)
          have h' : e = d + 1 + ps.length := this
          omega

theorem runV_drops (v dbg : Bool) (I : StatefulImpl) (sched : Sched) (f : Fsts) (fuel : Nat) :
    (runV v dbg I sched f fuel).map Prod.snd = run dbg I sched f fuel := by
  have key : ∀ (A : PDR I) (s : St I), Len 0 s → (A.proveV v fuel s).map (fun x => (x.1.2, x.2)) = A.prove fuel s := by
    intro A s hs
    show Except.map _ (Except.bind (A.newFrame { s with f := s.f ++ [[]] }) fun x => _) = Except.bind (A.newFrame { s with f := s.f ++ [[]] }) fun x => _
    cases h : A.newFrame { s with f := s.f ++ [[]] } with
    | error e => rfl
    | ok x => exact mainLoopV_drops A v fuel fuel 0 x.2 ((len_newFrame (n := 1) A).elim (show (s.f ++ [[]]).length = 1 by simp [hs]) h)
  unfold runV run
  show Except.map _ (Except.bind (proveV _ v fuel _) fun x => _) = Except.bind (prove _ fuel _) fun x => _
  rw [← key _ _ rfl]
  cases proveV (⟨dbg, f, sched, formulas f⟩ : PDR I) v fuel ⟨[], [], [], [], true, true, 0⟩ <;> rfl

theorem runV_lines (dbg : Bool) (I : StatefulImpl) (sched : Sched) (f : Fsts) (fuel : Nat) {x : List Report × ProofResult}
    (h : runV true dbg I sched f fuel = .ok x) : Lines 0 x := by
  have key : ∀ (A : PDR I), Tri (fun _ => True) (Len 0) (A.proveV true fuel) (fun x _ => Lines 0 x) := by
    intro A s hs
    exact Tri.bind (R := fun _ => Len 2) (P := Len 1) (len_newFrame A) (fun _ => mainLoopV_lines A fuel fuel 0) { s with f := s.f ++ [[]] }
      (show (s.f ++ [[]]).length = 1 by simp [show s.f.length = 0 from hs])
  unfold runV at h
  simp only [bind_ok, pure_ok] at h
  obtain ⟨y, e, rfl⟩ := h
  exact Tri.elim (key _) (show Len 0 _ from rfl) e

end PDR

end Verif

/-! ## Not verbose -/

namespace Verif

variable {σ α β : Type}

/-- No report. -/
def Silent (m : StateT σ Res (List Report × α)) : Prop := Tri (fun _ => True) (fun _ => True) m (fun x _ => x.1 = [])

namespace Silent

theorem pure (a : α) : Silent (Pure.pure ([], a) : StateT σ Res (List Report × α)) := fun _ _ => rfl

theorem error (e : Err) : Silent (liftM (.error e : Res (List Report × α)) : StateT σ Res (List Report × α)) := fun _ _ => trivial

theorem bind {m : StateT σ Res β} {k : β → StateT σ Res (List Report × α)} (h : ∀ b, Silent (k b)) : Silent (m >>= k) :=
  Tri.bind (R := fun _ _ => True) (fun s _ => by cases m s with | ok x => trivial | error e => trivial) h

theorem bind2 {m : StateT σ Res (List Report × β)} {k : List Report × β → StateT σ Res (List Report × α)} (hm : Silent m)
    (h : ∀ b, Silent (k ([], b))) : Silent (m >>= k) :=
  Tri.bind hm fun x => Tri.of_pre (fun _ h => h) fun hx => Tri.pre (P := fun _ => True) (by obtain ⟨p, b⟩ := x; cases hx; exact h b) fun _ _ => trivial

theorem step {b : β} {k : β → StateT σ Res (List Report × α)} (h : Silent (k b)) : Silent (Pure.pure b >>= k) := h

theorem ite {q : Prop} [Decidable q] {m n : StateT σ Res (List Report × α)} (h1 : Silent m) (h2 : Silent n) : Silent (if q then m else n) :=
  Tri.ite (fun _ => h1) (fun _ => h2)

end Silent

namespace IC3

theorem report_silent (A : IC3 σ) (k : Nat) : A.report false k = pure [] := rfl

theorem findFixpointV_silent (A : IC3 σ) (k : Nat) : ∀ is, Silent (A.findFixpointV false k is)
  | [] => Silent.pure _
  | _ :: is => Silent.bind fun _ => Silent.bind fun _ => Silent.bind fun _ => Silent.ite
      (by rw [report_silent]; exact Silent.step (Silent.bind fun _ => Silent.pure _)) (findFixpointV_silent A k is)

theorem mainLoopV_silent (A : IC3 σ) (fuel : Nat) : ∀ rounds k, Silent (A.mainLoopV false fuel rounds k)
  | 0, _ => Silent.error _
  | rounds + 1, k => by
    unfold mainLoopV
    rw [report_silent]
    refine Silent.bind fun _ => Silent.step (Silent.bind fun _ => Silent.bind fun r => ?_)
    cases r with
    | some d => exact Silent.bind fun _ => Silent.pure _
    | none =>
      refine Silent.bind fun _ => Silent.bind2 (findFixpointV_silent A k _) fun r => ?_
      cases r with
      | some inv => exact Silent.pure _
      | none => exact Silent.bind2 (mainLoopV_silent A fuel rounds (k + 1)) fun _ => Silent.pure _

theorem proveV_silent (A : IC3 σ) (fuel : Nat) : Silent (A.proveV false fuel) := by
  refine Silent.bind fun r => ?_
  cases r with
  | sat a => exact Silent.pure _
  | unsat =>
    refine Silent.bind fun r => ?_
    cases r with
    | sat a => exact Silent.pure _
    | unsat => exact Silent.bind fun _ => Silent.bind fun _ => mainLoopV_silent A fuel _ _

theorem proveStatelessV_silent (dbg : Bool) (env : Env) (sched : Sched) (f : Fsts) (fuel : Nat) {x : List Report × ProofResult}
    (h : proveStatelessV false dbg env sched f fuel = .ok x) : x.1 = [] := by
  unfold proveStatelessV at h
  simp only [bind_ok, pure_ok] at h
  obtain ⟨fm, _, y, e, rfl⟩ := h
  exact Tri.elim (proveV_silent (stateless dbg env sched f fm) fuel) trivial e

theorem proveStatefulV_silent (dbg : Bool) (I : StatefulImpl) (sched : Sched) (f : Fsts) (fuel : Nat) {x : List Report × ProofResult}
    (h : proveStatefulV false dbg I sched f fuel = .ok x) : x.1 = [] := by
  unfold proveStatefulV at h
  simp only [bind_ok, pure_ok] at h
  obtain ⟨fm, _, i, _, y, e, rfl⟩ := h
  exact Tri.elim (proveV_silent (stateful dbg I sched f fm) fuel) trivial e

end IC3

namespace PDR

variable {I : StatefulImpl}

theorem mainLoopV_silent (A : PDR I) (fuel : Nat) : ∀ rounds, Silent (A.mainLoopV false fuel rounds)
  | 0 => Silent.error _
  | rounds + 1 => by
    unfold mainLoopV
    refine Silent.bind fun r => ?_
    cases r with
    | some c => exact Silent.bind fun _ => Silent.bind fun _ => Silent.ite (mainLoopV_silent A fuel rounds) (Silent.bind fun _ => Silent.bind fun _ => Silent.pure _)
    | none =>
      rw [show report (I := I) false = pure [] from rfl]
      refine Silent.step (Silent.bind fun _ => Silent.bind fun r => ?_)
      cases r with
      | some i => exact Silent.bind fun _ => Silent.pure _
      | none => exact Silent.bind2 (mainLoopV_silent A fuel rounds) fun _ => Silent.pure _

theorem runV_silent (dbg : Bool) (I : StatefulImpl) (sched : Sched) (f : Fsts) (fuel : Nat) {x : List Report × ProofResult}
    (h : runV false dbg I sched f fuel = .ok x) : x.1 = [] := by
  unfold runV at h
  simp only [bind_ok, pure_ok] at h
  obtain ⟨y, e, rfl⟩ := h
  exact Tri.elim (F := fun _ => True) (P := fun _ => True) (Silent.bind fun _ => Silent.bind fun _ => Silent.bind fun _ => mainLoopV_silent _ fuel fuel : Silent (proveV ⟨dbg, f, sched, formulas f⟩ false fuel)) trivial e

end PDR

end Verif
