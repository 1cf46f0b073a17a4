import Verif.Proofs.SimRuns
import Verif.Model.Pdr

/-! # Related runs of PDR -/

namespace Verif

namespace PDR

variable {F : Err → Prop} {I J : StatefulImpl} {r : I.S → J.S → Prop}

/-- Same frames, related solvers. -/
structure Same (r : I.S → J.S → Prop) (s : St I) (t : St J) : Prop where
  f : s.f = t.f
  sols : ∀ w, Each r (s.sols w) (t.sols w)
  conePred : s.conePred = t.conePred
  coneBad : s.coneBad = t.coneBad
  tick : s.tick = t.tick

theorem Same.setSols {s : St I} {t : St J} (h : Same r s t) (w : Which) {l : List I.S} {m : List J.S} (hl : Each r l m) :
    Same r (s.setSols w l) (t.setSols w m) := by
  refine ⟨?_, ?_, ?_, ?_, ?_⟩
  · cases w <;> exact h.f
  · intro w'
    cases w <;> cases w' <;> first | exact hl | exact h.sols .notP | exact h.sols .ri | exact h.sols .riT
  · cases w <;> exact h.conePred
  · cases w <;> exact h.coneBad
  · cases w <;> exact h.tick

/-- Two objects for the same system. -/
structure Like (F : Err → Prop) (r : I.S → J.S → Prop) (A : PDR I) (B : PDR J) : Prop where
  impl : StatefulImpl.Like F A.fsts.stateLits I J r
  fsts : A.fsts = B.fsts
  sched : A.sched = B.sched
  forms : A.forms = B.forms
  prof : Prof F A.dbg B.dbg

abbrev SimP (F : Err → Prop) (r : I.S → J.S → Prop) {α : Type} (x : StateT (St I) Res α) (y : StateT (St J) Res α) : Prop :=
  Sim F (Same r) (Same r) x y

theorem at_same {s : St I} {t : St J} (h : Same r s t) : ∀ (s' : St I) (t' : St J), s' = s ∧ t' = t → Same r s' t' := by
  rintro _ _ ⟨rfl, rfl⟩; exact h

theorem fresh_sim : SimP F r fresh fresh := by
  intro s t h
  refine ⟨{ t with tick := t.tick + 1 }, ?_, ⟨h.f, h.sols, h.conePred, h.coneBad, congrArg (· + 1) h.tick⟩⟩
  show Except.ok (t.tick, _) = Except.ok (s.tick, _)
  rw [h.tick]

theorem depth_sim : SimP F r depth depth := by
  refine Sim.read fun s t h => ?_
  rw [h.f]
  split
  · exact Sim.same.pre (at_same h)
  · exact (Sim.pure _).pre (at_same h)

namespace Like

variable {A : PDR I} {B : PDR J}

theorem assert (L : Like F r A B) {R : St I → St J → Prop} (site : String) (b : Bool) :
    Sim F R R (liftM (debugAssertR A.dbg site b) : StateT (St I) Res Unit) (liftM (debugAssertR B.dbg site b) : StateT (St J) Res Unit) :=
  Sim.lift (debugAssertR_follows L.prof site b)

theorem call (L : Like F r A B) (w : Which) (i : Nat) (cube : Option Cube) (clause : Option Clause) :
    SimV F (SatResponse.Near F A.fsts.stateLits) (Same r) (Same r) (call w i cube clause) (PDR.call w i cube clause) := by
  refine fresh_sim.bindV fun n => SimV.read fun s t h => SimV.both ((h.sols w).index _ i) fun a b hab =>
    SimV.both (L.impl.solve n n rfl cube clause _ _ hab) fun p q hpq => ?_
  obtain ⟨x, y⟩ := p
  obtain ⟨x', y'⟩ := q
  obtain ⟨e, hy⟩ := hpq
  refine Sim.bindV (S := Same r) (Sim.set ?_) fun _ => SimV.pure e
  exact h.setSols w ((h.sols w).set hy i)

theorem addAt (L : Like F r A B) (w : Which) (i : Nat) (g : CNF) : SimP F r (addAt w i g) (PDR.addAt w i g) := by
  refine Sim.read fun s t h => Sim.both ((h.sols w).index _ i) fun a b hab => Sim.both (L.impl.addCnf g _ _ hab) fun x y hxy => Sim.set ?_
  exact h.setSols w ((h.sols w).set hxy i)

theorem getBadCube (L : Like F r A B) : SimP F r A.getBadCube B.getBadCube := by
  refine depth_sim.bind fun d => (L.call .notP d none none).bind fun a a' ha => ?_
  match a, a', ha with
  | .unsat, .unsat, _ => exact Sim.pure _
  | .sat a, .sat a', ha =>
    dsimp only
    rw [L.fsts]
    refine (Sim.lift (Fsts.extractState_near L.prof B.fsts (L.fsts ▸ ha))).bind fun bad => Sim.read fun s t h => ?_
    rw [h.coneBad]
    split
    · refine (L.assert _ _).bind fun _ => Sim.bind (S := Same r) (Sim.set ?_) fun _ => Sim.pure _
      exact ⟨h.f, h.sols, h.conePred, rfl, h.tick⟩
    · exact (Sim.pure _).pre (at_same h)

theorem solverBlocked (L : Like F r A B) (s : TCube) : SimP F r (solverBlocked s) (PDR.solverBlocked s) := by
  unfold PDR.solverBlocked
  split
  · refine (L.call .ri _ none none).bind fun a a' ha => ?_
    match a, a', ha with
    | .unsat, .unsat, _ => exact Sim.pure _
    | .sat _, .sat _, _ => exact Sim.pure _
  · exact Sim.same

theorem solveRelative (L : Like F r A B) (s : TCube) (p : Param) : SimP F r (A.solveRelative s p) (B.solveRelative s p) := by
  unfold PDR.solveRelative
  split
  · refine Sim.read fun st st' h => ?_
    rw [show st.riT.length = st'.riT.length from (h.sols .riT).1, L.fsts]
    refine (L.assert _ _).bind fun _ => (Sim.lift (Fsts.addTagsToCube_prof L.prof _ _ _)).bind fun c => ?_
    refine Sim.pre ?_ (at_same h)
    dsimp only
    split
    · exact Sim.same
    · refine (L.call .riT _ _ _).bind fun a a' ha => ?_
      match a, a', ha with
      | .unsat, .unsat, _ => exact Sim.pure _
      | .sat a, .sat a', ha =>
        dsimp only
        split
        · refine (Sim.lift (Fsts.extractState_near L.prof B.fsts (L.fsts ▸ ha))).bind fun x => Sim.read fun s t h => ?_
          rw [h.conePred]
          split
          · refine (L.assert _ _).bind fun _ => Sim.bind (S := Same r) (Sim.set ?_) fun _ => Sim.pure _
            exact ⟨h.f, h.sols, rfl, h.coneBad, h.tick⟩
          · exact (Sim.pure _).pre (at_same h)
        · exact Sim.pure _
  · exact Sim.same

theorem blockLoop (L : Like F r A B) (g : CNF) (is : List Nat) : SimP F r (blockLoop g is) (PDR.blockLoop g is) := by
  induction is with
  | nil => exact Sim.pure _
  | cons i is ih => exact (L.addAt .ri i g).bind fun _ => (L.addAt .notP i g).bind fun _ => (L.addAt .riT i g).bind fun _ => ih

theorem checkLengths (L : Like F r A B) (site : String) (k : Nat) : SimP F r (A.checkLengths site k) (B.checkLengths site k) := by
  refine Sim.read fun s t h => ?_
  rw [show s.notP.length = t.notP.length from (h.sols .notP).1, show s.ri.length = t.ri.length from (h.sols .ri).1,
    show s.riT.length = t.riT.length from (h.sols .riT).1, h.f]
  exact ((L.assert _ _).bind fun _ => (L.assert _ _).bind fun _ => L.assert _ _).pre (at_same h)

theorem blockCubeInSolver (L : Like F r A B) (s : TCube) : SimP F r (A.blockCubeInSolver s) (B.blockCubeInSolver s) := by
  refine (L.checkLengths _ _).bind fun _ => ?_
  dsimp only
  split
  · exact Sim.same
  · refine Sim.read fun s t h => ?_
    rw [show s.ri.length = t.ri.length from (h.sols .ri).1]
    exact (L.blockLoop _ _).pre (at_same h)
  · refine Sim.read fun s t h => ?_
    rw [show s.ri.length = t.ri.length from (h.sols .ri).1]
    exact ((L.assert _ _).bind fun _ => L.blockLoop _ _).pre (at_same h)

theorem newFrameSolvers (L : Like F r A B) : SimP F r A.newFrameSolvers B.newFrameSolvers := by
  refine (L.checkLengths _ _).bind fun _ => Sim.read fun s t h => ?_
  rw [show s.notP.isEmpty = t.notP.isEmpty from (h.sols .notP).isEmpty, L.forms]
  dsimp only
  split
  · refine Sim.both (L.impl.addCnf _ _ _ L.impl.new) fun a a' ha => Sim.both (L.impl.addCnf _ _ _ L.impl.new) fun b b' hb =>
      Sim.both (L.impl.addCnf _ _ _ L.impl.new) fun c c' hc => Sim.bind (S := Same r) (Sim.set ?_) fun _ => L.checkLengths _ _
    refine ⟨h.f, fun w => ?_, h.conePred, h.coneBad, h.tick⟩
    cases w
    · exact (h.sols .notP).snoc ha
    · exact (h.sols .ri).snoc hb
    · exact (h.sols .riT).snoc hc
  · refine Sim.both (L.impl.addCnf _ _ _ L.impl.new) fun a a' ha => Sim.both (L.impl.addCnf _ _ _ L.impl.new) fun c c' hc =>
      Sim.bind (S := Same r) (Sim.set ?_) fun _ => L.checkLengths _ _
    refine ⟨h.f, fun w => ?_, h.conePred, h.coneBad, h.tick⟩
    cases w
    · exact (h.sols .notP).snoc ha
    · exact (h.sols .ri).snoc L.impl.new
    · exact (h.sols .riT).snoc hc

theorem newFrame (L : Like F r A B) : SimP F r A.newFrame B.newFrame := by
  refine Sim.read fun s t h => ?_
  rw [h.f]
  dsimp only
  split
  · exact Sim.same.pre (at_same h)
  · refine Sim.same.bind fun f => Sim.bind (S := Same r) (Sim.set ?_) fun _ => L.newFrameSolvers
    exact ⟨rfl, h.sols, h.conePred, h.coneBad, h.tick⟩

theorem addBlockedCube (L : Like F r A B) (s : TCube) : SimP F r (A.addBlockedCube s) (B.addBlockedCube s) := by
  unfold PDR.addBlockedCube
  split
  · refine depth_sim.bind fun d => Sim.read fun st st' h => ?_
    rw [h.f]
    refine Sim.same.bind fun f => Sim.same.bind fun l => Sim.bind (S := Same r) (Sim.set ?_) fun _ => L.blockCubeInSolver s
    exact ⟨rfl, h.sols, h.conePred, h.coneBad, h.tick⟩
  · exact Sim.same

theorem isBlocked (L : Like F r A B) (s : TCube) : SimP F r (isBlocked s) (PDR.isBlocked s) := by
  unfold PDR.isBlocked
  split
  · refine Sim.read fun st st' h => ?_
    rw [h.f]
    split
    · exact (Sim.pure _).pre (at_same h)
    · exact (L.solverBlocked s).pre (at_same h)
  · exact Sim.same

theorem isInitial (L : Like F r A B) (c : Cube) : A.isInitial c = B.isInitial c := by
  unfold PDR.isInitial
  rw [L.fsts]

theorem generalizeLoop (L : Like F r A B) (frame : Frame) (budget : Nat) (lits : List Literal) (j : Nat) :
    SimP F r (A.generalizeLoop frame budget lits j) (B.generalizeLoop frame budget lits j) := by
  induction budget generalizing lits j with
  | zero =>
    unfold PDR.generalizeLoop
    split
    · exact Sim.same
    · exact Sim.pure _
  | succ budget ih =>
    unfold PDR.generalizeLoop
    split
    · refine Sim.same.bind fun p => ?_
      obtain ⟨removed, rest⟩ := p
      dsimp only
      rw [L.isInitial]
      refine Sim.bind (S := Same r) ?_ fun b => ?_
      · split
        · exact Sim.pure _
        · exact (L.solveRelative _ _).bind fun _ => Sim.pure _
      · cases b
        · exact Sim.same.bind fun _ => ih _ _
        · exact ih _ _
    · exact Sim.pure _

theorem generalize (L : Like F r A B) (s : TCube) : SimP F r (A.generalize s) (B.generalize s) := by
  refine fresh_sim.bind fun t => ?_
  rw [L.sched]
  exact (L.generalizeLoop _ _ _ _).bind fun _ => Sim.pure _

theorem propagateLoop (L : Like F r A B) (k budget index : Nat) : SimP F r (A.propagateLoop k budget index) (B.propagateLoop k budget index) := by
  induction budget generalizing index with
  | zero =>
    unfold PDR.propagateLoop
    refine Sim.read fun s t h => ?_
    rw [h.f]
    refine Sim.pre ?_ (at_same h)
    refine Sim.same.bind fun l => ?_
    split
    · exact Sim.pure _
    · exact Sim.same
  | succ budget ih =>
    unfold PDR.propagateLoop
    refine Sim.read fun s t h => ?_
    rw [h.f]
    refine Sim.pre ?_ (at_same h)
    refine Sim.same.bind fun l => ?_
    split
    · exact Sim.pure _
    · dsimp only
      refine (L.solveRelative _ _).bind fun x => ?_
      split
      · exact (L.addBlockedCube _).bind fun _ => ih _
      · exact ih _

theorem propagateFrames (L : Like F r A B) (ks : List Nat) : SimP F r (A.propagateFrames ks) (B.propagateFrames ks) := by
  induction ks with
  | nil => exact Sim.pure _
  | cons k ks ih =>
    refine Sim.read fun s t h => ?_
    rw [h.f]
    refine Sim.pre ?_ (at_same h)
    refine Sim.same.bind fun l => (L.propagateLoop _ _ _).bind fun _ => Sim.read fun s t h => ?_
    rw [h.f]
    refine Sim.pre ?_ (at_same h)
    refine Sim.same.bind fun l => ?_
    split
    · exact Sim.pure _
    · exact ih

theorem propagateBlockedCubes (L : Like F r A B) : SimP F r A.propagateBlockedCubes B.propagateBlockedCubes :=
  depth_sim.bind fun _ => L.propagateFrames _

theorem getRi (L : Like F r A B) (i : Nat) : SimP F r (A.getRi i) (B.getRi i) := by
  refine Sim.read fun s t h => ?_
  rw [h.f, L.forms]
  refine Sim.pre ?_ (at_same h)
  refine Sim.same.bind fun l => Sim.same.bind fun _ => ?_
  split <;> exact Sim.pure _

theorem forwardLoop (L : Like F r A B) (budget : Nat) (z : TCube) (zf : Nat) :
    SimP F r (A.forwardLoop budget z zf) (B.forwardLoop budget z zf) := by
  induction budget generalizing z zf with
  | zero =>
    unfold PDR.forwardLoop
    refine depth_sim.bind fun d => ?_
    dsimp only
    split
    · exact Sim.same
    · split
      · exact Sim.same
      · exact Sim.pure _
  | succ budget ih =>
    unfold PDR.forwardLoop
    refine depth_sim.bind fun d => ?_
    dsimp only
    split
    · exact Sim.same
    · split
      · refine Sim.same.bind fun n => (L.solveRelative _ _).bind fun y => ?_
        split
        · refine (L.assert _ _).bind fun _ => ?_
          split
          · exact ih _ _
          · exact Sim.same
        · exact Sim.pure _
      · exact Sim.pure _

theorem handle (L : Like F r A B) (s : TCube) (sf : Nat) (q : PQueue TCube) : SimP F r (A.handle s sf q) (B.handle s sf q) := by
  unfold PDR.handle
  rw [L.isInitial]
  refine (L.assert _ _).bind fun _ => (L.solveRelative _ _).bind fun z => ?_
  split
  · refine (L.generalize _).bind fun z => (L.assert _ _).bind fun _ => ?_
    split
    · refine depth_sim.bind fun d => (L.forwardLoop _ _ _).bind fun z => (L.assert _ _).bind fun _ => (L.addBlockedCube _).bind fun _ =>
        (L.assert _ _).bind fun _ => depth_sim.bind fun d => ?_
      split
      · refine Sim.same.bind fun n => ?_
        split
        · exact Sim.pure _
        · exact Sim.same
      · exact Sim.pure _
    · exact Sim.same
  · exact (L.assert _ _).bind fun _ => Sim.pure _

theorem blockQueue (L : Like F r A B) {n m : Nat} (hf : FuelLe F n m) (q : PQueue TCube) : SimP F r (A.blockQueue n q) (B.blockQueue m q) := by
  induction n generalizing m q with
  | zero =>
    unfold PDR.blockQueue
    split
    · exact Sim.pure _
    · rcases hf.zero with rfl | hF
      · exact Sim.same
      · exact Sim.fail hF
  | succ n ih =>
    obtain ⟨m, rfl, hf'⟩ := hf.succ
    unfold PDR.blockQueue
    split
    · exact Sim.pure _
    · dsimp only
      refine fresh_sim.bind fun t => ?_
      rw [L.sched]
      refine Sim.same.bind fun p => ?_
      obtain ⟨⟨s, i⟩, q⟩ := p
      dsimp only
      split
      · split
        · exact Sim.pure _
        · refine (L.isBlocked s).bind fun b => ?_
          split
          · exact ih hf' _
          · exact (L.handle _ _ _).bind fun _ => ih hf' _
      · exact Sim.same

theorem recBlockCube (L : Like F r A B) {n m : Nat} (hf : FuelLe F n m) (s : TCube) : SimP F r (A.recBlockCube n s) (B.recBlockCube m s) := by
  unfold PDR.recBlockCube
  split
  · exact L.blockQueue hf _
  · exact Sim.same

theorem mainLoop (L : Like F r A B) {n m : Nat} (hf : FuelLe F n m) {k l : Nat} (hk : FuelLe F k l) :
    SimP F r (A.mainLoop n k) (B.mainLoop m l) := by
  induction k generalizing l with
  | zero =>
    rcases hk.zero with rfl | hF
    · exact Sim.same
    · exact Sim.fail hF
  | succ k ih =>
    obtain ⟨l, rfl, hk'⟩ := hk.succ
    unfold PDR.mainLoop
    refine L.getBadCube.bind fun c => ?_
    split
    · refine depth_sim.bind fun d => (L.recBlockCube hf _).bind fun b => ?_
      split
      · exact ih hk'
      · exact depth_sim.bind fun d => Sim.same.bind fun _ => Sim.pure _
    · refine L.newFrame.bind fun _ => L.propagateBlockedCubes.bind fun o => ?_
      split
      · exact (L.getRi _).bind fun _ => Sim.pure _
      · exact ih hk'

theorem prove (L : Like F r A B) {n m : Nat} (hf : FuelLe F n m) : SimP F r (A.prove n) (B.prove m) := by
  refine Sim.read fun s t h => Sim.bind (S := Same r) (Sim.set ?_) fun _ => L.newFrame.bind fun _ => L.mainLoop hf hf
  exact ⟨by rw [h.f], h.sols, h.conePred, h.coneBad, h.tick⟩

end Like

theorem run_follows {d d' : Bool} (hp : Prof F d d') (sched : Sched) (f : Fsts) (L : StatefulImpl.Like F f.stateLits I J r) {n m : Nat} (hf : FuelLe F n m) :
    Follows F (run d I sched f n) (run d' J sched f m) := by
  have L' : Like F r (⟨d, f, sched, formulas f⟩ : PDR I) (⟨d', f, sched, formulas f⟩ : PDR J) := ⟨L, rfl, rfl, rfl, hp⟩
  exact Sim.outcome (s := ⟨[], [], [], [], true, true, 0⟩) (t := ⟨[], [], [], [], true, true, 0⟩) (L'.prove hf)
    ⟨rfl, fun w => by cases w <;> exact Each.nil, rfl, rfl, rfl⟩

end PDR

end Verif
