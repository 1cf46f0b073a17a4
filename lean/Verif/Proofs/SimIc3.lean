import Verif.Proofs.Sim

/-! # Related runs of IC3 -/

namespace Verif

/-- The choices made at one moment. -/
def Sched.At (s : Sched) (t : Nat) : (List Clause → List Clause) × (List Literal → List Literal) × (Nat → Nat) :=
  (s.order t, s.shuffle t, s.pick t)

theorem Sched.At.order {s s' : Sched} {t t' : Nat} (h : s.At t = s'.At t') : s.order t = s'.order t' := congrArg (·.1) h

theorem Sched.At.shuffle {s s' : Sched} {t t' : Nat} (h : s.At t = s'.At t') : s.shuffle t = s'.shuffle t' := congrArg (·.2.1) h

theorem Sched.At.pick {s s' : Sched} {t t' : Nat} (h : s.At t = s'.At t') : s.pick t = s'.pick t' := congrArg (·.2.2) h

namespace IC3

variable {σ τ : Type} {F : Err → Prop} {R : σ → τ → Prop}

/-- Two provers over the same system whose basic operations are related. -/
structure Like (F : Err → Prop) (R : σ → τ → Prop) (A : IC3 σ) (B : IC3 τ) : Prop where
  fsts : A.fsts = B.fsts
  forms : A.forms = B.forms
  prof : Prof F A.dbg B.dbg
  clauses : ∀ s t, R s t → A.clauses s = B.clauses t
  tick : ∀ {α : Type} (x : Nat → StateT σ Res α) (y : Nat → StateT τ Res α),
    (∀ t t', A.sched.At t = B.sched.At t' → Sim F R R (x t) (y t')) → Sim F R R (A.tick >>= x) (B.tick >>= y)
  addClause : ∀ j c, Sim F R R (A.addClause j c) (B.addClause j c)
  pushFrame : Sim F R R A.pushFrame B.pushFrame
  enterFrame : ∀ k, Sim F R R (A.enterFrame k) (B.enterFrame k)
  badIn0 : SimV F (SatResponse.Near F A.fsts.stateLits) R R A.badIn0 B.badIn0
  badIn1 : SimV F (SatResponse.Near F A.fsts.stateLits) R R A.badIn1 B.badIn1
  badFrom : ∀ k, SimV F (SatResponse.Near F A.fsts.stateLits) R R (A.badFrom k) (B.badFrom k)
  cubeReach : ∀ i s, SimV F (SatResponse.Near F A.fsts.stateLits) R R (A.cubeReach i s) (B.cubeReach i s)
  cubeReachNew : ∀ i s, Sim F R R (A.cubeReachNew i s) (B.cubeReachNew i s)
  clauseInductive : ∀ d i, Sim F R R (A.clauseInductive d i) (B.clauseInductive d i)

namespace Like

variable {A : IC3 σ} {B : IC3 τ}

theorem frame (h : Like F R A B) (k : Nat) : Sim F R R (A.frame k) (B.frame k) := by
  refine Sim.read fun s t hs => ?_
  rw [h.clauses s t hs]
  exact Sim.same.pre (by rintro _ _ ⟨rfl, rfl⟩; exact hs)

theorem getFk (h : Like F R A B) (k : Nat) : Sim F R R (A.getFk k) (B.getFk k) := by
  unfold IC3.getFk
  rw [h.forms]
  exact (h.frame k).bind fun _ => Sim.pure _

theorem propagateLoop (h : Like F R A B) (i : Nat) (cs : List Clause) : Sim F R R (A.propagateLoop i cs) (B.propagateLoop i cs) := by
  induction cs with
  | nil => exact Sim.pure _
  | cons c cs ih =>
    unfold IC3.propagateLoop
    dsimp only
    refine (h.cubeReach i c.not).bind fun r r' hr => ?_
    match r, r', hr with
    | .unsat, .unsat, _ => exact (h.addClause _ _).bind fun _ => ih
    | .sat a, .sat b, _ => exact (Sim.pure ()).bind fun _ => ih

theorem propagateFrames (h : Like F R A B) (is : List Nat) : Sim F R R (A.propagateFrames is) (B.propagateFrames is) := by
  induction is with
  | nil => exact Sim.pure _
  | cons i is ih =>
    refine (h.frame i).bind fun g => h.tick _ _ fun t t' ht => ?_
    rw [Sched.At.order ht]
    exact (h.propagateLoop i _).bind fun _ => ih

theorem subclauseLoop (h : Like F R A B) (i budget : Nat) (lits : List Literal) (j : Nat) :
    Sim F R R (A.subclauseLoop i budget lits j) (B.subclauseLoop i budget lits j) := by
  induction budget generalizing lits j with
  | zero =>
    unfold IC3.subclauseLoop
    split
    · exact Sim.same
    · exact Sim.pure _
  | succ budget ih =>
    unfold IC3.subclauseLoop
    split
    · refine Sim.same.bind fun p => ?_
      refine (h.clauseInductive _ i).bind fun b => ?_
      cases b
      · exact Sim.same.bind fun _ => ih _ _
      · exact ih _ _
    · exact Sim.pure _

theorem subclause (h : Like F R A B) (s : Cube) (i : Nat) : Sim F R R (A.subclause s i) (B.subclause s i) := by
  refine h.tick _ _ fun t t' ht => ?_
  rw [Sched.At.shuffle ht]
  exact (h.subclauseLoop i _ _ _).bind fun _ => Sim.pure _

theorem addToFrames (h : Like F R A B) (c : Clause) (js : List Nat) : Sim F R R (A.addToFrames c js) (B.addToFrames c js) := by
  induction js with
  | nil => exact Sim.pure _
  | cons j js ih => exact (h.addClause j c).bind fun _ => ih

theorem generateClause (h : Like F R A B) (s : Cube) (i : Nat) : Sim F R R (A.generateClause s i) (B.generateClause s i) :=
  (h.subclause s i).bind fun _ => h.addToFrames _ _

theorem generalizeLoop (h : Like F R A B) (s : Cube) (k : Nat) (is : List Nat) : Sim F R R (A.generalizeLoop s k is) (B.generalizeLoop s k is) := by
  induction is with
  | nil => exact (h.generateClause s k).bind fun _ => Sim.pure _
  | cons i is ih =>
    refine (h.cubeReachNew i s).bind fun b => ?_
    cases b
    · exact ih
    · exact (h.generateClause s _).bind fun _ => Sim.pure _

theorem inductivelyGeneralize (h : Like F R A B) (s : Cube) (min : Int) (k : Nat) :
    Sim F R R (A.inductivelyGeneralize s min k) (B.inductivelyGeneralize s min k) := by
  unfold IC3.inductivelyGeneralize
  dsimp only
  split
  · refine (h.cubeReachNew 0 s).bind fun b => ?_
    cases b
    · exact h.generalizeLoop s k _
    · exact Sim.pure _
  · exact h.generalizeLoop s k _

theorem pushGeneralization (h : Like F R A B) (k : Nat) {n m : Nat} (hf : FuelLe F n m) (q : PQueue Cube) :
    Sim F R R (A.pushGeneralization k n q) (B.pushGeneralization k m q) := by
  induction n generalizing m q with
  | zero =>
    rcases hf.zero with rfl | hF
    · exact Sim.same
    · exact Sim.fail hF
  | succ n ih =>
    obtain ⟨m, rfl, hf'⟩ := hf.succ
    unfold IC3.pushGeneralization
    refine h.tick _ _ fun t t' ht => ?_
    rw [Sched.At.pick ht]
    refine Sim.same.bind fun p => ?_
    obtain ⟨⟨s, i⟩, q⟩ := p
    dsimp only
    split
    · exact Sim.pure _
    · refine (h.cubeReach i s).bind fun r r' hr => ?_
      match r, r', hr with
      | .sat a, .sat b, hr =>
        dsimp only
        rw [h.fsts]
        refine (Sim.lift (Fsts.extractState_near h.prof B.fsts (h.fsts ▸ hr))).bind fun p => (h.inductivelyGeneralize p _ k).bind fun g => ?_
        cases g with
        | failure => exact Sim.pure _
        | success m' => exact ih hf' _
      | .unsat, .unsat, _ =>
        refine (h.inductivelyGeneralize s _ k).bind fun g => ?_
        cases g with
        | failure => exact Sim.pure _
        | success m' => exact ih hf' _

theorem strengthen (h : Like F R A B) {fuel fuel' : Nat} (hfuel : FuelLe F fuel fuel') (k : Nat) {n m : Nat} (hf : FuelLe F n m) :
    Sim F R R (A.strengthen fuel k n) (B.strengthen fuel' k m) := by
  induction n generalizing m with
  | zero =>
    rcases hf.zero with rfl | hF
    · exact Sim.same
    · exact Sim.fail hF
  | succ n ih =>
    obtain ⟨m, rfl, hf'⟩ := hf.succ
    unfold IC3.strengthen
    refine (h.badFrom k).bind fun r r' hr => ?_
    match r, r', hr with
    | .unsat, .unsat, _ => exact Sim.pure _
    | .sat a, .sat b, hr =>
      dsimp only
      rw [h.fsts]
      refine (Sim.lift (Fsts.extractState_near h.prof B.fsts (h.fsts ▸ hr))).bind fun p => (h.inductivelyGeneralize p _ k).bind fun g => ?_
      cases g with
      | failure => exact Sim.same.bind fun _ => Sim.pure _
      | success n' =>
        refine (h.pushGeneralization k hfuel _).bind fun b => ?_
        cases b
        · exact Sim.same.bind fun _ => Sim.pure _
        · exact ih hf'

theorem findFixpoint (h : Like F R A B) (is : List Nat) : Sim F R R (A.findFixpoint is) (B.findFixpoint is) := by
  induction is with
  | nil => exact Sim.pure _
  | cons i is ih =>
    refine (h.frame i).bind fun a => (h.frame (i + 1)).bind fun b => (Sim.lift (debugAssertR_follows h.prof _ _)).bind fun _ => ?_
    split
    · exact (h.getFk i).bind fun _ => Sim.pure _
    · exact ih

theorem mainLoop (h : Like F R A B) {fuel fuel' : Nat} (hfuel : FuelLe F fuel fuel') {n m : Nat} (hf : FuelLe F n m) (k : Nat) :
    Sim F R R (A.mainLoop fuel n k) (B.mainLoop fuel' m k) := by
  induction n generalizing m k with
  | zero =>
    rcases hf.zero with rfl | hF
    · exact Sim.same
    · exact Sim.fail hF
  | succ n ih =>
    obtain ⟨m, rfl, hf'⟩ := hf.succ
    unfold IC3.mainLoop
    refine h.pushFrame.bind fun _ => (h.enterFrame k).bind fun _ => (h.strengthen hfuel k hfuel).bind fun r => ?_
    cases r with
    | some d => exact Sim.same.bind fun _ => Sim.pure _
    | none =>
      refine (h.propagateFrames _).bind fun _ => (h.findFixpoint _).bind fun r => ?_
      cases r with
      | some inv => exact Sim.pure _
      | none => exact ih hf' _

theorem prove (h : Like F R A B) {fuel fuel' : Nat} (hfuel : FuelLe F fuel fuel') : Sim F R R (A.prove fuel) (B.prove fuel') := by
  refine h.badIn0.bind fun r r' hr => ?_
  match r, r', hr with
  | .sat a, .sat b, _ => exact Sim.pure _
  | .unsat, .unsat, _ =>
    refine h.badIn1.bind fun r r' hr => ?_
    match r, r', hr with
    | .sat a, .sat b, _ => exact Sim.pure _
    | .unsat, .unsat, _ => exact h.pushFrame.bind fun _ => h.pushFrame.bind fun _ => h.mainLoop hfuel hfuel 1

end Like

end IC3

end Verif
