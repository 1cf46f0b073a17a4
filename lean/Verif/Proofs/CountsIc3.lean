import Verif.Proofs.Counts

/-! # Counters of SAT calls in IC3 -/

namespace Verif

namespace IC3

variable {σ γ κ ι : Type} {τ : ι → Type} [DecidableEq κ]

/-- A prover with counters and the provers without whose basic operations are related. -/
structure Counting (M : Meter σ γ κ ι τ) (A : IC3 (Counted σ γ)) (B : ∀ t, IC3 (τ t)) : Prop where
  ok : M.OK
  dbg : ∀ t, (B t).dbg = A.dbg
  fsts : ∀ t, (B t).fsts = A.fsts
  sched : ∀ t, (B t).sched = A.sched
  forms : ∀ t, (B t).forms = A.forms
  clauses : ∀ s t, (B t).clauses (M.view t s.base) = A.clauses s
  tick : M.Runs A.tick (fun t => (B t).tick)
  addClause : ∀ j c, M.Runs (A.addClause j c) (fun t => (B t).addClause j c)
  pushFrame : M.Runs A.pushFrame (fun t => (B t).pushFrame)
  enterFrame : ∀ k, M.Runs (A.enterFrame k) (fun t => (B t).enterFrame k)
  badIn0 : M.Runs A.badIn0 (fun t => (B t).badIn0)
  badIn1 : M.Runs A.badIn1 (fun t => (B t).badIn1)
  badFrom : ∀ k, M.Runs (A.badFrom k) (fun t => (B t).badFrom k)
  cubeReach : ∀ i s, M.Runs (A.cubeReach i s) (fun t => (B t).cubeReach i s)
  cubeReachNew : ∀ i s, M.Runs (A.cubeReachNew i s) (fun t => (B t).cubeReachNew i s)
  clauseInductive : ∀ d i, M.Runs (A.clauseInductive d i) (fun t => (B t).clauseInductive d i)

namespace Counting

variable {M : Meter σ γ κ ι τ} {A : IC3 (Counted σ γ)} {B : ∀ t, IC3 (τ t)}

theorem frame (h : Counting M A B) (k : Nat) : M.Runs (A.frame k) (fun t => (B t).frame k) := by
  refine Meter.Runs.read fun s => ?_
  simp only [h.clauses]
  exact Meter.Runs.lift h.ok _ s

theorem getFk (h : Counting M A B) (k : Nat) : M.Runs (A.getFk k) (fun t => (B t).getFk k) := by
  unfold IC3.getFk
  simp only [h.forms]
  exact (h.frame k).bind fun _ => Meter.Runs.pure h.ok _

theorem propagateLoop (h : Counting M A B) (i : Nat) (cs : List Clause) : M.Runs (A.propagateLoop i cs) (fun t => (B t).propagateLoop i cs) := by
  induction cs with
  | nil => exact Meter.Runs.pure h.ok _
  | cons c cs ih =>
    unfold IC3.propagateLoop
    refine (h.cubeReach i c.not).bind fun r => ?_
    cases r with
    | unsat => exact (h.addClause _ _).bind fun _ => ih
    | sat a => exact (Meter.Runs.pure h.ok ()).bind fun _ => ih

theorem propagateFrames (h : Counting M A B) (is : List Nat) : M.Runs (A.propagateFrames is) (fun t => (B t).propagateFrames is) := by
  induction is with
  | nil => exact Meter.Runs.pure h.ok _
  | cons i is ih =>
    unfold IC3.propagateFrames
    simp only [h.sched]
    exact (h.frame i).bind fun g => h.tick.bind fun t => (h.propagateLoop i _).bind fun _ => ih

theorem subclauseLoop (h : Counting M A B) (i budget : Nat) (lits : List Literal) (j : Nat) :
    M.Runs (A.subclauseLoop i budget lits j) (fun t => (B t).subclauseLoop i budget lits j) := by
  induction budget generalizing lits j with
  | zero =>
    unfold IC3.subclauseLoop
    split
    · exact Meter.Runs.lift h.ok _
    · exact Meter.Runs.pure h.ok _
  | succ budget ih =>
    unfold IC3.subclauseLoop
    split
    · refine (Meter.Runs.lift h.ok _).bind fun p => ?_
      refine (h.clauseInductive _ i).bind fun b => ?_
      cases b
      · exact (Meter.Runs.lift h.ok _).bind fun _ => ih _ _
      · exact ih _ _
    · exact Meter.Runs.pure h.ok _

theorem subclause (h : Counting M A B) (s : Cube) (i : Nat) : M.Runs (A.subclause s i) (fun t => (B t).subclause s i) := by
  unfold IC3.subclause
  simp only [h.sched]
  exact h.tick.bind fun t => (h.subclauseLoop i _ _ _).bind fun _ => Meter.Runs.pure h.ok _

theorem addToFrames (h : Counting M A B) (c : Clause) (js : List Nat) : M.Runs (A.addToFrames c js) (fun t => (B t).addToFrames c js) := by
  induction js with
  | nil => exact Meter.Runs.pure h.ok _
  | cons j js ih => exact (h.addClause j c).bind fun _ => ih

theorem generateClause (h : Counting M A B) (s : Cube) (i : Nat) : M.Runs (A.generateClause s i) (fun t => (B t).generateClause s i) :=
  (h.subclause s i).bind fun _ => h.addToFrames _ _

theorem generalizeLoop (h : Counting M A B) (s : Cube) (k : Nat) (is : List Nat) :
    M.Runs (A.generalizeLoop s k is) (fun t => (B t).generalizeLoop s k is) := by
  induction is with
  | nil => exact (h.generateClause s k).bind fun _ => Meter.Runs.pure h.ok _
  | cons i is ih =>
    refine (h.cubeReachNew i s).bind fun b => ?_
    cases b
    · exact ih
    · exact (h.generateClause s _).bind fun _ => Meter.Runs.pure h.ok _

theorem inductivelyGeneralize (h : Counting M A B) (s : Cube) (min : Int) (k : Nat) :
    M.Runs (A.inductivelyGeneralize s min k) (fun t => (B t).inductivelyGeneralize s min k) := by
  unfold IC3.inductivelyGeneralize
  dsimp only
  split
  · refine (h.cubeReachNew 0 s).bind fun b => ?_
    cases b
    · exact h.generalizeLoop s k _
    · exact Meter.Runs.pure h.ok _
  · exact h.generalizeLoop s k _

theorem pushGeneralization (h : Counting M A B) (k : Nat) (n : Nat) (q : PQueue Cube) :
    M.Runs (A.pushGeneralization k n q) (fun t => (B t).pushGeneralization k n q) := by
  induction n generalizing q with
  | zero => exact Meter.Runs.lift h.ok _
  | succ n ih =>
    unfold IC3.pushGeneralization
    simp only [h.sched, h.fsts, h.dbg]
    refine h.tick.bind fun t => (Meter.Runs.lift h.ok _).bind fun p => ?_
    obtain ⟨⟨s, i⟩, q⟩ := p
    dsimp only
    split
    · exact Meter.Runs.pure h.ok _
    · refine (h.cubeReach i s).bind fun r => ?_
      cases r with
      | sat a =>
        refine (Meter.Runs.lift h.ok _).bind fun p => (h.inductivelyGeneralize p _ k).bind fun g => ?_
        cases g with
        | failure => exact Meter.Runs.pure h.ok _
        | success m => exact ih _
      | unsat =>
        refine (h.inductivelyGeneralize s _ k).bind fun g => ?_
        cases g with
        | failure => exact Meter.Runs.pure h.ok _
        | success m => exact ih _

theorem strengthen (h : Counting M A B) (fuel k n : Nat) : M.Runs (A.strengthen fuel k n) (fun t => (B t).strengthen fuel k n) := by
  induction n with
  | zero => exact Meter.Runs.lift h.ok _
  | succ n ih =>
    unfold IC3.strengthen
    simp only [h.fsts, h.dbg]
    refine (h.badFrom k).bind fun r => ?_
    cases r with
    | unsat => exact Meter.Runs.pure h.ok _
    | sat a =>
      refine (Meter.Runs.lift h.ok _).bind fun p => (h.inductivelyGeneralize p _ k).bind fun g => ?_
      cases g with
      | failure => exact (Meter.Runs.lift h.ok _).bind fun _ => Meter.Runs.pure h.ok _
      | success m =>
        refine (h.pushGeneralization k fuel _).bind fun b => ?_
        cases b
        · exact (Meter.Runs.lift h.ok _).bind fun _ => Meter.Runs.pure h.ok _
        · exact ih

theorem findFixpoint (h : Counting M A B) (is : List Nat) : M.Runs (A.findFixpoint is) (fun t => (B t).findFixpoint is) := by
  induction is with
  | nil => exact Meter.Runs.pure h.ok _
  | cons i is ih =>
    unfold IC3.findFixpoint
    simp only [h.dbg]
    refine (h.frame i).bind fun a => (h.frame (i + 1)).bind fun b => (Meter.Runs.lift h.ok _).bind fun _ => ?_
    split
    · exact (h.getFk i).bind fun _ => Meter.Runs.pure h.ok _
    · exact ih

theorem mainLoop (h : Counting M A B) (fuel n k : Nat) : M.Runs (A.mainLoop fuel n k) (fun t => (B t).mainLoop fuel n k) := by
  induction n generalizing k with
  | zero => exact Meter.Runs.lift h.ok _
  | succ n ih =>
    unfold IC3.mainLoop
    refine h.pushFrame.bind fun _ => (h.enterFrame k).bind fun _ => (h.strengthen fuel k fuel).bind fun r => ?_
    cases r with
    | some d => exact (Meter.Runs.lift h.ok _).bind fun _ => Meter.Runs.pure h.ok _
    | none =>
      refine (h.propagateFrames _).bind fun _ => (h.findFixpoint _).bind fun r => ?_
      cases r with
      | some inv => exact Meter.Runs.pure h.ok _
      | none => exact ih _

theorem prove (h : Counting M A B) (fuel : Nat) : M.Runs (A.prove fuel) (fun t => (B t).prove fuel) := by
  unfold IC3.prove
  refine h.badIn0.bind fun r => ?_
  cases r with
  | sat a => exact Meter.Runs.pure h.ok _
  | unsat =>
    refine h.badIn1.bind fun r => ?_
    cases r with
    | sat a => exact Meter.Runs.pure h.ok _
    | unsat => exact h.pushFrame.bind fun _ => h.pushFrame.bind fun _ => h.mainLoop fuel fuel 1

end Counting

end IC3

end Verif
