import Verif.Props.Failures
import Verif.Props.FrontEnds

/-!
# Property C69: a back-end that gives up is not an answer

A back-end may give up on some calls: `None` from CaDiCaL, an error from Splr or Varisat, no model from Varisat.  Nothing is assumed about the
back-end otherwise.  (MiniSat has no such outcome: its `Err(())` means unsatisfiable.)
-/

namespace Verif.Props

open Verif.Fsts Verif.IC3

/-- `be'` answers as `be` does, or gives up. -/
def CadicalMay (be be' : List (List Int) → CadicalAnswer) : Prop := ∀ cls, be' cls = be cls ∨ (be' cls).result = none

def SplrMay (be be' : List (List Int) → SplrAnswer) : Prop := ∀ cls, be' cls = be cls ∨ be' cls = .errOther

def VarisatMay (be be' : List (List Int) → VarisatAnswer) : Prop := ∀ cls, be' cls = be cls ∨ be' cls = .err ∨ be' cls = .sat none

def CdMay (be be' : CdBackend) : Prop := ∀ t db asm, be' t db asm = be t db asm ∨ (be' t db asm).1 = none

/-- The first run panics at one of the places, or ends exactly as the second. -/
def PanicsOr {α : Type} (sites : List String) (x y : Res α) : Prop := (∃ s ∈ sites, x = .error (.panic s)) ∨ x = y

theorem PanicsOr.follows {α : Type} {sites : List String} {x y : Res α} (h : PanicsOr sites x y) : Follows (fun e => ∃ s ∈ sites, e = .panic s) x y := by
  rcases h with ⟨s, hs, rfl⟩ | rfl
  · exact .inl ⟨s, hs, rfl⟩
  · exact Follows.refl _

theorem PanicsOr.of_follows {α : Type} {sites : List String} {x y : Res α} (h : Follows (fun e => ∃ s ∈ sites, e = .panic s) x y) : PanicsOr sites x y := by
  cases x with
  | ok a => exact .inr (Eq.symm h)
  | error e =>
    rcases h with ⟨s, hs, rfl⟩ | h
    · exact .inl ⟨s, hs, rfl⟩
    · exact .inr h.symm

theorem PanicsOr.bind {α β : Type} {sites : List String} {x : Res α} {f g : α → Res β} (h : ∀ a, PanicsOr sites (f a) (g a)) :
    PanicsOr sites (x >>= f) (x >>= g) := by
  cases x with
  | ok a => exact h a
  | error e => exact .inr rfl

theorem PanicsOr.bind2 {α β : Type} {sites : List String} {x y : Res α} {f : α → Res β} (h : PanicsOr sites x y) :
    PanicsOr sites (x >>= f) (y >>= f) := by
  rcases h with ⟨s, hs, rfl⟩ | rfl
  · exact .inl ⟨s, hs, rfl⟩
  · exact .inr rfl

/-- C69 (stateless CaDiCaL). -/
theorem C69_cadical (dbg : Bool) {be be' : List (List Int) → CadicalAnswer} (h : CadicalMay be be') (g : CNF) :
    PanicsOr ["stateless/cadical_solver.rs:70 unreachable"] (cadicalSolveCnf dbg be' g) (cadicalSolveCnf dbg be g) := by
  refine PanicsOr.bind fun cls => ?_
  rcases h cls with e | e
  · exact .inr (by simp only [e])
  · exact .inl ⟨_, List.mem_cons_self, by simp only [e]; rfl⟩

/-- C69 (Splr). -/
theorem C69_splr (dbg : Bool) {be be' : List (List Int) → SplrAnswer} (h : SplrMay be be') (g : CNF) :
    PanicsOr ["splr_solver.rs:56 unreachable"] (splrSolveCnf dbg be' g) (splrSolveCnf dbg be g) := by
  refine PanicsOr.bind fun cls => ?_
  rcases h cls with e | e
  · exact .inr (by simp only [e])
  · exact .inl ⟨_, List.mem_cons_self, by simp only [e]; rfl⟩

/-- C69 (Varisat). -/
theorem C69_varisat (dbg : Bool) {be be' : List (List Int) → VarisatAnswer} (h : VarisatMay be be') (g : CNF) :
    PanicsOr ["varisat_solver.rs:61 panic", "varisat_solver.rs:55 unwrap"] (varisatSolveCnf dbg be' g) (varisatSolveCnf dbg be g) := by
  refine PanicsOr.bind fun cls => ?_
  rcases h cls with e | e | e
  · exact .inr (by simp only [e])
  · exact .inl ⟨_, List.mem_cons_self, by simp only [e]; rfl⟩
  · exact .inl ⟨"varisat_solver.rs:55 unwrap", by simp, by simp only [e]; rfl⟩

/-- C69 (stateful CaDiCaL), one call. -/
theorem C69_cadical_solve (dbg : Bool) {be be' : CdBackend} (h : CdMay be be') (t : Nat) (cube : Option Cube) (clause : Option Clause) (s : CaDiCal) :
    PanicsOr ["stateful/cadical_solver.rs:111 Sat solver error occurred."] (CaDiCal.solve dbg be' t cube clause s) (CaDiCal.solve dbg be t cube clause s) := by
  have tr : ∀ (s : CaDiCal) asm, PanicsOr ["stateful/cadical_solver.rs:111 Sat solver error occurred."] (s.solveTranslated dbg be' t asm)
      (s.solveTranslated dbg be t asm) := by
    intro s asm
    unfold CaDiCal.solveTranslated
    rcases h t s.db asm with e | e
    · exact .inr (by rw [e])
    · refine .inl ⟨_, List.mem_cons_self, ?_⟩
      cases hb : be' t s.db asm with
      | mk r v =>
        rw [hb] at e
        obtain rfl : r = none := e
        rfl
  have just : ∀ s : CaDiCal, PanicsOr ["stateful/cadical_solver.rs:111 Sat solver error occurred."] (s.solveJustCube dbg be' t cube)
      (s.solveJustCube dbg be t cube) := by
    intro s
    unfold CaDiCal.solveJustCube
    cases cube with
    | none => exact PanicsOr.bind fun v => (tr s v).bind2
    | some c => exact PanicsOr.bind fun v => (tr s v).bind2
  have temp : ∀ (s : CaDiCal) d, PanicsOr ["stateful/cadical_solver.rs:111 Sat solver error occurred."] (s.handleTemporaryExtraClause dbg be' t d cube)
      (s.handleTemporaryExtraClause dbg be t d cube) := by
    intro s d
    unfold CaDiCal.handleTemporaryExtraClause
    refine PanicsOr.bind fun x => PanicsOr.bind fun y => ?_
    cases cube with
    | none => exact PanicsOr.bind fun asm => (tr _ asm).bind2
    | some c => exact PanicsOr.bind fun _ => PanicsOr.bind fun asm => (tr _ asm).bind2
  unfold CaDiCal.solve
  cases cube with
  | none =>
    cases clause with
    | none => exact just _
    | some d => exact PanicsOr.bind (x := pure s) fun s => PanicsOr.bind fun s => temp s d
  | some c =>
    refine PanicsOr.bind fun s => ?_
    cases clause with
    | none => exact just _
    | some d => exact PanicsOr.bind fun s => temp s d

theorem cadical_like {S : List Nat} (dbg : Bool) {be be' : CdBackend} (h : CdMay be be') :
    StatefulImpl.Like (fun e => ∃ s ∈ ["stateful/cadical_solver.rs:111 Sat solver error occurred."], e = .panic s) S (CaDiCal.impl dbg be') (CaDiCal.impl dbg be)
      (fun (s t : CaDiCal) => s = t) where
  new := rfl
  addCnf := by rintro g s _ rfl; exact Both.of_follows (Follows.refl _)
  solve := by
    rintro n _ rfl cube clause s _ rfl
    have hf := (C69_cadical_solve dbg h n cube clause s).follows
    show Both _ _ (CaDiCal.solve dbg be' n cube clause s) (CaDiCal.solve dbg be n cube clause s)
    cases hx : CaDiCal.solve dbg be' n cube clause s with
    | ok p => exact ⟨p, hf.ok hx, .refl _, rfl⟩
    | error e => exact hf.error hx

/-- C69 (stateful CaDiCaL), whole histories. -/
theorem C69_cadical_history (dbg : Bool) {be be' : CdBackend} (h : CdMay be be') (ops : List Op) (t : Nat) (s : CaDiCal) :
    PanicsOr ["stateful/cadical_solver.rs:111 Sat solver error occurred."] ((CaDiCal.impl dbg be').run ops t s) ((CaDiCal.impl dbg be).run ops t s) := by
  induction ops generalizing t s with
  | nil => exact .inr rfl
  | cons op ops ih =>
    cases op with
    | addCnf f => exact PanicsOr.bind fun s => ih t s
    | solve cube clause =>
      have hc := C69_cadical_solve dbg h t cube clause s
      show PanicsOr _ ((CaDiCal.solve dbg be' t cube clause s) >>= fun x => _) ((CaDiCal.solve dbg be t cube clause s) >>= fun x => _)
      rcases hc with ⟨site, hs, e⟩ | e
      · rw [e]; exact .inl ⟨site, hs, rfl⟩
      · rw [e]
        exact PanicsOr.bind fun x => (ih (t + 1) x.2).bind2

/-- C69: the provers over a back-end that may give up: they panic where the front-end panics, or do what they do over the back-end that never
gives up.  Here `IC3Stateless` over the three stateless front-ends. -/
theorem C69_ic3_stateless (dbg : Bool) (order : Nat → List Clause → List Clause) (shuffle : Nat → List Literal → List Literal) (sched : Sched) (f : Fsts)
    (fuel : Nat) :
    (∀ be be', (∀ t, CadicalMay (be t) (be' t)) → PanicsOr ["stateless/cadical_solver.rs:70 unreachable"]
      (proveStateless dbg (cadicalEnv dbg be' order shuffle) sched f fuel) (proveStateless dbg (cadicalEnv dbg be order shuffle) sched f fuel)) ∧
    (∀ be be', (∀ t, SplrMay (be t) (be' t)) → PanicsOr ["splr_solver.rs:56 unreachable"]
      (proveStateless dbg (splrEnv dbg be' order shuffle) sched f fuel) (proveStateless dbg (splrEnv dbg be order shuffle) sched f fuel)) ∧
    (∀ be be', (∀ t, VarisatMay (be t) (be' t)) → PanicsOr ["varisat_solver.rs:61 panic", "varisat_solver.rs:55 unwrap"]
      (proveStateless dbg (varisatEnv dbg be' order shuffle) sched f fuel) (proveStateless dbg (varisatEnv dbg be order shuffle) sched f fuel)) :=
  ⟨fun be be' h => .of_follows (proveStateless_follows (env := cadicalEnv dbg be' order shuffle) (env' := cadicalEnv dbg be order shuffle) (Prof.refl dbg) ⟨fun t g => (C69_cadical dbg (h t) g).follows, rfl, rfl⟩ sched f (FuelLe.refl fuel)),
    fun be be' h => .of_follows (proveStateless_follows (env := splrEnv dbg be' order shuffle) (env' := splrEnv dbg be order shuffle) (Prof.refl dbg) ⟨fun t g => (C69_splr dbg (h t) g).follows, rfl, rfl⟩ sched f (FuelLe.refl fuel)),
    fun be be' h => .of_follows (proveStateless_follows (env := varisatEnv dbg be' order shuffle) (env' := varisatEnv dbg be order shuffle) (Prof.refl dbg) ⟨fun t g => (C69_varisat dbg (h t) g).follows, rfl, rfl⟩ sched f (FuelLe.refl fuel))⟩

/-- C69: `IC3Stateful` and PDR over the stateful CaDiCaL front-end. -/
theorem C69_stateful (dbg : Bool) {be be' : CdBackend} (h : CdMay be be') (sched : Sched) (f : Fsts) (fuel : Nat) :
    PanicsOr ["stateful/cadical_solver.rs:111 Sat solver error occurred."]
      (proveStateful dbg (CaDiCal.impl dbg be') sched f fuel) (proveStateful dbg (CaDiCal.impl dbg be) sched f fuel) ∧
    PanicsOr ["stateful/cadical_solver.rs:111 Sat solver error occurred."]
      (PDR.run dbg (CaDiCal.impl dbg be') sched f fuel) (PDR.run dbg (CaDiCal.impl dbg be) sched f fuel) :=
  ⟨.of_follows (proveStateful_follows dbg sched f (cadical_like dbg h) (FuelLe.refl fuel)),
    .of_follows (PDR.run_follows (Prof.refl dbg) sched f (cadical_like dbg h) (FuelLe.refl fuel))⟩

/-! ## Concrete back-ends that give up -/

/-- Gives up on more than `n` clauses. -/
def upToV (n : Nat) : List (List Int) → VarisatAnswer := fun cls => if n < cls.length then .err else Brute.varisat cls

theorem upToV_may (n : Nat) : VarisatMay Brute.varisat (upToV n) := fun cls => by
  unfold upToV
  split
  · exact .inr (.inl rfl)
  · exact .inl rfl

/-- Gives up from the call `n` on. -/
def upToC (n : Nat) : CdBackend := fun t db asm => if n < t then (none, fun _ => none) else Brute.cd t db asm

theorem upToC_may (n : Nat) : CdMay Brute.cd (upToC n) := fun t db asm => by
  unfold upToC
  split
  · exact .inr rfl
  · exact .inl rfl

example : varisatSolveCnf true (upToV 0) (CNF.new.addClause (Clause.new [])) = .error (.panic "varisat_solver.rs:61 panic") ∧
    varisatSolveCnf true (upToV 1) (CNF.new.addClause (Clause.new [])) = .ok .unsat := by
  refine ⟨?_, ?_⟩ <;> decide +kernel

/-- The shifter: IC3 over a solver that gives up early panics, over one that gives up late finds the counterexample. -/
example : site (proveStateful true (CaDiCal.impl true (upToC 3)) plain (systemOf shifter false) 10) =
      some "stateful/cadical_solver.rs:111 Sat solver error occurred." ∧
    verdict (proveStateful true (CaDiCal.impl true (upToC 50)) plain (systemOf shifter false) 10) = some (some 1) := by
  refine ⟨?_, ?_⟩ <;> decide +kernel

end Verif.Props
