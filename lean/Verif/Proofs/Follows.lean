import Verif.Proofs.Hoare
import Verif.Model.Pdr
import Verif.Model.Bmc
import Verif.Model.AigParse
import Verif.Model.Stateless

/-!
# One run follows another

`Follows F x y`: the computation `y` does what `x` does, except where `x` fails with an error in `F`.  `Sim` is the same for computations
with state, the states being related.
-/

namespace Verif

variable {α β γ σ τ : Type} {F : Err → Prop}

/-- Same value; same error unless it is in `F`. -/
def Follows (F : Err → Prop) (x y : Res α) : Prop :=
  match x with
  | .ok a => y = .ok a
  | .error e => F e ∨ y = .error e

theorem Follows.refl (x : Res α) : Follows F x x := by
  cases x with
  | ok a => rfl
  | error e => exact .inr rfl

theorem Follows.ok {x y : Res α} (h : Follows F x y) {a : α} (e : x = .ok a) : y = .ok a := by subst e; exact h

theorem Follows.error {x y : Res α} (h : Follows F x y) {e : Err} (he : x = .error e) : F e ∨ y = .error e := by subst he; exact h

theorem Follows.bind {x y : Res α} {f g : α → Res β} (h : Follows F x y) (hk : ∀ a, Follows F (f a) (g a)) : Follows F (x >>= f) (y >>= g) := by
  cases x with
  | ok a =>
    have : y = .ok a := h
    subst this
    exact hk a
  | error e =>
    rcases h with h | h
    · exact .inl h
    · subst h; exact .inr rfl

theorem Follows.bind_same {x : Res α} {f g : α → Res β} (hk : ∀ a, Follows F (f a) (g a)) : Follows F (x >>= f) (x >>= g) :=
  (Follows.refl x).bind hk

theorem Follows.foldlM {f g : β → α → Res β} (h : ∀ b a, Follows F (f b a) (g b a)) (l : List α) (b : β) : Follows F (l.foldlM f b) (l.foldlM g b) := by
  induction l generalizing b with
  | nil => exact Follows.refl _
  | cons a l ih =>
    rw [List.foldlM_cons, List.foldlM_cons]
    exact (h b a).bind ih

theorem Follows.mapM {f g : α → Res β} (h : ∀ a, Follows F (f a) (g a)) (l : List α) : Follows F (l.mapM f) (l.mapM g) := by
  induction l with
  | nil => rw [List.mapM_nil, List.mapM_nil]; exact Follows.refl _
  | cons a l ih =>
    rw [List.mapM_cons, List.mapM_cons]
    exact (h a).bind fun b => ih.bind fun bs => Follows.refl _

/-! ## Build profiles: what a debug build computes, a release build computes -/

/-- Every failure of the first run is allowed. -/
abbrev Any : Err → Prop := fun _ => True

theorem Follows.any_error {e : Err} {y : Res α} : Follows Any (.error e) y := .inl trivial

/-- The two runs have the same build profile, or the first is a debug run whose failures are all allowed. -/
def Prof (F : Err → Prop) (d d' : Bool) : Prop := d = d' ∨ (d = true ∧ d' = false ∧ ∀ e, F e)

theorem Prof.refl (d : Bool) : Prof F d d := .inl rfl

theorem Prof.any : Prof Any true false := .inr ⟨rfl, rfl, fun _ => trivial⟩

theorem Follows.mono {F' : Err → Prop} {x y : Res α} (h : Follows F x y) (hF : ∀ e, F e → F' e) : Follows F' x y := by
  cases x with
  | ok a => exact h
  | error e =>
    rcases h with h | h
    · exact .inl (hF e h)
    · exact .inr h

theorem Prof.follows {d d' : Bool} (h : Prof F d d') {f : Bool → Res α} (hf : Follows Any (f true) (f false)) : Follows F (f d) (f d') := by
  rcases h with rfl | ⟨rfl, rfl, hF⟩
  · exact Follows.refl _
  · exact hf.mono fun e _ => hF e

theorem debugAssertR_prof (site : String) (b : Bool) : Follows Any (debugAssertR true site b) (debugAssertR false site b) := by
  cases b
  · exact Follows.any_error
  · rfl

theorem u32Add_prof (site : String) (a b : Nat) : Follows Any (u32Add true site a b) (u32Add false site a b) := by
  unfold u32Add
  split
  · rfl
  · exact Follows.any_error

theorem u32Mul_prof (site : String) (a b : Nat) : Follows Any (u32Mul true site a b) (u32Mul false site a b) := by
  unfold u32Mul
  split
  · rfl
  · exact Follows.any_error

theorem usizeAdd_prof (site : String) (a b : Nat) : Follows Any (usizeAdd true site a b) (usizeAdd false site a b) := by
  unfold usizeAdd
  split
  · rfl
  · exact Follows.any_error

theorem Literal.new_prof (n : Nat) : Follows Any (Literal.new true n) (Literal.new false n) :=
  (debugAssertR_prof _ _).bind fun _ => (debugAssertR_prof _ _).bind fun _ => Follows.refl _

theorem Assignment.insertDimacs_prof (a : Assignment) (x : Int) : Follows Any (a.insertDimacs true x) (a.insertDimacs false x) := by
  unfold Assignment.insertDimacs
  by_cases h : x = -2147483648
  · rw [if_pos h, if_pos h]; exact Follows.any_error
  · rw [if_neg h, if_neg h]
    exact (debugAssertR_prof _ _).bind fun _ => Follows.refl _

theorem Assignment.fromDimacs_prof (xs : List Int) : Follows Any (Assignment.fromDimacs true xs) (Assignment.fromDimacs false xs) :=
  Follows.foldlM Assignment.insertDimacs_prof _ _

/-! ### Transition systems -/

namespace Fsts

theorem literalOfAig_prof (l : Nat) : Follows Any (literalOfAig true l) (literalOfAig false l) := by
  unfold literalOfAig
  split
  · exact (Literal.new_prof _).bind fun _ => Follows.refl _
  · exact Follows.any_error

theorem encodeGate_prof (cnf : CNF) (g : Nat × Nat × Nat) : Follows Any (encodeGate true cnf g) (encodeGate false cnf g) := by
  obtain ⟨lhs, rhs0, rhs1⟩ := g
  refine (literalOfAig_prof _).bind fun o => Follows.bind_same fun _ => ?_
  by_cases h1 : (rhs0 == 0 || rhs1 == 0) = true
  · rw [if_pos h1, if_pos h1]; exact Follows.refl _
  rw [if_neg h1, if_neg h1]
  by_cases h2 : (rhs0 == 1 && rhs1 == 1) = true
  · rw [if_pos h2, if_pos h2]; exact Follows.refl _
  rw [if_neg h2, if_neg h2]
  by_cases h3 : (rhs0 == 1) = true
  · rw [if_pos h3, if_pos h3]; exact (literalOfAig_prof _).bind fun _ => Follows.refl _
  rw [if_neg h3, if_neg h3]
  by_cases h4 : (rhs1 == 1) = true
  · rw [if_pos h4, if_pos h4]; exact (literalOfAig_prof _).bind fun _ => Follows.refl _
  rw [if_neg h4, if_neg h4]
  exact (literalOfAig_prof _).bind fun _ => (literalOfAig_prof _).bind fun _ => Follows.refl _

theorem wireCnf_prof (order : List (Nat × Nat × Nat) → List (Nat × Nat × Nat)) (aig : Aig) (wires : List Nat) :
    Follows Any (wireCnf true order aig wires) (wireCnf false order aig wires) :=
  Follows.bind_same fun _ => Follows.foldlM encodeGate_prof _ _

theorem initialStep_prof (ls : List Literal) (x : Nat × Nat × Nat) : Follows Any (initialStep true ls x) (initialStep false ls x) := by
  obtain ⟨a, b, c⟩ := x
  unfold initialStep
  dsimp only
  by_cases h : (c != a) = true
  · rw [if_pos h, if_pos h]
    exact (literalOfAig_prof _).bind fun _ => Follows.refl _
  · rw [if_neg h, if_neg h]; exact Follows.refl _

theorem createInitial_prof (aig : Aig) : Follows Any (createInitial true aig) (createInitial false aig) :=
  Follows.bind_same fun _ => (Follows.foldlM initialStep_prof _ _).bind fun _ => Follows.refl _

theorem transitionStep_prof (max : Nat) (acc : CNF × List Nat) (x : Nat × Nat × Nat) :
    Follows Any (transitionStep true max acc x) (transitionStep false max acc x) := by
  obtain ⟨cnf, wires⟩ := acc
  obtain ⟨a, b, c⟩ := x
  refine (debugAssertR_prof _ _).bind fun _ => (literalOfAig_prof _).bind fun _ => (u32Add_prof _ _ _).bind fun _ =>
    (Literal.new_prof _).bind fun _ => ?_
  dsimp only
  by_cases h1 : (b == 0) = true
  · rw [if_pos h1, if_pos h1]; exact Follows.refl _
  rw [if_neg h1, if_neg h1]
  by_cases h2 : (b == 1) = true
  · rw [if_pos h2, if_pos h2]; exact Follows.refl _
  rw [if_neg h2, if_neg h2]
  exact (literalOfAig_prof _).bind fun _ => Follows.refl _

theorem createTransition_prof (be : BuildEnv) (aig : Aig) (max : Nat) :
    Follows Any (createTransition true be aig max) (createTransition false be aig max) :=
  Follows.bind_same fun _ => (Follows.foldlM (transitionStep_prof max) _ _).bind fun _ => (wireCnf_prof _ _ _).bind fun _ => Follows.refl _

theorem createUnsafety_prof (be : BuildEnv) (aig : Aig) (ob : Bool) : Follows Any (createUnsafety true be aig ob) (createUnsafety false be aig ob) := by
  unfold createUnsafety
  dsimp only
  generalize aig.getBadInformation ++ (if ob = true then aig.getOutputInformation else []) = ws
  by_cases hw : (!ws.isEmpty) = true
  · rw [if_pos hw, if_pos hw]
    exact (Follows.mapM literalOfAig_prof _).bind fun _ => Follows.refl _
  · rw [if_neg hw, if_neg hw]
    cases be.varisat (Clause.new []).toCnf with
    | error e => exact Follows.any_error
    | ok r =>
      show Follows Any (assertR _ (r == .unsat) >>= fun _ => pure (Clause.new [])) (pure (Clause.new []))
      cases (r == .unsat)
      · exact Follows.any_error
      · rfl

theorem literalNumber_prof (site : String) (l : Nat) : Follows Any (literalNumber true site l) (literalNumber false site l) :=
  (literalOfAig_prof _).bind fun _ => Follows.refl _

theorem createInputAndState_prof (aig : Aig) : Follows Any (createInputAndState true aig) (createInputAndState false aig) :=
  Follows.bind_same fun _ => (Follows.mapM (literalNumber_prof _) _).bind fun _ => Follows.bind_same fun _ =>
    (Follows.mapM (fun _ => literalNumber_prof _ _) _).bind fun _ => Follows.refl _

theorem fromAig_prof (be : BuildEnv) (aig : Aig) (ob : Bool) : Follows Any (fromAig true be aig ob) (fromAig false be aig ob) :=
  Follows.bind_same fun _ => Follows.bind_same fun _ => (createInputAndState_prof _).bind fun _ => (createInitial_prof _).bind fun _ =>
    (createTransition_prof _ _ _).bind fun _ => (wireCnf_prof _ _ _).bind fun _ => (createUnsafety_prof _ _ _).bind fun _ => Follows.refl _

theorem bumpLiteral_prof (n : Nat) (l : Literal) : Follows Any (bumpLiteral true n l) (bumpLiteral false n l) :=
  Follows.bind_same fun _ => (u32Add_prof _ _ _).bind fun _ => (Literal.new_prof _).bind fun _ => Follows.refl _

theorem bumpClause_prof (c : Clause) (n : Nat) : Follows Any (bumpClause true c n) (bumpClause false c n) :=
  (Follows.mapM (bumpLiteral_prof n) _).bind fun _ => Follows.refl _

theorem bumpCnf_prof (g : CNF) (n : Nat) : Follows Any (bumpCnf true g n) (bumpCnf false g n) := by
  unfold bumpCnf
  split
  · exact Follows.refl _
  · exact Follows.foldlM (fun _ c => (bumpClause_prof c n).bind fun _ => Follows.refl _) _ _

variable {d d' : Bool}

theorem addTagsToRelation_prof (h : Prof F d d') (f : Fsts) (g : CNF) (n : Nat) :
    Follows F (f.addTagsToRelation d g n) (f.addTagsToRelation d' g n) :=
  h.follows (f := fun d => f.addTagsToRelation d g n) ((u32Mul_prof _ _ _).bind fun _ => bumpCnf_prof _ _)

theorem addTagsToCube_prof (h : Prof F d d') (f : Fsts) (g : Cube) (n : Nat) :
    Follows F (f.addTagsToCube d g n) (f.addTagsToCube d' g n) := by
  refine h.follows (f := fun d => f.addTagsToCube d g n) ?_
  unfold addTagsToCube
  split
  · exact Follows.refl _
  · exact (u32Mul_prof _ _ _).bind fun _ => (bumpClause_prof _ _).bind fun _ => Follows.refl _

theorem extractState_prof (h : Prof F d d') (f : Fsts) (a : Assignment) : Follows F (f.extractState d a) (f.extractState d' a) :=
  h.follows (f := fun d => f.extractState d a)
    ((Follows.mapM (fun _ => (Literal.new_prof _).bind fun _ => Follows.refl _) _).bind fun _ => Follows.refl _)

end Fsts

theorem debugAssertR_follows {d d' : Bool} (h : Prof F d d') (site : String) (b : Bool) :
    Follows F (debugAssertR d site b) (debugAssertR d' site b) := h.follows (f := fun d => debugAssertR d site b) (debugAssertR_prof site b)

/-! ### Reading files -/

namespace Aig

theorem loadFirstLine_prof (lines : List Text) (a : Aig) : Follows Any (loadFirstLine true lines a) (loadFirstLine false lines a) := by
  unfold loadFirstLine
  repeat' first
    | with_reducible refine (usizeAdd_prof _ _ _).bind fun _ => ?_
    | with_reducible refine Follows.bind_same fun _ => ?_
    | with_reducible exact Follows.refl _

theorem allocateVectors_prof (a : Aig) : Follows Any (allocateVectors true a) (allocateVectors false a) :=
  (usizeAdd_prof _ _ _).bind fun _ => Follows.refl _

theorem fromBytes_prof (bytes : Text) : Follows Any (fromBytes true bytes) (fromBytes false bytes) :=
  (loadFirstLine_prof _ _).bind fun _ => (allocateVectors_prof _).bind fun _ => Follows.refl _

end Aig

/-! ### Solver front-ends -/

theorem cadicalSolveCnf_prof (be : List (List Int) → CadicalAnswer) (f : CNF) : Follows Any (cadicalSolveCnf true be f) (cadicalSolveCnf false be f) := by
  refine Follows.bind_same fun cls => ?_
  dsimp only
  cases (be cls).result with
  | none => exact Follows.any_error
  | some b =>
    cases b
    · exact Follows.refl _
    · dsimp only
      by_cases h : (be cls).maxVariable + 1 < 2147483648
      · rw [if_pos h, if_pos h]; exact (Assignment.fromDimacs_prof _).bind fun _ => Follows.refl _
      · rw [if_neg h]; exact Follows.any_error

theorem splrSolveCnf_prof (be : List (List Int) → SplrAnswer) (f : CNF) : Follows Any (splrSolveCnf true be f) (splrSolveCnf false be f) := by
  refine Follows.bind_same fun cls => ?_
  cases be cls with
  | sat m => exact (Assignment.fromDimacs_prof _).bind fun _ => Follows.refl _
  | _ => exact Follows.refl _

theorem varisatSolveCnf_prof (be : List (List Int) → VarisatAnswer) (f : CNF) : Follows Any (varisatSolveCnf true be f) (varisatSolveCnf false be f) := by
  refine Follows.bind_same fun cls => ?_
  cases be cls with
  | sat m => exact Follows.bind_same fun _ => Follows.bind_same fun _ => (Assignment.fromDimacs_prof _).bind fun _ => Follows.refl _
  | _ => exact Follows.refl _

namespace MiniSat

theorem solveTranslated_prof (be : MsBackend) (t : Nat) (s : MiniSat) (cube : List BLit) :
    Follows Any (s.solveTranslated true be t cube) (s.solveTranslated false be t cube) := by
  unfold solveTranslated
  cases be t s.db cube with
  | some m => exact Follows.bind_same fun _ => (Assignment.fromDimacs_prof _).bind fun _ => Follows.refl _
  | none => exact Follows.refl _

theorem solve_prof (be : MsBackend) (t : Nat) (cube : Option Cube) (clause : Option Clause) (s : MiniSat) :
    Follows Any (solve true be t cube clause s) (solve false be t cube clause s) := by
  unfold solve
  cases clause with
  | none =>
    show Follows Any (solveJustCube true _ _ _ _) (solveJustCube false _ _ _ _)
    unfold solveJustCube
    cases cube with
    | none => exact Follows.bind_same fun _ => (solveTranslated_prof _ _ _ _).bind fun _ => Follows.refl _
    | some c => exact Follows.bind_same fun _ => (solveTranslated_prof _ _ _ _).bind fun _ => Follows.refl _
  | some extra =>
    show Follows Any (handleTemporaryExtraClause true _ _ _ _ _) (handleTemporaryExtraClause false _ _ _ _ _)
    unfold handleTemporaryExtraClause
    cases cube with
    | none => exact Follows.bind_same fun _ => (solveTranslated_prof _ _ _ _).bind fun _ => Follows.refl _
    | some c => exact Follows.bind_same fun _ => Follows.bind_same fun _ => (solveTranslated_prof _ _ _ _).bind fun _ => Follows.refl _

end MiniSat

namespace CaDiCal

theorem newLit_prof (s : CaDiCal) : Follows Any (s.newLit true) (s.newLit false) := by
  unfold newLit
  dsimp only
  split
  · rfl
  · exact Follows.any_error

theorem extendBy_prof (k : Nat) (s : CaDiCal) : Follows Any (extendBy true k s) (extendBy false k s) := by
  induction k generalizing s with
  | zero => exact Follows.refl _
  | succ k ih => exact (newLit_prof s).bind fun _ => ih _

theorem extendIfNeeded_prof (s : CaDiCal) (f : CNF) : Follows Any (s.extendIfNeeded true f) (s.extendIfNeeded false f) := by
  unfold extendIfNeeded
  dsimp only
  split
  · exact extendBy_prof _ _
  · exact Follows.refl _

theorem solveTranslated_prof (be : CdBackend) (t : Nat) (s : CaDiCal) (cube : List Int) :
    Follows Any (s.solveTranslated true be t cube) (s.solveTranslated false be t cube) := by
  unfold solveTranslated
  obtain ⟨r, value⟩ := be t s.db cube
  dsimp only
  cases r with
  | none => exact Follows.refl _
  | some b =>
    cases b
    · exact Follows.refl _
    · exact Follows.bind_same fun _ => (Assignment.fromDimacs_prof _).bind fun _ => Follows.refl _

theorem addCnf_prof (f : CNF) (s : CaDiCal) : Follows Any (addCnf true f s) (addCnf false f s) :=
  (extendIfNeeded_prof s f).bind fun _ => Follows.refl _

theorem handle_prof (be : CdBackend) (t : Nat) (s : CaDiCal) (extra : Clause) (cube : Option Cube) :
    Follows Any (s.handleTemporaryExtraClause true be t extra cube) (s.handleTemporaryExtraClause false be t extra cube) := by
  refine Follows.bind_same fun _ => (newLit_prof s).bind fun p => ?_
  dsimp only
  cases cube with
  | none => exact Follows.bind_same fun _ => (solveTranslated_prof _ _ _ _).bind fun _ => Follows.refl _
  | some c => exact Follows.bind_same fun _ => (solveTranslated_prof _ _ _ _).bind fun _ => Follows.refl _

theorem justCube_prof (be : CdBackend) (t : Nat) (s : CaDiCal) (cube : Option Cube) :
    Follows Any (s.solveJustCube true be t cube) (s.solveJustCube false be t cube) := by
  unfold solveJustCube
  cases cube with
  | none => exact Follows.bind_same fun _ => (solveTranslated_prof _ _ _ _).bind fun _ => Follows.refl _
  | some c => exact Follows.bind_same fun _ => (solveTranslated_prof _ _ _ _).bind fun _ => Follows.refl _

theorem solve_prof (be : CdBackend) (t : Nat) (cube : Option Cube) (clause : Option Clause) (s : CaDiCal) :
    Follows Any (solve true be t cube clause s) (solve false be t cube clause s) := by
  unfold solve
  dsimp only
  cases cube with
  | none =>
    cases clause with
    | none => exact Follows.bind_same (x := pure s) fun _ => Follows.bind_same (x := pure _) fun _ => justCube_prof be t _ none
    | some extra => exact (extendIfNeeded_prof _ _).bind fun _ => handle_prof _ _ _ _ _
  | some c =>
    cases clause with
    | none => exact (extendIfNeeded_prof _ _).bind fun _ => Follows.bind_same (x := pure _) fun _ => justCube_prof be t _ (some c)
    | some extra => exact (extendIfNeeded_prof _ _).bind fun _ => (extendIfNeeded_prof _ _).bind fun _ => handle_prof _ _ _ _ _

end CaDiCal

end Verif
