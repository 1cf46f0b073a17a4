import Verif.Proofs.SimPdr
import Verif.Spec.SolverContract

/-! # A solver whose models leave variables open, and the one that fills them in

The second solver only exists for the proofs: it asks for a satisfying valuation by choice. -/

namespace Verif

variable {F : Err → Prop} {S : List Nat}

/-- The assignment with the values of `v` for all variables up to `m` outside `S` in addition. -/
def Assignment.complete (S : List Nat) (a : Assignment) (v : Val) (m : Nat) : Assignment :=
  let open_ := (List.range (m + 1)).filter fun n => decide (n ∉ S)
  ⟨a.trueVars ++ open_.filter (fun n => v n), a.falseVars ++ open_.filter (fun n => !v n)⟩

namespace Assignment

theorem mem_complete_true (a : Assignment) (v : Val) (m n : Nat) :
    n ∈ (a.complete S v m).trueVars ↔ n ∈ a.trueVars ∨ (n ≤ m ∧ n ∉ S ∧ v n = true) := by
  simp only [complete, List.mem_append, List.mem_filter, List.mem_range, Nat.lt_succ_iff, decide_eq_true_eq, and_assoc]

theorem mem_complete_false (a : Assignment) (v : Val) (m n : Nat) :
    n ∈ (a.complete S v m).falseVars ↔ n ∈ a.falseVars ∨ (n ≤ m ∧ n ∉ S ∧ v n = false) := by
  simp only [complete, List.mem_append, List.mem_filter, List.mem_range, Nat.lt_succ_iff, decide_eq_true_eq, and_assoc, Bool.not_eq_true']

/-- Nothing changes in `S`. -/
theorem complete_same (a : Assignment) (v : Val) (m : Nat) {n : Nat} (hn : n ∈ S) : a.getValue n = (a.complete S v m).getValue n := by
  have h1 : n ∈ (a.complete S v m).trueVars ↔ n ∈ a.trueVars := by
    rw [mem_complete_true]
    exact ⟨fun h => h.elim id fun h => absurd hn h.2.1, .inl⟩
  have h2 : n ∈ (a.complete S v m).falseVars ↔ n ∈ a.falseVars := by
    rw [mem_complete_false]
    exact ⟨fun h => h.elim id fun h => absurd hn h.2.1, .inl⟩
  unfold getValue
  simp only [h1, h2]

theorem complete_keeps {a : Assignment} {v : Val} (h : a.Agrees v) (m n : Nat) (x : Bool) (hx : a.getValue n = some x) :
    (a.complete S v m).getValue n = some x := by
  have hv := h n x hx
  unfold getValue at hx ⊢
  by_cases h1 : n ∈ a.trueVars
  · rw [if_pos h1] at hx
    rw [if_pos ((mem_complete_true a v m n).2 (.inl h1))]
    exact hx
  · rw [if_neg h1] at hx
    by_cases h2 : n ∈ a.falseVars
    · rw [if_pos h2] at hx
      cases hx
      have h3 : n ∉ (a.complete S v m).trueVars := by
        rw [mem_complete_true]
        rintro (h | ⟨_, _, h⟩)
        · exact h1 h
        · rw [hv] at h; cases h
      rw [if_neg h3, if_pos ((mem_complete_false a v m n).2 (.inl h2))]
    · rw [if_neg h2] at hx; cases hx

theorem complete_agrees {a : Assignment} {v : Val} (h : a.Agrees v) (m : Nat) : (a.complete S v m).Agrees v := by
  intro n x hx
  unfold getValue at hx
  by_cases h1 : n ∈ (a.complete S v m).trueVars
  · rw [if_pos h1] at hx
    cases hx
    rcases (mem_complete_true a v m n).1 h1 with h2 | ⟨_, _, h2⟩
    · exact h n true (by unfold getValue; rw [if_pos h2])
    · exact h2
  · rw [if_neg h1] at hx
    by_cases h2 : n ∈ (a.complete S v m).falseVars
    · rw [if_pos h2] at hx
      cases hx
      rcases (mem_complete_false a v m n).1 h2 with h3 | ⟨_, _, h3⟩
      · refine h n false ?_
        unfold getValue
        rw [if_neg fun h4 => h1 ((mem_complete_true a v m n).2 (.inl h4)), if_pos h3]
      · exact h3
    · rw [if_neg h2] at hx; cases hx

theorem complete_total (a : Assignment) (v : Val) {m n : Nat} (hn : n ≤ m) (hS : n ∈ S → (a.getValue n).isSome) :
    ((a.complete S v m).getValue n).isSome := by
  by_cases h : n ∈ S
  · rw [← complete_same a v m h]; exact hS h
  · unfold getValue
    cases hv : v n with
    | true => rw [if_pos ((mem_complete_true a v m n).2 (.inr ⟨hn, h, hv⟩))]; rfl
    | false =>
      split
      · rfl
      · rw [if_pos ((mem_complete_false a v m n).2 (.inr ⟨hn, h, hv⟩))]; rfl

end Assignment

open Classical in
/-- The answer, filled in up to `m` and outside `S` if it is right for the valuations with `P`. -/
noncomputable def SatResponse.complete (S : List Nat) (P : Val → Prop) (m : Nat) : SatResponse → SatResponse
  | .unsat => .unsat
  | .sat a => if h : ∃ v, P v ∧ a.Agrees v then .sat (a.complete S h.choose m) else .sat a

theorem SatResponse.complete_near (hF : F (.panic "features.rs:107 unwrap")) {U : List Nat} (P : Val → Prop) (m : Nat) (r : SatResponse) :
    r.Near F U (r.complete S P m) := by
  cases r with
  | unsat => exact SatResponse.Near.refl _
  | sat a =>
    unfold complete
    dsimp only
    split
    · next h => exact .inr ⟨hF, fun n x hx => Assignment.complete_keeps h.choose_spec.2 m n x hx⟩
    · exact SatResponse.Near.refl _

theorem SatResponse.complete_same (P : Val → Prop) (m : Nat) (r : SatResponse) : r.Near F S (r.complete S P m) := by
  cases r with
  | unsat => exact SatResponse.Near.refl _
  | sat a =>
    unfold complete
    dsimp only
    split
    · exact .inl fun n hn => Assignment.complete_same a _ m hn
    · exact SatResponse.Near.refl _

/-! ## Environments -/

/-- The environment whose solver fills in the answers of the given one. -/
noncomputable def Env.complete (S : List Nat) (env : Env) : Env :=
  ⟨fun t g => (env.solve t g).map (SatResponse.complete S g.holds g.getMaxVar), env.order, env.shuffle⟩

theorem Env.Correct.complete {env : Env} {V : Nat} (h : env.Correct V) (hS : env.Values (· ∈ S) V) : (env.complete S).OK V := by
  refine ⟨fun t g hw hg => ?_, h.order, h.shuffle⟩
  obtain ⟨r, e, hr⟩ := h.solve t g hw hg
  refine ⟨r.complete S g.holds g.getMaxVar, ?_, ?_⟩
  · show (env.solve t g).map _ = _
    rw [e]; rfl
  · cases r with
    | unsat => exact hr
    | sat a =>
      have hr : ∃ v, g.holds v ∧ a.Agrees v := hr
      unfold SatResponse.complete
      dsimp only
      rw [dif_pos hr]
      exact ⟨⟨_, hr.choose_spec.1, Assignment.complete_agrees hr.choose_spec.2 _⟩,
        fun n h1 hn => Assignment.complete_total _ _ hn fun hm => hS t g hw hg a e n hm h1 hn⟩

theorem Env.values_nil (env : Env) (V : Nat) : env.Values (· ∈ ([] : List Nat)) V := fun _ _ _ _ _ _ _ h => by cases h

theorem Env.near_of {U : List Nat} {env : Env} (h : ∀ (P : Val → Prop) m r, SatResponse.Near F U r (r.complete S P m)) :
    Env.Near F U env (env.complete S) := by
  refine ⟨fun t g => ?_, rfl, rfl⟩
  show Both F _ (env.solve t g) ((env.solve t g).map _)
  cases env.solve t g with
  | ok r => exact ⟨_, rfl, h _ _ r⟩
  | error e => exact .inr rfl

theorem Env.near_complete (hF : F (.panic "features.rs:107 unwrap")) {U : List Nat} (env : Env) : Env.Near F U env (env.complete S) :=
  Env.near_of fun P m r => SatResponse.complete_near hF P m r

theorem Env.same_complete (env : Env) : Env.Near F S env (env.complete S) := Env.near_of fun P m r => SatResponse.complete_same P m r

/-! ## Solver objects -/

/-- The largest variable of a query. -/
def queryMax (cs : List Clause) (cube : Option Cube) (clause : Option Clause) : Nat :=
  ((cs.flatMap Clause.iter ++ (cube.toList.flatMap Cube.iter ++ clause.toList.flatMap Clause.iter)).map Literal.number).foldr max 0

theorem le_foldr_max {l : List Nat} {n : Nat} (h : n ∈ l) : n ≤ l.foldr max 0 := by
  induction l with
  | nil => cases h
  | cons x l ih =>
    rcases List.mem_cons.1 h with rfl | h
    · exact Nat.le_max_left _ _
    · exact Nat.le_trans (ih h) (Nat.le_max_right _ _)

theorem le_queryMax {cs : List Clause} {cube : Option Cube} {clause : Option Clause} {l : Literal} (h : QueryMentions cs cube clause l) :
    l.number ≤ queryMax cs cube clause := by
  refine le_foldr_max (List.mem_map_of_mem ?_)
  rw [List.mem_append, List.mem_append, List.mem_flatMap, List.mem_flatMap, List.mem_flatMap]
  rcases h with ⟨c, hc, hl⟩ | ⟨c, rfl, hl⟩ | ⟨c, rfl, hl⟩
  · exact .inl ⟨c, hc, hl⟩
  · exact .inr (.inl ⟨c, by simp, hl⟩)
  · exact .inr (.inr ⟨c, by simp, hl⟩)

/-- The solver object that remembers what was added and fills in the answers of the given one. -/
noncomputable def StatefulImpl.complete (S : List Nat) (I : StatefulImpl) : StatefulImpl where
  S := I.S × List Clause
  new := (I.new, [])
  addCnf := fun g s => (I.addCnf g s.1).map fun s' => (s', s.2 ++ g.iter)
  solve := fun t cube clause s => (I.solve t cube clause s.1).map fun p =>
    (p.1.complete S (QueryHolds s.2 cube clause) (queryMax s.2 cube clause), (p.2, s.2))

noncomputable def StatefulImpl.Correct.complete {I : StatefulImpl} (O : I.Correct F) (hS : O.Values (· ∈ S)) : (I.complete S).OK F where
  Rep := fun (s : I.S × List Clause) cs => O.Rep s.1 cs ∧ s.2 = cs
  new := ⟨O.new, rfl⟩
  addCnf := by
    rintro ⟨s, _⟩ cs g ⟨h, rfl⟩ hg hm hlt
    have := O.addCnf s _ g h hg hm hlt
    show Ends F ((I.addCnf g s).map _) _
    match hx : I.addCnf g s, this with
    | .ok s', h' => exact ⟨h', rfl⟩
    | .error e, h' => exact h'
  solve := by
    rintro t ⟨s, cs⟩ _ cube clause ⟨h, rfl⟩ hc hk hs
    have := O.solve t s cs cube clause h hc hk hs
    have hv := hS t s cs cube clause h hc hk hs
    show Ends F ((I.solve t cube clause s).map _) _
    match hx : I.solve t cube clause s, this with
    | .error e, h' => exact h'
    | .ok (.unsat, s'), h' => exact ⟨⟨h'.1, rfl⟩, h'.2, trivial⟩
    | .ok (.sat a, s'), h' =>
      have hr : ∃ v, QueryHolds cs cube clause v ∧ a.Agrees v := h'.2
      have e : SatResponse.complete S (QueryHolds cs cube clause) (queryMax cs cube clause) (.sat a) =
          .sat (a.complete S hr.choose (queryMax cs cube clause)) := by
        unfold SatResponse.complete
        dsimp only
        rw [dif_pos hr]
      refine ⟨⟨h'.1, rfl⟩, ?_, ?_⟩
      · show QueryCorrect cs cube clause (SatResponse.complete _ _ _ (.sat a))
        rw [e]
        exact ⟨_, hr.choose_spec.1, Assignment.complete_agrees hr.choose_spec.2 _⟩
      · show QueryTotal cs cube clause (SatResponse.complete _ _ _ (.sat a))
        rw [e]
        exact fun l hl n h1 hn => Assignment.complete_total _ _ (Nat.le_trans hn (le_queryMax hl)) fun hm => hv a s' hx l hl n hm h1 hn

theorem StatefulImpl.Correct.values_nil {I : StatefulImpl} (O : I.Correct F) : O.Values (· ∈ ([] : List Nat)) :=
  fun _ _ _ _ _ _ _ _ _ _ _ _ _ _ _ h => by cases h

theorem StatefulImpl.like_of {U : List Nat} (I : StatefulImpl) (h : ∀ (P : Val → Prop) m r, SatResponse.Near F U r (r.complete S P m)) :
    StatefulImpl.Like F U I (I.complete S) (fun s (t : I.S × List Clause) => s = t.1) where
  new := rfl
  addCnf := by
    rintro g s ⟨_, cs⟩ rfl
    show Both F _ (I.addCnf g _) ((I.addCnf g _).map _)
    cases I.addCnf g _ with
    | ok s' => exact ⟨_, rfl, rfl⟩
    | error e => exact .inr rfl
  solve := by
    rintro n _ rfl cube clause s ⟨_, cs⟩ rfl
    show Both F _ (I.solve n cube clause _) ((I.solve n cube clause _).map _)
    cases I.solve n cube clause _ with
    | ok p => exact ⟨_, rfl, h _ _ _, rfl⟩
    | error e => exact .inr rfl

theorem StatefulImpl.like_complete (hF : F (.panic "features.rs:107 unwrap")) {U : List Nat} (I : StatefulImpl) :
    StatefulImpl.Like F U I (I.complete S) (fun s (t : I.S × List Clause) => s = t.1) :=
  I.like_of fun P m r => SatResponse.complete_near hF P m r

theorem StatefulImpl.same_complete (I : StatefulImpl) :
    StatefulImpl.Like F S I (I.complete S) (fun s (t : I.S × List Clause) => s = t.1) :=
  I.like_of fun P m r => SatResponse.complete_same P m r

end Verif
