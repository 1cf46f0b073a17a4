import Verif.Proofs.FormulaLogic
import Verif.Proofs.Brute

/-!
# Properties C07–C11: assignments, evaluation, implication, satisfiability, variable sets
-/

namespace Verif.Props

/-- C07: `get_value` reports exactly the signed integers given (positive wins when both signs are listed). -/
theorem C07_get_value (dbg : Bool) (xs : List Int) (hmin : ∀ x ∈ xs, x ≠ -2 ^ 31) (h0 : dbg = true → ∀ x ∈ xs, x ≠ 0) :
    ∃ a, Assignment.fromDimacs dbg xs = .ok a ∧ ∀ n : Nat, n ≠ 0 →
      (a.getValue n = some true ↔ (n : Int) ∈ xs) ∧
      (a.getValue n = some false ↔ -(n : Int) ∈ xs ∧ (n : Int) ∉ xs) ∧
      (a.getValue n = none ↔ (n : Int) ∉ xs ∧ -(n : Int) ∉ xs) := by
  obtain ⟨a, ha, hv⟩ := fromDimacs_ok dbg xs (fun x hx => by have := hmin x hx; omega) h0
  refine ⟨a, ha, fun n hn => ?_⟩
  rw [hv n]
  by_cases h1 : (n : Int) ∈ xs <;> by_cases h2 : -(n : Int) ∈ xs <;> simp [h1, h2, hn]

example : (∀ x ∈ [(1 : Int), -2, 5, -2], x ≠ -2 ^ 31) ∧ (true = true → ∀ x ∈ [(1 : Int), -2, 5, -2], x ≠ 0) := by decide

/-- C07: order and repetition do not matter. -/
theorem C07_order (dbg : Bool) (xs ys : List Int) (h : ∀ x, x ∈ xs ↔ x ∈ ys) (hmin : ∀ x ∈ xs, x ≠ -2 ^ 31)
    (h0 : dbg = true → ∀ x ∈ xs, x ≠ 0) :
    ∃ a b, Assignment.fromDimacs dbg xs = .ok a ∧ Assignment.fromDimacs dbg ys = .ok b ∧
      ∀ n, a.getValue n = b.getValue n := by
  obtain ⟨a, ha, hv⟩ := fromDimacs_ok dbg xs (fun x hx => by have := hmin x hx; omega) h0
  obtain ⟨b, hb, hw⟩ := fromDimacs_ok dbg ys (fun x hx => by have := hmin x ((h x).2 hx); omega)
    (fun hd x hx => h0 hd x ((h x).2 hx))
  exact ⟨a, b, ha, hb, fun n => by rw [hv, hw]; simp only [h]⟩

example : ∃ a b, Assignment.fromDimacs true [1, -2, 5, -2] = .ok a ∧ Assignment.fromDimacs true [5, -2, 1] = .ok b ∧
    ∀ n, a.getValue n = b.getValue n := C07_order true _ _ (fun x => by simp; omega) (by decide) (by decide)

/-- C07: exactly the inputs containing `i32::MIN`, or 0 in a debug build, panic. -/
theorem C07_panics (dbg : Bool) (xs : List Int) :
    (∃ s, Assignment.fromDimacs dbg xs = .error (.panic s)) ↔ (-2 ^ 31 ∈ xs ∨ (dbg = true ∧ 0 ∈ xs)) := by
  constructor
  · rintro ⟨s, hs⟩
    apply Classical.byContradiction
    intro hn
    simp only [not_or, not_and] at hn
    obtain ⟨a, ha, _⟩ := fromDimacs_ok dbg xs (fun x hx e => hn.1 (by rw [e] at hx; exact hx))
      (fun hd x hx e => hn.2 hd (e ▸ hx))
    rw [ha] at hs; simp at hs
  · intro h; exact fromDimacs_panics dbg xs h

example : ∃ a, Assignment.fromDimacs true [1, -2, 5, -2] = .ok a ∧ a.getValue 2 = some false ∧ a.getValue 3 = none :=
  ⟨_, rfl, by decide, by decide⟩

/-- C08: whatever is returned is the truth value in every completion, for every iteration order. -/
theorem C08_sound (order : List Clause → List Clause) (ho : ∀ l, (order l).Perm l) (f : CNF) (a : Assignment) (r : Bool)
    (h : evalOnCnf order f a = .ok r) (v : Val) (hv : a.Agrees v) : r = true ↔ f.holds v := by
  rw [evalOnClauses_ok h hv]
  exact ⟨fun hc c hm => hc c ((ho _).mem_iff.2 hm), fun hc c hm => hc c ((ho _).mem_iff.1 hm)⟩

/-- `x1 ∨ ¬x2` under an assignment of `x1` alone: a value is returned, and it is that of every completion. -/
example (v : Val) (hv : (⟨[1], []⟩ : Assignment).Agrees v) : (CNF.new.addClause (Clause.new [⟨2⟩, ⟨5⟩])).holds v :=
  (C08_sound id (fun _ => .refl _) _ _ true (by decide) v hv).1 rfl

example : (⟨[1], []⟩ : Assignment).Agrees (fun n => n == 1) := by
  intro n b h
  simp only [Assignment.getValue] at h
  split at h <;> simp_all

/-- C08: a value is returned whenever every variable has one, and it is the truth value. -/
theorem C08_total (order : List Clause → List Clause) (ho : ∀ l, (order l).Perm l) (f : CNF) (a : Assignment)
    (h : ∀ c ∈ f.iter, ∀ l ∈ c.iter, (a.getValue l.number).isSome) (v : Val) (hv : a.Agrees v) :
    ∃ r, evalOnCnf order f a = .ok r ∧ (r = true ↔ f.holds v) := by
  obtain ⟨r, hr⟩ := evalOnClauses_total (a := a) (cs := order f.iter) (fun c hc => h c ((ho _).mem_iff.1 hc))
  exact ⟨r, hr, C08_sound order ho f a r hr v hv⟩

example : ∃ r, evalOnCnf List.reverse ((CNF.new.addClause (Clause.new [⟨2⟩, ⟨5⟩])).addClause (Clause.new [⟨5⟩])) ⟨[], [1, 2]⟩ = .ok r ∧
    (r = true ↔ CNF.holds (fun _ => false) ((CNF.new.addClause (Clause.new [⟨2⟩, ⟨5⟩])).addClause (Clause.new [⟨5⟩]))) :=
  C08_total _ List.reverse_perm _ _ (by decide) _ (by
    intro n b h
    simp only [Assignment.getValue] at h
    split at h <;> simp_all)

/-- C08: clauses and literals alike. -/
theorem C08_clause_literal (c : Clause) (l : Literal) (a : Assignment) (v : Val) (hv : a.Agrees v) :
    (∀ r, evalOnClause c a = .ok r → (r = true ↔ c.holds v)) ∧
      (∀ r, evalOnLiteral l a = .ok r → (r = true ↔ l.holds v)) ∧
      ((∀ m ∈ c.iter, (a.getValue m.number).isSome) → ∃ r, evalOnClause c a = .ok r) ∧
      ((a.getValue l.number).isSome ↔ ∃ r, evalOnLiteral l a = .ok r) := by
  refine ⟨fun r h => evalOnLiterals_ok h hv, fun r h => evalOnLiteral_ok h hv, fun h => evalOnLiterals_total h,
    evalOnLiteral_total, ?_⟩
  rintro ⟨r, hr⟩
  unfold evalOnLiteral at hr
  cases hg : a.getValue l.number with
  | none => rw [hg] at hr; simp [unwrapR, panicR, bind, Except.bind] at hr
  | some b => rfl

example : evalOnCnf id ((CNF.new.addClause (Clause.new [⟨2⟩, ⟨5⟩])).addClause (Clause.new [⟨5⟩])) ⟨[], [1, 2]⟩ = .ok true := by
  decide

/-- C09: for every solver behaviour and iteration order, implication is decided, without panicking. -/
theorem C09_does_a_imply_b (V : Nat) (env : Env) (he : env.Correct V) (a b : CNF) (ha : a.WF) (hga : a.Good V) (hgb : b.Good V) (t : Nat) :
    ∃ r t', doesAImplyB env a b t = .ok (r, t') ∧ (r = true ↔ ∀ v, a.holds v → b.holds v) :=
  (doesAImplyB_spec he (ha.ready hga) hgb).total trivial

/-- C10: joint satisfiability is decided, without panicking. -/
theorem C10_is_a_and_b_satisfiable (V : Nat) (env : Env) (he : env.Correct V) (a b : CNF) (ha : a.WF) (hga : a.Good V) (hb : b.WF)
    (hgb : b.Good V) (t : Nat) :
    ∃ r t', isAAndBSatisfiable env a b t = .ok (r, t') ∧ (r = true ↔ ∃ v, a.holds v ∧ b.holds v) :=
  (isAAndBSatisfiable_spec he (ha.ready hga) (hb.ready hgb)).total trivial

/-- The hypotheses of C09/C10 are met by a concrete solver and CNFs, with both answers possible. -/
example : Brute.env.OK ∧ (CNF.new.addClause (Clause.new [⟨2⟩, ⟨5⟩])).WF ∧
    (∃ t, doesAImplyB Brute.env (CNF.new.addClause (Clause.new [⟨2⟩])) (CNF.new.addClause (Clause.new [⟨2⟩, ⟨5⟩])) 0 = .ok (true, t)) ∧
    (∃ t, doesAImplyB Brute.env (CNF.new.addClause (Clause.new [⟨2⟩, ⟨5⟩])) (CNF.new.addClause (Clause.new [⟨2⟩])) 0 = .ok (false, t)) ∧
    (∃ t, isAAndBSatisfiable Brute.env (CNF.new.addClause (Clause.new [⟨2⟩])) (CNF.new.addClause (Clause.new [⟨3⟩])) 0 = .ok (false, t)) :=
  ⟨Brute.env_ok, CNF.WF.new.addClause (Clause.sorted_new _), ⟨2, by decide⟩, ⟨2, by decide⟩, ⟨1, by decide⟩⟩

/-- C11: exactly the occurring variables, each once. -/
theorem C11_all_variable_numbers (f : CNF) (n : Nat) :
    (n ∈ allVariableNumbers f ↔ ∃ c ∈ f.iter, ∃ l ∈ c.iter, l.number = n) ∧ (allVariableNumbers f).Nodup := by
  refine ⟨?_, nodup_allVariableNumbers_aux _ _ List.nodup_nil⟩
  unfold allVariableNumbers
  rw [mem_allVariableNumbers_aux]; simp

example : allVariableNumbers ((CNF.new.addClause (Clause.new [⟨2⟩, ⟨7⟩])).addClause (Clause.new [⟨6⟩])) = [1, 3] := by
  decide

end Verif.Props
