import Verif.Spec.SatContract
import Verif.Model.FormulaLogic
import Verif.Proofs.Formula
import Verif.Proofs.Hoare

/-! # Lemmas about `formula_logic.rs` and assignments -/

namespace Verif

/-! ## Goodness and the maximum survive the constructors -/

/-- What the solver contract asks of a CNF. -/
structure CNF.Ready (f : CNF) (V : Nat := 2147483646) : Prop where
  wf : f.WF
  good : f.Good V

variable {V : Nat}

theorem CNF.Ready.le_max {f : CNF} (h : f.Ready V) : ∀ c ∈ f.clauses, ∀ l ∈ c.lits, l.number ≤ f.maxVar := h.wf.le_max

theorem CNF.Ready.max_le {f : CNF} (h : f.Ready V) : f.maxVar ≤ V := by
  rcases h.wf.attained with h0 | ⟨c, hc, l, hl, e⟩
  · omega
  · rw [← e]; exact (h.good c hc l hl).2

theorem CNF.Ready.mono {f : CNF} (h : f.Ready V) {V' : Nat} (hV : V ≤ V') : f.Ready V' :=
  ⟨h.wf, fun c hc l hl => ⟨(h.good c hc l hl).1, Nat.le_trans (h.good c hc l hl).2 hV⟩⟩

theorem Literal.good_not {l : Literal} : l.not.Good V ↔ l.Good V := by simp [Literal.Good]

theorem CNF.Ready.new : CNF.new.Ready V := ⟨CNF.WF.new, fun c hc => by simp [CNF.new, CNF.iter] at hc⟩

theorem CNF.Ready.addClause {f : CNF} (h : f.Ready V) {c : Clause} (hs : c.Sorted) (hg : c.Good V) : (f.addClause c).Ready V where
  wf := h.wf.addClause hs
  good := by
    intro d hd
    rcases CNF.mem_addClause.1 hd with hd | rfl
    · exact h.good d hd
    · exact hg

theorem CNF.Ready.append {f g : CNF} (h : f.Ready V) (hg : g.Ready V) : (f.append g).Ready V where
  wf := h.wf.append hg.wf
  good := by
    intro d hd
    rcases CNF.mem_append.1 hd with hd | hd
    · exact h.good d hd
    · exact hg.good d hd

theorem Cube.foldl_toCnf_ready (ls : List Literal) {f : CNF} (h : f.Ready V) (hl : ∀ l ∈ ls, l.Good V) :
    (ls.foldl (fun f l => f.addClause (Clause.new [l])) f).Ready V := by
  induction ls generalizing f with
  | nil => exact h
  | cons l ls ih =>
    apply ih (h.addClause (Clause.sorted_new _) ?_) (fun m hm => hl m (by simp [hm]))
    intro m hm
    simp only [Clause.iter, Clause.mem_new, List.mem_singleton] at hm
    subst hm; exact hl m (by simp)

theorem Cube.toCnf_ready {c : Cube} (h : c.Good V) : c.toCnf.Ready V := Cube.foldl_toCnf_ready _ CNF.Ready.new h

theorem Clause.toCnf_ready {c : Clause} (hs : c.Sorted) (h : c.Good V) : c.toCnf.Ready V := CNF.Ready.new.addClause hs h

theorem Clause.good_not {c : Clause} (h : c.Good V) : c.not.Good V := by
  intro l hl
  have : l.not ∈ c.lits := Clause.mem_not.1 hl
  exact Literal.good_not.1 (h _ this)

theorem Cube.good_not {c : Cube} (h : c.Good V) : c.not.Good V := by
  intro l hl
  have : l.not ∈ c.lits := Cube.mem_not.1 hl
  exact Literal.good_not.1 (h _ this)

theorem CNF.WF.ready {f : CNF} (h : f.WF) (hg : f.Good V) : f.Ready V := ⟨h, hg⟩

/-! ## Calling the oracles -/

theorem Env.Correct.solveCnf {env : Env} (h : env.Correct V) {F : Err → Prop} {P : Nat → Prop} {f : CNF} (hf : f.Ready V)
    {Q : SatResponse → Nat → Prop} (hQ : ∀ r t t', P t → AnswerCorrect f r → Q r t') : Tri F P (env.solveCnf f) Q :=
  fun t ht => by
    obtain ⟨r, hr, ha⟩ := h.solve t f hf.wf hf.good
    have e : env.solveCnf f t = .ok (r, t + 1) := by
      show Except.bind (env.solve t f) _ = _
      rw [hr]; rfl
    rw [e]
    exact hQ r t _ ht ha

theorem Env.Correct.iterOrder {env : Env} (h : env.Correct V) {F : Err → Prop} {P : Nat → Prop} {f : CNF}
    {Q : List Clause → Nat → Prop} (hQ : ∀ l t t', P t → l.Perm f.clauses → Q l t') : Tri F P (env.iterOrder f) Q :=
  fun t ht => hQ _ t _ ht (h.order t f.clauses)

/-! ## Implication and satisfiability -/

theorem doesAImplyBLoop_spec {env : Env} (h : env.Correct V) {a : CNF} (ha : a.Ready V) (cs : List Clause)
    (hc : ∀ c ∈ cs, c.Good V) : Tri (fun _ => False) (fun _ => True) (doesAImplyBLoop env a cs)
      (fun r _ => r = true ↔ ∀ v, a.holds v → ∀ c ∈ cs, c.holds v) := by
  induction cs with
  | nil => exact Tri.pure (by simp)
  | cons c cs ih =>
    unfold doesAImplyBLoop
    have hr : (c.not.toCnf.append a).Ready V := (Cube.toCnf_ready (Clause.good_not (hc c (by simp)))).append ha
    refine Tri.bind (R := fun r _ => AnswerCorrect (c.not.toCnf.append a) r) (h.solveCnf hr (fun r t t' _ hr => hr)) ?_
    intro r
    cases r with
    | sat m =>
      intro s hs
      obtain ⟨v, hv, _⟩ := hs
      rw [CNF.holds_append, Cube.toCnf_holds, Clause.holds_not] at hv
      show false = true ↔ _
      simp only [Bool.false_eq_true, false_iff]
      intro hall
      exact hv.1 (hall v hv.2 c (by simp))
    | unsat =>
      intro s hs
      apply (ih (fun d hd => hc d (by simp [hd])) s trivial).mono (fun _ h => h)
      intro r _ hr
      rw [hr]
      constructor
      · intro hall v hv d hd
        rcases List.mem_cons.1 hd with rfl | hd
        · apply Classical.byContradiction
          intro hn
          apply hs v
          rw [CNF.holds_append, Cube.toCnf_holds, Clause.holds_not]
          exact ⟨hn, hv⟩
        · exact hall v hv d hd
      · intro hall v hv d hd
        exact hall v hv d (by simp [hd])

theorem doesAImplyB_spec {env : Env} (h : env.Correct V) {a b : CNF} (ha : a.Ready V) (hb : b.Good V) :
    Tri (fun _ => False) (fun _ => True) (doesAImplyB env a b) (fun r _ => r = true ↔ ∀ v, a.holds v → b.holds v) := by
  unfold doesAImplyB
  refine Tri.bind (R := fun l _ => l.Perm b.clauses) (h.iterOrder (fun l t t' _ hl => hl)) ?_
  intro l
  refine Tri.of_pre (A := l.Perm b.clauses) (fun _ h => h) (fun hp => ?_)
  refine (doesAImplyBLoop_spec h ha l (fun c hc => hb c (hp.mem_iff.1 hc))).conseq (fun _ _ => trivial) (fun _ h => h) ?_
  intro r _ hr
  rw [hr]
  constructor
  · intro hall v hv c hc; exact hall v hv c (hp.mem_iff.2 hc)
  · intro hall v hv c hc; exact hall v hv c (hp.mem_iff.1 hc)

theorem isAAndBSatisfiable_spec {env : Env} (h : env.Correct V) {a b : CNF} (ha : a.Ready V) (hb : b.Ready V) :
    Tri (fun _ => False) (fun _ => True) (isAAndBSatisfiable env a b) (fun r _ => r = true ↔ ∃ v, a.holds v ∧ b.holds v) := by
  unfold isAAndBSatisfiable
  refine Tri.bind (R := fun r _ => AnswerCorrect (a.append b) r) (h.solveCnf (ha.append hb) (fun r t t' _ hr => hr)) ?_
  intro r
  cases r with
  | sat m =>
    intro s hs
    obtain ⟨v, hv, _⟩ := hs
    show true = true ↔ _
    simp only [true_iff]
    exact ⟨v, CNF.holds_append.1 hv⟩
  | unsat =>
    intro s hs
    show false = true ↔ _
    simp only [Bool.false_eq_true, false_iff]
    rintro ⟨v, hv⟩
    exact hs v (CNF.holds_append.2 hv)

/-! ## Assignments -/

theorem insertDimacs_ok (dbg : Bool) (a : Assignment) {x : Int} (h : x ≠ -2147483648) (h0 : dbg = true → x ≠ 0) :
    ∃ b, a.insertDimacs dbg x = .ok b ∧
      (∀ n, n ∈ b.trueVars ↔ n ∈ a.trueVars ∨ x = (n : Int)) ∧
      (∀ n, n ∈ b.falseVars ↔ n ∈ a.falseVars ∨ (x < 0 ∧ x = -(n : Int))) := by
  have hd : debugAssertR dbg "assignment.rs:44 var_num != 0" (decide (x.natAbs ≠ 0)) = .ok () := by
    cases dbg with
    | false => rfl
    | true =>
      have : x.natAbs ≠ 0 := by have := h0 rfl; omega
      simp only [debugAssertR, assertR, if_true, ne_eq, this, not_false_eq_true, decide_true]
  unfold Assignment.insertDimacs
  rw [if_neg h]
  by_cases hx : x < 0
  · refine ⟨{ a with falseVars := setInsert a.falseVars x.natAbs }, ?_, ?_, ?_⟩
    · simp only [hd, hx, if_true, bind, Except.bind, pure, Except.pure]
    · intro n; simp only; constructor
      · exact Or.inl
      · rintro (h | h)
        · exact h
        · omega
    · intro n; simp only [mem_setInsert]
      have : n = x.natAbs ↔ (x < 0 ∧ x = -(n : Int)) := by omega
      rw [this]
  · refine ⟨{ a with trueVars := setInsert a.trueVars x.natAbs }, ?_, ?_, ?_⟩
    · simp only [hd, hx, if_false, bind, Except.bind, pure, Except.pure]
    · intro n; simp only [mem_setInsert]
      have : n = x.natAbs ↔ x = (n : Int) := by omega
      rw [this]
    · intro n; simp only; constructor
      · exact Or.inl
      · rintro (h | h)
        · exact h
        · omega

theorem foldlM_insertDimacs_ok (dbg : Bool) (xs : List Int) (a : Assignment) (h : ∀ x ∈ xs, x ≠ -2147483648)
    (h0 : dbg = true → ∀ x ∈ xs, x ≠ 0) :
    ∃ b, xs.foldlM (Assignment.insertDimacs dbg) a = .ok b ∧
      (∀ n, n ∈ b.trueVars ↔ n ∈ a.trueVars ∨ (n : Int) ∈ xs) ∧
      (∀ n, n ∈ b.falseVars ↔ n ∈ a.falseVars ∨ (n ≠ 0 ∧ -(n : Int) ∈ xs)) := by
  induction xs generalizing a with
  | nil => exact ⟨a, rfl, by simp, by simp⟩
  | cons x xs ih =>
    obtain ⟨b, hb, ht, hf⟩ := insertDimacs_ok dbg a (h x (by simp)) (fun hd => h0 hd x (by simp))
    obtain ⟨c, hc, ht', hf'⟩ := ih b (fun y hy => h y (by simp [hy])) (fun hd y hy => h0 hd y (by simp [hy]))
    refine ⟨c, ?_, ?_, ?_⟩
    · rw [List.foldlM_cons, hb]; exact hc
    · intro n; rw [ht', ht, List.mem_cons, or_assoc]
      have : (x = (n : Int)) ↔ ((n : Int) = x) := eq_comm
      rw [this]
    · intro n; rw [hf', hf, List.mem_cons, or_assoc]
      have : (x < 0 ∧ x = -(n : Int)) ↔ (n ≠ 0 ∧ -(n : Int) = x) := by omega
      rw [this, ← and_or_left]

theorem fromDimacs_ok (dbg : Bool) (xs : List Int) (h : ∀ x ∈ xs, x ≠ -2147483648)
    (h0 : dbg = true → ∀ x ∈ xs, x ≠ 0) :
    ∃ a, Assignment.fromDimacs dbg xs = .ok a ∧
      ∀ n, a.getValue n = if (n : Int) ∈ xs then some true
        else if n ≠ 0 ∧ -(n : Int) ∈ xs then some false else none := by
  obtain ⟨a, ha, ht, hf⟩ := foldlM_insertDimacs_ok dbg xs ⟨[], []⟩ h h0
  refine ⟨a, ha, ?_⟩
  intro n
  unfold Assignment.getValue
  simp only [ht, hf, List.not_mem_nil, false_or]

theorem fromDimacs_panics (dbg : Bool) (xs : List Int) (h : -2147483648 ∈ xs ∨ (dbg = true ∧ 0 ∈ xs)) :
    ∃ s, Assignment.fromDimacs dbg xs = .error (.panic s) := by
  unfold Assignment.fromDimacs
  generalize (⟨[], []⟩ : Assignment) = a
  induction xs generalizing a with
  | nil => simp at h
  | cons x xs ih =>
    by_cases h1 : x = -2147483648
    · subst h1
      exact ⟨_, by rw [List.foldlM_cons]; rfl⟩
    · by_cases h2 : dbg = true ∧ x = 0
      · obtain ⟨rfl, rfl⟩ := h2
        exact ⟨_, by rw [List.foldlM_cons]; rfl⟩
      · obtain ⟨b, hb, _⟩ := insertDimacs_ok dbg a h1 (fun hd hx => h2 ⟨hd, hx⟩)
        obtain ⟨s, hs⟩ := ih (by
          rcases h with h | ⟨hd, h⟩
          · left; rcases List.mem_cons.1 h with h | h
            · exact absurd h.symm h1
            · exact h
          · right; rcases List.mem_cons.1 h with h | h
            · exact absurd ⟨hd, h.symm⟩ h2
            · exact ⟨hd, h⟩) b
        exact ⟨s, by rw [List.foldlM_cons, hb]; exact hs⟩

/-! ## Evaluation -/

theorem evalOnLiteral_ok {l : Literal} {a : Assignment} {r : Bool} (h : evalOnLiteral l a = .ok r) {v : Val}
    (hv : a.Agrees v) : r = true ↔ l.holds v := by
  unfold evalOnLiteral at h
  cases hg : a.getValue l.number with
  | none => rw [hg] at h; simp [unwrapR, panicR, bind, Except.bind] at h
  | some b =>
    have := hv _ _ hg
    rw [hg] at h
    unfold Literal.holds
    cases hn : l.isNegated <;> simp [unwrapR, bind, Except.bind, hn, pure, Except.pure] at h <;>
      subst h <;> rw [this] <;> simp

theorem evalOnLiteral_total {l : Literal} {a : Assignment} (h : (a.getValue l.number).isSome) :
    ∃ r, evalOnLiteral l a = .ok r := by
  unfold evalOnLiteral
  cases hg : a.getValue l.number with
  | none => rw [hg] at h; simp at h
  | some b => cases hn : l.isNegated <;> simp [unwrapR, bind, Except.bind, pure, Except.pure]

theorem evalOnLiterals_ok {a : Assignment} {ls : List Literal} {r : Bool} (h : evalOnLiterals a ls = .ok r) {v : Val}
    (hv : a.Agrees v) : r = true ↔ ∃ l ∈ ls, l.holds v := by
  induction ls with
  | nil => simp [evalOnLiterals, pure, Except.pure] at h; subst h; simp
  | cons l ls ih =>
    unfold evalOnLiterals at h
    cases he : evalOnLiteral l a with
    | error e => rw [he] at h; simp [bind, Except.bind] at h
    | ok b =>
      rw [he] at h
      have hb := evalOnLiteral_ok he hv
      cases b with
      | true =>
        simp [bind, Except.bind, pure, Except.pure] at h; subst h
        simp only [true_iff] at hb ⊢
        exact ⟨l, by simp, hb⟩
      | false =>
        simp [bind, Except.bind] at h
        have := ih h
        simp at hb
        rw [this]
        constructor
        · rintro ⟨m, hm, h⟩; exact ⟨m, by simp [hm], h⟩
        · rintro ⟨m, hm, h⟩
          rcases List.mem_cons.1 hm with rfl | hm
          · exact absurd h hb
          · exact ⟨m, hm, h⟩

theorem evalOnLiterals_total {a : Assignment} {ls : List Literal} (h : ∀ l ∈ ls, (a.getValue l.number).isSome) :
    ∃ r, evalOnLiterals a ls = .ok r := by
  induction ls with
  | nil => exact ⟨false, rfl⟩
  | cons l ls ih =>
    obtain ⟨b, hb⟩ := evalOnLiteral_total (h l (by simp))
    obtain ⟨r, hr⟩ := ih (fun m hm => h m (by simp [hm]))
    unfold evalOnLiterals
    rw [hb]
    cases b with
    | true => exact ⟨true, rfl⟩
    | false => exact ⟨r, by simpa [bind, Except.bind] using hr⟩

theorem evalOnClauses_ok {a : Assignment} {cs : List Clause} {r : Bool} (h : evalOnClauses a cs = .ok r) {v : Val}
    (hv : a.Agrees v) : r = true ↔ ∀ c ∈ cs, c.holds v := by
  induction cs with
  | nil => simp [evalOnClauses, pure, Except.pure] at h; subst h; simp
  | cons c cs ih =>
    unfold evalOnClauses at h
    cases he : evalOnClause c a with
    | error e => rw [he] at h; simp [bind, Except.bind] at h
    | ok b =>
      rw [he] at h
      have hb : b = true ↔ c.holds v := evalOnLiterals_ok he hv
      cases b with
      | false =>
        simp [bind, Except.bind, pure, Except.pure] at h; subst h
        simp at hb ⊢
        exact fun h => absurd h hb
      | true =>
        simp [bind, Except.bind] at h
        rw [ih h]
        simp at hb ⊢
        exact fun _ => hb

theorem evalOnClauses_total {a : Assignment} {cs : List Clause} (h : ∀ c ∈ cs, ∀ l ∈ c.lits, (a.getValue l.number).isSome) :
    ∃ r, evalOnClauses a cs = .ok r := by
  induction cs with
  | nil => exact ⟨true, rfl⟩
  | cons c cs ih =>
    obtain ⟨b, hb⟩ : ∃ r, evalOnClause c a = .ok r := evalOnLiterals_total (h c (by simp))
    obtain ⟨r, hr⟩ := ih (fun m hm => h m (by simp [hm]))
    unfold evalOnClauses
    rw [hb]
    cases b with
    | false => exact ⟨false, rfl⟩
    | true => exact ⟨r, by simpa [bind, Except.bind] using hr⟩

theorem mem_foldl_insertNumbers (ls : List Literal) (s : List Nat) (n : Nat) :
    n ∈ ls.foldl (fun s l => setInsert s l.number) s ↔ n ∈ s ∨ ∃ l ∈ ls, l.number = n := by
  induction ls generalizing s with
  | nil => simp
  | cons l ls ih => simp [ih, mem_setInsert, or_assoc, eq_comm]

theorem mem_allVariableNumbers_aux (cs : List Clause) (s : List Nat) (n : Nat) :
    n ∈ cs.foldl (fun s c => c.iter.foldl (fun s l => setInsert s l.number) s) s ↔
      n ∈ s ∨ ∃ c ∈ cs, ∃ l ∈ c.iter, l.number = n := by
  induction cs generalizing s with
  | nil => simp
  | cons c cs ih => simp [ih, mem_foldl_insertNumbers, or_assoc]

theorem nodup_foldl_insertNumbers (ls : List Literal) (s : List Nat) (h : s.Nodup) :
    (ls.foldl (fun s l => setInsert s l.number) s).Nodup := by
  induction ls generalizing s with
  | nil => exact h
  | cons l ls ih => exact ih _ (nodup_setInsert h)

theorem nodup_allVariableNumbers_aux (cs : List Clause) (s : List Nat) (h : s.Nodup) :
    (cs.foldl (fun s c => c.iter.foldl (fun s l => setInsert s l.number) s) s).Nodup := by
  induction cs generalizing s with
  | nil => exact h
  | cons c cs ih => exact ih _ (nodup_foldl_insertNumbers _ _ h)

end Verif
