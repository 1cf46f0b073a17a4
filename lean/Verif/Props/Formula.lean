import Verif.Proofs.Dimacs

/-!
# Properties C01–C06: literals, clauses, cubes, CNFs, DIMACS text
-/

namespace Verif.Props

/-! ## C01 -/

/-- C01: in range, `Literal::new` makes the positive literal of that variable, in both build profiles. -/
theorem C01_new (dbg : Bool) (n : Nat) (h1 : 1 ≤ n) (h2 : n ≤ 2 ^ 31 - 1) :
    ∃ l, Literal.new dbg n = .ok l ∧ l.number = n ∧ l.isNegated = false ∧ l.code < 2 ^ 32 := by
  refine ⟨_, Literal.new_ok dbg (by omega) (by omega), by simp, by simp, ?_⟩
  show 2 * n < _
  omega

example : (1 : Nat) ≤ 7 ∧ 7 ≤ 2 ^ 31 - 1 ∧ (Literal.new true 7) = .ok ⟨14⟩ := by decide

/-- C01: `!` flips the sign, keeps the variable, is an involution and stays in `u32`. -/
theorem C01_not (l : Literal) (h : l.code < 2 ^ 32) :
    l.not.number = l.number ∧ l.not.isNegated = !l.isNegated ∧ l.not.not = l ∧ l.not.code < 2 ^ 32 := by
  refine ⟨by simp, by simp, by simp, ?_⟩
  show l.code ^^^ 1 < _
  rw [xor_one]; split <;> omega

example : (⟨14⟩ : Literal).code < 2 ^ 32 ∧ (⟨14⟩ : Literal).not = ⟨15⟩ := by decide

/-- C01: `negate_if_true(b)` negates exactly when `b`. -/
theorem C01_negate_if_true (l : Literal) (b : Bool) :
    (l.negateIfTrue b).number = l.number ∧ (l.negateIfTrue b).isNegated = (l.isNegated ^^ b) :=
  ⟨Literal.number_negateIfTrue l b, Literal.isNegated_negateIfTrue l b⟩

example : (⟨14⟩ : Literal).negateIfTrue true = ⟨15⟩ ∧ (⟨14⟩ : Literal).negateIfTrue false = ⟨14⟩ := by decide

/-- C01: a literal is determined by its variable and sign. -/
theorem C01_injective (a b : Literal) : a = b ↔ (a.number = b.number ∧ a.isNegated = b.isNegated) :=
  ⟨fun h => h ▸ ⟨rfl, rfl⟩, fun h => Literal.ext' h.1 h.2⟩

/-- C01: the order is by variable, positive before negative. -/
theorem C01_order (a b : Literal) :
    a.le b = true ↔ a.number < b.number ∨ (a.number = b.number ∧ (a.isNegated = true → b.isNegated = true)) := by
  have ha := a.code_eq
  have hb := b.code_eq
  simp only [Literal.le, decide_eq_true_eq]
  cases h1 : a.isNegated <;> cases h2 : b.isNegated <;> simp [h1, h2] at ha hb ⊢ <;> omega

example : (⟨15⟩ : Literal).le ⟨16⟩ = true ∧ (⟨14⟩ : Literal).le ⟨15⟩ = true ∧ (⟨15⟩ : Literal).le ⟨14⟩ = false := by decide

/-- C01: outside the range a debug build panics. -/
theorem C01_debug_panics (n : Nat) (h : n = 0 ∨ 2 ^ 31 ≤ n) : ∃ s, Literal.new true n = .error (.panic s) := by
  rcases h with rfl | h
  · exact ⟨_, rfl⟩
  · have h0 : 0 < n := by omega
    have h2 : ¬ n ≤ (u32Size - 1) >>> 1 := by unfold u32Size; simp; omega
    refine ⟨"literal.rs:30 Literal number is too big.", ?_⟩
    simp only [Literal.new, debugAssertR, assertR, gt_iff_lt, h0, h2, decide_true, decide_false, if_true,
      Bool.false_eq_true, if_false, bind, Except.bind, panicR]

example : ∃ s, Literal.new true (2 ^ 31 + 7) = .error (.panic s) := C01_debug_panics _ (.inr (by decide))

/-- C01: outside the range a release build silently aliases `n + 2^31` with `n`. -/
theorem C01_release_alias (n : Nat) : Literal.new false (n + 2 ^ 31) = Literal.new false n := by
  have : ((n + 2 ^ 31) <<< 1) % u32Size = (n <<< 1) % u32Size := by
    rw [Nat.shiftLeft_eq, Nat.shiftLeft_eq]; unfold u32Size; omega
  have e : ∀ m, Literal.new false m = .ok ⟨(m <<< 1) % u32Size⟩ := fun _ => rfl
  rw [e, e, this]

example : Literal.new false (2 ^ 31 + 7) = .ok ⟨14⟩ := by decide

/-! ## C02 -/

/-- C02: equal clauses iff permuted literals. -/
theorem C02_clause_eq (l m : List Literal) : Clause.new l = Clause.new m ↔ l.Perm m := by
  rw [← sortLits_eq_iff]; simp [Clause.new]

/-- C02: equal cubes iff permuted literals. -/
theorem C02_cube_eq (l m : List Literal) : Cube.new l = Cube.new m ↔ l.Perm m := by
  rw [← sortLits_eq_iff]; simp [Cube.new]

/-- C02: `iter` yields the given literals with multiplicity, ascending; sizes agree. -/
theorem C02_clause_iter (l : List Literal) :
    (Clause.new l).iter.Perm l ∧ (Clause.new l).iter.Pairwise (fun a b => a.code ≤ b.code) ∧
      (Clause.new l).len = l.length ∧ (Clause.new l).isEmpty = l.isEmpty := by
  have hp : (Clause.new l).iter.Perm l := sortBy_perm _ _
  refine ⟨hp, ?_, hp.length_eq, ?_⟩
  · exact (Clause.sorted_new l).imp (fun h => by simpa [Literal.le] using h)
  · rw [Bool.eq_iff_iff]
    simp only [Clause.isEmpty, List.isEmpty_iff_length_eq_zero, ← hp.length_eq]; rfl

/-- C02: same for cubes. -/
theorem C02_cube_iter (l : List Literal) :
    (Cube.new l).iter.Perm l ∧ (Cube.new l).iter.Pairwise (fun a b => a.code ≤ b.code) ∧
      (Cube.new l).len = l.length ∧ (Cube.new l).isEmpty = l.isEmpty := by
  have hp : (Cube.new l).iter.Perm l := sortBy_perm _ _
  refine ⟨hp, ?_, hp.length_eq, ?_⟩
  · exact (Cube.sorted_new l).imp (fun h => by simpa [Literal.le] using h)
  · rw [Bool.eq_iff_iff]
    simp only [Cube.isEmpty, List.isEmpty_iff_length_eq_zero, ← hp.length_eq]; rfl

/-- C02: the highest variable number is the maximum over the literals, 0 for none. -/
theorem C02_highest (l : List Literal) :
    (∀ x ∈ l, x.number ≤ (Clause.new l).highestVar) ∧
      (l = [] → (Clause.new l).highestVar = 0) ∧
      (l ≠ [] → ∃ x ∈ l, x.number = (Clause.new l).highestVar) := by
  refine ⟨fun x hx => Clause.number_le_highest (Clause.sorted_new l) (Clause.mem_new.2 hx), by rintro rfl; rfl, ?_⟩
  intro h
  unfold Clause.highestVar
  cases hc : (Clause.new l).lits.getLast? with
  | none =>
    rw [List.getLast?_eq_none_iff] at hc
    have := (C02_clause_iter l).1.length_eq
    simp [Clause.iter, hc] at this
    exact absurd this.symm (by simpa using h)
  | some m => exact ⟨m, Clause.mem_new.1 (List.mem_of_getLast? hc), rfl⟩

example : Clause.new [⟨7⟩, ⟨2⟩, ⟨4⟩, ⟨2⟩] = Clause.new [⟨2⟩, ⟨4⟩, ⟨2⟩, ⟨7⟩] ∧
    (Clause.new [⟨7⟩, ⟨2⟩, ⟨4⟩]).highestVar = 3 := by decide

/-! ## C03 -/

/-- C03: negating a clause gives the cube that holds exactly when the clause does not. -/
theorem C03_clause_not (c : Clause) (v : Val) : c.not.holds v ↔ ¬ c.holds v := Clause.holds_not

/-- C03: negating a cube gives the clause that holds exactly when the cube does not. -/
theorem C03_cube_not (c : Cube) (v : Val) : c.not.holds v ↔ ¬ c.holds v := Cube.holds_not

/-- C03: double negation of anything built by the constructors. -/
theorem C03_not_not (l : List Literal) :
    (Clause.new l).not.not = Clause.new l ∧ (Cube.new l).not.not = Cube.new l :=
  ⟨Clause.not_not (Clause.sorted_new l), Cube.not_not (Cube.sorted_new l)⟩

/-- C03: negation keeps the literal count (with multiplicity). -/
theorem C03_not_len (c : Clause) (d : Cube) : c.not.len = c.len ∧ d.not.len = d.len := by
  constructor
  · simp [Clause.not, Cube.new, Cube.len, length_sortBy, Clause.len, Clause.iter]
  · simp [Cube.not, Clause.new, Clause.len, length_sortBy, Cube.len, Cube.iter]

example : (Clause.new [⟨2⟩, ⟨5⟩]).not = Cube.new [⟨3⟩, ⟨4⟩] ∧
    (Clause.new [⟨2⟩, ⟨5⟩]).holds (fun n => n == 1) := ⟨by decide, ⟨2⟩, by decide, by decide⟩

/-! ## C04 -/

/-- A history of CNF operations; `append` takes another CNF with its own history. -/
inductive Hist where
  | new
  | add (h : Hist) (lits : List Literal)
  | append (h g : Hist)

/-- The CNF after the history, by the modelled operations. -/
def Hist.run : Hist → CNF
  | .new => CNF.new
  | .add h ls => h.run.addClause (Clause.new ls)
  | .append h g => h.run.append g.run

/-- The clauses added by the history (spec). -/
def Hist.Added (c : Clause) : Hist → Prop
  | .new => False
  | .add h ls => h.Added c ∨ c = Clause.new ls
  | .append h g => h.Added c ∨ g.Added c

theorem Hist.wf (h : Hist) : h.run.WF := by
  induction h with
  | new => exact CNF.WF.new
  | add h ls ih => exact ih.addClause (Clause.sorted_new _)
  | append h g ih1 ih2 => exact ih1.append ih2

/-- C04: membership is exactly what was added. -/
theorem C04_contains (h : Hist) (c : Clause) : h.run.contains c = true ↔ h.Added c := by
  simp only [CNF.contains, decide_eq_true_eq]
  induction h with
  | new => simp [Hist.run, Hist.Added, CNF.new]
  | add h ls ih => simp [Hist.run, Hist.Added, ih]
  | append h g ih1 ih2 => simp [Hist.run, Hist.Added, ih1, ih2]

/-- The CNF `(x1 ∨ ¬x1) ∧ x2`, its first clause added twice, once through an appended CNF. -/
example := C04_contains (Hist.add (.append (.add .new [⟨3⟩, ⟨2⟩]) (.add .new [⟨2⟩, ⟨3⟩])) [⟨4⟩]) (Clause.new [⟨2⟩, ⟨3⟩])

/-- C04: `iter` visits each added clause exactly once, `len` counts them, `is_empty` iff none. -/
theorem C04_iter (h : Hist) :
    h.run.iter.Nodup ∧ (∀ c, c ∈ h.run.iter ↔ h.Added c) ∧ h.run.len = h.run.iter.length ∧
      (h.run.isEmpty = true ↔ ∀ c, ¬ h.Added c) := by
  have hm : ∀ c, c ∈ h.run.iter ↔ h.Added c := fun c => by
    rw [← C04_contains]; simp [CNF.contains, CNF.iter]
  refine ⟨h.wf.nodup, hm, rfl, ?_⟩
  simp only [CNF.isEmpty, List.isEmpty_iff, ← hm]
  exact List.eq_nil_iff_forall_not_mem

/-- C04: the recorded maximum is the maximum variable over all clauses (0 if there is none). -/
theorem C04_max (h : Hist) :
    (∀ c, h.Added c → ∀ l ∈ c.iter, l.number ≤ h.run.getMaxVar) ∧
      (h.run.getMaxVar = 0 ∨ ∃ c, h.Added c ∧ ∃ l ∈ c.iter, l.number = h.run.getMaxVar) := by
  have hm := (C04_iter h).2.1
  refine ⟨fun c hc l hl => h.wf.le_max c ((hm c).2 hc) l hl, ?_⟩
  rcases h.wf.attained with h0 | ⟨c, hc, l, hl, e⟩
  · exact .inl h0
  · exact .inr ⟨c, (hm c).1 hc, l, hl, e⟩

/-- C04: truth of the CNF is truth of every added clause. -/
theorem C04_holds (h : Hist) (v : Val) : h.run.holds v ↔ ∀ c, h.Added c → c.holds v := by
  have hm := (C04_iter h).2.1
  exact ⟨fun hv c hc => hv c ((hm c).2 hc), fun hv c hc => hv c ((hm c).1 hc)⟩

/-- C04: equality is equality of the added clause sets, whatever the order or repetition. -/
theorem C04_eq (h g : Hist) : h.run.beq g.run = true ↔ ∀ c, h.Added c ↔ g.Added c := by
  rw [CNF.beq_iff h.wf.nodup g.wf.nodup]
  have hm := (C04_iter h).2.1
  have gm := (C04_iter g).2.1
  simp only [CNF.iter] at hm gm
  simp only [hm, gm]

example : (Hist.add (.append (.add .new [⟨3⟩, ⟨2⟩]) (.add .new [⟨2⟩, ⟨3⟩])) [⟨4⟩]).run.len = 2 ∧
    (Hist.add (.add .new [⟨3⟩, ⟨2⟩]) [⟨4⟩]).run.beq (Hist.add (.add .new [⟨4⟩]) [⟨2⟩, ⟨3⟩]).run = true := by decide

/-! ## C05 -/

/-- C05: the CNF of a cube holds iff all literals hold. -/
theorem C05_cube (c : Cube) (v : Val) : c.toCnf.holds v ↔ ∀ l ∈ c.iter, l.holds v := Cube.toCnf_holds

/-- C05: the CNF of a clause holds iff some literal holds. -/
theorem C05_clause (c : Clause) (v : Val) : c.toCnf.holds v ↔ ∃ l ∈ c.iter, l.holds v := Clause.toCnf_holds

/-- C05: the empty cube is valid, the empty clause unsatisfiable. -/
theorem C05_empty : (∀ v, (Cube.new []).toCnf.holds v) ∧ ¬ (Clause.new []).toCnf.Sat := by
  constructor
  · intro v; rw [C05_cube]; intro l hl; simp [Cube.iter] at hl
  · rintro ⟨v, hv⟩; rw [C05_clause] at hv; obtain ⟨l, hl, _⟩ := hv; simp [Clause.iter] at hl

/-- C05: the conversion is a well-formed CNF: as many distinct unit clauses as distinct literals, exact maximum. -/
theorem C05_wf (l : List Literal) : (Cube.new l).toCnf.WF ∧ (Clause.new l).toCnf.WF :=
  ⟨Cube.toCnf_wf _, Clause.toCnf_wf (Clause.sorted_new l)⟩

example : (Cube.new [⟨2⟩, ⟨5⟩]).toCnf.holds (fun n => n == 1) := by
  rw [C05_cube]; decide

/-! ## C06 -/

/-- C06: an independent DIMACS reader recovers counts and exactly the clauses (up to order), each as signed integers. -/
theorem C06_reader (h : Hist) (hz : ∀ c, h.Added c → ∀ l ∈ c.iter, l.number ≠ 0) :
    ∃ file, Dimacs.read h.run.display = some file ∧ file.vars = h.run.getMaxVar ∧ file.numClauses = h.run.len ∧
      file.clauses.Perm (h.run.iter.map (fun c => c.iter.map Dimacs.intOf)) := by
  have hm := (C04_iter h).2.1
  refine ⟨_, Dimacs.read_display h.run (fun c hc => hz c ((hm c).1 hc)), rfl, rfl, ?_⟩
  have h1 : (sortBy Clause.printLe h.run.clauses).map (fun c => (sortBy Literal.le c.lits).map Dimacs.intOf)
      = (sortBy Clause.printLe h.run.clauses).map (fun c => c.iter.map Dimacs.intOf) := by
    apply List.map_congr_left
    intro c hc
    rw [sortBy_of_pairwise _ (h.wf.sorted c (mem_sortBy.1 hc))]; rfl
  simp only [h1]
  exact (sortBy_perm _ _).map _

/-- The hypothesis is met by the CNF of the doc example of `cnf.rs:46-53`. -/
example : ∀ c, (Hist.add (.add .new [⟨3⟩, ⟨4⟩, ⟨6⟩]) [⟨4⟩, ⟨2⟩]).Added c → ∀ l ∈ c.iter, l.number ≠ 0 := by
  rintro c ((h | rfl) | rfl)
  · exact h.elim
  · decide
  · decide

/-- C06: the signed integer determines the literal, so the reader's clauses determine the CNF. -/
theorem C06_int_injective (a b : Literal) (h : a.number ≠ 0) (e : Dimacs.intOf a = Dimacs.intOf b) : a = b :=
  Dimacs.intOf_inj h e

example : (⟨15⟩ : Literal).number ≠ 0 ∧ Dimacs.intOf ⟨15⟩ = -7 ∧ Dimacs.intOf ⟨14⟩ = 7 := by decide

/-- C06: same text iff equal CNFs, whatever their histories. -/
theorem C06_canonical (h g : Hist) (hz : ∀ c, h.Added c → ∀ l ∈ c.iter, l.number ≠ 0)
    (gz : ∀ c, g.Added c → ∀ l ∈ c.iter, l.number ≠ 0) :
    h.run.display = g.run.display ↔ h.run.beq g.run = true := by
  constructor
  · intro e
    obtain ⟨f1, hr1, _, _, hp1⟩ := C06_reader h hz
    obtain ⟨f2, hr2, _, _, hp2⟩ := C06_reader g gz
    rw [e, hr2] at hr1
    cases hr1
    have hp := hp1.symm.trans hp2
    rw [C04_eq]
    have key : ∀ (h g : Hist), (∀ c, h.Added c → ∀ l ∈ c.iter, l.number ≠ 0) →
        (h.run.iter.map (fun c => c.iter.map Dimacs.intOf)).Perm (g.run.iter.map (fun c => c.iter.map Dimacs.intOf)) →
        ∀ c, h.Added c → g.Added c := by
      intro h g hz hp c hc
      have hc' := ((C04_iter h).2.1 c).2 hc
      have : c.iter.map Dimacs.intOf ∈ g.run.iter.map (fun c => c.iter.map Dimacs.intOf) :=
        hp.mem_iff.1 (List.mem_map.2 ⟨c, hc', rfl⟩)
      obtain ⟨d, hd, ed⟩ := List.mem_map.1 this
      have : c = d := by
        have inj : ∀ l m : List Literal, (∀ x ∈ l, x.number ≠ 0) → m.map Dimacs.intOf = l.map Dimacs.intOf → l = m := by
          intro l
          induction l with
          | nil => intro m _ e; simp at e; exact e.symm
          | cons x xs ih =>
            intro m hx e
            cases m with
            | nil => simp at e
            | cons y ys =>
              simp only [List.map_cons, List.cons.injEq] at e
              rw [Dimacs.intOf_inj (hx x (by simp)) e.1.symm, ih ys (fun z hz => hx z (by simp [hz])) e.2]
        have := inj c.iter d.iter (hz c hc) ed
        cases c; cases d; simpa [Clause.iter] using this
      exact ((C04_iter g).2.1 c).1 (this ▸ hd)
    exact fun c => ⟨key h g hz hp c, key g h gz hp.symm c⟩
  · intro e
    have hs := (CNF.beq_iff h.wf.nodup g.wf.nodup).1 e
    exact CNF.display_congr ((List.perm_ext_iff_of_nodup h.wf.nodup g.wf.nodup).2 hs) (h.wf.maxVar_congr g.wf hs)

example : (Hist.add (.add .new [⟨3⟩, ⟨4⟩]) [⟨4⟩]).run.display = (Hist.add (.add (.add .new [⟨4⟩]) [⟨4⟩, ⟨3⟩]) [⟨4⟩]).run.display := by
  rw [C06_canonical]
  · decide
  · rintro c ((h | rfl) | rfl)
    · exact h.elim
    · decide
    · decide
  · rintro c (((h | rfl) | rfl) | rfl)
    · exact h.elim
    · decide
    · decide
    · decide

/-- C06: the text does not depend on the hash iteration order: any other enumeration of the same set prints the same. -/
theorem C06_order_independent (f : CNF) (clauses : List Clause) (h : clauses.Perm f.clauses) :
    CNF.display ⟨f.maxVar, clauses⟩ = f.display := CNF.display_congr h rfl

example : [Clause.new [⟨4⟩], Clause.new [⟨2⟩]].Perm (CNF.addClause (CNF.addClause CNF.new (Clause.new [⟨2⟩])) (Clause.new [⟨4⟩])).clauses := by
  decide

/-- The doc example of `cnf.rs:46-53` (a test, not a proof): "p cnf 3 2\n1 2 0\n-1 2 3 0". -/
example : (Hist.add (.add .new [⟨3⟩, ⟨4⟩, ⟨6⟩]) [⟨4⟩, ⟨2⟩]).run.display =
    [112, 32, 99, 110, 102, 32, 51, 32, 50, 10, 49, 32, 50, 32, 48, 10, 45, 49, 32, 50, 32, 51, 32, 48] := by decide

end Verif.Props
