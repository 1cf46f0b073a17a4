import Verif.Spec.Logic
import Verif.Proofs.Base

/-! # Helper lemmas about literals, clauses, cubes and CNFs -/

namespace Verif

/-! ## Literals -/

namespace Literal

theorem number_def (l : Literal) : l.number = l.code / 2 := by
  simp [number, Nat.shiftRight_succ]

theorem isNegated_def (l : Literal) : l.isNegated = decide (l.code % 2 = 1) := by
  unfold isNegated
  rcases Nat.mod_two_eq_zero_or_one l.code with h | h <;> simp [h]

@[simp] theorem number_not (l : Literal) : l.not.number = l.number := by
  simp only [number_def, not, xor_one]
  split <;> omega

@[simp] theorem isNegated_not (l : Literal) : l.not.isNegated = !l.isNegated := by
  simp only [isNegated_def, not, xor_one]
  rcases Nat.mod_two_eq_zero_or_one l.code with h | h
  · simp [h]; omega
  · simp [h]; omega

theorem code_eq (l : Literal) : l.code = 2 * l.number + (if l.isNegated then 1 else 0) := by
  rw [number_def, isNegated_def]
  rcases Nat.mod_two_eq_zero_or_one l.code with h | h <;> simp [h] <;> omega

theorem ext' {a b : Literal} (h1 : a.number = b.number) (h2 : a.isNegated = b.isNegated) : a = b := by
  have ha := code_eq a
  have hb := code_eq b
  rw [h1, h2, ← hb] at ha
  exact congrArg Literal.mk ha

@[simp] theorem not_not (l : Literal) : l.not.not = l := by
  apply ext' <;> simp

theorem not_inj {a b : Literal} (h : a.not = b.not) : a = b := by
  rw [← not_not a, h, not_not]

theorem not_ne (l : Literal) : l.not ≠ l := by
  intro h
  have := congrArg isNegated h
  simp at this

instance (v : Val) (l : Literal) : Decidable (l.holds v) := by unfold holds; infer_instance

@[simp] theorem holds_not (v : Val) (l : Literal) : l.not.holds v ↔ ¬ l.holds v := by
  unfold holds
  rw [number_not, isNegated_not]
  cases v l.number <;> cases l.isNegated <;> simp

theorem new_ok (dbg : Bool) {n : Nat} (h0 : 0 < n) (h1 : n < 2147483648) : new dbg n = .ok ⟨2 * n⟩ := by
  have e : (n <<< 1) % u32Size = 2 * n := by
    rw [Nat.shiftLeft_eq]; unfold u32Size; omega
  have h2 : n ≤ (u32Size - 1) >>> 1 := by unfold u32Size; simp; omega
  cases dbg <;>
    simp [new, debugAssertR, assertR, h0, h2, e, bind, Except.bind, pure, Except.pure]

@[simp] theorem number_mk (n : Nat) : (Literal.mk (2 * n)).number = n := by simp [number_def]
@[simp] theorem isNegated_mk (n : Nat) : (Literal.mk (2 * n)).isNegated = false := by
  simp [isNegated_def]

theorem number_negateIfTrue (l : Literal) (b : Bool) : (l.negateIfTrue b).number = l.number := by
  cases b <;> simp [negateIfTrue]

theorem isNegated_negateIfTrue (l : Literal) (b : Bool) : (l.negateIfTrue b).isNegated = (l.isNegated ^^ b) := by
  cases b <;> simp [negateIfTrue]

theorem holds_negateIfTrue (v : Val) (l : Literal) (b : Bool) :
    (l.negateIfTrue b).holds v ↔ v l.number = !(l.isNegated ^^ b) := by
  unfold holds; rw [number_negateIfTrue, isNegated_negateIfTrue]

theorem le_total (a b : Literal) : a.le b = true ∨ b.le a = true := by
  simp [le]; omega

theorem le_trans (a b c : Literal) (h1 : a.le b = true) (h2 : b.le c = true) : a.le c = true := by
  simp [le] at *; omega

theorem le_antisymm (a b : Literal) (h1 : a.le b = true) (h2 : b.le a = true) : a = b := by
  simp [le] at *; cases a; cases b; simp at *; omega

theorem number_le_of_le {a b : Literal} (h : a.le b = true) : a.number ≤ b.number := by
  simp [le] at h; rw [number_def, number_def]; omega

end Literal

/-! ## Clauses and cubes -/

theorem sortLits_eq_iff {l m : List Literal} : sortBy Literal.le l = sortBy Literal.le m ↔ l.Perm m :=
  sortBy_eq_iff Literal.le_total Literal.le_trans Literal.le_antisymm

theorem sortLits_sorted (l : List Literal) : (sortBy Literal.le l).Pairwise (fun a b => a.le b = true) :=
  sortBy_pairwise Literal.le_total Literal.le_trans l

/-- Sortedness invariant of every cube made by `Cube::new`. -/
def Cube.Sorted (c : Cube) : Prop := c.lits.Pairwise (fun a b => a.le b = true)

theorem Clause.sorted_new (l : List Literal) : (Clause.new l).Sorted := sortLits_sorted l
theorem Cube.sorted_new (l : List Literal) : (Cube.new l).Sorted := sortLits_sorted l

theorem Clause.new_lits {c : Clause} (h : c.Sorted) : Clause.new c.lits = c := by
  cases c; simp only [Clause.new]; rw [sortBy_of_pairwise _ h]

theorem Cube.new_lits {c : Cube} (h : c.Sorted) : Cube.new c.lits = c := by
  cases c; simp only [Cube.new]; rw [sortBy_of_pairwise _ h]

@[simp] theorem Clause.mem_new {l : Literal} {ls : List Literal} : l ∈ (Clause.new ls).lits ↔ l ∈ ls := mem_sortBy
@[simp] theorem Cube.mem_new {l : Literal} {ls : List Literal} : l ∈ (Cube.new ls).lits ↔ l ∈ ls := mem_sortBy

theorem Clause.holds_new {v : Val} {ls : List Literal} : (Clause.new ls).holds v ↔ ∃ l ∈ ls, l.holds v := by
  simp [Clause.holds, Clause.iter]

theorem Cube.holds_new {v : Val} {ls : List Literal} : (Cube.new ls).holds v ↔ ∀ l ∈ ls, l.holds v := by
  simp [Cube.holds, Cube.iter]

@[simp] theorem Clause.mem_not {c : Clause} {l : Literal} : l ∈ c.not.lits ↔ l.not ∈ c.lits := by
  simp only [Clause.not, Cube.mem_new, Clause.iter, List.mem_map]
  constructor
  · rintro ⟨a, ha, rfl⟩; simpa using ha
  · intro h; exact ⟨_, h, by simp⟩

@[simp] theorem Cube.mem_not {c : Cube} {l : Literal} : l ∈ c.not.lits ↔ l.not ∈ c.lits := by
  simp only [Cube.not, Clause.mem_new, Cube.iter, List.mem_map]
  constructor
  · rintro ⟨a, ha, rfl⟩; simpa using ha
  · intro h; exact ⟨_, h, by simp⟩

theorem Clause.sorted_of_not (c : Cube) : c.not.Sorted := sortLits_sorted _
theorem Cube.sorted_of_not (c : Clause) : c.not.Sorted := sortLits_sorted _

theorem Clause.holds_not {v : Val} {c : Clause} : c.not.holds v ↔ ¬ c.holds v := by
  simp only [Clause.not, Cube.holds_new, Clause.holds, List.mem_map]
  constructor
  · rintro h ⟨l, hl, hv⟩
    exact (Literal.holds_not v l).1 (h _ ⟨l, hl, rfl⟩) hv
  · rintro h _ ⟨l, hl, rfl⟩
    exact (Literal.holds_not v l).2 fun hv => h ⟨l, hl, hv⟩

theorem Cube.holds_not {v : Val} {c : Cube} : c.not.holds v ↔ ¬ c.holds v := by
  simp only [Cube.not, Clause.holds_new, Cube.holds, List.mem_map]
  constructor
  · rintro ⟨_, ⟨l, hl, rfl⟩, hv⟩ h
    exact (Literal.holds_not v l).1 hv (h l hl)
  · intro h
    have : ∃ l ∈ c.iter, ¬ l.holds v := by
      apply Classical.byContradiction
      intro hn
      apply h
      intro l hl
      apply Classical.byContradiction
      intro hv
      exact hn ⟨l, hl, hv⟩
    obtain ⟨l, hl, hv⟩ := this
    exact ⟨l.not, ⟨l, hl, rfl⟩, (Literal.holds_not v l).2 hv⟩

theorem map_not_not (ls : List Literal) : (ls.map Literal.not).map Literal.not = ls := by
  rw [List.map_map]
  conv => rhs; rw [← List.map_id ls]
  apply List.map_congr_left
  intro l _; simp

theorem Clause.not_not {c : Clause} (h : c.Sorted) : c.not.not = c := by
  conv => rhs; rw [← Clause.new_lits h]
  have : (c.not.iter.map Literal.not).Perm c.lits := by
    have h1 : (c.not.iter).Perm (c.lits.map Literal.not) := sortBy_perm _ _
    have h2 := h1.map Literal.not
    rwa [map_not_not] at h2
  exact congrArg Clause.mk (sortLits_eq_iff.2 this)

theorem Cube.not_not {c : Cube} (h : c.Sorted) : c.not.not = c := by
  conv => rhs; rw [← Cube.new_lits h]
  have : (c.not.iter.map Literal.not).Perm c.lits := by
    have h1 : (c.not.iter).Perm (c.lits.map Literal.not) := sortBy_perm _ _
    have h2 := h1.map Literal.not
    rwa [map_not_not] at h2
  exact congrArg Cube.mk (sortLits_eq_iff.2 this)

theorem Clause.number_le_highest {c : Clause} (h : c.Sorted) {l : Literal} (hl : l ∈ c.lits) :
    l.number ≤ c.highestVar := by
  unfold Clause.highestVar
  cases hc : c.lits.getLast? with
  | none => rw [List.getLast?_eq_none_iff] at hc; rw [hc] at hl; simp at hl
  | some m =>
    rw [List.getLast?_eq_some_iff] at hc
    obtain ⟨ys, hys⟩ := hc
    unfold Clause.Sorted at h
    rw [hys] at h hl
    rw [List.pairwise_append] at h
    rcases List.mem_append.1 hl with hl | hl
    · exact Literal.number_le_of_le (h.2.2 l hl m (by simp))
    · simp at hl; subst hl; exact Nat.le_refl _

theorem Clause.highest_attained (c : Clause) : c.highestVar = 0 ∨ ∃ l ∈ c.lits, l.number = c.highestVar := by
  unfold Clause.highestVar
  cases hc : c.lits.getLast? with
  | none => left; rfl
  | some m =>
    right
    exact ⟨m, List.mem_of_getLast? hc, rfl⟩

/-! ## CNFs -/

@[simp] theorem CNF.mem_addClause {f : CNF} {c d : Clause} : d ∈ (f.addClause c).clauses ↔ d ∈ f.clauses ∨ d = c :=
  mem_setInsert

@[simp] theorem CNF.mem_append {f g : CNF} {d : Clause} : d ∈ (f.append g).clauses ↔ d ∈ f.clauses ∨ d ∈ g.clauses :=
  mem_foldl_setInsert

@[simp] theorem CNF.holds_empty {v : Val} : CNF.new.holds v := by
  intro c hc; simp [CNF.new, CNF.iter] at hc

@[simp] theorem CNF.holds_addClause {v : Val} {f : CNF} {c : Clause} :
    (f.addClause c).holds v ↔ f.holds v ∧ c.holds v := by
  simp only [CNF.holds, CNF.iter, CNF.mem_addClause]
  constructor
  · intro h; exact ⟨fun d hd => h d (.inl hd), h c (.inr rfl)⟩
  · rintro ⟨h1, h2⟩ d (hd | rfl)
    · exact h1 d hd
    · exact h2

@[simp] theorem CNF.holds_append {v : Val} {f g : CNF} : (f.append g).holds v ↔ f.holds v ∧ g.holds v := by
  simp only [CNF.holds, CNF.iter, CNF.mem_append]
  constructor
  · intro h; exact ⟨fun d hd => h d (.inl hd), fun d hd => h d (.inr hd)⟩
  · rintro ⟨h1, h2⟩ d (hd | hd)
    · exact h1 d hd
    · exact h2 d hd

theorem Cube.foldl_toCnf_holds {v : Val} (ls : List Literal) (f : CNF) :
    (ls.foldl (fun f l => f.addClause (Clause.new [l])) f).holds v ↔ f.holds v ∧ ∀ l ∈ ls, l.holds v := by
  induction ls generalizing f with
  | nil => simp
  | cons l ls ih => simp [ih, Clause.holds_new, and_assoc]

@[simp] theorem Cube.toCnf_holds {v : Val} {c : Cube} : c.toCnf.holds v ↔ c.holds v := by
  simp [Cube.toCnf, Cube.foldl_toCnf_holds, Cube.holds, Cube.iter]

@[simp] theorem Clause.toCnf_holds {v : Val} {c : Clause} : c.toCnf.holds v ↔ c.holds v := by
  simp [Clause.toCnf]

theorem Cube.foldl_toCnf_mem (ls : List Literal) (f : CNF) (d : Clause) :
    d ∈ (ls.foldl (fun f l => f.addClause (Clause.new [l])) f).clauses ↔ d ∈ f.clauses ∨ ∃ l ∈ ls, d = Clause.new [l] := by
  induction ls generalizing f with
  | nil => simp
  | cons l ls ih => simp [ih, or_assoc]

@[simp] theorem Cube.mem_toCnf {c : Cube} {d : Clause} : d ∈ c.toCnf.clauses ↔ ∃ l ∈ c.lits, d = Clause.new [l] := by
  simp [Cube.toCnf, Cube.foldl_toCnf_mem, CNF.new]

@[simp] theorem Clause.mem_toCnf {c d : Clause} : d ∈ c.toCnf.clauses ↔ d = c := by
  simp [Clause.toCnf, CNF.new]

theorem CNF.WF.new : CNF.new.WF := ⟨by simp [CNF.new], by simp [CNF.new], by simp [CNF.new], .inl rfl⟩

theorem CNF.WF.addClause {f : CNF} (h : f.WF) {c : Clause} (hc : c.Sorted) : (f.addClause c).WF where
  nodup := nodup_setInsert h.nodup
  sorted := by
    intro d hd
    rcases CNF.mem_addClause.1 hd with hd | rfl
    · exact h.sorted d hd
    · exact hc
  le_max := by
    intro d hd l hl
    show l.number ≤ max f.maxVar c.highestVar
    rcases CNF.mem_addClause.1 hd with hd | rfl
    · exact Nat.le_trans (h.le_max d hd l hl) (Nat.le_max_left _ _)
    · exact Nat.le_trans (Clause.number_le_highest hc hl) (Nat.le_max_right _ _)
  attained := by
    show max f.maxVar c.highestVar = 0 ∨ ∃ d ∈ (f.addClause c).clauses, ∃ l ∈ d.lits, l.number = max f.maxVar c.highestVar
    rcases Nat.le_total f.maxVar c.highestVar with hm | hm
    · rw [Nat.max_eq_right hm]
      rcases c.highest_attained with h0 | ⟨l, hl, e⟩
      · exact .inl h0
      · exact .inr ⟨c, CNF.mem_addClause.2 (.inr rfl), l, hl, e⟩
    · rw [Nat.max_eq_left hm]
      rcases h.attained with h0 | ⟨d, hd, l, hl, e⟩
      · exact .inl h0
      · exact .inr ⟨d, CNF.mem_addClause.2 (.inl hd), l, hl, e⟩

theorem CNF.WF.append {f g : CNF} (h : f.WF) (hg : g.WF) : (f.append g).WF where
  nodup := nodup_foldl_setInsert h.nodup
  sorted := by
    intro d hd
    rcases CNF.mem_append.1 hd with hd | hd
    · exact h.sorted d hd
    · exact hg.sorted d hd
  le_max := by
    intro d hd l hl
    show l.number ≤ max f.maxVar g.maxVar
    rcases CNF.mem_append.1 hd with hd | hd
    · exact Nat.le_trans (h.le_max d hd l hl) (Nat.le_max_left _ _)
    · exact Nat.le_trans (hg.le_max d hd l hl) (Nat.le_max_right _ _)
  attained := by
    show max f.maxVar g.maxVar = 0 ∨ ∃ d ∈ (f.append g).clauses, ∃ l ∈ d.lits, l.number = max f.maxVar g.maxVar
    rcases Nat.le_total f.maxVar g.maxVar with hm | hm
    · rw [Nat.max_eq_right hm]
      rcases hg.attained with h0 | ⟨d, hd, l, hl, e⟩
      · exact .inl h0
      · exact .inr ⟨d, CNF.mem_append.2 (.inr hd), l, hl, e⟩
    · rw [Nat.max_eq_left hm]
      rcases h.attained with h0 | ⟨d, hd, l, hl, e⟩
      · exact .inl h0
      · exact .inr ⟨d, CNF.mem_append.2 (.inl hd), l, hl, e⟩

theorem Clause.toCnf_wf {c : Clause} (hc : c.Sorted) : c.toCnf.WF := CNF.WF.new.addClause hc

theorem Cube.foldl_toCnf_wf (ls : List Literal) {f : CNF} (h : f.WF) :
    (ls.foldl (fun f l => f.addClause (Clause.new [l])) f).WF := by
  induction ls generalizing f with
  | nil => exact h
  | cons l ls ih => exact ih (h.addClause (Clause.sorted_new _))

theorem Cube.toCnf_wf (c : Cube) : c.toCnf.WF := Cube.foldl_toCnf_wf _ CNF.WF.new

/-- The maximum is determined by the set of clauses. -/
theorem CNF.WF.maxVar_congr {f g : CNF} (hf : f.WF) (hg : g.WF) (h : ∀ c, c ∈ f.clauses ↔ c ∈ g.clauses) :
    f.maxVar = g.maxVar := by
  apply Nat.le_antisymm
  · rcases hf.attained with h0 | ⟨c, hc, l, hl, e⟩
    · omega
    · rw [← e]; exact hg.le_max c ((h c).1 hc) l hl
  · rcases hg.attained with h0 | ⟨c, hc, l, hl, e⟩
    · omega
    · rw [← e]; exact hf.le_max c ((h c).2 hc) l hl

theorem CNF.beq_iff {f g : CNF} (hf : f.clauses.Nodup) (hg : g.clauses.Nodup) :
    f.beq g = true ↔ ∀ c, c ∈ f.clauses ↔ c ∈ g.clauses := by
  simp only [CNF.beq, Bool.and_eq_true, beq_iff_eq, List.all_eq_true, decide_eq_true_eq]
  constructor
  · rintro ⟨hl, hs⟩ c
    refine ⟨hs c, fun hc => ?_⟩
    apply Classical.byContradiction
    intro hn
    have : (c :: f.clauses).length ≤ g.clauses.length := by
      apply List.Nodup.length_le_of_subset (List.nodup_cons.2 ⟨hn, hf⟩)
      intro d hd
      rcases List.mem_cons.1 hd with rfl | hd
      · exact hc
      · exact hs d hd
    simp at this; omega
  · intro h
    refine ⟨?_, fun c hc => (h c).1 hc⟩
    apply Nat.le_antisymm
    · exact List.Nodup.length_le_of_subset hf fun c hc => (h c).1 hc
    · exact List.Nodup.length_le_of_subset hg fun c hc => (h c).2 hc

end Verif
