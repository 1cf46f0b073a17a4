import Verif.Proofs.FstsSem

/-! # Tags: shifting all variables of a formula -/

namespace Verif

/-- The literal with its variable `n` higher. -/
def Literal.shift (n : Nat) (l : Literal) : Literal := ⟨l.code + 2 * n⟩

theorem Literal.number_shift (n : Nat) (l : Literal) : (l.shift n).number = l.number + n := by
  rw [Literal.number_def, Literal.number_def]; unfold Literal.shift; simp only; omega

theorem Literal.isNegated_shift (n : Nat) (l : Literal) : (l.shift n).isNegated = l.isNegated := by
  rw [Literal.isNegated_def, Literal.isNegated_def]; unfold Literal.shift; simp only
  have : (l.code + 2 * n) % 2 = l.code % 2 := by omega
  rw [this]

theorem Literal.holds_shift {n : Nat} {l : Literal} {v : Val} : (l.shift n).holds v ↔ l.holds (fun x => v (x + n)) := by
  unfold Literal.holds; rw [Literal.number_shift, Literal.isNegated_shift]

theorem Literal.shift_not (n : Nat) (l : Literal) : (l.not).shift n = (l.shift n).not := by
  apply Literal.ext'
  · rw [Literal.number_shift, Literal.number_not, Literal.number_not, Literal.number_shift]
  · rw [Literal.isNegated_shift, Literal.isNegated_not, Literal.isNegated_not, Literal.isNegated_shift]

theorem Literal.shift_shift (n m : Nat) (l : Literal) : (l.shift n).shift m = l.shift (n + m) := by
  apply Literal.ext'
  · simp only [Literal.number_shift]; omega
  · simp only [Literal.isNegated_shift]

theorem Literal.shift_zero (l : Literal) : l.shift 0 = l := rfl

theorem Literal.shift_inj {n : Nat} {l m : Literal} (h : l.shift n = m.shift n) : l = m := by
  have : l.code + 2 * n = m.code + 2 * n := congrArg Literal.code h
  cases l; cases m; simp at *; omega

theorem pairwise_shift {n : Nat} {ls : List Literal} (h : ls.Pairwise (fun a b => a.le b = true)) :
    (ls.map (Literal.shift n)).Pairwise (fun a b => a.le b = true) := by
  rw [List.pairwise_map]
  refine h.imp fun {a b} hab => ?_
  have h1 : a.code ≤ b.code := by simpa [Literal.le] using hab
  have h2 : a.code + 2 * n ≤ b.code + 2 * n := by omega
  simpa [Literal.le, Literal.shift] using h2

def Clause.shift (n : Nat) (c : Clause) : Clause := ⟨c.lits.map (Literal.shift n)⟩
def Cube.shift (n : Nat) (c : Cube) : Cube := ⟨c.lits.map (Literal.shift n)⟩

theorem Clause.sorted_shift {n : Nat} {c : Clause} (h : c.Sorted) : (c.shift n).Sorted := pairwise_shift h
theorem Cube.sorted_shift {n : Nat} {c : Cube} (h : c.Sorted) : (c.shift n).Sorted := pairwise_shift h

theorem Clause.holds_shift {n : Nat} {c : Clause} {v : Val} : (c.shift n).holds v ↔ c.holds (fun x => v (x + n)) := by
  unfold Clause.holds Clause.iter Clause.shift
  constructor
  · rintro ⟨l, hl, hv⟩
    obtain ⟨m, hm, rfl⟩ := List.mem_map.1 hl
    exact ⟨m, hm, Literal.holds_shift.1 hv⟩
  · rintro ⟨l, hl, hv⟩
    exact ⟨_, List.mem_map.2 ⟨l, hl, rfl⟩, Literal.holds_shift.2 hv⟩

theorem Cube.holds_shift {n : Nat} {c : Cube} {v : Val} : (c.shift n).holds v ↔ c.holds (fun x => v (x + n)) := by
  unfold Cube.holds Cube.iter Cube.shift
  constructor
  · intro h l hl
    exact Literal.holds_shift.1 (h _ (List.mem_map.2 ⟨l, hl, rfl⟩))
  · intro h l hl
    obtain ⟨m, hm, rfl⟩ := List.mem_map.1 hl
    exact Literal.holds_shift.2 (h m hm)

theorem Clause.shift_shift (n m : Nat) (c : Clause) : (c.shift n).shift m = c.shift (n + m) := by
  unfold Clause.shift
  simp only [List.map_map]
  congr 1
  apply List.map_congr_left
  intro l _; exact Literal.shift_shift n m l

theorem Cube.shift_shift (n m : Nat) (c : Cube) : (c.shift n).shift m = c.shift (n + m) := by
  unfold Cube.shift
  simp only [List.map_map]
  congr 1
  apply List.map_congr_left
  intro l _; exact Literal.shift_shift n m l

theorem map_shift_zero (ls : List Literal) : ls.map (Literal.shift 0) = ls := by
  conv => rhs; rw [← List.map_id ls]
  apply List.map_congr_left
  intro l _; rfl

theorem Clause.shift_zero (c : Clause) : c.shift 0 = c := by
  unfold Clause.shift; rw [map_shift_zero]

theorem Cube.shift_zero (c : Cube) : c.shift 0 = c := by
  unfold Cube.shift; rw [map_shift_zero]

theorem map_shift_inj {n : Nat} {ls ms : List Literal} (h : ls.map (Literal.shift n) = ms.map (Literal.shift n)) : ls = ms := by
  induction ls generalizing ms with
  | nil => cases ms with
    | nil => rfl
    | cons _ _ => simp at h
  | cons l ls ih => cases ms with
    | nil => simp at h
    | cons m ms =>
      simp only [List.map_cons, List.cons.injEq] at h
      rw [Literal.shift_inj h.1, ih h.2]

theorem Clause.shift_inj {n : Nat} {c d : Clause} (h : c.shift n = d.shift n) : c = d := by
  have := map_shift_inj (congrArg Clause.lits h)
  cases c; cases d; simp at *; exact this

/-- Every clause shifted; the maximum shifted too unless there is no literal at all. -/
def CNF.shift (n : Nat) (f : CNF) : CNF := if n = 0 then f else CNF.new.addAll (f.clauses.map (Clause.shift n))

theorem CNF.mem_shift {n : Nat} {f : CNF} {d : Clause} : d ∈ (f.shift n).clauses ↔ ∃ e ∈ f.clauses, d = e.shift n := by
  unfold CNF.shift
  split
  · rename_i h; subst h; simp [Clause.shift_zero]
  · rw [CNF.mem_addAll]; simp [CNF.new, eq_comm]

theorem CNF.holds_shift {n : Nat} {f : CNF} {v : Val} : (f.shift n).holds v ↔ f.holds (fun x => v (x + n)) := by
  unfold CNF.holds CNF.iter
  constructor
  · intro h d hd
    exact Clause.holds_shift.1 (h _ (CNF.mem_shift.2 ⟨d, hd, rfl⟩))
  · intro h d hd
    obtain ⟨e, he, rfl⟩ := CNF.mem_shift.1 hd
    exact Clause.holds_shift.2 (h e he)

theorem CNF.WF.shift {n : Nat} {f : CNF} (h : f.WF) : (f.shift n).WF := by
  unfold CNF.shift
  split
  · exact h
  · refine CNF.WF.new.addAll ?_
    intro c hc
    obtain ⟨d, hd, rfl⟩ := List.mem_map.1 hc
    exact Clause.sorted_shift (h.sorted d hd)

theorem setInsert_notMem {α : Type} [DecidableEq α] {s : List α} {x : α} (h : x ∉ s) : setInsert s x = s ++ [x] := by
  unfold setInsert; rw [if_neg h]

theorem CNF.addAll_clauses {f : CNF} {cs : List Clause} (h : (f.clauses ++ cs).Nodup) : (f.addAll cs).clauses = f.clauses ++ cs := by
  induction cs generalizing f with
  | nil => simp
  | cons c cs ih =>
    have hc : c ∉ f.clauses := by
      rw [List.nodup_append] at h
      intro hm
      exact h.2.2 c hm c (by simp) rfl
    have e : (f.addClause c).clauses = f.clauses ++ [c] := setInsert_notMem hc
    rw [CNF.addAll_cons, ih (by rw [e]; simpa using h), e]; simp

theorem CNF.shift_clauses {n : Nat} {f : CNF} (h : f.WF) : (f.shift n).clauses = f.clauses.map (Clause.shift n) := by
  unfold CNF.shift
  split
  · rename_i h0; subst h0
    conv => lhs; rw [← List.map_id f.clauses]
    apply List.map_congr_left
    intro c _; exact (Clause.shift_zero c).symm
  · rw [CNF.addAll_clauses]
    · rfl
    · rw [show CNF.new.clauses = [] from rfl, List.nil_append]
      rw [List.nodup_iff_pairwise_ne, List.pairwise_map]
      exact (List.nodup_iff_pairwise_ne.1 h.nodup).imp fun hne he => hne (Clause.shift_inj he)

theorem CNF.WF.ext {f g : CNF} (hf : f.WF) (hg : g.WF) (h : f.clauses = g.clauses) : f = g := by
  have := hf.maxVar_congr hg (fun c => by rw [h])
  cases f; cases g; simp at *; exact ⟨this, h⟩

theorem CNF.shift_shift {n m : Nat} {f : CNF} (h : f.WF) : (f.shift n).shift m = f.shift (n + m) := by
  refine CNF.WF.ext h.shift.shift h.shift ?_
  rw [CNF.shift_clauses h.shift, CNF.shift_clauses h, CNF.shift_clauses h, List.map_map]
  apply List.map_congr_left
  intro c _; exact Clause.shift_shift n m c

theorem CNF.shift_zero (f : CNF) : f.shift 0 = f := if_pos rfl

/-! ## The model's functions -/

namespace Fsts

theorem bumpLiteral_ok (dbg : Bool) {n : Nat} {l : Literal} (h1 : 1 ≤ l.number) (h2 : l.number + n < 2147483648) :
    bumpLiteral dbg n l = .ok (l.shift n) := by
  have e1 : (l.number != 0) = true := by simp; omega
  have e2 : u32Add dbg "features.rs:29 overflow" l.number n = .ok (l.number + n) := by
    unfold u32Add; rw [if_pos (by unfold u32Size; omega)]
  unfold bumpLiteral
  simp only [e1, e2, assertR, if_true, bind, Except.bind, Literal.new_ok dbg (n := l.number + n) (by omega) h2, pure, Except.pure]
  congr 1
  apply Literal.ext'
  · rw [Literal.number_negateIfTrue, Literal.number_mk, Literal.number_shift]
  · rw [Literal.isNegated_negateIfTrue, Literal.isNegated_mk, Literal.isNegated_shift]; simp

theorem bumpClause_ok (dbg : Bool) {n : Nat} {c : Clause} (hs : c.Sorted)
    (h : ∀ l ∈ c.lits, 1 ≤ l.number ∧ l.number + n < 2147483648) : bumpClause dbg c n = .ok (c.shift n) := by
  unfold bumpClause
  rw [mapM_eq_map (f := bumpLiteral dbg n) (g := Literal.shift n) c.iter (fun l hl => bumpLiteral_ok dbg (h l hl).1 (h l hl).2), ok_bind]
  show Except.ok _ = _
  congr 1
  exact Clause.new_lits (c := c.shift n) (Clause.sorted_shift hs)

theorem bumpCnf_ok (dbg : Bool) {n : Nat} {f : CNF} (hs : ∀ c ∈ f.clauses, c.Sorted)
    (h : ∀ c ∈ f.clauses, ∀ l ∈ c.lits, 1 ≤ l.number ∧ l.number + n < 2147483648) : bumpCnf dbg f n = .ok (f.shift n) := by
  unfold bumpCnf CNF.shift
  by_cases hn : n = 0
  · subst hn; rfl
  · rw [if_neg (by simpa using hn), if_neg hn]
    rw [foldlM_eq_foldl (F := fun acc c => acc.addClause (c.shift n))]
    · congr 1
      unfold CNF.addAll CNF.iter
      rw [List.foldl_map]
    · intro s c hc
      rw [bumpClause_ok dbg (hs c hc) (h c hc)]; rfl

theorem tagProduct_ok (dbg : Bool) (site : String) {m n : Nat} (h : m * n < 4294967296) : u32Mul dbg site m n = .ok (m * n) := by
  unfold u32Mul; rw [if_pos (by unfold u32Size; exact h)]

theorem addTagsToRelation_ok (dbg : Bool) (f : Fsts) {g : CNF} {tags : Nat} (hg : g.WF)
    (h1 : ∀ c ∈ g.clauses, ∀ l ∈ c.lits, 1 ≤ l.number) (h : g.maxVar + f.maxLiteral * tags < 2147483648) :
    f.addTagsToRelation dbg g tags = .ok (g.shift (f.maxLiteral * tags)) := by
  unfold addTagsToRelation
  rw [tagProduct_ok dbg _ (by omega), ok_bind]
  refine bumpCnf_ok dbg hg.sorted fun c hc l hl => ⟨h1 c hc l hl, ?_⟩
  have := hg.le_max c hc l hl
  omega

theorem addTagsToClause_ok (dbg : Bool) (f : Fsts) {c : Clause} {tags : Nat} (hs : c.Sorted) (hm : f.maxLiteral * tags < 4294967296)
    (h : ∀ l ∈ c.lits, 1 ≤ l.number ∧ l.number + f.maxLiteral * tags < 2147483648) :
    f.addTagsToClause dbg c tags = .ok (c.shift (f.maxLiteral * tags)) := by
  unfold addTagsToClause
  by_cases h0 : tags = 0
  · subst h0; simp [Clause.shift_zero]
  · rw [if_neg (by simpa using h0), tagProduct_ok dbg _ hm, ok_bind]
    exact bumpClause_ok dbg hs h

theorem addTagsToCube_ok (dbg : Bool) (f : Fsts) {c : Cube} {tags : Nat} (hs : c.Sorted) (hm : f.maxLiteral * tags < 4294967296)
    (h : ∀ l ∈ c.lits, 1 ≤ l.number ∧ l.number + f.maxLiteral * tags < 2147483648) :
    f.addTagsToCube dbg c tags = .ok (c.shift (f.maxLiteral * tags)) := by
  unfold addTagsToCube
  by_cases h0 : tags = 0
  · subst h0; simp [Cube.shift_zero]
  · rw [if_neg (by simpa using h0), tagProduct_ok dbg _ hm, ok_bind, bumpClause_ok dbg (Clause.sorted_of_not c)]
    · show Except.ok _ = _
      congr 1
      have hp : ((c.not.shift (f.maxLiteral * tags)).iter.map Literal.not).Perm (c.lits.map (Literal.shift (f.maxLiteral * tags))) := by
        have p1 : c.not.lits.Perm (c.lits.map Literal.not) := sortBy_perm _ _
        have p2 := (p1.map (Literal.shift (f.maxLiteral * tags))).map Literal.not
        refine p2.trans ?_
        rw [List.map_map, List.map_map]
        refine List.Perm.of_eq (List.map_congr_left fun l _ => ?_)
        simp only [Function.comp, Literal.shift_not, Literal.not_not]
      unfold Clause.not
      have := sortLits_eq_iff.2 hp
      unfold Cube.new
      rw [this]
      exact Cube.new_lits (c := c.shift (f.maxLiteral * tags)) (Cube.sorted_shift hs)
    · intro l hl
      have := h _ (Cube.mem_not.1 hl)
      rw [Literal.number_not] at this
      exact this

/-! ### When tagging panics -/

theorem u32Mul_debug (site : String) (a b : Nat) :
    u32Mul true site a b = if a * b < 4294967296 then .ok (a * b) else .error (.panic site) := rfl

theorem bumpLiteral_debug (n : Nat) (l : Literal) :
    (1 ≤ l.number ∧ l.number + n < 2147483648 ∧ bumpLiteral true n l = .ok (l.shift n)) ∨
    (¬ (1 ≤ l.number ∧ l.number + n < 2147483648) ∧ ∃ site, bumpLiteral true n l = .error (.panic site)) := by
  by_cases h : 1 ≤ l.number ∧ l.number + n < 2147483648
  · exact .inl ⟨h.1, h.2, bumpLiteral_ok true h.1 h.2⟩
  · refine .inr ⟨h, ?_⟩
    unfold bumpLiteral
    by_cases h0 : l.number = 0
    · exact ⟨_, by rw [h0]; rfl⟩
    · have e1 : (l.number != 0) = true := by simpa using h0
      simp only [e1, assertR, if_true, ok_bind]
      unfold u32Add
      by_cases h2 : l.number + n < u32Size
      · rw [if_pos h2, ok_bind]
        refine ⟨"literal.rs:30 Literal number is too big.", ?_⟩
        have e2 : decide (l.number + n > 0) = true := by simp; omega
        have e3 : decide (l.number + n ≤ (u32Size - 1) >>> 1) = false := by
          refine decide_eq_false ?_
          show ¬ l.number + n ≤ 2147483647
          omega
        unfold Literal.new
        rw [e2, e3]; rfl
      · rw [if_neg h2]
        exact ⟨_, rfl⟩

theorem bumpClause_debug (n : Nat) (c : Clause) :
    ((∀ l ∈ c.lits, 1 ≤ l.number ∧ l.number + n < 2147483648) ∧ ∃ r, bumpClause true c n = .ok r) ∨
    (¬ (∀ l ∈ c.lits, 1 ≤ l.number ∧ l.number + n < 2147483648) ∧ ∃ site, bumpClause true c n = .error (.panic site)) := by
  have key : ∀ ls : List Literal,
      ((∀ l ∈ ls, 1 ≤ l.number ∧ l.number + n < 2147483648) ∧ ∃ r, ls.mapM (bumpLiteral true n) = .ok r) ∨
      (¬ (∀ l ∈ ls, 1 ≤ l.number ∧ l.number + n < 2147483648) ∧ ∃ site, ls.mapM (bumpLiteral true n) = .error (.panic site)) := by
    intro ls
    induction ls with
    | nil => exact .inl ⟨by simp, [], rfl⟩
    | cons l ls ih =>
      rw [List.mapM_cons]
      rcases bumpLiteral_debug n l with ⟨h1, h2, e⟩ | ⟨h, site, e⟩
      · rw [e, ok_bind]
        rcases ih with ⟨h, r, e⟩ | ⟨h, site, e⟩
        · refine .inl ⟨?_, l.shift n :: r, by rw [e]; rfl⟩
          intro x hx
          rcases List.mem_cons.1 hx with rfl | hx
          · exact ⟨h1, h2⟩
          · exact h x hx
        · exact .inr ⟨fun H => h fun x hx => H x (List.mem_cons_of_mem _ hx), site, by rw [e]; rfl⟩
      · exact .inr ⟨fun H => h (H l (List.mem_cons_self ..)), site, by rw [e]; rfl⟩
  unfold bumpClause
  rcases key c.iter with ⟨h, r, e⟩ | ⟨h, site, e⟩
  · exact .inl ⟨h, Clause.new r, by rw [e]; rfl⟩
  · exact .inr ⟨h, site, by rw [e]; rfl⟩

theorem bumpCnf_debug (n : Nat) (hn : n ≠ 0) (g : CNF) :
    ((∀ c ∈ g.clauses, ∀ l ∈ c.lits, 1 ≤ l.number ∧ l.number + n < 2147483648) ∧ ∃ r, bumpCnf true g n = .ok r) ∨
    (¬ (∀ c ∈ g.clauses, ∀ l ∈ c.lits, 1 ≤ l.number ∧ l.number + n < 2147483648) ∧ ∃ site, bumpCnf true g n = .error (.panic site)) := by
  have key : ∀ (cs : List Clause) (acc : CNF),
      ((∀ c ∈ cs, ∀ l ∈ c.lits, 1 ≤ l.number ∧ l.number + n < 2147483648) ∧
        ∃ r, cs.foldlM (fun acc c => do return acc.addClause (← bumpClause true c n)) acc = .ok r) ∨
      (¬ (∀ c ∈ cs, ∀ l ∈ c.lits, 1 ≤ l.number ∧ l.number + n < 2147483648) ∧
        ∃ site, cs.foldlM (fun acc c => do return acc.addClause (← bumpClause true c n)) acc = .error (.panic site)) := by
    intro cs
    induction cs with
    | nil => exact fun acc => .inl ⟨by simp, acc, rfl⟩
    | cons c cs ih =>
      intro acc
      rw [List.foldlM_cons]
      rcases bumpClause_debug n c with ⟨h1, r, e⟩ | ⟨h, site, e⟩
      · rw [e, ok_bind]
        rcases ih (acc.addClause r) with ⟨h, r', e⟩ | ⟨h, site, e⟩
        · refine .inl ⟨?_, r', e⟩
          intro x hx
          rcases List.mem_cons.1 hx with rfl | hx
          · exact h1
          · exact h x hx
        · exact .inr ⟨fun H => h fun x hx => H x (List.mem_cons_of_mem _ hx), site, e⟩
      · exact .inr ⟨fun H => h (H c (List.mem_cons_self ..)), site, by rw [e]; rfl⟩
  unfold bumpCnf
  rw [if_neg (by simpa using hn)]
  exact key g.iter CNF.new

/-- What a debug build accepts for tagging. -/
theorem addTagsToClause_debug (f : Fsts) (c : Clause) (tags : Nat) (ht : tags ≠ 0) :
    ((f.maxLiteral * tags < 4294967296 ∧ ∀ l ∈ c.lits, 1 ≤ l.number ∧ l.number + f.maxLiteral * tags < 2147483648) ∧
      ∃ r, f.addTagsToClause true c tags = .ok r) ∨
    (¬ (f.maxLiteral * tags < 4294967296 ∧ ∀ l ∈ c.lits, 1 ≤ l.number ∧ l.number + f.maxLiteral * tags < 2147483648) ∧
      ∃ site, f.addTagsToClause true c tags = .error (.panic site)) := by
  unfold addTagsToClause
  rw [if_neg (by simpa using ht), u32Mul_debug]
  by_cases hm : f.maxLiteral * tags < 4294967296
  · rw [if_pos hm, ok_bind]
    rcases bumpClause_debug (f.maxLiteral * tags) c with ⟨h, e⟩ | ⟨h, e⟩
    · exact .inl ⟨⟨hm, h⟩, e⟩
    · exact .inr ⟨fun H => h H.2, e⟩
  · rw [if_neg hm]
    exact .inr ⟨fun H => hm H.1, _, rfl⟩

theorem addTagsToCube_debug (f : Fsts) (c : Cube) (tags : Nat) (ht : tags ≠ 0) :
    ((f.maxLiteral * tags < 4294967296 ∧ ∀ l ∈ c.lits, 1 ≤ l.number ∧ l.number + f.maxLiteral * tags < 2147483648) ∧
      ∃ r, f.addTagsToCube true c tags = .ok r) ∨
    (¬ (f.maxLiteral * tags < 4294967296 ∧ ∀ l ∈ c.lits, 1 ≤ l.number ∧ l.number + f.maxLiteral * tags < 2147483648) ∧
      ∃ site, f.addTagsToCube true c tags = .error (.panic site)) := by
  have hl : (∀ l ∈ c.not.lits, 1 ≤ l.number ∧ l.number + f.maxLiteral * tags < 2147483648) ↔
      ∀ l ∈ c.lits, 1 ≤ l.number ∧ l.number + f.maxLiteral * tags < 2147483648 := by
    constructor
    · intro h l hl
      have := h l.not (Cube.mem_not.2 (by rw [Literal.not_not]; exact hl))
      rwa [Literal.number_not] at this
    · intro h l hl
      have := h _ (Cube.mem_not.1 hl)
      rwa [Literal.number_not] at this
  unfold addTagsToCube
  rw [if_neg (by simpa using ht), u32Mul_debug]
  by_cases hm : f.maxLiteral * tags < 4294967296
  · rw [if_pos hm, ok_bind]
    rcases bumpClause_debug (f.maxLiteral * tags) c.not with ⟨h, r, e⟩ | ⟨h, site, e⟩
    · exact .inl ⟨⟨hm, hl.1 h⟩, r.not, by rw [e]; rfl⟩
    · exact .inr ⟨fun H => h (hl.2 H.2), site, by rw [e]; rfl⟩
  · rw [if_neg hm]
    exact .inr ⟨fun H => hm H.1, _, rfl⟩

theorem addTagsToRelation_debug (f : Fsts) (g : CNF) (tags : Nat) (ht : f.maxLiteral * tags ≠ 0) :
    ((f.maxLiteral * tags < 4294967296 ∧ ∀ c ∈ g.clauses, ∀ l ∈ c.lits, 1 ≤ l.number ∧ l.number + f.maxLiteral * tags < 2147483648) ∧
      ∃ r, f.addTagsToRelation true g tags = .ok r) ∨
    (¬ (f.maxLiteral * tags < 4294967296 ∧ ∀ c ∈ g.clauses, ∀ l ∈ c.lits, 1 ≤ l.number ∧ l.number + f.maxLiteral * tags < 2147483648) ∧
      ∃ site, f.addTagsToRelation true g tags = .error (.panic site)) := by
  unfold addTagsToRelation
  rw [u32Mul_debug]
  by_cases hm : f.maxLiteral * tags < 4294967296
  · rw [if_pos hm, ok_bind]
    rcases bumpCnf_debug (f.maxLiteral * tags) ht g with ⟨h, e⟩ | ⟨h, e⟩
    · exact .inl ⟨⟨hm, h⟩, e⟩
    · exact .inr ⟨fun H => h H.2, e⟩
  · rw [if_neg hm]
    exact .inr ⟨fun H => hm H.1, _, rfl⟩

end Fsts

end Verif
