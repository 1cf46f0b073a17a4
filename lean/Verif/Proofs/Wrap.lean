import Verif.Proofs.Bmc

/-! # Release builds reduce variable numbers modulo 2³¹

What tagging does in a release build when shifted variable numbers do not fit a literal, and what becomes of the formulas of bounded
model checking then. -/

namespace Verif

/-- The valuation read `n` variables higher, modulo 2³¹. -/
def wrapped (n : Nat) (w : Val) : Val := fun x => w ((x + n) % 2147483648)

theorem wrapped_congr {m n : Nat} (h : m % 2147483648 = n % 2147483648) (w : Val) : wrapped m w = wrapped n w := by
  funext x; unfold wrapped; congr 1; omega

/-- Literal `l'` is `l` with its variable `n` higher, modulo 2³¹. -/
def Literal.Wraps (n : Nat) (l l' : Literal) : Prop := l'.number = (l.number + n) % 2147483648 ∧ l'.isNegated = l.isNegated

theorem Literal.Wraps.holds {n : Nat} {l l' : Literal} (h : l.Wraps n l') {w : Val} : l'.holds w ↔ l.holds (wrapped n w) := by
  unfold Literal.holds wrapped; rw [h.1, h.2]

/-- Clause `r` is `d` with its variables `n` higher, modulo 2³¹. -/
structure Clause.Wraps (n : Nat) (d r : Clause) : Prop where
  sorted : r.Sorted
  fwd : ∀ l ∈ d.lits, ∃ l' ∈ r.lits, l.Wraps n l'
  bwd : ∀ l' ∈ r.lits, ∃ l ∈ d.lits, l.Wraps n l'

theorem Clause.Wraps.holds {n : Nat} {d r : Clause} (h : d.Wraps n r) {w : Val} : r.holds w ↔ d.holds (wrapped n w) := by
  unfold Clause.holds Clause.iter
  constructor
  · rintro ⟨l', hl', hv⟩
    obtain ⟨l, hl, hw⟩ := h.bwd l' hl'
    exact ⟨l, hl, hw.holds.1 hv⟩
  · rintro ⟨l, hl, hv⟩
    obtain ⟨l', hl', hw⟩ := h.fwd l hl
    exact ⟨l', hl', hw.holds.2 hv⟩

/-- CNF `r` is `g` with its variables `n` higher, modulo 2³¹. -/
structure CNF.Wraps (n : Nat) (g r : CNF) : Prop where
  wf : r.WF
  fwd : ∀ d ∈ g.clauses, ∃ d' ∈ r.clauses, d.Wraps n d'
  bwd : ∀ d' ∈ r.clauses, ∃ d ∈ g.clauses, d.Wraps n d'

theorem CNF.Wraps.holds {n : Nat} {g r : CNF} (h : g.Wraps n r) {w : Val} : r.holds w ↔ g.holds (wrapped n w) := by
  unfold CNF.holds CNF.iter
  constructor
  · intro H d hd
    obtain ⟨d', hd', hw⟩ := h.fwd d hd
    exact hw.holds.1 (H d' hd')
  · intro H d' hd'
    obtain ⟨d, hd, hw⟩ := h.bwd d' hd'
    exact hw.holds.2 (H d hd)

/-- The variables of the result. -/
theorem CNF.Wraps.number {n : Nat} {g r : CNF} (h : g.Wraps n r) {d' : Clause} (hd' : d' ∈ r.clauses) {l' : Literal} (hl' : l' ∈ d'.lits) :
    ∃ d ∈ g.clauses, ∃ l ∈ d.lits, l'.number = (l.number + n) % 2147483648 := by
  obtain ⟨d, hd, hw⟩ := h.bwd d' hd'
  obtain ⟨l, hl, e⟩ := hw.bwd l' hl'
  exact ⟨d, hd, l, hl, e.1⟩

namespace Fsts

theorem bumpLiteral_release (n : Nat) {l : Literal} (h1 : 1 ≤ l.number) : ∃ l', bumpLiteral false n l = .ok l' ∧ l.Wraps n l' := by
  have e1 : (l.number != 0) = true := by simp; omega
  have key : ∀ m, m % 2147483648 = (l.number + n) % 2147483648 →
      ∃ l', ((Literal.new false m) >>= fun newLit => (pure (newLit.negateIfTrue l.isNegated) : Res Literal)) = .ok l' ∧ l.Wraps n l' := by
    intro m hm
    refine ⟨(⟨(m <<< 1) % u32Size⟩ : Literal).negateIfTrue l.isNegated, rfl, ?_, ?_⟩
    · rw [Literal.number_negateIfTrue, Literal.number_def, Nat.shiftLeft_eq, ← hm]
      unfold u32Size
      show m * 2 ^ 1 % 4294967296 / 2 = _
      omega
    · rw [Literal.isNegated_negateIfTrue, Literal.isNegated_def, Nat.shiftLeft_eq]
      unfold u32Size
      have : m * 2 ^ 1 % 4294967296 % 2 = 0 := by omega
      simp only [this]
      cases l.isNegated <;> rfl
  unfold bumpLiteral
  simp only [e1, assertR, if_true, ok_bind]
  unfold u32Add
  split
  · exact key _ rfl
  · simp only [Bool.false_eq_true, if_false, ok_bind]
    exact key _ (by unfold u32Size; omega)

theorem bumpClause_release (n : Nat) {d : Clause} (h : ∀ l ∈ d.lits, 1 ≤ l.number) : ∃ r, bumpClause false d n = .ok r ∧ d.Wraps n r := by
  have key : ∀ ls : List Literal, (∀ l ∈ ls, 1 ≤ l.number) → ∃ rs, ls.mapM (bumpLiteral false n) = .ok rs ∧
      (∀ l ∈ ls, ∃ l' ∈ rs, l.Wraps n l') ∧ ∀ l' ∈ rs, ∃ l ∈ ls, l.Wraps n l' := by
    intro ls
    induction ls with
    | nil => exact fun _ => ⟨[], rfl, by simp, by simp⟩
    | cons l ls ih =>
      intro hl
      obtain ⟨l', e, hw⟩ := bumpLiteral_release n (hl l (List.mem_cons_self ..))
      obtain ⟨rs, e2, hf, hb⟩ := ih fun x hx => hl x (List.mem_cons_of_mem _ hx)
      refine ⟨l' :: rs, by rw [List.mapM_cons, e, ok_bind, e2]; rfl, ?_, ?_⟩
      · intro x hx
        rcases List.mem_cons.1 hx with rfl | hx
        · exact ⟨l', List.mem_cons_self .., hw⟩
        · obtain ⟨y, hy, hxy⟩ := hf x hx; exact ⟨y, List.mem_cons_of_mem _ hy, hxy⟩
      · intro y hy
        rcases List.mem_cons.1 hy with rfl | hy
        · exact ⟨l, List.mem_cons_self .., hw⟩
        · obtain ⟨x, hx, hxy⟩ := hb y hy; exact ⟨x, List.mem_cons_of_mem _ hx, hxy⟩
  obtain ⟨rs, e, hf, hb⟩ := key d.iter h
  have hp : ∀ x, x ∈ (Clause.new rs).lits ↔ x ∈ rs := fun x => (sortBy_perm _ _).mem_iff
  refine ⟨Clause.new rs, by unfold bumpClause; rw [e]; rfl, Clause.sorted_new _, ?_, ?_⟩
  · intro l hl
    obtain ⟨y, hy, hxy⟩ := hf l hl
    exact ⟨y, (hp y).2 hy, hxy⟩
  · intro y hy
    exact hb y ((hp y).1 hy)

theorem bumpCnf_release (n : Nat) {g : CNF} (hg : g.WF) (h : ∀ d ∈ g.clauses, ∀ l ∈ d.lits, 1 ≤ l.number ∧ l.number < 2147483648) :
    ∃ r, bumpCnf false g n = .ok r ∧ g.Wraps n r := by
  unfold bumpCnf
  by_cases hn : n = 0
  · subst hn
    have self : ∀ d ∈ g.clauses, d.Wraps 0 d := fun d hd =>
      ⟨hg.sorted d hd, fun l hl => ⟨l, hl, (Nat.mod_eq_of_lt (h d hd l hl).2).symm, rfl⟩,
        fun l hl => ⟨l, hl, (Nat.mod_eq_of_lt (h d hd l hl).2).symm, rfl⟩⟩
    exact ⟨g, rfl, hg, fun d hd => ⟨d, hd, self d hd⟩, fun d hd => ⟨d, hd, self d hd⟩⟩
  · rw [if_neg (by simpa using hn)]
    have key : ∀ (cs : List Clause), (∀ d ∈ cs, ∀ l ∈ d.lits, 1 ≤ l.number) → ∀ acc : CNF, acc.WF →
        ∃ r, cs.foldlM (fun acc c => do return acc.addClause (← bumpClause false c n)) acc = .ok r ∧ r.WF ∧
          (∀ d ∈ acc.clauses, d ∈ r.clauses) ∧ (∀ d ∈ cs, ∃ d' ∈ r.clauses, d.Wraps n d') ∧
          ∀ d' ∈ r.clauses, d' ∈ acc.clauses ∨ ∃ d ∈ cs, d.Wraps n d' := by
      intro cs
      induction cs with
      | nil => exact fun _ acc ha => ⟨acc, rfl, ha, fun _ h => h, by simp, fun _ h => .inl h⟩
      | cons d cs ih =>
        intro hc acc ha
        obtain ⟨d', e, hw⟩ := bumpClause_release n (hc d (List.mem_cons_self ..))
        obtain ⟨r, e2, hr, h1, h2, h3⟩ := ih (fun x hx => hc x (List.mem_cons_of_mem _ hx)) (acc.addClause d') (ha.addClause hw.sorted)
        have hm : ∀ x, x ∈ (acc.addClause d').clauses ↔ x ∈ acc.clauses ∨ x = d' := fun x => CNF.mem_addClause
        refine ⟨r, by rw [List.foldlM_cons, e]; exact e2, hr, fun x hx => h1 x ((hm x).2 (.inl hx)), ?_, ?_⟩
        · intro x hx
          rcases List.mem_cons.1 hx with rfl | hx
          · exact ⟨d', h1 d' ((hm d').2 (.inr rfl)), hw⟩
          · exact h2 x hx
        · intro x hx
          rcases h3 x hx with hx | ⟨y, hy, hxy⟩
          · rcases (hm x).1 hx with hx | rfl
            · exact .inl hx
            · exact .inr ⟨d, List.mem_cons_self .., hw⟩
          · exact .inr ⟨y, List.mem_cons_of_mem _ hy, hxy⟩
    obtain ⟨r, e, hr, -, h2, h3⟩ := key g.iter (fun d hd l hl => (h d hd l hl).1) CNF.new CNF.WF.new
    refine ⟨r, e, hr, h2, fun d' hd' => ?_⟩
    rcases h3 d' hd' with hx | hx
    · cases hx
    · exact hx

theorem u32Mul_release (site : String) (a b : Nat) : ∃ n, u32Mul false site a b = .ok n ∧ n % 2147483648 = (a * b) % 2147483648 := by
  unfold u32Mul
  split
  · exact ⟨_, rfl, rfl⟩
  · exact ⟨_, rfl, by unfold u32Size; omega⟩

theorem Literal.Wraps.congr {m n : Nat} (h : m % 2147483648 = n % 2147483648) {l l' : Literal} (hw : l.Wraps m l') : l.Wraps n l' :=
  ⟨by rw [hw.1]; omega, hw.2⟩

theorem Clause.Wraps.congr {m n : Nat} (h : m % 2147483648 = n % 2147483648) {d r : Clause} (hw : d.Wraps m r) : d.Wraps n r :=
  ⟨hw.sorted, fun l hl => let ⟨l', h', e⟩ := hw.fwd l hl; ⟨l', h', Literal.Wraps.congr h e⟩,
    fun l hl => let ⟨l', h', e⟩ := hw.bwd l hl; ⟨l', h', Literal.Wraps.congr h e⟩⟩

theorem CNF.Wraps.congr {m n : Nat} (h : m % 2147483648 = n % 2147483648) {g r : CNF} (hw : g.Wraps m r) : g.Wraps n r :=
  ⟨hw.wf, fun l hl => let ⟨l', h', e⟩ := hw.fwd l hl; ⟨l', h', Clause.Wraps.congr h e⟩,
    fun l hl => let ⟨l', h', e⟩ := hw.bwd l hl; ⟨l', h', Clause.Wraps.congr h e⟩⟩

theorem addTagsToRelation_release (f : Fsts) {g : CNF} (tags : Nat) (hg : g.WF)
    (h : ∀ d ∈ g.clauses, ∀ l ∈ d.lits, 1 ≤ l.number ∧ l.number < 2147483648) :
    ∃ r, f.addTagsToRelation false g tags = .ok r ∧ g.Wraps (f.maxLiteral * tags) r := by
  obtain ⟨n, e, hn⟩ := u32Mul_release "features.rs:62 overflow" f.maxLiteral tags
  obtain ⟨r, e2, hw⟩ := bumpCnf_release n hg h
  exact ⟨r, by unfold addTagsToRelation; rw [e, ok_bind, e2], CNF.Wraps.congr hn hw⟩

theorem addTagsToClause_release (f : Fsts) {d : Clause} (tags : Nat) (hd : d.Sorted)
    (h : ∀ l ∈ d.lits, 1 ≤ l.number ∧ l.number < 2147483648) :
    ∃ r, f.addTagsToClause false d tags = .ok r ∧ d.Wraps (f.maxLiteral * tags) r := by
  unfold addTagsToClause
  by_cases h0 : tags = 0
  · subst h0
    exact ⟨d, rfl, hd, fun l hl => ⟨l, hl, (Nat.mod_eq_of_lt (h l hl).2).symm, rfl⟩,
        fun l hl => ⟨l, hl, (Nat.mod_eq_of_lt (h l hl).2).symm, rfl⟩⟩
  · rw [if_neg (by simpa using h0)]
    obtain ⟨n, e, hn⟩ := u32Mul_release "features.rs:86 overflow" f.maxLiteral tags
    obtain ⟨r, e2, hw⟩ := bumpClause_release n fun l hl => (h l hl).1
    exact ⟨r, by rw [e, ok_bind, e2], Clause.Wraps.congr hn hw⟩

theorem addTagsToCube_release (f : Fsts) {s : Cube} (tags : Nat) (h : ∀ l ∈ s.lits, 1 ≤ l.number ∧ l.number < 2147483648) :
    ∃ r, f.addTagsToCube false s tags = .ok r ∧ ∀ w, r.holds w ↔ s.holds (wrapped (f.maxLiteral * tags) w) := by
  unfold addTagsToCube
  by_cases h0 : tags = 0
  · subst h0
    refine ⟨s, rfl, fun w => ?_⟩
    have key : ∀ l ∈ s.lits, (l.holds w ↔ l.holds (wrapped (f.maxLiteral * 0) w)) := by
      intro l hl
      unfold Literal.holds wrapped
      rw [Nat.mul_zero, Nat.add_zero, Nat.mod_eq_of_lt (h l hl).2]
    exact ⟨fun H l hl => (key l hl).1 (H l hl), fun H l hl => (key l hl).2 (H l hl)⟩
  · rw [if_neg (by simpa using h0)]
    obtain ⟨n, e, hn⟩ := u32Mul_release "features.rs:73 overflow" f.maxLiteral tags
    obtain ⟨r, e2, hw⟩ := bumpClause_release n (d := s.not) fun l hl => by
      have := h _ (Cube.mem_not.1 hl)
      rw [Literal.number_not] at this
      exact this.1
    refine ⟨r.not, by rw [e, ok_bind, e2]; rfl, fun w => ?_⟩
    rw [Clause.holds_not, (Clause.Wraps.congr hn hw).holds, Cube.holds_not, Classical.not_not]

end Fsts

end Verif
