import Verif.Proofs.BruteStateful

/-! # Verified back-ends that take DIMACS clauses

Not part of the modelled code; the same role as `Proofs/Brute`, for the back-ends of the front-ends that pass signed integers. -/

namespace Verif.Brute

def ilit (x : Int) : Literal := ⟨2 * x.natAbs + (if x < 0 then 1 else 0)⟩

def iclauses (cls : List (List Int)) : List (List Literal) := cls.map (·.map ilit)

/-- The largest variable and the true variables of a model. -/
def imax (cls : List (List Int)) : Nat := bmax (iclauses cls)

def isearch (cls : List (List Int)) : Option (List Nat) := search (imax cls) (iclauses cls)

theorem ilit_number (x : Int) : (ilit x).number = x.natAbs := by
  unfold ilit Literal.number
  split <;> simp <;> omega

theorem ilit_holds {v : Val} {x : Int} (hx : x ≠ 0) : (ilit x).holds v ↔ intHolds v x := by
  have hn : (ilit x).isNegated = decide (x < 0) := by
    unfold ilit Literal.isNegated
    by_cases h : x < 0 <;> simp [h] <;> omega
  unfold Literal.holds intHolds
  rw [ilit_number, hn]
  by_cases h : x < 0
  · have h' : ¬ 0 < x := by omega
    simp [h, h']
  · have h' : 0 < x := by omega
    simp [h, h']

theorem iclauses_holds {v : Val} {cls : List (List Int)} (h : InI32 cls) : listHolds v (iclauses cls) ↔ intClausesHold v cls := by
  unfold listHolds iclauses intClausesHold
  constructor
  · intro g c hc
    obtain ⟨l, hl, hv⟩ := g (c.map ilit) (List.mem_map.2 ⟨c, hc, rfl⟩)
    obtain ⟨x, hx, rfl⟩ := List.mem_map.1 hl
    exact ⟨x, hx, (ilit_holds (h c hc x hx).1).1 hv⟩
  · intro g c hc
    obtain ⟨d, hd, rfl⟩ := List.mem_map.1 hc
    obtain ⟨x, hx, hv⟩ := g d hd
    exact ⟨ilit x, List.mem_map.2 ⟨x, hx, rfl⟩, (ilit_holds (h d hd x hx).1).2 hv⟩

theorem iclauses_below {cls : List (List Int)} (h : InI32 cls) : Below (imax cls) (iclauses cls) := by
  intro c hc l hl
  refine ⟨?_, (foldl_bmax_ge _ 0).2 c hc l hl⟩
  obtain ⟨d, hd, rfl⟩ := List.mem_map.1 hc
  obtain ⟨x, hx, rfl⟩ := List.mem_map.1 hl
  have := (h d hd x hx).1
  rw [ilit_number]; omega

theorem foldl_max_attained (c : List Literal) (m : Nat) : c.foldl (fun m l => max m l.number) m = m ∨
    ∃ l ∈ c, l.number = c.foldl (fun m l => max m l.number) m := by
  induction c generalizing m with
  | nil => exact .inl rfl
  | cons a c ih =>
    simp only [List.foldl_cons]
    rcases ih (max m a.number) with h | ⟨l, hl, h⟩
    · by_cases hm : a.number ≤ m
      · left; rw [h]; omega
      · right; exact ⟨a, by simp, by rw [h]; omega⟩
    · exact .inr ⟨l, by simp [hl], h⟩

theorem foldl_bmax_attained (cls : List (List Literal)) (m : Nat) :
    cls.foldl (fun m c => c.foldl (fun m l => max m l.number) m) m = m ∨
    ∃ c ∈ cls, ∃ l ∈ c, l.number = cls.foldl (fun m c => c.foldl (fun m l => max m l.number) m) m := by
  induction cls generalizing m with
  | nil => exact .inl rfl
  | cons a cls ih =>
    simp only [List.foldl_cons]
    rcases ih (a.foldl (fun m l => max m l.number) m) with h | ⟨c, hc, l, hl, h⟩
    · rcases foldl_max_attained a m with h' | ⟨l, hl, h'⟩
      · left; rw [h, h']
      · right; exact ⟨a, by simp, l, hl, by rw [h, h']⟩
    · exact .inr ⟨c, by simp [hc], l, hl, h⟩

theorem imax_isMax (cls : List (List Int)) : IsMaxVar cls (imax cls) := by
  refine ⟨fun c hc x hx => ?_, ?_⟩
  · have := (foldl_bmax_ge (iclauses cls) 0).2 (c.map ilit) (List.mem_map.2 ⟨c, hc, rfl⟩) (ilit x) (List.mem_map.2 ⟨x, hx, rfl⟩)
    rw [ilit_number] at this
    exact this
  · rcases foldl_bmax_attained (iclauses cls) 0 with h | ⟨c, hc, l, hl, h⟩
    · exact .inl h
    · obtain ⟨d, hd, rfl⟩ := List.mem_map.1 hc
      obtain ⟨x, hx, rfl⟩ := List.mem_map.1 hl
      rw [ilit_number] at h
      exact .inr ⟨d, hd, x, hx, h⟩

theorem imax_lt {cls : List (List Int)} (h : InI32 cls) : imax cls < 2147483648 := by
  rcases (imax_isMax cls).2 with h0 | ⟨c, hc, x, hx, e⟩
  · omega
  · rw [← e]; exact (h c hc x hx).2

theorem isearch_none {cls : List (List Int)} (h : InI32 cls) (e : isearch cls = none) (v : Val) : ¬ intClausesHold v cls := by
  have := search_spec _ _ (iclauses_below h)
  unfold isearch at e
  rw [e] at this
  exact fun hv => this v ((iclauses_holds h).2 hv)

theorem isearch_some {cls : List (List Int)} (h : InI32 cls) {t : List Nat} (e : isearch cls = some t) (v : Val)
    (hv : ∀ x, 1 ≤ x → x ≤ imax cls → v x = decide (x ∈ t)) : intClausesHold v cls := by
  have := search_spec _ _ (iclauses_below h)
  unfold isearch at e
  rw [e] at this
  exact (iclauses_holds h).1 (this.2 v hv)

/-- An exhaustive `cadical`. -/
def cadical (cls : List (List Int)) : CadicalAnswer :=
  match isearch cls with
  | some t => ⟨some true, imax cls, fun n => some (decide (n ∈ t))⟩
  | none => ⟨some false, imax cls, fun _ => none⟩

theorem cadical_ok : CadicalOK cadical where
  decided := by intro cls _; unfold cadical; split <;> simp
  unsat := by
    intro cls h e
    unfold cadical at e
    split at e
    · simp at e
    · rename_i hs; exact isearch_none h hs
  sat := by
    intro cls h e v hv
    unfold cadical at e hv
    split at e
    · rename_i t hs
      rw [hs] at hv
      exact isearch_some h hs v fun x _ _ => hv x _ rfl
    · simp at e
  maxVar := by
    intro cls _
    have : (cadical cls).maxVariable = imax cls := by unfold cadical; split <;> rfl
    rw [this]; exact imax_isMax cls

/-- The model as a list of signed variables. -/
def imodel (n : Nat) (t : List Nat) : List Int := (List.range' 1 n).map fun x => if x ∈ t then (x : Int) else -(x : Int)

theorem imodel_holds {n : Nat} {t : List Nat} (hn : n < 2147483648) {x : Int} (hx : x ∈ imodel n t) :
    x ≠ 0 ∧ -2 ^ 31 < x ∧ x < 2 ^ 31 ∧ intHolds (fun y => decide (y ∈ t)) x := by
  obtain ⟨y, hy, rfl⟩ := List.mem_map.1 hx
  rw [List.mem_range'_1] at hy
  unfold intHolds
  by_cases h : y ∈ t
  · simp [h]; omega
  · simp [h]; omega

theorem imodel_total (cls : List (List Int)) (t : List Nat) : ModelTotal cls (imodel (imax cls) t) := by
  rintro n h1 ⟨c, hc, x, hx, h2⟩
  have := (imax_isMax cls).1 c hc x hx
  have hmem : (if n ∈ t then (n : Int) else -(n : Int)) ∈ imodel (imax cls) t :=
    List.mem_map.2 ⟨n, by rw [List.mem_range'_1]; omega, rfl⟩
  by_cases h : n ∈ t
  · rw [if_pos h] at hmem; exact .inl hmem
  · rw [if_neg h] at hmem; exact .inr hmem

/-- An exhaustive `splr`. -/
def splr (cls : List (List Int)) : SplrAnswer :=
  if [] ∈ cls then .errEmptyClause
  else match isearch cls with
    | some t => .sat (imodel (imax cls) t)
    | none => .unsat

theorem splr_ok : SplrOK splr where
  noErr := by
    intro cls _
    unfold splr
    split
    · simp
    · split <;> simp
  empty := by
    intro cls _ e
    unfold splr at e
    split at e
    · assumption
    · split at e <;> simp at e
  unsat := by
    intro cls h e
    unfold splr at e
    split at e
    · simp at e
    · split at e
      · simp at e
      · rename_i hs; exact isearch_none h hs
  sat := by
    intro cls m h e
    unfold splr at e
    split at e
    · simp at e
    · split at e
      · rename_i t hs
        cases e
        refine ⟨fun y => decide (y ∈ t), isearch_some h hs _ fun _ _ _ => rfl, fun x hx => ?_⟩
        have := imodel_holds (imax_lt h) hx
        exact ⟨this.1, this.2.1, this.2.2.2⟩
      · simp at e

theorem splr_total : SplrTotal splr := by
  intro cls m _ e
  unfold splr at e
  split at e
  · simp at e
  · split at e
    · cases e; exact imodel_total cls _
    · simp at e

/-- An exhaustive `varisat`. -/
def varisat (cls : List (List Int)) : VarisatAnswer :=
  match isearch cls with
  | some t => .sat (some (imodel (imax cls) t))
  | none => .unsat

theorem varisat_ok : VarisatOK varisat where
  noErr := by intro cls _; unfold varisat; split <;> simp
  unsat := by
    intro cls h e
    unfold varisat at e
    split at e
    · simp at e
    · rename_i hs; exact isearch_none h hs
  sat := by
    intro cls m h e
    unfold varisat at e
    split at e
    · rename_i t hs
      cases e
      exact ⟨fun y => decide (y ∈ t), isearch_some h hs _ fun _ _ _ => rfl, fun x hx => imodel_holds (imax_lt h) hx⟩
    · simp at e

theorem varisat_total : VarisatTotal varisat := by
  intro cls m _ e
  unfold varisat at e
  split at e
  · cases e; exact imodel_total cls _
  · simp at e

/-- The clauses together with the assumptions. -/
def under (db : List (List Int)) (asm : List Int) : List (List Int) := db ++ asm.map ([·])

theorem under_i32 {db : List (List Int)} {asm : List Int} (h1 : InI32 db) (h2 : InI32 [asm]) : InI32 (under db asm) := by
  intro c hc x hx
  rcases List.mem_append.1 hc with hc | hc
  · exact h1 c hc x hx
  · obtain ⟨y, hy, rfl⟩ := List.mem_map.1 hc
    cases List.mem_singleton.1 hx
    exact h2 asm (by simp) _ hy

theorem under_holds {db : List (List Int)} {asm : List Int} {β : Nat → Bool} :
    intClausesHold β (under db asm) ↔ intClausesHold β db ∧ ∀ x ∈ asm, intHolds β x := by
  constructor
  · intro h
    refine ⟨fun c hc => h c (List.mem_append_left _ hc), fun x hx => ?_⟩
    obtain ⟨y, hy, hh⟩ := h [x] (List.mem_append_right _ (List.mem_map.2 ⟨x, hx, rfl⟩))
    cases List.mem_singleton.1 hy
    exact hh
  · rintro ⟨h1, h2⟩ c hc
    rcases List.mem_append.1 hc with hc | hc
    · exact h1 c hc
    · obtain ⟨y, hy, rfl⟩ := List.mem_map.1 hc
      exact ⟨y, by simp, h2 y hy⟩

/-- An exhaustive `cadical` used incrementally. -/
def cd : CdBackend := fun _ db asm =>
  match isearch (under db asm) with
  | some t => (some true, fun x => some (decide (x.natAbs ∈ t) == decide (0 < x)))
  | none => (some false, fun _ => none)

theorem cd_ok : CdOK cd where
  decided := by intro t db asm _ _; unfold cd; split <;> simp
  unsat := by
    intro t db asm h1 h2 e β hβ
    unfold cd at e
    split at e
    · simp at e
    · rename_i hs; exact isearch_none (under_i32 h1 h2) hs β (under_holds.2 hβ)
  sat := by
    intro t db asm h1 h2 e β hβ
    unfold cd at e hβ
    split at e
    · rename_i m hs
      rw [hs] at hβ
      refine under_holds.1 (isearch_some (under_i32 h1 h2) hs β fun x hx _ => ?_)
      have := hβ (x : Int) _ rfl
      unfold intHolds at this
      have hp : (0 : Int) < x := by omega
      simp at this
      by_cases hm : x ∈ m <;> simp_all
    · simp at e
  consistent := by
    intro t db asm _ _ e
    unfold cd at e ⊢
    split at e
    · rename_i m hs
      refine ⟨fun y => decide (y ∈ m), ?_⟩
      rintro x b hb
      cases hb
      unfold intHolds
      simp
    · simp at e

theorem cd_total : CdTotal cd := by
  intro t db asm _ _ e n _ c _ y _ _
  unfold cd at e ⊢
  split at e
  · rename_i m hs
    rfl
  · simp at e

end Verif.Brute
