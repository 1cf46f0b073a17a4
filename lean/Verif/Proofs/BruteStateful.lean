import Verif.Proofs.Brute
import Verif.Spec.SolverContract

/-! # A verified incremental SAT solver

Not part of the modelled code; the same role as `Proofs/Brute`, for the back-end of the stateful MiniSat front-end. -/

namespace Verif.Brute

/-- Back-end variables start at 0. -/
def blit (l : BLit) : Literal := ⟨2 * (l.var + 1) + (if l.neg then 1 else 0)⟩

def bclauses (db : List (List BLit)) (asm : List BLit) : List (List Literal) := db.map (·.map blit) ++ asm.map (fun l => [blit l])

def bmax (cls : List (List Literal)) : Nat := cls.foldl (fun m c => c.foldl (fun m l => max m l.number) m) 0

/-- An exhaustive MiniSat back-end. -/
def ms : MsBackend := fun _ db asm =>
  match search (bmax (bclauses db asm)) (bclauses db asm) with
  | some t => some (fun x => decide (x + 1 ∈ t))
  | none => none

theorem foldl_max_ge (c : List Literal) (m : Nat) : m ≤ c.foldl (fun m l => max m l.number) m ∧
    ∀ l ∈ c, l.number ≤ c.foldl (fun m l => max m l.number) m := by
  induction c generalizing m with
  | nil => exact ⟨Nat.le_refl _, by simp⟩
  | cons a c ih =>
    obtain ⟨h1, h2⟩ := ih (max m a.number)
    simp only [List.foldl_cons]
    refine ⟨by omega, fun l hl => ?_⟩
    rcases List.mem_cons.1 hl with rfl | hl
    · omega
    · exact h2 l hl

theorem foldl_bmax_ge (cls : List (List Literal)) (m : Nat) :
    m ≤ cls.foldl (fun m c => c.foldl (fun m l => max m l.number) m) m ∧
    ∀ c ∈ cls, ∀ l ∈ c, l.number ≤ cls.foldl (fun m c => c.foldl (fun m l => max m l.number) m) m := by
  induction cls generalizing m with
  | nil => exact ⟨Nat.le_refl _, by simp⟩
  | cons a cls ih =>
    obtain ⟨h1, h2⟩ := ih (a.foldl (fun m l => max m l.number) m)
    have := foldl_max_ge a m
    simp only [List.foldl_cons]
    refine ⟨by omega, fun c hc l hl => ?_⟩
    rcases List.mem_cons.1 hc with rfl | hc
    · have := this.2 l hl; omega
    · exact h2 c hc l hl

theorem blit_number (l : BLit) : (blit l).number = l.var + 1 := by
  unfold blit Literal.number
  split <;> simp <;> omega

theorem blit_holds {v : Val} {β : Nat → Bool} (h : ∀ x, v (x + 1) = β x) (l : BLit) : (blit l).holds v ↔ l.holds β := by
  have hn : (blit l).isNegated = l.neg := by
    unfold blit Literal.isNegated
    cases l.neg <;> simp <;> omega
  unfold Literal.holds BLit.holds
  rw [blit_number, h, hn]

theorem bclauses_holds {v : Val} {β : Nat → Bool} (h : ∀ x, v (x + 1) = β x) (db : List (List BLit)) (asm : List BLit) :
    listHolds v (bclauses db asm) ↔ bClausesHold β db ∧ ∀ l ∈ asm, l.holds β := by
  unfold listHolds bclauses bClausesHold
  constructor
  · intro g
    refine ⟨fun c hc => ?_, fun l hl => ?_⟩
    · obtain ⟨l, hl, hv⟩ := g (c.map blit) (by simp; exact .inl ⟨c, hc, rfl⟩)
      obtain ⟨m, hm, rfl⟩ := List.mem_map.1 hl
      exact ⟨m, hm, (blit_holds h m).1 hv⟩
    · obtain ⟨m, hm, hv⟩ := g [blit l] (by simp; exact .inr ⟨l, hl, rfl⟩)
      rw [List.mem_singleton] at hm
      subst hm
      exact (blit_holds h l).1 hv
  · rintro ⟨g1, g2⟩ c hc
    rcases List.mem_append.1 hc with hc | hc
    · obtain ⟨d, hd, rfl⟩ := List.mem_map.1 hc
      obtain ⟨l, hl, hv⟩ := g1 d hd
      exact ⟨blit l, List.mem_map.2 ⟨l, hl, rfl⟩, (blit_holds h l).2 hv⟩
    · obtain ⟨l, hl, rfl⟩ := List.mem_map.1 hc
      exact ⟨_, List.mem_singleton.2 rfl, (blit_holds h l).2 (g2 l hl)⟩

theorem bclauses_below (db : List (List BLit)) (asm : List BLit) : Below (bmax (bclauses db asm)) (bclauses db asm) := by
  intro c hc l hl
  refine ⟨?_, (foldl_bmax_ge _ 0).2 c hc l hl⟩
  rcases List.mem_append.1 hc with hc | hc
  · obtain ⟨d, hd, rfl⟩ := List.mem_map.1 hc
    obtain ⟨m, hm, rfl⟩ := List.mem_map.1 hl
    rw [blit_number]; omega
  · obtain ⟨m, hm, rfl⟩ := List.mem_map.1 hc
    rw [List.mem_singleton] at hl
    subst hl
    rw [blit_number]; omega

theorem ms_ok : MsOK ms where
  unsat := by
    intro t db asm h β hβ
    have := search_spec _ _ (bclauses_below db asm)
    unfold ms at h
    cases hs : search (bmax (bclauses db asm)) (bclauses db asm) with
    | some t => rw [hs] at h; cases h
    | none =>
      rw [hs] at this
      exact this (fun x => β (x - 1)) ((bclauses_holds (fun x => by simp) db asm).2 hβ)
  sat := by
    intro t db asm m h
    have := search_spec _ _ (bclauses_below db asm)
    unfold ms at h
    cases hs : search (bmax (bclauses db asm)) (bclauses db asm) with
    | some t =>
      rw [hs] at h this
      cases h
      refine (bclauses_holds (v := fun x => decide (x ∈ t)) (fun x => rfl) db asm).1 (this.2 _ fun x _ _ => rfl)
    | none => rw [hs] at h; cases h

end Verif.Brute
