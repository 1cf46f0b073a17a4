import Verif.Spec.Sched

/-! # Lemmas on the priority queue and on `Vec` swaps -/

namespace Verif

namespace PQueue

variable {κ : Type} [DecidableEq κ]

theorem best_le (q : PQueue κ) : ∀ e ∈ q, best q ≤ e.2 := by
  induction q with
  | nil => simp
  | cons e es ih =>
    intro x hx
    cases es with
    | nil => simp at hx; subst hx; exact Nat.le_refl _
    | cons e' es =>
      show min e.2 (best (e' :: es)) ≤ x.2
      rcases List.mem_cons.1 hx with rfl | hx
      · omega
      · have := ih x hx; omega

theorem best_mem {q : PQueue κ} (h : q ≠ []) : ∃ e ∈ q, e.2 = best q := by
  induction q with
  | nil => exact absurd rfl h
  | cons e es ih =>
    cases es with
    | nil => exact ⟨e, by simp, rfl⟩
    | cons e' es =>
      show ∃ x ∈ e :: e' :: es, x.2 = min e.2 (best (e' :: es))
      obtain ⟨x, hx, hb⟩ := ih (by simp)
      by_cases hc : e.2 ≤ best (e' :: es)
      · exact ⟨e, by simp, by omega⟩
      · exact ⟨x, List.mem_cons_of_mem _ hx, by omega⟩

theorem push_of_notMem {q : PQueue κ} {k : κ} {n : Nat} (h : k ∉ q.map Prod.fst) : q.push k n = q ++ [(k, n)] := if_neg h

theorem filter_key_perm {q : PQueue κ} (hn : (q.map Prod.fst).Nodup) {e : κ × Nat} (he : e ∈ q) :
    q.Perm (e :: q.filter (fun x => x.1 != e.1)) := by
  induction q with
  | nil => simp at he
  | cons x xs ih =>
    simp only [List.map_cons, List.nodup_cons] at hn
    rcases List.mem_cons.1 he with rfl | he
    · have : xs.filter (fun y => y.1 != e.1) = xs := by
        rw [List.filter_eq_self]
        intro y hy
        simp only [bne_iff_ne, ne_eq]
        intro e'
        exact hn.1 (e' ▸ List.mem_map.2 ⟨y, hy, rfl⟩)
      simp [this]
    · have hne : x.1 ≠ e.1 := fun e' => hn.1 (e' ▸ List.mem_map.2 ⟨e, he, rfl⟩)
      rw [List.filter_cons_of_pos (by simpa using hne)]
      exact ((ih hn.2 he).cons x).trans (List.Perm.swap _ _ _)

/-- `pop` on a non-empty queue with distinct keys takes out an entry of least number. -/
theorem pop_spec {q : PQueue κ} (hn : (q.map Prod.fst).Nodup) (hne : q ≠ []) (choice : Nat) :
    ∃ e q', q.pop choice = some (e, q') ∧ q.Perm (e :: q') ∧ ∀ x ∈ q', e.2 ≤ x.2 := by
  unfold pop
  have hc : (q.filter (fun e => e.2 == best q)) ≠ [] := by
    obtain ⟨e, he, hb⟩ := best_mem hne
    intro h
    have : e ∈ q.filter (fun e => e.2 == best q) := List.mem_filter.2 ⟨he, by simp [hb]⟩
    rw [h] at this
    simp at this
  have hlen : choice % (q.filter (fun e => e.2 == best q)).length < (q.filter (fun e => e.2 == best q)).length :=
    Nat.mod_lt _ (List.length_pos_iff.2 hc)
  dsimp only
  rw [List.getElem?_eq_getElem hlen]
  have hm := List.getElem_mem hlen
  obtain ⟨h1, h2⟩ := List.mem_filter.1 hm
  refine ⟨_, _, rfl, filter_key_perm hn h1, ?_⟩
  intro x hx
  rw [beq_iff_eq.1 h2]
  exact best_le q x (List.mem_filter.1 hx).1

theorem pop_ne_none {q : PQueue κ} {choice : Nat} {e : κ × Nat} {q' : PQueue κ} (h : q.pop choice = some (e, q')) : e ∈ q := by
  unfold pop at h
  dsimp only at h
  split at h
  · rename_i x hx
    obtain ⟨h1, _⟩ := Prod.mk.inj (Option.some.inj h)
    subst h1
    exact (List.mem_filter.1 (List.mem_of_getElem? hx)).1
  · cases h

end PQueue

variable {α : Type}

theorem eraseIdx_perm (l : List α) (j : Nat) (x : α) (hj : l[j]? = some x) : l.Perm (x :: l.eraseIdx j) := by
  induction l generalizing j with
  | nil => simp at hj
  | cons a l ih =>
    cases j with
    | zero => simp at hj; subst hj; simp
    | succ j =>
      simp only [List.getElem?_cons_succ] at hj
      simp only [List.eraseIdx_cons_succ]
      exact ((ih j hj).cons a).trans (List.Perm.swap _ _ _)

/-- `swap_remove` takes out exactly the element at `j`. -/
theorem swapRemove_spec {l : List α} {j : Nat} (hj : j < l.length) : ∃ x rest, swapRemove l j = some (x, rest) ∧ l.Perm (x :: rest) := by
  have hne : l ≠ [] := by intro h; subst h; simp at hj
  obtain ⟨l', y, rfl⟩ : ∃ l' y, l = l' ++ [y] := ⟨l.dropLast, l.getLast hne, (List.dropLast_concat_getLast hne).symm⟩
  unfold swapRemove
  rw [List.getElem?_eq_getElem hj, List.getLast?_append]
  refine ⟨_, _, rfl, ?_⟩
  by_cases hlt : j < l'.length
  · have hx : (l' ++ [y])[j] = l'[j] := List.getElem_append_left hlt
    rw [hx]
    have e : ((l' ++ [y]).set j y).dropLast = l'.set j y := by
      rw [List.set_append_left _ _ hlt, List.dropLast_concat]
    show (l' ++ [y]).Perm (l'[j] :: ((l' ++ [y]).set j y).dropLast)
    rw [e]
    have h1 := eraseIdx_perm l' j l'[j] (List.getElem?_eq_getElem hlt)
    have h2 : (l'.set j y).Perm (y :: l'.eraseIdx j) := by
      have := eraseIdx_perm (l'.set j y) j y (by rw [List.getElem?_set_self]; simpa using hlt)
      rwa [List.eraseIdx_set_eq] at this
    refine (List.perm_append_comm.trans ?_)
    refine ((h1.cons y)).trans ((List.Perm.swap _ _ _).trans ?_)
    exact (h2.symm.cons _)
  · have hj' : j = l'.length := by simp at hj; omega
    subst hj'
    simp

/-- `swap` permutes. -/
theorem swapAt_spec {l : List α} {i j : Nat} (hi : i < l.length) (hj : j < l.length) : ∃ r, swapAt l i j = some r ∧ r.Perm l := by
  unfold swapAt
  rw [List.getElem?_eq_getElem hi, List.getElem?_eq_getElem hj]
  exact ⟨_, rfl, List.set_set_perm hi hj⟩

end Verif
