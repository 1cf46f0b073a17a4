import Verif.Base

/-! # When does a `Res` computation return? -/

namespace Verif

variable {α β σ τ : Type}

theorem bind_ok {x : Res α} {f : α → Res β} {y : β} : (x >>= f) = .ok y ↔ ∃ a, x = .ok a ∧ f a = .ok y := by
  cases x with
  | error e => simp [bind, Except.bind]
  | ok a => simp [bind, Except.bind]

theorem pure_ok {x y : α} : (pure x : Res α) = .ok y ↔ x = y := by simp [pure, Except.pure]

theorem ok_ok {x y : α} : (Except.ok x : Res α) = .ok y ↔ x = y := by simp

theorem panicR_ok {s : String} {y : α} : (panicR s : Res α) = .ok y ↔ False := by simp [panicR]

theorem unwrapR_ok {s : String} {o : Option α} {y : α} : unwrapR s o = .ok y ↔ o = some y := by
  cases o <;> simp [unwrapR, panicR]

theorem indexR_ok {s : String} {l : List α} {i : Nat} {y : α} : indexR s l i = .ok y ↔ l[i]? = some y := unwrapR_ok

theorem assertR_ok {s : String} {b : Bool} {u : Unit} : assertR s b = .ok u ↔ b = true := by
  cases b <;> simp [assertR, panicR]

theorem forM_ok {f : α → Res Unit} {l : List α} {u : Unit} : l.forM f = .ok u ↔ ∀ a ∈ l, f a = .ok () := by
  induction l with
  | nil => simp [pure, Except.pure]
  | cons x xs ih =>
    have e : (x :: xs).forM f = (f x >>= fun _ => xs.forM f) := rfl
    rw [e, bind_ok]
    simp only [List.mem_cons, forall_eq_or_imp]
    constructor
    · rintro ⟨_, h1, h2⟩; exact ⟨h1, ih.1 h2⟩
    · rintro ⟨h1, h2⟩; exact ⟨(), h1, ih.2 h2⟩

theorem mapM_ok_iff {f : α → Res β} {l : List α} {r : List β} :
    l.mapM f = .ok r ↔ r.length = l.length ∧ ∀ (i : Nat) a, l[i]? = some a → ∃ b, r[i]? = some b ∧ f a = .ok b := by
  induction l generalizing r with
  | nil =>
    rw [List.mapM_nil, pure_ok]
    constructor
    · rintro rfl; simp
    · rintro ⟨h, _⟩; exact (List.length_eq_zero_iff.1 h).symm
  | cons x xs ih =>
    rw [List.mapM_cons, bind_ok]
    constructor
    · rintro ⟨b, hb, h⟩
      rw [bind_ok] at h
      obtain ⟨bs, hbs, h⟩ := h
      rw [pure_ok] at h
      subst h
      obtain ⟨h1, h2⟩ := ih.1 hbs
      refine ⟨by simp [h1], ?_⟩
      intro i a ha
      cases i with
      | zero => simp at ha; subst ha; exact ⟨b, by simp, hb⟩
      | succ i => simp at ha ⊢; exact h2 i a ha
    · rintro ⟨h1, h2⟩
      cases r with
      | nil => simp at h1
      | cons b bs =>
        obtain ⟨b', hb', hf⟩ := h2 0 x (by simp)
        simp at hb'
        subst hb'
        refine ⟨b, hf, ?_⟩
        rw [bind_ok]
        refine ⟨bs, ih.2 ⟨by simpa using h1, ?_⟩, rfl⟩
        intro i a ha
        have := h2 (i + 1) a (by simpa using ha)
        simpa using this

/-- A counting loop that builds a list: `st xs` is the loop state after producing the items `xs`. -/
theorem foldlM_build {step : σ → Nat → Res σ} (st : List τ → σ) (R : Nat → τ → Prop) (n : Nat)
    (h : ∀ xs s', xs.length < n → (step (st xs) xs.length = .ok s' ↔ ∃ x, R xs.length x ∧ s' = st (xs ++ [x]))) (s' : σ) :
    (List.range n).foldlM step (st []) = .ok s' ↔
      ∃ xs, xs.length = n ∧ (∀ (i : Nat) x, xs[i]? = some x → R i x) ∧ s' = st xs := by
  induction n generalizing s' with
  | zero =>
    simp only [List.range_zero, List.foldlM_nil, pure_ok]
    constructor
    · rintro rfl; exact ⟨[], rfl, by simp, rfl⟩
    · rintro ⟨xs, h0, _, rfl⟩; rw [List.length_eq_zero_iff.1 h0]
  | succ n ih =>
    rw [List.range_succ, List.foldlM_append, bind_ok]
    simp only [List.foldlM_cons, List.foldlM_nil]
    have ih' := ih (fun xs s' hl => h xs s' (by omega))
    constructor
    · rintro ⟨s1, h1, h2⟩
      obtain ⟨xs, hl, hR, rfl⟩ := (ih' s1).1 h1
      rw [bind_ok] at h2
      obtain ⟨s2, h2, h3⟩ := h2
      rw [pure_ok] at h3
      subst h3
      rw [← hl] at h2
      obtain ⟨x, hx, rfl⟩ := (h xs s2 (by omega)).1 h2
      refine ⟨xs ++ [x], by simp [hl], ?_, rfl⟩
      intro i y hy
      rcases Nat.lt_trichotomy i xs.length with hi | hi | hi
      · rw [List.getElem?_append_left hi] at hy; exact hR i y hy
      · subst hi; simp at hy; subst hy; exact hx
      · rw [List.getElem?_eq_none (by simp; omega)] at hy; cases hy
    · rintro ⟨xs, hl, hR, rfl⟩
      obtain ⟨ys, x, rfl⟩ : ∃ ys x, xs = ys ++ [x] := by
        refine ⟨xs.dropLast, xs.getLast (by intro h; simp [h] at hl), ?_⟩
        exact (List.dropLast_concat_getLast _).symm
      have hl' : ys.length = n := by simpa using hl
      refine ⟨st ys, (ih' _).2 ⟨ys, hl', ?_, rfl⟩, ?_⟩
      · intro i y hy
        refine hR i y ?_
        have hi : i < ys.length := by
          rcases Nat.lt_or_ge i ys.length with hi | hi
          · exact hi
          · rw [List.getElem?_eq_none hi] at hy; cases hy
        rw [List.getElem?_append_left hi]; exact hy
      · rw [bind_ok]
        refine ⟨st (ys ++ [x]), ?_, rfl⟩
        rw [← hl']
        exact (h ys _ (by omega)).2 ⟨x, hR _ _ (by simp), rfl⟩

end Verif
