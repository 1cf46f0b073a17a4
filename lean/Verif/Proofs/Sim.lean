import Verif.Proofs.Follows

/-! # Related runs of computations with state -/

namespace Verif

variable {α β σ τ : Type} {F : Err → Prop} {P R : σ → τ → Prop}

/-- Related outcomes: same value and related states; same error unless it is in `F`. -/
def Rel (F : Err → Prop) (R : σ → τ → Prop) (p : Res (α × σ)) (q : Res (α × τ)) : Prop :=
  match p with
  | .ok (a, s) => ∃ t, q = .ok (a, t) ∧ R s t
  | .error e => F e ∨ q = .error e

/-- Started in states related by `P`, `y` does what `x` does and the final states are related by `R`. -/
def Sim (F : Err → Prop) (P R : σ → τ → Prop) (x : StateT σ Res α) (y : StateT τ Res α) : Prop :=
  ∀ s t, P s t → Rel F R (x s) (y t)

theorem Sim.pure (a : α) : Sim F R R (Pure.pure a) (Pure.pure a) := fun _ t h => ⟨t, rfl, h⟩

theorem Sim.pre {P' : σ → τ → Prop} {x : StateT σ Res α} {y : StateT τ Res α} (h : Sim F P R x y) (hp : ∀ s t, P' s t → P s t) :
    Sim F P' R x y := fun s t hs => h s t (hp s t hs)

theorem Sim.bind {S : σ → τ → Prop} {x : StateT σ Res α} {y : StateT τ Res α} {f : α → StateT σ Res β} {g : α → StateT τ Res β}
    (h : Sim F P S x y) (hk : ∀ a, Sim F S R (f a) (g a)) : Sim F P R (x >>= f) (y >>= g) := by
  intro s t hs
  have h1 := h s t hs
  show Rel F R (Except.bind (x s) fun p => f p.1 p.2) (Except.bind (y t) fun p => g p.1 p.2)
  match hx : x s, h1 with
  | .ok (a, s'), h1 =>
    obtain ⟨t', e, hr⟩ := h1
    rw [e]
    exact hk a s' t' hr
  | .error e, h1 =>
    rcases h1 with h1 | h1
    · exact .inl h1
    · rw [h1]; exact .inr rfl

theorem Sim.lift {x y : Res α} (h : Follows F x y) : Sim F R R (liftM x : StateT σ Res α) (liftM y : StateT τ Res α) := by
  intro s t hs
  cases x with
  | ok a =>
    have : y = .ok a := h
    subst this
    exact ⟨t, rfl, hs⟩
  | error e =>
    rcases h with h | h
    · exact .inl h
    · subst h; exact .inr rfl

/-- Two computations that lead to related values. -/
def Both (F : Err → Prop) (r : α → β → Prop) (x : Res α) (y : Res β) : Prop :=
  match x with
  | .ok a => ∃ b, y = .ok b ∧ r a b
  | .error e => F e ∨ y = .error e

theorem Sim.both {γ δ : Type} {r : γ → δ → Prop} {x : Res γ} {y : Res δ} {f : γ → StateT σ Res β} {g : δ → StateT τ Res β}
    (h : Both F r x y) (hk : ∀ a b, r a b → Sim F P R (f a) (g b)) :
    Sim F P R ((liftM x : StateT σ Res γ) >>= f) ((liftM y : StateT τ Res δ) >>= g) := by
  intro s t hs
  cases x with
  | ok a =>
    obtain ⟨b, e, hr⟩ := h
    subst e
    exact hk a b hr s t hs
  | error e =>
    rcases h with h | h
    · exact .inl h
    · subst h; exact .inr rfl

/-! ### Runs with related values -/

/-- Related outcomes, the values being related by `V`. -/
def RelV (F : Err → Prop) (V : α → β → Prop) (R : σ → τ → Prop) (p : Res (α × σ)) (q : Res (β × τ)) : Prop :=
  match p with
  | .ok (a, s) => ∃ b t, q = .ok (b, t) ∧ V a b ∧ R s t
  | .error e => F e ∨ q = .error e

/-- As `Sim`, with related values instead of the same value. -/
def SimV (F : Err → Prop) (V : α → β → Prop) (P R : σ → τ → Prop) (x : StateT σ Res α) (y : StateT τ Res β) : Prop :=
  ∀ s t, P s t → RelV F V R (x s) (y t)

theorem SimV.pure {V : α → β → Prop} {a : α} {b : β} (h : V a b) : SimV F V R R (Pure.pure a) (Pure.pure b) := fun _ t hs => ⟨b, t, rfl, h, hs⟩

theorem SimV.pre {V : α → β → Prop} {P' : σ → τ → Prop} {x : StateT σ Res α} {y : StateT τ Res β} (h : SimV F V P R x y)
    (hp : ∀ s t, P' s t → P s t) : SimV F V P' R x y := fun s t hs => h s t (hp s t hs)

theorem SimV.bindV {γ δ : Type} {V : α → β → Prop} {W : γ → δ → Prop} {S : σ → τ → Prop} {x : StateT σ Res α} {y : StateT τ Res β}
    {f : α → StateT σ Res γ} {g : β → StateT τ Res δ} (h : SimV F V P S x y) (hk : ∀ a b, V a b → SimV F W S R (f a) (g b)) :
    SimV F W P R (x >>= f) (y >>= g) := by
  intro s t hs
  have h1 := h s t hs
  show RelV F W R (Except.bind (x s) fun p => f p.1 p.2) (Except.bind (y t) fun p => g p.1 p.2)
  match hx : x s, h1 with
  | .ok (a, s'), h1 =>
    obtain ⟨b, t', e, hab, hr⟩ := h1
    rw [e]
    exact hk a b hab s' t' hr
  | .error e, h1 =>
    rcases h1 with h1 | h1
    · exact .inl h1
    · rw [h1]; exact .inr rfl

theorem Sim.toV {x : StateT σ Res α} {y : StateT τ Res α} (h : Sim F P R x y) : SimV F (fun a b => a = b) P R x y := by
  intro s t hs
  have h1 := h s t hs
  match hx : x s, h1 with
  | .ok (a, s'), ⟨t', e, hr⟩ => exact ⟨a, t', e, rfl, hr⟩
  | .error e, h1 => exact h1

theorem SimV.toSim {x : StateT σ Res α} {y : StateT τ Res α} (h : SimV F (fun a b => a = b) P R x y) : Sim F P R x y := by
  intro s t hs
  have h1 := h s t hs
  match hx : x s, h1 with
  | .ok (a, s'), ⟨b, t', e, hab, hr⟩ =>
    cases hab
    exact ⟨t', e, hr⟩
  | .error e, h1 => exact h1

theorem SimV.bind {γ : Type} {V : α → β → Prop} {S : σ → τ → Prop} {x : StateT σ Res α} {y : StateT τ Res β}
    {f : α → StateT σ Res γ} {g : β → StateT τ Res γ} (h : SimV F V P S x y) (hk : ∀ a b, V a b → Sim F S R (f a) (g b)) :
    Sim F P R (x >>= f) (y >>= g) :=
  (h.bindV fun a b hab => (hk a b hab).toV).toSim

theorem Sim.bindV {γ δ : Type} {W : γ → δ → Prop} {S : σ → τ → Prop} {x : StateT σ Res α} {y : StateT τ Res α}
    {f : α → StateT σ Res γ} {g : α → StateT τ Res δ} (h : Sim F P S x y) (hk : ∀ a, SimV F W S R (f a) (g a)) :
    SimV F W P R (x >>= f) (y >>= g) :=
  h.toV.bindV fun a b hab => by cases hab; exact hk a

theorem SimV.lift {V : α → β → Prop} {x : Res α} {y : Res β} (h : Both F V x y) :
    SimV F V R R (liftM x : StateT σ Res α) (liftM y : StateT τ Res β) := by
  intro s t hs
  cases x with
  | ok a =>
    obtain ⟨b, rfl, hab⟩ := h
    exact ⟨b, t, rfl, hab, hs⟩
  | error e =>
    rcases h with h | h
    · exact .inl h
    · subst h; exact .inr rfl

theorem SimV.both {γ δ α' β' : Type} {W : α' → β' → Prop} {r : γ → δ → Prop} {x : Res γ} {y : Res δ} {f : γ → StateT σ Res α'} {g : δ → StateT τ Res β'}
    (h : Both F r x y) (hk : ∀ a b, r a b → SimV F W P R (f a) (g b)) :
    SimV F W P R ((liftM x : StateT σ Res γ) >>= f) ((liftM y : StateT τ Res δ) >>= g) :=
  (SimV.lift h).bindV hk

theorem SimV.read {α' β' : Type} {W : α' → β' → Prop} {f : σ → StateT σ Res α'} {g : τ → StateT τ Res β'}
    (h : ∀ s t, P s t → SimV F W (fun s' t' => s' = s ∧ t' = t) R (f s) (g t)) :
    SimV F W P R ((get : StateT σ Res σ) >>= f) ((get : StateT τ Res τ) >>= g) :=
  fun s t hs => h s t hs s t ⟨rfl, rfl⟩

theorem Sim.read {f : σ → StateT σ Res β} {g : τ → StateT τ Res β}
    (h : ∀ s t, P s t → Sim F (fun s' t' => s' = s ∧ t' = t) R (f s) (g t)) :
    Sim F P R ((get : StateT σ Res σ) >>= f) ((get : StateT τ Res τ) >>= g) :=
  fun s t hs => h s t hs s t ⟨rfl, rfl⟩

theorem Sim.set {s' : σ} {t' : τ} (h : R s' t') : Sim F P R (MonadStateOf.set s' : StateT σ Res PUnit) (MonadStateOf.set t' : StateT τ Res PUnit) :=
  fun _ _ _ => ⟨t', rfl, h⟩

theorem Sim.same {x : Res α} : Sim F R R (liftM x : StateT σ Res α) (liftM x : StateT τ Res α) := Sim.lift (Follows.refl x)

/-- The first run may stop where the other goes on. -/
theorem Sim.fail {e : Err} (h : F e) {y : StateT τ Res α} : Sim F P R (liftM (.error e : Res α) : StateT σ Res α) y :=
  fun _ _ _ => .inl h

/-- The budgets agree, or running out of the first one is allowed. -/
def FuelLe (F : Err → Prop) (n m : Nat) : Prop := n = m ∨ (n ≤ m ∧ F .fuel)

theorem FuelLe.refl (n : Nat) : FuelLe F n n := .inl rfl

theorem FuelLe.pred {n m : Nat} (h : FuelLe F (n + 1) (m + 1)) : FuelLe F n m := by
  rcases h with h | ⟨h, hf⟩
  · exact .inl (by omega)
  · exact .inr ⟨by omega, hf⟩

theorem FuelLe.zero {m : Nat} (h : FuelLe F 0 m) : m = 0 ∨ F .fuel := by
  rcases h with h | ⟨_, hf⟩
  · exact .inl h.symm
  · exact .inr hf

theorem FuelLe.succ {n m : Nat} (h : FuelLe F (n + 1) m) : ∃ k, m = k + 1 ∧ FuelLe F n k := by
  cases m with
  | zero =>
    rcases h with h | ⟨h, _⟩ <;> omega
  | succ m => exact ⟨m, rfl, h.pred⟩

/-! ## Answers that differ only in how many variables they value -/

/-- The same values for the variables in `S`, or more values; the latter only if a missing value is an allowed failure. -/
def Assignment.Near (F : Err → Prop) (S : List Nat) (a b : Assignment) : Prop :=
  (∀ n ∈ S, a.getValue n = b.getValue n) ∨ (F (.panic "features.rs:107 unwrap") ∧ ∀ n x, a.getValue n = some x → b.getValue n = some x)

/-- The same answer up to that. -/
def SatResponse.Near (F : Err → Prop) (S : List Nat) : SatResponse → SatResponse → Prop
  | .unsat, .unsat => True
  | .sat a, .sat b => a.Near F S b
  | _, _ => False

theorem SatResponse.Near.refl {S : List Nat} (r : SatResponse) : r.Near F S r := by
  cases r with
  | unsat => trivial
  | sat a => exact .inl fun _ _ => rfl

theorem SatResponse.Near.of_eq {S : List Nat} {r q : SatResponse} (h : r = q) : r.Near F S q := h ▸ .refl r

theorem Res.mapM_congr {α β : Type} {f g : α → Res β} {l : List α} (h : ∀ a ∈ l, f a = g a) : l.mapM f = l.mapM g := by
  induction l with
  | nil => rfl
  | cons a l ih => rw [List.mapM_cons, List.mapM_cons, h a List.mem_cons_self, ih fun b hb => h b (List.mem_cons_of_mem _ hb)]

theorem Fsts.extractState_near {d d' : Bool} (h : Prof F d d') (f : Fsts) {a b : Assignment} (hn : a.Near F f.stateLits b) :
    Follows F (f.extractState d a) (f.extractState d' b) := by
  rcases hn with hn | ⟨hF, hn⟩
  · have e : f.stateLits.mapM (Fsts.stateLiteral d' b) = f.stateLits.mapM (Fsts.stateLiteral d' a) :=
      Res.mapM_congr fun n hn' => by unfold Fsts.stateLiteral; rw [hn n hn']
    have e' : f.extractState d' b = f.extractState d' a := by unfold Fsts.extractState; rw [e]
    rw [e']
    exact Fsts.extractState_prof h f a
  · refine (Follows.mapM (fun n => (h.follows (f := fun d => Literal.new d n) (Literal.new_prof n)).bind fun l => ?_) _).bind fun _ => Follows.refl _
    cases e : a.getValue n with
    | none => exact .inl hF
    | some x => rw [hn n x e]; exact Follows.refl _

/-! ## Lists of related elements -/

/-- Same length and related elements. -/
def Each {α β : Type} (r : α → β → Prop) (l : List α) (m : List β) : Prop :=
  l.length = m.length ∧ ∀ (i : Nat) a b, l[i]? = some a → m[i]? = some b → r a b

theorem Each.nil {α β : Type} {r : α → β → Prop} : Each r [] [] := ⟨rfl, by simp⟩

theorem Each.snoc {α β : Type} {r : α → β → Prop} {l : List α} {m : List β} {a : α} {b : β} (h : Each r l m) (hab : r a b) :
    Each r (l ++ [a]) (m ++ [b]) := by
  refine ⟨by simp [h.1], fun i x y hx hy => ?_⟩
  by_cases hi : i < l.length
  · rw [List.getElem?_append_left hi] at hx
    rw [List.getElem?_append_left (h.1 ▸ hi)] at hy
    exact h.2 i x y hx hy
  · have hl : i < (l ++ [a]).length := (List.getElem?_eq_some_iff.1 hx).1
    simp only [List.length_append, List.length_singleton] at hl
    have : i = l.length := by omega
    subst this
    rw [List.getElem?_concat_length] at hx
    rw [h.1, List.getElem?_concat_length] at hy
    cases hx; cases hy; exact hab

theorem Each.set {α β : Type} {r : α → β → Prop} {l : List α} {m : List β} {a : α} {b : β} (h : Each r l m) (hab : r a b) (i : Nat) :
    Each r (l.set i a) (m.set i b) := by
  refine ⟨by simp [h.1], fun j x y hx hy => ?_⟩
  rw [List.getElem?_set] at hx hy
  by_cases hij : i = j
  · rw [if_pos hij] at hx hy
    split at hx
    · split at hy
      · cases hx; cases hy; exact hab
      · cases hy
    · cases hx
  · rw [if_neg hij] at hx hy
    exact h.2 j x y hx hy

theorem Each.isEmpty {α β : Type} {r : α → β → Prop} {l : List α} {m : List β} (h : Each r l m) : l.isEmpty = m.isEmpty := by
  have := h.1
  cases l <;> cases m <;> simp_all

theorem Each.index {α β : Type} {r : α → β → Prop} {l : List α} {m : List β} (h : Each r l m) (site : String) (i : Nat) :
    Both F r (indexR site l i) (indexR site m i) := by
  unfold indexR
  by_cases hi : i < l.length
  · have hm : i < m.length := h.1 ▸ hi
    rw [List.getElem?_eq_getElem hi, List.getElem?_eq_getElem hm]
    exact ⟨m[i], rfl, h.2 i _ _ (List.getElem?_eq_getElem hi) (List.getElem?_eq_getElem hm)⟩
  · rw [List.getElem?_eq_none (by omega), List.getElem?_eq_none (by have := h.1; omega)]
    exact .inr rfl

end Verif
