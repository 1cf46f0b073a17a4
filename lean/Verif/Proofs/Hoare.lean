import Verif.Model.Solver

/-!
# A small Hoare calculus for state + panic + fuel

`Tri F P m Q`: started in a state satisfying `P`, if the computation returns, `Q` holds; if it fails with the error `e` (a panic or
running out of model fuel), `F e` holds.  With `F := fun _ => False` it is total correctness.
-/

namespace Verif

variable {σ α β : Type}

/-- What may be said about one outcome. -/
def Post (F : Err → Prop) (Q : α → σ → Prop) : Res (α × σ) → Prop
  | .ok (a, s) => Q a s
  | .error e => F e

def Tri (F : Err → Prop) (P : σ → Prop) (m : StateT σ Res α) (Q : α → σ → Prop) : Prop :=
  ∀ s, P s → Post F Q (m s)

theorem Post.mono {F F' : Err → Prop} {Q Q' : α → σ → Prop} {r : Res (α × σ)} (h : Post F Q r)
    (hF : ∀ e, F e → F' e) (hQ : ∀ a s, Q a s → Q' a s) : Post F' Q' r := by
  match r, h with
  | .ok (a, s), h => exact hQ a s h
  | .error e, h => exact hF e h

theorem Tri.conseq {F F' : Err → Prop} {P P' : σ → Prop} {Q Q' : α → σ → Prop} {m : StateT σ Res α}
    (h : Tri F P m Q) (hP : ∀ s, P' s → P s) (hF : ∀ e, F e → F' e) (hQ : ∀ a s, Q a s → Q' a s) : Tri F' P' m Q' :=
  fun s hs => (h s (hP s hs)).mono hF hQ

theorem Tri.pre {F : Err → Prop} {P P' : σ → Prop} {Q : α → σ → Prop} {m : StateT σ Res α}
    (h : Tri F P m Q) (hP : ∀ s, P' s → P s) : Tri F P' m Q := h.conseq hP (fun _ h => h) (fun _ _ h => h)

theorem Tri.post {F : Err → Prop} {P : σ → Prop} {Q Q' : α → σ → Prop} {m : StateT σ Res α}
    (h : Tri F P m Q) (hQ : ∀ a s, Q a s → Q' a s) : Tri F P m Q' := h.conseq (fun _ h => h) (fun _ h => h) hQ

theorem Tri.pure {F : Err → Prop} {P : σ → Prop} {Q : α → σ → Prop} {a : α} (h : ∀ s, P s → Q a s) :
    Tri F P (Pure.pure a) Q := fun s hs => h s hs

theorem Tri.bind {F : Err → Prop} {P : σ → Prop} {R : α → σ → Prop} {Q : β → σ → Prop} {m : StateT σ Res α}
    {k : α → StateT σ Res β} (h : Tri F P m R) (hk : ∀ a, Tri F (R a) (k a) Q) : Tri F P (m >>= k) Q := by
  intro s hs
  have h1 := h s hs
  show Post F Q (Except.bind (m s) (fun p => k p.1 p.2))
  match hm : m s, h1 with
  | .ok (a, s'), h1 => exact hk a s' h1
  | .error e, h1 => exact h1

theorem Tri.get {F : Err → Prop} {P : σ → Prop} {Q : σ → σ → Prop} (h : ∀ s, P s → Q s s) :
    Tri F P (MonadState.get : StateT σ Res σ) Q := fun s hs => h s hs

theorem Tri.set {F : Err → Prop} {P : σ → Prop} {Q : PUnit → σ → Prop} {s' : σ} (h : ∀ s, P s → Q ⟨⟩ s') :
    Tri F P (MonadStateOf.set s' : StateT σ Res PUnit) Q := fun s hs => h s hs

theorem Tri.modify {F : Err → Prop} {P : σ → Prop} {Q : PUnit → σ → Prop} {f : σ → σ} (h : ∀ s, P s → Q ⟨⟩ (f s)) :
    Tri F P (modify f : StateT σ Res PUnit) Q := fun s hs => h s hs

/-- A pure `Res` computation lifted into the monad. -/
theorem Tri.lift {F : Err → Prop} {P : σ → Prop} {Q : α → σ → Prop} {r : Res α}
    (h : ∀ s, P s → Post F Q (r.map (fun a => (a, s)))) : Tri F P (liftM r : StateT σ Res α) Q := by
  intro s hs
  have := h s hs
  cases r with
  | ok a => exact this
  | error e => exact this

theorem Tri.lift_ok {F : Err → Prop} {P : σ → Prop} {Q : α → σ → Prop} {r : Res α} {a : α}
    (hr : r = .ok a) (h : ∀ s, P s → Q a s) : Tri F P (liftM r : StateT σ Res α) Q := by
  subst hr
  exact fun s hs => h s hs

theorem Tri.ite {F : Err → Prop} {P : σ → Prop} {Q : α → σ → Prop} {c : Prop} [Decidable c] {m n : StateT σ Res α}
    (h1 : c → Tri F P m Q) (h2 : ¬ c → Tri F P n Q) : Tri F P (if c then m else n) Q := by
  split
  · exact h1 ‹_›
  · exact h2 ‹_›

/-- Reason from a fact that does not depend on the state. -/
theorem Tri.of_pre {F : Err → Prop} {P : σ → Prop} {Q : α → σ → Prop} {m : StateT σ Res α} {A : Prop}
    (hA : ∀ s, P s → A) (h : A → Tri F P m Q) : Tri F P m Q := fun s hs => h (hA s hs) s hs

/-- Total correctness gives a result. -/
theorem Tri.total {P : σ → Prop} {Q : α → σ → Prop} {m : StateT σ Res α} (h : Tri (fun _ => False) P m Q) {s : σ} (hs : P s) :
    ∃ a s', m s = .ok (a, s') ∧ Q a s' := by
  have := h s hs
  match hm : m s, this with
  | .ok (a, s'), h => exact ⟨a, s', rfl, h⟩

/-- Partial correctness applied to a result. -/
theorem Tri.elim {F : Err → Prop} {P : σ → Prop} {Q : α → σ → Prop} {m : StateT σ Res α} (h : Tri F P m Q) {s s' : σ} {a : α}
    (hs : P s) (hm : m s = .ok (a, s')) : Q a s' := by
  have := h s hs
  rw [hm] at this
  exact this

/-! ## Triples over a ghost state

`GTri F I g m Q`: the concrete state represents the abstract state `g` (relation `I`); afterwards it represents some `g'` with `Q a g'`. -/

def GTri {γ : Type} (F : Err → Prop) (I : σ → γ → Prop) (g : γ) (m : StateT σ Res α) (Q : α → γ → Prop) : Prop :=
  Tri F (fun s => I s g) m (fun a s => ∃ g', I s g' ∧ Q a g')

namespace GTri

variable {γ : Type} {F : Err → Prop} {I : σ → γ → Prop} {g : γ}

theorem mono {m : StateT σ Res α} {Q Q' : α → γ → Prop} (h : GTri F I g m Q) (hQ : ∀ a g', Q a g' → Q' a g') : GTri F I g m Q' :=
  Tri.post h fun a _ ⟨g', hI, hq⟩ => ⟨g', hI, hQ a g' hq⟩

theorem weaken {F' : Err → Prop} {m : StateT σ Res α} {Q : α → γ → Prop} (h : GTri F I g m Q) (hF : ∀ e, F e → F' e) :
    GTri F' I g m Q := Tri.conseq h (fun _ h => h) hF (fun _ _ h => h)

theorem pure {a : α} {Q : α → γ → Prop} (h : Q a g) : GTri F I g (Pure.pure a : StateT σ Res α) Q :=
  fun _ hs => ⟨g, hs, h⟩

theorem bind {m : StateT σ Res α} {k : α → StateT σ Res β} {R : α → γ → Prop} {Q : β → γ → Prop} (h : GTri F I g m R)
    (hk : ∀ a g', R a g' → GTri F I g' (k a) Q) : GTri F I g (m >>= k) Q :=
  Tri.bind h fun a s ⟨g', hI, hr⟩ => hk a g' hr s hI

theorem lift_ok {r : Res α} {a : α} {Q : α → γ → Prop} (hr : r = .ok a) (h : Q a g) : GTri F I g (liftM r : StateT σ Res α) Q :=
  Tri.lift_ok hr fun _ hs => ⟨g, hs, h⟩

theorem lift {r : Res α} {Q : α → γ → Prop} (hok : ∀ a, r = .ok a → Q a g) (herr : ∀ e, r = .error e → F e) :
    GTri F I g (liftM r : StateT σ Res α) Q := by
  cases r with
  | ok a => exact lift_ok rfl (hok a rfl)
  | error e => exact fun _ _ => herr e rfl

theorem error {e : Err} {Q : α → γ → Prop} (h : F e) : GTri F I g (liftM (.error e : Res α) : StateT σ Res α) Q := fun _ _ => h

theorem ite {c : Prop} [Decidable c] {m n : StateT σ Res α} {Q : α → γ → Prop} (h1 : c → GTri F I g m Q) (h2 : ¬ c → GTri F I g n Q) :
    GTri F I g (if c then m else n) Q := by
  split
  · exact h1 ‹_›
  · exact h2 ‹_›

/-- Total correctness gives a result. -/
theorem elim {m : StateT σ Res α} {Q : α → γ → Prop} (h : GTri F I g m Q) {s : σ} (hs : I s g) :
    (∃ a s' g', m s = .ok (a, s') ∧ I s' g' ∧ Q a g') ∨ ∃ e, m s = .error e ∧ F e := by
  have := h s hs
  match hm : m s, this with
  | .ok (a, s'), ⟨g', h1, h2⟩ => exact .inl ⟨a, s', g', rfl, h1, h2⟩
  | .error e, h => exact .inr ⟨e, rfl, h⟩

end GTri

end Verif
