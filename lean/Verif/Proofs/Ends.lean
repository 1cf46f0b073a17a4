import Verif.Proofs.Hoare
import Verif.Spec.SolverContract

/-! # Calls that may fail in an allowed way -/

namespace Verif

variable {σ α β : Type} {F F' : Err → Prop}

theorem Ends.ok {x : Res α} {Q : α → Prop} (h : Ends (fun _ => False) x Q) : ∃ a, x = .ok a ∧ Q a := by
  cases x with
  | ok a => exact ⟨a, rfl, h⟩
  | error e => exact h.elim

theorem Ends.of_ok {x : Res α} {Q : α → Prop} {a : α} (h : x = .ok a) (hq : Q a) : Ends F x Q := by subst h; exact hq

theorem Ends.of_error {x : Res α} {Q : α → Prop} {e : Err} (h : x = .error e) (hq : F e) : Ends F x Q := by subst h; exact hq

theorem Ends.mono {x : Res α} {Q Q' : α → Prop} (h : Ends F x Q) (hF : ∀ e, F e → F' e) (hQ : ∀ a, Q a → Q' a) : Ends F' x Q' := by
  cases x with
  | ok a => exact hQ a h
  | error e => exact hF e h

theorem Ends.bind {x : Res α} {k : α → Res β} {P : α → Prop} {Q : β → Prop} (h : Ends F x P) (hk : ∀ a, x = .ok a → P a → Ends F (k a) Q) :
    Ends F (x >>= k) Q := by
  cases x with
  | ok a => exact hk a rfl h
  | error e => exact h

/-- Allow more failures. -/
def StatefulImpl.OK.weaken {I : StatefulImpl} (O : I.OK F) (hF : ∀ e, F e → F' e) : I.OK F' where
  Rep := O.Rep
  new := O.new
  addCnf := fun s cs f h1 h2 h3 h4 => (O.addCnf s cs f h1 h2 h3 h4).mono hF fun _ h => h
  solve := fun t s cs cube clause h1 h2 h3 h4 => (O.solve t s cs cube clause h1 h2 h3 h4).mono hF fun _ h => h

theorem GTri.ends {γ : Type} {J : σ → γ → Prop} {g : γ} {x : Res α} {P : α → Prop} (h : Ends F x P) :
    GTri F J g (liftM x : StateT σ Res α) (fun a g' => P a ∧ g' = g) := by
  cases x with
  | ok a => exact GTri.lift_ok rfl ⟨h, rfl⟩
  | error e => exact GTri.error h

theorem Post.lift_bind {x : Res α} {k : α → StateT σ Res β} {s : σ} {P : α → Prop} {Q : β → σ → Prop} (h : Ends F x P)
    (hk : ∀ a, P a → Post F Q (k a s)) : Post F Q (((liftM x : StateT σ Res α) >>= k) s) := by
  cases x with
  | ok a => exact hk a h
  | error e => exact h

end Verif
