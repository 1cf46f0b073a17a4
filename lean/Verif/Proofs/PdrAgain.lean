import Verif.Proofs.PdrVerdict

/-! # PDR: a second call of `prove` on one object -/

namespace Verif.PDR

open Fsts IC3

variable {sys : Fsts} {c : Circuit} {bads : List Nat}

theorem run_error_bind {σ α β : Type} {m : StateT σ Res α} {k : α → StateT σ Res β} {s : σ} {e : Err} (h : m s = .error e) :
    (m >>= k) s = .error e := by
  show Except.bind (m s) (fun p => k p.1 p.2) = _
  rw [h]
  rfl

/-- Where a second call ends. -/
def againSite (dbg : Bool) : String := if dbg then "pdr.rs:314" else "pdr.rs solver index"

theorem swapAt_isSome {α : Type} {l : List α} {i j : Nat} (hi : i < l.length) (hj : j < l.length) :
    ∃ l', swapAt l i j = some l' ∧ l'.length = l.length := by
  unfold swapAt
  rw [List.getElem?_eq_getElem hi, List.getElem?_eq_getElem hj]
  exact ⟨_, rfl, by simp⟩

/-- A second call never gets as far as its first question: there is one solver too few. -/
theorem prove_again {A : PDR I} {G : Err → Prop} (O : I.OK G) (S : SmallSys sys c bads) (hA : A.forms = formulas sys) {s : St I}
    {f : List (List Cube)} (hs : Inv O (formulas sys) s f) (hf : 2 ≤ f.length) (fuel : Nat) :
    Post (fun e => e = .panic (againSite A.dbg) ∨ G e) (fun _ _ => False) (A.prove (fuel + 1) s) := by
  obtain ⟨g, hg, hlen⟩ := swapAt_isSome (l := (f ++ [[]]) ++ [[]]) (i := (f ++ [[]]).length - 1) (j := (f ++ [[]]).length)
    (by simp) (by simp)
  have hl1 : s.notP.length = f.length - 1 := hs.len .notP
  have hl2 : s.ri.length = f.length - 1 := hs.len .ri
  have hl3 : s.riT.length = f.length - 1 := hs.len .riT
  have hglen : g.length = f.length + 2 := by rw [hlen]; simp
  have hemp : s.notP.isEmpty = false := by
    cases h : s.notP with
    | nil => rw [h] at hl1; simp at hl1; omega
    | cons a l => rfl
  have e : A.prove (fuel + 1) s = (do
      A.newFrameSolvers
      A.mainLoop (fuel + 1) (fuel + 1) : StateT (St I) Res ProofResult) { s with f := g } := by
    unfold prove
    rw [Stateful.run_get_bind]
    show (do A.newFrame; A.mainLoop (fuel + 1) (fuel + 1) : StateT (St I) Res ProofResult) { s with f := s.f ++ [[]] } = _
    have e2 : A.newFrame { s with f := s.f ++ [[]] } = A.newFrameSolvers { s with f := g } := by
      unfold newFrame
      rw [Stateful.run_get_bind]
      dsimp only
      rw [hs.f_eq, if_neg (by simp), run_lift_bind (a := g) (by rw [hg]; rfl)]
      rfl
    show (do let r ← A.newFrame { s with f := s.f ++ [[]] }; A.mainLoop (fuel + 1) (fuel + 1) r.2) = _
    rw [e2]
    rfl
  rw [e]
  show Post _ _ (do let r ← A.newFrameSolvers { s with f := g }; A.mainLoop (fuel + 1) (fuel + 1) r.2)
  unfold newFrameSolvers
  have chk : ∀ (site : String) (k : Nat) (t : St I), t.notP.length = t.ri.length → t.notP.length = t.riT.length →
      t.notP.length ≠ t.f.length - k → A.checkLengths site k t = if A.dbg then .error (.panic site) else .ok ((), t) := by
    intro site k t h1 h2 h3
    unfold checkLengths
    rw [Stateful.run_get_bind, ← h1, ← h2, run_lift_bind (a := ()) (Stateful.debugAssert_ok _ _ (by simp)),
      run_lift_bind (a := ()) (Stateful.debugAssert_ok _ _ (by simp)),
      show (t.notP.length == t.f.length - k) = false by simpa using h3, Bool.and_false]
    cases A.dbg <;> rfl
  cases hd : A.dbg with
  | true =>
    have := chk "pdr.rs:314" 2 { s with f := g } (by simp [hl1, hl2]) (by simp [hl1, hl3]) (by simp [hl1, hglen]; omega)
    rw [hd, if_pos rfl] at this
    rw [run_error_bind this]
    exact .inl rfl
  | false =>
    have h1 := chk "pdr.rs:314" 2 { s with f := g } (by simp [hl1, hl2]) (by simp [hl1, hl3]) (by simp [hl1, hglen]; omega)
    rw [hd, if_neg (by simp)] at h1
    rw [run_bind h1, Stateful.run_get_bind, if_neg (by simp [hemp]), hA]
    have ha := Stateful.addCnf_ok O O.new (base_ready S .notP 1)
    have ht := Stateful.addCnf_ok O O.new (base_ready S .riT 1)
    have e1 : base (formulas sys) .notP 1 = (formulas sys).riAndNotP := rfl
    have e3 : base (formulas sys) .riT 1 = (formulas sys).riAndT := rfl
    rw [e1] at ha
    rw [e3] at ht
    cases ea : I.addCnf (formulas sys).riAndNotP I.new with
    | error e => rw [ea] at ha; exact .inr ha
    | ok x =>
      cases et : I.addCnf (formulas sys).riAndT I.new with
      | error e => rw [et] at ht; exact .inr ht
      | ok y =>
        rw [run_lift_bind rfl, run_lift_bind rfl]
        generalize hs2 : ({ s with f := g, notP := s.notP ++ [x], ri := s.ri ++ [I.new], riT := s.riT ++ [y] } : St I) = s2
        have h2 := chk "pdr.rs:350" 1 s2 (by subst hs2; simp [hl1, hl2]) (by subst hs2; simp [hl1, hl3]) (by subst hs2; simp [hl1, hglen]; omega)
        rw [hd, if_neg (by simp)] at h2
        have h3 : ((do
            set s2
            A.checkLengths "pdr.rs:350" 1) : StateT (St I) Res Unit) { s with f := g } = .ok ((), s2) := h2
        have h4 : A.getBadCube s2 = .error (.panic "pdr.rs solver index") := by
          unfold getBadCube
          have hdep : depth s2 = .ok (f.length, s2) := by
            unfold depth
            rw [Stateful.run_get_bind]
            have : s2.f.length = f.length + 2 := by subst hs2; exact hglen
            rw [this, if_neg (by omega)]
            rfl
          rw [run_bind hdep]
          have hcall : call (I := I) .notP f.length none none s2 = .error (.panic "pdr.rs solver index") := by
            have : s2.notP[f.length]? = none := by
              rw [List.getElem?_eq_none]
              subst hs2
              simp [hl1]
              omega
            unfold call
            have hfr : fresh (I := I) s2 = .ok (s2.tick, { s2 with tick := s2.tick + 1 }) := rfl
            rw [run_bind hfr, Stateful.run_get_bind]
            refine run_error_bind ?_
            unfold indexR
            show (liftM (unwrapR "pdr.rs solver index" s2.notP[f.length]?) : StateT (St I) Res I.S) _ = _
            rw [this]
            rfl
          exact run_error_bind hcall
        show Post _ _ (do
          let r ← ((do
            set s2
            A.checkLengths "pdr.rs:350" 1) : StateT (St I) Res Unit) { s with f := g }
          A.mainLoop (fuel + 1) (fuel + 1) r.2)
        rw [h3]
        show Post _ _ (A.mainLoop (fuel + 1) (fuel + 1) s2)
        unfold mainLoop
        rw [run_error_bind h4]
        exact .inl rfl

/-- Whatever the first call returned, the second one panics. -/
theorem runTimes_again (dbg : Bool) {I : StatefulImpl} {G : Err → Prop} (O : I.OK G) {sched : Sched} (hsched : sched.OK)
    (S : SmallSys sys c bads) {n : Nat} {r : ProofResult} (m : Nat) (ns : List Nat) (hr : run dbg I sched sys n = .ok r) :
    Ends (fun e => e = .panic (againSite dbg) ∨ G e) (runTimes dbg I sched sys (n :: (m + 1) :: ns)) (fun _ => False) := by
  have h := prove_spec dbg (O.weaken (F' := fun e => Failure dbg c bads n e ∨ G e) fun _ h => .inr h) hsched S n fun _ h => .inl h
  generalize hA : (⟨dbg, sys, sched, formulas sys⟩ : PDR I) = A at h
  have hr' : (do let r ← A.prove n ⟨[], [], [], [], true, true, 0⟩; return r.1) = .ok r := by subst hA; exact hr
  have goal : runTimes dbg I sched sys (n :: (m + 1) :: ns) =
      (do let r ← A.proveTimes (n :: (m + 1) :: ns) ⟨[], [], [], [], true, true, 0⟩; return r.1) := by subst hA; rfl
  rw [goal]
  unfold proveTimes
  cases e : A.prove n ⟨[], [], [], [], true, true, 0⟩ with
  | error e' => rw [e] at hr'; cases hr'
  | ok p =>
    obtain ⟨r', s'⟩ := p
    rw [e] at h
    obtain ⟨f, hI, hf⟩ := h.2
    have hI' : Inv O (formulas sys) s' f := ⟨hI.f_eq, hI.len, hI.rep⟩
    have h2 := prove_again (A := A) O S (by subst hA; rfl) hI' hf m
    rw [show A.dbg = dbg by subst hA; rfl] at h2
    rw [run_bind e]
    unfold proveTimes
    cases e2 : A.prove (m + 1) s' with
    | ok p => rw [e2] at h2; exact h2.elim
    | error e' =>
      rw [e2] at h2
      rw [run_error_bind (run_error_bind e2)]
      exact h2

end Verif.PDR
