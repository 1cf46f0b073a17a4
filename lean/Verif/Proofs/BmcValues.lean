import Verif.Proofs.Bmc

/-!
# The variables that a counterexample of BMC values
-/

namespace Verif.BMC

open Verif.Fsts

variable {f : Fsts} {c : Circuit} {bads : List Nat}

/-- The assignment in a result is the answer to the formula of its depth. -/
theorem searchLoop_asked {dbg : Bool} {env : Env} {clock : Clock} {initial : Cube} {notP0 tr : CNF} {limit : Nat} {a : Assignment} {d : Nat} (n : Nat) :
    ∀ (depth t t' : Nat), searchLoop dbg env clock f initial notP0 tr limit n depth t = .ok (.ctx a d, t') →
      d < depth + n ∧ ∃ g t0, satFormula dbg f initial notP0 tr d = .ok g ∧ env.solve t0 g = .ok (.sat a) := by
  induction n with
  | zero =>
    intro depth t t' hs
    unfold searchLoop at hs
    obtain ⟨k, _, hs⟩ := run_lift_inv hs
    cases hs
  | succ n ih =>
    intro depth t t' hs
    unfold searchLoop at hs
    split at hs
    · obtain ⟨k, _, hs⟩ := run_lift_inv hs
      cases hs
    · obtain ⟨g, hg, hs⟩ := run_lift_inv hs
      cases hf : clock.finished depth with
      | false =>
        rw [run_bind (m := timedSatCall env clock depth g) (a := TimedSatResult.timeOut) (s' := t + 1) (by rw [timedSatCall_run, hf]; rfl)] at hs
        obtain ⟨k, _, hs⟩ := run_lift_inv hs
        cases hs
      | true =>
        cases hj : env.solve t g with
        | error e =>
          have : ∃ e', timedSatCall env clock depth g t = .error e' := by
            rw [timedSatCall_run, hf, hj]
            cases e <;> exact ⟨_, rfl⟩
          obtain ⟨e', he'⟩ := this
          have hs : Except.bind (timedSatCall env clock depth g t) _ = _ := hs
          rw [he'] at hs
          cases hs
        | ok r =>
          rw [run_bind (timedSatCall_ok hj), hf] at hs
          cases r with
          | sat a' =>
            have := congrArg Prod.fst (Except.ok.inj hs)
            simp only at this
            cases this
            exact ⟨by omega, g, t, hg, hj⟩
          | unsat =>
            obtain ⟨h1, h2⟩ := ih (depth + 1) (t + 1) t' hs
            exact ⟨by omega, h2⟩

/-- The formula of depth `d` mentions each bad literal at frame `d`. -/
theorem satFormula_reach {V : Nat} {dbg : Bool} {limit depth : Nat} (h : Sys f c bads) (hr : InRange V dbg c limit) (hd : depth ≤ limit) {g : CNF}
    (he : satFormula dbg f f.initialStates (notP0 f) f.transition depth = .ok g) {b : Nat} (hb : b ∈ bads) : b / 2 + c.maxVar * depth ≤ g.maxVar := by
  have hg := (satFormula_inv h hr hd he).1
  obtain ⟨hV, hr⟩ := hr
  unfold satFormula at he
  rw [bind_ok] at he
  obtain ⟨g1, h1, he⟩ := he
  rw [bind_ok] at he
  obtain ⟨r, hr', he⟩ := he
  have := Except.ok.inj he
  subst this
  obtain ⟨e, _⟩ := tag_inv (notP0_ready h).good (notP0_wf h) hV (hr.imp id fun hr => by
    have h1 : c.maxVar * (depth + 1) ≤ c.maxVar * (limit + 1) := Nat.mul_le_mul_left _ (by omega)
    have h2 := notP0_max h
    rw [Nat.mul_add] at h1
    rw [h.laws.maxLit]; omega) hr'
  have hl : Literal.mk b ∈ f.unsafety.lits := by
    rw [h.laws.unsafety, Clause.mem_new]
    exact List.mem_map.2 ⟨b, hb, rfl⟩
  have hmem : f.unsafety.shift (f.maxLiteral * depth) ∈ (g1.append r).clauses := by
    rw [CNF.mem_append]
    refine .inr ?_
    rw [e, CNF.mem_shift]
    refine ⟨f.unsafety, CNF.mem_append.2 (.inl ?_), rfl⟩
    simp [Clause.toCnf, CNF.addClause, CNF.new, setInsert]
  have := hg.wf.le_max _ hmem ((Literal.mk b).shift (f.maxLiteral * depth)) (List.mem_map.2 ⟨_, hl, rfl⟩)
  rw [Literal.number_shift, h.laws.maxLit] at this
  exact this

/-- A solver that values every variable of the formula values all variables up to the bad literals of the last frame. -/
theorem search_values {V : Nat} {dbg : Bool} {env : Env} (he : env.OK V) {clock : Clock} {limit : Nat} (h : Sys f c bads) (hl : limit < 4294967296)
    (hr : InRange V dbg c limit) {t t' : Nat} {a : Assignment} {d : Nat} (hs : search dbg env clock f limit t = .ok (.ctx a d, t'))
    {b : Nat} (hb : b ∈ bads) {x : Nat} (h1 : 1 ≤ x) (h2 : x ≤ b / 2 + c.maxVar * d) : (a.getValue x).isSome := by
  have hd : d ≤ limit := (search_inv he.correct h hl hr hs).2.1
  unfold search at hs
  obtain ⟨n, _, hs⟩ := run_lift_inv hs
  obtain ⟨_, g, t0, hg, hsol⟩ := searchLoop_asked n 0 t t' hs
  have hR := (satFormula_inv h hr hd hg).1
  obtain ⟨r, e, hA⟩ := he.solve t0 g hR.wf hR.good
  rw [hsol] at e
  cases e
  exact hA.2 x h1 (Nat.le_trans h2 (satFormula_reach h hr hd hg hb))

end Verif.BMC
