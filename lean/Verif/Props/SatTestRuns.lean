import Verif.Props.SatTests

/-!
# C80: runs of the random test, and why it needs complete answers
-/

namespace Verif.Props

open Verif.SatTests

/-- `x1 ∨ x2`. -/
def either : CNF := CNF.new.addClause (Clause.new [⟨2⟩, ⟨4⟩])

/-- `x1 ∨ x2`, `¬x1`, `¬x2`. -/
def neither : CNF := (either.addClause (Clause.new [⟨3⟩])).addClause (Clause.new [⟨5⟩])

theorem either_ready : either.Ready 2147483647 :=
  CNF.Ready.new.addClause (Clause.sorted_new _) (by
    intro l hl
    rcases (by simpa using Clause.mem_new.1 hl : l = ⟨2⟩ ∨ l = ⟨4⟩) with rfl | rfl <;> exact ⟨by decide, by decide⟩)

theorem neither_ready : neither.Ready 2147483647 :=
  (either_ready.addClause (Clause.sorted_new _) (by
    intro l hl
    have : l = ⟨3⟩ := by simpa using Clause.mem_new.1 hl
    subst this
    exact ⟨by decide, by decide⟩)).addClause (Clause.sorted_new _) (by
    intro l hl
    have : l = ⟨5⟩ := by simpa using Clause.mem_new.1 hl
    subst this
    exact ⟨by decide, by decide⟩)

theorem run_either : testCnf true bruteBackends id either = .ok true := by decide +kernel
theorem run_neither : testCnf true bruteBackends List.reverse neither = .ok false := by decide +kernel

/-- C80_passes on a satisfiable and on an unsatisfiable CNF. -/
example : ∃ b, testCnf true bruteBackends id either = .ok b ∧ (b = true ↔ ∃ v, either.holds v) :=
  C80_passes true bruteBackends_ok (fun _ => .refl _) either_ready.good either_ready.wf (by decide)
example : ∃ b, testCnf false bruteBackends List.reverse neither = .ok b ∧ (b = true ↔ ∃ v, neither.holds v) :=
  C80_passes false bruteBackends_ok List.reverse_perm neither_ready.good neither_ready.wf (by decide)

/-- C80_sat. -/
example : ∃ v, either.holds v := (C80_sat (fun _ => .refl _) run_either).1

/-- C80_unsat. -/
example : ∀ v, ¬ neither.holds v :=
  C80_unsat neither_ready.good neither_ready.wf (by decide) (.inr (.inr (.inr (.inl Brute.ms_ok)))) run_neither

/-- A coin that says "more" once, on two variables: `¬x2` for the first clause, `x1` for the second. -/
def twoUnits : List Coins := [⟨(· == 0), fun _ => 3, fun _ => true⟩, ⟨fun _ => false, fun _ => 4, fun _ => false⟩]

/-- The second clause may be empty if two variables are not too many for that; otherwise a literal is drawn without asking the coin. -/
example : generateCnf true 2 2 5 twoUnits = .ok ((CNF.new.addClause (Clause.new [⟨5⟩])).addClause (Clause.new [])) ∧
    generateCnf true 2 1 5 twoUnits = .ok ((CNF.new.addClause (Clause.new [⟨5⟩])).addClause (Clause.new [⟨2⟩])) := by decide +kernel

/-- C80_generates. -/
example : ¬ ∃ R ∈ twoUnits, ∀ i, 0 < i → i < 5 → R.more i = true := by
  rintro ⟨R, hR, h⟩
  have := h 1 (by decide) (by decide)
  simp only [twoUnits, List.mem_cons, List.not_mem_nil, or_false] at hR
  rcases hR with rfl | rfl <;> simp at this

/-- C80_covers: the clauses of `neither`. -/
example : ∃ Rs, Rs.length = 3 ∧ generateCnf true 2 1 5 Rs = .ok neither :=
  C80_covers true (by decide) [[⟨2⟩, ⟨4⟩], [⟨3⟩], [⟨5⟩]] (by
    intro ls h
    simp only [List.mem_cons, List.not_mem_nil, or_false] at h
    rcases h with rfl | rfl | rfl <;> refine ⟨?_, by decide, fun _ => by simp⟩ <;> simp [Literal.Good, Literal.number])

/-- C80_test and C80_repeat: two repetitions. -/
theorem run_test : generateAndTest true id 2 2 5 twoUnits bruteBackends [bruteBackends, bruteBackends] = .ok false := by decide +kernel
example : ∃ f, generateCnf true 2 2 5 twoUnits = .ok f ∧ ∀ B' ∈ [bruteBackends, bruteBackends, bruteBackends], testCnf true B' id f = .ok false :=
  C80_repeat run_test
example : ∀ B' ∈ [bruteBackends, bruteBackends, bruteBackends], BackendsOK B' := by simp [bruteBackends_ok]

/-- Splr as the contract allows it: it leaves out a variable that does not matter. -/
def briefSplr : List (List Int) → SplrAnswer := fun cls => if cls = [[1, 2]] then .sat [2] else Brute.splr cls

theorem briefSplr_ok : SplrOK briefSplr where
  noErr := by
    intro cls h
    unfold briefSplr
    split
    · simp
    · exact Brute.splr_ok.noErr cls h
  empty := by
    intro cls h
    unfold briefSplr
    split
    · simp
    · exact Brute.splr_ok.empty cls h
  unsat := by
    intro cls h
    unfold briefSplr
    split
    · simp
    · exact Brute.splr_ok.unsat cls h
  sat := by
    intro cls m h
    unfold briefSplr
    split
    · rename_i hc
      intro hm
      have hm : m = [2] := by cases hm; rfl
      subst hc hm
      refine ⟨fun _ => true, ?_, ?_⟩
      · intro c hc
        have : c = [1, 2] := by simpa using hc
        subst this
        exact ⟨2, by simp, by simp [intHolds]⟩
      · intro x hx
        have : x = 2 := by simpa using hx
        subst this
        exact ⟨by decide, by decide, by simp [intHolds]⟩
    · exact Brute.splr_ok.sat cls m h

/-- C80: the test needs values for every variable.  A Splr that is right but leaves out a variable makes it panic, on `x1 ∨ x2`. -/
theorem C80_needs_values : ∃ B : Backends, SplrOK B.splr ∧ VarisatOK B.varisat ∧ CadicalOK B.cadical ∧ MsOK B.ms ∧ CdOK B.cd ∧
    testCnf true B id either = .error (.panic "formula_logic.rs:88 unwrap") :=
  ⟨⟨briefSplr, Brute.varisat, Brute.cadical, Brute.ms, Brute.cd⟩, briefSplr_ok, Brute.varisat_ok, Brute.cadical_ok, Brute.ms_ok, Brute.cd_ok,
    by decide +kernel⟩

/-- One back-end alone that is wrong makes it fail: here a MiniSat that never finds a model. -/
example : testCnf true ⟨Brute.splr, Brute.varisat, Brute.cadical, fun _ _ _ => none, Brute.cd⟩ id either =
    .error (.panic "tests/sat_solving.rs:97 Sat solvers disagree.") := by decide +kernel

end Verif.Props
