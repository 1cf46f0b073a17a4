import Verif.Spec.Obligations
import Verif.Props.Ic3Steps

/-!
# Property C70: `push_generalization`
-/

namespace Verif.Props

open Verif.Fsts Verif.IC3 Verif.Ic3Spec

variable {f : Fsts} {c : Circuit} {ob : Bool} {σ : Type} {A : IC3 σ} {Inv : σ → List CNF → Prop} {fs : List CNF} {bads : List Nat}

/-- A cube that names the state of `v` is the cube that `extract_state_from_assignment` makes. -/
theorem state_eq {s : Cube} {v : Val} (hs : StateCube c s) (h : IsState c v s) : s = stateCube c v := by
  have hm : ∀ l, l ∈ s.iter ↔ l ∈ (stateCube c v).iter := fun l => (h l).trans (isState_stateCube l).symm
  have hn : (stateCube c v).iter.Nodup := by
    refine (sortBy_perm _ _).nodup_iff.2 ?_
    refine List.Pairwise.map _ (fun a b hab e => ?_) (List.nodup_range' (s := 1 + c.numInputs) (n := c.latches.length))
    have := congrArg Literal.number e
    rw [valueLit_number, valueLit_number] at this
    exact hab this
  obtain ⟨ls, e⟩ := hs.built
  have h1 : s.iter.Perm (stateCube c v).iter := (List.perm_ext_iff_of_nodup hs.nodup hn).2 hm
  have h2 : Cube.new s.lits = s := Cube.new_lits (by rw [e]; exact Cube.sorted_new _)
  have h3 : Cube.new (stateCube c v).lits = stateCube c v := Cube.new_lits (Cube.sorted_new _)
  rw [← h2, ← h3]
  show (⟨sortBy _ _⟩ : Cube) = ⟨sortBy _ _⟩
  exact congrArg Cube.mk (sortLits_eq_iff.2 h1)

theorem doomed_of {s : Cube} {u : Val} (hw : c.WF) (hb : BadsOK c bads) (hs : s = stateCube c u) (h : LeadsToBad c bads s) : DoomedState c bads u := by
  obtain ⟨w, d, h0, hfr, hst, hbad⟩ := h
  rw [hs, stateCube_holds] at h0
  refine ⟨w 0, h0, ?_⟩
  have : ∀ j i, i + j = d → Doomed c bads (w i) := by
    intro j
    induction j with
    | zero =>
      intro i hi
      obtain rfl : i = d := by omega
      exact .now ((badNow_eval hw hb (hfr _ (Nat.le_refl _))).1 hbad)
    | succ j ih =>
      intro i hi
      exact .step ((step_eval hw (hfr i (by omega))).1 (hst i (by omega))) (ih (i + 1) (by omega))
  exact this d 0 (by omega)

theorem mu_le (k : Nat) (q : PQueue Cube) : mu c k q ≤ (2 ^ c.latches.length + q.length) * (k + 1) := by
  unfold mu
  have h1 : (allStates c).countP (fun s => !(q.map Prod.fst).contains s) ≤ 2 ^ c.latches.length := by
    rw [← allStates_length]; exact List.countP_le_length
  have h2 : ∀ q : PQueue Cube, (q.map (fun e => k + 1 - e.2)).sum ≤ q.length * (k + 1) := by
    intro q
    induction q with
    | nil => simp
    | cons e q ih => rw [List.map_cons, List.sum_cons, List.length_cons, Nat.add_mul]; omega
  rw [Nat.add_mul]
  exact Nat.add_le_add (Nat.mul_le_mul_right _ h1) (h2 q)

/-- C70: `push_generalization` on a queue of states that lead to a bad one, started on frames with the invariants, ends within
`(2^latches + |queue|) * (k + 1) + 1` rounds without panic and keeps the invariants.  `Success`: frames only gain clauses, and every state of the
queue is excluded by frame `k + 1`.  `Failure`: a bad state is reachable. -/
theorem C70_push (h : Built f c ob) (hs : c.Small) (P : Prover f A Inv) (k n m : Nat) (hk : 1 ≤ k) (hn : k ≤ n)
    (hf : Invariants c (badLits c ob) fs n m) (q : List (Cube × Nat)) (hq : Obligations c (badLits c ob) fs k q) (hne : q ≠ [])
    (fuel : Nat) (hfuel : (2 ^ c.latches.length + q.length) * (k + 1) < fuel) :
    Runs Inv (A.pushGeneralization k fuel q) fs (fun r fs' => Invariants c (badLits c ob) fs' n m ∧
      ((r = true ∧ (∀ i, ∀ d ∈ (fr fs i).iter, d ∈ (fr fs' i).iter) ∧ ∀ e ∈ q, Excluded fs' (k + 1) e.1) ∨
       (r = false ∧ ∃ d, c.UnsafeAt (badLits c ob) d))) := by
  obtain ⟨K, rfl, _⟩ := prover_contract (smallSys_of h hs) P
  obtain ⟨x, rfl⟩ : ∃ x, n = k + x := ⟨n - k, by omega⟩
  have hF := frames_of_invariants K.wf K.bad hf
  have hQ : QueueOK c (badLits c ob) k fs q := by
    refine ⟨hq.nodup, fun e he => ⟨(hq.level e he).1, (hq.level e he).2, ?_⟩⟩
    obtain ⟨h1, u, h2⟩ := hq.state e he
    have e1 := state_eq h1 h2
    exact ⟨u, e1, doomed_of K.wf K.bad e1 (hq.bad e he), fun hh => hq.out e he u hh (by rw [e1, stateCube_holds]; exact fun _ _ => rfl)⟩
  refine runs_of ((pushGeneralization_spec K hk fuel q fs hF hQ hne (.inr (Nat.lt_of_le_of_lt (mu_le k q) hfuel))).mono ?_)
  rintro r fs' ⟨h1, h2⟩
  cases r with
  | false =>
    obtain ⟨h3, h4⟩ := h1 rfl
    exact ⟨invariants_of_frames K.wf K.bad h3, .inr ⟨rfl, h4⟩⟩
  | true =>
    obtain ⟨h3, h4, h5⟩ := h2 rfl
    refine ⟨invariants_of_frames K.wf K.bad h3, .inl ⟨rfl, h4.sub, fun e he v hv hs => ?_⟩⟩
    obtain ⟨h6, u, h7⟩ := hq.state e he
    have e1 := state_eq h6 h7
    rw [e1, stateCube_holds] at hs
    exact h5 u (List.mem_map.2 ⟨e, he, e1⟩) (h3.ok.holds_congr hs hv)

/-! ## A concrete case: the ring counter of `Props/Ic3Steps` after its first round -/

/-- The frames `strengthen(1)` leaves: none of the bits is set within one clock, the first and the third bit are not set within two. -/
def grown : List CNF := [CNF.new, ((CNF.new.addClause (Clause.new [⟨5⟩])).addClause (Clause.new [⟨7⟩])).addClause (Clause.new [⟨3⟩]),
  (CNF.new.addClause (Clause.new [⟨7⟩])).addClause (Clause.new [⟨3⟩])]

theorem grown_invariants : Invariants ring [8] grown 1 2 := by
  obtain ⟨r, s', fs', e, e2, hr⟩ := C57_strengthen ring_built ring_small ring_stateless 1 1 (by decide) (by decide) (by decide) ring_invariants 100 100
    (by decide) (by decide) ⟨[CNF.new, CNF.new, CNF.new], 0⟩ rfl
  have h2 : (ringProver.strengthen 100 1 100 ⟨[CNF.new, CNF.new, CNF.new], 0⟩).toOption.map (fun p => (p.1, p.2.clauses)) = some (none, grown) := by
    decide +kernel
  unfold ringProver at h2
  rw [e] at h2
  have h3 := Option.some.inj h2
  obtain ⟨h4, h5⟩ := Prod.mk.inj h3
  obtain rfl : s'.clauses = fs' := e2
  rw [show s'.clauses = grown from h5] at hr
  rcases hr with ⟨_, h⟩ | ⟨h, _⟩
  · exact h
  · rw [show r = none from h4] at h; cases h

/-- The wires while the ring is in state `meet`, and a clock later. -/
def meeting (t n : Nat) : Bool := if t = 0 then n == 1 || n == 2 else n == 2 || n == 3 || n == 4

theorem meet_obligation : Obligations ring [8] grown 1 [(meet, 1)] where
  nodup := by decide
  level := by decide
  state := by
    intro e he
    obtain rfl := List.mem_singleton.1 he
    refine ⟨meet_state, meeting 0, fun l => ⟨fun hl => ?_, ?_⟩⟩
    · have : ∀ l ∈ meet.iter, l.holds (meeting 0) ∧ ∃ i, i < 3 ∧ l.number = ring.latchVar i := by decide
      exact this l hl
    · rintro ⟨h1, i, h2, h3⟩
      have key : ∀ i, i < 3 → ∀ b : Bool, (Literal.mk (2 * (ring.latchVar i) + b.toNat)).holds (meeting 0) →
          Literal.mk (2 * (ring.latchVar i) + b.toNat) ∈ meet.iter := by decide
      have h4 : l = Literal.mk (2 * (ring.latchVar i) + (l.code % 2 == 1).toNat) := by
        cases l with
        | mk n =>
          have h5 : n / 2 = ring.latchVar i := h3
          rw [← h5]
          rcases Nat.mod_two_eq_zero_or_one n with h6 | h6 <;> rw [h6] <;> congr 1 <;> simp <;> omega
      rw [h4] at h1 ⊢
      exact key i h2 _ h1
  bad := by
    intro e he
    obtain rfl := List.mem_singleton.1 he
    refine ⟨meeting, 1, by unfold Cube.holds; decide, fun i hi => ?_, fun i hi => ?_, ⟨8, by decide, by decide⟩⟩
    · refine ⟨?_, fun j p hp => ?_⟩
      · rcases Nat.le_one_iff_eq_zero_or_eq_one.1 hi with rfl | rfl <;> rfl
      · match j, p, hp with
        | 0, _, rfl => rcases Nat.le_one_iff_eq_zero_or_eq_one.1 hi with rfl | rfl <;> decide
    · obtain rfl : i = 0 := by omega
      intro j p hp
      match j, p, hp with
      | 0, _, rfl => decide
      | 1, _, rfl => decide
      | 2, _, rfl => decide
  out := by
    intro e he v hv hm
    obtain rfl := List.mem_singleton.1 he
    obtain ⟨l, hl, h1⟩ := hv (Clause.new [⟨5⟩]) (by decide)
    have h2 := hm ⟨4⟩ (by decide)
    obtain rfl : l = ⟨5⟩ := by
      have : ∀ l ∈ (Clause.new [⟨5⟩]).iter, l = ⟨5⟩ := by decide
      exact this l hl
    have h3 : v 2 = true := h2
    have h4 : v 2 = false := h1
    rw [h3] at h4
    cases h4

example := C70_push ring_built ring_small ring_stateful 1 1 2 (by decide) (by decide) grown_invariants [(meet, 1)] meet_obligation (by decide) 100 (by decide)
example : (ringProver.pushGeneralization 1 100 [(meet, 1)] ⟨grown, 0⟩).toOption.map Prod.fst = some true := by decide +kernel

end Verif.Props
