import Verif.Proofs.Ic3Steps
import Verif.Props.Ic3

/-!
# Properties C53–C57: the single steps of IC3

`Prover f A Inv` (Spec/Ic3State): `A` is `IC3Stateless` or `IC3Stateful` made by `new` from `f`, in either build profile, with a correct solver
and any hash order and shuffle; `Inv s fs` says that the object `s` holds the frames `fs` (and, for `IC3Stateful`, that its solver objects
hold the same clauses).  `Runs Inv m fs Q`: on any such object `m` returns without a panic and leaves an object in order, with
result and new frames in `Q`.  The frames are arbitrary lists of clauses over latches (`FramesOK`), not only the ones that occur in a run of `prove`,
except where `Invariants` is assumed.
-/

namespace Verif.Props

open Verif.Fsts Verif.IC3 Verif.Ic3Spec

variable {f : Fsts} {c : Circuit} {ob : Bool} {σ : Type} {A : IC3 σ} {Inv : σ → List CNF → Prop} {fs : List CNF}

/-- C53: `get_subclause_of_not_s_that_is_inductive_relative_to_fi` returns a part of `¬s` that holds initially and is inductive relative to
`F_i`, and every literal left in it was needed when it was tried: without it some clause between the result and `¬s` is not inductive. -/
theorem C53_subclause (h : Built f c ob) (hs : c.Small) (P : Prover f A Inv) (hf : FramesOK c fs) (i : Nat) (hi : i < fs.length)
    (s : Cube) (hc : StateCube c s) (hind : Inductive c (badLits c ob) fs i s.not) :
    Runs Inv (A.subclause s i) fs (fun d fs' => fs' = fs ∧ Generalizes c (badLits c ob) fs i s d) := by
  obtain ⟨K, rfl, _⟩ := prover_contract (smallSys_of h hs) P
  exact runs_of ((subclause_exact K (fsOK_of hf) hi hc hind).mono fun _ _ h => ⟨h.1, h.2.2⟩)

/-- C53: generalisation never goes as far as the empty clause. -/
theorem C53_nonempty {bads : List Nat} {i : Nat} {s : Cube} {d : Clause} (hn : ∃ v, c.Init v) (h : Generalizes c bads fs i s d) : d.iter ≠ [] := by
  obtain ⟨v, hv⟩ := hn
  obtain ⟨l, hl, _⟩ := h.inductive_.1 v hv
  intro e
  rw [e] at hl
  cases hl

/-- C54: `inductively_generalize(s, min, k)` for a state cube `s` that is not initial and whose negation is inductive relative to `F_min` if
`min ≥ 0`.  `Failure` iff `min < 0` and `s` can be entered from an initial state outside `s`, with nothing changed.  `Success n` for
the largest `n ≤ k` such that `s` cannot be entered from `F_j` outside `s` for the `j` in `min+1..=n`; then one clause that generalises `¬s`
relative to `F_n` is added to the frames 1 to `n + 1` and nothing else changes. -/
theorem C54_generalize (h : Built f c ob) (hs : c.Small) (P : Prover f A Inv) (hf : FramesOK c fs) (k : Nat) (hk : k + 2 ≤ fs.length)
    (s : Cube) (hc : StateCube c s) (hinit : ∀ v, c.Init v → ¬ s.holds v) (min : Int) (hmin : min ≤ k)
    (hsep : 0 ≤ min → Inductive c (badLits c ob) fs min.toNat s.not) :
    Runs Inv (A.inductivelyGeneralize s min k) fs (fun r fs' =>
      (r = .failure ∧ fs' = fs ∧ min < 0 ∧ Enterable c (badLits c ob) fs 0 s) ∨
      ∃ n d, r = .success n ∧ min ≤ n ∧ n ≤ k ∧ (∀ j : Nat, min < j → j ≤ n → ¬ Enterable c (badLits c ob) fs j s) ∧
        (n = k ∨ Enterable c (badLits c ob) fs (n + 1) s) ∧ Generalizes c (badLits c ob) fs n s d ∧ AddedUpTo fs fs' d n) := by
  obtain ⟨K, rfl, _⟩ := prover_contract (smallSys_of h hs) P
  exact runs_of (inductivelyGeneralize_exact K (fsOK_of hf) hk hc hinit hmin hsep)

/-- C55: `propagate_clauses(k)` gives each frame from 2 to `k + 1`, going up, exactly the clauses of the frame below that hold one clock after
every state of that frame, and changes nothing else. -/
theorem C55_propagate (h : Built f c ob) (hs : c.Small) (P : Prover f A Inv) (hf : FramesOK c fs) (k : Nat) (hk : k + 2 ≤ fs.length) :
    Runs Inv (A.propagateClauses k) fs (fun _ fs' => Propagated c (badLits c ob) fs k fs') := by
  obtain ⟨K, rfl, _⟩ := prover_contract (smallSys_of h hs) P
  exact runs_of (propagateClauses_exact K (fsOK_of hf) hk)

/-! ## Queries -/

/-- C56: the queries at the beginning of `prove`: `UnSat` iff no initial state is bad, respectively becomes bad after one clock. -/
theorem C56_start (h : Built f c ob) (hs : c.Small) (P : Prover f A Inv) :
    Runs Inv A.badIn0 fs (fun r fs' => fs' = fs ∧ (r = .unsat ↔ ¬ c.UnsafeAt (badLits c ob) 0)) ∧
    Runs Inv A.badIn1 fs (fun r fs' => fs' = fs ∧ (r = .unsat ↔ ¬ c.UnsafeAt (badLits c ob) 1)) := by
  obtain ⟨K, rfl, _⟩ := prover_contract (smallSys_of h hs) P
  refine ⟨runs_of ((K.badIn0 fs).mono ?_), runs_of ((K.badIn1 fs).mono ?_)⟩
  · rintro r _ ⟨rfl, hr⟩
    refine ⟨rfl, hr.trans ?_⟩
    rw [Circuit.unsafeAt_iff K.wf K.bad.lit]
    constructor
    · rintro h ⟨v, hr, hb⟩
      cases hr with
      | init hi => exact h v hi hb
    · exact fun h v hv hb => h ⟨v, .init hv, hb⟩
  · rintro r _ ⟨rfl, hr⟩
    refine ⟨rfl, hr.trans ?_⟩
    rw [Circuit.unsafeAt_iff K.wf K.bad.lit]
    constructor
    · rintro h ⟨v, hr, hb⟩
      cases hr with
      | step h1 ht =>
        cases h1 with
        | init hi => exact h _ v hi ht hb
    · exact fun h v v' hv ht hb => h ⟨v', .step (.init hv) ht, hb⟩

/-- C56: the query of `strengthen`: `UnSat` iff no state of `F_k` is followed by a bad one; otherwise the state extracted from the assignment
is one of `F_k` that is followed by a bad one. -/
theorem C56_bad_from (h : Built f c ob) (hs : c.Small) (P : Prover f A Inv) (hf : FramesOK c fs) (k : Nat) (hk : k < fs.length) :
    Runs Inv (A.badFrom k) fs (fun r fs' => fs' = fs ∧
      (r = .unsat → ∀ v v', Member c (badLits c ob) fs k v → c.Step v v' → c.Frame v' → ¬ Circuit.BadNow (badLits c ob) v') ∧
      ∀ a, r = .sat a → ∃ v v' s, Member c (badLits c ob) fs k v ∧ c.Step v v' ∧ c.Frame v' ∧ Circuit.BadNow (badLits c ob) v' ∧
        f.extractState A.dbg a = .ok s ∧ IsState c v s) := by
  obtain ⟨K, rfl, _, hA⟩ := prover_contract (smallSys_of h hs) P
  refine runs_of ((K.badFrom (fsOK_of hf) hk).mono ?_)
  rintro r _ ⟨rfl, h1, h2⟩
  refine ⟨rfl, ?_, ?_⟩
  · intro e v v' hv ht hv'
    rw [badNow_eval K.wf K.bad hv']
    exact h1 e v v' (member_inF K.wf K.bad hv) ((step_eval K.wf hv.1).1 ht)
  · intro a e
    obtain ⟨v, v', hv, ht, hb, hval⟩ := h2 a e
    refine ⟨c.evalVar v, c.evalVar v', stateCube c v, inF_member K.wf (fsOK_of hf) hv, ?_, Circuit.frame_evalVar K.wf v', hb, ?_, ?_⟩
    · intro j p hp
      rw [Circuit.evalVar_latch c v' (List.getElem?_eq_some_iff.1 hp).1]
      exact ht j p hp
    · rw [← hA]; exact extractState_ok A.dbg K.laws K.range hval
    · have := isState_stateCube (c := c) (v := c.evalVar v)
      rwa [stateCube_congr (fun i hi => Circuit.evalVar_latch c v hi)] at this

/-- C56: the query of `push_generalization` and `propagate_clauses`: `UnSat` iff no state of `F_i` is followed by one in the cube; otherwise
the state extracted from the assignment is one of `F_i` that is followed by one in the cube. -/
theorem C56_cube_reach (h : Built f c ob) (hs : c.Small) (P : Prover f A Inv) (hf : FramesOK c fs) (i : Nat) (hi : i < fs.length)
    (s : Cube) (hc : StateCube c s) :
    Runs Inv (A.cubeReach i s) fs (fun r fs' => fs' = fs ∧
      (r = .unsat → ∀ v v', Member c (badLits c ob) fs i v → c.Step v v' → ¬ s.holds v') ∧
      ∀ a, r = .sat a → ∃ v v' p, Member c (badLits c ob) fs i v ∧ c.Step v v' ∧ s.holds v' ∧ f.extractState A.dbg a = .ok p ∧ IsState c v p) := by
  obtain ⟨K, rfl, _, hA⟩ := prover_contract (smallSys_of h hs) P
  refine runs_of ((K.cubeReach (fsOK_of hf) hi (latchCube_of hc)).mono ?_)
  rintro r _ ⟨rfl, h1, h2⟩
  refine ⟨rfl, ?_, ?_⟩
  · intro e v v' hv ht
    exact h1 e v v' (member_inF K.wf K.bad hv) ((step_eval K.wf hv.1).1 ht)
  · intro a e
    obtain ⟨v, v', hv, ht, hb, hval⟩ := h2 a e
    refine ⟨c.evalVar v, v', stateCube c v, inF_member K.wf (fsOK_of hf) hv, ht, hb, ?_, ?_⟩
    · rw [← hA]; exact extractState_ok A.dbg K.laws K.range hval
    · have := isState_stateCube (c := c) (v := c.evalVar v)
      rwa [stateCube_congr (fun i hi => Circuit.evalVar_latch c v hi)] at this

/-- C56: the queries of `inductively_generalize` and of the search for a subclause. -/
theorem C56_inductive (h : Built f c ob) (hs : c.Small) (P : Prover f A Inv) (hf : FramesOK c fs) (i : Nat) (hi : i < fs.length)
    (s : Cube) (hc : StateCube c s) :
    Runs Inv (A.cubeReachNew i s) fs (fun r fs' => fs' = fs ∧ (r = true ↔ Enterable c (badLits c ob) fs i s)) ∧
    Runs Inv (A.clauseInductive s.not i) fs (fun r fs' => fs' = fs ∧ (r = true ↔ Inductive c (badLits c ob) fs i s.not)) := by
  obtain ⟨K, rfl, _, hA⟩ := prover_contract (smallSys_of h hs) P
  have hl := latchCube_of hc
  refine ⟨runs_of ((K.cubeReachNew (fsOK_of hf) hi hl).mono ?_), runs_of ((K.clauseInductive (fsOK_of hf) hi hl.not ?_).mono ?_)⟩
  · rintro r _ ⟨rfl, hr⟩
    exact ⟨rfl, hr.trans (enterable_iff K.wf K.bad (fsOK_of hf) hc.latch).symm⟩
  · intro l hl hn
    exact hc.consistent _ (Cube.mem_not.1 hl) (Cube.mem_not.1 hn)
  · rintro r _ ⟨rfl, hr⟩
    exact ⟨rfl, hr.trans (inductive_iff K.wf K.bad (fsOK_of hf) hl.not.lits).symm⟩

/-! ## `strengthen` and the search for a fixpoint -/

/-- C57: `strengthen(k)` with enough fuel keeps the invariants; `Success` means that no state of `F_k` is followed by a bad one, `Failure`
reports depth `k` and means that a bad state is reachable. -/
theorem C57_strengthen (h : Built f c ob) (hs : c.Small) (P : Prover f A Inv) (k n : Nat) (hk : 1 ≤ k) (hn : k ≤ n) (hk2 : k < 4294967296)
    (hf : Invariants c (badLits c ob) fs n k) (fuel rounds : Nat) (hfuel : 2 ^ c.latches.length * (k + 1) + (k + 1) < fuel)
    (hr : 2 ^ c.latches.length < rounds) :
    Runs Inv (A.strengthen fuel k rounds) fs (fun r fs' =>
      (r = none ∧ Invariants c (badLits c ob) fs' n (k + 1)) ∨
      (r = some k ∧ Invariants c (badLits c ob) fs' n k ∧ ∃ d, c.UnsafeAt (badLits c ob) d)) := by
  obtain ⟨K, rfl, _⟩ := prover_contract (smallSys_of h hs) P
  obtain ⟨x, rfl⟩ : ∃ x, n = k + x := ⟨n - k, by omega⟩
  refine runs_of ((strengthen_spec K hk (fun _ => .inl hk2) fuel (.inr hfuel) rounds fs (frames_of_invariants K.wf K.bad hf)
    (.inr (Nat.lt_of_le_of_lt (satCount_le c _) hr))).mono ?_)
  rintro r fs' ⟨h1, h2⟩
  cases r with
  | none => exact .inl ⟨rfl, invariants_of_frames K.wf K.bad (h1 rfl)⟩
  | some d =>
    obtain ⟨rfl, h3, h4⟩ := h2 d rfl
    exact .inr ⟨rfl, invariants_of_frames K.wf K.bad h3, h4⟩

/-- C57: the search after `propagate_clauses` finds the first frame that has the same clauses as the next one, if there is one, and returns
it together with the safety property: as a set of valuations of the circuit, `F_i`. -/
theorem C57_fixpoint (h : Built f c ob) (hs : c.Small) (P : Prover f A Inv) (k n m : Nat) (hn : k ≤ n) (hf : Invariants c (badLits c ob) fs n m) :
    Runs Inv (A.findFixpoint (List.range' 1 k)) fs (fun r fs' => fs' = fs ∧
      (r = none → ∀ i, 1 ≤ i → i ≤ k → ¬ SameNext fs i) ∧
      ∀ g, r = some g → ∃ i, 1 ≤ i ∧ i ≤ k ∧ SameNext fs i ∧ (∀ j, 1 ≤ j → j < i → ¬ SameNext fs j) ∧
        ∀ v, c.Frame v → (g.holds v ↔ Member c (badLits c ob) fs i v)) := by
  obtain ⟨K, rfl, hfm, _⟩ := prover_contract (smallSys_of h hs) P
  have hF := frames_of_invariants K.wf K.bad hf
  obtain ⟨x, rfl⟩ : ∃ x, n = k + x := ⟨n - k, by omega⟩
  refine runs_of ((findFixpoint_spec K hF k 1 (Nat.le_refl _) (by omega)).mono ?_)
  rintro r _ ⟨rfl, h1, h2⟩
  refine ⟨rfl, fun e i hi1 hi2 hsame => h2 e i hi1 hi2 ((sameNext_iff hF hi1).1 hsame), fun g e => ?_⟩
  obtain ⟨i, hi1, hi2, hi3, rfl, hi5⟩ := h1 g e
  refine ⟨i, hi1, hi2, (sameNext_iff hF hi1).2 hi3, fun j hj1 hj2 hsame => hi5 j hj1 hj2 ((sameNext_iff hF hj1).1 hsame), fun v hv => ?_⟩
  have henc := hfm.enc h.laws hF.ok i
  rw [if_neg (by omega)] at henc
  constructor
  · intro hg
    have := inF_member K.wf hF.ok (henc.sound v hg)
    refine ⟨hv, hF.ok.holds_congr (fun i hi => Circuit.evalVar_latch c v hi) this.2.1, ?_⟩
    rw [if_neg (by omega), badNow_eval K.wf K.bad hv]
    have h3 := this.2.2
    rwa [if_neg (by omega)] at h3
  · intro hm
    refine henc.complete v v (member_inF K.wf K.bad hm) ?_
    exact fun x _ hx => (eval_frame K.wf hv hx).symm

/-! ## Concrete cases: the ring counter of `Props/Ic3` -/

def formulasOf (f : Fsts) : Formulas :=
  match formulas true f with
  | .ok fm => fm
  | .error _ => ⟨CNF.new, CNF.new, CNF.new, CNF.new, CNF.new⟩

theorem ring_small : ring.Small := by unfold Circuit.Small; decide

theorem ring_formulas : formulas true (systemOf ring false) = .ok (formulasOf (systemOf ring false)) := by
  obtain ⟨fm, h, _⟩ := formulas_ok true (smallSys_of ring_built ring_small)
  unfold formulasOf
  rw [h]

/-- Both kinds of prover exist. -/
theorem ring_stateless : Prover (systemOf ring false) (stateless true Brute.env plain (systemOf ring false) (formulasOf (systemOf ring false)))
    (fun s fs => s.clauses = fs) := .stateless Brute.env_ok plain_ok ring_formulas
theorem ring_stateful : Prover (systemOf ring false)
    (stateful true (MiniSat.impl true Brute.ms) backwards (systemOf ring false) (formulasOf (systemOf ring false)))
    (Stateful.Inv (MiniSat.implOK true Brute.ms_ok) (formulasOf (systemOf ring false))) :=
  .stateful _ backwards_ok ring_formulas

/-- The state in which the first two bits meet. -/
def meet : Cube := Cube.new [⟨2⟩, ⟨4⟩, ⟨7⟩]
/-- Frames 0 to 2; frame 1 says that the first and the third bit are not both set. -/
def sparse : List CNF := [CNF.new, CNF.new.addClause (Clause.new [⟨3⟩, ⟨7⟩]), CNF.new]

theorem meet_state : StateCube ring meet := ⟨⟨_, rfl⟩, by decide, by decide, by decide⟩
theorem sparse_fr (i : Nat) : fr sparse i = if i = 1 then CNF.new.addClause (Clause.new [⟨3⟩, ⟨7⟩]) else CNF.new := by
  unfold fr sparse
  match i with
  | 0 | 1 | 2 | n + 3 => rfl
theorem sparse_ok : FramesOK ring sparse := by
  refine ⟨fun i => ?_, fun i d hd => ?_, rfl⟩
  · rw [sparse_fr]
    split
    · exact CNF.WF.new.addClause (Clause.sorted_new _)
    · exact CNF.WF.new
  · rw [sparse_fr] at hd
    split at hd
    · revert d; decide
    · cases hd

/-- The prover of `ring_stateless`. -/
def ringProver : IC3 Stateless := stateless true Brute.env plain (systemOf ring false) (formulasOf (systemOf ring false))

/-- The negation of `meet` is inductive relative to frame 1: the query says so. -/
theorem meet_inductive : Inductive ring [8] sparse 1 meet.not := by
  obtain ⟨r, s', fs', e, _, _, hr⟩ := (C56_inductive ring_built ring_small ring_stateless sparse_ok 1 (by decide) meet meet_state).2 ⟨sparse, 0⟩ rfl
  refine hr.1 ?_
  have h2 : (ringProver.clauseInductive meet.not 1 ⟨sparse, 0⟩).toOption.map Prod.fst = some true := by decide +kernel
  unfold ringProver at h2
  rw [e] at h2
  exact Option.some.inj h2

theorem meet_not_initial : ∀ v, ring.Init v → ¬ meet.holds v := by
  intro v hv hm
  have h1 : v 1 = false := (hv 0 (6, 0) rfl).1 rfl
  have h2 := hm ⟨2⟩ (by decide)
  unfold Literal.holds at h2
  have h3 : v 1 = true := h2
  rw [h1] at h3
  cases h3

/-- The hypotheses of C53 and C54 are met; here generalisation drops the third bit. -/
example : Runs (fun s fs => s.clauses = fs) (ringProver.subclause meet 1) sparse
    (fun d fs' => fs' = sparse ∧ Generalizes ring [8] sparse 1 meet d) :=
  C53_subclause ring_built ring_small ring_stateless sparse_ok 1 (by decide) meet meet_state meet_inductive
example : (ringProver.subclause meet 1 ⟨sparse, 0⟩).toOption.map Prod.fst = some (Clause.new [⟨3⟩, ⟨5⟩]) := by decide +kernel
example : ∃ n, (ringProver.inductivelyGeneralize meet (-1) 1 ⟨sparse, 0⟩).toOption.map Prod.fst = some (.success n) := ⟨1, by decide +kernel⟩
example := C54_generalize ring_built ring_small ring_stateful sparse_ok 1 (by decide) meet meet_state meet_not_initial (-1) (by decide)
  (fun h => absurd h (by decide))
example := C54_generalize ring_built ring_small ring_stateless sparse_ok 1 (by decide) meet meet_state meet_not_initial 1 (by decide)
  (fun _ => meet_inductive)
example : (ringProver.inductivelyGeneralize meet (-1) 1 ⟨sparse, 0⟩).toOption.map (fun p => p.2.clauses.map CNF.clauses) =
    some [[], [Clause.new [⟨3⟩, ⟨7⟩], Clause.new [⟨3⟩, ⟨5⟩]], [Clause.new [⟨3⟩, ⟨5⟩]]] := by decide +kernel
/-- A clause that is pushed. -/
example : (ringProver.propagateClauses 1 ⟨sparse, 0⟩).toOption.map (fun p => p.2.clauses.map CNF.clauses) =
    some [[], [Clause.new [⟨3⟩, ⟨7⟩]], [Clause.new [⟨3⟩, ⟨7⟩]]] := by decide +kernel
example := C55_propagate ring_built ring_small ring_stateful sparse_ok 1 (by decide)
example := C56_bad_from ring_built ring_small ring_stateful sparse_ok 1 (by decide)
example := C56_cube_reach ring_built ring_small ring_stateful sparse_ok 1 (by decide) meet meet_state

theorem ring_safe : ring.Safe [8] := by
  have e : ∃ inv, proveStateless true Brute.env plain (systemOf ring false) 10 = .ok (.proof inv) := by
    have hv : verdict (proveStateless true Brute.env plain (systemOf ring false) 10) = some none := by decide +kernel
    generalize proveStateless true Brute.env plain (systemOf ring false) 10 = r at hv
    match r, hv with
    | .ok (.proof inv), _ => exact ⟨inv, rfl⟩
  obtain ⟨inv, e⟩ := e
  exact (C38_proof true Brute.env Brute.env_ok plain plain_ok ring_built ring_small 10 inv e).1

/-- The frames at the first call of `strengthen` meet the invariants. -/
theorem ring_invariants : Invariants ring [8] [CNF.new, CNF.new, CNF.new] 1 1 := by
  have S := smallSys_of ring_built ring_small
  refine invariants_of_frames S.wf S.bad (frames_start ?_ ?_).push
  · exact fun v hv hb => ring_safe 0 ((Circuit.unsafeAt_iff S.wf S.bad.lit 0).2 ⟨v, .init hv, hb⟩)
  · exact fun v v' hv ht hb => ring_safe 1 ((Circuit.unsafeAt_iff S.wf S.bad.lit 1).2 ⟨v', .step (.init hv) ht, hb⟩)

example := C57_strengthen ring_built ring_small ring_stateful 1 1 (by decide) (by decide) (by decide) ring_invariants 100 100 (by decide) (by decide)
example := C57_fixpoint ring_built ring_small ring_stateful 1 1 1 (by decide) ring_invariants
example : (ringProver.strengthen 100 1 100 ⟨[CNF.new, CNF.new, CNF.new], 0⟩).toOption.map Prod.fst = some none := by decide +kernel
example : (ringProver.strengthen 100 1 100 ⟨[CNF.new, CNF.new, CNF.new], 0⟩).toOption.map (fun p => p.2.clauses.map CNF.len) = some [0, 3, 2] := by decide +kernel

end Verif.Props
