import Verif.Proofs.PdrSteps
import Verif.Props.Pdr
import Verif.Props.Ic3Steps

/-!
# Properties C58–C62: the single steps of PDR

`Prover f A` (Spec/PdrState): `A` is made by `PDR::new` from `f`, in either build profile, with any shuffle and any tie-breaking of the
queue.  `PDR.Inv O (formulas f) s fr` says that the object `s` holds the cubes `fr` and that its three solvers per frame hold formulas that mean
the same, for solver objects that are correct (`O : I.OK`).  `Runs` is as for C53–C57: no panic, and the object is left in order.  The
cubes are arbitrary cubes over latches (`FramesOK`), not only the ones that occur in a run of `prove`, except where `Invariants` is assumed.
-/

namespace Verif.Props

open Verif.Fsts Verif.PdrSpec
open Verif.Ic3Spec (Runs StateCube)
open Verif.PDR (Param TCube)

variable {f : Fsts} {c : Circuit} {ob : Bool} {I : StatefulImpl} {A : PDR I} {fr : List (List Cube)}

/-! ## Queries -/

/-- C58: `z_get_bad_cube` at depth `d` returns nothing iff no state of `R_d` is bad; otherwise a cube that contains such a state, and, for covered
circuits, only states that are bad under some inputs. -/
theorem C58_get_bad_cube (h : Built f c ob) (hs : c.Small) (P : Prover f A) (O : I.OK) (hf : FramesOK c fr) (d : Nat) (hd : fr.length = d + 2)
    (hg : SomeGate c ob) :
    Runs (PDR.Inv O (PDR.formulas f)) A.getBadCube fr (fun r fr' => fr' = fr ∧
      (r = none ↔ ∀ v, Member c fr d v → ¬ Circuit.BadNow (badLits c ob) v) ∧
      ∀ s, r = some s → OverLatches c s ∧ (∃ v, Member c fr d v ∧ s.holds v ∧ Circuit.BadNow (badLits c ob) v) ∧
        (c.Covered (badLits c ob) → Leads c s (Circuit.BadNow (badLits c ob)))) := by
  have S := smallSys_of h hs
  refine IC3.runs_of ((PDR.getBadCube_spec S P.fsts (.inl hg) (PDR.cubes_of hf) hd).mono ?_)
  rintro r fr ⟨rfl, h1, h2⟩
  have h2' : ∀ s, r = some s → OverLatches c s ∧ (∃ v, Member c fr d v ∧ s.holds v ∧ Circuit.BadNow (badLits c ob) v) ∧
      (c.Covered (badLits c ob) → Leads c s (Circuit.BadNow (badLits c ob))) := by
    intro s e
    obtain ⟨a1, ⟨v, hv, hsv, hb⟩, a2⟩ := h2 s e
    refine ⟨PDR.overLatches_of a1, ⟨c.evalVar v, PDR.member_of_rr S.wf (PDR.cubes_of hf) hv, (PDR.cube_eval a1).2 hsv, hb⟩, fun hc => ?_⟩
    exact PDR.leads_of S.wf (fun x hx => hx) (a2 hc)
  refine ⟨rfl, ⟨fun e v hv hb => ?_, fun hn => ?_⟩, h2'⟩
  · exact h1 e v (PDR.rr_of_member hv) ((IC3.badNow_eval S.wf S.bad hv.1).1 hb)
  · cases r with
    | none => rfl
    | some s =>
      obtain ⟨_, ⟨v, hv, _, hb⟩, _⟩ := h2' s rfl
      exact absurd hb (hn v hv)

/-- C58: `is_blocked` for a cube `s` and frame `i` returns `true` iff a cube stored at `i` or above subsumes `s` or there is no state in `R_i`. -/
theorem C58_is_blocked (h : Built f c ob) (hs : c.Small) (O : I.OK) (hf : FramesOK c fr) (d : Nat) (hd : fr.length = d + 2)
    (i : Nat) (hi : i ≤ d) (s : Cube) :
    Runs (PDR.Inv O (PDR.formulas f)) (PDR.isBlocked ⟨s, .ok i⟩) fr (fun r fr' => fr' = fr ∧
      (r = true ↔ (∃ j, i ≤ j ∧ ∃ z ∈ PDR.fr fr j, Subsumes z s) ∨ ∀ v, ¬ Member c fr i v)) := by
  have S := smallSys_of h hs
  refine IC3.runs_of ((PDR.isBlocked_exact S hd hi s).mono ?_)
  rintro r fr ⟨rfl, hr⟩
  refine ⟨rfl, hr.trans (or_congr ?_ ?_)⟩
  · simp only [PDR.subsumes_spec]
  · constructor
    · exact fun h v hv => h v (PDR.rr_of_member hv)
    · exact fun h v hv => h _ (PDR.member_of_rr S.wf (PDR.cubes_of hf) hv)

/-- C58: `z_solve_relative` for a cube `z` and frame `k + 1`, with each of its three parameters. -/
theorem C58_solve_relative (h : Built f c ob) (hs : c.Small) (P : Prover f A) (O : I.OK) (hf : FramesOK c fr) (d : Nat) (hd : fr.length = d + 2)
    (k : Nat) (hk : k + 1 ≤ d) (z : Cube) (hz : OverLatches c z) (p : Param) :
    Runs (PDR.Inv O (PDR.formulas f)) (A.solveRelative ⟨z, .ok (k + 1)⟩ p) fr (fun r fr' => fr' = fr ∧ Relative c fr p k z r) := by
  have S := smallSys_of h hs
  refine IC3.runs_of ((PDR.solveRelative_spec S P.fsts (PDR.cubes_of hf) hd hk (PDR.latchCube_of hz) p).mono ?_)
  rintro r fr ⟨rfl, hr⟩
  exact ⟨rfl, PDR.relative_of S.wf (PDR.cubes_of hf) (PDR.latchCube_of hz) hr⟩

/-- C58: `get_r_i` returns a formula that, as a set of valuations of the circuit, is `R_i`; for `i = 0` the initial states. -/
theorem C58_get_r_i (h : Built f c ob) (P : Prover f A) (O : I.OK) (h0 : PDR.fr fr 0 = []) (hl : fr ≠ []) (i : Nat) :
    Runs (PDR.Inv O (PDR.formulas f)) (A.getRi i) fr (fun g fr' => fr' = fr ∧
      ∀ v, c.Frame v → (g.holds v ↔ if i = 0 then c.Init v else Member c fr i v)) := by
  refine IC3.runs_of ?_
  unfold PDR.getRi
  refine PDR.GTri.read fun s hs => ?_
  refine GTri.bind (GTri.lift_ok (a := []) (Q := fun y f' => y = [] ∧ f' = fr) (by
    unfold indexR; rw [hs.f_eq, PDR.fr_get (List.length_pos_iff.2 hl), h0]; rfl) ⟨rfl, rfl⟩) ?_
  rintro _ fr ⟨rfl, rfl⟩
  refine GTri.bind (GTri.lift_ok (a := ()) (Q := fun _ f' => f' = fr) rfl rfl) ?_
  rintro _ fr rfl
  refine GTri.ite (fun e => GTri.pure ⟨rfl, fun v hv => ?_⟩) (fun e => GTri.pure ⟨rfl, fun v hv => ?_⟩)
  · rw [if_pos e, P.forms, CNF.holds_append]
    show _ ∧ f.initialStates.toCnf.holds v ↔ _
    rw [Cube.toCnf_holds, initial_holds h.laws]
    exact ⟨fun h => h.2, fun h => ⟨PDR.new_holds v, h⟩⟩
  · rw [if_neg e, hs.f_eq]
    show (PDR.riCnf fr i).holds v ↔ _
    rw [PDR.riCnf_holds]
    exact ⟨fun h => ⟨hv, fun h' => absurd h' e, h⟩, fun h => h.2.2⟩

/-! ## Generalising a cube and moving it forward -/

/-- C59: `generalize` for a state cube `z` that contains no initial state and cannot be entered from `R_k` outside `z`: the result is a part of
`z` with the same two properties and the same frame, and every literal left was needed when it was tried. -/
theorem C59_generalize (h : Built f c ob) (hs : c.Small) (P : Prover f A) (O : I.OK) (hf : FramesOK c fr) (d : Nat) (hd : fr.length = d + 2)
    (k : Nat) (hk : k + 1 ≤ d) (z : Cube) (hz : StateCube c z) (hi : ¬ Initial c z) (he : ¬ Enterable c fr k z) :
    Runs (PDR.Inv O (PDR.formulas f)) (A.generalize ⟨z, .ok (k + 1)⟩) fr (fun r fr' => fr' = fr ∧ r.frame = .ok (k + 1) ∧
      OverLatches c r.cube ∧ Generalizes c fr k z r.cube) := by
  refine IC3.runs_of ((PDR.generalize_exact (smallSys_of h hs) P.fsts P.sched (PDR.cubes_of hf) hd hk hz hi he).mono ?_)
  rintro _ fr ⟨rfl, y, rfl, h1, h2⟩
  exact ⟨rfl, rfl, h1, h2⟩

/-- C59: the loop that moves a cube forward stops at the first frame below the depth minus one from which the cube can be entered.  (It starts
at `k + 1` and gets no further than `d - 1`.) -/
theorem C59_forward (h : Built f c ob) (hs : c.Small) (P : Prover f A) (O : I.OK) (hf : FramesOK c fr) (d : Nat) (hd : fr.length = d + 2)
    (k : Nat) (hk : k + 1 ≤ d) (z : Cube) (hz : OverLatches c z) :
    Runs (PDR.Inv O (PDR.formulas f)) (A.forwardLoop d ⟨z, .ok (k + 1)⟩ (k + 1)) fr (fun r fr' => fr' = fr ∧ ∃ n, r = ⟨z, .ok (n + 1)⟩ ∧
      k ≤ n ∧ (n = k ∨ n + 2 ≤ d) ∧ (∀ j, k < j → j ≤ n → ¬ Enterable c fr j z) ∧ (d ≤ n + 2 ∨ Enterable c fr (n + 1) z)) := by
  have S := smallSys_of h hs
  have hz' := PDR.latchCube_of hz
  refine IC3.runs_of ((PDR.forwardLoop_exact S P.fsts (PDR.cubes_of hf) hd hz' d k hk (by omega)).mono ?_)
  rintro _ fr ⟨rfl, n, rfl, h1, h2, h3, h4, h5⟩
  refine ⟨rfl, n, rfl, h1, by omega, ?_, ?_⟩
  · intro j hj1 hj2
    rw [PDR.enterable_iff S.wf (PDR.cubes_of hf) hz']
    exact h2 j hj1 hj2
  · rw [PDR.enterable_iff S.wf (PDR.cubes_of hf) hz']
    exact h3

/-! ## Frames -/

/-- C60: `add_blocked_cube` for a cube `z` and a frame `1 ≤ k ≤ d` stores `z` and removes exactly the cubes it subsumes, from the frames up to
`k`. -/
theorem C60_add_blocked_cube (h : Built f c ob) (hs : c.Small) (O : I.OK) (d : Nat) (hd : fr.length = d + 2) (k : Nat) (hk : 1 ≤ k)
    (hkd : k ≤ d) (z : Cube) (hz : OverLatches c z) :
    Runs (PDR.Inv O (PDR.formulas f)) (A.addBlockedCube ⟨z, .ok k⟩) fr (fun _ fr' => Stored fr z k fr') :=
  IC3.runs_of ((PDR.addBlockedCube_spec (smallSys_of h hs) hd hk hkd (PDR.latchCube_of hz)).mono fun _ _ h => PDR.stored_of h)

/-- C60: removing subsumed cubes does not change any `R_i`: afterwards it is the old one without `z` for `i ≤ k`, and the old one above. -/
theorem C60_sets {fr' : List (List Cube)} {z : Cube} {k : Nat} (hp : Stored fr z k fr') (i : Nat) (v : Val) :
    Member c fr' i v ↔ Member c fr i v ∧ (i ≤ k → ¬ z.holds v) := by
  have sub : ∀ x, Subsumes z x → x.holds v → z.holds v := fun x hs hx l hl => hx l (hs l hl)
  obtain ⟨r, l, e, hperm, hr, hl⟩ := hp.at_
  constructor
  · rintro ⟨h1, h2, h3⟩
    have hz : i ≤ k → ¬ z.holds v := fun hi => h3 k hi z (by rw [e]; simp)
    refine ⟨⟨h1, h2, fun j hj x hx => ?_⟩, hz⟩
    by_cases h0 : j = 0 ∨ k < j
    · exact h3 j hj x (by rw [hp.other j h0]; exact hx)
    · by_cases hjk : j < k
      · obtain ⟨l', a1, a2, a3⟩ := hp.below j (by omega) hjk
        rcases List.mem_append.1 (a1.mem_iff.1 hx) with hx | hx
        · exact h3 j hj x hx
        · exact fun hxv => hz (by omega) (sub x (a3 x hx) hxv)
      · have : j = k := by omega
        subst this
        rcases List.mem_append.1 (hperm.mem_iff.1 hx) with hx | hx
        · exact h3 j hj x (by rw [e]; simp [hx])
        · exact fun hxv => hz hj (sub x (hl x hx) hxv)
  · rintro ⟨⟨h1, h2, h3⟩, hz⟩
    refine ⟨h1, h2, fun j hj x hx => ?_⟩
    by_cases h0 : j = 0 ∨ k < j
    · exact h3 j hj x (by rw [← hp.other j h0]; exact hx)
    · by_cases hjk : j < k
      · obtain ⟨l', a1, a2, a3⟩ := hp.below j (by omega) hjk
        exact h3 j hj x (a1.mem_iff.2 (List.mem_append_left _ hx))
      · have : j = k := by omega
        subst this
        rw [e] at hx
        rcases List.mem_append.1 hx with hx | hx
        · exact h3 j hj x (hperm.mem_iff.2 (List.mem_append_left _ hx))
        · rw [List.mem_singleton.1 hx]; exact hz hj

/-- C60: `new_frame`, when nothing is known to hold in all frames, appends one empty frame (and, in `Runs`, new solvers for it). -/
theorem C60_new_frame (h : Built f c ob) (hs : c.Small) (P : Prover f A) (O : I.OK) (hl : fr ≠ []) (he : PDR.fr fr (fr.length - 1) = []) :
    Runs (PDR.Inv O (PDR.formulas f)) A.newFrame fr (fun _ fr' => fr' = fr ++ [[]]) :=
  IC3.runs_of (PDR.newFrame_spec (smallSys_of h hs) P.forms (List.length_pos_iff.2 hl) he)

/-! ## `propagate_blocked_cubes` and `rec_block_cube` -/

/-- C61: `propagate_blocked_cubes` at depth `d` keeps the invariants.  It returns the first frame `1 ≤ k < d` that becomes empty; the frames up to
it, or all below `d` if there is none, have been propagated. -/
theorem C61_propagate (h : Built f c ob) (hs : c.Small) (P : Prover f A) (O : I.OK) (d m : Nat) (hd : 1 ≤ d)
    (hf : Invariants c (badLits c ob) fr d m) :
    Runs (PDR.Inv O (PDR.formulas f)) A.propagateBlockedCubes fr (fun r fr' => Invariants c (badLits c ob) fr' d m ∧
      (r = none → Propagated c fr (d - 1) fr' ∧ ∀ i, 1 ≤ i → i < d → PDR.fr fr' i ≠ []) ∧
      ∀ k, r = some k → 1 ≤ k ∧ k < d ∧ Propagated c fr k fr' ∧ PDR.fr fr' k = [] ∧ ∀ i, 1 ≤ i → i < k → PDR.fr fr' i ≠ []) := by
  have S := smallSys_of h hs
  refine IC3.runs_of ((PDR.propagateBlockedCubes_exact S P.fsts hd (PDR.frames_of S.wf hf)).mono ?_)
  rintro r fr' ⟨h0, h1, h2⟩
  refine ⟨PDR.invariants_of S.wf S.bad h0, fun e => ?_, fun k e => ?_⟩
  · exact ⟨PDR.propagated_of S.wf h0.cubes (h1 e).1, (h1 e).2⟩
  · obtain ⟨a1, a2, a3, a4, a5⟩ := h2 k e
    exact ⟨a1, a2, PDR.propagated_of S.wf h0.cubes a3, a4, a5⟩

/-- C61: afterwards no frame up to `n` describes a set that was larger before. -/
theorem C61_sets {fr' : List (List Cube)} {n : Nat} (hp : Propagated c fr n fr') (i : Nat) (v : Val) (hv : Member c fr' i v) : Member c fr i v := by
  refine ⟨hv.1, hv.2.1, fun j hj z hz hzv => ?_⟩
  obtain ⟨i', hi', x, hx, hs⟩ := hp.kept j z hz
  exact hv.2.2 i' (by omega) x hx fun l hl => hzv l (hs l hl)

/-- C62: `rec_block_cube` on covered circuits, for a cube `s` of states in `R_d` that are bad under some inputs, with enough fuel.  The
invariants are kept and no `R_i` grows; `true` means that the cube is now outside `R_d`, `false` that a bad state is reachable. -/
theorem C62_block (h : Built f c ob) (hs : c.Small) (P : Prover f A) (O : I.OK) (hcov : c.Covered (badLits c ob)) (d : Nat)
    (hf : Invariants c (badLits c ob) fr d d) (s : Cube) (hsl : OverLatches c s) (hm : ∃ v, Member c fr d v ∧ s.holds v)
    (hb : Leads c s (Circuit.BadNow (badLits c ob))) (fuel : Nat)
    (hfuel : 1 + (d + 2) * ((d + 2) * (d * 2 ^ c.latches.length) + (d + 1)) ≤ fuel) :
    Runs (PDR.Inv O (PDR.formulas f)) (A.recBlockCube fuel ⟨s, .ok d⟩) fr (fun r fr' => Invariants c (badLits c ob) fr' d d ∧
      (∀ i v, Member c fr' i v → Member c fr i v) ∧ (r = true → ∀ v, Member c fr' d v → ¬ s.holds v) ∧
      (r = false → ∃ j, c.UnsafeAt (badLits c ob) j)) := by
  have S := smallSys_of h hs
  obtain ⟨v, hv, hsv⟩ := hm
  have hG : PDR.Guard c (badLits c ob) True A.dbg (fun _ => False) := ⟨fun _ => trivial, fun _ => .inl hcov, .inl hcov⟩
  have hbad : c.Covered (badLits c ob) → PDR.Leads c s (c.BadAt (badLits c ob)) := by
    intro _ w hw
    obtain ⟨x, hx, hsame, hbx⟩ := hb w hw
    exact ⟨x, hsame, (IC3.badNow_eval S.wf S.bad hx).1 hbx⟩
  have hfuel' : 1 + (d + 2) * ((d + 2) * PDR.weight c d fr + (d + 1)) ≤ fuel := by
    refine Nat.le_trans (Nat.add_le_add_left (Nat.mul_le_mul_left _ (Nat.add_le_add_right (Nat.mul_le_mul_left _ ?_) _)) _) hfuel
    exact PDR.weight_le c d fr
  refine IC3.runs_of ((PDR.recBlockCube_spec S P.fsts hG P.sched (PDR.frames_of S.wf hf) (PDR.latchCube_of hsl) (PDR.rr_of_member hv) hsv hbad
    (.inr hfuel')).mono ?_)
  rintro r fr' ⟨h0, h1, h2, h3⟩
  refine ⟨PDR.invariants_of S.wf S.bad h0, fun i v hv => ⟨hv.1, hv.2.1, h1 i v hv.2.2⟩, fun e v hv => ?_, fun e => h3 e hcov⟩
  refine h2 e v ?_
  exact (PDR.rr_of_member hv).2

/-! ## Concrete cases: the ring counter of `Props/Ic3` -/

def ringPdr : PDR (MiniSat.impl true Brute.ms) := ⟨true, systemOf ring false, plain, PDR.formulas (systemOf ring false)⟩
def ringStart : PDR.St (MiniSat.impl true Brute.ms) := ⟨[[]], [], [], [], true, true, 0⟩
/-- An object at depth 2 with one blocked cube in frame 1: the first and the third bit are not both set. -/
def ringPrepare : StateT (PDR.St (MiniSat.impl true Brute.ms)) Res Unit := do
  ringPdr.newFrame
  ringPdr.newFrame
  ringPdr.newFrame
  ringPdr.addBlockedCube ⟨Cube.new [⟨2⟩, ⟨6⟩], .ok 1⟩
def blocked : List (List Cube) := [[], [Cube.new [⟨2⟩, ⟨6⟩]], [], []]
/-- Result and frames of a run from there. -/
def ringRun {α : Type} (m : StateT (PDR.St (MiniSat.impl true Brute.ms)) Res α) : Option (α × List (List Cube)) :=
  ((ringPrepare >>= fun _ => m) ringStart).toOption.map (fun p => (p.1, p.2.f))

theorem ring_prover : Prover (systemOf ring false) ringPdr := ⟨rfl, rfl, plain_ok⟩
theorem overLatches_new {ls : List Literal} (h : ∀ l ∈ ls, ∃ i, i < c.latches.length ∧ l.number = c.latchVar i) : OverLatches c (Cube.new ls) :=
  ⟨⟨ls, rfl⟩, fun l hl => h l (Cube.mem_new.1 hl)⟩
theorem pair_over : OverLatches ring (Cube.new [⟨2⟩, ⟨6⟩]) := overLatches_new (by decide)
theorem meet_over : OverLatches ring meet := overLatches_new (by decide)
theorem blocked_ok : FramesOK ring blocked := by
  intro j z hz
  match j with
  | 0 | 2 | 3 | n + 4 => cases hz
  | 1 =>
    have : z = Cube.new [⟨2⟩, ⟨6⟩] := by simpa [PDR.fr, blocked] using hz
    rw [this]; exact pair_over

theorem ring_start : PDR.Inv (MiniSat.implOK true Brute.ms_ok) (PDR.formulas (systemOf ring false)) ringStart [[]] :=
  ⟨rfl, fun w => by cases w <;> rfl, fun w i x h => by cases w <;> simp [PDR.St.sols, ringStart] at h⟩

/-- Objects in order exist. -/
theorem ring_object : ∃ s, ringPrepare ringStart = .ok ((), s) ∧
    PDR.Inv (MiniSat.implOK true Brute.ms_ok) (PDR.formulas (systemOf ring false)) s blocked := by
  obtain ⟨_, s1, _, e1, i1, rfl⟩ := C60_new_frame ring_built ring_small ring_prover (MiniSat.implOK true Brute.ms_ok) (by simp) rfl _ ring_start
  obtain ⟨_, s2, _, e2, i2, rfl⟩ := C60_new_frame ring_built ring_small ring_prover (MiniSat.implOK true Brute.ms_ok) (by simp) rfl _ i1
  obtain ⟨_, s3, _, e3, i3, rfl⟩ := C60_new_frame ring_built ring_small ring_prover (MiniSat.implOK true Brute.ms_ok) (by simp) rfl _ i2
  obtain ⟨_, s4, fr, e4, i4, _⟩ := C60_add_blocked_cube (A := ringPdr) ring_built ring_small (MiniSat.implOK true Brute.ms_ok) 2 rfl 1 (by decide)
    (by decide) _ pair_over _ i3
  have e : ringPrepare ringStart = .ok ((), s4) := by
    show (do
      let p ← ringPdr.newFrame ringStart
      let p ← ringPdr.newFrame p.2
      let p ← ringPdr.newFrame p.2
      ringPdr.addBlockedCube ⟨Cube.new [⟨2⟩, ⟨6⟩], .ok 1⟩ p.2) = _
    rw [e1]
    show (do
      let p ← ringPdr.newFrame s1
      let p ← ringPdr.newFrame p.2
      ringPdr.addBlockedCube ⟨Cube.new [⟨2⟩, ⟨6⟩], .ok 1⟩ p.2) = _
    rw [e2]
    show (do
      let p ← ringPdr.newFrame s2
      ringPdr.addBlockedCube ⟨Cube.new [⟨2⟩, ⟨6⟩], .ok 1⟩ p.2) = _
    rw [e3]
    exact e4
  have h2 : (ringPrepare ringStart).toOption.map (fun p => p.2.f) = some blocked := by decide +kernel
  rw [e] at h2
  have hf : s4.f = blocked := Option.some.inj h2
  rw [← i4.f_eq, hf] at i4
  exact ⟨s4, e, i4⟩

/-- `meet` cannot be entered from `R_1` outside `meet`: the query says so. -/
theorem meet_not_enterable : ¬ Enterable ring blocked 1 meet := by
  obtain ⟨s, e, hs⟩ := ring_object
  obtain ⟨r, s', fr', e', _, _, hr⟩ := C58_solve_relative ring_built ring_small ring_prover _ blocked_ok 2 rfl 1 (by decide) meet meet_over
    .doNotExtractModel _ hs
  have h2 : (ringRun (ringPdr.solveRelative ⟨meet, .ok 2⟩ .doNotExtractModel)).map Prod.fst = some ⟨meet, .ok 2⟩ := by decide +kernel
  have h3 : (ringPrepare >>= fun _ => ringPdr.solveRelative ⟨meet, .ok 2⟩ .doNotExtractModel) ringStart = .ok (r, s') := by
    show (ringPrepare ringStart >>= fun p => ringPdr.solveRelative ⟨meet, .ok 2⟩ .doNotExtractModel p.2) = _
    rw [e]; exact e'
  unfold ringRun at h2
  rw [h3] at h2
  have hr' : r = ⟨meet, .ok 2⟩ := Option.some.inj h2
  rcases hr with ⟨_, h⟩ | ⟨h, _⟩
  · simpa using h
  · rw [hr'] at h; cases h

theorem meet_not_init : ¬ Initial ring meet := fun ⟨v, hv, hm⟩ => meet_not_initial v hv hm

/-- The hypotheses of the theorems are met, and the results are not trivial. -/
example := C58_get_bad_cube ring_built ring_small ring_prover (MiniSat.implOK true Brute.ms_ok) blocked_ok 2 rfl ring_gate.2
example : (ringRun ringPdr.getBadCube).map Prod.fst = some (some (Cube.new [⟨4⟩, ⟨6⟩])) := by decide +kernel
example := C58_is_blocked ring_built ring_small (MiniSat.implOK true Brute.ms_ok) blocked_ok 2 rfl 1 (by decide) meet
example : (ringRun (PDR.isBlocked ⟨meet, .ok 1⟩)).map Prod.fst = some false ∧
    (ringRun (PDR.isBlocked ⟨Cube.new [⟨2⟩, ⟨5⟩, ⟨6⟩], .ok 1⟩)).map Prod.fst = some true ∧
    (ringRun (PDR.isBlocked ⟨Cube.new [⟨2⟩, ⟨5⟩, ⟨6⟩], .ok 2⟩)).map Prod.fst = some false := by decide +kernel
/-- C58: the comment in `z_is_blocked` says that it returns true iff no state of `R_i` is in the cube.  It does not: no state of `R_1` has the third
bit set here, but the answer is `false`.  (The query leaves the cube out.) -/
theorem C58_is_blocked_misses :
    (ringRun (do
      ringPdr.addBlockedCube ⟨Cube.new [⟨3⟩, ⟨6⟩], .ok 1⟩
      PDR.isBlocked ⟨Cube.new [⟨6⟩], .ok 1⟩)) = some (false, [[], [Cube.new [⟨2⟩, ⟨6⟩], Cube.new [⟨3⟩, ⟨6⟩]], [], []]) ∧
    ∀ v, Member ring [[], [Cube.new [⟨2⟩, ⟨6⟩], Cube.new [⟨3⟩, ⟨6⟩]], [], []] 1 v → ¬ (Cube.new [⟨6⟩]).holds v := by
  refine ⟨by decide +kernel, fun v hv h6 => ?_⟩
  have h6 : v 3 = true := h6 ⟨6⟩ (by decide)
  cases h2 : v 1 with
  | true =>
    refine hv.2.2 1 (by decide) (Cube.new [⟨2⟩, ⟨6⟩]) (by decide) fun l hl => ?_
    have hlm : l ∈ [(⟨2⟩ : Literal), ⟨6⟩] := Cube.mem_new.1 hl
    rcases List.mem_cons.1 hlm with rfl | hlm
    · exact h2
    · rw [List.mem_singleton.1 hlm]; exact h6
  | false =>
    refine hv.2.2 1 (by decide) (Cube.new [⟨3⟩, ⟨6⟩]) (by decide) fun l hl => ?_
    have hlm : l ∈ [(⟨3⟩ : Literal), ⟨6⟩] := Cube.mem_new.1 hl
    rcases List.mem_cons.1 hlm with rfl | hlm
    · exact h2
    · rw [List.mem_singleton.1 hlm]; exact h6
/-- A cube that can be entered from `R_1`, and the predecessor found. -/
example : (ringRun (ringPdr.solveRelative ⟨Cube.new [⟨2⟩, ⟨6⟩], .ok 2⟩ .extractModel)).map Prod.fst = some ⟨Cube.new [⟨3⟩, ⟨4⟩, ⟨6⟩], .null⟩ := by
  decide +kernel
example := C58_get_r_i ring_built ring_prover (MiniSat.implOK true Brute.ms_ok) (fr := blocked) rfl (by decide) 1
example := C59_generalize ring_built ring_small ring_prover (MiniSat.implOK true Brute.ms_ok) blocked_ok 2 rfl 1 (by decide) meet meet_state
  meet_not_init meet_not_enterable
example : (ringRun (ringPdr.generalize ⟨meet, .ok 2⟩)).map Prod.fst = some ⟨Cube.new [⟨2⟩, ⟨4⟩], .ok 2⟩ := by decide +kernel
example := C59_forward ring_built ring_small ring_prover (MiniSat.implOK true Brute.ms_ok) blocked_ok 2 rfl 0 (by decide) meet meet_over
/-- The shorter cube replaces the longer one. -/
example : ringRun (do ringPdr.addBlockedCube ⟨meet, .ok 1⟩; ringPdr.addBlockedCube ⟨Cube.new [⟨2⟩, ⟨4⟩], .ok 2⟩) =
    some ((), [[], [Cube.new [⟨2⟩, ⟨6⟩]], [Cube.new [⟨2⟩, ⟨4⟩]], []]) := by decide +kernel
/-- All three pairs move up together and leave frame 1 empty. -/
example : ringRun (do
    ringPdr.addBlockedCube ⟨Cube.new [⟨2⟩, ⟨4⟩], .ok 1⟩
    ringPdr.addBlockedCube ⟨Cube.new [⟨4⟩, ⟨6⟩], .ok 1⟩
    ringPdr.propagateBlockedCubes) =
    some (some 1, [[], [], [Cube.new [⟨2⟩, ⟨6⟩], Cube.new [⟨4⟩, ⟨6⟩], Cube.new [⟨2⟩, ⟨4⟩]], []]) := by decide +kernel

/-- The frames at the first call of `rec_block_cube`, at depth 1. -/
theorem ring_pdr_invariants : Invariants ring [8] [[], [], []] 1 1 := by
  have S := smallSys_of ring_built ring_small
  refine PDR.invariants_of S.wf S.bad ((PDR.Frames.start.raise ?_).push)
  exact fun v hv hb => ring_safe 0 ((Circuit.unsafeAt_iff S.wf S.bad.lit 0).2 ⟨v, .init (hv.1 rfl), hb⟩)

example := C61_propagate ring_built ring_small ring_prover (MiniSat.implOK true Brute.ms_ok) 1 1 (by decide) ring_pdr_invariants
/-- The states in which the second and the third bit are set; these are the bad ones. -/
theorem both_over : OverLatches ring (Cube.new [⟨4⟩, ⟨6⟩]) := overLatches_new (by decide)
theorem both_bad : Leads ring (Cube.new [⟨4⟩, ⟨6⟩]) (Circuit.BadNow [8]) := by
  intro w hw
  have h2 : w 2 = true := hw ⟨4⟩ (by decide)
  have h3 : w 3 = true := hw ⟨6⟩ (by decide)
  have hF := Circuit.frame_evalVar (smallSys_of ring_built ring_small).wf w
  have hl : ∀ i, i < ring.latches.length → ring.evalVar w (ring.latchVar i) = w (ring.latchVar i) := fun i hi => Circuit.evalVar_latch ring w hi
  refine ⟨ring.evalVar w, hF, hl, 8, by simp, ?_⟩
  have g := hF.2 0 (6, 4) rfl
  have e2 : ring.evalVar w 2 = true := (hl 1 (by decide)).trans h2
  have e3 : ring.evalVar w 3 = true := (hl 2 (by decide)).trans h3
  have g' : ring.evalVar w 4 = (litVal (ring.evalVar w) 6 && litVal (ring.evalVar w) 4) := g
  simp [litVal, e2, e3] at g' ⊢
  exact g'
theorem both_member : ∃ v, Member ring [[], [], []] 1 v ∧ (Cube.new [⟨4⟩, ⟨6⟩]).holds v := by
  let u : Val := fun x => decide (x = 2 ∨ x = 3)
  have hF := Circuit.frame_evalVar (smallSys_of ring_built ring_small).wf u
  have hl : ∀ i, i < ring.latches.length → ring.evalVar u (ring.latchVar i) = u (ring.latchVar i) := fun i hi => Circuit.evalVar_latch ring u hi
  refine ⟨ring.evalVar u, ⟨hF, (fun h => nomatch h), fun j _ z hz => ?_⟩, ?_⟩
  · match j with
    | 0 | 1 | 2 | n + 3 => cases hz
  · intro l hl'
    have hlm : l ∈ [(⟨4⟩ : Literal), ⟨6⟩] := Cube.mem_new.1 hl'
    rcases List.mem_cons.1 hlm with rfl | hlm
    · exact hl 1 (by decide)
    · rw [List.mem_singleton.1 hlm]; exact hl 2 (by decide)
example := C62_block ring_built ring_small ring_prover (MiniSat.implOK true Brute.ms_ok) ring_gate.1 1 ring_pdr_invariants _ both_over both_member
  both_bad 1000 (by decide)
/-- `true`: the bad states are blocked, and with them all states in which the third bit is set. -/
example : ((do ringPdr.newFrame; ringPdr.newFrame; ringPdr.recBlockCube 1000 ⟨Cube.new [⟨4⟩, ⟨6⟩], .ok 1⟩ :
    StateT (PDR.St (MiniSat.impl true Brute.ms)) Res Bool) ringStart).toOption.map (fun p => (p.1, p.2.f)) =
      some (true, [[], [Cube.new [⟨6⟩]], []]) := by decide +kernel

end Verif.Props
