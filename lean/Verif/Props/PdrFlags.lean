import Verif.Proofs.PdrFlags
import Verif.Props.PdrSteps

/-!
# Property C64: PDR's shortcut past the reduction of cubes

`z_get_bad_cube` and `z_solve_relative` drop the literals of the extracted state that the bad literals, or the next state, do not read.  Once a
reduction removed nothing the object remembers that in a flag and skips all later ones.  These theorems say that skipping never changes a
result, whatever the solvers answer (there is no assumption on them) and whatever methods were called before.
-/

namespace Verif.Props

open Verif.Fsts Verif.PdrSpec
open Verif.PDR (Param TCube)

variable {f : Fsts} {c : Circuit} {ob : Bool} {I : StatefulImpl} {A : PDR I}

/-- C32: what the reduction keeps, exactly: the literals of latches that the next state reads. -/
theorem C32_kept (h : Built f c ob) (s : Cube) (l : Literal) : l ∈ (f.intersectTransition s).iter ↔
    l ∈ s.iter ∧ ∃ i, i < c.latches.length ∧ l.number = c.latchVar i ∧ ReadByNext c i := by
  have e : f.intersectTransition s = Cube.new (s.iter.filter (fun l => f.coneTransition.contains l.number)) := rfl
  rw [e, Cube.iter, Cube.mem_new, List.mem_filter, List.contains_iff_mem, PDR.mem_coneTransition h.laws h.1.wf]

/-- C33: what the reduction keeps, exactly: the literals of latches that a gate in the cone of the bad literals reads.  Latches that are
bad literals themselves are not looked at. -/
theorem C33_kept (h : Built f c ob) (s : Cube) (l : Literal) : l ∈ (f.intersectSafety s).iter ↔
    l ∈ s.iter ∧ ∃ i, i < c.latches.length ∧ l.number = c.latchVar i ∧ c.Reads (badLits c ob) i := by
  have e : f.intersectSafety s = Cube.new (s.iter.filter (fun l => f.coneSafety.contains l.number)) := rfl
  rw [e, Cube.iter, Cube.mem_new, List.mem_filter, List.contains_iff_mem, mem_coneSafety h.laws h.1.wf]

/-- In `lazy` the latch of variable 1 is read by the gate and by the next state, the latch of variable 2 only by the gate. -/
example : ((systemOf lazy false).intersectTransition ⟨[⟨2⟩, ⟨5⟩]⟩).iter = [⟨2⟩] ∧ ((systemOf lazy false).intersectSafety ⟨[⟨2⟩, ⟨5⟩]⟩).iter = [⟨2⟩, ⟨5⟩] := by
  decide +kernel

/-- C64: the cube returned by `z_get_bad_cube` fixes exactly the latches read by the cone of the bad literals, on either value of the flag; and
the flag stays on iff there are other latches. -/
theorem C64_get_bad_cube (h : Built f c ob) (hs : c.Small) (P : Prover f A) {s s' : PDR.St I} (hf : Flags c (badLits c ob) s) {r : Option Cube}
    (e : A.getBadCube s = .ok (r, s')) :
    s'.conePred = s.conePred ∧ (r = none → s'.coneBad = s.coneBad) ∧
    ∀ z, r = some z → Fixes c (c.Reads (badLits c ob)) z ∧
      (s'.coneBad = true ↔ s.coneBad = true ∧ ∃ i, i < c.latches.length ∧ ¬ c.Reads (badLits c ob) i) := by
  have S := smallSys_of h hs
  have h31 : ∀ n ∈ A.fsts.stateLits, 0 < n ∧ n < 2147483648 := by rw [P.fsts]; exact PDR.states_small S
  have hf' : PDR.On (PDR.FlagQ A.fsts) s := by rw [P.fsts]; exact (PDR.flags_iff S.laws S.wf).1 hf
  obtain ⟨_, h1, h2⟩ := Tri.elim (PDR.getBadCube_flags h31 hf') (s := s) ⟨rfl, rfl⟩ e
  cases r with
  | none => exact ⟨(h1 rfl).1, fun _ => (h1 rfl).2, fun z e => by cases e⟩
  | some z =>
    obtain ⟨a, full, he, rfl, hb, hp⟩ := h2 z rfl
    refine ⟨hp, (fun e => by cases e), ?_⟩
    intro z ez
    cases Option.some.inj ez
    obtain ⟨_, _, hperm⟩ := PDR.extractState_numbers h31 he
    rw [P.fsts] at hperm
    obtain ⟨k1, k2⟩ := PDR.reduced_fixes S.laws hperm (k := f.coneSafety) fun n => mem_coneSafety S.laws S.wf
    have e' : A.fsts.intersectSafety full = Cube.new (full.iter.filter (fun l => f.coneSafety.contains l.number)) := by rw [P.fsts]; rfl
    rw [e'] at hb ⊢
    refine ⟨k1, ?_⟩
    rw [hb, ← k2]
    simp

/-- C64: the same for the predecessor returned by `z_solve_relative` and the latches the next state reads. -/
theorem C64_solve_relative (h : Built f c ob) (hs : c.Small) (P : Prover f A) {s s' : PDR.St I} (hf : Flags c (badLits c ob) s) {t r : TCube}
    (e : A.solveRelative t .extractModel s = .ok (r, s')) :
    s'.coneBad = s.coneBad ∧ (r.frame ≠ .null → s'.conePred = s.conePred) ∧
    (r.frame = .null → Fixes c (ReadByNext c) r.cube ∧
      (s'.conePred = true ↔ s.conePred = true ∧ ∃ i, i < c.latches.length ∧ ¬ ReadByNext c i)) := by
  have S := smallSys_of h hs
  have h31 : ∀ n ∈ A.fsts.stateLits, 0 < n ∧ n < 2147483648 := by rw [P.fsts]; exact PDR.states_small S
  have hf' : PDR.On (PDR.FlagQ A.fsts) s := by rw [P.fsts]; exact (PDR.flags_iff S.laws S.wf).1 hf
  obtain ⟨_, h0, h1, h2⟩ := Tri.elim (PDR.solveRelative_flags h31 hf' t .extractModel) (s := s) ⟨rfl, rfl⟩ e
  refine ⟨h0, fun hn => h1 (fun h => hn h.2), fun hn => ?_⟩
  obtain ⟨a, full, he, hz, hb⟩ := h2 rfl hn
  obtain ⟨_, _, hperm⟩ := PDR.extractState_numbers h31 he
  rw [P.fsts] at hperm
  obtain ⟨k1, k2⟩ := PDR.reduced_fixes S.laws hperm (k := f.coneTransition) fun n => PDR.mem_coneTransition S.laws S.wf
  have e' : A.fsts.intersectTransition full = Cube.new (full.iter.filter (fun l => f.coneTransition.contains l.number)) := by rw [P.fsts]; rfl
  rw [hz, e'] at hb ⊢
  refine ⟨k1, ?_⟩
  rw [hb, ← k2]
  simp

/-- C64: without a model to extract, `z_solve_relative` leaves both flags alone. -/
theorem C64_no_model {s s' : PDR.St I} {t r : TCube} {p : Param} (hp : p ≠ .extractModel)
    (e : A.solveRelative t p s = .ok (r, s')) : s'.conePred = s.conePred ∧ s'.coneBad = s.coneBad :=
  Tri.elim (PDR.solveRelative_other t hp) (s := s) ⟨rfl, rfl⟩ e

/-- C64: both flags are on in a new object, and whatever methods are called then, in whatever order, a flag is off only if the reduction it skips
would remove nothing. -/
theorem C64_calls (h : Built f c ob) (hs : c.Small) (P : Prover f A) {s s' : PDR.St I} (hn : s.conePred = true ∧ s.coneBad = true)
    (hc : Calls A s s') : Flags c (badLits c ob) s' := by
  have S := smallSys_of h hs
  have h31 : ∀ n ∈ A.fsts.stateLits, 0 < n ∧ n < 2147483648 := by rw [P.fsts]; exact PDR.states_small S
  have := PDR.calls_flags h31 (s := s) ⟨(fun e => by rw [hn.1] at e; cases e), (fun e => by rw [hn.2] at e; cases e)⟩ hc
  rw [P.fsts] at this
  exact (PDR.flags_iff S.laws S.wf).2 this

/-! ## Concrete cases: the ring counter, where the bad state reads two of the three latches and the next state reads all -/

/-- Result and flags of a run. -/
def ringFlags {α : Type} (m : StateT (PDR.St (MiniSat.impl true Brute.ms)) Res α) : Option (α × Bool × Bool) :=
  ((ringPrepare >>= fun _ => m) ringStart).toOption.map (fun p => (p.1, p.2.conePred, p.2.coneBad))

theorem ring_calls {s : PDR.St (MiniSat.impl true Brute.ms)} (e : ringPrepare ringStart = .ok ((), s)) : Calls ringPdr ringStart s := by
  have e' : (do
      let p ← ringPdr.newFrame ringStart
      let p ← ringPdr.newFrame p.2
      let p ← ringPdr.newFrame p.2
      ringPdr.addBlockedCube ⟨Cube.new [⟨2⟩, ⟨6⟩], .ok 1⟩ p.2) = .ok ((), s) := e
  rw [bind_ok] at e'
  obtain ⟨p1, e1, e'⟩ := e'
  rw [bind_ok] at e'
  obtain ⟨p2, e2, e'⟩ := e'
  rw [bind_ok] at e'
  obtain ⟨p3, e3, e4⟩ := e'
  exact .addBlockedCube (.newFrame (.newFrame (.newFrame .none e1) e2) e3) e4

theorem ring_flags : ∃ s, ringPrepare ringStart = .ok ((), s) ∧ Flags ring [8] s := by
  obtain ⟨s, e, _⟩ := ring_object
  exact ⟨s, e, C64_calls ring_built ring_small ring_prover ⟨rfl, rfl⟩ (ring_calls e)⟩

/-- One latch is dropped and the flag stays on; the call for the next state drops nothing and turns its flag off; the second such call skips the
reduction. -/
example : ringFlags ringPdr.getBadCube = some (some (Cube.new [⟨4⟩, ⟨6⟩]), true, true) ∧
    ringFlags (ringPdr.solveRelative ⟨Cube.new [⟨2⟩, ⟨6⟩], .ok 2⟩ .extractModel) = some (⟨Cube.new [⟨3⟩, ⟨4⟩, ⟨6⟩], .null⟩, false, true) ∧
    ringFlags (do
      let _ ← ringPdr.solveRelative ⟨Cube.new [⟨2⟩, ⟨6⟩], .ok 2⟩ .extractModel
      ringPdr.solveRelative ⟨Cube.new [⟨2⟩, ⟨6⟩], .ok 2⟩ .extractModel) = some (⟨Cube.new [⟨3⟩, ⟨4⟩, ⟨6⟩], .null⟩, false, true) ∧
    ringFlags (ringPdr.solveRelative ⟨Cube.new [⟨2⟩, ⟨6⟩], .ok 2⟩ .noInd) = some (⟨⟨[]⟩, .null⟩, true, true) := by decide +kernel
example {s s' : PDR.St (MiniSat.impl true Brute.ms)} {r : Option Cube} (hf : Flags ring [8] s) (e : ringPdr.getBadCube s = .ok (r, s')) :=
  C64_get_bad_cube ring_built ring_small ring_prover hf e

end Verif.Props
