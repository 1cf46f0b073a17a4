import Verif.Spec.Circuit

/-! # Deciding well-formedness of concrete circuits (used by the examples) -/

namespace Verif

instance (c : Circuit) (l : Nat) : Decidable (c.LitOK l) := inferInstanceAs (Decidable (_ ≤ _))

/-- Boolean version of `Circuit.WF`. -/
def Circuit.wfb (c : Circuit) : Bool :=
  c.latches.zipIdx.all (fun x => decide (c.LitOK x.1.1) && (x.1.2 == 0 || x.1.2 == 1 || x.1.2 == 2 * c.latchVar x.2)) &&
  c.ands.zipIdx.all (fun x => decide (x.1.1 < 2 * c.andVar x.2) && decide (x.1.2 ≤ x.1.1)) &&
  c.outputs.all (fun l => decide (c.LitOK l)) && c.bad.all (fun l => decide (c.LitOK l)) &&
  c.constraints.all (fun l => decide (c.LitOK l))

theorem Circuit.wf_of_wfb {c : Circuit} (h : c.wfb = true) : c.WF := by
  unfold Circuit.wfb at h
  simp only [Bool.and_eq_true, List.all_eq_true, decide_eq_true_eq, Bool.or_eq_true, beq_iff_eq] at h
  obtain ⟨⟨⟨⟨h1, h2⟩, h3⟩, h4⟩, h5⟩ := h
  refine ⟨?_, ?_, ?_, h3, h4, h5⟩
  · intro i p hp
    exact (h1 (p, i) (List.mk_mem_zipIdx_iff_getElem?.2 hp)).1
  · intro i p hp
    have := (h1 (p, i) (List.mk_mem_zipIdx_iff_getElem?.2 hp)).2
    simpa [or_assoc] using this
  · intro i p hp
    exact h2 (p, i) (List.mk_mem_zipIdx_iff_getElem?.2 hp)

end Verif
