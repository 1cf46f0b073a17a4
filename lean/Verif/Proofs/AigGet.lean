import Verif.Proofs.AigEncode

/-! # Reading a stored circuit back: getters and the cone of influence -/

namespace Verif

theorem Aig.Represents.node_cases {a : Aig} {c : Circuit} (h : a.Represents c) {j : Nat} {n : AIGNode} (hn : a.nodes[j]? = some n) :
    (j = 0 ∧ n.nodeType = .constantZero) ∨ (∃ i, i < c.numInputs ∧ j = 1 + i ∧ n.nodeType = .input) ∨
    (∃ i p, c.latches[i]? = some p ∧ j = c.latchVar i ∧ n.nodeType = .latch ∧ n.latchInput = p.1 ∧ n.latchReset = p.2) ∨
    (∃ i p, c.ands[i]? = some p ∧ j = c.andVar i ∧ n.nodeType = .and ∧ n.andInput0 = p.1 ∧ n.andInput1 = p.2) := by
  have hlt := getElem?_lt hn
  rw [h.nodes_length] at hlt
  rcases Nat.eq_zero_or_pos j with rfl | h0
  · obtain ⟨m, hm, ht⟩ := h.constNode
    rw [hn] at hm; have hm := Option.some.inj hm; subst hm
    exact Or.inl ⟨rfl, ht⟩
  · by_cases h1 : j < 1 + c.numInputs
    · right; left
      obtain ⟨m, hm, ht⟩ := h.inputNode (j - 1) (by omega)
      rw [show 1 + (j - 1) = j by omega, hn] at hm; have hm := Option.some.inj hm; subst hm
      exact ⟨j - 1, by omega, by omega, ht⟩
    · right; right
      by_cases h2 : j < 1 + c.numInputs + c.latches.length
      · left
        have hi : j - (1 + c.numInputs) < c.latches.length := by omega
        have hp := List.getElem?_eq_getElem hi
        obtain ⟨m, hm, ht⟩ := h.latchNode _ _ hp
        have e : c.latchVar (j - (1 + c.numInputs)) = j := by unfold Circuit.latchVar; omega
        rw [e, hn] at hm; have hm := Option.some.inj hm; subst hm
        exact ⟨_, _, hp, e.symm, ht⟩
      · right
        have hi : j - (1 + c.numInputs + c.latches.length) < c.ands.length := by omega
        have hp := List.getElem?_eq_getElem hi
        obtain ⟨m, hm, ht⟩ := h.andNode _ _ hp
        have e : c.andVar (j - (1 + c.numInputs + c.latches.length)) = j := by unfold Circuit.andVar; omega
        rw [e, hn] at hm; have hm := Option.some.inj hm; subst hm
        exact ⟨_, _, hp, e.symm, ht⟩

/-- Every literal of the circuit is below the "not set" marker. -/
theorem Aig.Represents.lit_lt {a : Aig} {c : Circuit} (h : a.Represents c) {l : Nat} (hl : c.LitOK l) : l ≠ usizeMax := by
  have := h.fits
  unfold Circuit.LitOK at hl
  have e : usizeMax = 18446744073709551615 := rfl
  omega

theorem and_lit_ok {c : Circuit} (hw : c.WF) {i : Nat} {p : Nat × Nat} (hp : c.ands[i]? = some p) : c.LitOK p.1 ∧ c.LitOK p.2 := by
  have h1 := hw.and_ok i p hp
  have h2 := getElem?_lt hp
  unfold Circuit.LitOK Circuit.maxVar
  unfold Circuit.andVar at h1
  omega

theorem reset_lit_ok {c : Circuit} (hw : c.WF) {i : Nat} {p : Nat × Nat} (hp : c.latches[i]? = some p) : c.LitOK p.2 := by
  have h1 := hw.reset_ok i p hp
  have h2 := getElem?_lt hp
  unfold Circuit.LitOK Circuit.maxVar
  unfold Circuit.latchVar at h1
  omega

theorem getLatchInput_ok {n : AIGNode} {x : Nat} : n.getLatchInput = .ok x ↔ n.nodeType = .latch ∧ n.latchInput ≠ usizeMax ∧ x = n.latchInput := by
  unfold AIGNode.getLatchInput
  simp only [bind_ok, assertR_ok, pure_ok, beq_iff_eq, bne_iff_ne]
  constructor
  · rintro ⟨_, h1, _, h2, h3⟩; exact ⟨h1, h2, h3.symm⟩
  · rintro ⟨h1, h2, h3⟩; exact ⟨(), h1, (), h2, h3.symm⟩

theorem getLatchReset_ok {n : AIGNode} {x : Nat} : n.getLatchReset = .ok x ↔ n.nodeType = .latch ∧ n.latchReset ≠ usizeMax ∧ x = n.latchReset := by
  unfold AIGNode.getLatchReset
  simp only [bind_ok, assertR_ok, pure_ok, beq_iff_eq, bne_iff_ne]
  constructor
  · rintro ⟨_, h1, _, h2, h3⟩; exact ⟨h1, h2, h3.symm⟩
  · rintro ⟨h1, h2, h3⟩; exact ⟨(), h1, (), h2, h3.symm⟩

theorem getAndRhs0_ok {n : AIGNode} {x : Nat} : n.getAndRhs0 = .ok x ↔ n.nodeType = .and ∧ n.andInput0 ≠ usizeMax ∧ x = n.andInput0 := by
  unfold AIGNode.getAndRhs0
  simp only [bind_ok, assertR_ok, pure_ok, beq_iff_eq, bne_iff_ne]
  constructor
  · rintro ⟨_, h1, _, h2, h3⟩; exact ⟨h1, h2, h3.symm⟩
  · rintro ⟨h1, h2, h3⟩; exact ⟨(), h1, (), h2, h3.symm⟩

theorem getAndRhs1_ok {n : AIGNode} {x : Nat} : n.getAndRhs1 = .ok x ↔ n.nodeType = .and ∧ n.andInput1 ≠ usizeMax ∧ x = n.andInput1 := by
  unfold AIGNode.getAndRhs1
  simp only [bind_ok, assertR_ok, pure_ok, beq_iff_eq, bne_iff_ne]
  constructor
  · rintro ⟨_, h1, _, h2, h3⟩; exact ⟨h1, h2, h3.symm⟩
  · rintro ⟨h1, h2, h3⟩; exact ⟨(), h1, (), h2, h3.symm⟩

theorem getInputInformation_eq {a : Aig} {c : Circuit} (h : a.Represents c) :
    a.getInputInformation = .ok ((List.range c.numInputs).map (fun i => 2 * (1 + i))) := by
  unfold Aig.getInputInformation
  rw [mapM_ok_iff]
  refine ⟨by simp [h.inputs], ?_⟩
  intro i x hx
  rw [h.inputs] at hx
  have hlt := getElem?_lt hx
  rw [List.length_range'] at hlt
  rw [List.getElem?_range' hlt, Nat.one_mul] at hx
  have hx := Option.some.inj hx
  subst hx
  obtain ⟨n, hn, _⟩ := h.inputNode i hlt
  refine ⟨2 * (1 + i), ?_, ?_⟩
  · rw [List.getElem?_map, List.getElem?_range hlt]; rfl
  · simp only [bind_ok, indexR_ok, pure_ok]
    exact ⟨n, hn, h.lit _ _ hn⟩

theorem getLatchInformation_eq {a : Aig} {c : Circuit} (h : a.Represents c) (hw : c.WF) :
    a.getLatchInformation = .ok (c.latches.zipIdx.map (fun x => (2 * c.latchVar x.2, x.1.1, x.1.2))) := by
  unfold Aig.getLatchInformation
  rw [mapM_ok_iff]
  refine ⟨by simp [h.latches], ?_⟩
  intro i x hx
  rw [h.latches] at hx
  have hlt := getElem?_lt hx
  rw [List.length_range'] at hlt
  rw [List.getElem?_range' hlt, Nat.one_mul] at hx
  have hx := Option.some.inj hx
  subst hx
  have hp := List.getElem?_eq_getElem hlt
  obtain ⟨n, hn, h1, h2, h3⟩ := h.latchNode i _ hp
  refine ⟨(2 * c.latchVar i, c.latches[i].1, c.latches[i].2), ?_, ?_⟩
  · rw [List.getElem?_map, List.getElem?_zipIdx, hp]; simp
  · simp only [bind_ok, indexR_ok, pure_ok, getLatchInput_ok, getLatchReset_ok]
    refine ⟨n, hn, _, ⟨h1, ?_, h2.symm⟩, _, ⟨h1, ?_, h3.symm⟩, ?_⟩
    · rw [h2]; exact h.lit_lt (hw.next_ok i _ hp)
    · rw [h3]; exact h.lit_lt (reset_lit_ok hw hp)
    · rw [h.lit _ _ hn]

/-! ### Cone of influence -/

/-- The triple reported for AND gate `i`. -/
def gateOf (c : Circuit) (i : Nat) : Option (Nat × Nat × Nat) := (c.ands[i]?).map (fun p => (2 * c.andVar i, p.1, p.2))

def allGates (c : Circuit) : List (Nat × Nat × Nat) := c.ands.zipIdx.map (fun x => (2 * c.andVar x.2, x.1.1, x.1.2))

theorem mem_allGates {c : Circuit} {g : Nat × Nat × Nat} : g ∈ allGates c ↔ ∃ i, gateOf c i = some g := by
  unfold allGates gateOf
  simp only [List.mem_map, Option.map_eq_some_iff]
  constructor
  · rintro ⟨⟨p, i⟩, hm, rfl⟩
    exact ⟨i, p, List.mk_mem_zipIdx_iff_getElem?.1 hm, rfl⟩
  · rintro ⟨i, p, hp, rfl⟩
    exact ⟨(p, i), List.mk_mem_zipIdx_iff_getElem?.2 hp, rfl⟩

theorem gateOf_inj {c : Circuit} {i j : Nat} {g : Nat × Nat × Nat} (hi : gateOf c i = some g) (hj : gateOf c j = some g) : i = j := by
  unfold gateOf at hi hj
  rw [Option.map_eq_some_iff] at hi hj
  obtain ⟨p, _, rfl⟩ := hi
  obtain ⟨q, _, e⟩ := hj
  have := congrArg Prod.fst e
  simp [Circuit.andVar] at this
  omega

/-- What the worklist loop returns. -/
structure ConeOut (c : Circuit) (todo : List Nat) (gates out : List (Nat × Nat × Nat)) : Prop where
  nodup : out.Nodup
  mono : ∀ g ∈ gates, g ∈ out
  roots : ∀ l ∈ todo, ∀ i g, gateOf c i = some g → l / 2 = c.andVar i → g ∈ out
  closed : ∀ g ∈ out, g ∉ gates → ∀ l, (l = g.2.1 ∨ l = g.2.2) → ∀ i g', gateOf c i = some g' → l / 2 = c.andVar i → g' ∈ out
  sound : ∀ g ∈ out, g ∉ gates → ∃ i, gateOf c i = some g ∧ c.InCone todo i

theorem inCone_mono {c : Circuit} {ls ls' : List Nat} (h : ∀ l ∈ ls, l ∈ ls') {i : Nat} (hi : c.InCone ls i) : c.InCone ls' i := by
  induction hi with
  | root h1 h2 h3 => exact .root (h _ h1) h2 h3
  | input _ h2 h3 h4 h5 ih => exact .input ih h2 h3 h4 h5

theorem coneLoop_ok {a : Aig} {c : Circuit} (hr : a.Represents c) (hw : c.WF) (fuel : Nat) (todo : List Nat)
    (gates : List (Nat × Nat × Nat)) (hn : gates.Nodup) (hg : ∀ g ∈ gates, ∃ i, gateOf c i = some g)
    (ht : ∀ l ∈ todo, c.LitOK l) (hf : todo.length + 2 * (c.ands.length - gates.length) ≤ fuel) :
    ∃ out, a.coneLoop fuel todo gates = .ok out ∧ ConeOut c todo gates out := by
  induction fuel generalizing todo gates with
  | zero =>
    have : todo = [] := List.length_eq_zero_iff.1 (by omega)
    subst this
    exact ⟨gates, by rw [Aig.coneLoop], hn, fun g h => h, by simp, fun g h h' => absurd h h', fun g h h' => absurd h h'⟩
  | succ fuel ih =>
    cases todo with
    | nil => exact ⟨gates, by rw [Aig.coneLoop], hn, fun g h => h, by simp, fun g h h' => absurd h h', fun g h h' => absurd h h'⟩
    | cons l todo =>
      obtain ⟨n, hnode⟩ := hr.node_exists (ht l (by simp))
      have hnode' : indexR "getting.rs:224 index" a.nodes (l >>> 1) = .ok n := by rw [indexR_ok, shr_one]; exact hnode
      rw [List.length_cons] at hf
      -- a literal that is not an AND gate
      have skip : n.nodeType ≠ .and → (∀ i g, gateOf c i = some g → l / 2 = c.andVar i → False) := by
        intro hne i g hgi hl
        unfold gateOf at hgi
        rw [Option.map_eq_some_iff] at hgi
        obtain ⟨p, hp, _⟩ := hgi
        obtain ⟨m, hm, hty, _⟩ := hr.andNode i p hp
        rw [← hl, hnode] at hm
        have hm := Option.some.inj hm
        subst hm
        exact hne hty
      have skipOut : ∀ {out}, (∀ i g, gateOf c i = some g → l / 2 = c.andVar i → g ∈ out) → ConeOut c todo gates out →
          ConeOut c (l :: todo) gates out := by
        intro out hl ho
        refine ⟨ho.nodup, ho.mono, ?_, ho.closed, ?_⟩
        · intro l' hl' i g hgi e
          rcases List.mem_cons.1 hl' with rfl | hl'
          · exact hl i g hgi e
          · exact ho.roots l' hl' i g hgi e
        · intro g h1 h2
          obtain ⟨i, h3, h4⟩ := ho.sound g h1 h2
          exact ⟨i, h3, inCone_mono (fun x hx => List.mem_cons_of_mem _ hx) h4⟩
      have ht' : ∀ l ∈ todo, c.LitOK l := fun x hx => ht x (List.mem_cons_of_mem _ hx)
      rw [Aig.coneLoop, hnode']
      simp only [bind, Except.bind]
      rcases hr.node_cases hnode with ⟨_, hty⟩ | ⟨_, _, _, hty⟩ | ⟨_, _, _, _, hty, _⟩ | ⟨i, p, hp, hj, hty, h0, h1⟩
      · rw [hty]
        obtain ⟨out, h1, h2⟩ := ih todo gates hn hg ht' (by omega)
        exact ⟨out, h1, skipOut (fun i g h e => (skip (by rw [hty]; simp) i g h e).elim) h2⟩
      · rw [hty]
        obtain ⟨out, h1, h2⟩ := ih todo gates hn hg ht' (by omega)
        exact ⟨out, h1, skipOut (fun i g h e => (skip (by rw [hty]; simp) i g h e).elim) h2⟩
      · rw [hty]
        obtain ⟨out, h1, h2⟩ := ih todo gates hn hg ht' (by omega)
        exact ⟨out, h1, skipOut (fun i g h e => (skip (by rw [hty]; simp) i g h e).elim) h2⟩
      · have r0 : n.getAndRhs0 = .ok p.1 := getAndRhs0_ok.2 ⟨hty, by rw [h0]; exact hr.lit_lt (and_lit_ok hw hp).1, h0.symm⟩
        have r1 : n.getAndRhs1 = .ok p.2 := getAndRhs1_ok.2 ⟨hty, by rw [h1]; exact hr.lit_lt (and_lit_ok hw hp).2, h1.symm⟩
        have hlit := hr.lit _ _ hnode
        rw [hj] at hlit
        have hgate : gateOf c i = some (2 * c.andVar i, p.1, p.2) := by unfold gateOf; rw [hp]; rfl
        have hli : ∀ i' g, gateOf c i' = some g → l / 2 = c.andVar i' → g = (2 * c.andVar i, p.1, p.2) := by
          intro i' g hg' e
          have : i' = i := by rw [e] at hj; unfold Circuit.andVar at hj; omega
          subst this
          rw [hgate] at hg'
          exact (Option.some.inj hg').symm
        rw [hty, r0, r1, hlit]
        simp only
        split
        · rename_i hmem
          obtain ⟨out, h1, h2⟩ := ih todo gates hn hg ht' (by omega)
          refine ⟨out, h1, skipOut ?_ h2⟩
          intro i' g hg' e
          rw [hli i' g hg' e]
          exact h2.mono _ hmem
        · rename_i hnot
          have hlen : gates.length + 1 ≤ c.ands.length := by
            have h1 : ((2 * c.andVar i, p.1, p.2) :: gates).Nodup := List.nodup_cons.2 ⟨hnot, hn⟩
            have h2 : ((2 * c.andVar i, p.1, p.2) :: gates).length ≤ (allGates c).length := by
              apply List.Nodup.length_le_of_subset h1
              intro g hg'
              rw [mem_allGates]
              rcases List.mem_cons.1 hg' with rfl | hg'
              · exact ⟨i, hgate⟩
              · exact hg g hg'
            unfold allGates at h2
            simpa using h2
          have hl2 : (setInsert gates (2 * c.andVar i, p.1, p.2)).length = gates.length + 1 := by
            unfold setInsert; rw [if_neg hnot]; simp
          obtain ⟨out, h1, h2⟩ := ih (todo ++ [p.1, p.2]) (setInsert gates (2 * c.andVar i, p.1, p.2)) (nodup_setInsert hn) (by
              intro g hg'
              rcases mem_setInsert.1 hg' with hg' | rfl
              · exact hg g hg'
              · exact ⟨i, hgate⟩) (by
              intro x hx
              rcases List.mem_append.1 hx with hx | hx
              · exact ht' x hx
              · simp only [List.mem_cons, List.not_mem_nil, or_false] at hx
                rcases hx with rfl | rfl
                · exact (and_lit_ok hw hp).1
                · exact (and_lit_ok hw hp).2) (by
              rw [hl2, List.length_append]
              simp only [List.length_cons, List.length_nil]
              omega)
          have hroot : c.InCone (l :: todo) i := .root (by simp) hj (getElem?_lt hp)
          have lift : ∀ {k}, c.InCone (todo ++ [p.1, p.2]) k → c.InCone (l :: todo) k := by
            intro k hk
            induction hk with
            | @root l' j hm e hlt =>
              rcases List.mem_append.1 hm with hm | hm
              · exact .root (List.mem_cons_of_mem _ hm) e hlt
              · exact .input hroot hp (by simpa using hm) e hlt
            | input _ h2 h3 h4 h5 ih => exact .input ih h2 h3 h4 h5
          refine ⟨out, h1, h2.nodup, fun g hg' => h2.mono g (mem_setInsert.2 (Or.inl hg')), ?_, ?_, ?_⟩
          · intro l' hl' i' g hg' e
            rcases List.mem_cons.1 hl' with rfl | hl'
            · rw [hli i' g hg' e]
              exact h2.mono _ (mem_setInsert.2 (Or.inr rfl))
            · exact h2.roots l' (by simp [hl']) i' g hg' e
          · intro g hgo hgn l' hl' i' g' hg' e
            by_cases hgi : g = (2 * c.andVar i, p.1, p.2)
            · subst hgi
              exact h2.roots l' (by simp at hl'; simp [hl']) i' g' hg' e
            · exact h2.closed g hgo (by rw [mem_setInsert]; simp [hgn, hgi]) l' hl' i' g' hg' e
          · intro g hgo hgn
            by_cases hgi : g = (2 * c.andVar i, p.1, p.2)
            · subst hgi; exact ⟨i, hgate, hroot⟩
            · obtain ⟨k, h3, h4⟩ := h2.sound g hgo (by rw [mem_setInsert]; simp [hgn, hgi])
              exact ⟨k, h3, lift h4⟩

theorem cone_ok {a : Aig} {c : Circuit} (hr : a.Represents c) (hw : c.WF)
    (order : List (Nat × Nat × Nat) → List (Nat × Nat × Nat)) (ho : ∀ l, (order l).Perm l) (ls : List Nat)
    (hl : ∀ l ∈ ls, c.LitOK l) :
    ∃ gs, a.getAndInformationInCone order ls = .ok gs ∧ gs.Nodup ∧
      ∀ g, g ∈ gs ↔ ∃ i p, c.ands[i]? = some p ∧ c.InCone ls i ∧ g = (2 * c.andVar i, p.1, p.2) := by
  obtain ⟨out, h1, h2⟩ := coneLoop_ok hr hw (ls.length + 2 * a.nodes.length) ls [] List.nodup_nil (by simp) hl (by
    rw [hr.nodes_length]; simp; omega)
  refine ⟨order out, ?_, (ho out).nodup_iff.2 h2.nodup, ?_⟩
  · unfold Aig.getAndInformationInCone
    rw [h1]; rfl
  · intro g
    rw [(ho out).mem_iff]
    constructor
    · intro hg
      obtain ⟨i, h3, h4⟩ := h2.sound g hg (by simp)
      unfold gateOf at h3
      rw [Option.map_eq_some_iff] at h3
      obtain ⟨p, hp, rfl⟩ := h3
      exact ⟨i, p, hp, h4, rfl⟩
    · rintro ⟨i, p, hp, hi, rfl⟩
      have hgate : ∀ {i p}, c.ands[i]? = some p → gateOf c i = some (2 * c.andVar i, p.1, p.2) := by
        intro i p hp; unfold gateOf; rw [hp]; rfl
      suffices H : ∀ i, c.InCone ls i → ∀ p, c.ands[i]? = some p → (2 * c.andVar i, p.1, p.2) ∈ out from H i hi p hp
      intro i hi
      induction hi with
      | root hm e hlt => intro p hp; exact h2.roots _ hm _ _ (hgate hp) e
      | input _ hq hl' e hlt ih =>
        intro p hp
        exact h2.closed _ (ih _ hq) (by simp) _ hl' _ _ (hgate hp) e

end Verif
