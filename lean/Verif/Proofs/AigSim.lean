import Verif.Model.AigSim
import Verif.Spec.Trace
import Verif.Proofs.AigGet

/-! # Simulation computes the trace of the stored circuit -/

namespace Verif

/-- A loop that appends one element per item. -/
theorem foldlM_append {α β : Type} {step : List β → α → Res (List β)} (R : List β → α → β → Prop)
    (h : ∀ acc x r, step acc x = .ok r ↔ ∃ b, R acc x b ∧ r = acc ++ [b]) (l : List α) (acc r : List β) :
    l.foldlM step acc = .ok r ↔ ∃ bs, bs.length = l.length ∧ r = acc ++ bs ∧
      ∀ (i : Nat) x b, l[i]? = some x → bs[i]? = some b → R (acc ++ bs.take i) x b := by
  induction l generalizing acc r with
  | nil =>
    rw [List.foldlM_nil, pure_ok]
    constructor
    · rintro rfl; exact ⟨[], rfl, by simp, by simp⟩
    · rintro ⟨bs, h1, h2, _⟩
      rw [List.length_eq_zero_iff.1 h1, List.append_nil] at h2
      exact h2.symm
  | cons x xs ih =>
    rw [List.foldlM_cons, bind_ok]
    constructor
    · rintro ⟨acc', h1, h2⟩
      obtain ⟨b, hb, rfl⟩ := (h _ _ _).1 h1
      obtain ⟨bs, e1, e2, e3⟩ := (ih _ _).1 h2
      refine ⟨b :: bs, by simp [e1], by rw [e2]; simp, ?_⟩
      intro i y b' hy hb'
      cases i with
      | zero =>
        simp only [List.getElem?_cons_zero, Option.some.injEq] at hy hb'
        subst hy hb'
        simpa using hb
      | succ i =>
        have := e3 i y b' (by simpa using hy) (by simpa using hb')
        simpa using this
    · rintro ⟨bs, e1, e2, e3⟩
      cases bs with
      | nil => simp at e1
      | cons b bs =>
        have hb := e3 0 x b (by simp) (by simp)
        simp only [List.take_zero, List.append_nil] at hb
        refine ⟨acc ++ [b], (h _ _ _).2 ⟨b, hb, rfl⟩, (ih _ _).2 ⟨bs, by simpa using e1, by rw [e2]; simp, ?_⟩⟩
        intro i y b' hy hb'
        have := e3 (i + 1) y b' (by simpa using hy) (by simpa using hb')
        simpa using this

theorem readLit_ok {s : String} {st : List Bool} {l : Nat} {b : Bool} :
    Aig.readLit s st l = .ok b ↔ l / 2 < st.length ∧ b = litVal (rowVal st) l := by
  unfold Aig.readLit
  simp only [bind_ok, indexR_ok, pure_ok, shr_one]
  have hv : ∀ x, st[l / 2]? = some x → (if l % 2 = 0 then x else !x) = litVal (rowVal st) l := by
    intro x hx
    unfold litVal rowVal
    rw [List.getD_eq_getElem?_getD, hx]
    rcases Nat.mod_two_eq_zero_or_one l with h | h <;> rw [h] <;> cases x <;> rfl
  constructor
  · rintro ⟨x, hx, rfl⟩; exact ⟨getElem?_lt hx, hv x hx⟩
  · rintro ⟨hlt, rfl⟩
    exact ⟨_, List.getElem?_eq_getElem hlt, hv _ (List.getElem?_eq_getElem hlt)⟩

theorem getAndResult_ok {n : AIGNode} {st : List Bool} {b : Bool} (h0 : n.andInput0 ≠ usizeMax) (h1 : n.andInput1 ≠ usizeMax)
    (ht : n.nodeType = .and) : Aig.getAndResult n st = .ok b ↔
      n.andInput0 / 2 < st.length ∧ n.andInput1 / 2 < st.length ∧
        b = (litVal (rowVal st) n.andInput0 && litVal (rowVal st) n.andInput1) := by
  unfold Aig.getAndResult
  simp only [bind_ok, pure_ok, getAndRhs0_ok, getAndRhs1_ok, readLit_ok]
  constructor
  · rintro ⟨_, ⟨_, _, rfl⟩, _, ⟨_, _, rfl⟩, _, ⟨a1, rfl⟩, _, ⟨a2, rfl⟩, rfl⟩; exact ⟨a1, a2, rfl⟩
  · rintro ⟨a1, a2, rfl⟩; exact ⟨_, ⟨ht, h0, rfl⟩, _, ⟨ht, h1, rfl⟩, _, ⟨a1, rfl⟩, _, ⟨a2, rfl⟩, rfl⟩

theorem rowVal_take {row : List Bool} {j v : Nat} (h : v < j) : rowVal (row.take j) v = rowVal row v := by
  unfold rowVal
  rw [List.getD_eq_getElem?_getD, List.getD_eq_getElem?_getD, List.getElem?_take_of_lt h]

theorem litVal_take {row : List Bool} {j l : Nat} (h : l / 2 < j) : litVal (rowVal (row.take j)) l = litVal (rowVal row) l := by
  unfold litVal; rw [rowVal_take h]

theorem rowVal_of {row : List Bool} {j : Nat} {b : Bool} (h : row[j]? = some b) : rowVal row j = b := by
  unfold rowVal; rw [List.getD_eq_getElem?_getD, h]; rfl

theorem BoolMap.index_ok {s : String} {m : BoolMap} {k : Nat} {b : Bool} : m.index s k = .ok b ↔ m.get? k = some b := unwrapR_ok

/-- What a row must satisfy at variable `j`, given the values `latch` demands for latches. -/
def RowAt (c : Circuit) (input : BoolMap) (latch : Nat → Nat × Nat → Bool → Prop) (row : List Bool) (j : Nat) (b : Bool) : Prop :=
  (j = 0 → b = false) ∧ (∀ i, i < c.numInputs → j = 1 + i → input.get? (1 + i) = some b) ∧
  (∀ i p, c.latches[i]? = some p → j = c.latchVar i → latch i p b) ∧
  (∀ i p, c.ands[i]? = some p → j = c.andVar i → b = (litVal (rowVal row) p.1 && litVal (rowVal row) p.2))

/-- The step relation of both loops. -/
def StepR (a : Aig) (input : BoolMap) (latch : AIGNode → Bool → Prop) (acc : List Bool) (node : AIGNode) (b : Bool) : Prop :=
  acc.length = node.lit / 2 ∧
  (node.nodeType = .constantZero → acc.length = 0 ∧ b = false) ∧
  (node.nodeType = .input → input.get? (node.lit / 2) = some b) ∧
  (node.nodeType = .latch → latch node b) ∧
  (node.nodeType = .and → Aig.getAndResult node acc = .ok b)

/-- Rows built node by node are exactly the rows that are right at every variable. -/
theorem stepR_row {a : Aig} {c : Circuit} (hr : a.Represents c) (hw : c.WF) (input : BoolMap) (latch : AIGNode → Bool → Prop)
    (latch' : Nat → Nat × Nat → Bool → Prop)
    (hl : ∀ i p n b, c.latches[i]? = some p → a.nodes[c.latchVar i]? = some n → (latch n b ↔ latch' i p b)) (bs : List Bool)
    (hlen : bs.length = a.nodes.length) :
    (∀ (i : Nat) x b, a.nodes[i]? = some x → bs[i]? = some b → StepR a input latch (bs.take i) x b) ↔
      ∀ (j : Nat) b, bs[j]? = some b → RowAt c input latch' bs j b := by
  have hle : ∀ {j : Nat} {b : Bool}, bs[j]? = some b → (bs.take j).length = j := by
    intro j b h; have := getElem?_lt h; rw [List.length_take]; omega
  have hand : ∀ {i p}, c.ands[i]? = some p → p.1 / 2 < c.andVar i ∧ p.2 / 2 < c.andVar i := by
    intro i p hp; have := hw.and_ok i p hp; omega
  constructor
  · intro h j b hb
    obtain ⟨x, hn⟩ : ∃ x, a.nodes[j]? = some x := ⟨_, List.getElem?_eq_getElem (by rw [← hlen]; exact getElem?_lt hb)⟩
    obtain ⟨h0, h1, h2, h3, h4⟩ := h j _ b hn hb
    have hlit := hr.lit _ _ hn
    refine ⟨?_, ?_, ?_, ?_⟩
    · rintro rfl
      obtain ⟨m, hm, ht⟩ := hr.constNode
      rw [hn] at hm
      exact (h1 (by rw [Option.some.inj hm]; exact ht)).2
    · intro i hi hj
      obtain ⟨m, hm, ht⟩ := hr.inputNode i hi
      rw [← hj, hn] at hm
      have := h2 (by rw [Option.some.inj hm]; exact ht)
      rw [hlit, Nat.mul_div_cancel_left _ (by decide), hj] at this
      exact this
    · intro i p hp hj
      obtain ⟨m, hm, ht, _⟩ := hr.latchNode i p hp
      rw [hj] at hn
      rw [hn] at hm
      exact (hl i p _ b hp hn).1 (h3 (by rw [Option.some.inj hm]; exact ht))
    · intro i p hp hj
      obtain ⟨m, hm, ht, e0, e1⟩ := hr.andNode i p hp
      rw [← hj, hn] at hm
      have hm := Option.some.inj hm
      rw [← hm] at ht e0 e1
      have h4 := h4 ht
      rw [getAndResult_ok (by rw [e0]; exact hr.lit_lt (and_lit_ok hw hp).1) (by rw [e1]; exact hr.lit_lt (and_lit_ok hw hp).2) ht,
        e0, e1] at h4
      have hlt := hand hp
      rw [h4.2.2, litVal_take (by omega), litVal_take (by omega)]
  · intro h i x b hx hb
    obtain ⟨h0, h1, h2, h3⟩ := h i b hb
    have hlit := hr.lit _ _ hx
    have hdiv : x.lit / 2 = i := by rw [hlit, Nat.mul_div_cancel_left _ (by decide)]
    refine ⟨by rw [hle hb, hdiv], ?_⟩
    rcases hr.node_cases hx with ⟨hj, ht⟩ | ⟨k, hk, hj, ht⟩ | ⟨k, p, hp, hj, ht, e0, e1⟩ | ⟨k, p, hp, hj, ht, e0, e1⟩
    · rw [ht]
      refine ⟨fun _ => ⟨by rw [hle hb, hj], h0 hj⟩, by simp, by simp, by simp⟩
    · rw [ht, hdiv]
      refine ⟨by simp, fun _ => ?_, by simp, by simp⟩
      rw [hj]; exact h1 k hk hj
    · rw [ht]
      refine ⟨by simp, by simp, fun _ => ?_, by simp⟩
      exact (hl k p x b hp (hj ▸ hx)).2 (h2 k p hp hj)
    · rw [ht]
      refine ⟨by simp, by simp, by simp, fun _ => ?_⟩
      rw [getAndResult_ok (by rw [e0]; exact hr.lit_lt (and_lit_ok hw hp).1) (by rw [e1]; exact hr.lit_lt (and_lit_ok hw hp).2) ht,
        e0, e1, hle hb]
      have hlt := hand hp
      refine ⟨by omega, by omega, ?_⟩
      rw [litVal_take (by omega), litVal_take (by omega)]
      exact h3 k p hp hj

theorem rowAt_iff {c : Circuit} {input : BoolMap} {latch : Nat → Nat × Nat → Bool → Prop} {row : List Bool}
    (hlen : row.length = c.maxVar + 1) : (∀ (j : Nat) b, row[j]? = some b → RowAt c input latch row j b) ↔
      c.Row input.get? row ∧ ∀ (i : Nat) p, c.latches[i]? = some p → latch i p (rowVal row (c.latchVar i)) := by
  have get : ∀ j, j ≤ c.maxVar → row[j]? = some (rowVal row j) := by
    intro j hj
    have := List.getElem?_eq_getElem (l := row) (i := j) (by omega)
    rw [this, rowVal_of this]
  have hm : c.maxVar = c.numInputs + c.latches.length + c.ands.length := rfl
  constructor
  · intro h
    refine ⟨⟨hlen, ⟨?_, ?_⟩, ?_⟩, ?_⟩
    · exact (h 0 _ (get 0 (by omega))).1 rfl
    · intro i p hp
      have := getElem?_lt hp
      exact (h _ _ (get (c.andVar i) (by unfold Circuit.andVar; omega))).2.2.2 i p hp rfl
    · intro i hi
      exact (h _ _ (get (1 + i) (by omega))).2.1 i hi rfl
    · intro i p hp
      have := getElem?_lt hp
      exact (h _ _ (get (c.latchVar i) (by unfold Circuit.latchVar; omega))).2.2.1 i p hp rfl
  · rintro ⟨⟨_, ⟨f0, f1⟩, h1⟩, h2⟩ j b hb
    have hv := rowVal_of hb
    refine ⟨?_, ?_, ?_, ?_⟩
    · rintro rfl; rw [← hv]; exact f0
    · rintro i hi rfl; rw [← hv]; exact h1 i hi
    · rintro i p hp rfl; rw [← hv]; exact h2 i p hp
    · rintro i p hp rfl; rw [← hv]; exact f1 i p hp

/-- Latch requirement in the first clock, on a node. -/
def latchInitR (latches : BoolMap) (n : AIGNode) (b : Bool) : Prop :=
  n.latchReset ≠ usizeMax ∧ (if n.latchReset = 1 then b = true else if n.latchReset = 0 then b = false else
    n.latchReset / 2 = n.lit / 2 ∧ latches.get? (n.lit / 2) = some b)

theorem initialNode_ok (a : Aig) (input latches : BoolMap) (acc : List Bool) (p : AIGNode × Nat) (r : List Bool) :
    Aig.initialNode input latches acc p = .ok r ↔
      ∃ b, (p.1.lit / 2 = p.2 ∧ StepR a input (latchInitR latches) acc p.1 b) ∧ r = acc ++ [b] := by
  obtain ⟨n, i⟩ := p
  unfold Aig.initialNode StepR
  simp only [bind_ok, assertR_ok, beq_iff_eq, shr_one]
  cases ht : n.nodeType with
  | constantZero =>
    simp only [bind_ok, assertR_ok, beq_iff_eq, pure_ok, reduceCtorEq, false_imp_iff, and_true, true_imp_iff]
    constructor
    · rintro ⟨_, h1, _, h2, _, h3, rfl⟩; exact ⟨false, ⟨h1, h2, h3, rfl⟩, rfl⟩
    · rintro ⟨b, ⟨h1, h2, h3, rfl⟩, rfl⟩; exact ⟨(), h1, (), h2, (), h3, rfl⟩
  | input =>
    simp only [bind_ok, BoolMap.index_ok, pure_ok, reduceCtorEq, false_imp_iff, and_true, true_and, true_imp_iff]
    constructor
    · rintro ⟨_, h1, _, h2, b, h3, rfl⟩; exact ⟨b, ⟨h1, h2, h3⟩, rfl⟩
    · rintro ⟨b, ⟨h1, h2, h3⟩, rfl⟩; exact ⟨(), h1, (), h2, b, h3, rfl⟩
  | latch =>
    simp only [bind_ok, getLatchReset_ok, reduceCtorEq, false_imp_iff, and_true, true_and, true_imp_iff, latchInitR]
    constructor
    · rintro ⟨_, h1, _, h2, _, ⟨_, h3, rfl⟩, h4⟩
      split at h4
      · rename_i e
        rw [pure_ok] at h4
        exact ⟨true, ⟨h1, h2, h3, by rw [if_pos e]⟩, h4.symm⟩
      · rename_i e
        split at h4
        · rename_i e'
          rw [pure_ok] at h4
          exact ⟨false, ⟨h1, h2, h3, by rw [if_neg e, if_pos e']⟩, h4.symm⟩
        · rename_i e'
          simp only [bind_ok, assertR_ok, beq_iff_eq, BoolMap.index_ok, pure_ok] at h4
          obtain ⟨_, h5, _, h6, b, h7, rfl⟩ := h4
          exact ⟨b, ⟨h1, h2, h3, by rw [if_neg e, if_neg e']; exact ⟨h5, h7⟩⟩, rfl⟩
    · rintro ⟨b, ⟨h1, h2, h3, h4⟩, rfl⟩
      refine ⟨(), h1, (), h2, _, ⟨ht, h3, rfl⟩, ?_⟩
      split at h4
      · rename_i e; rw [if_pos e, h4]; rfl
      · rename_i e
        rw [if_neg e]
        split at h4
        · rename_i e'; rw [if_pos e', h4]; rfl
        · rename_i e'
          rw [if_neg e']
          simp only [bind_ok, assertR_ok, beq_iff_eq, BoolMap.index_ok, pure_ok]
          exact ⟨(), h4.1, (), by unfold BoolMap.containsKey; rw [h4.2]; rfl, b, h4.2, rfl⟩
  | and =>
    simp only [bind_ok, pure_ok, reduceCtorEq, false_imp_iff, true_and, true_imp_iff]
    constructor
    · rintro ⟨_, h1, _, h2, b, h3, rfl⟩; exact ⟨b, ⟨h1, h2, h3⟩, rfl⟩
    · rintro ⟨b, ⟨h1, h2, h3⟩, rfl⟩; exact ⟨(), h1, (), h2, b, h3, rfl⟩

/-- Latch requirement in a later clock, on a node. -/
def latchNextR (last : List Bool) (n : AIGNode) (b : Bool) : Prop :=
  n.latchInput ≠ usizeMax ∧ n.latchInput / 2 < last.length ∧ b = litVal (rowVal last) n.latchInput

theorem nextNode_ok (a : Aig) (last : List Bool) (input : BoolMap) (acc : List Bool) (n : AIGNode) (r : List Bool) :
    Aig.nextNode last input acc n = .ok r ↔ ∃ b, StepR a input (latchNextR last) acc n b ∧ r = acc ++ [b] := by
  unfold Aig.nextNode StepR
  simp only [bind_ok, assertR_ok, beq_iff_eq, shr_one]
  cases ht : n.nodeType with
  | constantZero =>
    simp only [bind_ok, assertR_ok, beq_iff_eq, pure_ok, reduceCtorEq, false_imp_iff, and_true, true_imp_iff]
    constructor
    · rintro ⟨_, h2, _, h3, rfl⟩; exact ⟨false, ⟨h2, h3, rfl⟩, rfl⟩
    · rintro ⟨b, ⟨h2, h3, rfl⟩, rfl⟩; exact ⟨(), h2, (), h3, rfl⟩
  | input =>
    simp only [bind_ok, BoolMap.index_ok, pure_ok, reduceCtorEq, false_imp_iff, and_true, true_and, true_imp_iff]
    constructor
    · rintro ⟨_, h2, b, h3, rfl⟩; exact ⟨b, ⟨h2, h3⟩, rfl⟩
    · rintro ⟨b, ⟨h2, h3⟩, rfl⟩; exact ⟨(), h2, b, h3, rfl⟩
  | latch =>
    simp only [bind_ok, getLatchInput_ok, readLit_ok, pure_ok, reduceCtorEq, false_imp_iff, and_true, true_and, true_imp_iff,
      latchNextR]
    constructor
    · rintro ⟨_, h2, _, ⟨_, h3, rfl⟩, _, ⟨h4, rfl⟩, rfl⟩; exact ⟨_, ⟨h2, h3, h4, rfl⟩, rfl⟩
    · rintro ⟨b, ⟨h2, h3, h4, rfl⟩, rfl⟩; exact ⟨(), h2, _, ⟨ht, h3, rfl⟩, _, ⟨h4, rfl⟩, rfl⟩
  | and =>
    simp only [bind_ok, pure_ok, reduceCtorEq, false_imp_iff, true_and, true_imp_iff]
    constructor
    · rintro ⟨_, h2, b, h3, rfl⟩; exact ⟨b, ⟨h2, h3⟩, rfl⟩
    · rintro ⟨b, ⟨h2, h3⟩, rfl⟩; exact ⟨(), h2, b, h3, rfl⟩

theorem nodes_len {a : Aig} {c : Circuit} (hr : a.Represents c) : a.nodes.length = c.maxVar + 1 := by
  rw [hr.nodes_length]; unfold Circuit.maxVar; omega

theorem initialState_ok {a : Aig} {c : Circuit} (hr : a.Represents c) (hw : c.WF) (input latches : BoolMap) (row : List Bool) :
    a.getInitialSimulationState input latches = .ok row ↔ c.Row input.get? row ∧ c.StartsAt latches.get? (rowVal row) := by
  have hlen := nodes_len hr
  unfold Aig.getInitialSimulationState
  simp only [bind_ok, assertR_ok, beq_iff_eq, pure_ok, foldlM_append _ (initialNode_ok a input latches)]
  have hl : ∀ i p n b, c.latches[i]? = some p → a.nodes[c.latchVar i]? = some n → (latchInitR latches n b ↔
      ((p.2 = 0 → b = false) ∧ (p.2 = 1 → b = true) ∧ (p.2 ≠ 0 → p.2 ≠ 1 → latches.get? (c.latchVar i) = some b))) := by
    intro i p n b hp hn
    obtain ⟨m, hm, _, _, hreset⟩ := hr.latchNode i p hp
    rw [hn] at hm; have hm := Option.some.inj hm; subst hm
    have hlit := hr.lit _ _ hn
    have hro := hw.reset_ok i p hp
    have hne := hr.lit_lt (reset_lit_ok hw hp)
    unfold latchInitR
    rw [hreset, hlit, Nat.mul_div_cancel_left _ (by decide)]
    rcases hro with h | h | h
    · rw [h]; simp [show (0 : Nat) ≠ usizeMax by decide]
    · rw [h]; simp [show (1 : Nat) ≠ usizeMax by decide]
    · have h0 : p.2 ≠ 0 := by rw [h]; unfold Circuit.latchVar; omega
      have h1 : p.2 ≠ 1 := by omega
      rw [if_neg h1, if_neg h0]
      have h2 : p.2 / 2 = c.latchVar i := by omega
      simp [hne, h0, h1, h2]
  constructor
  · rintro ⟨row', ⟨bs, h1, h2, h3⟩, _, h4, rfl⟩
    rw [List.nil_append] at h2
    subst h2
    simp only [List.nil_append] at h3
    have h1' : row'.length = a.nodes.length := h4
    have hstep : ∀ (i : Nat) x b, a.nodes[i]? = some x → row'[i]? = some b →
        StepR a input (latchInitR latches) (row'.take i) x b := by
      intro i x b hx hb
      exact (h3 i (x, i) b (by rw [List.getElem?_zipIdx, hx]; simp) hb).2
    have := (rowAt_iff (by rw [← hlen]; exact h1')).1 ((stepR_row hr hw input _ _ hl row' h1').1 hstep)
    exact this
  · rintro ⟨hrow, hstart⟩
    have h1' : row.length = a.nodes.length := by rw [hlen]; exact hrow.length
    have hstep := (stepR_row hr hw input _ _ hl row h1').2 ((rowAt_iff hrow.length).2 ⟨hrow, hstart⟩)
    refine ⟨row, ⟨row, by simpa using h1', by simp, ?_⟩, (), h1', rfl⟩
    rintro i ⟨x, k⟩ b hx hb
    rw [List.getElem?_zipIdx, Option.map_eq_some_iff] at hx
    obtain ⟨y, hy, e⟩ := hx
    simp only [Nat.zero_add, Prod.mk.injEq] at e
    obtain ⟨rfl, rfl⟩ := e
    refine ⟨?_, by simpa using hstep i y b hy hb⟩
    rw [hr.lit _ _ hy, Nat.mul_div_cancel_left _ (by decide)]

theorem nextState_ok {a : Aig} {c : Circuit} (hr : a.Represents c) (hw : c.WF) (last : List Bool)
    (hlast : last.length = c.maxVar + 1) (input : BoolMap) (row : List Bool) :
    a.getNextSimulationState last input = .ok row ↔ c.Row input.get? row ∧ c.Step (rowVal last) (rowVal row) := by
  have hlen := nodes_len hr
  unfold Aig.getNextSimulationState
  simp only [bind_ok, assertR_ok, beq_iff_eq, pure_ok, foldlM_append _ (nextNode_ok a last input)]
  have hl : ∀ i p n b, c.latches[i]? = some p → a.nodes[c.latchVar i]? = some n → (latchNextR last n b ↔
      b = litVal (rowVal last) p.1) := by
    intro i p n b hp hn
    obtain ⟨m, hm, _, hin, _⟩ := hr.latchNode i p hp
    rw [hn] at hm; have hm := Option.some.inj hm; subst hm
    have hok := hw.next_ok i p hp
    unfold latchNextR
    rw [hin]
    have h1 := hr.lit_lt hok
    have h2 : p.1 / 2 < last.length := by unfold Circuit.LitOK at hok; omega
    simp [h1, h2]
  constructor
  · rintro ⟨row', ⟨bs, h1, h2, h3⟩, _, h4, rfl⟩
    rw [List.nil_append] at h2
    subst h2
    simp only [List.nil_append] at h3
    exact (rowAt_iff (by rw [← hlen]; exact h4)).1 ((stepR_row hr hw input _ _ hl row' h4).1 h3)
  · rintro ⟨hrow, hstart⟩
    have h1' : row.length = a.nodes.length := by rw [hlen]; exact hrow.length
    have hstep := (stepR_row hr hw input _ _ hl row h1').2 ((rowAt_iff hrow.length).2 ⟨hrow, hstart⟩)
    exact ⟨row, ⟨row, h1', by simp, by simpa using hstep⟩, (), h1', rfl⟩

/-- The checks before the simulation loop. -/
structure SimChecks (c : Circuit) (get : BoolMap → Nat → Option Bool) (inputs : List BoolMap) (latches : BoolMap) : Prop where
  nonempty : inputs ≠ []
  clocks : ∀ clk ∈ inputs, clk.length = c.numInputs ∧ ∀ i, i < c.numInputs → (get clk (1 + i)).isSome
  few : latches.length ≤ c.latches.length
  quirk : ∀ (i : Nat) p, c.latches[i]? = some p → p.2 = c.latchVar i → (get latches (c.latchVar i)).isSome

theorem simulate_ok {a : Aig} {c : Circuit} (hr : a.Represents c) (hw : c.WF) (inputs : List BoolMap) (latches : BoolMap)
    (rows : List (List Bool)) : a.simulate inputs latches = .ok rows ↔
      SimChecks c BoolMap.get? inputs latches ∧ c.Trace (inputs.map BoolMap.get?) latches.get? rows := by
  unfold Aig.simulate
  simp only [bind_ok, assertR_ok, forM_ok, beq_iff_eq, decide_eq_true_eq]
  have hclk : ∀ clk, a.checkClock clk = .ok () ↔ clk.length = c.numInputs ∧ ∀ i, i < c.numInputs → (clk.get? (1 + i)).isSome := by
    intro clk
    unfold Aig.checkClock
    simp only [bind_ok, assertR_ok, forM_ok, beq_iff_eq]
    constructor
    · rintro ⟨_, h1, _, _, h2⟩
      refine ⟨by rw [h1, hr.numberOfInputs], ?_⟩
      intro i hi
      exact h2 (1 + i) (by rw [hr.inputs, List.mem_range']; exact ⟨i, hi, by simp⟩)
    · rintro ⟨h1, h2⟩
      refine ⟨(), by rw [h1, hr.numberOfInputs], (), by rw [hr.inputs, hr.numberOfInputs, List.length_range'], ?_⟩
      intro v hv
      rw [hr.inputs, List.mem_range'] at hv
      obtain ⟨i, hi, rfl⟩ := hv
      rw [Nat.one_mul]
      exact h2 i hi
  have hlatch : ∀ (i : Nat) p, c.latches[i]? = some p → (a.checkLatch latches (c.latchVar i) = .ok () ↔
      (p.2 = c.latchVar i → (latches.get? (c.latchVar i)).isSome)) := by
    intro i p hp
    obtain ⟨n, hn, ht, _, hreset⟩ := hr.latchNode i p hp
    unfold Aig.checkLatch
    simp only [bind_ok, indexR_ok, getLatchReset_ok]
    constructor
    · rintro ⟨m, hm, _, ⟨_, _, rfl⟩, h⟩ e
      rw [hn] at hm; have hm := Option.some.inj hm; subst hm
      rw [hreset, if_pos e, assertR_ok] at h
      exact h
    · intro h
      refine ⟨n, hn, _, ⟨ht, by rw [hreset]; exact hr.lit_lt (reset_lit_ok hw hp), rfl⟩, ?_⟩
      rw [hreset]
      split
      · rename_i e; rw [assertR_ok]; exact h e
      · rfl
  have hchecks : (∃ _ : Unit, (!inputs.isEmpty) = true ∧ ∃ _ : Unit, (∀ clk ∈ inputs, a.checkClock clk = .ok ()) ∧
      ∃ _ : Unit, latches.length ≤ a.numberOfLatches ∧ ∃ _ : Unit, a.latches.length = a.numberOfLatches ∧
      ∃ _ : Unit, (∀ v ∈ a.latches, a.checkLatch latches v = .ok ())) ↔ SimChecks c BoolMap.get? inputs latches := by
    constructor
    · rintro ⟨_, h1, _, h2, _, h3, _, _, _, h5⟩
      refine ⟨by rintro rfl; simp at h1, fun clk h => (hclk clk).1 (h2 clk h), by rw [← hr.numberOfLatches]; exact h3, ?_⟩
      intro i p hp
      refine (hlatch i p hp).1 (h5 _ ?_)
      rw [hr.latches, List.mem_range']
      exact ⟨i, getElem?_lt hp, by unfold Circuit.latchVar; omega⟩
    · rintro ⟨h1, h2, h3, h4⟩
      refine ⟨(), by simpa using h1, (), fun clk h => (hclk clk).2 (h2 clk h), (), by rw [hr.numberOfLatches]; exact h3, (),
        by rw [hr.latches, hr.numberOfLatches, List.length_range'], (), ?_⟩
      intro v hv
      rw [hr.latches, List.mem_range'] at hv
      obtain ⟨i, hi, rfl⟩ := hv
      rw [Nat.one_mul]
      have hp := List.getElem?_eq_getElem hi
      exact (hlatch i _ hp).2 (h4 i _ hp)
  rw [← hchecks]
  -- the loop
  have hstep : ∀ acc x r, a.simulateClock inputs latches acc x = .ok r ↔ ∃ row,
      (if x.2 = 0 then ∃ first, inputs[0]? = some first ∧ a.getInitialSimulationState first latches = .ok row
        else ∃ last, acc.getLast? = some last ∧ a.getNextSimulationState last x.1 = .ok row) ∧ r = acc ++ [row] := by
    rintro acc ⟨x, k⟩ r
    unfold Aig.simulateClock
    simp only
    split
    · simp only [bind_ok, indexR_ok, pure_ok]
      constructor
      · rintro ⟨f, h1, row, h2, rfl⟩; exact ⟨row, ⟨f, h1, h2⟩, rfl⟩
      · rintro ⟨row, ⟨f, h1, h2⟩, rfl⟩; exact ⟨f, h1, row, h2, rfl⟩
    · simp only [bind_ok, unwrapR_ok, pure_ok]
      constructor
      · rintro ⟨f, h1, row, h2, rfl⟩; exact ⟨row, ⟨f, h1, h2⟩, rfl⟩
      · rintro ⟨row, ⟨f, h1, h2⟩, rfl⟩; exact ⟨f, h1, row, h2, rfl⟩
  have hloop : inputs.zipIdx.foldlM (a.simulateClock inputs latches) [] = .ok rows ↔
      c.Trace (inputs.map BoolMap.get?) latches.get? rows := by
    rw [foldlM_append _ hstep]
    have zip : ∀ (t : Nat) inp, inputs[t]? = some inp → inputs.zipIdx[t]? = some (inp, t) := by
      intro t inp h; rw [List.getElem?_zipIdx, h]; simp
    have lastOf : ∀ (rs : List (List Bool)) (t : Nat) (r : List Bool), rs[t]? = some r → (rs.take (t + 1)).getLast? = some r := by
      intro rs t r h
      rw [List.getLast?_eq_getElem?, List.length_take]
      have := getElem?_lt h
      rw [Nat.min_eq_left (by omega), Nat.add_sub_cancel, List.getElem?_take_of_lt (by omega)]
      exact h
    constructor
    · rintro ⟨bs, h1, h2, h3⟩
      rw [List.nil_append] at h2
      subst h2
      simp only [List.nil_append] at h3
      have hl : rows.length = inputs.length := by simpa using h1
      -- rows are right, in order
      have hrow : ∀ (t : Nat) inp r, inputs[t]? = some inp → rows[t]? = some r → c.Row inp.get? r ∧
          (t = 0 → c.StartsAt latches.get? (rowVal r)) ∧
          (∀ s r', t = s + 1 → rows[s]? = some r' → c.Step (rowVal r') (rowVal r)) := by
        intro t
        induction t with
        | zero =>
          intro inp r hi hr'
          have := h3 0 _ r (zip 0 inp hi) hr'
          simp only [if_pos] at this
          obtain ⟨f, e, h4⟩ := this
          rw [hi] at e; have e := Option.some.inj e; subst e
          rw [initialState_ok hr hw] at h4
          exact ⟨h4.1, fun _ => h4.2, by intro s r' h; omega⟩
        | succ t ih =>
          intro inp r hi hr'
          have := h3 (t + 1) _ r (zip (t + 1) inp hi) hr'
          rw [if_neg (by simp)] at this
          obtain ⟨last, e, h4⟩ := this
          have hlt := getElem?_lt hr'
          have hprev := List.getElem?_eq_getElem (l := rows) (i := t) (by omega)
          have hinp := List.getElem?_eq_getElem (l := inputs) (i := t) (by omega)
          rw [lastOf rows t _ hprev] at e
          have e := Option.some.inj e
          subst e
          have hpl := (ih _ _ hinp hprev).1.length
          rw [nextState_ok hr hw _ hpl] at h4
          refine ⟨h4.1, by omega, ?_⟩
          intro s r' hs hr''
          have : s = t := by omega
          subst this
          rw [hprev] at hr''
          rw [← Option.some.inj hr'']
          exact h4.2
      refine ⟨by simpa using hl, ?_, ?_, ?_⟩
      · intro t inp r hi hr'
        rw [List.getElem?_map, Option.map_eq_some_iff] at hi
        obtain ⟨m, hm, rfl⟩ := hi
        exact (hrow t m r hm hr').1
      · intro r hr'
        have hlt := getElem?_lt hr'
        exact (hrow 0 _ r (List.getElem?_eq_getElem (by omega)) hr').2.1 rfl
      · intro t r r' h5 h6
        have hlt := getElem?_lt h6
        exact (hrow (t + 1) _ r' (List.getElem?_eq_getElem (by omega)) h6).2.2 t r rfl h5
    · rintro ⟨h1, h2, h3, h4⟩
      rw [List.length_map] at h1
      refine ⟨rows, by simpa using h1, by simp, ?_⟩
      rintro t ⟨inp, k⟩ r hx hr'
      rw [List.getElem?_zipIdx, Option.map_eq_some_iff] at hx
      obtain ⟨y, hy, e⟩ := hx
      simp only [Nat.zero_add, Prod.mk.injEq] at e
      obtain ⟨rfl, rfl⟩ := e
      have hrowt := h2 t y.get? r (by rw [List.getElem?_map, hy]; rfl) hr'
      cases t with
      | zero =>
        rw [if_pos rfl]
        exact ⟨y, hy, (initialState_ok hr hw _ _ _).2 ⟨hrowt, h3 r hr'⟩⟩
      | succ t =>
        rw [if_neg (by simp)]
        have hlt := getElem?_lt hr'
        have hprev := List.getElem?_eq_getElem (l := rows) (i := t) (by omega)
        have hinp := List.getElem?_eq_getElem (l := inputs) (i := t) (by omega)
        refine ⟨_, by rw [List.nil_append]; exact lastOf rows t _ hprev, ?_⟩
        rw [nextState_ok hr hw _ (h2 t _ _ (by rw [List.getElem?_map, hinp]; rfl) hprev).length]
        exact ⟨hrowt, h4 t _ _ hprev hr'⟩
  rw [← hloop]
  constructor
  · rintro ⟨_, h1, _, h2, _, h3, _, h4, _, h5, h6⟩
    exact ⟨⟨(), h1, (), h2, (), h3, (), h4, (), h5⟩, h6⟩
  · rintro ⟨⟨_, h1, _, h2, _, h3, _, h4, _, h5⟩, h6⟩
    exact ⟨(), h1, (), h2, (), h3, (), h4, (), h5, h6⟩

theorem BoolMap.get?_given (m : BoolMap) : m.get? = given m := by
  funext v
  unfold BoolMap.get? given
  induction m with
  | nil => rfl
  | cons p m ih =>
    obtain ⟨k, b⟩ := p
    rw [List.find?_cons, List.lookup_cons]
    by_cases h : k = v
    · subst h; simp
    · rw [show (k == v) = false from beq_eq_false_iff_ne.2 h, show (v == k) = false from beq_eq_false_iff_ne.2 (Ne.symm h)]
      exact ih

/-- The same in terms of `given`. -/
theorem simulate_given {a : Aig} {c : Circuit} (hr : a.Represents c) (hw : c.WF) (inputs : List BoolMap) (latches : BoolMap)
    (rows : List (List Bool)) : a.simulate inputs latches = .ok rows ↔
      SimChecks c given inputs latches ∧ c.Trace (inputs.map given) (given latches) rows := by
  have e : BoolMap.get? = given := funext BoolMap.get?_given
  rw [simulate_ok hr hw, e]

end Verif
