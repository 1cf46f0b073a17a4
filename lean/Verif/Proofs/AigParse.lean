import Verif.Proofs.AigHeader
import Verif.Spec.Represents

/-! # What the reader accepts: one exact description of every stage -/

namespace Verif

open Aiger

def inputNodeOf (i : Nat) : AIGNode := ⟨.input, 2 * (i + 1), usizeMax, usizeMax, usizeMax, usizeMax, [], [], [], [], []⟩

def latchNodeOf (numInputs i : Nat) (p : Nat × Nat) : AIGNode :=
  ⟨.latch, 2 * (i + numInputs + 1), p.1, p.2, usizeMax, usizeMax, [], [], [], [], []⟩

def andNodeOf (lhs i : Nat) (p : Nat × Nat) : AIGNode :=
  ⟨.and, lhs + 2 * (i + 1), usizeMax, usizeMax, p.1, p.2, [], [], [], [], []⟩

theorem AIGNode.new_ok {l : Nat} {ty : NodeType} {n : AIGNode} : AIGNode.new l ty = .ok n ↔
    l % 2 = 0 ∧ n = ⟨ty, l, usizeMax, usizeMax, usizeMax, usizeMax, [], [], [], [], []⟩ := by
  unfold AIGNode.new
  rw [bind_ok]
  simp only [assertR_ok, pure_ok, beq_iff_eq]
  constructor
  · rintro ⟨_, h1, h2⟩; exact ⟨h1, h2.symm⟩
  · rintro ⟨h1, h2⟩; exact ⟨(), h1, h2.symm⟩

theorem createInputNodes_ok (m i l o n b k : Nat) (a' : Aig) :
    Aig.createInputNodes (mkAig m i l o n b k [constNode] [] [] [] [] [] [] []) = .ok a' ↔
      a' = mkAig m i l o n b k (constNode :: (List.range i).map inputNodeOf) (List.range' 1 i) [] [] [] [] [] [] := by
  unfold Aig.createInputNodes
  have key := foldlM_build (σ := Aig) (step := Aig.inputStep)
    (st := fun xs : List Unit => mkAig m i l o n b k (constNode :: (List.range xs.length).map inputNodeOf)
      (List.range' 1 xs.length) [] [] [] [] [] []) (fun _ _ => True) i ?_ a'
  · refine Iff.trans key ?_
    constructor
    · rintro ⟨xs, hl, _, rfl⟩; rw [hl]
    · rintro rfl; exact ⟨List.replicate i (), by simp, by simp, by simp⟩
  · intro xs s' _
    unfold Aig.inputStep
    simp only [bind_ok, pure_ok, AIGNode.new_ok]
    constructor
    · rintro ⟨nd, ⟨_, rfl⟩, rfl⟩
      refine ⟨(), trivial, ?_⟩
      simp [mkAig, List.range_succ, List.range'_concat, inputNodeOf]; omega
    · rintro ⟨_, _, rfl⟩
      refine ⟨_, ⟨by omega, rfl⟩, ?_⟩
      simp [mkAig, List.range_succ, List.range'_concat, inputNodeOf]; omega

theorem checkLiteral_ok {a : Aig} {l : Nat} {u : Unit} : a.checkLiteral l = .ok u ↔ l / 2 ≤ a.maximumVariableIndex := by
  unfold Aig.checkLiteral
  rw [assertR_ok, decide_eq_true_eq, Nat.shiftRight_eq_div_pow]

/-- One latch line, as accepted. -/
def LatchAt (lines : List Text) (m i idx : Nat) (p : Nat × Nat) : Prop :=
  ∃ line, lines[idx + 1]? = some line ∧ LatchLine p line ∧ p.1 / 2 ≤ m ∧ (p.2 = 0 ∨ p.2 = 1 ∨ p.2 = 2 * (idx + i + 1))

theorem Aiger.LatchLine.utf8 {p : Nat × Nat} {line : Text} (h : LatchLine p line) : utf8Valid line = true := by
  rcases h with ⟨_, h⟩ | ⟨t, r, rfl, h1, h2⟩
  · exact utf8Valid_ascii _ h.ascii
  · refine utf8Valid_ascii _ ?_
    intro b hb
    rcases mem_spaced hb with rfl | ⟨w, hw, hb'⟩
    · decide
    · simp at hw
      rcases hw with rfl | rfl
      · exact h1.ascii b hb'
      · exact h2.ascii b hb'

theorem Aiger.LatchLine.no_nl {p : Nat × Nat} {line : Text} (h : LatchLine p line) : chNl ∉ line := by
  rcases h with ⟨_, h⟩ | ⟨t, r, rfl, h1, h2⟩
  · exact h.no_nl
  · intro hb
    rcases mem_spaced hb with h | ⟨w, hw, hb'⟩
    · exact absurd h (by decide)
    · simp at hw
      rcases hw with rfl | rfl
      · exact h1.no_nl hb'
      · exact h2.no_nl hb'

theorem latchLine_iff {p : Nat × Nat} {line : Text} : LatchLine p line ↔
    ((splitSpace line).length = 1 ∧ p.2 = 0 ∧ ∃ t, (splitSpace line)[0]? = some t ∧ Numeral t p.1) ∨
    ((splitSpace line).length = 2 ∧ (∃ t, (splitSpace line)[0]? = some t ∧ Numeral t p.1) ∧
      ∃ t, (splitSpace line)[1]? = some t ∧ Numeral t p.2) := by
  constructor
  · rintro (⟨h1, h2⟩ | ⟨t, r, rfl, h1, h2⟩)
    · have : splitSpace line = [line] := by
        have := splitSpace_spaced [line] (by simp) (by simpa using h2.no_space)
        simpa [spaced] using this
      left; rw [this]; exact ⟨rfl, h1, line, rfl, h2⟩
    · right
      rw [splitSpace_spaced [t, r] (by simp) (by simp [h1.no_space, h2.no_space])]
      exact ⟨rfl, ⟨t, rfl, h1⟩, r, rfl, h2⟩
  · rintro (⟨hl, h0, t, ht, hn⟩ | ⟨hl, ⟨t, ht, hn⟩, r, hr, hn'⟩)
    · left
      obtain ⟨x, hx⟩ := List.length_eq_one_iff.1 hl
      rw [hx] at ht
      simp at ht
      subst ht
      have := spaced_splitSpace line
      rw [hx] at this
      simp [spaced] at this
      subst this
      exact ⟨h0, hn⟩
    · right
      obtain ⟨x, y, hx⟩ : ∃ x y, splitSpace line = [x, y] := by
        match splitSpace line, hl with
        | [x, y], _ => exact ⟨x, y, rfl⟩
      rw [hx] at ht hr
      simp at ht hr
      subst ht hr
      have := spaced_splitSpace line
      rw [hx] at this
      exact ⟨_, _, this.symm, hn, hn'⟩

theorem createLatchNodes_ok (lines : List Text) (m i l o n b k : Nat) (a' : Aig) :
    Aig.createLatchNodes lines (mkAig m i l o n b k (constNode :: (List.range i).map inputNodeOf) (List.range' 1 i) [] [] [] [] [] [])
      = .ok a' ↔ ∃ ls : List (Nat × Nat), ls.length = l ∧ (∀ (idx : Nat) p, ls[idx]? = some p → LatchAt lines m i idx p) ∧
        a' = mkAig m i l o n b k (constNode :: (List.range i).map inputNodeOf ++ ls.mapIdx (latchNodeOf i)) (List.range' 1 i)
          (List.range' (1 + i) l) [] [] [] [] [] := by
  unfold Aig.createLatchNodes
  have key := foldlM_build (σ := Aig) (step := Aig.latchStep lines)
    (st := fun ls : List (Nat × Nat) => mkAig m i l o n b k (constNode :: (List.range i).map inputNodeOf ++ ls.mapIdx (latchNodeOf i))
      (List.range' 1 i) (List.range' (1 + i) ls.length) [] [] [] [] []) (fun idx p => LatchAt lines m i idx p) l ?_ a'
  · simp only [List.mapIdx_nil, List.append_nil, List.length_nil, List.range'_zero] at key
    refine Iff.trans key ?_
    constructor
    · rintro ⟨xs, hl, h1, h2⟩; rw [hl] at h2; exact ⟨xs, hl, h1, h2⟩
    · rintro ⟨xs, hl, h1, h2⟩; exact ⟨xs, hl, h1, by rw [h2, hl]⟩
  · intro xs s' _
    have happ : ∀ p, (xs ++ [p]).mapIdx (latchNodeOf i) = xs.mapIdx (latchNodeOf i) ++ [latchNodeOf i xs.length p] := by
      intro p; simp [List.mapIdx_append]
    unfold Aig.latchStep
    simp only [bind_ok, AIGNode.new_ok, indexR_ok, fromUtf8_ok, assertR_ok, convert_ok, checkLiteral_ok]
    constructor
    · rintro ⟨nd, ⟨_, rfl⟩, line, hline, line', ⟨_, rfl⟩, _, hlen, t, ht, nx, hnx, _, hle, nd', hnd', h⟩
      unfold AIGNode.setInputOfLatch at hnd'
      simp only [bind_ok, pure_ok] at hnd'
      obtain ⟨_, _, rfl⟩ := hnd'
      split at h
      · rename_i h2
        simp only [bind_ok, indexR_ok, convert_ok, assertR_ok, pure_ok] at h
        obtain ⟨tr, htr, r, hr, _, hra, nd'', hnd'', rfl⟩ := h
        unfold AIGNode.setResetOfLatch at hnd''
        simp only [bind_ok, pure_ok] at hnd''
        obtain ⟨_, _, _, _, rfl⟩ := hnd''
        refine ⟨(nx, r), ⟨line', hline, latchLine_iff.2 (Or.inr ⟨h2, ⟨t, ht, hnx⟩, tr, htr, hr⟩), hle, ?_⟩, ?_⟩
        · simpa [mkAig, or_assoc] using hra
        · rw [happ]
          simp [mkAig, List.range'_concat, latchNodeOf]; omega
      · rename_i h2
        have h1 : (splitSpace line').length = 1 := by
          simp only [Bool.or_eq_true, beq_iff_eq] at hlen; omega
        simp only [bind_ok, pure_ok] at h
        obtain ⟨nd'', hnd'', rfl⟩ := h
        unfold AIGNode.setResetOfLatch at hnd''
        simp only [bind_ok, pure_ok] at hnd''
        obtain ⟨_, _, _, _, rfl⟩ := hnd''
        refine ⟨(nx, 0), ⟨line', hline, latchLine_iff.2 (Or.inl ⟨h1, rfl, t, ht, hnx⟩), hle, Or.inl rfl⟩, ?_⟩
        rw [happ]
        simp [mkAig, List.range'_concat, latchNodeOf]; omega
    · rintro ⟨p, ⟨line, hline, hL, hle, hres⟩, rfl⟩
      have hu := hL.utf8
      rw [latchLine_iff] at hL
      have h0 : ∃ t, (splitSpace line)[0]? = some t ∧ Numeral t p.1 := by
        rcases hL with ⟨_, _, h⟩ | ⟨_, h, _⟩ <;> exact h
      obtain ⟨t, ht, hnx⟩ := h0
      refine ⟨_, ⟨by omega, rfl⟩, line, hline, line, ⟨hu, rfl⟩, (), ?_, t, ht, p.1, hnx, (), hle, _, rfl, ?_⟩
      · simp only [Bool.or_eq_true, beq_iff_eq]
        rcases hL with h | h
        · exact Or.inl h.1
        · exact Or.inr h.1
      · rw [happ]
        rcases hL with ⟨h1, h2, _⟩ | ⟨h1, _, tr, htr, hr⟩
        · rw [if_neg (by omega)]
          simp only [bind_ok, pure_ok]
          refine ⟨_, rfl, ?_⟩
          simp [mkAig, List.range'_concat, latchNodeOf, h2]; omega
        · rw [if_pos h1]
          simp only [bind_ok, indexR_ok, convert_ok, assertR_ok, pure_ok]
          refine ⟨tr, htr, p.2, hr, (), ?_, ?_⟩
          · simpa [mkAig, or_assoc] using hres
          · refine ⟨⟨.latch, 2 * (xs.length + i + 1), p.1, p.2, usizeMax, usizeMax, [], [], [], [], []⟩, ?_, ?_⟩
            · unfold AIGNode.setResetOfLatch
              simp only [bind_ok, assertR_ok, pure_ok]
              refine ⟨(), rfl, (), ?_, rfl⟩
              simpa [mkAig, or_assoc] using hres
            · simp [mkAig, List.range'_concat, latchNodeOf]; omega

/-- One literal line, as accepted. -/
def LitAt (lines : List Text) (m pos : Nat) (l : Nat) : Prop := ∃ line, lines[pos]? = some line ∧ LitLine l line ∧ l / 2 ≤ m

theorem readLiteralLine_ok {lines : List Text} {a : Aig} {pos l : Nat} :
    a.readLiteralLine lines pos = .ok l ↔ LitAt lines a.maximumVariableIndex pos l := by
  unfold Aig.readLiteralLine LitAt LitLine
  simp only [bind_ok, indexR_ok, fromUtf8_ok, convert_ok, checkLiteral_ok, pure_ok]
  constructor
  · rintro ⟨line, h1, _, ⟨_, rfl⟩, l, h2, _, h3, rfl⟩; exact ⟨_, h1, h2, h3⟩
  · rintro ⟨line, h1, h2, h3⟩; exact ⟨line, h1, line, ⟨utf8Valid_ascii _ h2.ascii, rfl⟩, l, h2, (), h3, rfl⟩

theorem createOutputNodes_ok (lines : List Text) (m i l o n b k : Nat) (nodes : List AIGNode) (is ls : List Nat) (a' : Aig) :
    Aig.createOutputNodes lines (mkAig m i l o n b k nodes is ls [] [] [] [] []) = .ok a' ↔
      ∃ os, os.length = o ∧ (∀ (idx : Nat) x, os[idx]? = some x → LitAt lines m (idx + 1 + l) x) ∧
        a' = mkAig m i l o n b k nodes is ls [] os [] [] [] := by
  refine foldlM_build (σ := Aig) (step := Aig.outputStep lines) (st := fun os => mkAig m i l o n b k nodes is ls [] os [] [] [])
    (fun idx x => LitAt lines m (idx + 1 + l) x) o ?_ a'
  intro xs s' _
  unfold Aig.outputStep
  simp only [bind_ok, readLiteralLine_ok, pure_ok]
  constructor
  · rintro ⟨x, h1, rfl⟩; exact ⟨x, h1, rfl⟩
  · rintro ⟨x, h1, rfl⟩; exact ⟨x, h1, rfl⟩

theorem createBadNodes_ok (lines : List Text) (m i l o n b k : Nat) (nodes : List AIGNode) (is ls os : List Nat) (a' : Aig) :
    Aig.createBadNodes lines (mkAig m i l o n b k nodes is ls [] os [] [] []) = .ok a' ↔
      ∃ bs, bs.length = b ∧ (∀ (idx : Nat) x, bs[idx]? = some x → LitAt lines m (idx + 1 + l + o) x) ∧
        a' = mkAig m i l o n b k nodes is ls [] os bs [] [] := by
  refine foldlM_build (σ := Aig) (step := Aig.badStep lines) (st := fun bs => mkAig m i l o n b k nodes is ls [] os bs [] [])
    (fun idx x => LitAt lines m (idx + 1 + l + o) x) b ?_ a'
  intro xs s' _
  unfold Aig.badStep
  simp only [bind_ok, readLiteralLine_ok, pure_ok]
  constructor
  · rintro ⟨x, h1, rfl⟩; exact ⟨x, h1, rfl⟩
  · rintro ⟨x, h1, rfl⟩; exact ⟨x, h1, rfl⟩

theorem createConstraintNodes_ok (lines : List Text) (m i l o n b k : Nat) (nodes : List AIGNode) (is ls os bs : List Nat)
    (a' : Aig) :
    Aig.createConstraintNodes lines (mkAig m i l o n b k nodes is ls [] os bs [] []) = .ok a' ↔
      ∃ ks, ks.length = k ∧ (∀ (idx : Nat) x, ks[idx]? = some x → LitAt lines m (idx + 1 + l + o + b) x) ∧
        a' = mkAig m i l o n b k nodes is ls [] os bs ks [] := by
  refine foldlM_build (σ := Aig) (step := Aig.constraintStep lines)
    (st := fun ks => mkAig m i l o n b k nodes is ls [] os bs ks []) (fun idx x => LitAt lines m (idx + 1 + l + o + b) x) k ?_ a'
  intro xs s' _
  unfold Aig.constraintStep
  simp only [bind_ok, readLiteralLine_ok, pure_ok]
  constructor
  · rintro ⟨x, h1, rfl⟩; exact ⟨x, h1, rfl⟩
  · rintro ⟨x, h1, rfl⟩; exact ⟨x, h1, rfl⟩

theorem andStep_ok (bytes : Text) (a a' : Aig) (lhs lhs' r r' : Nat) (he : lhs % 2 = 0) :
    Aig.andStep bytes (a, lhs, r) = .ok (a', lhs', r') ↔
      ∃ (p : Nat × Nat) (d0 d1 rest : List UInt8), bytes.drop r = d0 ++ d1 ++ rest ∧ p.1 < lhs + 2 ∧ p.2 ≤ p.1 ∧
        Delta d0 (lhs + 2 - p.1) ∧ Delta d1 (p.1 - p.2) ∧ lhs' = lhs + 2 ∧ r' = r + (d0 ++ d1).length ∧
        a' = { a with ands := a.ands ++ [a.nodes.length], nodes := a.nodes ++ [andNodeOf lhs 0 p] } := by
  unfold Aig.andStep
  simp only [bind_ok, assertR_ok, decide_eq_true_eq, Bool.and_eq_true, AIGNode.new_ok]
  constructor
  · rintro ⟨⟨δ0, r0⟩, h0, _, hle0, ⟨δ1, r1⟩, h1, _, hle1, _, ⟨hlt, _⟩, nd, ⟨_, rfl⟩, nd1, hnd1, nd2, hnd2, h⟩
    rw [pure_ok] at h
    unfold AIGNode.setRhs0OfAnd at hnd1
    unfold AIGNode.setRhs1OfAnd at hnd2
    simp only [bind_ok, pure_ok] at hnd1 hnd2
    obtain ⟨_, _, rfl⟩ := hnd1
    obtain ⟨_, _, rfl⟩ := hnd2
    simp only [Prod.mk.injEq] at h
    obtain ⟨rfl, rfl, rfl⟩ := h
    obtain ⟨c0, rest0, e0, hc0, rfl⟩ := (readDelta_ok _ _ _ _).1 h0
    obtain ⟨c1, rest1, e1, hc1, rfl⟩ := (readDelta_ok _ _ _ _).1 h1
    rw [← List.drop_drop, e0, List.drop_append_of_le_length (by simp), List.drop_length, List.nil_append] at e1
    dsimp only at hle0 hle1 hlt
    refine ⟨(lhs + 2 - δ0, lhs + 2 - δ0 - δ1), c0, c1, rest1, by rw [e0, e1]; simp, hlt, by simp, ?_, ?_, rfl,
      by simp; omega, rfl⟩
    · have : lhs + 2 - (lhs + 2 - δ0) = δ0 := by omega
      simpa only [this] using hc0
    · have : lhs + 2 - δ0 - (lhs + 2 - δ0 - δ1) = δ1 := by omega
      simpa only [this] using hc1
  · rintro ⟨p, d0, d1, rest, e, h1, h2, hd0, hd1, rfl, rfl, rfl⟩
    have e1 : lhs + 2 - (lhs + 2 - p.1) = p.1 := by omega
    have e2 : p.1 - (p.1 - p.2) = p.2 := by omega
    refine ⟨(lhs + 2 - p.1, r + d0.length), (readDelta_ok _ _ _ _).2 ⟨d0, d1 ++ rest, by rw [e]; simp, hd0, rfl⟩, (), by dsimp only; omega,
      (p.1 - p.2, r + d0.length + d1.length), (readDelta_ok _ _ _ _).2 ⟨d1, rest, ?_, hd1, rfl⟩, (), ?_, (), ?_,
      _, ⟨by omega, rfl⟩, _, rfl, _, rfl, ?_⟩
    · rw [← List.drop_drop, e, List.append_assoc, List.drop_append_of_le_length (by simp), List.drop_length, List.nil_append]
    · dsimp only; omega
    · dsimp only; omega
    · rw [pure_ok]
      simp only [Prod.mk.injEq, true_and]
      refine ⟨?_, by simp; omega⟩
      simp only [e1, e2, andNodeOf]

theorem andLoop_ok (bytes : Text) (l : List Nat) (a : Aig) (lhs r : Nat) (he : lhs % 2 = 0) (st : Aig × Nat × Nat) :
    l.foldlM (fun st _ => Aig.andStep bytes st) (a, lhs, r) = .ok st ↔
      ∃ ps ands rest, ps.length = l.length ∧ bytes.drop r = ands ++ rest ∧ Ands (lhs + 2) ps ands ∧
        st = ({ a with ands := a.ands ++ List.range' a.nodes.length l.length, nodes := a.nodes ++ ps.mapIdx (andNodeOf lhs) },
          lhs + 2 * l.length, r + ands.length) := by
  induction l generalizing a lhs r with
  | nil =>
    rw [List.foldlM_nil, pure_ok]
    constructor
    · rintro rfl; exact ⟨[], [], bytes.drop r, rfl, rfl, Ands.nil, by simp⟩
    · rintro ⟨ps, ands, rest, h0, _, h2, rfl⟩
      rw [List.length_nil, List.length_eq_zero_iff] at h0
      subst h0
      cases h2
      simp
  | cons x xs ih =>
    rw [List.foldlM_cons, bind_ok]
    have hidx : ∀ (p : Nat × Nat) (ps : List (Nat × Nat)),
        (p :: ps).mapIdx (andNodeOf lhs) = andNodeOf lhs 0 p :: ps.mapIdx (andNodeOf (lhs + 2)) := by
      intro p ps
      rw [List.mapIdx_cons]
      congr 1
      apply List.ext_getElem?
      intro j
      rw [List.getElem?_mapIdx, List.getElem?_mapIdx]
      have hf : ∀ q, andNodeOf lhs (j + 1) q = andNodeOf (lhs + 2) j q := by
        intro q
        have : lhs + 2 * (j + 1 + 1) = lhs + 2 + 2 * (j + 1) := by omega
        simp only [andNodeOf, this]
      cases ps[j]? with
      | none => rfl
      | some q => exact congrArg some (hf q)
    constructor
    · rintro ⟨⟨a1, lhs1, r1⟩, h1, h2⟩
      obtain ⟨p, d0, d1, rest, e, g1, g2, g3, g4, rfl, rfl, rfl⟩ := (andStep_ok _ _ _ _ _ _ _ he).1 h1
      obtain ⟨ps, ands, rest', k0, k1, k2, rfl⟩ := (ih _ _ _ (by omega)).1 h2
      rw [← List.drop_drop, e, List.drop_append_of_le_length (by simp), List.drop_length, List.nil_append] at k1
      refine ⟨p :: ps, d0 ++ d1 ++ ands, rest', by simp [k0], by rw [e, k1]; simp, Ands.cons g1 g2 g3 g4 k2, ?_⟩
      rw [hidx]
      simp [List.range'_succ]
      omega
    · rintro ⟨ps, ands, rest, h0, h1, h2, rfl⟩
      cases h2 with
      | nil => simp at h0
      | @cons _ p ps d0 d1 ands' g1 g2 g3 g4 h2 =>
        refine ⟨_, (andStep_ok _ _ _ _ _ _ _ he).2 ⟨p, d0, d1, ands' ++ rest, by rw [h1]; simp, g1, g2, g3, g4, rfl, rfl, rfl⟩,
          (ih _ _ _ (by omega)).2 ⟨ps, ands', rest, by simpa using h0, ?_, h2, ?_⟩⟩
        · rw [← List.drop_drop, h1, List.append_assoc, List.drop_append_of_le_length (by simp), List.drop_length, List.nil_append]
        · rw [hidx]
          simp [List.range'_succ]
          omega

theorem createAndNodes_ok (bytes : Text) (a a' : Aig) (pos : Nat) : Aig.createAndNodes bytes a = .ok (a', pos) ↔
    ∃ ls ps ands tail, ls.length = 1 + a.numberOfLatches + a.numberOfOutputs + a.numberOfBad + a.numberOfConstraints ∧
      (∀ l ∈ ls, chNl ∉ l) ∧ bytes = unlines ls ++ (ands ++ tail) ∧ ps.length = a.numberOfAndGates ∧
      Ands (a.getMaxLiteralOfInputOrLatch + 2) ps ands ∧ pos = (unlines ls ++ ands).length ∧
      a' = { a with ands := a.ands ++ List.range' a.nodes.length a.numberOfAndGates,
                    nodes := a.nodes ++ ps.mapIdx (andNodeOf a.getMaxLiteralOfInputOrLatch) } := by
  have he : a.getMaxLiteralOfInputOrLatch % 2 = 0 := by unfold Aig.getMaxLiteralOfInputOrLatch; omega
  unfold Aig.createAndNodes Aig.getPositionOfStartOfAndSegment
  simp only [bind_ok, skipLines_ok]
  constructor
  · rintro ⟨start, ⟨ls, rest, h0, h1, h2, rfl⟩, ⟨a1, lhs1, r1⟩, h3, h4⟩
    rw [pure_ok, Prod.mk.injEq] at h4
    obtain ⟨rfl, rfl⟩ := h4
    obtain ⟨ps, ands, tail, k0, k1, k2, k3⟩ := (andLoop_ok _ _ _ _ _ he _).1 h3
    rw [Nat.zero_add, h2, List.drop_append_of_le_length (by simp), List.drop_length, List.nil_append] at k1
    simp only [Prod.mk.injEq, List.length_range] at k0 k3
    obtain ⟨rfl, _, rfl⟩ := k3
    exact ⟨ls, ps, ands, tail, h0, h1, by rw [h2, k1], k0, k2, by simp, rfl⟩
  · rintro ⟨ls, ps, ands, tail, h0, h1, h2, h3, h4, rfl, rfl⟩
    refine ⟨_, ⟨ls, ands ++ tail, h0, h1, h2, rfl⟩, _, (andLoop_ok _ _ _ _ _ he _).2 ⟨ps, ands, tail, by simpa using h3, ?_, h4, rfl⟩, ?_⟩
    · rw [Nat.zero_add, h2, List.drop_append_of_le_length (by simp), List.drop_length, List.nil_append]
    · rw [pure_ok]; simp

end Verif
