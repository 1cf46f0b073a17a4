import Verif.Proofs.AigParse

/-! # Exact description of the reader: sections, symbols, comments -/

namespace Verif

open Aiger

/-- The graph of a circuit before symbols and comments are read. -/
def skeleton (c : Circuit) : Aig :=
  mkAig c.maxVar c.numInputs c.latches.length c.outputs.length c.ands.length c.bad.length c.constraints.length
    (constNode :: (List.range c.numInputs).map inputNodeOf ++ c.latches.mapIdx (latchNodeOf c.numInputs) ++
      c.ands.mapIdx (andNodeOf (2 * (c.numInputs + c.latches.length))))
    (List.range' 1 c.numInputs) (List.range' (1 + c.numInputs) c.latches.length)
    (List.range' (1 + c.numInputs + c.latches.length) c.ands.length) c.outputs c.bad c.constraints []

/-- The reader up to the symbol section. -/
def readSections (dbg : Bool) (bytes : Text) : Res (Aig × Nat) := do
  let lines := splitNl bytes
  let a ← Aig.loadFirstLine dbg lines Aig.empty
  let a ← Aig.allocateVectors dbg a
  let a ← Aig.createInputNodes a
  let a ← Aig.createLatchNodes lines a
  let a ← Aig.createOutputNodes lines a
  let a ← Aig.createBadNodes lines a
  let a ← Aig.createConstraintNodes lines a
  Aig.createAndNodes bytes a

theorem fromBytes_eq (dbg : Bool) (bytes : Text) : Aig.fromBytes dbg bytes = (do
    let (a, pos) ← readSections dbg bytes
    let a ← Aig.readSymbolsAndComments bytes pos a
    Aig.checkAig a
    return a) := by
  unfold Aig.fromBytes readSections
  simp only [bind_assoc]

theorem split_sections {α : Type} (ls : List α) (l o b k : Nat) (h : ls.length = 1 + l + o + b + k) :
    ∃ hd A B C D, ls = hd :: (A ++ B ++ C ++ D) ∧ A.length = l ∧ B.length = o ∧ C.length = b ∧ D.length = k := by
  cases ls with
  | nil => simp at h; omega
  | cons hd t =>
    simp only [List.length_cons] at h
    refine ⟨hd, t.take l, (t.drop l).take o, ((t.drop l).drop o).take b, ((t.drop l).drop o).drop b, ?_, ?_, ?_, ?_, ?_⟩
    · rw [List.append_assoc, List.append_assoc, List.take_append_drop, List.take_append_drop, List.take_append_drop]
    · simp; omega
    · simp; omega
    · simp; omega
    · simp; omega

theorem ands_wf {lhs : Nat} {ps : List (Nat × Nat)} {bs : List UInt8} (h : Ands lhs ps bs) :
    ∀ (i : Nat) p, ps[i]? = some p → p.1 < lhs + 2 * i ∧ p.2 ≤ p.1 := by
  induction h with
  | nil => simp
  | cons h1 h2 _ _ _ ih =>
    intro i p hp
    cases i with
    | zero => simp at hp; subst hp; exact ⟨by omega, h2⟩
    | succ i => simp at hp; have := ih i p hp; omega

theorem mem_of_pointwise {α β : Type} {R : α → β → Prop} {xs : List α} {ys : List β} (h : Pointwise R xs ys) {y : β}
    (hy : y ∈ ys) : ∃ x ∈ xs, R x y := by
  obtain ⟨i, hi⟩ := List.mem_iff_getElem?.1 hy
  have hlt : i < xs.length := by
    rw [h.1]
    rcases Nat.lt_or_ge i ys.length with h' | h'
    · exact h'
    · rw [List.getElem?_eq_none h'] at hi; cases hi
  have hx : xs[i]? = some xs[i] := List.getElem?_eq_getElem hlt
  exact ⟨xs[i], List.mem_of_getElem? hx, h.2 i _ _ hx hi⟩

theorem getElem?_lt {α : Type} {l : List α} {i : Nat} {x : α} (h : l[i]? = some x) : i < l.length := by
  rcases Nat.lt_or_ge i l.length with h' | h'
  · exact h'
  · rw [List.getElem?_eq_none h'] at h; cases h

theorem readSections_ok (dbg : Bool) (bytes : Text) (a : Aig) (pos : Nat) :
    readSections dbg bytes = .ok (a, pos) ↔
      ∃ c tail, c.WF ∧ c.Fits ∧ File bytes c tail ∧ a = skeleton c ∧ pos + tail.length = bytes.length := by
  unfold readSections
  have assoc : ∀ (f : Aig → Res (Aig × Nat)),
      (Aig.loadFirstLine dbg (splitNl bytes) Aig.empty >>= fun a => Aig.allocateVectors dbg a >>= f) =
      ((Aig.loadFirstLine dbg (splitNl bytes) Aig.empty >>= Aig.allocateVectors dbg) >>= f) := by
    intro f; rw [bind_assoc]
  simp only [assoc]
  rw [bind_ok]
  simp only [allocateVectors_ok]
  constructor
  · rintro ⟨a0, ⟨line, m, i, l, o, n, b, k, hline, hH, hF, rfl⟩, h⟩
    simp only [bind_ok, createInputNodes_ok] at h
    obtain ⟨_, rfl, h⟩ := h
    simp only [createLatchNodes_ok] at h
    obtain ⟨_, ⟨ls, hls, hlat, rfl⟩, h⟩ := h
    simp only [createOutputNodes_ok] at h
    obtain ⟨_, ⟨os, hos, hout, rfl⟩, h⟩ := h
    simp only [createBadNodes_ok] at h
    obtain ⟨_, ⟨bs, hbs, hbad, rfl⟩, h⟩ := h
    simp only [createConstraintNodes_ok] at h
    obtain ⟨_, ⟨ks, hks, hcon, rfl⟩, h⟩ := h
    rw [createAndNodes_ok] at h
    obtain ⟨lns, ps, ands, tail, hlns, hnl, hbytes, hps, hands, rfl, rfl⟩ := h
    have hlns' : lns.length = 1 + l + o + b + k := hlns
    obtain ⟨hd, A, B, C, D, rfl, hA, hB, hC, hD⟩ := split_sections _ _ _ _ _ hlns'
    have hsplit : splitNl bytes = hd :: (A ++ B ++ C ++ D) ++ splitNl (ands ++ tail) := by
      rw [hbytes, splitNl_unlines _ _ hnl]
    have hidx : ∀ (j : Nat) (x : Text), (hd :: (A ++ B ++ C ++ D))[j]? = some x → (splitNl bytes)[j]? = some x := by
      intro j x hj
      rw [hsplit, List.getElem?_append_left (getElem?_lt hj)]; exact hj
    have hps' : ps.length = n := hps
    have hml : (2 * (i + l) + 2 : Nat) = 2 * (1 + i + l) := by omega
    have hands' : Ands (2 * (1 + i + l)) ps ands := by rw [← hml]; exact hands
    refine ⟨⟨i, ls, ps, os, bs, ks⟩, tail, ?_, ?_, ⟨hd, A, B, C, D, ands, hbytes, ?_, ?_, ?_, ?_, ?_, ?_⟩, ?_, ?_⟩
    · have hm : m = i + ls.length + ps.length := by rw [hls, hps', hF.sum]
      have litOK : ∀ j x, LitAt (splitNl bytes) m j x → Circuit.LitOK ⟨i, ls, ps, os, bs, ks⟩ x := by
        rintro j x ⟨_, _, _, hx⟩
        show x / 2 ≤ i + ls.length + ps.length
        omega
      have memOK : ∀ (xs : List Nat) (f : Nat → Nat), (∀ (idx : Nat) x, xs[idx]? = some x → LitAt (splitNl bytes) m (f idx) x) →
          ∀ x ∈ xs, Circuit.LitOK ⟨i, ls, ps, os, bs, ks⟩ x := by
        intro xs f h x hx
        obtain ⟨j, hj⟩ := List.mem_iff_getElem?.1 hx
        exact litOK _ x (h j x hj)
      refine ⟨?_, ?_, ?_, memOK _ _ hout, memOK _ _ hbad, memOK _ _ hcon⟩
      · intro j p hp
        obtain ⟨_, _, _, h1, _⟩ := hlat j p hp
        show p.1 / 2 ≤ i + ls.length + ps.length
        omega
      · intro j p hp
        obtain ⟨_, _, _, _, h1⟩ := hlat j p hp
        show p.2 = 0 ∨ p.2 = 1 ∨ p.2 = 2 * (1 + i + j)
        omega
      · intro j p hp
        have := ands_wf hands' j p hp
        show p.1 < 2 * (1 + i + ls.length + j) ∧ p.2 ≤ p.1
        omega
    · show Fits (i + ls.length + ps.length) i ls.length os.length ps.length bs.length ks.length
      rw [hls, hos, hbs, hks, hps', ← hF.sum]; exact hF
    · have h0 := hidx 0 hd (by simp)
      rw [h0] at hline
      have hline := Option.some.inj hline
      subst hline
      show Header (i + ls.length + ps.length) i ls.length os.length ps.length bs.length ks.length hd
      rw [hls, hos, hbs, hks, hps', ← hF.sum]; exact hH
    · refine ⟨by rw [hA, ← hls], ?_⟩
      intro j p y hp hy
      obtain ⟨line', h1, h2, _⟩ := hlat j p hp
      have hj := getElem?_lt hy
      have := hidx (j + 1) y (by
        rw [List.getElem?_cons_succ, List.append_assoc, List.append_assoc, List.getElem?_append_left hj]; exact hy)
      rw [this] at h1; cases h1; exact h2
    · refine ⟨by rw [hB, ← hos], ?_⟩
      intro j p y hp hy
      obtain ⟨line', h1, h2, _⟩ := hout j p hp
      have hj := getElem?_lt hy
      have := hidx (j + 1 + l) y (by
        have e : j + 1 + l = (A.length + j) + 1 := by omega
        rw [e, List.getElem?_cons_succ, List.append_assoc, List.append_assoc, List.getElem?_append_right (by omega),
          Nat.add_sub_cancel_left, List.getElem?_append_left hj]; exact hy)
      rw [this] at h1; cases h1; exact h2
    · refine ⟨by rw [hC, ← hbs], ?_⟩
      intro j p y hp hy
      obtain ⟨line', h1, h2, _⟩ := hbad j p hp
      have hj := getElem?_lt hy
      have := hidx (j + 1 + l + o) y (by
        have e : j + 1 + l + o = (A.length + (B.length + j)) + 1 := by omega
        rw [e, List.getElem?_cons_succ, List.append_assoc, List.append_assoc, List.getElem?_append_right (by omega),
          Nat.add_sub_cancel_left, List.getElem?_append_right (by omega), Nat.add_sub_cancel_left,
          List.getElem?_append_left hj]; exact hy)
      rw [this] at h1; cases h1; exact h2
    · refine ⟨by rw [hD, ← hks], ?_⟩
      intro j p y hp hy
      obtain ⟨line', h1, h2, _⟩ := hcon j p hp
      have := hidx (j + 1 + l + o + b) y (by
        have e : j + 1 + l + o + b = (A.length + (B.length + (C.length + j))) + 1 := by omega
        rw [e, List.getElem?_cons_succ, List.append_assoc, List.append_assoc, List.getElem?_append_right (by omega),
          Nat.add_sub_cancel_left, List.getElem?_append_right (by omega), Nat.add_sub_cancel_left,
          List.getElem?_append_right (by omega), Nat.add_sub_cancel_left]; exact hy)
      rw [this] at h1; cases h1; exact h2
    · rw [hls]; exact hands'
    · subst hls hos hbs hks hps'
      simp only [skeleton, mkAig, Circuit.maxVar, Aig.getMaxLiteralOfInputOrLatch, List.nil_append, hF.sum]
      simp
      omega
    · rw [hbytes]; simp; omega
  · rintro ⟨c, tail, hwf, hF, ⟨hd, A, B, C, D, ands, hbytes, hH, hA, hB, hC, hD, hands⟩, rfl, hpos⟩
    have hnl : ∀ x ∈ hd :: (A ++ B ++ C ++ D), chNl ∉ x := by
      intro x hx
      simp only [List.mem_cons, List.mem_append] at hx
      have lit : ∀ (xs : List Nat) ys, Pointwise LitLine xs ys → x ∈ ys → chNl ∉ x := by
        intro xs ys hp hm
        obtain ⟨n, _, hn⟩ := mem_of_pointwise hp hm
        exact Numeral.no_nl (n := n) hn
      rcases hx with rfl | ((hx | hx) | hx) | hx
      · exact hH.no_nl
      · obtain ⟨p, _, hp⟩ := mem_of_pointwise hA hx
        exact hp.no_nl
      · exact lit _ _ hB hx
      · exact lit _ _ hC hx
      · exact lit _ _ hD hx
    have hsplit : splitNl bytes = hd :: (A ++ B ++ C ++ D) ++ splitNl (ands ++ tail) := by
      rw [hbytes, splitNl_unlines _ _ hnl]
    have hidx : ∀ (j : Nat) (x : Text), (hd :: (A ++ B ++ C ++ D))[j]? = some x → (splitNl bytes)[j]? = some x := by
      intro j x hj
      rw [hsplit, List.getElem?_append_left (getElem?_lt hj)]; exact hj
    have lA := hA.1
    have lB := hB.1
    have lC := hC.1
    have lD := hD.1
    refine ⟨_, ⟨hd, c.maxVar, c.numInputs, c.latches.length, c.outputs.length, c.ands.length, c.bad.length,
      c.constraints.length, hidx 0 hd (by simp), hH, hF, rfl⟩, ?_⟩
    simp only [bind_ok, createInputNodes_ok]
    refine ⟨_, rfl, ?_⟩
    simp only [createLatchNodes_ok]
    refine ⟨_, ⟨c.latches, rfl, ?_, rfl⟩, ?_⟩
    · intro j p hp
      have hj := getElem?_lt hp
      have hy : A[j]? = some A[j] := List.getElem?_eq_getElem (by omega)
      refine ⟨A[j], hidx _ _ ?_, hA.2 j p _ hp hy, hwf.next_ok j p hp, ?_⟩
      · rw [List.getElem?_cons_succ, List.append_assoc, List.append_assoc, List.getElem?_append_left (by omega)]; exact hy
      · have := hwf.reset_ok j p hp
        unfold Circuit.latchVar at this
        omega
    simp only [createOutputNodes_ok]
    refine ⟨_, ⟨c.outputs, rfl, ?_, rfl⟩, ?_⟩
    · intro j p hp
      have hj := getElem?_lt hp
      have hy : B[j]? = some B[j] := List.getElem?_eq_getElem (by omega)
      refine ⟨B[j], hidx _ _ ?_, hB.2 j p _ hp hy, hwf.out_ok p (List.mem_of_getElem? hp)⟩
      have e : j + 1 + c.latches.length = (A.length + j) + 1 := by omega
      rw [e, List.getElem?_cons_succ, List.append_assoc, List.append_assoc, List.getElem?_append_right (by omega),
        Nat.add_sub_cancel_left, List.getElem?_append_left (by omega)]; exact hy
    simp only [createBadNodes_ok]
    refine ⟨_, ⟨c.bad, rfl, ?_, rfl⟩, ?_⟩
    · intro j p hp
      have hj := getElem?_lt hp
      have hy : C[j]? = some C[j] := List.getElem?_eq_getElem (by omega)
      refine ⟨C[j], hidx _ _ ?_, hC.2 j p _ hp hy, hwf.bad_ok p (List.mem_of_getElem? hp)⟩
      have e : j + 1 + c.latches.length + c.outputs.length = (A.length + (B.length + j)) + 1 := by omega
      rw [e, List.getElem?_cons_succ, List.append_assoc, List.append_assoc, List.getElem?_append_right (by omega),
        Nat.add_sub_cancel_left, List.getElem?_append_right (by omega), Nat.add_sub_cancel_left,
        List.getElem?_append_left (by omega)]; exact hy
    simp only [createConstraintNodes_ok]
    refine ⟨_, ⟨c.constraints, rfl, ?_, rfl⟩, ?_⟩
    · intro j p hp
      have hj := getElem?_lt hp
      have hy : D[j]? = some D[j] := List.getElem?_eq_getElem (by omega)
      refine ⟨D[j], hidx _ _ ?_, hD.2 j p _ hp hy, hwf.con_ok p (List.mem_of_getElem? hp)⟩
      have e : j + 1 + c.latches.length + c.outputs.length + c.bad.length = (A.length + (B.length + (C.length + j))) + 1 := by omega
      rw [e, List.getElem?_cons_succ, List.append_assoc, List.append_assoc, List.getElem?_append_right (by omega),
        Nat.add_sub_cancel_left, List.getElem?_append_right (by omega), Nat.add_sub_cancel_left,
        List.getElem?_append_right (by omega), Nat.add_sub_cancel_left]; exact hy
    rw [createAndNodes_ok]
    refine ⟨hd :: (A ++ B ++ C ++ D), c.ands, ands, tail, ?_, hnl, hbytes, rfl, ?_, ?_, ?_⟩
    · simp only [mkAig, List.length_cons, List.length_append]; omega
    · have e : 2 * (c.numInputs + c.latches.length) + 2 = 2 * (1 + c.numInputs + c.latches.length) := by omega
      show Ands (2 * (c.numInputs + c.latches.length) + 2) c.ands ands
      rw [e]; exact hands
    · have := congrArg List.length hbytes
      simp only [List.length_append] at this ⊢
      omega
    · simp only [skeleton, mkAig, Aig.getMaxLiteralOfInputOrLatch, List.nil_append]
      simp
      omega

theorem skeleton_nodes_length (c : Circuit) :
    (skeleton c).nodes.length = 1 + c.numInputs + c.latches.length + c.ands.length := by
  simp [skeleton, mkAig]; omega

theorem skeleton_node (c : Circuit) (j : Nat) : (skeleton c).nodes[j]? =
    if j = 0 then some constNode
    else if j < 1 + c.numInputs then some (inputNodeOf (j - 1))
    else if j < 1 + c.numInputs + c.latches.length then
      (c.latches[j - (1 + c.numInputs)]?).map (latchNodeOf c.numInputs (j - (1 + c.numInputs)))
    else (c.ands[j - (1 + c.numInputs + c.latches.length)]?).map
      (andNodeOf (2 * (c.numInputs + c.latches.length)) (j - (1 + c.numInputs + c.latches.length))) := by
  have e : (skeleton c).nodes = (constNode :: (List.range c.numInputs).map inputNodeOf) ++
      (c.latches.mapIdx (latchNodeOf c.numInputs) ++ c.ands.mapIdx (andNodeOf (2 * (c.numInputs + c.latches.length)))) := by
    simp [skeleton, mkAig]
  rw [e]
  have hl : (constNode :: (List.range c.numInputs).map inputNodeOf).length = 1 + c.numInputs := by simp; omega
  by_cases h0 : j = 0
  · subst h0; simp
  · rw [if_neg h0]
    by_cases h1 : j < 1 + c.numInputs
    · rw [if_pos h1, List.getElem?_append_left (by omega)]
      obtain ⟨j', rfl⟩ : ∃ j', j = j' + 1 := ⟨j - 1, by omega⟩
      rw [List.getElem?_cons_succ, List.getElem?_map, List.getElem?_range (by omega)]
      simp
    · rw [if_neg h1, List.getElem?_append_right (by omega), hl]
      by_cases h2 : j < 1 + c.numInputs + c.latches.length
      · rw [if_pos h2, List.getElem?_append_left (by simp; omega), List.getElem?_mapIdx]
      · rw [if_neg h2, List.getElem?_append_right (by simp; omega), List.getElem?_mapIdx, List.length_mapIdx, Nat.sub_sub]

theorem represents_skeleton (c : Circuit) (hF : c.Fits) : (skeleton c).Represents c := by
  refine ⟨rfl, rfl, rfl, rfl, rfl, rfl, rfl, rfl, rfl, skeleton_nodes_length c, ⟨constNode, rfl, rfl⟩, ?_, ?_, ?_, ?_,
    rfl, rfl, rfl, rfl, rfl, rfl, hF.nodes⟩
  · intro i hi
    refine ⟨inputNodeOf i, ?_, rfl⟩
    rw [skeleton_node, if_neg (by omega), if_pos (by omega), Nat.add_sub_cancel_left]
  · intro i p hp
    have hi := getElem?_lt hp
    refine ⟨latchNodeOf c.numInputs i p, ?_, rfl, rfl, rfl⟩
    unfold Circuit.latchVar
    rw [skeleton_node, if_neg (by omega), if_neg (by omega), if_pos (by omega), Nat.add_sub_cancel_left, hp]; rfl
  · intro i p hp
    have hi := getElem?_lt hp
    refine ⟨andNodeOf (2 * (c.numInputs + c.latches.length)) i p, ?_, rfl, rfl, rfl⟩
    unfold Circuit.andVar
    rw [skeleton_node, if_neg (by omega), if_neg (by omega), if_neg (by omega), Nat.add_sub_cancel_left, hp]; rfl
  · intro i n hn
    rw [skeleton_node] at hn
    split at hn
    · rename_i h; cases hn; subst h; rfl
    · split at hn
      · cases hn
        show 2 * (i - 1 + 1) = 2 * i
        omega
      · split at hn
        · rw [Option.map_eq_some_iff] at hn
          obtain ⟨p, _, rfl⟩ := hn
          show 2 * (i - (1 + c.numInputs) + c.numInputs + 1) = 2 * i
          omega
        · rw [Option.map_eq_some_iff] at hn
          obtain ⟨p, _, rfl⟩ := hn
          show 2 * (c.numInputs + c.latches.length) + 2 * (i - (1 + c.numInputs + c.latches.length) + 1) = 2 * i
          omega

end Verif
