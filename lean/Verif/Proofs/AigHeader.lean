import Verif.Proofs.Delta

/-! # The AIGER header and the allocation checks -/

namespace Verif

open Aiger

/-- A graph with given contents (no justice, no fairness). -/
def mkAig (m i l o n b k : Nat) (nodes : List AIGNode) (inputs latches ands outputs bad constraints : List Nat)
    (comments : Text) : Aig :=
  ⟨m, i, l, o, n, b, k, 0, 0, nodes, inputs, latches, ands, outputs, bad, constraints, comments⟩

theorem numeral_zero {n : Nat} : Numeral [chZero] n ↔ n = 0 := by
  have h0 : Numeral [chZero] 0 := ⟨by decide, Or.inl ⟨by decide, by simp [IsDigit, chZero], by decide⟩⟩
  exact ⟨fun h => h.unique h0, fun h => h ▸ h0⟩

theorem aigText_no_space : chSpace ∉ Aig.aigText := by decide

/-- The header as the reader sees it: a list of words. -/
def HeaderWords (m i l o a b k : Nat) (ws : List Text) : Prop :=
  ∃ tm ti tl t_o ta : Text, ∃ opt : List Text,
    ws = [97, 105, 103] :: tm :: ti :: tl :: t_o :: ta :: opt ∧
    Numeral tm m ∧ Numeral ti i ∧ Numeral tl l ∧ Numeral t_o o ∧ Numeral ta a ∧
    ((opt = [] ∧ b = 0 ∧ k = 0) ∨ (∃ tb, opt = [tb] ∧ Numeral tb b ∧ k = 0) ∨
     (∃ tb tk, opt = [tb, tk] ∧ Numeral tb b ∧ Numeral tk k) ∨
     (∃ tb tk tj, opt = [tb, tk, tj] ∧ Numeral tb b ∧ Numeral tk k ∧ Numeral tj 0))

theorem HeaderWords.words {m i l o a b k : Nat} {ws : List Text} (h : HeaderWords m i l o a b k ws) :
    ∀ w ∈ ws, w = Aig.aigText ∨ ∃ n, Numeral w n := by
  obtain ⟨tm, ti, tl, t_o, ta, opt, rfl, h1, h2, h3, h4, h5, h6⟩ := h
  have hopt : ∀ w ∈ opt, ∃ n, Numeral w n := by
    rcases h6 with ⟨rfl, _⟩ | ⟨tb, rfl, hb, _⟩ | ⟨tb, tk, rfl, hb, hk⟩ | ⟨tb, tk, tj, rfl, hb, hk, hj⟩
    · simp
    · simp; exact ⟨_, hb⟩
    · simp; exact ⟨⟨_, hb⟩, ⟨_, hk⟩⟩
    · simp; exact ⟨⟨_, hb⟩, ⟨_, hk⟩, ⟨_, hj⟩⟩
  intro w hw
  simp only [List.mem_cons] at hw
  rcases hw with rfl | rfl | rfl | rfl | rfl | rfl | hw
  · left; rfl
  · exact Or.inr ⟨_, h1⟩
  · exact Or.inr ⟨_, h2⟩
  · exact Or.inr ⟨_, h3⟩
  · exact Or.inr ⟨_, h4⟩
  · exact Or.inr ⟨_, h5⟩
  · exact Or.inr (hopt w hw)

theorem HeaderWords.no_space {m i l o a b k : Nat} {ws : List Text} (h : HeaderWords m i l o a b k ws) :
    ∀ w ∈ ws, chSpace ∉ w := by
  intro w hw
  rcases h.words w hw with rfl | ⟨n, hn⟩
  · exact aigText_no_space
  · exact hn.no_space

theorem HeaderWords.ascii {m i l o a b k : Nat} {ws : List Text} (h : HeaderWords m i l o a b k ws) :
    ∀ x ∈ spaced ws, x.toNat < 128 := by
  intro x hx
  rcases mem_spaced hx with rfl | ⟨w, hw, hx⟩
  · decide
  · rcases h.words w hw with rfl | ⟨n, hn⟩
    · have key : ∀ y ∈ Aig.aigText, y.toNat < 128 := by decide
      exact key x hx
    · exact hn.ascii x hx

theorem header_iff {m i l o a b k : Nat} {line : Text} :
    Header m i l o a b k line ↔ HeaderWords m i l o a b k (splitSpace line) := by
  constructor
  · rintro ⟨tm, ti, tl, t_o, ta, opt, h0, h⟩
    have hw : HeaderWords m i l o a b k ([97, 105, 103] :: tm :: ti :: tl :: t_o :: ta :: opt) :=
      ⟨tm, ti, tl, t_o, ta, opt, rfl, h⟩
    rw [h0, splitSpace_spaced _ (by simp) hw.no_space]
    exact hw
  · rintro ⟨tm, ti, tl, t_o, ta, opt, h0, h⟩
    refine ⟨tm, ti, tl, t_o, ta, opt, ?_, h⟩
    rw [← h0, spaced_splitSpace]

theorem Aiger.Header.utf8 {m i l o a b k : Nat} {line : Text} (h : Header m i l o a b k line) : utf8Valid line = true := by
  have h' := (header_iff.1 h).ascii
  rw [spaced_splitSpace] at h'
  exact utf8Valid_ascii _ h'

theorem Aiger.Header.no_nl {m i l o a b k : Nat} {line : Text} (h : Header m i l o a b k line) : chNl ∉ line := by
  intro hx
  rw [← spaced_splitSpace line] at hx
  rcases mem_spaced hx with h' | ⟨w, hw, hx⟩
  · exact absurd h' (by decide)
  · rcases (header_iff.1 h).words w hw with rfl | ⟨n, hn⟩
    · revert hx; decide
    · exact hn.no_nl hx

/-- Words as indexed by the code. -/
theorem headerWords_iff {m i l o a b k j f : Nat} {ws : List Text} :
    (ws[0]? = some Aig.aigText ∧ 5 < ws.length ∧ ws.length < 10 ∧
      (∃ t, ws[1]? = some t ∧ Numeral t m) ∧ (∃ t, ws[2]? = some t ∧ Numeral t i) ∧ (∃ t, ws[3]? = some t ∧ Numeral t l) ∧
      (∃ t, ws[4]? = some t ∧ Numeral t o) ∧ (∃ t, ws[5]? = some t ∧ Numeral t a) ∧
      Numeral (ws[6]?.getD [chZero]) b ∧ Numeral (ws[7]?.getD [chZero]) k ∧ Numeral (ws[8]?.getD [chZero]) j ∧
      Numeral (ws[9]?.getD [chZero]) f ∧ f = 0 ∧ j = 0) ↔ HeaderWords m i l o a b k ws ∧ f = 0 ∧ j = 0 := by
  constructor
  · rintro ⟨h0, h5, h10, ⟨t1, e1, h1⟩, ⟨t2, e2, h2⟩, ⟨t3, e3, h3⟩, ⟨t4, e4, h4⟩, ⟨t5, e5, h5'⟩, h6, h7, h8, h9, rfl, rfl⟩
    match ws, h5, h10, h0 with
    | w0 :: w1 :: w2 :: w3 :: w4 :: w5 :: opt, hl5, hl10, h0 =>
      simp at h0 e1 e2 e3 e4 e5
      subst h0 e1 e2 e3 e4 e5
      refine ⟨⟨w1, w2, w3, w4, w5, opt, rfl, h1, h2, h3, h4, h5', ?_⟩, rfl, rfl⟩
      match opt, hl10 with
      | [], _ =>
        simp only [List.getElem?_cons_succ, List.getElem?_nil, Option.getD_none, numeral_zero] at h6 h7
        left; exact ⟨rfl, h6, h7⟩
      | [tb], _ =>
        simp only [List.getElem?_cons_succ, List.getElem?_cons_zero, List.getElem?_nil, Option.getD_none,
          Option.getD_some, numeral_zero] at h6 h7
        right; left; exact ⟨tb, rfl, h6, h7⟩
      | [tb, tk], _ =>
        simp only [List.getElem?_cons_succ, List.getElem?_cons_zero, Option.getD_some] at h6 h7
        right; right; left; exact ⟨tb, tk, rfl, h6, h7⟩
      | [tb, tk, tj], _ =>
        simp only [List.getElem?_cons_succ, List.getElem?_cons_zero, Option.getD_some] at h6 h7 h8
        right; right; right; exact ⟨tb, tk, tj, rfl, h6, h7, h8⟩
      | _ :: _ :: _ :: _ :: _, hl10 => simp at hl10; omega
  · rintro ⟨⟨tm, ti, tl, t_o, ta, opt, rfl, h1, h2, h3, h4, h5, h6⟩, rfl, rfl⟩
    have hz : Numeral [chZero] 0 := numeral_zero.2 rfl
    rcases h6 with ⟨rfl, rfl, rfl⟩ | ⟨tb, rfl, hb, rfl⟩ | ⟨tb, tk, rfl, hb, hk⟩ | ⟨tb, tk, tj, rfl, hb, hk, hj⟩
    · exact ⟨rfl, by simp, by simp, ⟨_, rfl, h1⟩, ⟨_, rfl, h2⟩, ⟨_, rfl, h3⟩, ⟨_, rfl, h4⟩, ⟨_, rfl, h5⟩, hz, hz, hz, hz, rfl, rfl⟩
    · exact ⟨rfl, by simp, by simp, ⟨_, rfl, h1⟩, ⟨_, rfl, h2⟩, ⟨_, rfl, h3⟩, ⟨_, rfl, h4⟩, ⟨_, rfl, h5⟩, hb, hz, hz, hz, rfl, rfl⟩
    · exact ⟨rfl, by simp, by simp, ⟨_, rfl, h1⟩, ⟨_, rfl, h2⟩, ⟨_, rfl, h3⟩, ⟨_, rfl, h4⟩, ⟨_, rfl, h5⟩, hb, hk, hz, hz, rfl, rfl⟩
    · exact ⟨rfl, by simp, by simp, ⟨_, rfl, h1⟩, ⟨_, rfl, h2⟩, ⟨_, rfl, h3⟩, ⟨_, rfl, h4⟩, ⟨_, rfl, h5⟩, hb, hk, hj, hz, rfl, rfl⟩

theorem loadFirstLine_ok {dbg : Bool} {lines : List Text} {a : Aig} : Aig.loadFirstLine dbg lines Aig.empty = .ok a ↔
    ∃ line m i l o n b k s, lines[0]? = some line ∧ Header m i l o n b k line ∧
      usizeAdd dbg "construction.rs:105 overflow" i l = .ok s ∧ usizeAdd dbg "construction.rs:105 overflow" s n = .ok m ∧
      a = mkAig m i l o n b k [] [] [] [] [] [] [] [] := by
  unfold Aig.loadFirstLine
  simp only [bind_ok, indexR_ok, fromUtf8_ok, assertR_ok, convert_ok, pure_ok, beq_iff_eq, decide_eq_true_eq]
  constructor
  · rintro ⟨line, hl, line', ⟨_, rfl⟩, w0, h0, _, rfl, _, h5, _, h10, t1, e1, m, h1, t2, e2, i, h2, t3, e3, l, h3, t4, e4, o, h4,
      t5, e5, n, h5', b, h6, k, h7, j, h8, f, h9, s, hs1, m', hs2, _, rfl, _, hf, _, hj, rfl⟩
    have hw := headerWords_iff.1 ⟨h0, h5, h10, ⟨t1, e1, h1⟩, ⟨t2, e2, h2⟩, ⟨t3, e3, h3⟩, ⟨t4, e4, h4⟩, ⟨t5, e5, h5'⟩,
      h6, h7, h8, h9, hf, hj⟩
    subst hf hj
    exact ⟨line', _, i, l, o, n, b, k, s, hl, header_iff.2 hw.1, hs1, hs2, rfl⟩
  · rintro ⟨line, m, i, l, o, n, b, k, s, hl, hh, hs1, hs2, rfl⟩
    obtain ⟨h0, h5, h10, ⟨t1, e1, h1⟩, ⟨t2, e2, h2⟩, ⟨t3, e3, h3⟩, ⟨t4, e4, h4⟩, ⟨t5, e5, h5'⟩, h6, h7, h8, h9, _⟩ :=
      headerWords_iff.2 ⟨header_iff.1 hh, rfl, rfl⟩
    exact ⟨line, hl, line, ⟨hh.utf8, rfl⟩, _, h0, (), rfl, (), h5, (), h10, t1, e1, m, h1, t2, e2, i, h2, t3, e3, l, h3,
      t4, e4, o, h4, t5, e5, n, h5', b, h6, k, h7, 0, h8, 0, h9, s, hs1, m, hs2, (), rfl, (), rfl, (), rfl, rfl⟩

/-- The constant node. -/
def constNode : AIGNode := ⟨.constantZero, 0, usizeMax, usizeMax, usizeMax, usizeMax, [], [], [], [], []⟩

theorem usizeAdd_small {dbg : Bool} {s : String} {a b : Nat} (h : a + b < usizeSize) : usizeAdd dbg s a b = .ok (a + b) := by
  simp [usizeAdd, h]

theorem withCapacity_ok {s : String} {n size : Nat} {u : Unit} :
    withCapacity s n size = .ok u ↔ n * size ≤ 9223372036854775807 := by
  unfold withCapacity; rw [assertR_ok, decide_eq_true_eq]

theorem allocateVectors_ok {dbg : Bool} {lines : List Text} {a : Aig} :
    (Aig.loadFirstLine dbg lines Aig.empty >>= Aig.allocateVectors dbg) = .ok a ↔
      ∃ line m i l o n b k, lines[0]? = some line ∧ Header m i l o n b k line ∧ Fits m i l o n b k ∧
        a = mkAig m i l o n b k [constNode] [] [] [] [] [] [] [] := by
  have hsz : usizeSize = 18446744073709551616 := rfl
  rw [bind_ok]
  constructor
  · rintro ⟨a0, h0, h1⟩
    obtain ⟨line, m, i, l, o, n, b, k, s, hl, hh, hs1, hs2, rfl⟩ := loadFirstLine_ok.1 h0
    unfold Aig.allocateVectors mkAig at h1
    simp only [bind_ok, withCapacity_ok, pure_ok] at h1
    obtain ⟨cap, hc, _, h168, z, hz, _, hi, _, hl8, _, ho, _, hn, _, hb, _, hk, rfl⟩ := h1
    refine ⟨line, m, i, l, o, n, b, k, hl, hh, ?_, ?_⟩
    · rw [usizeAdd_small (by omega)] at hs1
      cases hs1
      rw [usizeAdd_small (by omega)] at hs2
      cases hs2
      rw [usizeAdd_small (by omega)] at hc
      cases hc
      exact ⟨rfl, h168, ho, hb, hk⟩
    · have : z = constNode := by
        unfold AIGNode.new at hz
        simp only [bind_ok, pure_ok] at hz
        obtain ⟨_, _, rfl⟩ := hz
        rfl
      rw [this]; rfl
  · rintro ⟨line, m, i, l, o, n, b, k, hl, hh, hf, rfl⟩
    obtain ⟨h1, h2, h3, h4, h5⟩ := hf
    refine ⟨_, loadFirstLine_ok.2 ⟨line, m, i, l, o, n, b, k, i + l, hl, hh, ?_, ?_, rfl⟩, ?_⟩
    · exact usizeAdd_small (by omega)
    · rw [usizeAdd_small (by omega), h1]
    · unfold Aig.allocateVectors mkAig
      simp only [bind_ok, withCapacity_ok, pure_ok]
      refine ⟨m + 1, usizeAdd_small (by omega), (), h2, constNode, rfl, (), by omega, (), by omega, (), h3, (), by omega,
        (), h4, (), h5, rfl⟩

end Verif
