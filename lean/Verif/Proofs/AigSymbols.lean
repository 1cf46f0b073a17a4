import Verif.Proofs.AigFile
import Verif.Proofs.Utf8

/-! # Symbols, comments, and the exact description of the whole reader -/

namespace Verif

open Aiger

/-- The node a symbol is attached to. -/
def symTarget (c : Circuit) (s : Symbol) : Nat :=
  if s.kind = 105 then 1 + s.pos else if s.kind = 108 then c.latchVar s.pos
  else if s.kind = 111 then c.outputs.getD s.pos 0 / 2 else if s.kind = 98 then c.bad.getD s.pos 0 / 2
  else c.constraints.getD s.pos 0 / 2

/-- The node with the symbol stored. -/
def setSym (s : Symbol) (n : AIGNode) : AIGNode :=
  if s.kind = 105 then { n with inputSymbol := s.name } else if s.kind = 108 then { n with latchSymbol := s.name }
  else if s.kind = 111 then { n with outputSymbol := s.name } else if s.kind = 98 then { n with badSymbol := s.name }
  else { n with constraintSymbol := s.name }

def applySym (c : Circuit) (a : Aig) (s : Symbol) : Aig := { a with nodes := a.nodes.modify (symTarget c s) (setSym s) }

theorem setSym_nodeType (s : Symbol) (n : AIGNode) : (setSym s n).nodeType = n.nodeType := by
  unfold setSym; repeat' split
  all_goals rfl
theorem setSym_lit (s : Symbol) (n : AIGNode) : (setSym s n).lit = n.lit := by
  unfold setSym; repeat' split
  all_goals rfl
theorem setSym_latchInput (s : Symbol) (n : AIGNode) : (setSym s n).latchInput = n.latchInput := by
  unfold setSym; repeat' split
  all_goals rfl
theorem setSym_latchReset (s : Symbol) (n : AIGNode) : (setSym s n).latchReset = n.latchReset := by
  unfold setSym; repeat' split
  all_goals rfl
theorem setSym_andInput0 (s : Symbol) (n : AIGNode) : (setSym s n).andInput0 = n.andInput0 := by
  unfold setSym; repeat' split
  all_goals rfl
theorem setSym_andInput1 (s : Symbol) (n : AIGNode) : (setSym s n).andInput1 = n.andInput1 := by
  unfold setSym; repeat' split
  all_goals rfl

theorem applySym_node (c : Circuit) (a : Aig) (s : Symbol) (j : Nat) (n : AIGNode) (h : a.nodes[j]? = some n) :
    (applySym c a s).nodes[j]? = some (if symTarget c s = j then setSym s n else n) := by
  show (a.nodes.modify _ _)[j]? = _
  rw [List.getElem?_modify, h]; rfl

theorem represents_applySym {c : Circuit} {a : Aig} (h : a.Represents c) (s : Symbol) : (applySym c a s).Represents c := by
  refine ⟨h.maximumVariableIndex, h.numberOfInputs, h.numberOfLatches, h.numberOfOutputs, h.numberOfAndGates, h.numberOfBad,
    h.numberOfConstraints, h.numberOfJustice, h.numberOfFairness, ?_, ?_, ?_, ?_, ?_, ?_, h.inputs, h.latches, h.ands,
    h.outputs, h.bad, h.constraints, h.fits⟩
  · show (a.nodes.modify _ _).length = _
    rw [List.length_modify]; exact h.nodes_length
  · obtain ⟨n, h1, h2⟩ := h.constNode
    refine ⟨_, applySym_node c a s 0 n h1, ?_⟩
    split
    · rw [setSym_nodeType]; exact h2
    · exact h2
  · intro i hi
    obtain ⟨n, h1, h2⟩ := h.inputNode i hi
    refine ⟨_, applySym_node c a s _ n h1, ?_⟩
    split
    · rw [setSym_nodeType]; exact h2
    · exact h2
  · intro i p hp
    obtain ⟨n, h1, h2, h3, h4⟩ := h.latchNode i p hp
    refine ⟨_, applySym_node c a s _ n h1, ?_⟩
    split
    · rw [setSym_nodeType, setSym_latchInput, setSym_latchReset]; exact ⟨h2, h3, h4⟩
    · exact ⟨h2, h3, h4⟩
  · intro i p hp
    obtain ⟨n, h1, h2, h3, h4⟩ := h.andNode i p hp
    refine ⟨_, applySym_node c a s _ n h1, ?_⟩
    split
    · rw [setSym_nodeType, setSym_andInput0, setSym_andInput1]; exact ⟨h2, h3, h4⟩
    · exact ⟨h2, h3, h4⟩
  · intro i n hn
    have hlt : i < a.nodes.length := by
      have := getElem?_lt hn
      have e : (applySym c a s).nodes.length = a.nodes.length := List.length_modify _ _ _
      omega
    have hm : a.nodes[i]? = some a.nodes[i] := List.getElem?_eq_getElem hlt
    rw [applySym_node c a s i _ hm] at hn
    have hn := Option.some.inj hn
    subst hn
    split
    · rw [setSym_lit]; exact h.lit i _ hm
    · exact h.lit i _ hm

theorem represents_comments {c : Circuit} {a : Aig} (h : a.Represents c) (t : Text) : Aig.Represents { a with comments := t } c :=
  ⟨h.maximumVariableIndex, h.numberOfInputs, h.numberOfLatches, h.numberOfOutputs, h.numberOfAndGates, h.numberOfBad,
    h.numberOfConstraints, h.numberOfJustice, h.numberOfFairness, h.nodes_length, h.constNode, h.inputNode, h.latchNode,
    h.andNode, h.lit, h.inputs, h.latches, h.ands, h.outputs, h.bad, h.constraints, h.fits⟩

theorem represents_applySyms {c : Circuit} {a : Aig} (h : a.Represents c) (ss : List Symbol) :
    (ss.foldl (applySym c) a).Represents c := by
  induction ss generalizing a with
  | nil => exact h
  | cons s ss ih => exact ih (represents_applySym h s)

theorem modify_eq_set {l : List AIGNode} {i : Nat} {n : AIGNode} (f : AIGNode → AIGNode) (h : l[i]? = some n) :
    l.modify i f = l.set i (f n) := by
  apply List.ext_getElem?
  intro j
  rw [List.getElem?_modify, List.getElem?_set]
  by_cases hj : i = j
  · subst hj; rw [h]; simp [getElem?_lt h]
  · rw [if_neg hj]; cases l[j]? <;> simp [hj]

theorem updateNode_ok {a a' : Aig} {i : Nat} {f : AIGNode → Res AIGNode} :
    a.updateNode i f = .ok a' ↔ ∃ n n', a.nodes[i]? = some n ∧ f n = .ok n' ∧ a' = { a with nodes := a.nodes.set i n' } := by
  unfold Aig.updateNode
  simp only [bind_ok, indexR_ok, pure_ok]
  constructor
  · rintro ⟨n, h1, n', h2, rfl⟩; exact ⟨n, n', h1, h2, rfl⟩
  · rintro ⟨n, n', h1, h2, rfl⟩; exact ⟨n, h1, n', h2, rfl⟩

theorem Aig.Represents.node_exists {a : Aig} {c : Circuit} (h : a.Represents c) {l : Nat} (hl : c.LitOK l) :
    ∃ n, a.nodes[l / 2]? = some n := by
  have : l / 2 < a.nodes.length := by
    rw [h.nodes_length]; unfold Circuit.LitOK Circuit.maxVar at hl; omega
  exact ⟨_, List.getElem?_eq_getElem this⟩

theorem shr_one (n : Nat) : n >>> 1 = n / 2 := Nat.shiftRight_eq_div_pow n 1

theorem addSymbol_ok {a a' : Aig} {c : Circuit} (hr : a.Represents c) (hw : c.WF) (s : Symbol) :
    a.addSymbolToNode s.kind s.pos s.name = .ok a' ↔ SymbolOK c s ∧ a' = applySym c a s := by
  obtain ⟨kind, pos, name⟩ := s
  unfold Aig.addSymbolToNode
  have lit : ∀ (xs : List Nat) (hxs : ∀ l ∈ xs, c.LitOK l) (f : AIGNode → AIGNode) (site : String),
      ((do let l ← indexR site xs pos; a.updateNode (l >>> 1) (fun n => .ok (f n))) = .ok a' ↔
        pos < xs.length ∧ a' = { a with nodes := a.nodes.modify (xs.getD pos 0 / 2) f }) := by
    intro xs hxs f site
    simp only [bind_ok, indexR_ok, updateNode_ok, ok_ok]
    constructor
    · rintro ⟨l, h1, n, n', h2, rfl, rfl⟩
      refine ⟨getElem?_lt h1, ?_⟩
      have : xs.getD pos 0 = l := by rw [List.getD_eq_getElem?_getD, h1]; rfl
      rw [shr_one] at h2
      rw [this, modify_eq_set f h2, shr_one]
    · rintro ⟨hlt, rfl⟩
      have h1 : xs[pos]? = some xs[pos] := List.getElem?_eq_getElem hlt
      obtain ⟨n, hn⟩ := hr.node_exists (hxs _ (List.mem_of_getElem? h1))
      refine ⟨_, h1, n, f n, by rw [shr_one]; exact hn, rfl, ?_⟩
      have : xs.getD pos 0 = xs[pos] := by rw [List.getD_eq_getElem?_getD, h1]; rfl
      rw [this, modify_eq_set f hn, shr_one]
  by_cases h1 : kind = 105
  · subst h1
    have hS : SymbolOK c ⟨105, pos, name⟩ ↔ pos < c.numInputs := by simp [SymbolOK]
    have hA : applySym c a ⟨105, pos, name⟩ = { a with nodes := a.nodes.modify (1 + pos) (fun n => { n with inputSymbol := name }) } := rfl
    rw [if_pos rfl, hS, hA]
    simp only [bind_ok, indexR_ok, updateNode_ok]
    constructor
    · rintro ⟨i, hi, n, n', hn, hs, h⟩
      rw [hr.inputs] at hi
      have hlt := getElem?_lt hi
      rw [List.length_range'] at hlt
      rw [List.getElem?_range' hlt, Nat.one_mul] at hi
      have hi := Option.some.inj hi
      subst hi
      unfold AIGNode.setInputSymbol at hs
      simp only [bind_ok, pure_ok] at hs
      obtain ⟨_, _, rfl⟩ := hs
      refine ⟨hlt, ?_⟩
      rw [modify_eq_set _ hn]; exact h
    · rintro ⟨hlt, h⟩
      obtain ⟨n, hn, ht⟩ := hr.inputNode pos hlt
      refine ⟨1 + pos, ?_, n, { n with inputSymbol := name }, hn, ?_, ?_⟩
      · rw [hr.inputs, List.getElem?_range' hlt, Nat.one_mul]
      · unfold AIGNode.setInputSymbol; rw [ht]; rfl
      · rw [modify_eq_set _ hn] at h; exact h
  · rw [if_neg h1]
    by_cases h2 : kind = 108
    · subst h2
      have hS : SymbolOK c ⟨108, pos, name⟩ ↔ pos < c.latches.length := by simp [SymbolOK]
      have hA : applySym c a ⟨108, pos, name⟩ =
        { a with nodes := a.nodes.modify (1 + c.numInputs + pos) (fun n => { n with latchSymbol := name }) } := rfl
      rw [if_pos rfl, hS, hA]
      simp only [bind_ok, indexR_ok, updateNode_ok]
      constructor
      · rintro ⟨i, hi, n, n', hn, hs, h⟩
        rw [hr.latches] at hi
        have hlt := getElem?_lt hi
        rw [List.length_range'] at hlt
        rw [List.getElem?_range' hlt, Nat.one_mul] at hi
        have hi := Option.some.inj hi
        subst hi
        unfold AIGNode.setLatchSymbol at hs
        simp only [bind_ok, pure_ok] at hs
        obtain ⟨_, _, rfl⟩ := hs
        refine ⟨hlt, ?_⟩
        rw [modify_eq_set _ hn]; exact h
      · rintro ⟨hlt, h⟩
        obtain ⟨n, hn, ht, _⟩ := hr.latchNode pos _ (List.getElem?_eq_getElem hlt)
        refine ⟨1 + c.numInputs + pos, ?_, n, { n with latchSymbol := name }, hn, ?_, ?_⟩
        · rw [hr.latches, List.getElem?_range' hlt, Nat.one_mul]
        · unfold AIGNode.setLatchSymbol; rw [ht]; rfl
        · rw [show 1 + c.numInputs + pos = c.latchVar pos from rfl, modify_eq_set _ hn] at h; exact h
    · rw [if_neg h2]
      by_cases h3 : kind = 111
      · subst h3
        have hS : SymbolOK c ⟨111, pos, name⟩ ↔ pos < c.outputs.length := by simp [SymbolOK]
        rw [if_pos rfl, hS, hr.outputs]
        exact lit c.outputs hw.out_ok (fun n => { n with outputSymbol := name }) _
      · rw [if_neg h3]
        by_cases h4 : kind = 98
        · subst h4
          have hS : SymbolOK c ⟨98, pos, name⟩ ↔ pos < c.bad.length := by simp [SymbolOK]
          rw [if_pos rfl, hS, hr.bad]
          exact lit c.bad hw.bad_ok (fun n => { n with badSymbol := name }) _
        · rw [if_neg h4]
          by_cases h5 : kind = 99
          · subst h5
            have hS : SymbolOK c ⟨99, pos, name⟩ ↔ pos < c.constraints.length := by simp [SymbolOK]
            rw [if_pos rfl, hS, hr.constraints]
            exact lit c.constraints hw.con_ok (fun n => { n with constraintSymbol := name }) _
          · rw [if_neg h5]
            simp [panicR, SymbolOK, h1, h2, h3, h4, h5]

/-! ### One symbol line -/

theorem symbolLine_ok {a a' : Aig} {c : Circuit} (hr : a.Represents c) (hw : c.WF) {line : Text} (hnl : chNl ∉ line) :
    a.symbolLine line = .ok a' ↔ ∃ s, SymbolLine s line ∧ SymbolOK c s ∧ a' = applySym c a s := by
  unfold Aig.symbolLine
  simp only [bind_ok, assertR_ok, indexR_ok, convert_ok, beq_iff_eq]
  constructor
  · rintro ⟨_, hlen, key, hkey, name, hname, _, _, ty, hty, _, _, pos, hpos, hadd⟩
    obtain ⟨h1, h2⟩ := (addSymbol_ok hr hw ⟨ty, pos, name⟩).1 hadd
    have hsp := spaced_splitSpace line
    have hns := splitSpace_no_space line
    match hm : splitSpace line, hlen with
    | [x, y], _ =>
      rw [hm] at hkey hname hsp hns
      simp at hkey hname
      subst hkey hname
      cases x with
      | nil => simp at hty
      | cons t0 x =>
        simp at hty
        subst hty
        have hsp : t0 :: x ++ 32 :: y = line := hsp
        refine ⟨⟨t0, pos, y⟩, ⟨x, by simpa using hpos, by rw [← hsp]; simp, hns y (by simp), ?_⟩, h1, h2⟩
        intro h
        apply hnl
        rw [← hsp]
        simp
        exact Or.inr (Or.inr (Or.inr h))
  · rintro ⟨⟨ty, pos, name⟩, ⟨t, hn, hline, hs, _⟩, hok, rfl⟩
    have hkind : ty = 105 ∨ ty = 108 ∨ ty = 111 ∨ ty = 98 ∨ ty = 99 := by
      rcases hok with h | h | h | h | h
      · exact Or.inl h.1
      · exact Or.inr (Or.inl h.1)
      · exact Or.inr (Or.inr (Or.inl h.1))
      · exact Or.inr (Or.inr (Or.inr (Or.inl h.1)))
      · exact Or.inr (Or.inr (Or.inr (Or.inr h.1)))
    have hns : chSpace ∉ ty :: t := by
      intro h
      rcases List.mem_cons.1 h with h | h
      · rcases hkind with e | e | e | e | e <;> rw [e] at h <;> exact absurd h (by decide)
      · exact hn.no_space h
    have hsplit : splitSpace line = [ty :: t, name] := by
      have e : line = spaced [ty :: t, name] := by rw [hline]; rfl
      rw [e]
      apply splitSpace_spaced _ (by simp)
      intro w hw'
      simp at hw'
      rcases hw' with rfl | rfl
      · exact hns
      · exact hs
    rw [hsplit]
    refine ⟨(), rfl, ty :: t, rfl, name, rfl, (), ?_, ty, rfl, (), ?_, pos, hn, (addSymbol_ok hr hw ⟨ty, pos, name⟩).2 ⟨hok, rfl⟩⟩
    · have := hn.ne_nil
      cases t with
      | nil => exact absurd rfl this
      | cons b bs => simp
    · simpa [or_assoc] using hkind

theorem symbolLine_utf8 {s : Symbol} {c : Circuit} {line : Text} (h : SymbolLine s line) (hok : SymbolOK c s) :
    utf8Valid line = utf8Valid s.name := by
  obtain ⟨t, hn, hline, _⟩ := h
  have e : line = (s.kind :: (t ++ [32])) ++ s.name := by rw [hline]; simp
  rw [e]
  apply utf8Valid_ascii_append
  intro b hb
  simp only [List.mem_cons, List.mem_append, List.not_mem_nil, or_false] at hb
  rcases hb with rfl | hb | rfl
  · rcases hok with h | h | h | h | h <;> rw [h.1] <;> decide
  · exact hn.ascii b hb
  · decide

theorem symbolLine_ne_c {s : Symbol} {line : Text} (h : SymbolLine s line) : line ≠ [99] := by
  obtain ⟨t, hn, hline, _⟩ := h
  have := congrArg List.length hline
  intro e
  rw [e] at this
  simp at this

/-! ### The loop -/

/-- Comment text as stored by the reader: without one final newline and without NUL bytes. -/
def storedComment (t : Text) : Text := (if t.getLast? = some 10 then t.dropLast else t).filter (fun b => b != 0)

def SymTail (c : Circuit) (a a' : Aig) (lines : List Text) : Prop :=
  ∃ syms sl cl, lines = sl ++ cl ∧ Pointwise SymbolLine syms sl ∧ (∀ s ∈ syms, SymbolOK c s ∧ utf8Valid s.name = true) ∧
    ((cl = [] ∧ a' = syms.foldl (applySym c) a) ∨
     (∃ r, cl = [99] :: r ∧ utf8Valid (joinText [chNl] cl) = true ∧
       a' = { syms.foldl (applySym c) a with comments := (joinText [chNl] cl).filter (fun b => b != 0) }))

theorem pointwise_nil {α β : Type} {R : α → β → Prop} : Pointwise R [] [] := ⟨rfl, by simp⟩

theorem pointwise_cons {α β : Type} {R : α → β → Prop} {x : α} {y : β} {xs : List α} {ys : List β} :
    Pointwise R (x :: xs) (y :: ys) ↔ R x y ∧ Pointwise R xs ys := by
  constructor
  · rintro ⟨h1, h2⟩
    refine ⟨h2 0 x y (by simp) (by simp), by simpa using h1, ?_⟩
    intro i a b ha hb
    exact h2 (i + 1) a b (by simpa using ha) (by simpa using hb)
  · rintro ⟨h1, h2, h3⟩
    refine ⟨by simp [h2], ?_⟩
    intro i a b ha hb
    cases i with
    | zero => simp at ha hb; subst ha hb; exact h1
    | succ i => exact h3 i a b (by simpa using ha) (by simpa using hb)

theorem utf8Valid_join_c (r : List Text) : utf8Valid [99] = true := by decide

theorem symbolLoop_ok {a a' : Aig} {c : Circuit} (hr : a.Represents c) (hw : c.WF) {lines : List Text}
    (hnl : ∀ l ∈ lines, chNl ∉ l) : Aig.symbolLoop lines a = .ok a' ↔ SymTail c a a' lines := by
  induction lines generalizing a with
  | nil =>
    rw [Aig.symbolLoop, ok_ok]
    constructor
    · rintro rfl; exact ⟨[], [], [], rfl, pointwise_nil, by simp, Or.inl ⟨rfl, rfl⟩⟩
    · rintro ⟨syms, sl, cl, h1, h2, _, h4⟩
      have hsl : sl = [] := by cases sl with
        | nil => rfl
        | cons x xs => simp at h1
      subst hsl
      have hsy : syms = [] := List.length_eq_zero_iff.1 h2.1
      subst hsy
      rcases h4 with ⟨_, rfl⟩ | ⟨r, rfl, _⟩
      · rfl
      · simp at h1
  | cons line rest ih =>
    rw [Aig.symbolLoop, bind_ok]
    simp only [fromUtf8_ok]
    constructor
    · rintro ⟨_, ⟨hu, rfl⟩, h⟩
      split at h
      · rename_i hc
        simp only [bind_ok, fromUtf8_ok, pure_ok] at h
        obtain ⟨_, ⟨hu', rfl⟩, rfl⟩ := h
        exact ⟨[], [], _, rfl, pointwise_nil, by simp, Or.inr ⟨rest, by rw [hc], hu', rfl⟩⟩
      · rw [bind_ok] at h
        obtain ⟨a1, h1, h2⟩ := h
        obtain ⟨s, hs, hok, rfl⟩ := (symbolLine_ok hr hw (hnl _ (by simp))).1 h1
        obtain ⟨syms, sl, cl, rfl, g2, g3, g4⟩ := (ih (represents_applySym hr s) (fun l hl => hnl l (by simp [hl]))).1 h2
        refine ⟨s :: syms, _ :: sl, cl, rfl, pointwise_cons.2 ⟨hs, g2⟩, ?_, g4⟩
        intro s' hs'
        rcases List.mem_cons.1 hs' with rfl | hs'
        · exact ⟨hok, by rw [← symbolLine_utf8 hs hok]; exact hu⟩
        · exact g3 s' hs'
    · rintro ⟨syms, sl, cl, h1, h2, h3, h4⟩
      cases sl with
      | nil =>
        have hsy : syms = [] := List.length_eq_zero_iff.1 h2.1
        subst hsy
        rw [List.nil_append] at h1
        rcases h4 with ⟨rfl, _⟩ | ⟨r, rfl, hu, rfl⟩
        · simp at h1
        · simp only [List.cons.injEq] at h1
          obtain ⟨rfl, rfl⟩ := h1
          refine ⟨[99], ⟨by decide, rfl⟩, ?_⟩
          rw [if_pos rfl]
          simp only [bind_ok, fromUtf8_ok, pure_ok]
          exact ⟨_, ⟨hu, rfl⟩, rfl⟩
      | cons l sl =>
        rw [List.cons_append, List.cons.injEq] at h1
        obtain ⟨rfl, rfl⟩ := h1
        cases syms with
        | nil => have := h2.1; simp at this
        | cons s syms =>
          rw [pointwise_cons] at h2
          have hs := h3 s (by simp)
          refine ⟨line, ⟨by rw [symbolLine_utf8 h2.1 hs.1]; exact hs.2, rfl⟩, ?_⟩
          rw [if_neg (symbolLine_ne_c h2.1), bind_ok]
          refine ⟨_, (symbolLine_ok hr hw (hnl _ (by simp))).2 ⟨s, h2.1, hs.1, rfl⟩, ?_⟩
          rw [ih (represents_applySym hr s) (fun l hl => hnl l (by simp [hl]))]
          exact ⟨syms, sl, cl, rfl, h2.2, fun s' hs' => h3 s' (by simp [hs']), h4⟩

/-! ### From lines back to the text -/

theorem splitNl_spec (t : Text) : (∀ l ∈ splitNl t, chNl ∉ l) ∧
    (t = unlines (splitNl t) ∨ (t ++ [10] = unlines (splitNl t) ∧ t.getLast? ≠ some 10 ∧ t ≠ [])) := by
  obtain ⟨ls, last, rfl, h2, h3⟩ := exists_lines t
  rw [splitNl_unlines _ _ h2, splitNl_last h3]
  cases last with
  | nil => simpa using h2
  | cons b bs =>
    rw [if_neg (by simp)]
    refine ⟨?_, Or.inr ⟨?_, ?_, by simp⟩⟩
    · intro l hl
      rcases List.mem_append.1 hl with hl | hl
      · exact h2 l hl
      · simp only [List.mem_singleton] at hl; rw [hl]; exact h3
    · rw [unlines_append]; simp [unlines]
    · rw [List.getLast?_append]
      intro h
      apply h3
      have : (b :: bs).getLast? = some 10 := by
        cases hg : (b :: bs).getLast? with
        | none => simp at hg
        | some x => rw [hg] at h; simpa using h
      exact List.mem_of_getLast? this

theorem unlines_join (ls : List Text) (h : ls ≠ []) : unlines ls = joinText [chNl] ls ++ [10] := by
  induction ls with
  | nil => exact absurd rfl h
  | cons l ls ih =>
    cases ls with
    | nil => simp [unlines, joinText]
    | cons l' ls => rw [unlines, ih (by simp)]; simp [joinText, chNl]

theorem splitNl_of_unlines {t : Text} {ls : List Text} (hnl : ∀ l ∈ ls, chNl ∉ l) (h : t = unlines ls) : splitNl t = ls := by
  have := splitNl_unlines ls [] hnl
  rw [List.append_nil] at this
  rw [h, this]; simp [splitNl, splitNlAux]

theorem SymbolLine.no_nl' {s : Symbol} {c : Circuit} {line : Text} (h : SymbolLine s line) (hok : SymbolOK c s) : chNl ∉ line := by
  obtain ⟨t, hn, hline, _, hnn⟩ := h
  rw [hline]
  intro hm
  simp only [List.mem_cons, List.mem_append] at hm
  rcases hm with h | h | h | h
  · rcases hok with e | e | e | e | e <;> rw [e.1] at h <;> exact absurd h (by decide)
  · exact hn.no_nl h
  · exact absurd h (by decide)
  · exact hnn h

/-- The graph of a circuit with symbols and comments. -/
def finish (c : Circuit) (syms : List Symbol) (comment : Option Text) : Aig :=
  { syms.foldl (applySym c) (skeleton c) with comments := match comment with | none => [] | some t => storedComment t }

theorem foldl_applySym_comments (c : Circuit) (syms : List Symbol) (a : Aig) :
    (syms.foldl (applySym c) a).comments = a.comments := by
  induction syms generalizing a with
  | nil => rfl
  | cons s ss ih => rw [List.foldl_cons, ih]; rfl

theorem checkTypes_ok {a : Aig} {ty : NodeType} {is : List Nat}
    (h : ∀ i ∈ is, ∃ n, a.nodes[i]? = some n ∧ n.nodeType = ty) : a.checkTypes ty is = .ok () := by
  unfold Aig.checkTypes
  rw [forM_ok]
  intro i hi
  obtain ⟨n, hn, ht⟩ := h i hi
  simp only [bind_ok, indexR_ok, assertR_ok]
  exact ⟨n, hn, by rw [ht]; cases ty <;> rfl⟩

/-- The final consistency check never fails on what the reader builds. -/
theorem checkAig_ok {a : Aig} {c : Circuit} (h : a.Represents c) : a.checkAig = .ok () := by
  obtain ⟨n, hn, ht⟩ := h.constNode
  unfold Aig.checkAig
  simp only [bind_ok, indexR_ok, assertR_ok, beq_iff_eq]
  refine ⟨n, hn, (), ht, (), ?_, (), checkTypes_ok ?_, (), ?_, (), checkTypes_ok ?_, (), ?_, (), checkTypes_ok ?_, (), ?_, (), ?_, ?_⟩
  · rw [h.numberOfInputs, h.inputs, List.length_range']
  · intro i hi
    rw [h.inputs, List.mem_range'] at hi
    obtain ⟨j, hj, rfl⟩ := hi
    rw [Nat.one_mul]
    exact h.inputNode j hj
  · rw [h.numberOfLatches, h.latches, List.length_range']
  · intro i hi
    rw [h.latches, List.mem_range'] at hi
    obtain ⟨j, hj, rfl⟩ := hi
    rw [Nat.one_mul]
    obtain ⟨n, h1, h2, _⟩ := h.latchNode j _ (List.getElem?_eq_getElem hj)
    exact ⟨n, h1, h2⟩
  · rw [h.numberOfAndGates, h.ands, List.length_range']
  · intro i hi
    rw [h.ands, List.mem_range'] at hi
    obtain ⟨j, hj, rfl⟩ := hi
    rw [Nat.one_mul]
    obtain ⟨n, h1, h2, _⟩ := h.andNode j _ (List.getElem?_eq_getElem hj)
    exact ⟨n, h1, h2⟩
  · rw [h.numberOfOutputs, h.outputs]
  · rw [h.numberOfBad, h.bad]
  · rw [h.numberOfConstraints, h.constraints]

/-- **Exact description of the reader.** -/
theorem fromBytes_ok (dbg : Bool) (bytes : Text) (a : Aig) : Aig.fromBytes dbg bytes = .ok a ↔
    ∃ c tail syms comment, c.WF ∧ c.Fits ∧ File bytes c tail ∧ Tail tail syms comment ∧
      (∀ s ∈ syms, SymbolOK c s ∧ Utf8 s.name) ∧ (∀ t, comment = some t → Utf8 t) ∧ a = finish c syms comment := by
  rw [fromBytes_eq, bind_ok]
  have tailDrop : ∀ {c tail pos}, File bytes c tail → pos + tail.length = bytes.length →
      bytes.drop pos = tail ∧ pos ≤ bytes.length := by
    rintro c tail pos ⟨hd, A, B, C, D, ands, hb, _⟩ hp
    refine ⟨?_, by omega⟩
    rw [← List.append_assoc] at hb
    rw [hb] at hp
    rw [List.length_append] at hp
    rw [hb, List.drop_append_of_le_length (by omega), List.drop_eq_nil_of_le (by omega), List.nil_append]
  constructor
  · rintro ⟨⟨a0, pos⟩, h0, h⟩
    obtain ⟨c, tail, hwf, hF, hfile, rfl, hpos⟩ := (readSections_ok _ _ _ _).1 h0
    simp only [bind_ok, pure_ok] at h
    obtain ⟨a1, h1, _, _, rfl⟩ := h
    obtain ⟨hdrop, hle⟩ := tailDrop hfile hpos
    unfold Aig.readSymbolsAndComments at h1
    simp only [bind_ok] at h1
    obtain ⟨_, _, h1⟩ := h1
    rw [hdrop] at h1
    obtain ⟨hnl, htext⟩ := splitNl_spec tail
    obtain ⟨syms, sl, cl, e, g1, g2, g3⟩ := (symbolLoop_ok (represents_skeleton c hF) hwf hnl).1 h1
    rw [e] at htext
    rcases g3 with ⟨rfl, rfl⟩ | ⟨r, rfl, hu, rfl⟩
    · rw [List.append_nil] at htext
      refine ⟨c, tail, syms, none, hwf, hF, hfile, ⟨sl, g1, ?_⟩, fun s hs => ⟨(g2 s hs).1, (utf8Valid_iff _).1 (g2 s hs).2⟩, by simp, ?_⟩
      · rcases htext with h | h
        · exact Or.inl h
        · exact Or.inr h.1
      · have : (syms.foldl (applySym c) (skeleton c)).comments = [] := foldl_applySym_comments c syms _
        unfold finish
        rw [← this]
    · rw [unlines_append, unlines_join ([99] :: r) (by simp)] at htext
      have hjoin : joinText [chNl] ([99] :: r) = [99] ∨ ∃ q, joinText [chNl] ([99] :: r) = 99 :: 10 :: q := by
        cases r with
        | nil => exact Or.inl rfl
        | cons x xs => right; exact ⟨joinText [chNl] (x :: xs), rfl⟩
      rcases htext with h | ⟨h, hlast, _⟩
      · refine ⟨c, tail, syms, some (joinText [chNl] ([99] :: r) ++ [10]), hwf, hF, hfile, ⟨sl, g1, h, ?_⟩,
          fun s hs => ⟨(g2 s hs).1, (utf8Valid_iff _).1 (g2 s hs).2⟩, ?_, ?_⟩
        · rcases hjoin with h | ⟨q, h⟩
          · right; exact ⟨[], by rw [h]; rfl⟩
          · right; exact ⟨q ++ [10], by rw [h]; rfl⟩
        · intro t ht
          have ht := Option.some.inj ht
          subst ht
          obtain ⟨cs, hcs⟩ := (utf8Valid_iff _).1 hu
          refine ⟨cs ++ [Char.ofNat 10], ?_⟩
          rw [List.flatMap_append, ← hcs]; rfl
        · unfold finish storedComment
          simp only
          rw [if_pos (by simp)]
          simp
      · have h' : tail = unlines sl ++ joinText [chNl] ([99] :: r) := by
          have : tail ++ [10] = (unlines sl ++ joinText [chNl] ([99] :: r)) ++ [10] := by rw [h]; simp
          exact List.append_cancel_right this
        refine ⟨c, tail, syms, some (joinText [chNl] ([99] :: r)), hwf, hF, hfile, ⟨sl, g1, h', ?_⟩,
          fun s hs => ⟨(g2 s hs).1, (utf8Valid_iff _).1 (g2 s hs).2⟩, ?_, ?_⟩
        · rcases hjoin with h | ⟨q, h⟩
          · left; exact h
          · right; exact ⟨q, h⟩
        · intro t ht
          have ht := Option.some.inj ht
          subst ht
          exact (utf8Valid_iff _).1 hu
        · unfold finish storedComment
          simp only
          rw [if_neg]
          intro hl
          apply hlast
          rw [h', List.getLast?_append, hl]; rfl
  · rintro ⟨c, tail, syms, comment, hwf, hF, hfile, ⟨sl, g1, htail⟩, hs, hcom, rfl⟩
    have hlen : ∃ pos, pos + tail.length = bytes.length := by
      obtain ⟨hd, A, B, C, D, ands, hb, _⟩ := hfile
      rw [hb]
      exact ⟨(unlines (hd :: (A ++ B ++ C ++ D)) ++ ands).length, by simp; omega⟩
    obtain ⟨pos, hpos⟩ := hlen
    obtain ⟨hdrop, hle⟩ := tailDrop hfile hpos
    refine ⟨(skeleton c, pos), (readSections_ok _ _ _ _).2 ⟨c, tail, hwf, hF, hfile, rfl, hpos⟩, ?_⟩
    simp only [bind_ok, pure_ok]
    refine ⟨finish c syms comment, ?_, (), checkAig_ok (represents_comments (represents_applySyms (represents_skeleton c hF) syms) _), rfl⟩
    unfold Aig.readSymbolsAndComments
    simp only [bind_ok]
    refine ⟨(), assertR_ok.2 (by simpa using hle), ?_⟩
    rw [hdrop]
    have hslnl : ∀ l ∈ sl, chNl ∉ l := by
      intro l hl
      obtain ⟨s, hs', hsl⟩ := mem_of_pointwise g1 hl
      exact SymbolLine.no_nl' hsl (hs s hs').1
    have hs2 : ∀ s ∈ syms, SymbolOK c s ∧ utf8Valid s.name = true := fun s h => ⟨(hs s h).1, (utf8Valid_iff _).2 (hs s h).2⟩
    obtain ⟨hnl, htext⟩ := splitNl_spec tail
    refine (symbolLoop_ok (represents_skeleton c hF) hwf hnl).2 ?_
    cases comment with
    | none =>
      refine ⟨syms, sl, [], ?_, g1, hs2, Or.inl ⟨rfl, ?_⟩⟩
      · rw [List.append_nil]
        rcases htail with h | h
        · exact splitNl_of_unlines hslnl h
        · rcases htext with h' | ⟨h', _⟩
          · -- `tail` ends with a newline (or is empty) although `tail ++ [10]` has exactly the symbol lines: impossible
            exfalso
            have e1 : unlines (splitNl tail ++ [[]]) = unlines sl := by
              rw [unlines_append, ← h, ← h']; simp [unlines]
            have e2 := splitNl_of_unlines (t := unlines sl) hslnl rfl
            have hnl' : ∀ l ∈ splitNl tail ++ [[]], chNl ∉ l := by
              intro l hl
              rcases List.mem_append.1 hl with hl | hl
              · exact hnl l hl
              · simp at hl; rw [hl]; simp
            rw [← e1, splitNl_of_unlines hnl' rfl] at e2
            have hm : [] ∈ sl := by rw [← e2]; simp
            obtain ⟨s, _, t, _, hl, _⟩ := mem_of_pointwise g1 hm
            simp at hl
          · have e2 := splitNl_of_unlines (t := unlines sl) hslnl rfl
            rw [← h, h', splitNl_of_unlines hnl rfl] at e2
            exact e2
      · have : (syms.foldl (applySym c) (skeleton c)).comments = [] := foldl_applySym_comments c syms _
        unfold finish
        rw [← this]
    | some text =>
      obtain ⟨htail, hc⟩ := htail
      have hu := hcom text rfl
      obtain ⟨hcnl, hctext⟩ := splitNl_spec text
      have hsplit : splitNl tail = sl ++ splitNl text := by rw [htail, splitNl_unlines _ _ hslnl]
      have hhead : ∃ r, splitNl text = [99] :: r := by
        rcases hc with h | ⟨r, h⟩
        · rw [h]; exact ⟨[], rfl⟩
        · rw [h]; exact ⟨splitNl r, splitNl_line [99] r (by decide)⟩
      obtain ⟨r, hr⟩ := hhead
      have hjoin : joinText [chNl] (splitNl text) = if text.getLast? = some 10 then text.dropLast else text := by
        rw [hr] at hctext ⊢
        rw [unlines_join ([99] :: r) (by simp)] at hctext
        rcases hctext with h | ⟨h, hl, _⟩
        · have hlast : text.getLast? = some 10 := by rw [h]; simp
          rw [if_pos hlast]
          have : text.dropLast = (joinText [chNl] ([99] :: r) ++ [10]).dropLast := congrArg _ h
          rw [this]; simp
        · rw [if_neg hl]
          exact (List.append_cancel_right h).symm
      refine ⟨syms, sl, splitNl text, hsplit, g1, hs2, Or.inr ⟨r, hr, ?_, ?_⟩⟩
      · rw [hjoin]
        split
        · rename_i hl
          rw [utf8Valid_iff]
          -- dropping a final newline keeps UTF-8
          obtain ⟨cs, hcs⟩ := hu
          cases hcl : cs.getLast? with
          | none =>
            rw [List.getLast?_eq_none_iff] at hcl
            subst hcl
            simp at hcs
            rw [hcs] at hl
            simp at hl
          | some ch =>
            have hcs' : cs = cs.dropLast ++ [ch] := by
              have hne : cs ≠ [] := by intro h; rw [h] at hcl; simp at hcl
              have := List.dropLast_concat_getLast hne
              rw [List.getLast?_eq_some_getLast hne] at hcl
              rw [← Option.some.inj hcl]; exact this.symm
            rw [hcs', List.flatMap_append] at hcs
            simp only [List.flatMap_cons, List.flatMap_nil, List.append_nil] at hcs
            have hch : String.utf8EncodeChar ch = [10] := utf8EncodeChar_last_nl ch (by
              rw [hcs, List.getLast?_append] at hl
              cases hg : (String.utf8EncodeChar ch).getLast? with
              | none =>
                rw [List.getLast?_eq_none_iff] at hg
                have := utf8EncodeChar_length ch
                rw [hg] at this
                simp at this
              | some x => rw [hg] at hl; simpa using hl)
            refine ⟨cs.dropLast, ?_⟩
            rw [hcs, hch]; simp
        · exact (utf8Valid_iff _).2 hu
      · unfold finish storedComment
        simp only
        rw [hjoin]

end Verif
