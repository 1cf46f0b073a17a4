import Verif.Proofs.Aag

/-! # Reading back what was printed, and symbol names -/

namespace Verif

open Aiger

theorem joinText_no {t : Text} {b : UInt8} (ts : List Text) (hb : b ∉ t) (h : ∀ x ∈ ts, b ∉ x) : b ∉ joinText t ts := by
  induction ts with
  | nil => simp [joinText]
  | cons x xs ih =>
    cases xs with
    | nil => exact h x (by simp)
    | cons y ys =>
      rw [joinText, List.mem_append, List.mem_append]
      · rintro ((hm | hm) | hm)
        · exact h x (by simp) hm
        · exact hb hm
        · exact ih (fun z hz => h z (List.mem_cons_of_mem _ hz)) hm
      · simp

theorem aagFirstLine_eq {a : Aig} {c : Circuit} (hr : a.Represents c) : ∃ opt : List Nat,
    a.aagFirstLine = joinText [chSpace] ([97, 97, 103] ::
      ([c.maxVar, c.numInputs, c.latches.length, c.outputs.length, c.ands.length] ++ opt).map decimal) ∧
    ((opt = [] ∧ c.bad.length = 0 ∧ c.constraints.length = 0) ∨ (opt = [c.bad.length] ∧ c.constraints.length = 0) ∨
      opt = [c.bad.length, c.constraints.length]) := by
  unfold Aig.aagFirstLine
  rw [hr.maximumVariableIndex, hr.numberOfInputs, hr.numberOfLatches, hr.numberOfOutputs, hr.numberOfAndGates, hr.numberOfBad,
    hr.numberOfConstraints]
  by_cases h1 : c.constraints.length > 0
  · rw [if_pos (by omega), if_pos h1]
    exact ⟨[c.bad.length, c.constraints.length], by simp, Or.inr (Or.inr rfl)⟩
  · rw [if_neg h1]
    by_cases h2 : c.bad.length + c.constraints.length > 0
    · rw [if_pos h2]
      exact ⟨[c.bad.length], by simp, Or.inr (Or.inl ⟨rfl, by omega⟩)⟩
    · rw [if_neg h2]
      exact ⟨[], by simp, Or.inl ⟨rfl, by omega, by omega⟩⟩

theorem header_printed {a : Aig} {c : Circuit} (hr : a.Represents c) : Aag.header a.aagFirstLine =
    some (c.maxVar, c.numInputs, c.latches.length, c.outputs.length, c.ands.length, c.bad.length, c.constraints.length) := by
  obtain ⟨opt, he, ho⟩ := aagFirstLine_eq hr
  rw [he]
  unfold Aag.header
  rw [Aag.words_join _ (by simp)]
  · simp only
    rw [Aag.mapM_numbers]
    rcases ho with ⟨rfl, h1, h2⟩ | ⟨rfl, h2⟩ | rfl
    · simp [h1, h2]
    · simp [h2]
    · simp
  · intro t ht
    rcases List.mem_cons.1 ht with rfl | ht
    · decide
    · obtain ⟨n, _, rfl⟩ := List.mem_map.1 ht
      exact (Aag.decimal_no n).1

theorem latch_printed (n : AIGNode) : Aag.latch (latchText n) = some (n.lit, n.latchInput, n.latchReset) := by
  unfold latchText Aag.latch
  split
  · have := Aag.numbers_decimals [n.lit, n.latchInput, n.latchReset] (by simp)
    rw [show [decimal n.lit, decimal n.latchInput] ++ [decimal n.latchReset] = [n.lit, n.latchInput, n.latchReset].map decimal from rfl,
      this]; rfl
  · rename_i h
    have h : n.latchReset = 0 := by omega
    have := Aag.numbers_decimals [n.lit, n.latchInput] (by simp)
    rw [show [decimal n.lit, decimal n.latchInput] ++ [] = [n.lit, n.latchInput].map decimal from rfl, this, h]; rfl

theorem gate_printed (n : AIGNode) : Aag.gate (andText n) = some (n.lit, n.andInput0, n.andInput1) := by
  unfold andText Aag.gate
  rw [Aag.numbers_decimals _ (by simp)]; rfl

theorem printedSyms_kind {a : Aig} {s : Symbol} (h : s ∈ printedSyms a) : Aag.KindOK s.kind := by
  unfold printedSyms at h
  simp only [List.mem_append] at h
  unfold Aag.KindOK
  rcases h with (((h | h) | h) | h) | h
  · exact Or.inl (Aag.printed_kind _ _ _ s h).1
  · exact Or.inr (Or.inl (Aag.printed_kind _ _ _ s h).1)
  · exact Or.inr (Or.inr (Or.inl (Aag.printed_kind _ _ _ s h).1))
  · exact Or.inr (Or.inr (Or.inr (Or.inl (Aag.printed_kind _ _ _ s h).1)))
  · exact Or.inr (Or.inr (Or.inr (Or.inr (Aag.printed_kind _ _ _ s h).1)))

/-- A stored comment is empty or starts with the line `c`. -/
def CommentOK (t : Text) : Prop := t = [] ∨ t = [99] ∨ ∃ q, t = 99 :: 10 :: q

theorem printed_no_nl {a : Aig} {c : Circuit} (hr : a.Represents c) (hs : ∀ s ∈ printedSyms a, (10 : UInt8) ∉ s.name) :
    ∀ l ∈ printedLines a, (10 : UInt8) ∉ l := by
  have hd : ∀ n, (10 : UInt8) ∉ decimal n := fun n => (Aag.decimal_no n).2
  intro l hl
  unfold printedLines at hl
  simp only [List.mem_cons, List.mem_append, List.mem_map] at hl
  rcases hl with rfl | ⟨v, _, rfl⟩ | ⟨v, _, rfl⟩ | ⟨v, _, rfl⟩ | ⟨v, _, rfl⟩ | ⟨v, _, rfl⟩ | ⟨v, _, rfl⟩ | ⟨s, h, rfl⟩
  · obtain ⟨opt, he, _⟩ := aagFirstLine_eq hr
    rw [he]
    apply joinText_no _ (by decide)
    intro t ht
    rcases List.mem_cons.1 ht with rfl | ht
    · decide
    · obtain ⟨n, _, rfl⟩ := List.mem_map.1 ht; exact hd n
  · exact hd _
  · unfold latchText
    apply joinText_no _ (by decide)
    intro t ht
    rw [List.mem_append] at ht
    rcases ht with ht | ht
    · simp only [List.mem_cons, List.not_mem_nil, or_false] at ht
      rcases ht with rfl | rfl <;> exact hd _
    · split at ht
      · simp only [List.mem_cons, List.not_mem_nil, or_false] at ht
        rw [ht]; exact hd _
      · simp at ht
  · exact hd _
  · exact hd _
  · exact hd _
  · unfold andText
    apply joinText_no _ (by decide)
    intro t ht
    obtain ⟨n, _, rfl⟩ := List.mem_map.1 ht; exact hd n
  · unfold Aag.symLine
    intro hm
    simp only [List.mem_cons, List.mem_append] at hm
    rcases hm with hm | hm | hm | hm
    · have := printedSyms_kind h
      rw [← hm] at this
      unfold Aag.KindOK at this
      exact absurd this (by decide)
    · exact hd _ hm
    · exact absurd hm (by decide)
    · exact hs s h hm

theorem join_unlines (ls : List Text) (t : Text) : joinText [chNl] (ls ++ [t]) = unlines ls ++ t := by
  induction ls with
  | nil => rfl
  | cons l ls ih =>
    have hne : ls ++ [t] ≠ [] := by simp
    rw [List.cons_append]
    cases h : ls ++ [t] with
    | nil => exact absurd h hne
    | cons x xs =>
      rw [joinText, ← h, ih]
      · simp [unlines, chNl]
      · simp

theorem read_printed {a : Aig} {c : Circuit} (hr : a.Represents c) (hw : c.WF) (hs : ∀ s ∈ printedSyms a, (10 : UInt8) ∉ s.name)
    (hc : CommentOK a.comments) : ∃ text, a.getAagString = .ok text ∧ Aag.read text = some
      ⟨(c.maxVar, c.numInputs, c.latches.length, c.outputs.length, c.ands.length, c.bad.length, c.constraints.length),
        (List.range c.numInputs).map (fun i => 2 * (1 + i)),
        c.latches.zipIdx.map (fun x => (2 * c.latchVar x.2, x.1.1, x.1.2)), c.outputs, c.bad, c.constraints,
        c.ands.zipIdx.map (fun x => (2 * c.andVar x.2, x.1.1, x.1.2)), printedSyms a, Aag.lines a.comments⟩ := by
  refine ⟨_, getAagString_eq hr hw, ?_⟩
  simp only
  -- the lines of the printed text
  have hlines : Aag.lines (if (joinText [chNl] (printedLines a ++ [a.comments])).getLast? = some chNl
      then joinText [chNl] (printedLines a ++ [a.comments]) else joinText [chNl] (printedLines a ++ [a.comments]) ++ [chNl]) =
      printedLines a ++ Aag.lines a.comments := by
    rw [join_unlines]
    have hnl := printed_no_nl hr hs
    split
    · rw [Aag.lines_unlines _ _ hnl]
    · rename_i hlast
      rw [List.append_assoc, Aag.lines_unlines _ _ hnl]
      congr 1
      have hne : a.comments ≠ [] := by
        intro h
        apply hlast
        rw [h, List.append_nil, unlines_join _ (by unfold printedLines; simp)]
        simp [chNl]
      apply Aag.lines_add_newline _ hne
      intro h
      apply hlast
      rw [List.getLast?_append, h]; rfl
  unfold Aag.read
  rw [hlines]
  have hcl : Aag.lines a.comments = [] ∨ ∃ r, Aag.lines a.comments = [99] :: r := by
    rcases hc with h | h | ⟨q, h⟩
    · left; rw [h]; rfl
    · right; rw [h]; exact ⟨[], rfl⟩
    · right; rw [h]; exact ⟨_, Aag.lines_line [99] q (by decide)⟩
  have e : printedLines a ++ Aag.lines a.comments = a.aagFirstLine :: (a.inputs.map (fun v => decimal (nd a v).lit) ++
      (a.latches.map (fun v => latchText (nd a v)) ++ (a.outputs.map decimal ++ (a.bad.map decimal ++ (a.constraints.map decimal ++
      (a.ands.map (fun v => andText (nd a v)) ++ ((printedSyms a).map Aag.symLine ++ Aag.lines a.comments))))))) := by
    unfold printedLines; simp
  rw [e]
  simp only
  have li : c.numInputs = a.inputs.length := by rw [hr.inputs, List.length_range']
  have ll : c.latches.length = a.latches.length := by rw [hr.latches, List.length_range']
  have la : c.ands.length = a.ands.length := by rw [hr.ands, List.length_range']
  have id' : ∀ xs : List Nat, xs.map (fun n => n) = xs := fun xs => List.map_id xs
  have s1 := fun r => Aag.section_append Aag.single (fun v => decimal (nd a v).lit) (fun v => (nd a v).lit) a.inputs r
    (fun _ _ => Aag.single_decimal _)
  have s2 := fun r => Aag.section_append Aag.latch (fun v => latchText (nd a v))
    (fun v => ((nd a v).lit, (nd a v).latchInput, (nd a v).latchReset)) a.latches r (fun _ _ => latch_printed _)
  have s3 := fun r xs => Aag.section_append Aag.single decimal (fun n => n) xs r (fun _ _ => Aag.single_decimal _)
  have s4 := fun r => Aag.section_append Aag.gate (fun v => andText (nd a v))
    (fun v => ((nd a v).lit, (nd a v).andInput0, (nd a v).andInput1)) a.ands r (fun _ _ => gate_printed _)
  have s5 := Aag.symbols_lines (printedSyms a) (Aag.lines a.comments) (fun s h => printedSyms_kind h) hcl
  have so := fun r => s3 r a.outputs
  have sb := fun r => s3 r a.bad
  have sk := fun r => s3 r a.constraints
  rw [← li] at s1
  rw [← ll] at s2
  rw [← la] at s4
  rw [hr.outputs, id'] at so
  rw [hr.bad, id'] at sb
  rw [hr.constraints, id'] at sk
  rw [header_printed hr, hr.outputs, hr.bad, hr.constraints]
  simp only [bind, Option.bind, s1, s2, so, sb, sk, s4, s5]
  have e1 : a.inputs.map (fun v => (nd a v).lit) = (List.range c.numInputs).map (fun i => 2 * (1 + i)) := by
    rw [hr.inputs]
    apply List.ext_getElem (by simp)
    intro i h1 h2
    simp only [List.length_map, List.length_range'] at h1
    obtain ⟨n, hn, _⟩ := hr.inputNode i h1
    simp only [List.getElem_map, List.getElem_range', List.getElem_range, Nat.one_mul]
    rw [nd_eq hn]; exact hr.lit _ _ hn
  have e2 : a.latches.map (fun v => ((nd a v).lit, (nd a v).latchInput, (nd a v).latchReset)) =
      c.latches.zipIdx.map (fun x => (2 * c.latchVar x.2, x.1.1, x.1.2)) := by
    rw [hr.latches]
    apply List.ext_getElem (by simp)
    intro i h1 h2
    simp only [List.length_map, List.length_range'] at h1
    obtain ⟨n, hn, _, h3, h4⟩ := hr.latchNode i _ (List.getElem?_eq_getElem h1)
    simp only [List.getElem_map, List.getElem_range', Nat.one_mul, List.getElem_zipIdx, Nat.zero_add]
    rw [show 1 + c.numInputs + i = c.latchVar i from rfl, nd_eq hn, hr.lit _ _ hn, h3, h4]
  have e3 : a.ands.map (fun v => ((nd a v).lit, (nd a v).andInput0, (nd a v).andInput1)) =
      c.ands.zipIdx.map (fun x => (2 * c.andVar x.2, x.1.1, x.1.2)) := by
    rw [hr.ands]
    apply List.ext_getElem (by simp)
    intro i h1 h2
    simp only [List.length_map, List.length_range'] at h1
    obtain ⟨n, hn, _, h3, h4⟩ := hr.andNode i _ (List.getElem?_eq_getElem h1)
    simp only [List.getElem_map, List.getElem_range', Nat.one_mul, List.getElem_zipIdx, Nat.zero_add]
    rw [show 1 + c.numInputs + c.latches.length + i = c.andVar i from rfl, nd_eq hn, hr.lit _ _ hn, h3, h4]
  rw [e1, e2, e3]; rfl

/-! ### Names stored by the symbol loop -/

theorem slot_foldl (c : Circuit) (K : UInt8) (f : AIGNode → Text)
    (hf : ∀ s, Aag.KindOK s.kind → ∀ n, f (setSym s n) = if s.kind = K then s.name else f n) (syms : List Symbol) (hk : ∀ s ∈ syms, Aag.KindOK s.kind)
    (a : Aig) (j : Nat) (n : AIGNode) (hn : a.nodes[j]? = some n) :
    ∃ n', (syms.foldl (applySym c) a).nodes[j]? = some n' ∧
      f n' = match (syms.filter (fun s => s.kind == K && symTarget c s == j)).getLast? with
        | some s => s.name
        | none => f n := by
  induction syms generalizing a n with
  | nil => exact ⟨n, hn, rfl⟩
  | cons s ss ih =>
    obtain ⟨n', h1, h2⟩ := ih (fun x hx => hk x (List.mem_cons_of_mem _ hx)) (applySym c a s) _ (applySym_node c a s j n hn)
    refine ⟨n', h1, ?_⟩
    rw [h2, List.filter_cons]
    by_cases hh : (s.kind == K && symTarget c s == j) = true
    · rw [if_pos hh, List.getLast?_cons]
      simp only [Bool.and_eq_true, beq_iff_eq] at hh
      rw [if_pos hh.2, hf _ (hk s (by simp)), if_pos hh.1]
      cases (ss.filter (fun s => s.kind == K && symTarget c s == j)).getLast? <;> rfl
    · rw [if_neg hh]
      have : f (if symTarget c s = j then setSym s n else n) = f n := by
        split
        · rename_i ht
          rw [hf _ (hk s (by simp)), if_neg]
          intro hK
          exact hh (by simp [hK, ht])
        · rfl
      rw [this]

theorem skeleton_symbols (c : Circuit) (j : Nat) (n : AIGNode) (h : (skeleton c).nodes[j]? = some n) :
    n.inputSymbol = [] ∧ n.latchSymbol = [] ∧ n.outputSymbol = [] ∧ n.badSymbol = [] ∧ n.constraintSymbol = [] := by
  rw [skeleton_node] at h
  split at h
  · rw [← Option.some.inj h]; exact ⟨rfl, rfl, rfl, rfl, rfl⟩
  · split at h
    · rw [← Option.some.inj h]; exact ⟨rfl, rfl, rfl, rfl, rfl⟩
    · split at h
      · rw [Option.map_eq_some_iff] at h
        obtain ⟨p, _, rfl⟩ := h; exact ⟨rfl, rfl, rfl, rfl, rfl⟩
      · rw [Option.map_eq_some_iff] at h
        obtain ⟨p, _, rfl⟩ := h; exact ⟨rfl, rfl, rfl, rfl, rfl⟩

theorem setSym_slots (s : Symbol) (hk : Aag.KindOK s.kind) (n : AIGNode) :
    (setSym s n).inputSymbol = (if s.kind = 105 then s.name else n.inputSymbol) ∧
    (setSym s n).latchSymbol = (if s.kind = 108 then s.name else n.latchSymbol) ∧
    (setSym s n).outputSymbol = (if s.kind = 111 then s.name else n.outputSymbol) ∧
    (setSym s n).badSymbol = (if s.kind = 98 then s.name else n.badSymbol) ∧
    (setSym s n).constraintSymbol = (if s.kind = 99 then s.name else n.constraintSymbol) := by
  unfold setSym
  rcases hk with h | h | h | h | h <;> rw [h] <;> simp

theorem SymbolOK.kind {c : Circuit} {s : Symbol} (h : SymbolOK c s) : Aag.KindOK s.kind := by
  unfold Aag.KindOK
  rcases h with h | h | h | h | h
  · exact Or.inl h.1
  · exact Or.inr (Or.inl h.1)
  · exact Or.inr (Or.inr (Or.inl h.1))
  · exact Or.inr (Or.inr (Or.inr (Or.inl h.1)))
  · exact Or.inr (Or.inr (Or.inr (Or.inr h.1)))

/-- Name stored in the slot `f` (for symbols of kind `K`) of node `j`. -/
theorem slot_finish (c : Circuit) (K : UInt8) (f : AIGNode → Text)
    (hf : ∀ s, Aag.KindOK s.kind → ∀ n, f (setSym s n) = if s.kind = K then s.name else f n)
    (h0 : ∀ (j : Nat) (n : AIGNode), (skeleton c).nodes[j]? = some n → f n = [])
    (syms : List Symbol) (comment : Option Text) (hs : ∀ s ∈ syms, SymbolOK c s) (j : Nat) (hj : j < (skeleton c).nodes.length) :
    f (nd (finish c syms comment) j) =
      match (syms.filter (fun s => s.kind == K && symTarget c s == j)).getLast? with
        | some s => s.name
        | none => [] := by
  obtain ⟨n, hn⟩ : ∃ n, (skeleton c).nodes[j]? = some n := ⟨_, List.getElem?_eq_getElem hj⟩
  obtain ⟨n', h1, h2⟩ := slot_foldl c K f hf syms (fun s h => SymbolOK.kind (hs s h)) (skeleton c) j n hn
  have : nd (finish c syms comment) j = n' := nd_eq (by unfold finish; exact h1)
  rw [this, h2, h0 j n hn]

theorem slot_nameOf (c : Circuit) (K : UInt8) (f : AIGNode → Text)
    (hf : ∀ s, Aag.KindOK s.kind → ∀ n, f (setSym s n) = if s.kind = K then s.name else f n)
    (h0 : ∀ (j : Nat) (n : AIGNode), (skeleton c).nodes[j]? = some n → f n = [])
    (syms : List Symbol) (comment : Option Text) (hs : ∀ s ∈ syms, SymbolOK c s) (j p : Nat) (hj : j < (skeleton c).nodes.length)
    (ht : ∀ s ∈ syms, s.kind = K → (symTarget c s = j ↔ s.pos = p)) :
    f (nd (finish c syms comment) j) = Aag.nameOf syms K p := by
  rw [slot_finish c K f hf h0 syms comment hs j hj]
  unfold Aag.nameOf
  have : syms.filter (fun s => s.kind == K && symTarget c s == j) = syms.filter (fun s => s.kind == K && s.pos == p) := by
    apply List.filter_congr
    intro s hm
    rw [Bool.eq_iff_iff]
    simp only [Bool.and_eq_true, beq_iff_eq]
    constructor
    · rintro ⟨hk, h⟩; exact ⟨hk, (ht s hm hk).1 h⟩
    · rintro ⟨hk, h⟩; exact ⟨hk, (ht s hm hk).2 h⟩
  rw [this]
  cases (List.filter (fun s => s.kind == K && s.pos == p) syms).getLast? <;> rfl

/-- A slot is empty or holds a name of the file. -/
theorem slot_mem (c : Circuit) (K : UInt8) (f : AIGNode → Text)
    (hf : ∀ s, Aag.KindOK s.kind → ∀ n, f (setSym s n) = if s.kind = K then s.name else f n)
    (h0 : ∀ (j : Nat) (n : AIGNode), (skeleton c).nodes[j]? = some n → f n = [])
    (syms : List Symbol) (comment : Option Text) (hs : ∀ s ∈ syms, SymbolOK c s) (j : Nat) (hj : j < (skeleton c).nodes.length) :
    f (nd (finish c syms comment) j) = [] ∨ ∃ s ∈ syms, f (nd (finish c syms comment) j) = s.name := by
  rw [slot_finish c K f hf h0 syms comment hs j hj]
  split
  · rename_i s h
    exact Or.inr ⟨s, (List.mem_filter.1 (List.mem_of_getLast? h)).1, rfl⟩
  · exact Or.inl rfl

theorem commentOK_finish {tail : Text} {syms : List Symbol} {comment : Option Text} (h : Tail tail syms comment) (c : Circuit) :
    CommentOK (finish c syms comment).comments := by
  obtain ⟨ls, _, h⟩ := h
  unfold finish CommentOK
  cases comment with
  | none => left; rfl
  | some t =>
    right
    simp only at h ⊢
    rcases h.2 with rfl | ⟨r, rfl⟩
    · left; rfl
    · unfold storedComment
      rcases List.eq_nil_or_concat r with rfl | ⟨r', b, rfl⟩
      · left; rfl
      · right
        rw [show (99 : UInt8) :: 10 :: (r'.concat b) = (99 :: 10 :: r') ++ [b] by simp]
        split
        · rw [List.dropLast_concat]
          exact ⟨r'.filter (fun b => b != 0), by simp⟩
        · exact ⟨(r' ++ [b]).filter (fun b => b != 0), by simp⟩

end Verif
