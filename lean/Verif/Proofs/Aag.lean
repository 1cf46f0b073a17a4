import Verif.Model.AigPrint
import Verif.Spec.Aag
import Verif.Proofs.AigGet
import Verif.Proofs.Stateless

/-! # The independent ASCII reader applied to the printed text -/

namespace Verif

open Aiger

namespace Aag

theorem lines_line (l rest : Text) (h : (10 : UInt8) ∉ l) : lines (l ++ 10 :: rest) = l :: lines rest := by
  induction l with
  | nil => rw [List.nil_append, lines, if_pos rfl]
  | cons b bs ih =>
    have hb : b ≠ 10 := by rintro rfl; simp at h
    rw [List.cons_append, lines, if_neg hb, ih (fun hm => h (List.mem_cons_of_mem _ hm))]

theorem lines_unlines (ls : List Text) (rest : Text) (h : ∀ l ∈ ls, (10 : UInt8) ∉ l) : lines (unlines ls ++ rest) = ls ++ lines rest := by
  induction ls with
  | nil => rfl
  | cons l ls ih =>
    have e : unlines (l :: ls) ++ rest = l ++ 10 :: (unlines ls ++ rest) := by simp [unlines]
    rw [e, lines_line _ _ (h l (by simp)), ih (fun x hx => h x (List.mem_cons_of_mem _ hx))]; rfl

theorem lines_ne_nil {t : Text} (h : t ≠ []) : lines t ≠ [] := by
  cases t with
  | nil => exact absurd rfl h
  | cons b bs =>
    rw [lines]
    split
    · simp
    · split <;> simp

theorem lines_add_newline (t : Text) (h : t ≠ []) (hl : t.getLast? ≠ some 10) : lines (t ++ [10]) = lines t := by
  induction t with
  | nil => exact absurd rfl h
  | cons b bs ih =>
    cases bs with
    | nil =>
      have hb : b ≠ 10 := by rintro rfl; simp at hl
      rw [List.cons_append, lines, lines, if_neg hb, if_neg hb]
      simp [lines]
    | cons b' bs =>
      have := ih (by simp) (by simpa using hl)
      rw [List.cons_append, lines, this]
      conv => rhs; rw [lines]

theorem words_word (w rest : Text) (h : (32 : UInt8) ∉ w) : words (w ++ 32 :: rest) = w :: words rest := by
  induction w with
  | nil => rw [List.nil_append, words, if_pos rfl]
  | cons b bs ih =>
    have hb : b ≠ 32 := by rintro rfl; simp at h
    rw [List.cons_append, words, if_neg hb, ih (fun hm => h (List.mem_cons_of_mem _ hm))]

theorem words_single (w : Text) (h : (32 : UInt8) ∉ w) : words w = [w] := by
  induction w with
  | nil => rfl
  | cons b bs ih =>
    have hb : b ≠ 32 := by rintro rfl; simp at h
    rw [words, if_neg hb, ih (fun hm => h (List.mem_cons_of_mem _ hm))]

theorem words_join (ts : List Text) (h0 : ts ≠ []) (h : ∀ t ∈ ts, (32 : UInt8) ∉ t) : words (joinText [chSpace] ts) = ts := by
  induction ts with
  | nil => exact absurd rfl h0
  | cons t ts ih =>
    cases ts with
    | nil => exact words_single t (h t (by simp))
    | cons t' ts =>
      have e : joinText [chSpace] (t :: t' :: ts) = t ++ 32 :: joinText [chSpace] (t' :: ts) := by simp [joinText, chSpace]
      rw [e, words_word _ _ (h t (by simp)), ih (by simp) (fun x hx => h x (List.mem_cons_of_mem _ hx))]

theorem number_decimal (n : Nat) : number (decimal n) = some n := by
  obtain ⟨h1, h2, h3⟩ := decimal_spec n
  unfold number
  rw [if_pos]
  · exact congrArg some h3
  · refine ⟨h1, ?_⟩
    rw [List.all_eq_true]
    intro b hb
    exact decide_eq_true (h2 b hb)

theorem decimal_no (n : Nat) : (32 : UInt8) ∉ decimal n ∧ (10 : UInt8) ∉ decimal n := by
  obtain ⟨_, h2, _⟩ := decimal_spec n
  constructor <;> (intro h; have := (h2 _ h).1; exact absurd this (by decide))

theorem numbers_decimals (ns : List Nat) (h : ns ≠ []) : numbers (joinText [chSpace] (ns.map decimal)) = some ns := by
  unfold numbers
  rw [words_join _ (by simpa using h)]
  · clear h
    induction ns with
    | nil => rfl
    | cons n ns ih => rw [List.map_cons, List.mapM_cons, number_decimal, ih]; rfl
  · intro t ht
    obtain ⟨n, _, rfl⟩ := List.mem_map.1 ht
    exact (decimal_no n).1

theorem mapM_numbers (ns : List Nat) : (ns.map decimal).mapM number = some ns := by
  induction ns with
  | nil => rfl
  | cons n ns ih => rw [List.map_cons, List.mapM_cons, number_decimal, ih]; rfl

theorem single_decimal (n : Nat) : single (decimal n) = some n := by
  unfold single
  have := numbers_decimals [n] (by simp)
  rw [show joinText [chSpace] ([n].map decimal) = decimal n from rfl] at this
  rw [this]; rfl

theorem section_append {α β : Type} (f : Text → Option β) (g : α → Text) (h : α → β) (xs : List α) (rest : List Text)
    (hf : ∀ x ∈ xs, f (g x) = some (h x)) : section_ f xs.length (xs.map g ++ rest) = some (xs.map h, rest) := by
  unfold section_
  rw [if_pos (by simp)]
  have e1 : (xs.map g ++ rest).take xs.length = xs.map g := by
    rw [List.take_append_of_le_length (by simp), List.take_of_length_le (by simp)]
  have e2 : (xs.map g ++ rest).drop xs.length = rest := by
    rw [List.drop_append_of_le_length (by simp), List.drop_eq_nil_of_le (by simp), List.nil_append]
  have e3 : (xs.map g).mapM f = some (xs.map h) := by
    clear e1 e2
    induction xs with
    | nil => rfl
    | cons x xs ih =>
      rw [List.map_cons, List.mapM_cons, hf x (by simp), ih (fun y hy => hf y (List.mem_cons_of_mem _ hy))]; rfl
  rw [e1, e2, e3]; rfl

/-! ### Symbols -/

/-- The line of a symbol. -/
def symLine (s : Symbol) : Text := s.kind :: (decimal s.pos ++ chSpace :: s.name)

/-- Symbols printed for consecutive positions. -/
def printedFrom (k : UInt8) : Nat → List Text → List Symbol
  | _, [] => []
  | o, nm :: r => (if nm.isEmpty then [] else [⟨k, o, nm⟩]) ++ printedFrom k (o + 1) r

theorem printed_lines (k : UInt8) (o : Nat) (xs : List Nat) (nm : Nat → Text) :
    ((xs.zipIdx o).map (fun x => Aig.symbolEntry k x.2 (nm x.1))).flatten = (printedFrom k o (xs.map nm)).map symLine := by
  induction xs generalizing o with
  | nil => rfl
  | cons x xs ih =>
    rw [List.zipIdx_cons, List.map_cons, List.flatten_cons, ih, List.map_cons, printedFrom, List.map_append]
    congr 1
    unfold Aig.symbolEntry
    split <;> simp [symLine]

theorem printed_kind (k : UInt8) (o : Nat) (names : List Text) : ∀ s ∈ printedFrom k o names, s.kind = k ∧ s.name ∈ names := by
  induction names generalizing o with
  | nil => simp [printedFrom]
  | cons nm r ih =>
    intro s hs
    rw [printedFrom, List.mem_append] at hs
    rcases hs with hs | hs
    · split at hs
      · simp at hs
      · simp at hs; subst hs; simp
    · have := ih _ s hs; exact ⟨this.1, List.mem_cons_of_mem _ this.2⟩

theorem filter_printed (k : UInt8) (o : Nat) (names : List Text) (p : Nat) :
    (printedFrom k o names).filter (fun s => s.kind == k && s.pos == p) =
      if o ≤ p ∧ names.getD (p - o) [] ≠ [] then [⟨k, p, names.getD (p - o) []⟩] else [] := by
  induction names generalizing o with
  | nil => simp [printedFrom]
  | cons nm r ih =>
    rw [printedFrom, List.filter_append, ih]
    rcases Nat.lt_trichotomy o p with h | h | h
    · have e : p - o = (p - (o + 1)) + 1 := by omega
      have hne : ¬ o = p := by omega
      rw [e, List.getD_cons_succ]
      have hf : (if nm.isEmpty then ([] : List Symbol) else [⟨k, o, nm⟩]).filter (fun s => s.kind == k && s.pos == p) = [] := by
        split <;> simp [hne]
      rw [hf, List.nil_append]
      simp only [show o + 1 ≤ p from h, show o ≤ p by omega, true_and]
    · subst h
      rw [Nat.sub_self, List.getD_cons_zero]
      have hz : ¬ (o + 1 ≤ o ∧ r.getD (o - (o + 1)) [] ≠ []) := fun h => by omega
      rw [if_neg hz, List.append_nil]
      cases nm with
      | nil => simp
      | cons b bs => simp
    · have hne : ¬ o = p := by omega
      have hz : ¬ (o + 1 ≤ p ∧ r.getD (p - (o + 1)) [] ≠ []) := fun h => by omega
      have hz' : ¬ (o ≤ p ∧ (nm :: r).getD (p - o) [] ≠ []) := fun h => by omega
      rw [if_neg hz, if_neg hz', List.append_nil]
      split <;> simp [hne]

theorem nameOf_printed (k : UInt8) (names : List Text) (p : Nat) (A B : List Symbol) (hA : ∀ s ∈ A, s.kind ≠ k) (hB : ∀ s ∈ B, s.kind ≠ k) :
    nameOf (A ++ printedFrom k 0 names ++ B) k p = names.getD p [] := by
  have none : ∀ L : List Symbol, (∀ s ∈ L, s.kind ≠ k) → L.filter (fun s => s.kind == k && s.pos == p) = [] := by
    intro L hL
    rw [List.filter_eq_nil_iff]
    intro s hs
    simp [hL s hs]
  unfold nameOf
  rw [List.filter_append, List.filter_append, none A hA, none B hB, filter_printed, List.nil_append, List.append_nil]
  simp only [Nat.zero_le, true_and, Nat.sub_zero]
  split
  · rename_i heq
    split at heq
    · rw [List.getLast?_singleton] at heq; rw [← Option.some.inj heq]
    · simp at heq
  · rename_i heq
    split at heq
    · simp at heq
    · rename_i hne; simp only [ne_eq, Decidable.not_not] at hne; exact hne.symm

def KindOK (k : UInt8) : Prop := k = 105 ∨ k = 108 ∨ k = 111 ∨ k = 98 ∨ k = 99

theorem symbol_line (s : Symbol) (hk : KindOK s.kind) : symbol (symLine s) = some s := by
  obtain ⟨kind, pos, name⟩ := s
  have hd : ∀ b ∈ decimal pos, decide (b ≠ 32) = true := by
    intro b hb
    rw [decide_eq_true_eq]
    rintro rfl
    exact (decimal_no pos).1 hb
  have h1 : (decimal pos ++ chSpace :: name).takeWhile (fun b => decide (b ≠ 32)) = decimal pos := by
    rw [List.takeWhile_append_of_pos hd]
    simp [chSpace]
  have h2 : (decimal pos ++ chSpace :: name).dropWhile (fun b => decide (b ≠ 32)) = chSpace :: name := by
    rw [List.dropWhile_append_of_pos hd]
    simp [chSpace]
  unfold KindOK at hk
  simp only at hk
  unfold symLine symbol
  simp only
  rw [if_pos hk, h1, h2, number_decimal]
  rfl

theorem symbols_lines (ss : List Symbol) (rest : List Text) (hk : ∀ s ∈ ss, KindOK s.kind)
    (hr : rest = [] ∨ ∃ r, rest = [99] :: r) : symbols (ss.map symLine ++ rest) = some (ss, rest) := by
  induction ss with
  | nil =>
    rcases hr with rfl | ⟨r, rfl⟩
    · rfl
    · rw [List.map_nil, List.nil_append, symbols, if_pos rfl]
  | cons s ss ih =>
    rw [List.map_cons, List.cons_append, symbols, if_neg, symbol_line s (hk s (by simp)),
      ih (fun x hx => hk x (List.mem_cons_of_mem _ hx))]
    · rfl
    · unfold symLine
      intro h
      have := congrArg List.length h
      simp at this

end Aag

/-! ### What is printed -/

/-- Node at an index (any default). -/
def nd (a : Aig) (v : Nat) : AIGNode := (a.nodes[v]?).getD constNode

theorem nd_eq {a : Aig} {v : Nat} {n : AIGNode} (h : a.nodes[v]? = some n) : nd a v = n := by unfold nd; rw [h]; rfl

theorem map_zipIdx_fst {α β : Type} (f : α → β) (xs : List α) (o : Nat) : (xs.zipIdx o).map (fun x => f x.1) = xs.map f := by
  induction xs generalizing o with
  | nil => rfl
  | cons x xs ih => rw [List.zipIdx_cons, List.map_cons, ih]; rfl

theorem mem_zipIdx_fst {α : Type} {xs : List α} {x : α × Nat} (h : x ∈ xs.zipIdx) : x.1 ∈ xs := by
  obtain ⟨a, i⟩ := x
  exact List.mem_of_getElem? (List.mk_mem_zipIdx_iff_getElem?.1 h)

def latchText (n : AIGNode) : Text :=
  joinText [chSpace] ([decimal n.lit, decimal n.latchInput] ++ (if n.latchReset ≠ 0 then [decimal n.latchReset] else []))

def andText (n : AIGNode) : Text := joinText [chSpace] ([n.lit, n.andInput0, n.andInput1].map decimal)

/-- Symbols in the printed table. -/
def printedSyms (a : Aig) : List Symbol :=
  Aag.printedFrom 105 0 (a.inputs.map (fun v => (nd a v).inputSymbol)) ++
  Aag.printedFrom 108 0 (a.latches.map (fun v => (nd a v).latchSymbol)) ++
  Aag.printedFrom 111 0 (a.outputs.map (fun l => (nd a (l / 2)).outputSymbol)) ++
  Aag.printedFrom 98 0 (a.bad.map (fun l => (nd a (l / 2)).badSymbol)) ++
  Aag.printedFrom 99 0 (a.constraints.map (fun l => (nd a (l / 2)).constraintSymbol))

/-- Lines printed before the comments. -/
def printedLines (a : Aig) : List Text :=
  a.aagFirstLine :: (a.inputs.map (fun v => decimal (nd a v).lit) ++ (a.latches.map (fun v => latchText (nd a v)) ++
    (a.outputs.map decimal ++ (a.bad.map decimal ++ (a.constraints.map decimal ++
      (a.ands.map (fun v => andText (nd a v)) ++ (printedSyms a).map Aag.symLine))))))

theorem mem_latches_node {a : Aig} {c : Circuit} (hr : a.Represents c) {v : Nat} (h : v ∈ a.latches) :
    ∃ (i : Nat) (p : Nat × Nat), c.latches[i]? = some p ∧ v = c.latchVar i := by
  rw [hr.latches, List.mem_range'] at h
  obtain ⟨i, hi, rfl⟩ := h
  exact ⟨i, _, List.getElem?_eq_getElem hi, by rw [Nat.one_mul]; rfl⟩

theorem mem_ands_node {a : Aig} {c : Circuit} (hr : a.Represents c) {v : Nat} (h : v ∈ a.ands) :
    ∃ (i : Nat) (p : Nat × Nat), c.ands[i]? = some p ∧ v = c.andVar i := by
  rw [hr.ands, List.mem_range'] at h
  obtain ⟨i, hi, rfl⟩ := h
  exact ⟨i, _, List.getElem?_eq_getElem hi, by rw [Nat.one_mul]; rfl⟩

theorem getAagString_eq {a : Aig} {c : Circuit} (hr : a.Represents c) (hw : c.WF) : a.getAagString =
    .ok (let final := joinText [chNl] (printedLines a ++ [a.comments])
      if final.getLast? = some chNl then final else final ++ [chNl]) := by
  have hin : a.inputs.zipIdx.mapM a.aagInput =
      .ok (a.inputs.zipIdx.map (fun x => (decimal (nd a x.1).lit, Aig.symbolEntry 105 x.2 (nd a x.1).inputSymbol))) := by
    apply mapM_ok
    intro x hx
    have hm := mem_zipIdx_fst hx
    rw [hr.inputs, List.mem_range'] at hm
    obtain ⟨i, hi, e⟩ := hm
    rw [Nat.one_mul] at e
    obtain ⟨n, hn, ht⟩ := hr.inputNode i hi
    rw [← e] at hn
    unfold Aig.aagInput AIGNode.getInputSymbol
    simp only [bind_ok, indexR_ok, assertR_ok, pure_ok, beq_iff_eq]
    exact ⟨n, hn, n.inputSymbol, ⟨(), ht, rfl⟩, by rw [nd_eq hn]⟩
  have hla : a.latches.zipIdx.mapM a.aagLatch =
      .ok (a.latches.zipIdx.map (fun x => (latchText (nd a x.1), Aig.symbolEntry 108 x.2 (nd a x.1).latchSymbol))) := by
    apply mapM_ok
    intro x hx
    obtain ⟨i, p, hp, e⟩ := mem_latches_node hr (mem_zipIdx_fst hx)
    obtain ⟨n, hn, ht, h1, h2⟩ := hr.latchNode i p hp
    rw [← e] at hn
    unfold Aig.aagLatch AIGNode.getLatchSymbol
    simp only [bind_ok, indexR_ok, assertR_ok, pure_ok, beq_iff_eq, getLatchInput_ok, getLatchReset_ok]
    refine ⟨n, hn, _, ⟨ht, ?_, rfl⟩, _, ⟨ht, ?_, rfl⟩, n.latchSymbol, ⟨(), ht, rfl⟩, by rw [nd_eq hn]; rfl⟩
    · rw [h1]; exact hr.lit_lt (hw.next_ok i p hp)
    · rw [h2]; exact hr.lit_lt (reset_lit_ok hw hp)
  have lit : ∀ (site : String) (k : UInt8) (f : AIGNode → Text) (xs : List Nat), (∀ l ∈ xs, c.LitOK l) →
      xs.zipIdx.mapM (fun p : Nat × Nat => (do
        let node ← indexR site a.nodes (p.1 >>> 1)
        return (decimal p.1, Aig.symbolEntry k p.2 (f node)) : Res (Text × List Text))) =
      .ok (xs.zipIdx.map (fun x => (decimal x.1, Aig.symbolEntry k x.2 (f (nd a (x.1 / 2)))))) := by
    intro site k f xs hxs
    apply mapM_ok
    intro x hx
    obtain ⟨n, hn⟩ := hr.node_exists (hxs _ (mem_zipIdx_fst hx))
    simp only [bind_ok, indexR_ok, pure_ok, shr_one]
    exact ⟨n, hn, by rw [nd_eq hn]⟩
  have hand : a.ands.mapM a.aagAnd = .ok (a.ands.map (fun v => andText (nd a v))) := by
    apply mapM_ok
    intro v hv
    obtain ⟨i, p, hp, e⟩ := mem_ands_node hr hv
    obtain ⟨n, hn, ht, h1, h2⟩ := hr.andNode i p hp
    rw [← e] at hn
    unfold Aig.aagAnd
    simp only [bind_ok, indexR_ok, pure_ok, getAndRhs0_ok, getAndRhs1_ok]
    refine ⟨n, hn, _, ⟨ht, ?_, rfl⟩, _, ⟨ht, ?_, rfl⟩, ?_⟩
    · rw [h1]; exact hr.lit_lt (and_lit_ok hw hp).1
    · rw [h2]; exact hr.lit_lt (and_lit_ok hw hp).2
    · rw [nd_eq hn]; simp [andText, joinText]
  have hout := lit "conversion.rs:68 index" 111 AIGNode.outputSymbol a.outputs (by rw [hr.outputs]; exact hw.out_ok)
  have hbad := lit "conversion.rs:77 index" 98 AIGNode.badSymbol a.bad (by rw [hr.bad]; exact hw.bad_ok)
  have hcon := lit "conversion.rs:86 index" 99 AIGNode.constraintSymbol a.constraints (by rw [hr.constraints]; exact hw.con_ok)
  unfold Aig.getAagString
  simp only [bind_ok, assertR_ok, beq_iff_eq, pure_ok]
  refine ⟨(), by rw [hr.numberOfJustice, hr.numberOfFairness], _, hin, _, hla, _, hout, _, hbad, _, hcon, _, hand, ?_⟩
  have e : [a.aagFirstLine] ++ List.map (fun x => x.1)
      (a.inputs.zipIdx.map (fun x => (decimal (nd a x.1).lit, Aig.symbolEntry 105 x.2 (nd a x.1).inputSymbol)) ++
       a.latches.zipIdx.map (fun x => (latchText (nd a x.1), Aig.symbolEntry 108 x.2 (nd a x.1).latchSymbol)) ++
       a.outputs.zipIdx.map (fun x => (decimal x.1, Aig.symbolEntry 111 x.2 (AIGNode.outputSymbol (nd a (x.1 / 2))))) ++
       a.bad.zipIdx.map (fun x => (decimal x.1, Aig.symbolEntry 98 x.2 (AIGNode.badSymbol (nd a (x.1 / 2))))) ++
       a.constraints.zipIdx.map (fun x => (decimal x.1, Aig.symbolEntry 99 x.2 (AIGNode.constraintSymbol (nd a (x.1 / 2)))))) ++
      a.ands.map (fun v => andText (nd a v)) ++
      (List.map (fun x => x.2)
      (a.inputs.zipIdx.map (fun x => (decimal (nd a x.1).lit, Aig.symbolEntry 105 x.2 (nd a x.1).inputSymbol)) ++
       a.latches.zipIdx.map (fun x => (latchText (nd a x.1), Aig.symbolEntry 108 x.2 (nd a x.1).latchSymbol)) ++
       a.outputs.zipIdx.map (fun x => (decimal x.1, Aig.symbolEntry 111 x.2 (AIGNode.outputSymbol (nd a (x.1 / 2))))) ++
       a.bad.zipIdx.map (fun x => (decimal x.1, Aig.symbolEntry 98 x.2 (AIGNode.badSymbol (nd a (x.1 / 2))))) ++
       a.constraints.zipIdx.map (fun x => (decimal x.1, Aig.symbolEntry 99 x.2 (AIGNode.constraintSymbol (nd a (x.1 / 2))))))).flatten
      = printedLines a := by
    unfold printedLines printedSyms
    simp only [List.map_append, List.map_map, List.flatten_append, Function.comp_def, map_zipIdx_fst]
    rw [Aag.printed_lines 105 0 a.inputs (fun v => (nd a v).inputSymbol),
      Aag.printed_lines 108 0 a.latches (fun v => (nd a v).latchSymbol),
      Aag.printed_lines 111 0 a.outputs (fun l => (nd a (l / 2)).outputSymbol),
      Aag.printed_lines 98 0 a.bad (fun l => (nd a (l / 2)).badSymbol),
      Aag.printed_lines 99 0 a.constraints (fun l => (nd a (l / 2)).constraintSymbol),
      map_zipIdx_fst (fun v => decimal (nd a v).lit), map_zipIdx_fst (fun v => latchText (nd a v))]
    simp
  rw [e]

end Verif
