import Verif.Proofs.AagRead
import Verif.Props.AigUse

/-!
# Properties C19, C20: printing ASCII AIGER
-/

namespace Verif.Props

open Aiger

/-! ## C19: the printed text describes the circuit -/

/-- A binary AIGER file describing the circuit `c` with symbol table `syms` and comment section `comment`. -/
structure IsFile (bytes : Text) (c : Circuit) (syms : List Symbol) (comment : Option Text) : Prop where
  wf : c.WF
  fits : c.Fits
  parse : ∃ tail, File bytes c tail ∧ Tail tail syms comment
  symbols : ∀ s ∈ syms, SymbolOK c s ∧ Utf8 s.name
  comment : ∀ t, comment = some t → Utf8 t

theorem accepts_iff (dbg : Bool) (bytes : Text) (a : Aig) :
    Aig.fromBytes dbg bytes = .ok a ↔ ∃ c syms comment, IsFile bytes c syms comment ∧ a = finish c syms comment := by
  rw [fromBytes_ok]
  constructor
  · rintro ⟨c, tail, syms, comment, h1, h2, h3, h4, h5, h6, h7⟩
    exact ⟨c, syms, comment, ⟨h1, h2, ⟨tail, h3, h4⟩, h5, h6⟩, h7⟩
  · rintro ⟨c, syms, comment, ⟨h1, h2, ⟨tail, h3, h4⟩, h5, h6⟩, h7⟩
    exact ⟨c, tail, syms, comment, h1, h2, h3, h4, h5, h6, h7⟩

theorem slots (c : Circuit) :
    (∀ s, Aag.KindOK s.kind → ∀ n, (setSym s n).inputSymbol = if s.kind = 105 then s.name else n.inputSymbol) ∧
    (∀ s, Aag.KindOK s.kind → ∀ n, (setSym s n).latchSymbol = if s.kind = 108 then s.name else n.latchSymbol) ∧
    (∀ s, Aag.KindOK s.kind → ∀ n, (setSym s n).outputSymbol = if s.kind = 111 then s.name else n.outputSymbol) ∧
    (∀ s, Aag.KindOK s.kind → ∀ n, (setSym s n).badSymbol = if s.kind = 98 then s.name else n.badSymbol) ∧
    (∀ s, Aag.KindOK s.kind → ∀ n, (setSym s n).constraintSymbol = if s.kind = 99 then s.name else n.constraintSymbol) :=
  ⟨fun s h n => (setSym_slots s h n).1, fun s h n => (setSym_slots s h n).2.1, fun s h n => (setSym_slots s h n).2.2.1,
    fun s h n => (setSym_slots s h n).2.2.2.1, fun s h n => (setSym_slots s h n).2.2.2.2⟩

theorem skeleton_length (c : Circuit) (hF : c.Fits) : (skeleton c).nodes.length = c.maxVar + 1 := nodes_len (represents_skeleton c hF)

theorem names_no_nl {bytes : Text} {c : Circuit} {syms : List Symbol} {comment : Option Text} (h : IsFile bytes c syms comment) :
    ∀ s ∈ printedSyms (finish c syms comment), (10 : UInt8) ∉ s.name := by
  obtain ⟨tail, _, hT⟩ := h.parse
  have hn : ∀ s ∈ syms, (10 : UInt8) ∉ s.name := by
    intro s hs
    obtain ⟨ls, ⟨hl, hp⟩, _⟩ := hT
    obtain ⟨i, hi, rfl⟩ := List.getElem_of_mem hs
    obtain ⟨t, _, _, _, h⟩ := hp i _ _ (List.getElem?_eq_getElem hi) (List.getElem?_eq_getElem (hl ▸ hi))
    exact h
  have hr := represents_finish h.fits syms comment
  have hlen := skeleton_length c h.fits
  have hs' : ∀ s ∈ syms, SymbolOK c s := fun s hs => (h.symbols s hs).1
  have hfin : ∀ (t : Text), (t = [] ∨ ∃ s ∈ syms, t = s.name) → (10 : UInt8) ∉ t := by
    rintro t (rfl | ⟨s, hs, rfl⟩)
    · simp
    · exact hn s hs
  have hlit : ∀ l, c.LitOK l → l / 2 < (skeleton c).nodes.length := by
    intro l hl; rw [hlen]; unfold Circuit.LitOK at hl; omega
  intro s hs
  unfold printedSyms at hs
  simp only [List.mem_append] at hs
  rcases hs with (((hs | hs) | hs) | hs) | hs <;> replace hs := (Aag.printed_kind _ _ _ s hs).2 <;>
    rw [List.mem_map] at hs <;> obtain ⟨v, hv, he⟩ := hs <;> rw [← he] <;> apply hfin
  · apply slot_mem c 105 _ (slots c).1 (fun j n hn => (skeleton_symbols c j n hn).1) _ _ hs'
    rw [hr.inputs, List.mem_range'_1] at hv
    rw [hlen]; unfold Circuit.maxVar; omega
  · apply slot_mem c 108 _ (slots c).2.1 (fun j n hn => (skeleton_symbols c j n hn).2.1) _ _ hs'
    rw [hr.latches, List.mem_range'_1] at hv
    rw [hlen]; unfold Circuit.maxVar; omega
  · apply slot_mem c 111 _ (slots c).2.2.1 (fun j n hn => (skeleton_symbols c j n hn).2.2.1) _ _ hs'
    rw [hr.outputs] at hv
    exact hlit _ (h.wf.out_ok v hv)
  · apply slot_mem c 98 _ (slots c).2.2.2.1 (fun j n hn => (skeleton_symbols c j n hn).2.2.2.1) _ _ hs'
    rw [hr.bad] at hv
    exact hlit _ (h.wf.bad_ok v hv)
  · apply slot_mem c 99 _ (slots c).2.2.2.2 (fun j n hn => (skeleton_symbols c j n hn).2.2.2.2) _ _ hs'
    rw [hr.constraints] at hv
    exact hlit _ (h.wf.con_ok v hv)

/-- C19: every file the reader accepts describes a circuit, and an independent ASCII AIGER reader applied to the text
`get_aag_string` prints for it returns that circuit: the counts of the header, the inputs, each latch with its next-state
function and its reset value, the outputs, bad literals, constraints and gates, all in order. -/
theorem C19_prints (dbg : Bool) (bytes : Text) (a : Aig) (h : Aig.fromBytes dbg bytes = .ok a) :
    ∃ c syms comment text out, IsFile bytes c syms comment ∧ a.getAagString = .ok text ∧ Aag.read text = some out ∧
      out.header = (c.maxVar, c.numInputs, c.latches.length, c.outputs.length, c.ands.length, c.bad.length, c.constraints.length) ∧
      out.inputs = (List.range c.numInputs).map (fun i => 2 * (1 + i)) ∧
      out.latches = c.latches.zipIdx.map (fun x => (2 * c.latchVar x.2, x.1.1, x.1.2)) ∧
      out.outputs = c.outputs ∧ out.bad = c.bad ∧ out.constraints = c.constraints ∧
      out.ands = c.ands.zipIdx.map (fun x => (2 * c.andVar x.2, x.1.1, x.1.2)) := by
  obtain ⟨c, syms, comment, hf, rfl⟩ := (accepts_iff _ _ _).1 h
  obtain ⟨tail, _, hT⟩ := hf.parse
  obtain ⟨text, h1, h2⟩ := read_printed (represents_finish hf.fits syms comment) hf.wf (names_no_nl hf) (commentOK_finish hT c)
  exact ⟨c, syms, comment, text, _, hf, h1, h2, rfl, rfl, rfl, rfl, rfl, rfl, rfl⟩

/-- Printing never panics. -/
theorem C19_total (dbg : Bool) (bytes : Text) (a : Aig) (h : Aig.fromBytes dbg bytes = .ok a) : ∃ text, a.getAagString = .ok text := by
  obtain ⟨c, syms, comment, text, _, _, h1, _⟩ := C19_prints dbg bytes a h
  exact ⟨text, h1⟩

example := C19_prints true counterBytes (finish counter [] none) (by decide +kernel)

/-- The repository's counter is accepted, and its text reads back as the same circuit. -/
example : (do let a ← Aig.fromBytes true counterBytes; a.getAagString) =
    .ok [97,97,103,32,53,32,48,32,51,32,49,32,50,10, 50,32,49,48,10, 52,32,50,10, 54,32,52,10, 49,48,10, 56,32,55,32,53,10, 49,48,32,56,32,51,10] := by
  decide +kernel
example : Aag.read [97,97,103,32,53,32,48,32,51,32,49,32,50,10, 50,32,49,48,10, 52,32,50,10, 54,32,52,10, 49,48,10, 56,32,55,32,53,10, 49,48,32,56,32,51,10] =
    some ⟨(5, 0, 3, 1, 2, 0, 0), [], [(2, 10, 0), (4, 2, 0), (6, 4, 0)], [10], [], [], [(8, 7, 5), (10, 8, 3)], [], []⟩ := by decide +kernel
/-- Inputs, a latch with reset value 1, bad and constraint sections. -/
example : (Aig.getAagString (finish toggle [] none)).toOption.bind Aag.read = some
    ⟨(5, 1, 1, 1, 3, 1, 0), [2], [(4, 11, 0)], [4], [4], [], [(6, 4, 3), (8, 5, 2), (10, 9, 7)], [], []⟩ := by decide +kernel

/-! ## C20: symbol names -/

/-- Names printed for a file. -/
theorem printed_names {bytes : Text} {c : Circuit} {syms : List Symbol} {comment : Option Text} (h : IsFile bytes c syms comment) (dbg : Bool) :
    ∃ a text out, Aig.fromBytes dbg bytes = .ok a ∧ a.getAagString = .ok text ∧ Aag.read text = some out ∧
      out.symbols = printedSyms (finish c syms comment) := by
  obtain ⟨tail, _, hT⟩ := h.parse
  obtain ⟨text, h1, h2⟩ := read_printed (represents_finish h.fits syms comment) h.wf (names_no_nl h) (commentOK_finish hT c)
  exact ⟨_, text, _, (accepts_iff _ _ _).2 ⟨c, syms, comment, h, rfl⟩, h1, h2, rfl⟩

theorem other_kind {k k' : UInt8} (hk : k ≠ k') (names : List Text) : ∀ s ∈ Aag.printedFrom k 0 names, s.kind ≠ k' := by
  intro s hs
  rw [(Aag.printed_kind _ _ _ s hs).1]; exact hk

theorem getD_default' (l : List Text) (p : Nat) (h : l.length ≤ p) : l.getD p [] = [] := by
  rw [List.getD_eq_getElem?_getD, List.getElem?_eq_none h]; rfl

theorem nameOf_none {syms : List Symbol} {k : UInt8} {p : Nat} (h : ∀ s ∈ syms, s.kind = k → s.pos ≠ p) : Aag.nameOf syms k p = [] := by
  unfold Aag.nameOf
  rw [List.filter_eq_nil_iff.2]
  · rfl
  · intro s hs
    simp only [Bool.and_eq_true, beq_iff_eq]
    rintro ⟨h1, h2⟩
    exact h s hs h1 h2

theorem nameOf_names (a : Aig) (p : Nat) :
    Aag.nameOf (printedSyms a) 105 p = (a.inputs.map (fun v => (nd a v).inputSymbol)).getD p [] ∧
    Aag.nameOf (printedSyms a) 108 p = (a.latches.map (fun v => (nd a v).latchSymbol)).getD p [] ∧
    Aag.nameOf (printedSyms a) 111 p = (a.outputs.map (fun l => (nd a (l / 2)).outputSymbol)).getD p [] ∧
    Aag.nameOf (printedSyms a) 98 p = (a.bad.map (fun l => (nd a (l / 2)).badSymbol)).getD p [] ∧
    Aag.nameOf (printedSyms a) 99 p = (a.constraints.map (fun l => (nd a (l / 2)).constraintSymbol)).getD p [] := by
  unfold printedSyms
  have app : ∀ {A B : List Symbol} {k : UInt8}, (∀ s ∈ A, s.kind ≠ k) → (∀ s ∈ B, s.kind ≠ k) → ∀ s ∈ A ++ B, s.kind ≠ k := by
    intro A B k hA hB s hs
    rcases List.mem_append.1 hs with h | h
    · exact hA s h
    · exact hB s h
  have emp : ∀ {k : UInt8}, ∀ s ∈ ([] : List Symbol), s.kind ≠ k := by simp
  refine ⟨?_, ?_, ?_, ?_, ?_⟩
  · have := Aag.nameOf_printed 105 (a.inputs.map (fun v => (nd a v).inputSymbol)) p [] _ emp
      (app (app (app (other_kind (k := 108) (by decide) (a.latches.map (fun v => (nd a v).latchSymbol)))
      (other_kind (k := 111) (by decide) (a.outputs.map (fun l => (nd a (l / 2)).outputSymbol))))
      (other_kind (k := 98) (by decide) (a.bad.map (fun l => (nd a (l / 2)).badSymbol))))
      (other_kind (k := 99) (by decide) (a.constraints.map (fun l => (nd a (l / 2)).constraintSymbol))))
    simpa [List.append_assoc] using this
  · have := Aag.nameOf_printed 108 (a.latches.map (fun v => (nd a v).latchSymbol)) p _ _
      (other_kind (k := 105) (by decide) (a.inputs.map (fun v => (nd a v).inputSymbol)))
      (app (app (other_kind (k := 111) (by decide) (a.outputs.map (fun l => (nd a (l / 2)).outputSymbol)))
      (other_kind (k := 98) (by decide) (a.bad.map (fun l => (nd a (l / 2)).badSymbol))))
      (other_kind (k := 99) (by decide) (a.constraints.map (fun l => (nd a (l / 2)).constraintSymbol))))
    simpa [List.append_assoc] using this
  · have := Aag.nameOf_printed 111 (a.outputs.map (fun l => (nd a (l / 2)).outputSymbol)) p _ _
      (app (other_kind (k := 105) (by decide) (a.inputs.map (fun v => (nd a v).inputSymbol)))
      (other_kind (k := 108) (by decide) (a.latches.map (fun v => (nd a v).latchSymbol))))
      (app (other_kind (k := 98) (by decide) (a.bad.map (fun l => (nd a (l / 2)).badSymbol)))
      (other_kind (k := 99) (by decide) (a.constraints.map (fun l => (nd a (l / 2)).constraintSymbol))))
    simpa [List.append_assoc] using this
  · have := Aag.nameOf_printed 98 (a.bad.map (fun l => (nd a (l / 2)).badSymbol)) p _ _
      (app (app (other_kind (k := 105) (by decide) (a.inputs.map (fun v => (nd a v).inputSymbol)))
      (other_kind (k := 108) (by decide) (a.latches.map (fun v => (nd a v).latchSymbol))))
      (other_kind (k := 111) (by decide) (a.outputs.map (fun l => (nd a (l / 2)).outputSymbol))))
      (other_kind (k := 99) (by decide) (a.constraints.map (fun l => (nd a (l / 2)).constraintSymbol)))
    simpa [List.append_assoc] using this
  · have := Aag.nameOf_printed 99 (a.constraints.map (fun l => (nd a (l / 2)).constraintSymbol)) p _ []
      (app (app (app (other_kind (k := 105) (by decide) (a.inputs.map (fun v => (nd a v).inputSymbol)))
      (other_kind (k := 108) (by decide) (a.latches.map (fun v => (nd a v).latchSymbol))))
      (other_kind (k := 111) (by decide) (a.outputs.map (fun l => (nd a (l / 2)).outputSymbol))))
      (other_kind (k := 98) (by decide) (a.bad.map (fun l => (nd a (l / 2)).badSymbol)))) emp
    simpa [List.append_assoc] using this

theorem symbolOK_pos {c : Circuit} {s : Symbol} (h : SymbolOK c s) :
    (s.kind = 105 → s.pos < c.numInputs) ∧ (s.kind = 108 → s.pos < c.latches.length) ∧ (s.kind = 111 → s.pos < c.outputs.length) ∧
    (s.kind = 98 → s.pos < c.bad.length) ∧ (s.kind = 99 → s.pos < c.constraints.length) := by
  rcases h with ⟨hk, h⟩ | ⟨hk, h⟩ | ⟨hk, h⟩ | ⟨hk, h⟩ | ⟨hk, h⟩ <;> rw [hk] <;>
    refine ⟨fun e => ?_, fun e => ?_, fun e => ?_, fun e => ?_, fun e => ?_⟩ <;> first | exact h | exact absurd e (by decide)

/-- C20 (inputs and latches): the symbol table printed for a file gives every input and every latch the name the file gives it. -/
theorem C20_inputs_latches (dbg : Bool) {bytes : Text} {c : Circuit} {syms : List Symbol} {comment : Option Text}
    (h : IsFile bytes c syms comment) :
    ∃ a text out, Aig.fromBytes dbg bytes = .ok a ∧ a.getAagString = .ok text ∧ Aag.read text = some out ∧
      (∀ p, Aag.nameOf out.symbols 105 p = Aag.nameOf syms 105 p) ∧ (∀ p, Aag.nameOf out.symbols 108 p = Aag.nameOf syms 108 p) := by
  obtain ⟨a, text, out, h1, h2, h3, h4⟩ := printed_names h dbg
  have hr := represents_finish h.fits syms comment
  have hlen := skeleton_length c h.fits
  have hs' : ∀ s ∈ syms, SymbolOK c s := fun s hs => (h.symbols s hs).1
  refine ⟨a, text, out, h1, h2, h3, fun p => ?_, fun p => ?_⟩
  · rw [h4, (nameOf_names _ p).1, hr.inputs]
    by_cases hp : p < c.numInputs
    · rw [List.getD_eq_getElem?_getD, List.getElem?_map, List.getElem?_range' hp]
      simp only [Option.map_some, Option.getD_some, Nat.one_mul]
      apply slot_nameOf c 105 _ (slots c).1 (fun j n hn => (skeleton_symbols c j n hn).1) _ _ hs'
      · rw [hlen]; unfold Circuit.maxVar; omega
      · intro s _ hk
        unfold symTarget; rw [if_pos hk]; omega
    · rw [nameOf_none (p := p) (fun s hs hk hpos => hp (hpos ▸ (symbolOK_pos (hs' s hs)).1 hk)), getD_default']
      rw [List.length_map, List.length_range']; omega
  · rw [h4, (nameOf_names _ p).2.1, hr.latches]
    by_cases hp : p < c.latches.length
    · rw [List.getD_eq_getElem?_getD, List.getElem?_map, List.getElem?_range' hp]
      simp only [Option.map_some, Option.getD_some, Nat.one_mul]
      apply slot_nameOf c 108 _ (slots c).2.1 (fun j n hn => (skeleton_symbols c j n hn).2.1) _ _ hs'
      · rw [hlen]; unfold Circuit.maxVar; omega
      · intro s _ hk
        unfold symTarget; rw [if_neg (by rw [hk]; decide), if_pos hk]; unfold Circuit.latchVar; omega
    · rw [nameOf_none (p := p) (fun s hs hk hpos => hp (hpos ▸ (symbolOK_pos (hs' s hs)).2.1 hk)), getD_default']
      rw [List.length_map, List.length_range']; omega

/-- Position `p` of a literal list is *alone*: the file names no other position of the list that sits on the same node. -/
def Alone (lits : List Nat) (syms : List Symbol) (kind : UInt8) (p : Nat) : Prop :=
  ∀ s ∈ syms, s.kind = kind → lits.getD s.pos 0 / 2 = lits.getD p 0 / 2 → s.pos = p

/-- C20 (outputs, bad literals, constraints), under the assumption that no other named position of the same section refers to
the same node.  The full statement, without the assumption, is false: see `C20_refuted`. -/
theorem C20_outputs_partial (dbg : Bool) {bytes : Text} {c : Circuit} {syms : List Symbol} {comment : Option Text}
    (h : IsFile bytes c syms comment) :
    ∃ a text out, Aig.fromBytes dbg bytes = .ok a ∧ a.getAagString = .ok text ∧ Aag.read text = some out ∧
      (∀ p, Alone c.outputs syms 111 p → Aag.nameOf out.symbols 111 p = Aag.nameOf syms 111 p) ∧
      (∀ p, Alone c.bad syms 98 p → Aag.nameOf out.symbols 98 p = Aag.nameOf syms 98 p) ∧
      (∀ p, Alone c.constraints syms 99 p → Aag.nameOf out.symbols 99 p = Aag.nameOf syms 99 p) := by
  obtain ⟨a, text, out, h1, h2, h3, h4⟩ := printed_names h dbg
  have hr := represents_finish h.fits syms comment
  have hlen := skeleton_length c h.fits
  have hs' : ∀ s ∈ syms, SymbolOK c s := fun s hs => (h.symbols s hs).1
  have hlit : ∀ l, c.LitOK l → l / 2 < (skeleton c).nodes.length := by
    intro l hl; rw [hlen]; unfold Circuit.LitOK at hl; omega
  refine ⟨a, text, out, h1, h2, h3, fun p ha => ?_, fun p ha => ?_, fun p ha => ?_⟩
  · rw [h4, (nameOf_names _ p).2.2.1, hr.outputs]
    by_cases hp : p < c.outputs.length
    · obtain ⟨l, hl⟩ : ∃ l, c.outputs[p]? = some l := ⟨_, List.getElem?_eq_getElem hp⟩
      have hd : c.outputs.getD p 0 = l := by rw [List.getD_eq_getElem?_getD, hl]; rfl
      rw [List.getD_eq_getElem?_getD, List.getElem?_map, hl]
      simp only [Option.map_some, Option.getD_some]
      apply slot_nameOf c 111 _ (slots c).2.2.1 (fun j n hn => (skeleton_symbols c j n hn).2.2.1) _ _ hs'
      · exact hlit _ (h.wf.out_ok l (List.mem_of_getElem? hl))
      · intro s hs hk
        have ht : symTarget c s = c.outputs.getD s.pos 0 / 2 := by unfold symTarget; rw [hk]; rfl
        rw [ht, ← hd]
        exact ⟨fun e => ha s hs hk e, fun e => by rw [e]⟩
    · rw [nameOf_none (p := p) (fun s hs hk hpos => hp (hpos ▸ (symbolOK_pos (hs' s hs)).2.2.1 hk)), getD_default']
      rw [List.length_map]; omega
  · rw [h4, (nameOf_names _ p).2.2.2.1, hr.bad]
    by_cases hp : p < c.bad.length
    · obtain ⟨l, hl⟩ : ∃ l, c.bad[p]? = some l := ⟨_, List.getElem?_eq_getElem hp⟩
      have hd : c.bad.getD p 0 = l := by rw [List.getD_eq_getElem?_getD, hl]; rfl
      rw [List.getD_eq_getElem?_getD, List.getElem?_map, hl]
      simp only [Option.map_some, Option.getD_some]
      apply slot_nameOf c 98 _ (slots c).2.2.2.1 (fun j n hn => (skeleton_symbols c j n hn).2.2.2.1) _ _ hs'
      · exact hlit _ (h.wf.bad_ok l (List.mem_of_getElem? hl))
      · intro s hs hk
        have ht : symTarget c s = c.bad.getD s.pos 0 / 2 := by unfold symTarget; rw [hk]; rfl
        rw [ht, ← hd]
        exact ⟨fun e => ha s hs hk e, fun e => by rw [e]⟩
    · rw [nameOf_none (p := p) (fun s hs hk hpos => hp (hpos ▸ (symbolOK_pos (hs' s hs)).2.2.2.1 hk)), getD_default']
      rw [List.length_map]; omega
  · rw [h4, (nameOf_names _ p).2.2.2.2, hr.constraints]
    by_cases hp : p < c.constraints.length
    · obtain ⟨l, hl⟩ : ∃ l, c.constraints[p]? = some l := ⟨_, List.getElem?_eq_getElem hp⟩
      have hd : c.constraints.getD p 0 = l := by rw [List.getD_eq_getElem?_getD, hl]; rfl
      rw [List.getD_eq_getElem?_getD, List.getElem?_map, hl]
      simp only [Option.map_some, Option.getD_some]
      apply slot_nameOf c 99 _ (slots c).2.2.2.2 (fun j n hn => (skeleton_symbols c j n hn).2.2.2.2) _ _ hs'
      · exact hlit _ (h.wf.con_ok l (List.mem_of_getElem? hl))
      · intro s hs hk
        have ht : symTarget c s = c.constraints.getD s.pos 0 / 2 := by unfold symTarget; rw [hk]; rfl
        rw [ht, ← hd]
        exact ⟨fun e => ha s hs hk e, fun e => by rw [e]⟩
    · rw [nameOf_none (p := p) (fun s hs hk hpos => hp (hpos ▸ (symbolOK_pos (hs' s hs)).2.2.2.2 hk)), getD_default']
      rw [List.length_map]; omega

/-- The last name the symbol table gives to any position of a literal list that sits on the same node as position `p`. -/
def lastOnNode (lits : List Nat) (syms : List Symbol) (kind : UInt8) (p : Nat) : Text :=
  match (syms.filter (fun s => s.kind == kind && lits.getD s.pos 0 / 2 == lits.getD p 0 / 2)).getLast? with
  | some s => s.name
  | none => []

theorem slot_lastOnNode (c : Circuit) (K : UInt8) (f : AIGNode → Text)
    (hf : ∀ s, Aag.KindOK s.kind → ∀ n, f (setSym s n) = if s.kind = K then s.name else f n)
    (h0 : ∀ (j : Nat) (n : AIGNode), (skeleton c).nodes[j]? = some n → f n = [])
    (syms : List Symbol) (comment : Option Text) (hs : ∀ s ∈ syms, SymbolOK c s) (lits : List Nat) (p : Nat) (hp : p < lits.length)
    (ht : ∀ s : Symbol, s.kind = K → symTarget c s = lits.getD s.pos 0 / 2)
    (hj : ∀ l ∈ lits, l / 2 < (skeleton c).nodes.length) :
    (lits.map (fun l => f (nd (finish c syms comment) (l / 2)))).getD p [] = lastOnNode lits syms K p := by
  obtain ⟨l, hl⟩ : ∃ l, lits[p]? = some l := ⟨_, List.getElem?_eq_getElem hp⟩
  have hd : lits.getD p 0 = l := by rw [List.getD_eq_getElem?_getD, hl]; rfl
  rw [List.getD_eq_getElem?_getD, List.getElem?_map, hl]
  simp only [Option.map_some, Option.getD_some]
  rw [slot_finish c K f hf h0 syms comment hs (l / 2) (hj l (List.mem_of_getElem? hl))]
  have hc : syms.filter (fun s => s.kind == K && symTarget c s == l / 2) =
      syms.filter (fun s => s.kind == K && lits.getD s.pos 0 / 2 == l / 2) := by
    apply List.filter_congr
    intro s _
    by_cases hk : s.kind = K
    · rw [ht s hk]
    · rw [show (s.kind == K) = false from beq_eq_false_iff_ne.2 hk]; rfl
  unfold lastOnNode
  rw [hd, hc]
  cases (syms.filter (fun s => s.kind == K && lits.getD s.pos 0 / 2 == l / 2)).getLast? <;> rfl

/-- C20, what is printed instead: every output, bad literal and constraint gets the last name that the file gives to any entry of the same
section on the same node. -/
theorem C20_exact (dbg : Bool) {bytes : Text} {c : Circuit} {syms : List Symbol} {comment : Option Text}
    (h : IsFile bytes c syms comment) :
    ∃ a text out, Aig.fromBytes dbg bytes = .ok a ∧ a.getAagString = .ok text ∧ Aag.read text = some out ∧
      (∀ p, p < c.outputs.length → Aag.nameOf out.symbols 111 p = lastOnNode c.outputs syms 111 p) ∧
      (∀ p, p < c.bad.length → Aag.nameOf out.symbols 98 p = lastOnNode c.bad syms 98 p) ∧
      (∀ p, p < c.constraints.length → Aag.nameOf out.symbols 99 p = lastOnNode c.constraints syms 99 p) := by
  obtain ⟨a, text, out, h1, h2, h3, h4⟩ := printed_names h dbg
  have hr := represents_finish h.fits syms comment
  have hlen := skeleton_length c h.fits
  have hs' : ∀ s ∈ syms, SymbolOK c s := fun s hs => (h.symbols s hs).1
  have hlit : ∀ l, c.LitOK l → l / 2 < (skeleton c).nodes.length := by
    intro l hl; rw [hlen]; unfold Circuit.LitOK at hl; omega
  refine ⟨a, text, out, h1, h2, h3, fun p hp => ?_, fun p hp => ?_, fun p hp => ?_⟩
  · rw [h4, (nameOf_names _ p).2.2.1, hr.outputs]
    exact slot_lastOnNode c 111 _ (slots c).2.2.1 (fun j n hn => (skeleton_symbols c j n hn).2.2.1) _ _ hs' _ p hp
      (fun s hk => by unfold symTarget; rw [hk]; rfl) (fun l hl => hlit l (h.wf.out_ok l hl))
  · rw [h4, (nameOf_names _ p).2.2.2.1, hr.bad]
    exact slot_lastOnNode c 98 _ (slots c).2.2.2.1 (fun j n hn => (skeleton_symbols c j n hn).2.2.2.1) _ _ hs' _ p hp
      (fun s hk => by unfold symTarget; rw [hk]; rfl) (fun l hl => hlit l (h.wf.bad_ok l hl))
  · rw [h4, (nameOf_names _ p).2.2.2.2, hr.constraints]
    exact slot_lastOnNode c 99 _ (slots c).2.2.2.2 (fun j n hn => (skeleton_symbols c j n hn).2.2.2.2) _ _ hs' _ p hp
      (fun s hk => by unfold symTarget; rw [hk]; rfl) (fun l hl => hlit l (h.wf.con_ok l hl))

/-- One input, two outputs on it: `aig 1 1 0 2 0`, outputs 2 and 3, symbols `o0 x` and `o1 y`. -/
def sharedBytes : Text := [97,105,103,32,49,32,49,32,48,32,50,32,48,10, 50,10, 51,10, 111,48,32,120,10, 111,49,32,121,10]

def shared : Circuit := ⟨1, [], [], [2, 3], [], []⟩

def sharedSyms : List Symbol := [⟨111, 0, [120]⟩, ⟨111, 1, [121]⟩]

theorem shared_file : IsFile sharedBytes shared sharedSyms none where
  wf := Circuit.wf_of_wfb (by decide)
  fits := fits_small _ (by decide) (by decide) (by decide) (by decide)
  parse := by
    refine ⟨[111,48,32,120,10, 111,49,32,121,10], ?_, [[111,48,32,120], [111,49,32,121]], ?_, Or.inl rfl⟩
    · exact (show encode shared ++ [111,48,32,120,10, 111,49,32,121,10] = sharedBytes by decide +kernel) ▸
        file_encode shared (Circuit.wf_of_wfb (by decide)) (by decide) (by decide) (by decide) (by decide) _
    · exact pointwise_cons.2 ⟨⟨numeral 0, numeral_numeral 0 (by decide), (by decide +kernel), by decide, by decide⟩,
        pointwise_cons.2 ⟨⟨numeral 1, numeral_numeral 1 (by decide), (by decide +kernel), by decide, by decide⟩, pointwise_nil⟩⟩
  symbols := by
    intro s hs
    simp only [sharedSyms, List.mem_cons, List.not_mem_nil, or_false] at hs
    rcases hs with rfl | rfl
    · exact ⟨Or.inr (Or.inr (Or.inl ⟨rfl, by decide⟩)), (utf8Valid_iff _).1 (by decide +kernel)⟩
    · exact ⟨Or.inr (Or.inr (Or.inl ⟨rfl, by decide⟩)), (utf8Valid_iff _).1 (by decide +kernel)⟩
  comment := by simp

/-- The hypothesis of the theorems of C20, for two outputs on one node, each with a name. -/
example := C20_exact true shared_file
example := C20_inputs_latches true shared_file
example := C20_outputs_partial true shared_file

/-- C20 is false for outputs on the same node: the file names its outputs `x` and `y`, the printed text names both `y`. -/
theorem C20_refuted : ∃ bytes c syms comment text out, IsFile bytes c syms comment ∧
    (do let a ← Aig.fromBytes true bytes; a.getAagString) = .ok text ∧ Aag.read text = some out ∧
    Aag.nameOf syms 111 0 = [120] ∧ Aag.nameOf out.symbols 111 0 = [121] :=
  ⟨sharedBytes, shared, sharedSyms, none,
    [97,97,103,32,49,32,49,32,48,32,50,32,48,10, 50,10, 50,10, 51,10, 111,48,32,121,10, 111,49,32,121,10],
    ⟨(1, 1, 0, 2, 0, 0, 0), [2], [], [2, 3], [], [], [], [⟨111, 0, [121]⟩, ⟨111, 1, [121]⟩], []⟩,
    shared_file, by decide +kernel, by decide +kernel, by decide, by decide⟩

/-- What `C20_exact` says about that file: both outputs get the second name. -/
example : lastOnNode shared.outputs sharedSyms 111 0 = [121] ∧ lastOnNode shared.outputs sharedSyms 111 1 = [121] ∧
    lastOnNode [2, 5, 4] [⟨111, 2, [120]⟩, ⟨111, 1, [121]⟩, ⟨98, 1, [122]⟩] 111 2 = [121] := by decide

/-- In that file the second output is not alone either; with the first name removed it is. -/
example : ¬ Alone shared.outputs sharedSyms 111 1 ∧ Alone shared.outputs [⟨111, 1, [121]⟩] 111 1 ∧
    Alone [2, 5, 4] [⟨111, 0, [120]⟩, ⟨111, 2, [121]⟩] 111 0 := by
  unfold Alone; decide

/-! ## C63: comments -/

/-- Without one final empty line. -/
def trimLast : List Text → List Text
  | [] => []
  | [l] => if l = [] then [] else [l]
  | l :: ls => l :: trimLast ls

/-- The pieces between newlines. -/
def pieces : Text → List Text
  | [] => [[]]
  | b :: bs => if b = 10 then [] :: pieces bs else
    match pieces bs with
    | [] => [[b]]
    | l :: ls => (b :: l) :: ls

theorem pieces_ne (t : Text) : pieces t ≠ [] := by
  cases t with
  | nil => simp [pieces]
  | cons b bs =>
    unfold pieces
    split
    · simp
    · split <;> simp

theorem trimLast_cons {l : Text} {ls : List Text} (h : ls ≠ []) : trimLast (l :: ls) = l :: trimLast ls := by
  cases ls with
  | nil => exact absurd rfl h
  | cons x xs => rfl

theorem lines_pieces (t : Text) : Aag.lines t = trimLast (pieces t) := by
  induction t with
  | nil => rfl
  | cons b bs ih =>
    unfold pieces Aag.lines
    by_cases hb : b = 10
    · rw [if_pos hb, if_pos hb, trimLast_cons (pieces_ne bs), ih]
    · rw [if_neg hb, if_neg hb, ih]
      match h : pieces bs with
      | [] => exact absurd h (pieces_ne bs)
      | [l] =>
        by_cases hl : l = []
        · subst hl; rfl
        · simp [trimLast, hl]
      | l :: x :: xs =>
        have e : trimLast (l :: x :: xs) = l :: trimLast (x :: xs) := rfl
        rw [e]; rfl

theorem lines_newline (t : Text) : Aag.lines (t ++ [10]) = pieces t := by
  induction t with
  | nil => rfl
  | cons b bs ih =>
    rw [List.cons_append]
    unfold pieces Aag.lines
    rw [ih]
    rfl

theorem trimLast_pieces (t : Text) (h0 : t ≠ []) (h : t.getLast? ≠ some 10) : trimLast (pieces t) = pieces t := by
  induction t with
  | nil => exact absurd rfl h0
  | cons b bs ih =>
    by_cases hbs : bs = []
    · subst hbs
      have hb : b ≠ 10 := fun e => h (by rw [e]; rfl)
      simp [pieces, hb, trimLast]
    · have h' : bs.getLast? ≠ some 10 := by
        intro e; apply h
        rw [List.getLast?_cons, e]; rfl
      have := ih hbs h'
      unfold pieces
      by_cases hb : b = 10
      · rw [if_pos hb, trimLast_cons (pieces_ne bs), this]
      · rw [if_neg hb]
        match hp : pieces bs with
        | [] => exact absurd hp (pieces_ne bs)
        | [l] => simp [trimLast]
        | l :: x :: xs =>
          rw [hp, trimLast_cons (by simp)] at this
          simp only
          rw [trimLast_cons (by simp), (List.cons.inj this).2]

theorem pieces_filter (t : Text) : pieces (t.filter (fun b => b != 0)) = (pieces t).map (List.filter (fun b => b != 0)) := by
  induction t with
  | nil => rfl
  | cons b bs ih =>
    by_cases h0 : b = 0
    · subst h0
      rw [show (0 :: bs).filter (fun b => b != 0) = bs.filter (fun b => b != 0) from rfl, ih]
      conv => rhs; unfold pieces
      rw [if_neg (by decide)]
      match hp : pieces bs with
      | [] => exact absurd hp (pieces_ne bs)
      | l :: ls => rfl
    · have hf : (b :: bs).filter (fun b => b != 0) = b :: bs.filter (fun b => b != 0) := List.filter_cons_of_pos (by simpa using h0)
      rw [hf]
      unfold pieces
      rw [ih]
      by_cases hb : b = 10
      · rw [if_pos hb, if_pos hb]; rfl
      · rw [if_neg hb, if_neg hb]
        match hp : pieces bs with
        | [] => exact absurd hp (pieces_ne bs)
        | l :: ls =>
          simp only [List.map_cons]
          rw [List.filter_cons_of_pos (by simpa using h0)]

theorem trimLast_id (ls : List Text) (h : ls.getLast? ≠ some []) : trimLast ls = ls := by
  induction ls with
  | nil => rfl
  | cons l ls ih =>
    cases ls with
    | nil =>
      have : l ≠ [] := fun e => h (by rw [e]; rfl)
      simp [trimLast, this]
    | cons x xs =>
      rw [trimLast_cons (by simp), ih (by rwa [List.getLast?_cons_cons] at h)]

theorem lines_mem (t : Text) : ∀ l ∈ Aag.lines t, ∀ b ∈ l, b ∈ t := by
  induction t with
  | nil => simp [Aag.lines]
  | cons b bs ih =>
    unfold Aag.lines
    intro l hl x hx
    by_cases hb : b = 10
    · rw [if_pos hb] at hl
      rcases List.mem_cons.1 hl with rfl | hl
      · simp at hx
      · exact List.mem_cons_of_mem _ (ih l hl x hx)
    · rw [if_neg hb] at hl
      cases hp : Aag.lines bs with
      | nil =>
        rw [hp] at hl
        simp only [List.mem_cons, List.not_mem_nil, or_false] at hl
        subst hl
        simp only [List.mem_cons, List.not_mem_nil, or_false] at hx
        simp [hx]
      | cons y ys =>
        rw [hp] at hl ih
        simp only [List.mem_cons] at hl
        rcases hl with rfl | hl
        · rcases List.mem_cons.1 hx with rfl | hx
          · simp
          · exact List.mem_cons_of_mem _ (ih y (by simp) x hx)
        · exact List.mem_cons_of_mem _ (ih l (by simp [hl]) x hx)

theorem lines_storedComment (t : Text) (h0 : t ≠ []) :
    Aag.lines (storedComment t) = trimLast ((Aag.lines t).map (List.filter (fun b => b != 0))) := by
  unfold storedComment
  rw [lines_pieces, pieces_filter]
  congr 2
  split
  · rename_i h
    obtain ⟨u, rfl⟩ := List.getLast?_eq_some_iff.1 h
    rw [List.dropLast_concat, lines_newline]
  · rename_i h
    rw [lines_pieces, trimLast_pieces t h0 h]

/-- C63: the comment section printed for a file is the file's own, line by line, with the NUL bytes removed and without one final empty
line; a file without comment section prints none. -/
theorem C63_comment (dbg : Bool) {bytes : Text} {c : Circuit} {syms : List Symbol} {comment : Option Text}
    (h : IsFile bytes c syms comment) :
    ∃ a text out, Aig.fromBytes dbg bytes = .ok a ∧ a.getAagString = .ok text ∧ Aag.read text = some out ∧
      (comment = none → out.comment = []) ∧
      ∀ t, comment = some t → out.comment = trimLast ((Aag.lines t).map (List.filter (fun b => b != 0))) := by
  obtain ⟨tail, _, hT⟩ := h.parse
  obtain ⟨text, h1, h2⟩ := read_printed (represents_finish h.fits syms comment) h.wf (names_no_nl h) (commentOK_finish hT c)
  refine ⟨_, text, _, (accepts_iff _ _ _).2 ⟨c, syms, comment, h, rfl⟩, h1, h2, ?_, ?_⟩
  · rintro rfl; rfl
  · rintro t rfl
    refine lines_storedComment t ?_
    obtain ⟨_, _, h⟩ := hT
    rcases h.2 with rfl | ⟨r, rfl⟩ <;> simp

/-- C63: a comment section without NUL bytes whose last line is not empty is printed as it is. -/
theorem C63_comment_verbatim (dbg : Bool) {bytes : Text} {c : Circuit} {syms : List Symbol} {t : Text}
    (h : IsFile bytes c syms (some t)) (h0 : (0 : UInt8) ∉ t) (hl : (Aag.lines t).getLast? ≠ some []) :
    ∃ a text out, Aig.fromBytes dbg bytes = .ok a ∧ a.getAagString = .ok text ∧ Aag.read text = some out ∧ out.comment = Aag.lines t := by
  obtain ⟨a, text, out, h1, h2, h3, _, h4⟩ := C63_comment dbg h
  refine ⟨a, text, out, h1, h2, h3, ?_⟩
  have hm : (Aag.lines t).map (List.filter (fun b => b != 0)) = Aag.lines t := by
    conv => rhs; rw [← List.map_id (Aag.lines t)]
    apply List.map_congr_left
    intro l hl
    refine List.filter_eq_self.2 fun b hb => ?_
    have : b ≠ 0 := fun e => h0 (e ▸ lines_mem t l hl b hb)
    simpa using this
  rw [h4 t rfl, hm, trimLast_id _ hl]

/-- `aig 0 0 0 0 0` with the comment lines `hi` and an empty one. -/
def remarkBytes : Text := [97,105,103,32,48,32,48,32,48,32,48,32,48,10, 99,10, 104,105,10, 10]

theorem remark_file : IsFile remarkBytes ⟨0, [], [], [], [], []⟩ [] (some [99,10, 104,105,10, 10]) where
  wf := Circuit.wf_of_wfb (by decide)
  fits := fits_small _ (by decide) (by decide) (by decide) (by decide)
  parse := by
    refine ⟨[99,10, 104,105,10, 10], ?_, [], pointwise_nil, rfl, Or.inr ⟨_, rfl⟩⟩
    exact (show encode ⟨0, [], [], [], [], []⟩ ++ [99,10, 104,105,10, 10] = remarkBytes by decide +kernel) ▸
      file_encode ⟨0, [], [], [], [], []⟩ (Circuit.wf_of_wfb (by decide)) (by decide) (by decide) (by decide) (by decide) _
  symbols := by simp
  comment := by
    rintro t ⟨⟩
    exact (utf8Valid_iff _).1 (by decide +kernel)

/-- C63: the final empty line of that file is indeed lost. -/
theorem C63_loses_empty_line : ∃ bytes c syms t text out, IsFile bytes c syms (some t) ∧
    (do let a ← Aig.fromBytes true bytes; a.getAagString) = .ok text ∧ Aag.read text = some out ∧
    Aag.lines t = [[99], [104, 105], []] ∧ out.comment = [[99], [104, 105]] :=
  ⟨remarkBytes, ⟨0, [], [], [], [], []⟩, [], [99,10, 104,105,10, 10],
    [97,97,103,32,48,32,48,32,48,32,48,32,48,10, 99,10, 104,105,10], ⟨(0, 0, 0, 0, 0, 0, 0), [], [], [], [], [], [], [], [[99], [104, 105]]⟩,
    remark_file, by decide +kernel, by decide +kernel, by decide, rfl⟩

/-- The hypothesis of C63_comment. -/
example := C63_comment true remark_file

/-- `C63_comment_verbatim` applies to the comment without the empty line. -/
example : (0 : UInt8) ∉ ([99,10, 104,105,10] : Text) ∧ (Aag.lines [99,10, 104,105,10]).getLast? ≠ some [] := by decide
example : trimLast ((Aag.lines [99,10, 104,0,105]).map (List.filter (fun b => b != 0))) = [[99], [104, 105]] := by decide

end Verif.Props
