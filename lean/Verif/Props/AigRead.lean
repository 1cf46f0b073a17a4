import Verif.Proofs.AigEncode
import Verif.Proofs.AigPanics
import Verif.Proofs.CircuitDec

/-!
# Properties C15–C18: reading binary AIGER
-/

namespace Verif.Props

open Aiger

/-! ## C15: delta codes -/

/-- C15 (round trip): decoding the standard encoding of `n`, wherever it stands in the file and whatever follows, gives `n`
and the position just after it. -/
theorem C15_roundtrip (n : Nat) (h : n < 2 ^ 38) (before after : Text) :
    Aig.readDelta (before ++ encodeDelta n ++ after) before.length = .ok (n, before.length + (encodeDelta n).length) := by
  rw [readDelta_ok]
  exact ⟨encodeDelta n, after, by simp, delta_encodeDelta n (by omega), rfl⟩

example : Aig.readDelta ([7, 7] ++ encodeDelta 300 ++ [9]) 2 = .ok (300, 2 + (encodeDelta 300).length) :=
  C15_roundtrip 300 (by decide) [7, 7] [9]

/-- C15 (soundness): a successful decode consumed a code of one to six bytes lying inside the buffer that denotes the
result, and the result is below 2^38. -/
theorem C15_sound (bytes : Text) (r n p : Nat) (h : Aig.readDelta bytes r = .ok (n, p)) :
    ∃ before code after, bytes = before ++ code ++ after ∧ before.length = r ∧ p = r + code.length ∧ Code code n ∧
      1 ≤ code.length ∧ code.length ≤ 6 ∧ n < 2 ^ 38 := by
  rw [readDelta_ok] at h
  obtain ⟨code, rest, h1, ⟨h2, h3, h4⟩, h5⟩ := h
  have hl := h2.ne_nil
  have hr : r ≤ bytes.length := by
    rcases Nat.lt_or_ge bytes.length r with hlt | hge
    · rw [List.drop_eq_nil_of_le (by omega)] at h1
      have := congrArg List.length h1
      simp at this
      omega
    · exact hge
  refine ⟨bytes.take r, code, rest, ?_, ?_, h5, h2, hl, h3, by omega⟩
  · rw [List.append_assoc, ← h1, List.take_append_drop]
  · rw [List.length_take]; omega

example := C15_sound [7, 7, 172, 2, 9] 2 300 4 (by decide +kernel)

/-- C15 (rejection): codes that are too long or too big, and truncated codes, make the decoder panic. -/
theorem C15_rejects (before code after : Text) (n : Nat) (hc : Code code n) (h : 6 < code.length ∨ 2 ^ 38 ≤ n) :
    ∃ site, Aig.readDelta (before ++ code ++ after) before.length = .error (.panic site) := by
  refine (Aig.readDelta_noFuel _ _).ok_or_panic.resolve_left ?_
  · rintro ⟨⟨n', p⟩, hr⟩
    rw [readDelta_ok] at hr
    obtain ⟨code', rest, h1, ⟨h2, h3, h4⟩, _⟩ := hr
    have e : code ++ after = code' ++ rest := by simpa using h1
    obtain ⟨rfl, rfl, _⟩ := hc.unique h2 e
    omega

theorem C15_rejects_truncated (before code : Text) (hc : ∀ b ∈ code, 128 ≤ b.toNat) :
    ∃ site, Aig.readDelta (before ++ code) before.length = .error (.panic site) := by
  refine (Aig.readDelta_noFuel _ _).ok_or_panic.resolve_left ?_
  · rintro ⟨⟨n', p⟩, hr⟩
    rw [readDelta_ok] at hr
    obtain ⟨code', rest, h1, ⟨h2, _, _⟩, _⟩ := hr
    have e : code = code' ++ rest := by simpa using h1
    have hall : ∀ b ∈ code', 128 ≤ b.toNat := fun b hb => hc b (by rw [e]; simp [hb])
    suffices H : ∀ bs m, Code bs m → (∀ b ∈ bs, 128 ≤ b.toNat) → False from H _ _ h2 hall
    intro bs m hcode
    induction hcode with
    | @last b hb => intro hall; have := hall b (by simp); omega
    | more _ _ ih => intro hall; exact ih (fun b hb => hall b (List.mem_cons_of_mem _ hb))

/-- Encodings of various lengths (1, 2 and 6 bytes) in the middle of a buffer. -/
example : Aig.readDelta ([7, 7] ++ encodeDelta 300 ++ [9]) 2 = .ok (300, 4) ∧ encodeDelta 300 = [172, 2] ∧
    (encodeDelta 274877906943).length = 6 ∧ Aig.readDelta (encodeDelta 274877906943) 0 = .ok (274877906943, 6) := by decide +kernel
/-- A seven-byte code (of zero) is rejected, and so is a truncated code. -/
example : Code [128, 128, 128, 128, 128, 128, 0] 0 ∧ 6 < ([128, 128, 128, 128, 128, 128, 0] : Text).length :=
  ⟨.more (n := 0) (by decide) (.more (n := 0) (by decide) (.more (n := 0) (by decide) (.more (n := 0) (by decide)
    (.more (n := 0) (by decide) (.more (n := 0) (by decide) (.last (b := 0) (by decide))))))), by decide⟩
example : ∀ b ∈ ([130, 255] : Text), 128 ≤ b.toNat := by decide

/-! ## C16: lines -/

/-- C16: the lines contain no newline, and putting a newline after each gives the input back, up to one added final newline
(added exactly when the non-empty input does not end in one). -/
theorem C16_lines (t : Text) : (∀ l ∈ splitNl t, (10 : UInt8) ∉ l) ∧
    (if t = [] ∨ t.getLast? = some 10 then unlines (splitNl t) = t else unlines (splitNl t) = t ++ [10]) := by
  obtain ⟨h1, h2⟩ := splitNl_spec t
  refine ⟨h1, ?_⟩
  split
  · rename_i hc
    rcases h2 with h | ⟨_, h3, h4⟩
    · exact h.symm
    · rcases hc with h | h
      · exact absurd h h4
      · exact absurd h h3
  · rename_i hc
    rcases h2 with h | ⟨h, _, _⟩
    · exfalso
      apply hc
      cases hs : splitNl t with
      | nil => left; rw [h, hs]; rfl
      | cons l ls =>
        right
        rw [h, unlines_join _ (by rw [hs]; simp)]
        simp
    · exact h.symm

/-- C16 (inverse): newline-free lines are recovered exactly. -/
theorem C16_unlines (ls : List Text) (h : ∀ l ∈ ls, (10 : UInt8) ∉ l) : splitNl (unlines ls) = ls := splitNl_of_unlines h rfl

example : splitNl [97, 10, 10, 98] = [[97], [], [98]] := by decide
example : ∀ l ∈ ([[97], [], [98, 99]] : List Text), (10 : UInt8) ∉ l := by decide

/-! ## C17: what an accepted file guarantees -/

/-- C17: an accepted byte string is a binary AIGER file of a well-formed circuit, and the graph stores exactly that circuit. -/
theorem C17_accepted (dbg : Bool) (bytes : Text) (a : Aig) (h : Aig.fromBytes dbg bytes = .ok a) :
    ∃ c tail, c.WF ∧ File bytes c tail ∧ a.Represents c := by
  obtain ⟨c, tail, syms, comment, hw, hF, hfile, _, _, _, rfl⟩ := (fromBytes_ok _ _ _).1 h
  exact ⟨c, tail, hw, hfile, represents_finish hF _ _⟩

/-- C17: reading does not depend on the build profile, although the header sum is computed in wrapping arithmetic. -/
theorem C17_profile (bytes : Text) (a : Aig) : Aig.fromBytes true bytes = .ok a ↔ Aig.fromBytes false bytes = .ok a := by
  rw [fromBytes_ok, fromBytes_ok]

/-- C17 (rejection): the declared counts must add up. -/
theorem C17_header_sum (dbg : Bool) (header rest : Text) (m i l o n b k : Nat) (hh : Header m i l o n b k header)
    (hne : m ≠ i + l + n) : ∃ site, Aig.fromBytes dbg (header ++ 10 :: rest) = .error (.panic site) := by
  refine (Aig.fromBytes_noFuel _ _).ok_or_panic.resolve_left ?_
  · rintro ⟨a, hr⟩
    obtain ⟨c, tail, _, _, _, _, hfile, _⟩ := (fromBytes_ok _ _ _).1 hr
    obtain ⟨hd, A, B, C, D, ands, hb, h1, _⟩ := hfile
    have s1 := splitNl_line header rest hh.no_nl
    have s2 : splitNl (header ++ 10 :: rest) = hd :: splitNl (unlines (A ++ B ++ C ++ D) ++ (ands ++ tail)) := by
      rw [hb]
      have : unlines (hd :: (A ++ B ++ C ++ D)) ++ (ands ++ tail) = hd ++ chNl :: (unlines (A ++ B ++ C ++ D) ++ (ands ++ tail)) := by
        simp [unlines, chNl]
      rw [this]
      exact splitNl_line _ _ h1.no_nl
    have s1 : splitNl (header ++ 10 :: rest) = header :: splitNl rest := s1
    rw [s1] at s2
    have e := (List.cons.inj s2).1
    subst e
    obtain ⟨rfl, rfl, rfl, rfl⟩ := header_unique hh h1
    exact hne rfl

/-- The repository's two-bit counter. -/
def counterBytes : Text := [97,105,103,32,53,32,48,32,51,32,49,32,50,10,49,48,10,50,10,52,10,49,48,10,1,2,2,5]

/-- The circuit it describes. -/
def counter : Circuit := ⟨0, [(10, 0), (2, 0), (4, 0)], [(7, 5), (8, 3)], [10], [], []⟩

example : Aig.fromBytes true counterBytes = .ok (finish counter [] none) := by decide +kernel
/-- A header whose counts do not add up: `aig 2 0 0 0 1`. -/
example : Header 2 0 0 0 1 0 0 [97, 105, 103, 32, 50, 32, 48, 32, 48, 32, 48, 32, 49] ∧ 2 ≠ 0 + 0 + 1 :=
  ⟨⟨_, _, _, _, _, [], (by decide +kernel), numeral_numeral 2 (by decide), numeral_numeral 0 (by decide), numeral_numeral 0 (by decide),
    numeral_numeral 0 (by decide), numeral_numeral 1 (by decide), Or.inl ⟨rfl, rfl, rfl⟩⟩, by decide⟩

/-! ## C18: completeness of the reader -/

/-- C18 (canonical files): writing any well-formed circuit below the format's size limits and reading it back gives a graph
that stores that circuit. -/
theorem C18_encode (dbg : Bool) (c : Circuit) (hw : c.WF) (hm : c.maxVar < 2 ^ 37) (ho : c.outputs.length < 2 ^ 60)
    (hb : c.bad.length < 2 ^ 60) (hk : c.constraints.length < 2 ^ 60) :
    ∃ a, Aig.fromBytes dbg (encode c) = .ok a ∧ a.Represents c := by
  refine ⟨finish c [] none, (fromBytes_ok _ _ _).2 ⟨c, [], [], none, hw, fits_small c hm ho hb hk, ?_, ?_, by simp, by simp, rfl⟩,
    represents_finish (fits_small c hm ho hb hk) _ _⟩
  · have := file_encode c hw hm ho hb hk []
    rwa [List.append_nil] at this
  · exact ⟨[], pointwise_nil, Or.inl rfl⟩

/-- C18 (all files): any file of the circuit, with any numerals, symbol table and comment section, is accepted, and the
graph stores the circuit and the comment text (without its final newline and NUL bytes). -/
theorem C18_any_file (dbg : Bool) (bytes tail : Text) (c : Circuit) (syms : List Symbol) (comment : Option Text) (hw : c.WF)
    (hF : c.Fits) (hf : File bytes c tail) (ht : Tail tail syms comment) (hs : ∀ s ∈ syms, SymbolOK c s ∧ Utf8 s.name)
    (hc : ∀ t, comment = some t → Utf8 t) :
    ∃ a, Aig.fromBytes dbg bytes = .ok a ∧ a.Represents c ∧
      a.comments = match comment with
        | none => []
        | some t => (if t.getLast? = some 10 then t.dropLast else t).filter (fun b => b != 0) :=
  ⟨finish c syms comment, (fromBytes_ok _ _ _).2 ⟨c, tail, syms, comment, hw, hF, hf, ht, hs, hc, rfl⟩, represents_finish hF _ _,
    by cases comment <;> rfl⟩

/-- C18: a graph stores at most one circuit, so "stores that circuit" pins down the result. -/
theorem C18_unique (a : Aig) (c c' : Circuit) (h : a.Represents c) (h' : a.Represents c') : c = c' := h.unique h'

/-- C18: the reader decides exactly the declarative format: it accepts a byte string if and only if it is a file of some
well-formed circuit followed by a valid symbol and comment section. -/
theorem C18_accepts_iff (dbg : Bool) (bytes : Text) : (∃ a, Aig.fromBytes dbg bytes = .ok a) ↔
    ∃ c tail syms comment, c.WF ∧ c.Fits ∧ File bytes c tail ∧ Tail tail syms comment ∧
      (∀ s ∈ syms, SymbolOK c s ∧ Utf8 s.name) ∧ (∀ t, comment = some t → Utf8 t) := by
  constructor
  · rintro ⟨a, h⟩
    obtain ⟨c, tail, syms, comment, h1, h2, h3, h4, h5, h6, _⟩ := (fromBytes_ok _ _ _).1 h
    exact ⟨c, tail, syms, comment, h1, h2, h3, h4, h5, h6⟩
  · rintro ⟨c, tail, syms, comment, h1, h2, h3, h4, h5, h6⟩
    exact ⟨_, (fromBytes_ok _ _ _).2 ⟨c, tail, syms, comment, h1, h2, h3, h4, h5, h6, rfl⟩⟩

/-- C18: every other byte string makes the reader panic. -/
theorem C18_rejects (dbg : Bool) (bytes : Text)
    (h : ¬ ∃ c tail syms comment, c.WF ∧ c.Fits ∧ File bytes c tail ∧ Tail tail syms comment ∧
      (∀ s ∈ syms, SymbolOK c s ∧ Utf8 s.name) ∧ (∀ t, comment = some t → Utf8 t)) :
    ∃ site, Aig.fromBytes dbg bytes = .error (.panic site) :=
  (Aig.fromBytes_noFuel _ _).ok_or_panic.resolve_left fun he => h ((C18_accepts_iff dbg bytes).1 he)

/-- No byte string without a header line is a file: the empty one, for instance. -/
example : ¬ ∃ c tail syms comment, c.WF ∧ c.Fits ∧ File [] c tail ∧ Tail tail syms comment ∧
    (∀ s ∈ syms, SymbolOK c s ∧ Utf8 s.name) ∧ (∀ t, comment = some t → Utf8 t) := by
  rw [← C18_accepts_iff true]
  rintro ⟨a, h⟩
  cases h

/-- C18: the format is unambiguous: a byte string is a file of at most one circuit. -/
theorem C18_unambiguous (bytes tail tail' : Text) (c c' : Circuit) (syms syms' : List Symbol) (comment comment' : Option Text)
    (hw : c.WF) (hF : c.Fits) (hf : File bytes c tail) (ht : Tail tail syms comment)
    (hs : ∀ s ∈ syms, SymbolOK c s ∧ Utf8 s.name) (hc : ∀ t, comment = some t → Utf8 t)
    (hw' : c'.WF) (hF' : c'.Fits) (hf' : File bytes c' tail') (ht' : Tail tail' syms' comment')
    (hs' : ∀ s ∈ syms', SymbolOK c' s ∧ Utf8 s.name) (hc' : ∀ t, comment' = some t → Utf8 t) : c = c' := by
  have h1 := (fromBytes_ok true bytes _).2 ⟨c, tail, syms, comment, hw, hF, hf, ht, hs, hc, rfl⟩
  have h2 := (fromBytes_ok true bytes _).2 ⟨c', tail', syms', comment', hw', hF', hf', ht', hs', hc', rfl⟩
  rw [h1] at h2
  have e := Except.ok.inj h2
  have r1 := represents_finish hF syms comment
  rw [e] at r1
  exact r1.unique (represents_finish hF' syms' comment')

theorem counter_wf : counter.WF := Circuit.wf_of_wfb (by decide)

example := C17_accepted true counterBytes (finish counter [] none) (by decide +kernel)
example : ∃ a, Aig.fromBytes true (encode counter) = .ok a ∧ a.Represents counter :=
  C18_encode true counter counter_wf (by decide) (by decide) (by decide) (by decide)
/-- The hypotheses of C18_any_file and C18_unambiguous hold for the counter's file, and C18_unique for its graph. -/
example := C18_any_file true counterBytes [] counter [] none counter_wf (fits_small _ (by decide) (by decide) (by decide) (by decide))
  (by
    have := file_encode counter counter_wf (by decide) (by decide) (by decide) (by decide) []
    rwa [show encode counter ++ [] = counterBytes by decide +kernel] at this)
  ⟨[], pointwise_nil, Or.inl rfl⟩ (by simp) (by simp)
example : (finish counter [] none).Represents counter :=
  represents_finish (fits_small _ (by decide) (by decide) (by decide) (by decide)) _ _

/-- The counter is well formed and small, and its canonical file is the repository's file. -/
example : counter.WF ∧ counter.maxVar < 2 ^ 37 ∧ encode counter = counterBytes := ⟨counter_wf, by decide, by decide +kernel⟩
/-- A file with a symbol and a comment: `l1 x`, then `c` and a line. -/
example : Tail [108, 49, 32, 120, 10, 99, 10, 104, 105, 10] [⟨108, 1, [120]⟩] (some [99, 10, 104, 105, 10]) ∧
    SymbolOK counter ⟨108, 1, [120]⟩ :=
  ⟨⟨[[108, 49, 32, 120]], pointwise_cons.2 ⟨⟨numeral 1, numeral_numeral 1 (by decide), (by decide +kernel), by decide, by decide⟩, pointwise_nil⟩, rfl,
    Or.inr ⟨_, rfl⟩⟩, Or.inr (Or.inl ⟨rfl, by decide⟩)⟩
example : (Aig.fromBytes true (counterBytes ++ [108, 49, 32, 120, 10, 99, 10, 104, 105, 10])).map (·.comments) =
    .ok [99, 10, 104, 105] := by decide +kernel

end Verif.Props
