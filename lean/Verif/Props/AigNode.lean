import Verif.Model.Aig
import Verif.Proofs.Res

/-!
# Property C67: the cells of an `AIGNode`

Any sequence of setter calls on a new node: which sequences are accepted, and what the getters say afterwards.
-/

namespace Verif.Props

/-- One call of a setter. -/
inductive NodeCall where
  | input (v : Nat)
  | reset (v : Nat)
  | rhs0 (v : Nat)
  | rhs1 (v : Nat)
  | inputName (s : Text)
  | latchName (s : Text)
  | outputName (s : Text)
  | badName (s : Text)
  | constraintName (s : Text)
deriving DecidableEq

/-- The call, made on a node. -/
def NodeCall.make (n : AIGNode) : NodeCall → Res AIGNode
  | .input v => n.setInputOfLatch v
  | .reset v => n.setResetOfLatch v
  | .rhs0 v => n.setRhs0OfAnd v
  | .rhs1 v => n.setRhs1OfAnd v
  | .inputName s => n.setInputSymbol s
  | .latchName s => n.setLatchSymbol s
  | .outputName s => .ok (n.setOutputSymbol s)
  | .badName s => .ok (n.setBadSymbol s)
  | .constraintName s => .ok (n.setConstraintSymbol s)

/-- A new node after some calls. -/
def nodeAfter (lit : Nat) (ty : NodeType) (calls : List NodeCall) : Res AIGNode := do
  calls.foldlM NodeCall.make (← AIGNode.new lit ty)

/-- The calls that fit a node of this type and literal: AIGER resets are 0, 1 or the latch itself. -/
def NodeCall.Fits (lit : Nat) (ty : NodeType) : NodeCall → Prop
  | .input _ => ty = .latch
  | .reset v => ty = .latch ∧ (v = 0 ∨ v = 1 ∨ v = lit)
  | .rhs0 _ => ty = .and
  | .rhs1 _ => ty = .and
  | .inputName _ => ty = .input
  | .latchName _ => ty = .latch
  | .outputName _ => True
  | .badName _ => True
  | .constraintName _ => True

/-- What the last call of one kind has stored. -/
def lastOf {α : Type} (kind : NodeCall → Option α) (calls : List NodeCall) : Option α := (calls.filterMap kind).getLast?

/-- The cells of a node, as a function of the calls so far. -/
structure Cells (n : AIGNode) (lit : Nat) (ty : NodeType) (calls : List NodeCall) : Prop where
  lit : n.lit = lit
  ty : n.nodeType = ty
  input : n.latchInput = (lastOf (fun | .input v => some v | _ => none) calls).getD usizeMax
  reset : n.latchReset = (lastOf (fun | .reset v => some v | _ => none) calls).getD usizeMax
  rhs0 : n.andInput0 = (lastOf (fun | .rhs0 v => some v | _ => none) calls).getD usizeMax
  rhs1 : n.andInput1 = (lastOf (fun | .rhs1 v => some v | _ => none) calls).getD usizeMax
  inputName : n.inputSymbol = (lastOf (fun | .inputName v => some v | _ => none) calls).getD []
  latchName : n.latchSymbol = (lastOf (fun | .latchName v => some v | _ => none) calls).getD []
  outputName : n.outputSymbol = (lastOf (fun | .outputName v => some v | _ => none) calls).getD []
  badName : n.badSymbol = (lastOf (fun | .badName v => some v | _ => none) calls).getD []
  constraintName : n.constraintSymbol = (lastOf (fun | .constraintName v => some v | _ => none) calls).getD []

theorem lastOf_snoc_some {α : Type} (kind : NodeCall → Option α) (calls : List NodeCall) (c : NodeCall) (v : α) (h : kind c = some v) :
    lastOf kind (calls ++ [c]) = some v := by
  simp [lastOf, h]

theorem lastOf_snoc_none {α : Type} (kind : NodeCall → Option α) (calls : List NodeCall) (c : NodeCall) (h : kind c = none) :
    lastOf kind (calls ++ [c]) = lastOf kind calls := by
  simp [lastOf, h]

theorem NodeCall.make_ok {n : AIGNode} {lit : Nat} {ty : NodeType} {calls : List NodeCall} (h : Cells n lit ty calls) (c : NodeCall) :
    (c.Fits lit ty → ∃ n', c.make n = .ok n' ∧ Cells n' lit ty (calls ++ [c])) ∧
    (¬ c.Fits lit ty → ∃ site, c.make n = .error (.panic site)) := by
  have hty : ∀ t : NodeType, (n.nodeType == t) = decide (ty = t) := by
    intro t
    rw [h.ty]; cases ty <;> cases t <;> rfl
  cases c with
  | input v =>
    refine ⟨fun hf => ⟨{ n with latchInput := v }, ?_, ?_⟩, fun hf => ⟨"aig_node.rs:68", ?_⟩⟩
    · show (assertR _ (n.nodeType == .latch) >>= fun _ => pure _) = _
      rw [hty, decide_eq_true (p := ty = .latch) hf]; rfl
    · exact ⟨h.lit, h.ty, by rw [lastOf_snoc_some _ _ _ v rfl]; rfl, by rw [lastOf_snoc_none _ _ _ rfl]; exact h.reset,
        by rw [lastOf_snoc_none _ _ _ rfl]; exact h.rhs0, by rw [lastOf_snoc_none _ _ _ rfl]; exact h.rhs1,
        by rw [lastOf_snoc_none _ _ _ rfl]; exact h.inputName, by rw [lastOf_snoc_none _ _ _ rfl]; exact h.latchName, by rw [lastOf_snoc_none _ _ _ rfl]; exact h.outputName, by rw [lastOf_snoc_none _ _ _ rfl]; exact h.badName, by rw [lastOf_snoc_none _ _ _ rfl]; exact h.constraintName⟩
    · show (assertR _ (n.nodeType == .latch) >>= fun _ => pure _) = _
      rw [hty, decide_eq_false (p := ty = .latch) hf]; rfl
  | reset v =>
    refine ⟨fun hf => ⟨{ n with latchReset := v }, ?_, ?_⟩, fun hf => ?_⟩
    · show (assertR _ (n.nodeType == .latch) >>= fun _ => assertR _ (v == 0 || v == 1 || v == n.lit) >>= fun _ => pure _) = _
      rw [hty, decide_eq_true hf.1, show (v == 0 || v == 1 || v == n.lit) = true by rw [h.lit]; simpa [or_assoc] using hf.2]; rfl
    · exact ⟨h.lit, h.ty, by rw [lastOf_snoc_none _ _ _ rfl]; exact h.input, by rw [lastOf_snoc_some _ _ _ v rfl]; rfl,
        by rw [lastOf_snoc_none _ _ _ rfl]; exact h.rhs0, by rw [lastOf_snoc_none _ _ _ rfl]; exact h.rhs1,
        by rw [lastOf_snoc_none _ _ _ rfl]; exact h.inputName, by rw [lastOf_snoc_none _ _ _ rfl]; exact h.latchName, by rw [lastOf_snoc_none _ _ _ rfl]; exact h.outputName, by rw [lastOf_snoc_none _ _ _ rfl]; exact h.badName, by rw [lastOf_snoc_none _ _ _ rfl]; exact h.constraintName⟩
    · show ∃ site, (assertR _ (n.nodeType == .latch) >>= fun _ => assertR _ (v == 0 || v == 1 || v == n.lit) >>= fun _ => pure _) = _
      by_cases ht : ty = .latch
      · rw [hty, decide_eq_true ht, show (v == 0 || v == 1 || v == n.lit) = false by
          rw [h.lit]
          have : ¬ (v = 0 ∨ v = 1 ∨ v = lit) := fun e => hf ⟨ht, e⟩
          simpa [or_assoc, not_or, and_assoc] using this]
        exact ⟨_, rfl⟩
      · rw [hty, decide_eq_false ht]; exact ⟨_, rfl⟩
  | rhs0 v =>
    refine ⟨fun hf => ⟨{ n with andInput0 := v }, ?_, ?_⟩, fun hf => ⟨"aig_node.rs:79", ?_⟩⟩
    · show (assertR _ (n.nodeType == .and) >>= fun _ => pure _) = _
      rw [hty, decide_eq_true (p := ty = .and) hf]; rfl
    · exact ⟨h.lit, h.ty, by rw [lastOf_snoc_none _ _ _ rfl]; exact h.input, by rw [lastOf_snoc_none _ _ _ rfl]; exact h.reset,
        by rw [lastOf_snoc_some _ _ _ v rfl]; rfl, by rw [lastOf_snoc_none _ _ _ rfl]; exact h.rhs1,
        by rw [lastOf_snoc_none _ _ _ rfl]; exact h.inputName, by rw [lastOf_snoc_none _ _ _ rfl]; exact h.latchName, by rw [lastOf_snoc_none _ _ _ rfl]; exact h.outputName, by rw [lastOf_snoc_none _ _ _ rfl]; exact h.badName, by rw [lastOf_snoc_none _ _ _ rfl]; exact h.constraintName⟩
    · show (assertR _ (n.nodeType == .and) >>= fun _ => pure _) = _
      rw [hty, decide_eq_false (p := ty = .and) hf]; rfl
  | rhs1 v =>
    refine ⟨fun hf => ⟨{ n with andInput1 := v }, ?_, ?_⟩, fun hf => ⟨"aig_node.rs:84", ?_⟩⟩
    · show (assertR _ (n.nodeType == .and) >>= fun _ => pure _) = _
      rw [hty, decide_eq_true (p := ty = .and) hf]; rfl
    · exact ⟨h.lit, h.ty, by rw [lastOf_snoc_none _ _ _ rfl]; exact h.input, by rw [lastOf_snoc_none _ _ _ rfl]; exact h.reset,
        by rw [lastOf_snoc_none _ _ _ rfl]; exact h.rhs0, by rw [lastOf_snoc_some _ _ _ v rfl]; rfl,
        by rw [lastOf_snoc_none _ _ _ rfl]; exact h.inputName, by rw [lastOf_snoc_none _ _ _ rfl]; exact h.latchName, by rw [lastOf_snoc_none _ _ _ rfl]; exact h.outputName, by rw [lastOf_snoc_none _ _ _ rfl]; exact h.badName, by rw [lastOf_snoc_none _ _ _ rfl]; exact h.constraintName⟩
    · show (assertR _ (n.nodeType == .and) >>= fun _ => pure _) = _
      rw [hty, decide_eq_false (p := ty = .and) hf]; rfl
  | inputName v =>
    refine ⟨fun hf => ⟨{ n with inputSymbol := v }, ?_, ?_⟩, fun hf => ⟨"aig_node.rs:121", ?_⟩⟩
    · show (assertR _ (n.nodeType == .input) >>= fun _ => pure _) = _
      rw [hty, decide_eq_true (p := ty = .input) hf]; rfl
    · exact ⟨h.lit, h.ty, by rw [lastOf_snoc_none _ _ _ rfl]; exact h.input, by rw [lastOf_snoc_none _ _ _ rfl]; exact h.reset,
        by rw [lastOf_snoc_none _ _ _ rfl]; exact h.rhs0, by rw [lastOf_snoc_none _ _ _ rfl]; exact h.rhs1,
        by rw [lastOf_snoc_some _ _ _ v rfl]; rfl, by rw [lastOf_snoc_none _ _ _ rfl]; exact h.latchName, by rw [lastOf_snoc_none _ _ _ rfl]; exact h.outputName, by rw [lastOf_snoc_none _ _ _ rfl]; exact h.badName, by rw [lastOf_snoc_none _ _ _ rfl]; exact h.constraintName⟩
    · show (assertR _ (n.nodeType == .input) >>= fun _ => pure _) = _
      rw [hty, decide_eq_false (p := ty = .input) hf]; rfl
  | latchName v =>
    refine ⟨fun hf => ⟨{ n with latchSymbol := v }, ?_, ?_⟩, fun hf => ⟨"aig_node.rs:131", ?_⟩⟩
    · show (assertR _ (n.nodeType == .latch) >>= fun _ => pure _) = _
      rw [hty, decide_eq_true (p := ty = .latch) hf]; rfl
    · exact ⟨h.lit, h.ty, by rw [lastOf_snoc_none _ _ _ rfl]; exact h.input, by rw [lastOf_snoc_none _ _ _ rfl]; exact h.reset,
        by rw [lastOf_snoc_none _ _ _ rfl]; exact h.rhs0, by rw [lastOf_snoc_none _ _ _ rfl]; exact h.rhs1,
        by rw [lastOf_snoc_none _ _ _ rfl]; exact h.inputName, by rw [lastOf_snoc_some _ _ _ v rfl]; rfl, by rw [lastOf_snoc_none _ _ _ rfl]; exact h.outputName, by rw [lastOf_snoc_none _ _ _ rfl]; exact h.badName, by rw [lastOf_snoc_none _ _ _ rfl]; exact h.constraintName⟩
    · show (assertR _ (n.nodeType == .latch) >>= fun _ => pure _) = _
      rw [hty, decide_eq_false (p := ty = .latch) hf]; rfl
  | outputName v =>
    exact ⟨fun _ => ⟨n.setOutputSymbol v, rfl, h.lit, h.ty, by rw [lastOf_snoc_none _ _ _ rfl]; exact h.input, by rw [lastOf_snoc_none _ _ _ rfl]; exact h.reset, by rw [lastOf_snoc_none _ _ _ rfl]; exact h.rhs0, by rw [lastOf_snoc_none _ _ _ rfl]; exact h.rhs1, by rw [lastOf_snoc_none _ _ _ rfl]; exact h.inputName, by rw [lastOf_snoc_none _ _ _ rfl]; exact h.latchName, by rw [lastOf_snoc_some _ _ _ v rfl]; rfl, by rw [lastOf_snoc_none _ _ _ rfl]; exact h.badName, by rw [lastOf_snoc_none _ _ _ rfl]; exact h.constraintName⟩, fun hf => absurd trivial hf⟩
  | badName v =>
    exact ⟨fun _ => ⟨n.setBadSymbol v, rfl, h.lit, h.ty, by rw [lastOf_snoc_none _ _ _ rfl]; exact h.input, by rw [lastOf_snoc_none _ _ _ rfl]; exact h.reset, by rw [lastOf_snoc_none _ _ _ rfl]; exact h.rhs0, by rw [lastOf_snoc_none _ _ _ rfl]; exact h.rhs1, by rw [lastOf_snoc_none _ _ _ rfl]; exact h.inputName, by rw [lastOf_snoc_none _ _ _ rfl]; exact h.latchName, by rw [lastOf_snoc_none _ _ _ rfl]; exact h.outputName, by rw [lastOf_snoc_some _ _ _ v rfl]; rfl, by rw [lastOf_snoc_none _ _ _ rfl]; exact h.constraintName⟩, fun hf => absurd trivial hf⟩
  | constraintName v =>
    exact ⟨fun _ => ⟨n.setConstraintSymbol v, rfl, h.lit, h.ty, by rw [lastOf_snoc_none _ _ _ rfl]; exact h.input, by rw [lastOf_snoc_none _ _ _ rfl]; exact h.reset, by rw [lastOf_snoc_none _ _ _ rfl]; exact h.rhs0, by rw [lastOf_snoc_none _ _ _ rfl]; exact h.rhs1, by rw [lastOf_snoc_none _ _ _ rfl]; exact h.inputName, by rw [lastOf_snoc_none _ _ _ rfl]; exact h.latchName, by rw [lastOf_snoc_none _ _ _ rfl]; exact h.outputName, by rw [lastOf_snoc_none _ _ _ rfl]; exact h.badName, by rw [lastOf_snoc_some _ _ _ v rfl]; rfl⟩, fun hf => absurd trivial hf⟩

theorem makeAll (lit : Nat) (ty : NodeType) (calls before : List NodeCall) (n : AIGNode) (h : Cells n lit ty before) :
    ((∀ c ∈ calls, c.Fits lit ty) → ∃ n', calls.foldlM NodeCall.make n = .ok n' ∧ Cells n' lit ty (before ++ calls)) ∧
    ((¬ ∀ c ∈ calls, c.Fits lit ty) → ∃ site, calls.foldlM NodeCall.make n = .error (.panic site)) := by
  induction calls generalizing before n with
  | nil => exact ⟨fun _ => ⟨n, rfl, by rw [List.append_nil]; exact h⟩, fun hn => absurd (by simp) hn⟩
  | cons c calls ih =>
    rw [List.foldlM_cons]
    by_cases hc : c.Fits lit ty
    · obtain ⟨n', e, h'⟩ := (NodeCall.make_ok h c).1 hc
      obtain ⟨h1, h2⟩ := ih (before ++ [c]) n' h'
      rw [e, List.append_assoc] at *
      refine ⟨fun ha => h1 fun x hx => ha x (List.mem_cons_of_mem _ hx), fun ha => h2 fun hb => ha fun x hx => ?_⟩
      rcases List.mem_cons.1 hx with rfl | hx
      · exact hc
      · exact hb x hx
    · obtain ⟨site, e⟩ := (NodeCall.make_ok h c).2 hc
      rw [e]
      exact ⟨fun ha => absurd (ha c List.mem_cons_self) hc, fun _ => ⟨site, rfl⟩⟩

theorem nodeAfter_spec (lit : Nat) (ty : NodeType) (calls : List NodeCall) :
    ((lit % 2 = 0 ∧ ∀ c ∈ calls, c.Fits lit ty) → ∃ n, nodeAfter lit ty calls = .ok n ∧ Cells n lit ty calls) ∧
    ((¬ (lit % 2 = 0 ∧ ∀ c ∈ calls, c.Fits lit ty)) → ∃ site, nodeAfter lit ty calls = .error (.panic site)) := by
  by_cases hl : lit % 2 = 0
  · have e : nodeAfter lit ty calls = calls.foldlM NodeCall.make ⟨ty, lit, usizeMax, usizeMax, usizeMax, usizeMax, [], [], [], [], []⟩ := by
      unfold nodeAfter AIGNode.new
      rw [hl]; rfl
    obtain ⟨h1, h2⟩ := makeAll lit ty calls [] ⟨ty, lit, usizeMax, usizeMax, usizeMax, usizeMax, [], [], [], [], []⟩
      ⟨rfl, rfl, rfl, rfl, rfl, rfl, rfl, rfl, rfl, rfl, rfl⟩
    rw [e]
    exact ⟨fun h => h1 h.2, fun h => h2 fun hb => h ⟨hl, hb⟩⟩
  · refine ⟨fun h => absurd h.1 hl, fun _ => ⟨"aig_node.rs:49 Literal node should be even.", ?_⟩⟩
    unfold nodeAfter AIGNode.new
    rw [show (lit % 2 == 0) = false from beq_eq_false_iff_ne.2 hl]; rfl

/-- C67: a sequence of calls is accepted exactly if the literal is even and every call fits the node; otherwise there is a panic. -/
theorem C67_accepts (lit : Nat) (ty : NodeType) (calls : List NodeCall) :
    ((∃ n, nodeAfter lit ty calls = .ok n) ↔ lit % 2 = 0 ∧ ∀ c ∈ calls, c.Fits lit ty) ∧
    nodeAfter lit ty calls ≠ .error .fuel := by
  obtain ⟨h1, h2⟩ := nodeAfter_spec lit ty calls
  by_cases h : lit % 2 = 0 ∧ ∀ c ∈ calls, c.Fits lit ty
  · obtain ⟨n, e, _⟩ := h1 h
    exact ⟨⟨fun _ => h, fun _ => ⟨n, e⟩⟩, by rw [e]; exact fun e => by cases e⟩
  · obtain ⟨site, e⟩ := h2 h
    rw [e]
    exact ⟨⟨(fun ⟨n, e⟩ => by cases e), fun h' => absurd h' h⟩, (fun e => by cases e)⟩

/-- C67: after an accepted sequence each getter gives what the last call of its setter stored, and panics if there was none (or if the stored
number is the marker for that), or if the node is of another type. -/
theorem C67_getters (lit : Nat) (ty : NodeType) (calls : List NodeCall) (n : AIGNode) (h : nodeAfter lit ty calls = .ok n) :
    n.nodeType = ty ∧ n.lit = lit ∧
    (∀ v, n.getLatchInput = .ok v ↔ v ≠ usizeMax ∧ lastOf (fun | .input v => some v | _ => none) calls = some v) ∧
    (∀ v, n.getLatchReset = .ok v ↔ v ≠ usizeMax ∧ lastOf (fun | .reset v => some v | _ => none) calls = some v) ∧
    (∀ v, n.getAndRhs0 = .ok v ↔ v ≠ usizeMax ∧ lastOf (fun | .rhs0 v => some v | _ => none) calls = some v) ∧
    (∀ v, n.getAndRhs1 = .ok v ↔ v ≠ usizeMax ∧ lastOf (fun | .rhs1 v => some v | _ => none) calls = some v) ∧
    (∀ s, n.getInputSymbol = .ok s ↔ ty = .input ∧ (lastOf (fun | .inputName v => some v | _ => none) calls).getD [] = s) ∧
    (∀ s, n.getLatchSymbol = .ok s ↔ ty = .latch ∧ (lastOf (fun | .latchName v => some v | _ => none) calls).getD [] = s) ∧
    n.getOutputSymbol = (lastOf (fun | .outputName v => some v | _ => none) calls).getD [] ∧
    n.getBadSymbol = (lastOf (fun | .badName v => some v | _ => none) calls).getD [] ∧
    n.getConstraintSymbol = (lastOf (fun | .constraintName v => some v | _ => none) calls).getD [] := by
  obtain ⟨h1, h2⟩ := nodeAfter_spec lit ty calls
  by_cases hf : lit % 2 = 0 ∧ ∀ c ∈ calls, c.Fits lit ty
  · obtain ⟨n', e, hc⟩ := h1 hf
    rw [h] at e; cases e
    have num : ∀ (kind : NodeCall → Option Nat) (t : NodeType) (x : Nat) (s1 s2 : String), x = (lastOf kind calls).getD usizeMax →
        (∀ c ∈ calls, ∀ v, kind c = some v → ty = t) → ∀ v,
        ((do assertR s1 (n.nodeType == t); assertR s2 (x != usizeMax); return x : Res Nat) = .ok v ↔ v ≠ usizeMax ∧ lastOf kind calls = some v) := by
      intro kind t x s1 s2 hx hk v
      simp only [bind_ok, assertR_ok, pure_ok, bne_iff_ne, beq_iff_eq, hc.ty]
      constructor
      · rintro ⟨_, ht, _, hne, rfl⟩
        refine ⟨hne, ?_⟩
        cases hl : lastOf kind calls with
        | none => rw [hl] at hx; exact absurd hx hne
        | some w => rw [hl] at hx; rw [hx]; rfl
      · rintro ⟨hne, hl⟩
        rw [hl] at hx
        have hm : v ∈ calls.filterMap kind := List.mem_of_getLast? hl
        obtain ⟨c, hcm, hcv⟩ := List.mem_filterMap.1 hm
        have hx : x = v := hx
        rw [hx]
        exact ⟨(), hk c hcm v hcv, (), hne, rfl⟩
    have fit := hf.2
    refine ⟨hc.ty, hc.lit, num _ .latch _ _ _ hc.input ?_, num _ .latch _ _ _ hc.reset ?_, num _ .and _ _ _ hc.rhs0 ?_,
      num _ .and _ _ _ hc.rhs1 ?_, fun s => ?_, fun s => ?_, hc.outputName, hc.badName, hc.constraintName⟩
    · intro c hcm v hv
      have := fit c hcm
      cases c <;> first | exact this | cases hv
    · intro c hcm v hv
      have := fit c hcm
      cases c <;> first | exact this.1 | cases hv
    · intro c hcm v hv
      have := fit c hcm
      cases c <;> first | exact this | cases hv
    · intro c hcm v hv
      have := fit c hcm
      cases c <;> first | exact this | cases hv
    · unfold AIGNode.getInputSymbol
      simp only [bind_ok, assertR_ok, pure_ok, beq_iff_eq, hc.ty, hc.inputName]
      exact ⟨fun ⟨_, h1, h2⟩ => ⟨h1, h2⟩, fun ⟨h1, h2⟩ => ⟨(), h1, h2⟩⟩
    · unfold AIGNode.getLatchSymbol
      simp only [bind_ok, assertR_ok, pure_ok, beq_iff_eq, hc.ty, hc.latchName]
      exact ⟨fun ⟨_, h1, h2⟩ => ⟨h1, h2⟩, fun ⟨h1, h2⟩ => ⟨(), h1, h2⟩⟩
  · obtain ⟨site, e⟩ := h2 hf
    rw [h] at e; cases e

/-- A latch whose next state is given twice, and which starts at 1. -/
example : ∃ n, nodeAfter 4 .latch [.input 7, .reset 1, .input 9, .latchName [97], .badName [98]] = .ok n ∧ n.getLatchInput = .ok 9 ∧ n.getLatchReset = .ok 1 ∧
    n.getLatchSymbol = .ok [97] ∧ n.getBadSymbol = [98] ∧ n.getOutputSymbol = [] := ⟨_, rfl, rfl, rfl, rfl, rfl, rfl⟩

/-- A reset value that is another literal is rejected. -/
example : nodeAfter 4 .latch [.input 7, .reset 6] = .error (.panic "aig_node.rs:74") := rfl

end Verif.Props
