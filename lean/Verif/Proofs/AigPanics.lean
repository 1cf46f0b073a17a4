import Verif.Model.AigParse

/-! # The AIGER reader returns or panics: none of its loops needs the model's fuel -/

namespace Verif

/-- The computation returns or panics. -/
def NoFuel {α : Type} (m : Res α) : Prop := m ≠ .error .fuel

namespace NoFuel

variable {α β : Type}

theorem ok (a : α) : NoFuel (.ok a : Res α) := by intro e; cases e
theorem pure (a : α) : NoFuel (pure a : Res α) := by intro e; cases e
theorem panic (s : String) : NoFuel (panicR s : Res α) := by intro e; cases e

theorem bind {m : Res α} {k : α → Res β} (hm : NoFuel m) (hk : ∀ a, NoFuel (k a)) : NoFuel (m >>= k) := by
  cases m with
  | ok a => exact hk a
  | error e => cases e with
    | panic s => intro e; cases e
    | fuel => exact absurd rfl hm

theorem ite {p : Prop} [Decidable p] {m k : Res α} (hm : NoFuel m) (hk : NoFuel k) : NoFuel (if p then m else k) := by
  split <;> assumption

theorem unwrap (s : String) (o : Option α) : NoFuel (unwrapR s o) := by
  cases o
  · exact panic s
  · exact ok _

theorem assert (s : String) (b : Bool) : NoFuel (assertR s b) := by
  cases b
  · exact panic s
  · exact ok _

theorem index (s : String) (l : List α) (i : Nat) : NoFuel (indexR s l i) := unwrap s _

theorem foldlM {f : β → α → Res β} (h : ∀ b a, NoFuel (f b a)) : ∀ (l : List α) (b : β), NoFuel (l.foldlM f b)
  | [], b => pure b
  | a :: l, b => bind (h b a) (foldlM h l)

theorem forM {f : α → Res Unit} (h : ∀ a, NoFuel (f a)) : ∀ l : List α, NoFuel (l.forM f)
  | [] => pure ()
  | a :: l => bind (h a) fun _ => forM h l

theorem ok_or_panic {m : Res α} (h : NoFuel m) : (∃ a, m = .ok a) ∨ ∃ site, m = .error (.panic site) := by
  cases m with
  | ok a => exact .inl ⟨a, rfl⟩
  | error e => cases e with
    | panic s => exact .inr ⟨s, rfl⟩
    | fuel => exact absurd rfl h

end NoFuel

open NoFuel

namespace Aig

theorem fromUtf8_noFuel (s : String) (t : Text) : NoFuel (fromUtf8 s t) := bind (assert _ _) fun _ => .pure _
theorem convert_noFuel (t : Text) : NoFuel (convertStringToNumber t) := unwrap _ _
theorem usizeAdd_noFuel (dbg : Bool) (s : String) (a b : Nat) : NoFuel (usizeAdd dbg s a b) := ite (.ok _) (ite (.panic _) (.ok _))
theorem newNode_noFuel (lit : Nat) (ty : NodeType) : NoFuel (AIGNode.new lit ty) := bind (assert _ _) fun _ => .pure _

theorem loadFirstLine_noFuel (dbg : Bool) (lines : List Text) (a : Aig) : NoFuel (loadFirstLine dbg lines a) := by
  unfold loadFirstLine
  repeat (first
    | exact bind (index _ _ _) fun _ => fromUtf8_noFuel _ _
    | refine bind (index _ _ _) fun _ => ?_ | refine bind (fromUtf8_noFuel _ _) fun _ => ?_ | refine bind (assert _ _) fun _ => ?_
    | refine bind (convert_noFuel _) fun _ => ?_ | refine bind (usizeAdd_noFuel _ _ _ _) fun _ => ?_ | exact .pure _)

theorem allocateVectors_noFuel (dbg : Bool) (a : Aig) : NoFuel (allocateVectors dbg a) := by
  unfold allocateVectors withCapacity
  repeat (first
    | refine bind (assert _ _) fun _ => ?_ | refine bind (newNode_noFuel _ _) fun _ => ?_
    | refine bind (usizeAdd_noFuel _ _ _ _) fun _ => ?_ | exact .pure _)

theorem latchStep_noFuel (lines : List Text) (a : Aig) (i : Nat) : NoFuel (latchStep lines a i) := by
  unfold latchStep checkLiteral AIGNode.setInputOfLatch AIGNode.setResetOfLatch
  repeat (first
    | refine bind (index _ _ _) fun _ => ?_ | refine bind (fromUtf8_noFuel _ _) fun _ => ?_ | refine bind (assert _ _) fun _ => ?_
    | refine bind (newNode_noFuel _ _) fun _ => ?_
    | refine bind (convert_noFuel _) fun _ => ?_ | refine bind (bind (assert _ _) fun _ => .pure _) fun _ => ?_
    | refine bind (bind (assert _ _) fun _ => bind (assert _ _) fun _ => .pure _) fun _ => ?_
    | refine ite ?_ ?_ | exact .pure _)

theorem literalLine_noFuel (lines : List Text) (a : Aig) (i : Nat) : NoFuel (readLiteralLine lines a i) := by
  unfold readLiteralLine checkLiteral
  exact bind (index _ _ _) fun _ => bind (fromUtf8_noFuel _ _) fun _ => bind (convert_noFuel _) fun _ => bind (assert _ _) fun _ => .pure _

theorem skipLines_noFuel : ∀ (t : Text) (k i : Nat), NoFuel (skipLines t k i)
  | _, 0, _ => by unfold skipLines; exact .ok _
  | [], _ + 1, _ => by unfold skipLines; exact .panic _
  | b :: bs, k + 1, i => by
    unfold skipLines
    exact ite (skipLines_noFuel bs k _) (skipLines_noFuel bs (k + 1) _)

theorem readDeltaLoop_noFuel : ∀ (t : Text) (i d r : Nat), NoFuel (readDeltaLoop t i d r)
  | [], _, _, _ => .panic _
  | ch :: t, i, d, r => by
    unfold readDeltaLoop
    exact ite (bind (assert _ _) fun _ => readDeltaLoop_noFuel t _ _ _) (bind (assert _ _) fun _ => .pure _)

theorem readDelta_noFuel (t : Text) (i : Nat) : NoFuel (readDelta t i) := readDeltaLoop_noFuel _ _ _ _

theorem andStep_noFuel (bytes : Text) (st : Aig × Nat × Nat) : NoFuel (andStep bytes st) := by
  unfold andStep AIGNode.setRhs0OfAnd AIGNode.setRhs1OfAnd
  repeat (first
    | refine bind (readDelta_noFuel _ _) fun _ => ?_ | refine bind (assert _ _) fun _ => ?_ | refine bind (newNode_noFuel _ _) fun _ => ?_
    | refine bind (bind (assert _ _) fun _ => .pure _) fun _ => ?_ | exact .pure _)

theorem updateNode_noFuel (a : Aig) (i : Nat) {f : AIGNode → Res AIGNode} (h : ∀ n, NoFuel (f n)) : NoFuel (a.updateNode i f) :=
  bind (index _ _ _) fun n => bind (h n) fun _ => .pure _

theorem addSymbol_noFuel (a : Aig) (ty : UInt8) (n : Nat) (s : Text) : NoFuel (a.addSymbolToNode ty n s) := by
  unfold addSymbolToNode AIGNode.setInputSymbol AIGNode.setLatchSymbol
  refine ite (bind (index _ _ _) fun _ => updateNode_noFuel _ _ fun _ => bind (assert _ _) fun _ => .pure _) ?_
  refine ite (bind (index _ _ _) fun _ => updateNode_noFuel _ _ fun _ => bind (assert _ _) fun _ => .pure _) ?_
  refine ite (bind (index _ _ _) fun _ => updateNode_noFuel _ _ fun _ => .ok _) ?_
  refine ite (bind (index _ _ _) fun _ => updateNode_noFuel _ _ fun _ => .ok _) ?_
  exact ite (bind (index _ _ _) fun _ => updateNode_noFuel _ _ fun _ => .ok _) (.panic _)

theorem symbolLine_noFuel (a : Aig) (line : Text) : NoFuel (a.symbolLine line) := by
  unfold symbolLine
  repeat (first
    | refine bind (index _ _ _) fun _ => ?_ | refine bind (assert _ _) fun _ => ?_ | refine bind (convert_noFuel _) fun _ => ?_
    | exact addSymbol_noFuel _ _ _ _)

theorem symbolLoop_noFuel : ∀ (ls : List Text) (a : Aig), NoFuel (symbolLoop ls a)
  | [], a => .ok a
  | l :: ls, a => by
    unfold symbolLoop
    exact bind (fromUtf8_noFuel _ _) fun _ => ite (bind (fromUtf8_noFuel _ _) fun _ => .pure _)
      (bind (symbolLine_noFuel _ _) fun _ => symbolLoop_noFuel ls _)

theorem checkTypes_noFuel (a : Aig) (ty : NodeType) (is : List Nat) : NoFuel (a.checkTypes ty is) :=
  forM (fun _ => bind (index _ _ _) fun _ => assert _ _) is

theorem checkAig_noFuel (a : Aig) : NoFuel a.checkAig := by
  unfold checkAig
  repeat (first
    | refine bind (index _ _ _) fun _ => ?_ | refine bind (assert _ _) fun _ => ?_ | refine bind (checkTypes_noFuel _ _ _) fun _ => ?_
    | exact assert _ _)

/-- Reading any byte string ends with a graph or a panic. -/
theorem fromBytes_noFuel (dbg : Bool) (bytes : Text) : NoFuel (fromBytes dbg bytes) := by
  unfold fromBytes
  refine bind (loadFirstLine_noFuel _ _ _) fun _ => bind (allocateVectors_noFuel _ _) fun _ => ?_
  refine bind (foldlM (fun _ _ => bind (newNode_noFuel _ _) fun _ => .pure _) _ _) fun _ => ?_
  refine bind (foldlM (fun _ _ => latchStep_noFuel _ _ _) _ _) fun _ => ?_
  refine bind (foldlM (fun _ _ => bind (literalLine_noFuel _ _ _) fun _ => .pure _) _ _) fun _ => ?_
  refine bind (foldlM (fun _ _ => bind (literalLine_noFuel _ _ _) fun _ => .pure _) _ _) fun _ => ?_
  refine bind (foldlM (fun _ _ => bind (literalLine_noFuel _ _ _) fun _ => .pure _) _ _) fun _ => ?_
  refine bind (bind (skipLines_noFuel _ _ _) fun _ => bind (foldlM (fun st _ => andStep_noFuel _ st) _ _) fun _ => .pure _) fun _ => ?_
  exact bind (bind (assert _ _) fun _ => symbolLoop_noFuel _ _) fun _ => bind (checkAig_noFuel _) fun _ => .pure _

end Aig
end Verif
