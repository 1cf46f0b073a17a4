import Verif.Proofs.AigGet
import Verif.Model.AigSim
import Verif.Model.Fsts

/-!
# Everything but names and comments

`strip` forgets the symbols and comments of a graph, and the fields of a node that mean nothing for its type.  Getters, simulation and
`from_aig` do not see the difference, and two graphs that store the same circuit are equal after it.
-/

namespace Verif

/-- A node without its symbols and the fields of other node types. -/
def AIGNode.strip (n : AIGNode) : AIGNode where
  nodeType := n.nodeType
  lit := n.lit
  latchInput := if n.nodeType = .latch then n.latchInput else 0
  latchReset := if n.nodeType = .latch then n.latchReset else 0
  andInput0 := if n.nodeType = .and then n.andInput0 else 0
  andInput1 := if n.nodeType = .and then n.andInput1 else 0
  inputSymbol := []
  latchSymbol := []
  outputSymbol := []
  badSymbol := []
  constraintSymbol := []

def Aig.strip (a : Aig) : Aig := { a with nodes := a.nodes.map AIGNode.strip, comments := [] }

theorem AIGNode.strip_latchInput (n : AIGNode) : n.strip.getLatchInput = n.getLatchInput := by
  unfold getLatchInput strip
  cases n.nodeType <;> rfl

theorem AIGNode.strip_latchReset (n : AIGNode) : n.strip.getLatchReset = n.getLatchReset := by
  unfold getLatchReset strip
  cases n.nodeType <;> rfl

theorem AIGNode.strip_rhs0 (n : AIGNode) : n.strip.getAndRhs0 = n.getAndRhs0 := by
  unfold getAndRhs0 strip
  cases n.nodeType <;> rfl

theorem AIGNode.strip_rhs1 (n : AIGNode) : n.strip.getAndRhs1 = n.getAndRhs1 := by
  unfold getAndRhs1 strip
  cases n.nodeType <;> rfl

namespace Aig

theorem strip_index {α : Type} (site : String) (a : Aig) (i : Nat) (k : AIGNode → Res α) (hk : ∀ n, k n.strip = k n) :
    (indexR site a.strip.nodes i >>= k) = (indexR site a.nodes i >>= k) := by
  show (indexR site (a.nodes.map AIGNode.strip) i >>= k) = _
  unfold indexR unwrapR
  rw [List.getElem?_map]
  cases a.nodes[i]? with
  | none => rfl
  | some n => exact hk n

theorem strip_inputInformation (a : Aig) : a.strip.getInputInformation = a.getInputInformation := by
  unfold getInputInformation
  refine congrArg (fun k => a.inputs.mapM k) (funext fun i => ?_)
  exact strip_index _ a i (fun n => pure n.lit) (fun _ => rfl)

theorem strip_latchInformation (a : Aig) : a.strip.getLatchInformation = a.getLatchInformation := by
  unfold getLatchInformation
  refine congrArg (fun k => a.latches.mapM k) (funext fun i => ?_)
  refine strip_index _ a i (fun latch => do
    let latchInput ← latch.getLatchInput
    let latchReset ← latch.getLatchReset
    return (latch.lit, latchInput, latchReset)) (fun n => ?_)
  rw [n.strip_latchInput, n.strip_latchReset]
  rfl

theorem strip_coneLoop (a : Aig) (fuel : Nat) (todo : List Nat) (gates : List (Nat × Nat × Nat)) :
    a.strip.coneLoop fuel todo gates = a.coneLoop fuel todo gates := by
  induction fuel generalizing todo gates with
  | zero => cases todo <;> rfl
  | succ fuel ih =>
    cases todo with
    | nil => rfl
    | cons l todo =>
      rw [coneLoop, coneLoop]
      simp only [ih]
      refine strip_index _ a (l >>> 1) _ (fun n => ?_)
      rw [n.strip_rhs0, n.strip_rhs1]
      rfl

theorem strip_cone (order : List (Nat × Nat × Nat) → List (Nat × Nat × Nat)) (a : Aig) (lits : List Nat) :
    a.strip.getAndInformationInCone order lits = a.getAndInformationInCone order lits := by
  unfold getAndInformationInCone
  rw [strip_coneLoop]
  show (do return order (← a.coneLoop (lits.length + 2 * (a.nodes.map AIGNode.strip).length) lits [])) = _
  rw [List.length_map]

theorem strip_fromAig (dbg : Bool) (be : BuildEnv) (a : Aig) (ob : Bool) : Fsts.fromAig dbg be a.strip ob = Fsts.fromAig dbg be a ob := by
  unfold Fsts.fromAig Fsts.createInputAndState Fsts.createInitial Fsts.createTransition Fsts.createStateToSafety Fsts.wireCnf
  simp only [strip_inputInformation, strip_latchInformation, strip_cone]
  rfl

theorem strip_andResult (n : AIGNode) (row : List Bool) : getAndResult n.strip row = getAndResult n row := by
  unfold getAndResult
  rw [n.strip_rhs0, n.strip_rhs1]

theorem strip_initialNode (input latches : BoolMap) (result : List Bool) (n : AIGNode) (i : Nat) :
    initialNode input latches result (n.strip, i) = initialNode input latches result (n, i) := by
  unfold initialNode
  simp only [strip_andResult, n.strip_latchReset]
  rfl

theorem strip_nextNode (last : List Bool) (input : BoolMap) (result : List Bool) (n : AIGNode) :
    nextNode last input result n.strip = nextNode last input result n := by
  unfold nextNode
  simp only [strip_andResult, n.strip_latchInput]
  rfl

theorem foldlM_map {α β γ : Type} {f : γ → β → Res γ} {g : γ → α → Res γ} {h : α → β} (e : ∀ c a, f c (h a) = g c a) (l : List α) (c : γ) :
    (l.map h).foldlM f c = l.foldlM g c := by
  induction l generalizing c with
  | nil => rfl
  | cons a l ih =>
    rw [List.map_cons, List.foldlM_cons, List.foldlM_cons, e]
    exact congrArg _ (funext ih)

theorem strip_initialState (a : Aig) (input latches : BoolMap) :
    a.strip.getInitialSimulationState input latches = a.getInitialSimulationState input latches := by
  unfold getInitialSimulationState
  have e : a.strip.nodes.zipIdx = a.nodes.zipIdx.map (fun p => (p.1.strip, p.2)) := by
    show (a.nodes.map AIGNode.strip).zipIdx = _
    rw [List.zipIdx_map]
    rfl
  rw [e, foldlM_map (g := initialNode input latches) (fun r p => strip_initialNode input latches r p.1 p.2),
    show a.strip.nodes.length = a.nodes.length from List.length_map ..]

theorem strip_nextState (a : Aig) (last : List Bool) (input : BoolMap) :
    a.strip.getNextSimulationState last input = a.getNextSimulationState last input := by
  unfold getNextSimulationState
  rw [show a.strip.nodes = a.nodes.map AIGNode.strip from rfl, foldlM_map (fun r n => strip_nextNode last input r n), List.length_map]

theorem strip_simulate (a : Aig) (inputs : List BoolMap) (latches : BoolMap) : a.strip.simulate inputs latches = a.simulate inputs latches := by
  have h1 : a.strip.checkClock = a.checkClock := rfl
  have h2 : a.strip.checkLatch latches = a.checkLatch latches := by
    funext v
    unfold checkLatch
    refine strip_index _ a v _ (fun n => ?_)
    rw [n.strip_latchReset]
  have h3 : a.strip.simulateClock inputs latches = a.simulateClock inputs latches := by
    funext r p
    unfold simulateClock
    simp only [strip_initialState, strip_nextState]
  unfold simulate
  rw [h1, h2, h3]
  rfl

/-- Graphs of the same circuit differ only in names and comments. -/
theorem Represents.strip_eq {a a' : Aig} {c : Circuit} (h : a.Represents c) (h' : a'.Represents c) : a.strip = a'.strip := by
  have hn : a.nodes.map AIGNode.strip = a'.nodes.map AIGNode.strip := by
    refine List.ext_getElem? fun j => ?_
    rw [List.getElem?_map, List.getElem?_map]
    by_cases hj : j < a.nodes.length
    · have hj' : j < a'.nodes.length := by rw [h'.nodes_length, ← h.nodes_length]; exact hj
      have e := List.getElem?_eq_getElem hj
      have e' := List.getElem?_eq_getElem hj'
      rw [e, e']
      refine congrArg some ?_
      have l1 := h.lit j _ e
      have l2 := h'.lit j _ e'
      generalize a.nodes[j] = n at e l1
      generalize a'.nodes[j] = n' at e' l2
      unfold AIGNode.strip
      rw [l1, l2]
      rcases h.node_cases e with ⟨rfl, t⟩ | ⟨i, hi, rfl, t⟩ | ⟨i, p, hp, rfl, t, t1, t2⟩ | ⟨i, p, hp, rfl, t, t1, t2⟩
      · obtain ⟨m, hm, t'⟩ := h'.constNode
        rw [e'] at hm; cases hm
        rw [t, t']; rfl
      · obtain ⟨m, hm, t'⟩ := h'.inputNode i hi
        rw [e'] at hm; cases hm
        rw [t, t']; rfl
      · obtain ⟨m, hm, t', t1', t2'⟩ := h'.latchNode i p hp
        rw [e'] at hm; cases hm
        rw [t, t', t1, t1', t2, t2']; rfl
      · obtain ⟨m, hm, t', t1', t2'⟩ := h'.andNode i p hp
        rw [e'] at hm; cases hm
        rw [t, t', t1, t1', t2, t2']; rfl
    · rw [List.getElem?_eq_none (by omega), List.getElem?_eq_none (by rw [h'.nodes_length, ← h.nodes_length]; omega)]
  unfold Aig.strip
  rw [hn, h.maximumVariableIndex, h'.maximumVariableIndex, h.numberOfInputs, h'.numberOfInputs, h.numberOfLatches, h'.numberOfLatches,
    h.numberOfOutputs, h'.numberOfOutputs, h.numberOfAndGates, h'.numberOfAndGates, h.numberOfBad, h'.numberOfBad, h.numberOfConstraints,
    h'.numberOfConstraints, h.numberOfJustice, h'.numberOfJustice, h.numberOfFairness, h'.numberOfFairness, h.inputs, h'.inputs, h.latches,
    h'.latches, h.ands, h'.ands, h.outputs, h'.outputs, h.bad, h'.bad, h.constraints, h'.constraints]

end Aig

end Verif
