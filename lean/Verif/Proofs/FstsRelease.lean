import Verif.Proofs.FstsSem

/-!
# `from_aig` in release builds

Without the debug assertions nothing fails on a well-formed circuit without constraints whose variables pass the check at construction.rs:219.
Constant bad literals become literals of variable 0, and the numbers of the next-state variables are reduced modulo 2³¹.
-/

namespace Verif

namespace Fsts

theorem new_release (n : Nat) : Literal.new false n = .ok ⟨2 * (n % 2147483648)⟩ := by
  have : Literal.new false n = .ok ⟨(n <<< 1) % u32Size⟩ := rfl
  rw [this, Nat.shiftLeft_eq]
  congr 2
  unfold u32Size; omega

theorem literalOfAig_release {l : Nat} (h : l / 2 < 2147483648) : literalOfAig false l = .ok ⟨l⟩ := by
  rcases Nat.lt_or_ge l 2 with h2 | h2
  · have : l = 0 ∨ l = 1 := by omega
    rcases this with rfl | rfl <;> rfl
  · exact literalOfAig_ok false h2 h

theorem transitionStep_release {max x nxt r : Nat} (hx : 1 ≤ x) (h : x < 2147483648) (hm : max < 2147483648) (hn : nxt / 2 < 2147483648)
    (f : CNF) (ws : List Nat) :
    transitionStep false max (f, ws) (2 * x, nxt, r) = .ok (f.addAll (latchClauses ((x + max) % 2147483648) nxt), ws ++ [nxt]) := by
  have hL : literalOfAig false (2 * x) = .ok ⟨2 * x⟩ := literalOfAig_ok false (by omega) (by omega)
  have e : (Literal.mk (2 * x)).number = x := by rw [literal_number_mk]; omega
  have e2 : (Literal.mk (2 * x)).isNegated = false := by rw [literal_isNegated_mk]; simp
  have e3 : debugAssertR false "construction.rs:101" (2 * x % 2 == 0) = .ok () := rfl
  have e4 : u32Add false "construction.rs:103 overflow" x max = .ok (x + max) := by
    unfold u32Add; rw [if_pos (by unfold u32Size; omega)]
  unfold transitionStep latchClauses
  simp only [hL, e, e2, e3, e4, new_release, bind, Except.bind, pure, Except.pure, Literal.negateIfTrue, Bool.false_eq_true, if_false]
  split
  · rfl
  · split
    · rfl
    · rw [literalOfAig_release hn]
      rfl

theorem createTransition_release {be : BuildEnv} (hb : be.OK) {a : Aig} {c : Circuit} (hr : a.Represents c) (hw : c.WF)
    (hm : c.maxVar < 2147483648) :
    ∃ f, createTransition false be a c.maxVar = .ok f ∧ f.WF ∧ ∀ d, d ∈ f.clauses ↔
      (∃ (i : Nat) (p : Nat × Nat), c.latches[i]? = some p ∧ d ∈ latchClauses ((c.latchVar i + c.maxVar) % 2147483648) p.1) ∨
      ConeClause c (c.latches.map Prod.fst) d := by
  have hl : ∀ l ∈ c.latches.map Prod.fst, c.LitOK l := by
    intro l hl
    obtain ⟨p, hp, rfl⟩ := List.mem_map.1 hl
    obtain ⟨i, hi⟩ := List.mem_iff_getElem?.1 hp
    exact hw.next_ok i p hi
  obtain ⟨g, hg, hgw, hgm⟩ := wireCnf_ok false hr hw hm hb.order1 hl
  have hfold : (c.latches.zipIdx.map (fun x => (2 * c.latchVar x.2, x.1.1, x.1.2))).foldlM (transitionStep false c.maxVar)
      (CNF.new, []) = .ok ((c.latches.zipIdx.foldl
        (fun f x => f.addAll (latchClauses ((c.latchVar x.2 + c.maxVar) % 2147483648) x.1.1)) CNF.new), c.latches.map Prod.fst) := by
    rw [foldlM_eq_foldl (F := fun (s : CNF × List Nat) (x : Nat × Nat × Nat) =>
      (s.1.addAll (latchClauses ((x.1 / 2 + c.maxVar) % 2147483648) x.2.1), s.2 ++ [x.2.1]))]
    · have : ∀ (z : List ((Nat × Nat) × Nat)) (f : CNF) (ws : List Nat), List.foldl (fun (s : CNF × List Nat) (x : Nat × Nat × Nat) =>
          (s.1.addAll (latchClauses ((x.1 / 2 + c.maxVar) % 2147483648) x.2.1), s.2 ++ [x.2.1])) (f, ws)
          (z.map fun x => (2 * c.latchVar x.2, x.1.1, x.1.2)) =
          (z.foldl (fun f x => f.addAll (latchClauses ((c.latchVar x.2 + c.maxVar) % 2147483648) x.1.1)) f, ws ++ z.map (fun x => x.1.1)) := by
        intro z
        induction z with
        | nil => simp
        | cons y ys ih =>
          intro f ws
          have e : 2 * c.latchVar y.2 / 2 = c.latchVar y.2 := by omega
          simp only [List.map_cons, List.foldl_cons, ih, e, List.append_assoc, List.singleton_append]
      rw [this]
      congr 2
      rw [List.nil_append]
      have e2 : (fun x : (Nat × Nat) × Nat => x.1.1) = Prod.fst ∘ Prod.fst := rfl
      rw [e2, ← List.map_map, List.zipIdx_map_fst]
    · rintro ⟨f, ws⟩ x hx
      obtain ⟨⟨p, i⟩, hy, rfl⟩ := List.mem_map.1 hx
      have hp : c.latches[i]? = some p := by
        have := List.mem_zipIdx_iff_getElem?.1 hy
        simpa using this
      have h2 := getElem?_lt hp
      have h4 : 1 ≤ c.latchVar i := by unfold Circuit.latchVar; omega
      have h3 : c.latchVar i ≤ c.maxVar := by unfold Circuit.latchVar Circuit.maxVar; omega
      have h5 := hw.next_ok i p hp
      unfold Circuit.LitOK at h5
      have e : 2 * c.latchVar i / 2 = c.latchVar i := by omega
      simp only [e]
      exact transitionStep_release h4 (by omega) hm (by omega) f ws
  refine ⟨(c.latches.zipIdx.foldl (fun f x => f.addAll (latchClauses ((c.latchVar x.2 + c.maxVar) % 2147483648) x.1.1)) CNF.new).append g,
    ?_, ?_, ?_⟩
  · unfold createTransition
    rw [getLatchInformation_eq hr hw]
    rw [ok_bind, hfold, ok_bind]
    show (wireCnf false be.gateOrder1 a (c.latches.map Prod.fst) >>= _) = _
    rw [hg]
    rfl
  · exact CNF.WF.append (CNF.WF.foldl_addAll _ _ CNF.WF.new (fun x _ d hd => latchClauses_sorted hd)) hgw
  · intro d
    rw [CNF.mem_append, hgm, CNF.mem_foldl_addAll]
    simp only [CNF.new, List.not_mem_nil, false_or]
    apply or_congr _ Iff.rfl
    constructor
    · rintro ⟨⟨p, i⟩, hx, hd⟩
      have := List.mem_zipIdx_iff_getElem?.1 hx
      exact ⟨i, p, by simpa using this, hd⟩
    · rintro ⟨i, p, hp, hd⟩
      exact ⟨(p, i), List.mem_zipIdx_iff_getElem?.2 (by simpa using hp), hd⟩

theorem createUnsafety_release (be : BuildEnv) {a : Aig} {c : Circuit} (hr : a.Represents c) (hw : c.WF)
    (hm : c.maxVar < 2147483648) (ob : Bool) :
    createUnsafety false be a ob = .ok (Clause.new ((badLits c ob).map Literal.mk)) := by
  unfold createUnsafety
  have e : a.getBadInformation ++ (if ob then a.getOutputInformation else []) = badLits c ob := by
    simp [Aig.getBadInformation, Aig.getOutputInformation, hr.bad, hr.outputs, badLits]
  rw [e]
  cases hB : badLits c ob with
  | nil => rfl
  | cons b bs =>
    rw [← hB]
    have : (!(badLits c ob).isEmpty) = true := by rw [hB]; rfl
    rw [if_pos this, mapM_eq_map (g := Literal.mk)]
    · rfl
    · intro x hx
      have := badLits_ok hw ob x hx
      unfold Circuit.LitOK at this
      exact literalOfAig_release (by omega)

/-- What a release build makes of a well-formed circuit: the laws of `Laws`, with next-state variables reduced modulo 2³¹. -/
structure ReleaseLaws (f : Fsts) (c : Circuit) (bads : List Nat) : Prop where
  maxLit : f.maxLiteral = c.maxVar
  inputs : f.inputLits = List.range' 1 c.numInputs
  states : f.stateLits = List.range' (1 + c.numInputs) c.latches.length
  initial : f.initialStates = Cube.new (c.latches.zipIdx.flatMap (fun x => resetLits (c.latchVar x.2) x.1.2))
  trans_mem : ∀ d, d ∈ f.transition.clauses ↔
    (∃ (i : Nat) (p : Nat × Nat), c.latches[i]? = some p ∧ d ∈ latchClauses ((c.latchVar i + c.maxVar) % 2147483648) p.1) ∨
    ConeClause c (c.latches.map Prod.fst) d
  safety_mem : ∀ d, d ∈ f.stateToSafety.clauses ↔ ConeClause c bads d
  unsafety : f.unsafety = Clause.new (bads.map Literal.mk)

theorem fromAig_release {be : BuildEnv} (hb : be.OK) {a : Aig} {c : Circuit} (hr : a.Represents c) (hw : c.WF)
    (hm : c.maxVar < 2147483647) (hc : c.constraints = []) (ob : Bool) :
    ∃ f, fromAig false be a ob = .ok f ∧ ReleaseLaws f c (badLits c ob) ∧ (Encodable c → Laws f c (badLits c ob)) := by
  have hm' : c.maxVar < 2147483648 := by omega
  obtain ⟨T, hT, hTw, hTm⟩ := createTransition_release hb hr hw hm'
  obtain ⟨S, hS, hSw, hSm⟩ := createStateToSafety_ok false hb hr hw hm' hc ob
  have hmax : a.getHighestVariableNumber = c.maxVar := hr.maximumVariableIndex
  let I := Cube.new (c.latches.zipIdx.flatMap (fun x => resetLits (c.latchVar x.2) x.1.2))
  let ss := List.range' (1 + c.numInputs) c.latches.length
  refine ⟨⟨I.iter.foldl setInsert [], I, T, S, Clause.new ((badLits c ob).map Literal.mk), c.maxVar, ss, List.range' 1 c.numInputs,
    (allVariableNumbers S).filter (fun v => ss.contains v), (allVariableNumbers T).filter (fun v => ss.contains v)⟩, ?_, ?_, ?_⟩
  · have h1 : decide (c.maxVar < (u32Size - 1) >>> 1) = true := by
      have e : (u32Size - 1) >>> 1 = 2147483647 := by decide
      rw [e]; exact decide_eq_true hm
    have h2 : a.getConstraintsInformation.isEmpty = true := by
      simp [Aig.getConstraintsInformation, hr.constraints, hc]
    unfold fromAig
    simp only [hmax, createInputAndState_ok false hr hw hm', createInitial_ok false hr hw hm', createUnsafety_release be hr hw hm' ob,
      hT, hS, h1, h2, assertR, if_true, bind, Except.bind, pure, Except.pure]
    rfl
  · exact { maxLit := rfl, inputs := rfl, states := rfl, initial := rfl, trans_mem := hTm, safety_mem := hSm, unsafety := rfl }
  · intro hE
    have key : ∀ i, i < c.latches.length → (c.latchVar i + c.maxVar) % 2147483648 = c.latchVar i + c.maxVar := fun i hi =>
      Nat.mod_eq_of_lt (hE.latch_lt i hi)
    exact {
      maxLit := rfl, inputs := rfl, states := rfl, initial := rfl
      initialLits := by intro l; simp only [mem_foldl_setInsert, List.not_mem_nil, false_or]; rfl
      trans_wf := hTw
      trans_mem := by
        intro d
        rw [hTm]
        apply or_congr _ Iff.rfl
        constructor
        · rintro ⟨i, p, hp, hd⟩; rw [key i (getElem?_lt hp)] at hd; exact ⟨i, p, hp, hd⟩
        · rintro ⟨i, p, hp, hd⟩; exact ⟨i, p, hp, by rw [key i (getElem?_lt hp)]; exact hd⟩
      safety_wf := hSw, safety_mem := hSm, unsafety := rfl
      coneSafety := fun n => mem_filter_cone, coneTransition := fun n => mem_filter_cone }

theorem ReleaseLaws.transition_holds {f : Fsts} {c : Circuit} {bads : List Nat} (h : ReleaseLaws f c bads) {v : Val} :
    f.transition.holds v ↔
      (∀ (i : Nat) (p : Nat × Nat), c.latches[i]? = some p → v ((c.latchVar i + c.maxVar) % 2147483648) = litVal (grounded v) p.1) ∧
      ConeOK c (c.latches.map Prod.fst) v := by
  constructor
  · intro H
    refine ⟨fun i p hp => latchClauses_holds.1 fun d hd => H d ((h.trans_mem d).2 (.inl ⟨i, p, hp, hd⟩)), fun i p hp hc => ?_⟩
    exact gateClauses_holds.1 fun d hd => H d ((h.trans_mem d).2 (.inr ⟨i, p, hp, hc, hd⟩))
  · rintro ⟨H1, H2⟩ d hd
    rcases (h.trans_mem d).1 hd with ⟨i, p, hp, hd⟩ | ⟨i, p, hp, hc, hd⟩
    · exact latchClauses_holds.2 (H1 i p hp) d hd
    · exact gateClauses_holds.2 (H2 i p hp hc) d hd

end Fsts

end Verif
