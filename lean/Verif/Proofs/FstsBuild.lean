import Verif.Spec.Build
import Verif.Proofs.AigGet
import Verif.Proofs.CircuitEval
import Verif.Proofs.FormulaLogic

/-! # What `from_aig` builds -/

namespace Verif

/-! ## Loops -/

theorem foldlM_eq_foldl {σ τ : Type} {step : σ → τ → Res σ} {F : σ → τ → σ} (l : List τ)
    (h : ∀ s, ∀ x ∈ l, step s x = .ok (F s x)) (s : σ) : l.foldlM step s = .ok (l.foldl F s) := by
  induction l generalizing s with
  | nil => rfl
  | cons x xs ih =>
    rw [List.foldlM_cons, h s x (by simp)]
    exact ih (fun s y hy => h s y (by simp [hy])) _

theorem foldlM_ok_step {σ τ : Type} {step : σ → τ → Res σ} {l : List τ} {s s' : σ} (h : l.foldlM step s = .ok s') :
    ∀ x ∈ l, ∃ s1 s2, step s1 x = .ok s2 := by
  induction l generalizing s with
  | nil => intro x hx; simp at hx
  | cons y ys ih =>
    rw [List.foldlM_cons, bind_ok] at h
    obtain ⟨s1, h1, h2⟩ := h
    intro x hx
    rcases List.mem_cons.1 hx with rfl | hx
    · exact ⟨s, s1, h1⟩
    · exact ih h2 x hx

theorem mapM_eq_map {α β : Type} {f : α → Res β} {g : α → β} (l : List α) (h : ∀ x ∈ l, f x = .ok (g x)) :
    l.mapM f = .ok (l.map g) := by
  rw [mapM_ok_iff]
  refine ⟨by simp, ?_⟩
  intro i a ha
  exact ⟨g a, by simp [ha], h a (List.mem_of_getElem? ha)⟩

theorem ok_bind {α β : Type} {a : α} {f : α → Res β} : ((Except.ok a : Res α) >>= f) = f a := rfl

/-! ## Adding several clauses -/

def CNF.addAll (f : CNF) (cs : List Clause) : CNF := cs.foldl CNF.addClause f

@[simp] theorem CNF.addAll_nil (f : CNF) : f.addAll [] = f := rfl
@[simp] theorem CNF.addAll_cons (f : CNF) (c : Clause) (cs : List Clause) : f.addAll (c :: cs) = (f.addClause c).addAll cs := rfl

theorem CNF.mem_addAll {f : CNF} {cs : List Clause} {d : Clause} : d ∈ (f.addAll cs).clauses ↔ d ∈ f.clauses ∨ d ∈ cs := by
  induction cs generalizing f with
  | nil => simp
  | cons c cs ih => simp [ih, or_assoc]

theorem CNF.WF.addAll {f : CNF} (h : f.WF) {cs : List Clause} (hc : ∀ c ∈ cs, c.Sorted) : (f.addAll cs).WF := by
  induction cs generalizing f with
  | nil => exact h
  | cons c cs ih => exact ih (h.addClause (hc c (by simp))) (fun d hd => hc d (by simp [hd]))

theorem CNF.mem_foldl_addAll {τ : Type} (cl : τ → List Clause) (l : List τ) (f : CNF) (d : Clause) :
    d ∈ (l.foldl (fun f x => f.addAll (cl x)) f).clauses ↔ d ∈ f.clauses ∨ ∃ x ∈ l, d ∈ cl x := by
  induction l generalizing f with
  | nil => simp
  | cons x xs ih => simp [ih, CNF.mem_addAll, or_assoc]

theorem CNF.WF.foldl_addAll {τ : Type} (cl : τ → List Clause) (l : List τ) {f : CNF} (h : f.WF)
    (hc : ∀ x ∈ l, ∀ c ∈ cl x, c.Sorted) : (l.foldl (fun f x => f.addAll (cl x)) f).WF := by
  induction l generalizing f with
  | nil => exact h
  | cons x xs ih => exact ih (h.addAll (hc x (by simp))) (fun y hy => hc y (by simp [hy]))

/-! ## Literals -/

theorem literal_number_mk (l : Nat) : (Literal.mk l).number = l / 2 := Literal.number_def _
theorem literal_isNegated_mk (l : Nat) : (Literal.mk l).isNegated = decide (l % 2 = 1) := Literal.isNegated_def _

theorem literal_holds_mk {v : Val} {l : Nat} : (Literal.mk l).holds v ↔ litVal v l = true := by
  unfold Literal.holds litVal
  rw [literal_number_mk, literal_isNegated_mk]
  cases v (l / 2) <;> cases decide (l % 2 = 1) <;> simp

theorem Fsts.literalOfAig_ok (dbg : Bool) {l : Nat} (h1 : 2 ≤ l) (h2 : l / 2 < 2147483648) :
    Fsts.literalOfAig dbg l = .ok ⟨l⟩ := by
  have e : l >>> 1 = l / 2 := by simp [Nat.shiftRight_succ]
  unfold Fsts.literalOfAig
  rw [e, if_pos (by unfold u32Size; omega), Literal.new_ok dbg (by omega) h2]
  show Except.ok _ = _
  congr 1
  apply Literal.ext'
  · rw [Literal.number_negateIfTrue, literal_number_mk, literal_number_mk]; omega
  · rw [Literal.isNegated_negateIfTrue, literal_isNegated_mk, literal_isNegated_mk]
    rcases Nat.mod_two_eq_zero_or_one l with h | h <;> simp [h]

theorem Fsts.literalOfAig_const_debug {l : Nat} (h : l < 2) : ∃ s, Fsts.literalOfAig true l = .error (.panic s) := by
  have e : l >>> 1 = 0 := by rw [Nat.shiftRight_succ]; simp; omega
  unfold Fsts.literalOfAig
  rw [e]
  exact ⟨_, rfl⟩

/-! ## Clauses of one gate and of one latch -/

namespace Fsts

/-- The clauses added for the gate with output variable `x` and inputs `a`, `b`. -/
def gateClauses (x a b : Nat) : List Clause :=
  if a == 0 || b == 0 then [Clause.new [(⟨2 * x⟩ : Literal).not]]
  else if a == 1 && b == 1 then [Clause.new [⟨2 * x⟩]]
  else if a == 1 then [Clause.new [(⟨b⟩ : Literal).not, ⟨2 * x⟩], Clause.new [⟨b⟩, (⟨2 * x⟩ : Literal).not]]
  else if b == 1 then [Clause.new [(⟨a⟩ : Literal).not, ⟨2 * x⟩], Clause.new [⟨a⟩, (⟨2 * x⟩ : Literal).not]]
  else [Clause.new [(⟨2 * x⟩ : Literal).not, ⟨a⟩], Clause.new [(⟨2 * x⟩ : Literal).not, ⟨b⟩],
    Clause.new [⟨2 * x⟩, (⟨a⟩ : Literal).not, (⟨b⟩ : Literal).not]]

/-- The clauses added for the latch with next-state variable `y` and input `a`. -/
def latchClauses (y a : Nat) : List Clause :=
  if a == 0 then [Clause.new [(⟨2 * y⟩ : Literal).not]]
  else if a == 1 then [Clause.new [⟨2 * y⟩]]
  else [Clause.new [(⟨2 * y⟩ : Literal).not, ⟨a⟩], Clause.new [⟨2 * y⟩, (⟨a⟩ : Literal).not]]

/-- Variable 0 read as the constant false. -/
def grounded (v : Val) : Val := fun x => if x = 0 then false else v x

theorem encodeGate_ok (dbg : Bool) (f : CNF) {x a b : Nat} (hx1 : 1 ≤ x) (hx : x < 2147483648) (ha : a / 2 < 2147483648)
    (hb : b / 2 < 2147483648) : encodeGate dbg f (2 * x, a, b) = .ok (f.addAll (gateClauses x a b)) := by
  have hX : literalOfAig dbg (2 * x) = .ok ⟨2 * x⟩ := literalOfAig_ok dbg (by omega) (by omega)
  have hn : (!(Literal.mk (2 * x)).isNegated) = true := by simp [literal_isNegated_mk]
  unfold encodeGate gateClauses
  simp only [hX, hn, assertR, if_true, bind, Except.bind, pure, Except.pure]
  split
  · rfl
  · rename_i h0
    simp only [Bool.or_eq_true, beq_iff_eq, not_or] at h0
    split
    · rfl
    · split
      · rename_i h1 h2
        simp only [Bool.and_eq_true, beq_iff_eq] at h1 h2
        rw [literalOfAig_ok dbg (by omega) hb]; rfl
      · split
        · rename_i h1 h2 h3
          simp only [beq_iff_eq] at h2 h3
          rw [literalOfAig_ok dbg (by omega) ha]; rfl
        · rename_i h1 h2 h3
          simp only [beq_iff_eq] at h2 h3
          rw [literalOfAig_ok dbg (by omega) hb, literalOfAig_ok dbg (by omega) ha]; rfl

theorem gateClauses_sorted {x a b : Nat} {c : Clause} (h : c ∈ gateClauses x a b) : c.Sorted := by
  unfold gateClauses at h
  repeat' split at h
  all_goals
    simp only [List.mem_cons, List.not_mem_nil, or_false] at h
    rcases h with rfl | rfl | rfl <;> exact Clause.sorted_new _

theorem latchClauses_sorted {y a : Nat} {c : Clause} (h : c ∈ latchClauses y a) : c.Sorted := by
  unfold latchClauses at h
  repeat' split at h
  all_goals
    simp only [List.mem_cons, List.not_mem_nil, or_false] at h
    rcases h with rfl | rfl <;> exact Clause.sorted_new _

/-- Literals in gate clauses are on the gate's output or on a non-constant input. -/
theorem gateClauses_number {x a b : Nat} {c : Clause} (h : c ∈ gateClauses x a b) {l : Literal} (hl : l ∈ c.lits) :
    l.number = x ∨ (2 ≤ a ∧ l.number = a / 2) ∨ (2 ≤ b ∧ l.number = b / 2) := by
  obtain ⟨n, hn⟩ : ∃ n, n = l.number := ⟨_, rfl⟩
  rw [← hn]
  unfold gateClauses at h
  repeat' split at h
  all_goals
    rename_i h0
    simp only [List.mem_cons, List.not_mem_nil, or_false] at h
    simp only [Bool.or_eq_true, Bool.and_eq_true, beq_iff_eq, not_or, not_and] at *
    rcases h with rfl | rfl | rfl <;>
    simp only [Clause.mem_new, List.mem_cons, List.not_mem_nil, or_false] at hl <;>
    rcases hl with rfl | rfl | rfl <;>
    simp only [Literal.number_not, literal_number_mk] at hn <;> omega

theorem latchClauses_number {y a : Nat} {c : Clause} (h : c ∈ latchClauses y a) {l : Literal} (hl : l ∈ c.lits) :
    l.number = y ∨ (2 ≤ a ∧ l.number = a / 2) := by
  obtain ⟨n, hn⟩ : ∃ n, n = l.number := ⟨_, rfl⟩
  rw [← hn]
  unfold latchClauses at h
  repeat' split at h
  all_goals
    rename_i h0
    simp only [List.mem_cons, List.not_mem_nil, or_false] at h
    simp only [beq_iff_eq] at *
    rcases h with rfl | rfl <;>
    simp only [Clause.mem_new, List.mem_cons, List.not_mem_nil, or_false] at hl <;>
    rcases hl with rfl | rfl <;>
    simp only [Literal.number_not, literal_number_mk] at hn <;> omega

theorem litVal_grounded {v : Val} {l : Nat} (h : 2 ≤ l) : litVal (grounded v) l = litVal v l := by
  unfold litVal grounded
  rw [if_neg (by omega)]

@[simp] theorem litVal_grounded_zero {v : Val} : litVal (grounded v) 0 = false := by simp [litVal, grounded]
@[simp] theorem litVal_grounded_one {v : Val} : litVal (grounded v) 1 = true := by simp [litVal, grounded]

theorem litVal_two {v : Val} {x : Nat} : litVal v (2 * x) = v x := by
  unfold litVal
  have e : 2 * x / 2 = x := by omega
  rw [e]; simp

theorem gateClauses_holds {v : Val} {x a b : Nat} :
    (∀ c ∈ gateClauses x a b, c.holds v) ↔ v x = (litVal (grounded v) a && litVal (grounded v) b) := by
  unfold gateClauses
  repeat' split
  all_goals
    rename_i h0
    simp only [Bool.or_eq_true, Bool.and_eq_true, beq_iff_eq, not_or, not_and] at *
    simp only [List.mem_cons, List.not_mem_nil, or_false, forall_eq_or_imp, forall_eq, Clause.holds_new, exists_eq_or_imp,
      exists_eq_left, Literal.holds_not, literal_holds_mk, litVal_two]
  · rcases h0 with rfl | rfl <;> simp
  · obtain ⟨rfl, rfl⟩ := h0; simp
  · subst h0
    rw [litVal_grounded (l := b) (by omega)]
    cases v x <;> cases litVal v b <;> simp
  · subst h0
    rw [litVal_grounded (l := a) (by omega)]
    cases v x <;> cases litVal v a <;> simp
  · rw [litVal_grounded (l := a) (by omega), litVal_grounded (l := b) (by omega)]
    cases v x <;> cases litVal v a <;> cases litVal v b <;> simp

theorem latchClauses_holds {v : Val} {y a : Nat} :
    (∀ c ∈ latchClauses y a, c.holds v) ↔ v y = litVal (grounded v) a := by
  unfold latchClauses
  repeat' split
  all_goals
    rename_i h0
    simp only [beq_iff_eq] at *
    simp only [List.mem_cons, List.not_mem_nil, or_false, forall_eq_or_imp, forall_eq, Clause.holds_new, exists_eq_or_imp,
      exists_eq_left, Literal.holds_not, literal_holds_mk, litVal_two]
  · subst h0; simp
  · subst h0; simp
  · rw [litVal_grounded (l := a) (by omega)]
    cases v y <;> cases litVal v a <;> simp

/-- A non-constant gate input occurs in the clauses unless the other input is the constant false. -/
theorem gateClauses_mentions {x a b : Nat} (ha : a ≠ 0) (hb : b ≠ 0) :
    (2 ≤ a → ∃ c ∈ gateClauses x a b, ∃ l ∈ c.lits, l.number = a / 2) ∧
    (2 ≤ b → ∃ c ∈ gateClauses x a b, ∃ l ∈ c.lits, l.number = b / 2) := by
  unfold gateClauses
  rw [if_neg (by simp [ha, hb])]
  repeat' split
  · rename_i h; simp only [Bool.and_eq_true, beq_iff_eq] at h; omega
  · rename_i h; simp only [beq_iff_eq] at h
    exact ⟨by omega, fun _ => ⟨_, List.mem_cons_of_mem _ List.mem_cons_self, ⟨b⟩, by rw [Clause.mem_new]; simp, literal_number_mk _⟩⟩
  · rename_i h; simp only [beq_iff_eq] at h
    exact ⟨fun _ => ⟨_, List.mem_cons_of_mem _ List.mem_cons_self, ⟨a⟩, by rw [Clause.mem_new]; simp, literal_number_mk _⟩, by omega⟩
  · exact ⟨fun _ => ⟨_, List.mem_cons_self, ⟨a⟩, by rw [Clause.mem_new]; simp, literal_number_mk _⟩,
      fun _ => ⟨_, List.mem_cons_of_mem _ List.mem_cons_self, ⟨b⟩, by rw [Clause.mem_new]; simp, literal_number_mk _⟩⟩

/-! ## The parts of `from_aig` -/

/-- A clause of the gates in the cone of `ls`. -/
def ConeClause (c : Circuit) (ls : List Nat) (d : Clause) : Prop :=
  ∃ (i : Nat) (p : Nat × Nat), c.ands[i]? = some p ∧ c.InCone ls i ∧ d ∈ gateClauses (c.andVar i) p.1 p.2

theorem wireCnf_ok (dbg : Bool) {a : Aig} {c : Circuit} (hr : a.Represents c) (hw : c.WF) (hm : c.maxVar < 2147483648)
    {order : List (Nat × Nat × Nat) → List (Nat × Nat × Nat)} (ho : ∀ l, (order l).Perm l) {ls : List Nat}
    (hl : ∀ l ∈ ls, c.LitOK l) :
    ∃ f, wireCnf dbg order a ls = .ok f ∧ f.WF ∧ ∀ d, d ∈ f.clauses ↔ ConeClause c ls d := by
  obtain ⟨gs, hg, _, hmem⟩ := cone_ok hr hw order ho ls hl
  refine ⟨gs.foldl (fun f (x : Nat × Nat × Nat) => f.addAll (gateClauses (x.1 / 2) x.2.1 x.2.2)) CNF.new, ?_, ?_, ?_⟩
  · unfold wireCnf
    rw [hg]
    refine foldlM_eq_foldl gs (fun s x hx => ?_) _
    obtain ⟨i, p, hp, _, rfl⟩ := (hmem x).1 hx
    have h1 := hw.and_ok i p hp
    have h2 := getElem?_lt hp
    have h3 : c.andVar i ≤ c.maxVar := by unfold Circuit.andVar Circuit.maxVar; omega
    have h4 : 1 ≤ c.andVar i := by unfold Circuit.andVar; omega
    have e : 2 * c.andVar i / 2 = c.andVar i := by omega
    simp only [e]
    exact encodeGate_ok dbg s h4 (by omega) (by omega) (by omega)
  · exact CNF.WF.foldl_addAll _ _ CNF.WF.new (fun x _ d hd => gateClauses_sorted hd)
  · intro d
    rw [CNF.mem_foldl_addAll]
    simp only [CNF.new, List.not_mem_nil, false_or]
    constructor
    · rintro ⟨x, hx, hd⟩
      obtain ⟨i, p, hp, hc, rfl⟩ := (hmem x).1 hx
      have e : 2 * c.andVar i / 2 = c.andVar i := by omega
      simp only [e] at hd
      exact ⟨i, p, hp, hc, hd⟩
    · rintro ⟨i, p, hp, hc, hd⟩
      have e : 2 * c.andVar i / 2 = c.andVar i := by omega
      exact ⟨_, (hmem _).2 ⟨i, p, hp, hc, rfl⟩, by simp only [e]; exact hd⟩

/-- The literal a reset value imposes on the latch with variable `x`. -/
def resetLits (x r : Nat) : List Literal := if r = 0 then [⟨2 * x + 1⟩] else if r = 1 then [⟨2 * x⟩] else []

theorem not_mk_even (x : Nat) : (⟨2 * x⟩ : Literal).not = ⟨2 * x + 1⟩ := by
  apply Literal.ext'
  · rw [Literal.number_not, literal_number_mk, literal_number_mk]; omega
  · rw [Literal.isNegated_not, literal_isNegated_mk, literal_isNegated_mk]; simp

theorem createInitial_ok (dbg : Bool) {a : Aig} {c : Circuit} (hr : a.Represents c) (hw : c.WF) (hm : c.maxVar < 2147483648) :
    createInitial dbg a = .ok (Cube.new (c.latches.zipIdx.flatMap (fun x => resetLits (c.latchVar x.2) x.1.2))) := by
  unfold createInitial
  rw [getLatchInformation_eq hr hw]
  rw [ok_bind, foldlM_eq_foldl (F := fun ls (x : Nat × Nat × Nat) => ls ++ resetLits (x.1 / 2) x.2.2)]
  · show Except.ok _ = _
    congr 2
    generalize hz : c.latches.zipIdx = z
    clear hz
    have : ∀ acc : List Literal, List.foldl (fun ls (x : Nat × Nat × Nat) => ls ++ resetLits (x.1 / 2) x.2.2) acc
        (z.map fun x => (2 * c.latchVar x.2, x.1.1, x.1.2)) = acc ++ z.flatMap (fun x => resetLits (c.latchVar x.2) x.1.2) := by
      induction z with
      | nil => simp
      | cons y ys ih =>
        intro acc
        have e : 2 * c.latchVar y.2 / 2 = c.latchVar y.2 := by omega
        simp only [List.map_cons, List.foldl_cons, List.flatMap_cons, ih, e, List.append_assoc]
    simpa using this []
  · intro s x hx
    obtain ⟨⟨p, i⟩, hy, rfl⟩ := List.mem_map.1 hx
    have hp : c.latches[i]? = some p := by
      have := List.mem_zipIdx_iff_getElem?.1 hy
      simpa using this
    have hres := hw.reset_ok i p hp
    have h2 := getElem?_lt hp
    have h3 : c.latchVar i ≤ c.maxVar := by unfold Circuit.latchVar Circuit.maxVar; omega
    have h4 : 1 ≤ c.latchVar i := by unfold Circuit.latchVar; omega
    have e : 2 * c.latchVar i / 2 = c.latchVar i := by omega
    unfold initialStep resetLits
    simp only [e, bne_iff_ne, ne_eq]
    have hL : literalOfAig dbg (2 * c.latchVar i) = .ok ⟨2 * c.latchVar i⟩ := literalOfAig_ok dbg (by omega) (by omega)
    rcases hres with h | h | h
    · rw [if_pos (by omega), hL, h]
      simp only [bind, Except.bind, pure, Except.pure, if_true, beq_self_eq_true, not_mk_even]
    · rw [if_pos (by omega), hL, h]
      simp [bind, Except.bind, pure, Except.pure]
    · rw [if_neg (by omega), if_neg (by omega), if_neg (by omega)]
      simp [pure, Except.pure]

theorem transitionStep_ok (dbg : Bool) {max x nxt r : Nat} (hx : 1 ≤ x) (h : x + max < 2147483648) (hn : nxt / 2 < 2147483648)
    (f : CNF) (ws : List Nat) :
    transitionStep dbg max (f, ws) (2 * x, nxt, r) = .ok (f.addAll (latchClauses (x + max) nxt), ws ++ [nxt]) := by
  have hL : literalOfAig dbg (2 * x) = .ok ⟨2 * x⟩ := literalOfAig_ok dbg (by omega) (by omega)
  have e : (Literal.mk (2 * x)).number = x := by rw [literal_number_mk]; omega
  have e2 : (Literal.mk (2 * x)).isNegated = false := by rw [literal_isNegated_mk]; simp
  have e3 : debugAssertR dbg "construction.rs:101" (2 * x % 2 == 0) = .ok () := by cases dbg <;> simp [debugAssertR, assertR]
  have e4 : u32Add dbg "construction.rs:103 overflow" x max = .ok (x + max) := by
    unfold u32Add; rw [if_pos (by unfold u32Size; omega)]
  unfold transitionStep latchClauses
  simp only [hL, e, e2, e3, e4, Literal.new_ok dbg (n := x + max) (by omega) h, bind, Except.bind, pure, Except.pure,
    Literal.negateIfTrue, Bool.false_eq_true, if_false]
  split
  · rfl
  · split
    · rfl
    · rename_i h0 h1
      simp only [beq_iff_eq] at h0 h1
      rw [literalOfAig_ok dbg (by omega) hn]
      rfl

theorem createTransition_ok (dbg : Bool) {be : BuildEnv} (hb : be.OK) {a : Aig} {c : Circuit} (hr : a.Represents c) (hw : c.WF)
    (hm : c.maxVar < 2147483648) (hfit : ∀ i, i < c.latches.length → c.latchVar i + c.maxVar < 2147483648) :
    ∃ f, createTransition dbg be a c.maxVar = .ok f ∧ f.WF ∧ ∀ d, d ∈ f.clauses ↔
      (∃ (i : Nat) (p : Nat × Nat), c.latches[i]? = some p ∧ d ∈ latchClauses (c.latchVar i + c.maxVar) p.1) ∨
      ConeClause c (c.latches.map Prod.fst) d := by
  have hl : ∀ l ∈ c.latches.map Prod.fst, c.LitOK l := by
    intro l hl
    obtain ⟨p, hp, rfl⟩ := List.mem_map.1 hl
    obtain ⟨i, hi⟩ := List.mem_iff_getElem?.1 hp
    exact hw.next_ok i p hi
  obtain ⟨g, hg, hgw, hgm⟩ := wireCnf_ok dbg hr hw hm hb.order1 hl
  have hfold : (c.latches.zipIdx.map (fun x => (2 * c.latchVar x.2, x.1.1, x.1.2))).foldlM (transitionStep dbg c.maxVar)
      (CNF.new, []) = .ok ((c.latches.zipIdx.foldl (fun f x => f.addAll (latchClauses (c.latchVar x.2 + c.maxVar) x.1.1)) CNF.new),
        c.latches.map Prod.fst) := by
    rw [foldlM_eq_foldl (F := fun (s : CNF × List Nat) (x : Nat × Nat × Nat) =>
      (s.1.addAll (latchClauses (x.1 / 2 + c.maxVar) x.2.1), s.2 ++ [x.2.1]))]
    · have : ∀ (z : List ((Nat × Nat) × Nat)) (f : CNF) (ws : List Nat), List.foldl (fun (s : CNF × List Nat) (x : Nat × Nat × Nat) =>
          (s.1.addAll (latchClauses (x.1 / 2 + c.maxVar) x.2.1), s.2 ++ [x.2.1])) (f, ws)
          (z.map fun x => (2 * c.latchVar x.2, x.1.1, x.1.2)) =
          (z.foldl (fun f x => f.addAll (latchClauses (c.latchVar x.2 + c.maxVar) x.1.1)) f, ws ++ z.map (fun x => x.1.1)) := by
        intro z
        induction z with
        | nil => simp
        | cons y ys ih =>
          intro f ws
          have e : 2 * c.latchVar y.2 / 2 = c.latchVar y.2 := by omega
          simp only [List.map_cons, List.foldl_cons, ih, e, List.append_assoc, List.singleton_append]
      rw [this]
      congr 2
      rw [List.nil_append]
      have e2 : (fun x : (Nat × Nat) × Nat => x.1.1) = Prod.fst ∘ Prod.fst := rfl
      rw [e2, ← List.map_map, List.zipIdx_map_fst]
    · rintro ⟨f, ws⟩ x hx
      obtain ⟨⟨p, i⟩, hy, rfl⟩ := List.mem_map.1 hx
      have hp : c.latches[i]? = some p := by
        have := List.mem_zipIdx_iff_getElem?.1 hy
        simpa using this
      have h2 := getElem?_lt hp
      have h4 : 1 ≤ c.latchVar i := by unfold Circuit.latchVar; omega
      have h5 := hw.next_ok i p hp
      unfold Circuit.LitOK at h5
      have e : 2 * c.latchVar i / 2 = c.latchVar i := by omega
      simp only [e]
      exact transitionStep_ok dbg h4 (hfit i h2) (by omega) f ws
  refine ⟨(c.latches.zipIdx.foldl (fun f x => f.addAll (latchClauses (c.latchVar x.2 + c.maxVar) x.1.1)) CNF.new).append g, ?_, ?_, ?_⟩
  · unfold createTransition
    rw [getLatchInformation_eq hr hw]
    rw [ok_bind, hfold, ok_bind]
    show (wireCnf dbg be.gateOrder1 a (c.latches.map Prod.fst) >>= _) = _
    rw [hg]
    rfl
  · exact CNF.WF.append (CNF.WF.foldl_addAll _ _ CNF.WF.new (fun x _ d hd => latchClauses_sorted hd)) hgw
  · intro d
    rw [CNF.mem_append, hgm, CNF.mem_foldl_addAll]
    simp only [CNF.new, List.not_mem_nil, false_or]
    apply or_congr _ Iff.rfl
    constructor
    · rintro ⟨⟨p, i⟩, hx, hd⟩
      have := List.mem_zipIdx_iff_getElem?.1 hx
      exact ⟨i, p, by simpa using this, hd⟩
    · rintro ⟨i, p, hp, hd⟩
      exact ⟨(p, i), List.mem_zipIdx_iff_getElem?.2 (by simpa using hp), hd⟩

theorem badLits_ok {c : Circuit} (hw : c.WF) (ob : Bool) : ∀ l ∈ badLits c ob, c.LitOK l := by
  intro l hl
  unfold badLits at hl
  cases ob with
  | false => simp at hl; exact hw.bad_ok l hl
  | true =>
    simp at hl
    rcases hl with hl | hl
    · exact hw.bad_ok l hl
    · exact hw.out_ok l hl

theorem createStateToSafety_ok (dbg : Bool) {be : BuildEnv} (hb : be.OK) {a : Aig} {c : Circuit} (hr : a.Represents c) (hw : c.WF)
    (hm : c.maxVar < 2147483648) (hc : c.constraints = []) (ob : Bool) :
    ∃ f, createStateToSafety dbg be a ob = .ok f ∧ f.WF ∧ ∀ d, d ∈ f.clauses ↔ ConeClause c (badLits c ob) d := by
  unfold createStateToSafety
  have e : a.getBadInformation ++ a.getConstraintsInformation ++ (if ob then a.getOutputInformation else []) = badLits c ob := by
    simp [Aig.getBadInformation, Aig.getConstraintsInformation, Aig.getOutputInformation, hr.bad, hr.constraints, hr.outputs, hc, badLits]
  rw [e]
  exact wireCnf_ok dbg hr hw hm hb.order2 (badLits_ok hw ob)

theorem createUnsafety_ok (dbg : Bool) {be : BuildEnv} (hb : be.OK) {a : Aig} {c : Circuit} (hr : a.Represents c) (hw : c.WF)
    (hm : c.maxVar < 2147483648) (ob : Bool) (hbad : ∀ l ∈ badLits c ob, 2 ≤ l) :
    createUnsafety dbg be a ob = .ok (Clause.new ((badLits c ob).map Literal.mk)) := by
  unfold createUnsafety
  have e : a.getBadInformation ++ (if ob then a.getOutputInformation else []) = badLits c ob := by
    simp [Aig.getBadInformation, Aig.getOutputInformation, hr.bad, hr.outputs, badLits]
  rw [e]
  cases hB : badLits c ob with
  | nil =>
    have hs : be.varisat (Clause.new []).toCnf = .ok .unsat := by
      obtain ⟨r, hr, h⟩ := hb.varisat (Clause.new []).toCnf (Clause.toCnf_wf (Clause.sorted_new _))
        (by intro d hd; simp [CNF.iter] at hd; subst hd; intro l hl; simp [Clause.iter] at hl)
      rw [hr]
      cases r with
      | unsat => rfl
      | sat m =>
        obtain ⟨v, hv, _⟩ := h
        rw [Clause.toCnf_holds, Clause.holds_new] at hv
        simp at hv
    simp only [hs, List.isEmpty_nil, Bool.not_true, Bool.false_eq_true, if_false]
    cases dbg <;> rfl
  | cons b bs =>
    rw [← hB]
    have : (!(badLits c ob).isEmpty) = true := by rw [hB]; rfl
    rw [if_pos this, mapM_eq_map (g := Literal.mk)]
    · rfl
    · intro x hx
      have := badLits_ok hw ob x hx
      unfold Circuit.LitOK at this
      exact literalOfAig_ok dbg (hbad x hx) (by omega)

theorem createInputAndState_ok (dbg : Bool) {a : Aig} {c : Circuit} (hr : a.Represents c) (hw : c.WF) (hm : c.maxVar < 2147483648) :
    createInputAndState dbg a = .ok (List.range' 1 c.numInputs, List.range' (1 + c.numInputs) c.latches.length) := by
  have hnum : ∀ site x, 1 ≤ x → x ≤ c.maxVar → literalNumber dbg site (2 * x) = .ok x := by
    intro site x h1 h2
    unfold literalNumber
    rw [literalOfAig_ok dbg (by omega) (by omega)]
    have e : (Literal.mk (2 * x)).number = x := by rw [literal_number_mk]; omega
    have e2 : (Literal.mk (2 * x)).isNegated = false := by rw [literal_isNegated_mk]; simp
    simp only [bind, Except.bind, e, e2, assertR, Bool.not_false, if_true, pure, Except.pure]
  unfold createInputAndState
  rw [getInputInformation_eq hr, getLatchInformation_eq hr hw]
  rw [ok_bind, mapM_eq_map (g := fun x => x / 2)]
  · rw [ok_bind, ok_bind, mapM_eq_map (g := fun x => x.1 / 2)]
    · show Except.ok _ = _
      congr 2
      · apply List.ext_getElem?
        intro i
        by_cases hi : i < c.numInputs
        · rw [List.getElem?_map, List.getElem?_map, List.getElem?_range hi, List.getElem?_range' hi]
          simp
        · rw [List.getElem?_eq_none (by simp; omega), List.getElem?_eq_none (by simp; omega)]
      · apply List.ext_getElem?
        intro i
        by_cases hi : i < c.latches.length
        · rw [List.getElem?_map, List.getElem?_map, List.getElem?_zipIdx, List.getElem?_range' hi]
          simp [List.getElem?_eq_getElem hi, Circuit.latchVar]
        · rw [List.getElem?_eq_none (by simp; omega), List.getElem?_eq_none (by simp; omega)]
    · intro x hx
      obtain ⟨⟨p, i⟩, hy, rfl⟩ := List.mem_map.1 hx
      have hp : c.latches[i]? = some p := by
        have := List.mem_zipIdx_iff_getElem?.1 hy
        simpa using this
      have h2 := getElem?_lt hp
      have e : 2 * c.latchVar i / 2 = c.latchVar i := by omega
      simp only [e]
      exact hnum _ _ (by unfold Circuit.latchVar; omega) (by unfold Circuit.latchVar Circuit.maxVar; omega)
  · intro x hx
    obtain ⟨i, hi, rfl⟩ := List.mem_map.1 hx
    rw [List.mem_range] at hi
    have e : 2 * (1 + i) / 2 = 1 + i := by omega
    rw [e]
    exact hnum _ _ (by omega) (by unfold Circuit.maxVar; omega)

/-! ## `from_aig` -/

/-- Everything the rest of the crate relies on in a transition system built from the circuit `c` with bad literals `bads`. -/
structure Laws (f : Fsts) (c : Circuit) (bads : List Nat) : Prop where
  maxLit : f.maxLiteral = c.maxVar
  inputs : f.inputLits = List.range' 1 c.numInputs
  states : f.stateLits = List.range' (1 + c.numInputs) c.latches.length
  initial : f.initialStates = Cube.new (c.latches.zipIdx.flatMap (fun x => resetLits (c.latchVar x.2) x.1.2))
  initialLits : ∀ l, l ∈ f.initialLiterals ↔ l ∈ f.initialStates.lits
  trans_wf : f.transition.WF
  trans_mem : ∀ d, d ∈ f.transition.clauses ↔
    (∃ (i : Nat) (p : Nat × Nat), c.latches[i]? = some p ∧ d ∈ latchClauses (c.latchVar i + c.maxVar) p.1) ∨
    ConeClause c (c.latches.map Prod.fst) d
  safety_wf : f.stateToSafety.WF
  safety_mem : ∀ d, d ∈ f.stateToSafety.clauses ↔ ConeClause c bads d
  unsafety : f.unsafety = Clause.new (bads.map Literal.mk)
  coneSafety : ∀ n, n ∈ f.coneSafety ↔ n ∈ f.stateLits ∧ ∃ d ∈ f.stateToSafety.clauses, ∃ l ∈ d.lits, l.number = n
  coneTransition : ∀ n, n ∈ f.coneTransition ↔ n ∈ f.stateLits ∧ ∃ d ∈ f.transition.clauses, ∃ l ∈ d.lits, l.number = n

theorem mem_filter_cone {f : CNF} {ss : List Nat} {n : Nat} :
    n ∈ (allVariableNumbers f).filter (fun v => ss.contains v) ↔ n ∈ ss ∧ ∃ d ∈ f.clauses, ∃ l ∈ d.lits, l.number = n := by
  rw [List.mem_filter]
  have : n ∈ allVariableNumbers f ↔ ∃ d ∈ f.clauses, ∃ l ∈ d.lits, l.number = n := by
    unfold allVariableNumbers
    rw [mem_allVariableNumbers_aux]
    simp [CNF.iter, Clause.iter]
  rw [this]
  simp [and_comm]

theorem fromAig_ok (dbg : Bool) {be : BuildEnv} (hb : be.OK) {a : Aig} {c : Circuit} (hr : a.Represents c) (hw : c.WF)
    (hE : Encodable c) (hc : c.constraints = []) (ob : Bool) (hbad : ∀ l ∈ badLits c ob, 2 ≤ l) :
    ∃ f, fromAig dbg be a ob = .ok f ∧ Laws f c (badLits c ob) := by
  have hm : c.maxVar < 2147483648 := by have := hE.max_lt; omega
  obtain ⟨T, hT, hTw, hTm⟩ := createTransition_ok dbg hb hr hw hm hE.latch_lt
  obtain ⟨S, hS, hSw, hSm⟩ := createStateToSafety_ok dbg hb hr hw hm hc ob
  have hmax : a.getHighestVariableNumber = c.maxVar := hr.maximumVariableIndex
  let I := Cube.new (c.latches.zipIdx.flatMap (fun x => resetLits (c.latchVar x.2) x.1.2))
  let ss := List.range' (1 + c.numInputs) c.latches.length
  refine ⟨⟨I.iter.foldl setInsert [], I, T, S, Clause.new ((badLits c ob).map Literal.mk), c.maxVar, ss, List.range' 1 c.numInputs,
    (allVariableNumbers S).filter (fun v => ss.contains v), (allVariableNumbers T).filter (fun v => ss.contains v)⟩, ?_, ?_⟩
  · have h1 : decide (c.maxVar < (u32Size - 1) >>> 1) = true := by
      have := hE.max_lt
      have e : (u32Size - 1) >>> 1 = 2147483647 := by decide
      rw [e]; exact decide_eq_true this
    have h2 : a.getConstraintsInformation.isEmpty = true := by
      simp [Aig.getConstraintsInformation, hr.constraints, hc]
    unfold fromAig
    simp only [hmax, createInputAndState_ok dbg hr hw hm, createInitial_ok dbg hr hw hm, createUnsafety_ok dbg hb hr hw hm ob hbad,
      hT, hS, h1, h2, assertR, if_true, bind, Except.bind, pure, Except.pure]
    rfl
  · exact {
      maxLit := rfl, inputs := rfl, states := rfl, initial := rfl
      initialLits := by intro l; simp only [mem_foldl_setInsert, List.not_mem_nil, false_or]; rfl
      trans_wf := hTw, trans_mem := hTm, safety_wf := hSw, safety_mem := hSm, unsafety := rfl
      coneSafety := fun n => mem_filter_cone, coneTransition := fun n => mem_filter_cone }

theorem Built.laws {f : Fsts} {c : Circuit} {ob : Bool} (h : Built f c ob) : Laws f c (badLits c ob) := by
  obtain ⟨hs, dbg, be, a, hb, hr, e⟩ := h
  obtain ⟨f', e', h'⟩ := fromAig_ok dbg hb hr hs.wf hs.encodable hs.constraints ob hs.bad
  rw [e] at e'
  have := Except.ok.inj e'
  subst this; exact h'

end Fsts

end Verif
