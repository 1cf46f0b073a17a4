import Verif.Proofs.PdrFrames
import Verif.Proofs.Query
import Verif.Proofs.Ic3Stateful

/-! # PDR: the solver objects stand for the frames -/

namespace Verif.PDR

open Fsts IC3

variable {sys : Fsts} {c : Circuit} {bads : List Nat} {f f' : List (List Cube)} {I : StatefulImpl} {F : Err → Prop} {O : I.OK F} {dbg : Bool}

/-! ## The formula of a frame -/

/-- The clauses of the cubes blocked in `R_i`, as `get_r_i` builds them. -/
def riCnf (f : List (List Cube)) (i : Nat) : CNF := (f.drop i).flatten.foldl (fun g z => g.addClause z.not) CNF.new

theorem mem_flatten_drop {i : Nat} {z : Cube} : z ∈ (f.drop i).flatten ↔ ∃ j, i ≤ j ∧ z ∈ fr f j := by
  rw [List.mem_flatten]
  constructor
  · rintro ⟨l, hl, hz⟩
    obtain ⟨j, hj⟩ := List.mem_iff_getElem?.1 hl
    rw [List.getElem?_drop] at hj
    refine ⟨i + j, by omega, ?_⟩
    rw [fr_get (getElem?_lt hj)] at hj
    rw [Option.some.inj hj]; exact hz
  · rintro ⟨j, hj, hz⟩
    by_cases hlt : j < f.length
    · refine ⟨fr f j, List.mem_iff_getElem?.2 ⟨j - i, ?_⟩, hz⟩
      rw [List.getElem?_drop, show i + (j - i) = j by omega, fr_get hlt]
    · rw [fr_ge (by omega)] at hz; simp at hz

theorem foldl_not_enc (zs : List Cube) (hz : ∀ z ∈ zs, LatchCube c z) {g : CNF} {P : Val → Prop} (hg : Enc c g P) :
    Enc c (zs.foldl (fun g z => g.addClause z.not) g) (fun v => P v ∧ ∀ z ∈ zs, ¬ z.holds v) := by
  induction zs generalizing g P with
  | nil => exact hg.congr fun v => by simp
  | cons z zs ih =>
    have h1 := (hz z (by simp)).not
    refine (ih (fun x hx => hz x (by simp [hx])) (IC3.Enc.addClause hg h1)).congr fun v => ?_
    rw [Cube.holds_not]
    simp only [List.mem_cons, forall_eq_or_imp, and_assoc]

theorem foldl_not_holds (zs : List Cube) (g : CNF) (v : Val) :
    (zs.foldl (fun g z => g.addClause z.not) g).holds v ↔ g.holds v ∧ ∀ z ∈ zs, ¬ z.holds v := by
  induction zs generalizing g with
  | nil => simp
  | cons z zs ih =>
    rw [List.foldl_cons, ih, CNF.holds_addClause, Cube.holds_not]
    simp only [List.mem_cons, forall_eq_or_imp, and_assoc]

theorem new_holds (v : Val) : CNF.new.holds v := fun d hd => by simp [CNF.new, CNF.iter] at hd

theorem new_enc : Enc c CNF.new (fun _ => True) :=
  ⟨CNF.WF.new, fun d hd => by simp [CNF.new] at hd, fun _ _ => trivial, fun _ w _ _ => new_holds w⟩

theorem riCnf_holds {i : Nat} {v : Val} : (riCnf f i).holds v ↔ RC f i v := by
  unfold riCnf RC
  rw [foldl_not_holds]
  simp only [mem_flatten_drop]
  constructor
  · rintro ⟨_, h⟩; exact fun j hj z hz => h z ⟨j, hj, hz⟩
  · intro h; exact ⟨new_holds v, fun z ⟨j, hj, hz⟩ => h j hj z hz⟩

theorem foldl_not_mem (zs : List Cube) (g : CNF) (d : Clause) :
    d ∈ (zs.foldl (fun g z => g.addClause z.not) g).clauses ↔ d ∈ g.clauses ∨ ∃ z ∈ zs, d = z.not := by
  induction zs generalizing g with
  | nil => simp
  | cons z zs ih =>
    rw [List.foldl_cons, ih, CNF.mem_addClause]
    simp only [List.mem_cons, exists_eq_or_imp, or_assoc]

theorem riCnf_mem {i : Nat} {d : Clause} : d ∈ (riCnf f i).clauses ↔ ∃ j, i ≤ j ∧ ∃ z ∈ fr f j, d = z.not := by
  unfold riCnf
  rw [foldl_not_mem]
  simp only [mem_flatten_drop]
  constructor
  · rintro (h | ⟨z, ⟨j, h1, h2⟩, e⟩)
    · simp [CNF.new] at h
    · exact ⟨j, h1, z, h2, e⟩
  · rintro ⟨j, h1, z, h2, e⟩; exact .inr ⟨z, ⟨j, h1, h2⟩, e⟩

theorem riCnf_enc (hc : ∀ j, ∀ z ∈ fr f j, LatchCube c z) (i : Nat) : Enc c (riCnf f i) (RC f i) := by
  refine (foldl_not_enc _ (fun z hz => ?_) new_enc).congr fun v => ?_
  · obtain ⟨j, _, hz⟩ := mem_flatten_drop.1 hz
    exact hc j z hz
  · rw [← riCnf_holds]
    unfold riCnf
    rw [foldl_not_holds]
    exact ⟨fun h => ⟨new_holds v, h.2⟩, fun h => ⟨trivial, h.2⟩⟩

/-- The formula of `R_i`. -/
def rCnf (sys : Fsts) (f : List (List Cube)) (i : Nat) : CNF :=
  if i = 0 then sys.initialStates.toCnf.append (riCnf f i) else riCnf f i

theorem rCnf_holds (h : Laws sys c bads) {i : Nat} {v : Val} : (rCnf sys f i).holds v ↔ RR c f i v := by
  unfold rCnf RR
  by_cases h0 : i = 0
  · rw [if_pos h0, CNF.holds_append, Cube.toCnf_holds, initial_holds h, riCnf_holds]
    exact ⟨fun hi => ⟨fun _ => hi.1, hi.2⟩, fun hi => ⟨hi.1 h0, hi.2⟩⟩
  · rw [if_neg h0, riCnf_holds]
    exact ⟨fun hr => ⟨fun e => absurd e h0, hr⟩, fun hr => hr.2⟩

theorem rCnf_enc (h : Laws sys c bads) (hc : ∀ j, ∀ z ∈ fr f j, LatchCube c z) (i : Nat) : Enc c (rCnf sys f i) (RR c f i) := by
  unfold rCnf RR
  by_cases h0 : i = 0
  · rw [if_pos h0]
    refine ((Enc.initial h).append (riCnf_enc hc i)).congr fun v => ?_
    exact ⟨fun hi => ⟨fun _ => hi.1, hi.2⟩, fun hi => ⟨hi.1 h0, hi.2⟩⟩
  · rw [if_neg h0]
    exact (riCnf_enc hc i).congr fun v => ⟨fun hr => ⟨fun e => absurd e h0, hr⟩, fun hr => hr.2⟩

/-! ## What each solver starts with -/

theorem base_notP (h : Laws sys c bads) (i : Nat) (v : Val) : (base (formulas sys) .notP i).holds v ↔
    (i = 0 → c.Init v) ∧ sys.stateToSafety.holds v ∧ sys.unsafety.holds v := by
  unfold base formulas
  dsimp only
  by_cases h0 : i = 0
  · rw [if_pos h0, CNF.holds_addClause, CNF.holds_append, CNF.holds_append]
    show ((_ ∧ sys.initialStates.toCnf.holds v) ∧ sys.stateToSafety.holds v) ∧ sys.unsafety.holds v ↔ _
    rw [Cube.toCnf_holds, initial_holds h]
    exact ⟨fun ⟨⟨⟨_, a⟩, b⟩, d⟩ => ⟨fun _ => a, b, d⟩, fun ⟨a, b, d⟩ => ⟨⟨⟨new_holds v, a h0⟩, b⟩, d⟩⟩
  · rw [if_neg h0, CNF.holds_addClause, CNF.holds_append]
    exact ⟨fun ⟨⟨_, b⟩, d⟩ => ⟨fun e => absurd e h0, b, d⟩, fun ⟨_, b, d⟩ => ⟨⟨new_holds v, b⟩, d⟩⟩

theorem base_ri (h : Laws sys c bads) (i : Nat) (v : Val) : (base (formulas sys) .ri i).holds v ↔ (i = 0 → c.Init v) := by
  unfold base formulas
  dsimp only
  by_cases h0 : i = 0
  · rw [if_pos h0]
    show sys.initialStates.toCnf.holds v ↔ _
    rw [Cube.toCnf_holds, initial_holds h]
    exact ⟨fun a _ => a, fun a => a h0⟩
  · rw [if_neg h0]
    exact ⟨fun _ e => absurd e h0, fun _ => new_holds v⟩

theorem base_riT (h : Laws sys c bads) (i : Nat) (v : Val) : (base (formulas sys) .riT i).holds v ↔
    (i = 0 → c.Init v) ∧ sys.transition.holds v := by
  unfold base formulas
  dsimp only
  by_cases h0 : i = 0
  · rw [if_pos h0, CNF.holds_append, CNF.holds_append]
    show (_ ∧ sys.initialStates.toCnf.holds v) ∧ sys.transition.holds v ↔ _
    rw [Cube.toCnf_holds, initial_holds h]
    exact ⟨fun ⟨⟨_, a⟩, b⟩ => ⟨fun _ => a, b⟩, fun ⟨a, b⟩ => ⟨⟨new_holds v, a h0⟩, b⟩⟩
  · rw [if_neg h0, CNF.holds_append]
    exact ⟨fun ⟨_, b⟩ => ⟨fun e => absurd e h0, b⟩, fun ⟨_, b⟩ => ⟨new_holds v, b⟩⟩

theorem base_ready (S : SmallSys sys c bads) (w : Which) (i : Nat) : (base (formulas sys) w i).Ready := by
  have hI : sys.initialStates.toCnf.Ready := (Enc.initial S.laws).ready S.small
  have hT := transition_ready S.laws S.wf S.small
  have hS := safety_ready S.laws S.wf S.small.encodable
  have hU := unsafety_good S.laws S.bad S.small.encodable
  have hUs := unsafety_sorted S.laws
  cases w <;> unfold base <;> dsimp only <;> split
  · exact ((CNF.Ready.new.append hI).append hS).addClause hUs hU
  · exact (CNF.Ready.new.append hS).addClause hUs hU
  · exact hI
  · exact CNF.Ready.new
  · exact (CNF.Ready.new.append hI).append hT
  · exact CNF.Ready.new.append hT

theorem mem_riT {i : Nat} {d : Clause} (hd : d ∈ sys.transition.clauses) : d ∈ (base (formulas sys) .riT i).clauses := by
  unfold base formulas
  dsimp only
  split
  · exact CNF.mem_append.2 (.inr hd)
  · exact CNF.mem_append.2 (.inr hd)

theorem mem_notP {i : Nat} : sys.unsafety ∈ (base (formulas sys) .notP i).clauses := by
  unfold base formulas
  dsimp only
  split
  · exact CNF.mem_addClause.2 (.inr rfl)
  · exact CNF.mem_addClause.2 (.inr rfl)

/-! ## The invariant of the solvers -/

theorem Holds.congr {fm : Formulas} {n : Nat} {s : St I} {P P' : Which → Nat → Val → Prop} (h : Holds O fm f n s P)
    (he : ∀ w i v, i < n → (base fm w i).holds v → (P w i v ↔ P' w i v)) : Holds O fm f n s P' where
  f_eq := h.f_eq
  len := h.len
  rep := by
    intro w i x hx
    obtain ⟨cs, h1, h2, h3⟩ := h.rep w i x hx
    refine ⟨cs, h1, h2, fun v => ?_⟩
    rw [h3]
    have hi : i < n := by rw [← h.len w]; exact getElem?_lt hx
    exact ⟨fun ⟨a, b⟩ => ⟨a, (he w i v hi a).1 b⟩, fun ⟨a, b⟩ => ⟨a, (he w i v hi a).2 b⟩⟩

theorem Holds.f_change {fm : Formulas} {n : Nat} {s : St I} {P : Which → Nat → Val → Prop} (h : Holds O fm f n s P) (g : List (List Cube)) :
    Holds O fm g n { s with f := g } P :=
  ⟨rfl, fun w => by rw [← h.len w]; cases w <;> rfl, fun w i x hx => h.rep w i x (by cases w <;> exact hx)⟩

theorem sols_setSols_self (s : St I) (w : Which) (l : List I.S) : (s.setSols w l).sols w = l := by cases w <;> rfl

theorem setSols_f (s : St I) (w : Which) (l : List I.S) : (s.setSols w l).f = s.f := by cases w <;> rfl

theorem sols_setSols (s : St I) (w w' : Which) (l : List I.S) :
    (s.setSols w l).sols w' = l ∧ w' = w ∨ (s.setSols w l).sols w' = s.sols w' ∧ w' ≠ w := by
  cases w <;> cases w' <;> first | exact .inl ⟨rfl, rfl⟩ | exact .inr ⟨rfl, by intro h; cases h⟩

/-- Replacing one solver. -/
theorem Holds.set {fm : Formulas} {n : Nat} {s : St I} {P P' : Which → Nat → Val → Prop} (h : Holds O fm f n s P) {w : Which} {i : Nat} {y : I.S}
    (hP : ∀ w' j v, ¬ (w' = w ∧ j = i) → (P w' j v ↔ P' w' j v)) {cs : List Clause} (hr : O.Rep y cs)
    (hb : ∀ d ∈ (base fm w i).clauses, d ∈ cs) (hc : ∀ v, (∀ d ∈ cs, d.holds v) ↔ (base fm w i).holds v ∧ P' w i v) :
    Holds O fm f n (s.setSols w ((s.sols w).set i y)) P' where
  f_eq := by rw [setSols_f]; exact h.f_eq
  len := by
    intro w'
    rcases sols_setSols s w w' ((s.sols w).set i y) with ⟨e, _⟩ | ⟨e, _⟩
    · rw [e, List.length_set, h.len]
    · rw [e, h.len]
  rep := by
    intro w' j x hx
    have old : ¬ (w' = w ∧ j = i) → (s.sols w')[j]? = some x → ∃ cs, O.Rep x cs ∧ (∀ d ∈ (base fm w' j).clauses, d ∈ cs) ∧
        ∀ v, (∀ d ∈ cs, d.holds v) ↔ (base fm w' j).holds v ∧ P' w' j v := by
      intro hne hx
      obtain ⟨cs, h1, h2, h3⟩ := h.rep w' j x hx
      refine ⟨cs, h1, h2, fun v => ?_⟩
      rw [h3]
      exact ⟨fun ⟨a, b⟩ => ⟨a, (hP w' j v hne).1 b⟩, fun ⟨a, b⟩ => ⟨a, (hP w' j v hne).2 b⟩⟩
    rcases sols_setSols s w w' ((s.sols w).set i y) with ⟨e, rfl⟩ | ⟨e, hne⟩
    · rw [e] at hx
      by_cases hij : i = j
      · subst hij
        have hlt := getElem?_lt hx
        rw [List.length_set] at hlt
        rw [List.getElem?_set, if_pos rfl, if_pos hlt] at hx
        have := Option.some.inj hx; subst this
        exact ⟨cs, hr, hb, hc⟩
      · rw [List.getElem?_set, if_neg hij] at hx
        exact old (fun h => hij h.2.symm) hx
    · rw [e] at hx
      exact old (fun h => hne h.1) hx

/-! ## Basic operations -/

/-- Reading the state. -/
theorem GTri.read {σ α γ : Type} {F : Err → Prop} {J : σ → γ → Prop} {g : γ} {k : σ → StateT σ Res α} {Q : α → γ → Prop}
    (h : ∀ s, J s g → GTri F J g (k s) Q) : GTri F J g ((get : StateT σ Res σ) >>= k) Q := fun s hs => h s hs s hs

theorem GTri.write {σ γ : Type} {F : Err → Prop} {J : σ → γ → Prop} {g g' : γ} {s' : σ} {Q : PUnit → γ → Prop} (hs : J s' g')
    (h : Q ⟨⟩ g') : GTri F J g (MonadStateOf.set s' : StateT σ Res PUnit) Q := fun _ _ => ⟨g', hs, h⟩

theorem GTri.assert {σ γ : Type} {F : Err → Prop} {J : σ → γ → Prop} {g : γ} {site : String} {b : Bool} (h : b = true) :
    GTri F J g (liftM (debugAssertR dbg site b) : StateT σ Res Unit) (fun _ g' => g' = g) :=
  GTri.lift_ok (a := ()) (Stateful.debugAssert_ok _ _ h) rfl

variable {fm : Formulas} {d m : Nat}

theorem fresh_spec (f : List (List Cube)) : GTri F (Inv O fm) f (fresh (I := I)) (fun _ f' => f' = f) :=
  fun s hs => ⟨f, ⟨hs.f_eq, fun w => by rw [← hs.len w]; cases w <;> rfl, fun w i x hx => hs.rep w i x (by cases w <;> exact hx)⟩, rfl⟩

theorem depth_spec (hf : f.length = d + 2) : GTri F (Inv O fm) f (depth (I := I)) (fun r f' => r = d ∧ f' = f) := by
  refine GTri.read fun s hs => ?_
  rw [hs.f_eq, hf, if_neg (by omega)]
  exact GTri.pure ⟨by omega, rfl⟩

/-- An answer about everything a solver holds. -/
def Answered (fm : Formulas) (f : List (List Cube)) (w : Which) (i : Nat) (cube : Option Cube) (clause : Option Clause) (r : SatResponse) : Prop :=
  ∃ cs, (∀ d ∈ (base fm w i).clauses, d ∈ cs) ∧ (∀ v, (∀ d ∈ cs, d.holds v) ↔ (base fm w i).holds v ∧ RC f i v) ∧
    QueryCorrect cs cube clause r ∧ QueryTotal cs cube clause r

theorem call_spec {w : Which} {i : Nat} (hi : i + 1 < f.length) {cube : Option Cube} {clause : Option Clause} (hc : optHolds Cube.Good cube)
    (hd : optHolds Clause.Good clause) (hsd : optHolds (fun c : Clause => c.lits.Pairwise (fun a b => a.le b = true)) clause) :
    GTri F (Inv O fm) f (call (I := I) w i cube clause) (fun r f' => f' = f ∧ Answered fm f w i cube clause r) := by
  refine GTri.bind (fresh_spec f) ?_
  rintro t f rfl
  refine GTri.read fun s hs => ?_
  have hlt : i < (s.sols w).length := by rw [hs.len w]; omega
  have hget := List.getElem?_eq_getElem hlt
  generalize (s.sols w)[i] = x at hget
  refine GTri.bind (GTri.lift_ok (a := x) (Q := fun y f' => y = x ∧ f' = f) (by unfold indexR; rw [hget]; rfl) ⟨rfl, rfl⟩) ?_
  rintro x f ⟨rfl, rfl⟩
  obtain ⟨cs, hrep, hbase, hsem⟩ := hs.rep w i x hget
  refine GTri.bind (GTri.ends (O.solve t x cs cube clause hrep hc hd hsd)) ?_
  rintro ⟨r, z⟩ f ⟨⟨hrep', h1, h2⟩, rfl⟩
  refine GTri.bind (GTri.write (g' := f) (Q := fun _ f' => f' = f) ?_ rfl) ?_
  · exact hs.set (fun _ _ _ _ => Iff.rfl) hrep' hbase hsem
  · rintro _ f rfl
    exact GTri.pure ⟨rfl, cs, hbase, hsem, h1, h2⟩

/-! ## Adding a clause to solvers -/

theorem addAt_spec {n : Nat} {w : Which} {i : Nat} {g : CNF} {P P' : Which → Nat → Val → Prop} (hg : g.Ready) (hi : i < n)
    (hP : ∀ w' j v, ¬ (w' = w ∧ j = i) → (P w' j v ↔ P' w' j v)) (hP' : ∀ v, P' w i v ↔ P w i v ∧ g.holds v) :
    GTri F (Holds O fm f n) P (addAt (I := I) w i g) (fun _ P1 => P1 = P') := by
  refine GTri.read fun s hs => ?_
  have hlt : i < (s.sols w).length := by rw [hs.len w]; omega
  have hget := List.getElem?_eq_getElem hlt
  generalize (s.sols w)[i] = x at hget
  obtain ⟨cs, hrep, hbase, hsem⟩ := hs.rep w i x hget
  refine GTri.bind (GTri.lift_ok (a := x) (Q := fun z Q => z = x ∧ Q = P) (by unfold indexR; rw [hget]; rfl) ⟨rfl, rfl⟩) ?_
  rintro x P ⟨rfl, rfl⟩
  refine GTri.bind (GTri.ends (Stateful.addCnf_ok O hrep hg)) ?_
  rintro y P ⟨hrep', rfl⟩
  refine GTri.write (g' := P') ?_ rfl
  refine hs.set hP hrep' (fun d hd => List.mem_append.2 (.inl (hbase d hd))) fun v => ?_
  rw [hP', ← and_assoc, ← hsem]
  constructor
  · intro h; exact ⟨fun d hd => h d (List.mem_append.2 (.inl hd)), fun d hd => h d (List.mem_append.2 (.inr hd))⟩
  · rintro ⟨h1, h2⟩ d hd
    rcases List.mem_append.1 hd with hd | hd
    · exact h1 d hd
    · exact h2 d hd

theorem blockLoop_spec {n : Nat} {g : CNF} (hg : g.Ready) : ∀ (is : List Nat) (P : Which → Nat → Val → Prop), (∀ i ∈ is, i < n) →
    GTri F (Holds O fm f n) P (blockLoop (I := I) g is) (fun _ P' => ∀ w i v, P' w i v ↔ P w i v ∧ (i ∈ is → g.holds v)) := by
  intro is
  induction is with
  | nil => intro P _; exact GTri.pure fun w i v => by simp
  | cons i is ih =>
    intro P hi
    have hin := hi i (by simp)
    unfold blockLoop
    have one : ∀ (w : Which) (P : Which → Nat → Val → Prop), GTri F (Holds O fm f n) P (addAt (I := I) w i g)
        (fun _ P1 => P1 = fun w' j v => P w' j v ∧ (w' = w ∧ j = i → g.holds v)) := by
      intro w P
      refine addAt_spec hg hin (fun w' j v hne => ?_) (fun v => ?_)
      · exact ⟨fun h => ⟨h, fun e => absurd e hne⟩, fun h => h.1⟩
      · exact ⟨fun h => ⟨h.1, h.2 ⟨rfl, rfl⟩⟩, fun h => ⟨h.1, fun _ => h.2⟩⟩
    refine GTri.bind (one .ri P) ?_
    rintro _ P1 rfl
    refine GTri.bind (one .notP _) ?_
    rintro _ P2 rfl
    refine GTri.bind (one .riT _) ?_
    rintro _ P3 rfl
    refine (ih _ (fun j hj => hi j (by simp [hj]))).mono ?_
    intro _ P' hP' w j v
    rw [hP', List.mem_cons]
    constructor
    · rintro ⟨⟨⟨⟨h1, h2⟩, h3⟩, h4⟩, h5⟩
      refine ⟨h1, ?_⟩
      rintro (rfl | h)
      · cases w
        · exact h3 ⟨rfl, rfl⟩
        · exact h2 ⟨rfl, rfl⟩
        · exact h4 ⟨rfl, rfl⟩
      · exact h5 h
    · rintro ⟨h1, h2⟩
      exact ⟨⟨⟨⟨h1, fun e => h2 (.inl e.2)⟩, fun e => h2 (.inl e.2)⟩, fun e => h2 (.inl e.2)⟩, fun e => h2 (.inr e)⟩

/-- Continue with another representation relation after replacing the state. -/
theorem GTri.switch {σ α γ γ' : Type} {F : Err → Prop} {J : σ → γ → Prop} {J' : σ → γ' → Prop} {g : γ} {p : γ'} {s' : σ}
    {k : PUnit → StateT σ Res α} {Q : α → γ → Prop} {Q' : α → γ' → Prop} (hs : J' s' p) (hk : GTri F J' p (k ⟨⟩) Q')
    (hQ : ∀ a s p', J' s p' → Q' a p' → ∃ g', J s g' ∧ Q a g') :
    GTri F J g ((MonadStateOf.set s' : StateT σ Res PUnit) >>= k) Q :=
  fun _ _ => (hk s' hs).mono (fun _ h => h) fun a s ⟨p', h1, h2⟩ => hQ a s p' h1 h2

theorem checkLengths_spec {A : PDR I} {n k : Nat} {site : String} {P : Which → Nat → Val → Prop} (hk : k ≤ f.length) (hn : n = f.length - k) :
    GTri F (Holds O fm f n) P (A.checkLengths site k) (fun _ P' => P' = P) := by
  refine GTri.read fun s hs => ?_
  have h1 : s.notP.length = n := hs.len .notP
  have h2 : s.ri.length = n := hs.len .ri
  have h3 : s.riT.length = n := hs.len .riT
  refine GTri.bind (GTri.assert (by simp [h1, h2])) ?_
  rintro _ P rfl
  refine GTri.bind (GTri.assert (by simp [h1, h3])) ?_
  rintro _ P rfl
  exact GTri.assert (by rw [hs.f_eq, h1]; simp [hk, hn])

theorem blockCubeInSolver_spec {A : PDR I} {n k : Nat} {z : Cube} (hsm : c.Small) (hz : LatchCube c z) (hk : k < n) (hn : n = f.length - 1)
    (hf : 1 ≤ f.length) (P : Which → Nat → Val → Prop) :
    GTri F (Holds O fm f n) P (A.blockCubeInSolver ⟨z, .ok k⟩) (fun _ P' => ∀ w i v, P' w i v ↔ P w i v ∧ (i ≤ k → ¬ z.holds v)) := by
  unfold blockCubeInSolver
  refine GTri.bind (checkLengths_spec hf hn) ?_
  rintro _ P rfl
  dsimp only
  refine GTri.read fun s hs => ?_
  refine GTri.bind (GTri.assert (by have : s.ri.length = n := hs.len .ri; simp [this, hk])) ?_
  rintro _ P rfl
  refine (blockLoop_spec (CNF.Ready.new.addClause hz.not.sorted (hz.not.good hsm)) _ P (fun i hi => by rw [List.mem_range] at hi; omega)).mono ?_
  intro _ P' hP' w i v
  rw [hP', CNF.holds_addClause, Cube.holds_not, List.mem_range]
  constructor
  · rintro ⟨h1, h2⟩; exact ⟨h1, fun h => (h2 (by omega)).2⟩
  · rintro ⟨h1, h2⟩; exact ⟨h1, fun h => ⟨new_holds v, h2 (by omega)⟩⟩

theorem addBlockedCube_spec {A : PDR I} (S : SmallSys sys c bads) {k : Nat} {z : Cube} (hf : f.length = d + 2) (hk : 1 ≤ k) (hkd : k ≤ d)
    (hz : LatchCube c z) :
    GTri F (Inv O (formulas sys)) f (A.addBlockedCube ⟨z, .ok k⟩) (fun _ f' => Put z k f f') := by
  unfold addBlockedCube
  dsimp only
  refine GTri.bind (depth_spec hf) ?_
  rintro d' f' ⟨e1, e2⟩
  rw [e1, e2]
  clear e1 e2 d' f'
  have hmin : min k (d + 1) = k := by omega
  rw [hmin]
  refine GTri.read fun s hs => ?_
  obtain ⟨f1, h1, h2, hput⟩ := put_spec (f := f) z hk (by omega)
  refine GTri.bind (GTri.lift_ok (a := f1) (Q := fun y f' => y = f1 ∧ f' = f) (by rw [hs.f_eq]; exact h1) ⟨rfl, rfl⟩) ?_
  rintro f1 f ⟨rfl, rfl⟩
  refine GTri.bind (GTri.lift_ok (a := fr f1 k) (Q := fun y f' => y = fr f1 k ∧ f' = f) (by unfold indexR; rw [fr_get (by omega)]; rfl) ⟨rfl, rfl⟩) ?_
  rintro _ f ⟨rfl, rfl⟩
  have hlen := hput.len
  refine GTri.switch (hs.f_change _) (blockCubeInSolver_spec (k := k) S.small hz (by omega) (by omega) (by omega) _) ?_
  intro _ s' P' hs' hP'
  refine ⟨_, ?_, hput⟩
  show Holds O _ _ (_ - 1) s' _
  rw [hlen]
  refine hs'.congr fun w i v hi hb => ?_
  rw [hP', hput.rc]

/-! ## `new_frame` -/

theorem swapAt_inf (hf : 1 ≤ f.length) (he : fr f (f.length - 1) = []) : swapAt (f ++ [[]]) (f.length - 1) f.length = some (f ++ [[]]) := by
  have h1 : (f ++ [[]])[f.length - 1]? = some [] := by
    rw [List.getElem?_append_left (by omega), fr_get (by omega), he]
  have h2 : (f ++ [[]])[f.length]? = some [] := by simp
  unfold swapAt
  rw [h1, h2]
  dsimp only
  congr 1
  refine List.ext_getElem? fun j => ?_
  rw [List.getElem?_set, List.getElem?_set, List.length_set]
  by_cases hj : f.length = j
  · subst hj; rw [if_pos rfl, if_pos (by simp), h2]
  · rw [if_neg hj]
    by_cases hj' : f.length - 1 = j
    · subst hj'; rw [if_pos rfl, if_pos (by simp; omega), h1]
    · rw [if_neg hj']

theorem newFrameSolvers_spec {A : PDR I} (S : SmallSys sys c bads) (hA : A.forms = formulas sys) {n : Nat} (hn : f.length = n + 2)
    (he : ∀ v, RC f n v) :
    GTri F (fun s n => Holds O (formulas sys) f n s (fun _ => RC f)) n A.newFrameSolvers (fun _ n' => n' = n + 1) := by
  unfold newFrameSolvers
  have chk : ∀ (site : String) (k n : Nat), k ≤ f.length → n = f.length - k → GTri F (fun s n => Holds O (formulas sys) f n s (fun _ => RC f)) n
      (A.checkLengths site k) (fun _ n' => n' = n) := by
    intro site k n hk hn s hs
    refine (checkLengths_spec (A := A) (F := F) (site := site) hk hn s hs).mono (fun _ h => h) ?_
    rintro _ s' ⟨P', h1, rfl⟩
    exact ⟨n, h1, rfl⟩
  refine GTri.bind (chk _ _ _ (by omega) (by omega)) ?_
  rintro _ n rfl
  refine GTri.read fun s hs => ?_
  have hemp : s.notP.isEmpty = decide (n = 0) := by
    have : s.notP.length = n := hs.len .notP
    cases h : s.notP with
    | nil => rw [h] at this; simp at this; simp [← this]
    | cons a l => rw [h] at this; simp at this; simp; omega
  have ha := Stateful.addCnf_ok O O.new (base_ready S .notP n)
  have hb := Stateful.addCnf_ok O O.new (base_ready S .ri n)
  have ht := Stateful.addCnf_ok O O.new (base_ready S .riT n)
  have key : ∀ x y z : I.S, (∃ cs, O.Rep x cs ∧ ∀ d, d ∈ cs ↔ d ∈ (base (formulas sys) .notP n).clauses) →
      (∃ cs, O.Rep y cs ∧ ∀ d, d ∈ cs ↔ d ∈ (base (formulas sys) .ri n).clauses) →
      (∃ cs, O.Rep z cs ∧ ∀ d, d ∈ cs ↔ d ∈ (base (formulas sys) .riT n).clauses) →
      Holds O (formulas sys) f (n + 1) { s with notP := s.notP ++ [x], ri := s.ri ++ [y], riT := s.riT ++ [z] } (fun _ => RC f) := by
    intro x y z hx hy hz
    have gen : ∀ (w : Which) (l : List I.S) (x : I.S), l = s.sols w →
        (∃ cs, O.Rep x cs ∧ ∀ d, d ∈ cs ↔ d ∈ (base (formulas sys) w n).clauses) →
        (l ++ [x]).length = n + 1 ∧
        ∀ (i : Nat) (y : I.S), (l ++ [x])[i]? = some y → ∃ cs, O.Rep y cs ∧ (∀ d ∈ (base (formulas sys) w i).clauses, d ∈ cs) ∧
          ∀ v, (∀ d ∈ cs, d.holds v) ↔ (base (formulas sys) w i).holds v ∧ RC f i v := by
      intro w l x hl hx
      subst hl
      have hlen := hs.len w
      refine ⟨by simp [hlen], fun i y hy => ?_⟩
      by_cases hi : i < n
      · rw [List.getElem?_append_left (by omega)] at hy
        exact hs.rep w i y hy
      · have hlt := getElem?_lt hy
        have hin : i = n := by simp [hlen] at hlt; omega
        rw [hin] at hy ⊢
        rw [List.getElem?_append_right (by omega), hlen, Nat.sub_self] at hy
        have := Option.some.inj hy; subst this
        obtain ⟨cs, h1, h2⟩ := hx
        refine ⟨cs, h1, fun d hd => (h2 d).2 hd, fun v => ?_⟩
        exact ⟨fun h => ⟨fun d hd => h d ((h2 d).2 hd), he v⟩, fun h d hd => h.1 d ((h2 d).1 hd)⟩
    have g1 := gen .notP s.notP x rfl hx
    have g2 := gen .ri s.ri y rfl hy
    have g3 := gen .riT s.riT z rfl hz
    exact ⟨hs.f_eq, fun w => match w with | .notP => g1.1 | .ri => g2.1 | .riT => g3.1,
      fun w => match w with | .notP => g1.2 | .ri => g2.2 | .riT => g3.2⟩
  have fin : ∀ x y z : I.S, (∃ cs, O.Rep x cs ∧ ∀ d, d ∈ cs ↔ d ∈ (base (formulas sys) .notP n).clauses) →
      (∃ cs, O.Rep y cs ∧ ∀ d, d ∈ cs ↔ d ∈ (base (formulas sys) .ri n).clauses) →
      (∃ cs, O.Rep z cs ∧ ∀ d, d ∈ cs ↔ d ∈ (base (formulas sys) .riT n).clauses) →
      GTri F (fun s n => Holds O (formulas sys) f n s (fun _ => RC f)) n (do
        set { s with notP := s.notP ++ [x], ri := s.ri ++ [y], riT := s.riT ++ [z] }
        A.checkLengths "pdr.rs:350" 1) (fun _ n' => n' = n + 1) := by
    intro x y z hx hy hz
    refine GTri.bind (GTri.write (g' := n + 1) (Q := fun _ n' => n' = n + 1) (key x y z hx hy hz) rfl) ?_
    rintro _ n' rfl
    exact chk _ _ _ (by omega) (by omega)
  by_cases h0 : n = 0
  · subst h0
    dsimp only
    rw [hemp, hA, if_pos (by simp)]
    refine GTri.bind (GTri.ends ha) ?_
    rintro a _ ⟨ra, rfl⟩
    refine GTri.bind (GTri.ends hb) ?_
    rintro b _ ⟨rb, rfl⟩
    refine GTri.bind (GTri.ends ht) ?_
    rintro t _ ⟨rt, rfl⟩
    exact fin a b t ⟨_, ra, fun d => by simp⟩ ⟨_, rb, fun d => by simp⟩ ⟨_, rt, fun d => by simp⟩
  · have e1 : base (formulas sys) .notP n = (formulas sys).riAndNotP := if_neg h0
    have e2 : base (formulas sys) .ri n = CNF.new := if_neg h0
    have e3 : base (formulas sys) .riT n = (formulas sys).riAndT := if_neg h0
    rw [e1] at ha
    rw [e3] at ht
    dsimp only
    rw [hemp, hA, if_neg (by simpa using h0)]
    refine GTri.bind (GTri.ends ha) ?_
    rintro a _ ⟨ra, rfl⟩
    refine GTri.bind (GTri.ends ht) ?_
    rintro t _ ⟨rt, rfl⟩
    exact fin a I.new t ⟨_, ra, fun d => by rw [e1]; simp⟩ ⟨_, O.new, fun d => by rw [e2]; simp [CNF.new]⟩ ⟨_, rt, fun d => by rw [e3]; simp⟩

theorem newFrame_spec {A : PDR I} (S : SmallSys sys c bads) (hA : A.forms = formulas sys) (hf : 1 ≤ f.length)
    (he : fr f (f.length - 1) = []) : GTri F (Inv O (formulas sys)) f A.newFrame (fun _ f' => f' = f ++ [[]]) := by
  unfold newFrame
  refine GTri.read fun s hs => ?_
  dsimp only
  rw [hs.f_eq, if_neg (by omega)]
  refine GTri.bind (GTri.lift_ok (a := f ++ [[]]) (Q := fun y f' => y = f ++ [[]] ∧ f' = f) (by rw [swapAt_inf hf he]; rfl) ⟨rfl, rfl⟩) ?_
  rintro _ f ⟨rfl, rfl⟩
  have hlen : (f ++ [[]]).length = (f.length - 1) + 2 := by simp; omega
  refine GTri.switch (J' := fun s n => Holds O (formulas sys) (f ++ [[]]) n s (fun _ => RC (f ++ [[]]))) (p := f.length - 1) ?_
    (newFrameSolvers_spec S hA hlen ?_) ?_
  · refine (Holds.f_change hs (f ++ [[]])).congr fun w i v _ _ => ?_
    rw [rc_push]
  · intro v
    rw [rc_push]
    intro j hj z hz
    by_cases hj' : j = f.length - 1
    · rw [hj', he] at hz; simp at hz
    · rw [fr_ge (by omega)] at hz; simp at hz
  · rintro _ s' _ hs' rfl
    refine ⟨_, ?_, rfl⟩
    show Holds O _ _ ((f ++ [[]]).length - 1) s' _
    rw [hlen]
    exact hs'

end Verif.PDR
