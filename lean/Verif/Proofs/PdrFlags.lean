import Verif.Proofs.PdrSteps

/-! # PDR: the flags that skip the reduction of cubes -/

namespace Verif.PDR

open Fsts PdrSpec

variable {I : StatefulImpl} {f : Fsts} {α β : Type}

/-- `P` stays true. -/
def Keep (P : St I → Prop) (m : StateT (St I) Res α) : Prop := Tri (fun _ => True) P m (fun _ s => P s)

namespace Keep

variable {P : St I → Prop}

theorem pure (a : α) : Keep P (Pure.pure a : StateT (St I) Res α) := Tri.pure fun _ h => h

theorem bind {m : StateT (St I) Res α} {k : α → StateT (St I) Res β} (h : Keep P m) (hk : ∀ a, Keep P (k a)) : Keep P (m >>= k) := Tri.bind h hk

theorem lift (r : Res α) : Keep P (liftM r : StateT (St I) Res α) := by
  refine Tri.lift fun s hs => ?_
  cases r with
  | ok a => exact hs
  | error e => trivial

theorem ite {q : Prop} [Decidable q] {m n : StateT (St I) Res α} (h1 : Keep P m) (h2 : Keep P n) : Keep P (if q then m else n) :=
  Tri.ite (fun _ => h1) (fun _ => h2)

theorem read {k : St I → StateT (St I) Res α} (h : ∀ s, P s → Keep P (k s)) : Keep P ((get : StateT (St I) Res (St I)) >>= k) :=
  fun s hs => h s hs s hs

theorem write {s' : St I} (h : P s') : Keep P (MonadStateOf.set s' : StateT (St I) Res PUnit) := Tri.set fun _ _ => h

theorem elim {m : StateT (St I) Res α} (h : Keep P m) {s s' : St I} {a : α} (hs : P s) (e : m s = .ok (a, s')) : P s' := Tri.elim h hs e

end Keep

theorem Tri.read {σ : Type} {F : Err → Prop} {P : σ → Prop} {R : α → σ → Prop} {k : σ → StateT σ Res α} (h : ∀ s, Tri F P (k s) R) :
    Tri F P ((get : StateT σ Res σ) >>= k) R := fun s hs => h s s hs

/-- A statement about the two flags. -/
abbrev On (Q : Bool → Bool → Prop) (s : St I) : Prop := Q s.conePred s.coneBad

variable {Q : Bool → Bool → Prop}

theorem on_setSols {s : St I} (h : On Q s) (w : Which) (l : List I.S) : On Q (s.setSols w l) := by
  cases w <;> exact h

theorem keep_fresh : Keep (On Q) (fresh (I := I)) :=
  Keep.read fun s hs => Keep.bind (Keep.write (P := On Q) (s' := { s with tick := s.tick + 1 }) hs) fun _ => Keep.pure _

theorem keep_depth : Keep (On Q) (depth (I := I)) := Keep.read fun _ _ => Keep.ite (Keep.lift _) (Keep.pure _)

theorem keep_call (w : Which) (i : Nat) (cu : Option Cube) (cl : Option Clause) : Keep (On Q) (call (I := I) w i cu cl) :=
  Keep.bind keep_fresh fun _ => Keep.read fun _ hs => Keep.bind (Keep.lift _) fun _ => Keep.bind (Keep.lift _) fun _ =>
    Keep.bind (Keep.write (on_setSols hs _ _)) fun _ => Keep.pure _

theorem keep_addAt (w : Which) (i : Nat) (g : CNF) : Keep (On Q) (addAt (I := I) w i g) :=
  Keep.read fun _ hs => Keep.bind (Keep.lift _) fun _ => Keep.bind (Keep.lift _) fun _ => Keep.write (on_setSols hs _ _)

theorem keep_solverBlocked (t : TCube) : Keep (On Q) (solverBlocked (I := I) t) := by
  unfold solverBlocked
  cases t.frame with
  | ok i => exact Keep.bind (keep_call _ _ _ _) fun r => by cases r <;> exact Keep.pure _
  | null => exact Keep.lift _
  | inf => exact Keep.lift _

theorem keep_isBlocked (t : TCube) : Keep (On Q) (isBlocked (I := I) t) := by
  unfold isBlocked
  cases t.frame with
  | ok i => exact Keep.read fun _ _ => Keep.ite (Keep.pure _) (keep_solverBlocked t)
  | null => exact Keep.lift _
  | inf => exact Keep.lift _

theorem keep_blockLoop (g : CNF) : ∀ is, Keep (On Q) (blockLoop (I := I) g is)
  | [] => Keep.pure _
  | i :: is => Keep.bind (keep_addAt _ _ _) fun _ => Keep.bind (keep_addAt _ _ _) fun _ => Keep.bind (keep_addAt _ _ _) fun _ => keep_blockLoop g is

theorem keep_checkLengths (A : PDR I) (site : String) (k : Nat) : Keep (On Q) (A.checkLengths site k) :=
  Keep.read fun _ _ => Keep.bind (Keep.lift _) fun _ => Keep.bind (Keep.lift _) fun _ => Keep.lift _

theorem keep_blockCubeInSolver (A : PDR I) (t : TCube) : Keep (On Q) (A.blockCubeInSolver t) := by
  unfold blockCubeInSolver
  refine Keep.bind (keep_checkLengths A _ _) fun _ => ?_
  cases t.frame with
  | ok i => exact Keep.read fun _ _ => Keep.bind (Keep.lift _) fun _ => keep_blockLoop _ _
  | null => exact Keep.lift _
  | inf => exact Keep.read fun _ _ => keep_blockLoop _ _

theorem keep_addBlockedCube (A : PDR I) (t : TCube) : Keep (On Q) (A.addBlockedCube t) := by
  unfold addBlockedCube
  cases t.frame with
  | ok i =>
    exact Keep.bind keep_depth fun _ => Keep.read fun s hs => Keep.bind (Keep.lift _) fun f => Keep.bind (Keep.lift _) fun l =>
      Keep.bind (Keep.write (P := On Q) hs) fun _ => keep_blockCubeInSolver A t
  | null => exact Keep.lift _
  | inf => exact Keep.lift _

theorem keep_newFrameSolvers (A : PDR I) : Keep (On Q) A.newFrameSolvers := by
  unfold newFrameSolvers
  refine Keep.bind (keep_checkLengths A _ _) fun _ => Keep.read fun s hs => ?_
  split
  · exact Keep.bind (Keep.lift _) fun _ => Keep.bind (Keep.lift _) fun _ => Keep.bind (Keep.lift _) fun _ =>
      Keep.bind (Keep.write (P := On Q) hs) fun _ => keep_checkLengths A _ _
  · exact Keep.bind (Keep.lift _) fun _ => Keep.bind (Keep.lift _) fun _ =>
      Keep.bind (Keep.write (P := On Q) hs) fun _ => keep_checkLengths A _ _

theorem keep_newFrame (A : PDR I) : Keep (On Q) A.newFrame :=
  Keep.read fun _ hs => Keep.ite (Keep.lift _) (Keep.bind (Keep.lift _) fun _ => Keep.bind (Keep.write (P := On Q) hs) fun _ => keep_newFrameSolvers A)

theorem keep_getRi (A : PDR I) (i : Nat) : Keep (On Q) (A.getRi i) :=
  Keep.read fun _ _ => Keep.bind (Keep.lift _) fun _ => Keep.bind (Keep.lift _) fun _ => Keep.ite (Keep.pure _) (Keep.pure _)

/-- `Flags` as a statement about the two flags. -/
abbrev FlagQ (f : Fsts) (p b : Bool) : Prop :=
  (p = false → ∀ n ∈ f.stateLits, n ∈ f.coneTransition) ∧ (b = false → ∀ n ∈ f.stateLits, n ∈ f.coneSafety)

/-- The latches the cone of the next states keeps. -/
theorem mem_coneTransition {c : Circuit} {bads : List Nat} (h : Laws f c bads) (hw : c.WF) {n : Nat} :
    n ∈ f.coneTransition ↔ ∃ i, i < c.latches.length ∧ n = c.latchVar i ∧ ReadByNext c i := by
  rw [h.coneTransition, mem_states h]
  constructor
  · rintro ⟨⟨i, hi, rfl⟩, d, hd, l, hl, e⟩
    refine ⟨i, hi, rfl, ?_⟩
    rcases (h.trans_mem d).1 hd with ⟨j, p, hp, hm⟩ | ⟨g, p, hp, hc, hm⟩
    · rcases latchClauses_number hm hl with e' | e'
      · have : c.latchVar i ≤ c.maxVar := by unfold Circuit.latchVar Circuit.maxVar; omega
        have : 1 ≤ c.latchVar j := by unfold Circuit.latchVar; omega
        omega
      · exact .inl ⟨p, List.mem_of_getElem? hp, by omega⟩
    · exact .inr ⟨g, p, hp, hc, gateClauses_reads hm hl e (by unfold Circuit.latchVar Circuit.andVar; omega)⟩
  · rintro ⟨i, hi, rfl, hr⟩
    refine ⟨⟨i, hi, rfl⟩, ?_⟩
    have h0 : 1 ≤ c.latchVar i := by unfold Circuit.latchVar; omega
    rcases hr with ⟨p, hp, e⟩ | ⟨g, p, hp, hc, h1, h2, h3⟩
    · obtain ⟨j, hj⟩ := List.mem_iff_getElem?.1 hp
      refine ⟨Clause.new [(⟨2 * (c.latchVar j + c.maxVar)⟩ : Literal).not, ⟨p.1⟩], (h.trans_mem _).2 (.inl ⟨j, p, hj, ?_⟩), ⟨p.1⟩, by simp,
        (literal_number_mk _).trans e⟩
      unfold latchClauses
      rw [if_neg (by simp; omega), if_neg (by simp; omega)]
      simp
    · rcases h3 with h3 | h3
      · obtain ⟨d, hd, m, hm, em⟩ := coneClause_mentions hp hc h1 h2 (.inl rfl) (by omega)
        exact ⟨d, (h.trans_mem d).2 (.inr hd), m, hm, by rw [em, h3]⟩
      · obtain ⟨d, hd, m, hm, em⟩ := coneClause_mentions hp hc h1 h2 (.inr rfl) (by omega)
        exact ⟨d, (h.trans_mem d).2 (.inr hd), m, hm, by rw [em, h3]⟩

theorem all_kept {c : Circuit} {bads : List Nat} (h : Laws f c bads) {k : List Nat} {p : Nat → Prop}
    (hk : ∀ n, n ∈ k ↔ ∃ i, i < c.latches.length ∧ n = c.latchVar i ∧ p i) :
    (∀ n ∈ f.stateLits, n ∈ k) ↔ ∀ i, i < c.latches.length → p i := by
  constructor
  · intro ha i hi
    obtain ⟨j, _, e, hp⟩ := (hk _).1 (ha _ ((mem_states h).2 ⟨i, hi, rfl⟩))
    have : i = j := by unfold Circuit.latchVar at e; omega
    exact this ▸ hp
  · intro ha n hn
    obtain ⟨i, hi, rfl⟩ := (mem_states h).1 hn
    exact (hk _).2 ⟨i, hi, rfl, ha i hi⟩

theorem flags_iff {c : Circuit} {bads : List Nat} (h : Laws f c bads) (hw : c.WF) {s : St I} : Flags c bads s ↔ On (FlagQ f) s := by
  have h1 := all_kept h fun n => mem_coneTransition h hw (n := n)
  have h2 := all_kept h fun n => mem_coneSafety h hw (n := n)
  exact ⟨fun hf => ⟨fun e => h1.2 (hf.pred e), fun e => h2.2 (hf.bad e)⟩, fun hf => ⟨fun e => h1.1 (hf.1 e), fun e => h2.1 (hf.2 e)⟩⟩

/-! ## The two reductions -/

/-- The literals of an extracted state are those of the latches. -/
theorem extractState_numbers {dbg : Bool} {a : Assignment} {z : Cube} (h31 : ∀ n ∈ f.stateLits, 0 < n ∧ n < 2147483648)
    (e : f.extractState dbg a = .ok z) : Cube.new z.iter = z ∧ (∀ l ∈ z.iter, l.number ∈ f.stateLits) ∧
      (z.iter.map Literal.number).Perm f.stateLits := by
  unfold extractState at e
  rw [bind_ok] at e
  obtain ⟨ls, hls, e⟩ := e
  cases Except.ok.inj e
  have one : ∀ n l, n ∈ f.stateLits → stateLiteral dbg a n = .ok l → l.number = n := by
    intro n l hn hl
    unfold stateLiteral at hl
    rw [Literal.new_ok dbg (h31 n hn).1 (h31 n hn).2, ok_bind, bind_ok] at hl
    obtain ⟨b, _, hl⟩ := hl
    cases Except.ok.inj hl
    rw [Literal.number_negateIfTrue, literal_number_mk]
    omega
  have key : ls.map Literal.number = f.stateLits := by
    rw [mapM_ok_iff] at hls
    refine List.ext_getElem? fun i => ?_
    rw [List.getElem?_map]
    cases hi : f.stateLits[i]? with
    | none =>
      rw [List.getElem?_eq_none (by rw [hls.1]; exact List.getElem?_eq_none_iff.1 hi)]
      rfl
    | some n =>
      obtain ⟨b, hb, hx⟩ := hls.2 i _ hi
      rw [hb, ← one _ _ (List.mem_of_getElem? hi) hx]
      rfl
  have hp : ((Cube.new ls).iter.map Literal.number).Perm f.stateLits := key ▸ (sortBy_perm _ ls).map _
  exact ⟨Cube.new_lits (Cube.sorted_new _), fun l hl => hp.mem_iff.1 (List.mem_map_of_mem hl), hp⟩

/-- Reducing with a full cone changes nothing. -/
theorem reduce_full {z : Cube} {cone : List Nat} (hz : Cube.new z.iter = z) (h : ∀ l ∈ z.iter, l.number ∈ cone) :
    Cube.new (z.iter.filter (fun l => cone.contains l.number)) = z := by
  rw [List.filter_eq_self.2 (fun l hl => List.contains_iff_mem.2 (h l hl)), hz]

/-- If the reduction keeps the length, it keeps everything. -/
theorem reduce_len {z : Cube} {cone : List Nat} (h : (Cube.new (z.iter.filter (fun l => cone.contains l.number))).len = z.len) :
    ∀ l ∈ z.iter, l.number ∈ cone := by
  unfold Cube.len Cube.new at h
  rw [length_sortBy] at h
  intro l hl
  exact List.contains_iff_mem.1 (List.length_filter_eq_length_iff.1 h l hl)

/-- What `z_get_bad_cube` returns: the extracted state, reduced, whatever the flag. -/
def BadCube (A : PDR I) (p b : Bool) (z : Cube) (s' : St I) : Prop :=
  ∃ a full, A.fsts.extractState A.dbg a = .ok full ∧ z = A.fsts.intersectSafety full ∧ s'.coneBad = (b && z.len != full.len) ∧ s'.conePred = p

theorem getBadCube_flags {A : PDR I} (h31 : ∀ n ∈ A.fsts.stateLits, 0 < n ∧ n < 2147483648) {p b : Bool} (h : FlagQ A.fsts p b) :
    Tri (fun _ => True) (On fun p' b' => p' = p ∧ b' = b) A.getBadCube
      (fun r s' => On (FlagQ A.fsts) s' ∧ (r = none → s'.conePred = p ∧ s'.coneBad = b) ∧ ∀ z, r = some z → BadCube A p b z s') := by
  unfold getBadCube
  refine Tri.bind keep_depth fun d => Tri.bind (keep_call _ _ _ _) fun r => ?_
  cases r with
  | unsat => exact Tri.pure fun s ⟨e1, e2⟩ => ⟨by rw [← e1, ← e2] at h; exact h, fun _ => ⟨e1, e2⟩, fun z e => by cases e⟩
  | sat a =>
    dsimp only
    cases he : A.fsts.extractState A.dbg a with
    | error e => exact fun _ _ => trivial
    | ok full =>
      obtain ⟨hn, hin, hall⟩ := extractState_numbers h31 he
      refine Tri.bind (Tri.lift_ok (Q := fun x s => x = full ∧ s.conePred = p ∧ s.coneBad = b) rfl fun s hs => ⟨rfl, hs⟩) fun x => ?_
      refine Tri.bind (R := fun x' s => x = full ∧ x' = s ∧ s.conePred = p ∧ s.coneBad = b) (Tri.get fun s hs => ⟨hs.1, rfl, hs.2⟩) fun s => ?_
      refine Tri.of_pre (A := x = full ∧ s.conePred = p ∧ s.coneBad = b) (fun s' ⟨h1, h2, h3⟩ => ⟨h1, h2 ▸ h3⟩) ?_
      rintro ⟨rfl, rfl, rfl⟩
      refine Tri.ite (fun hc => ?_) (fun hc => ?_)
      · have hle := kept_len x (fun l => A.fsts.coneSafety.contains l.number)
        refine Tri.bind (Tri.lift_ok (a := ()) (Q := fun _ s' => s = s') (IC3.Stateful.debugAssert_ok _ _ (decide_eq_true hle)) fun s' hs' => hs'.2.1) fun _ => ?_
        refine Tri.bind (Tri.set (Q := fun _ s' => s' = { s with coneBad := x.len != (A.fsts.intersectSafety x).len }) fun _ _ => rfl) fun _ => ?_
        refine Tri.pure fun s' e => ?_
        subst e
        refine ⟨⟨h.1, fun e n hn' => ?_⟩, (fun e => by cases e), fun z e => ?_⟩
        · obtain ⟨l, hl, rfl⟩ := List.mem_map.1 (hall.mem_iff.2 hn')
          exact reduce_len (Eq.symm (bne_eq_false_iff_eq.1 e)) l hl
        · cases Option.some.inj e
          refine ⟨a, x, he, rfl, ?_, rfl⟩
          rw [hc]
          show (x.len != _) = _
          rw [Bool.true_and, bne_comm]
      · refine Tri.pure fun s' hs' => ?_
        obtain ⟨_, rfl, _⟩ := hs'
        refine ⟨h, (fun e => by cases e), fun z e => ?_⟩
        cases Option.some.inj e
        refine ⟨a, x, he, ?_, ?_, rfl⟩
        · exact (reduce_full hn fun l hl => h.2 (by simpa using hc) _ (hin l hl)).symm
        · have : s.coneBad = false := by simpa using hc
          rw [this]; rfl

/-- What `z_solve_relative` returns with a model: the extracted state, reduced, whatever the flag. -/
def Predecessor (A : PDR I) (p : Bool) (z : Cube) (s' : St I) : Prop :=
  ∃ a full, A.fsts.extractState A.dbg a = .ok full ∧ z = A.fsts.intersectTransition full ∧ s'.conePred = (p && z.len != full.len)

theorem solveRelative_flags {A : PDR I} (h31 : ∀ n ∈ A.fsts.stateLits, 0 < n ∧ n < 2147483648) {p b : Bool} (h : FlagQ A.fsts p b) (t : TCube)
    (q : Param) : Tri (fun _ => True) (On fun p' b' => p' = p ∧ b' = b) (A.solveRelative t q)
      (fun r s' => On (FlagQ A.fsts) s' ∧ s'.coneBad = b ∧ (¬ (q = .extractModel ∧ r.frame = .null) → s'.conePred = p) ∧
        (q = .extractModel → r.frame = .null → Predecessor A p r.cube s')) := by
  unfold solveRelative
  cases hf : t.frame with
  | null => exact fun _ _ => trivial
  | inf => exact fun _ _ => trivial
  | ok i =>
    dsimp only
    refine Tri.read fun s0 => ?_
    refine Tri.bind (Keep.lift _) fun _ => Tri.bind (Keep.lift _) fun _ => Tri.ite (fun _ _ _ => trivial) fun _ => ?_
    refine Tri.bind (keep_call _ _ _ _) fun r => ?_
    cases r with
    | unsat => exact Tri.pure fun s ⟨e1, e2⟩ => ⟨by rw [← e1, ← e2] at h; exact h, e2, fun _ => e1, fun _ e => by rw [hf] at e; cases e⟩
    | sat a =>
      dsimp only
      refine Tri.ite (fun hq => ?_) (fun hq => Tri.pure fun s ⟨e1, e2⟩ => ⟨by rw [← e1, ← e2] at h; exact h, e2, fun _ => e1, fun e => absurd e hq⟩)
      cases he : A.fsts.extractState A.dbg a with
      | error e => exact fun _ _ => trivial
      | ok full =>
        obtain ⟨hn, hin, hall⟩ := extractState_numbers h31 he
        refine Tri.bind (Tri.lift_ok (Q := fun x s => x = full ∧ s.conePred = p ∧ s.coneBad = b) rfl fun s hs => ⟨rfl, hs⟩) fun x => ?_
        refine Tri.bind (R := fun x' s => x = full ∧ x' = s ∧ s.conePred = p ∧ s.coneBad = b) (Tri.get fun s hs => ⟨hs.1, rfl, hs.2⟩) fun s => ?_
        refine Tri.of_pre (A := x = full ∧ s.conePred = p ∧ s.coneBad = b) (fun s' ⟨h1, h2, h3⟩ => ⟨h1, h2 ▸ h3⟩) ?_
        rintro ⟨rfl, rfl, rfl⟩
        refine Tri.ite (fun hc => ?_) (fun hc => ?_)
        · have hle := kept_len x (fun l => A.fsts.coneTransition.contains l.number)
          refine Tri.bind (Tri.lift_ok (a := ()) (Q := fun _ s' => s = s') (IC3.Stateful.debugAssert_ok _ _ (decide_eq_true hle)) fun s' hs' => hs'.2.1) fun _ => ?_
          refine Tri.bind (Tri.set (Q := fun _ s' => s' = { s with conePred := x.len != (A.fsts.intersectTransition x).len }) fun _ _ => rfl) fun _ => ?_
          refine Tri.pure fun s' e => ?_
          subst e
          refine ⟨⟨fun e n hn' => ?_, h.2⟩, rfl, fun e => absurd ⟨hq, rfl⟩ e, fun _ _ => ⟨a, x, he, rfl, ?_⟩⟩
          · obtain ⟨l, hl, rfl⟩ := List.mem_map.1 (hall.mem_iff.2 hn')
            exact reduce_len (Eq.symm (bne_eq_false_iff_eq.1 e)) l hl
          · rw [hc]
            show (x.len != _) = _
            rw [Bool.true_and, bne_comm]
        · refine Tri.pure fun s' hs' => ?_
          obtain ⟨_, rfl, _⟩ := hs'
          refine ⟨h, rfl, fun _ => rfl, fun _ _ => ⟨a, x, he, ?_, ?_⟩⟩
          · exact (reduce_full hn fun l hl => h.1 (by simpa using hc) _ (hin l hl)).symm
          · have : s.conePred = false := by simpa using hc
            rw [this]; rfl

theorem solveRelative_other {A : PDR I} {p b : Bool} (t : TCube) {q : Param} (hq : q ≠ .extractModel) :
    Keep (On fun p' b' => p' = p ∧ b' = b) (A.solveRelative t q) := by
  unfold solveRelative
  cases hf : t.frame with
  | null => exact fun _ _ => trivial
  | inf => exact fun _ _ => trivial
  | ok i =>
    dsimp only
    refine Keep.read fun _ _ => Keep.bind (Keep.lift _) fun _ => Keep.bind (Keep.lift _) fun _ => Keep.ite (fun _ _ => trivial) ?_
    refine Keep.bind (keep_call _ _ _ _) fun r => ?_
    cases r with
    | unsat => exact Keep.pure _
    | sat a => exact Tri.ite (fun e => absurd e hq) fun _ => Keep.pure _

/-! ## The rest keeps the flags honest -/

theorem keep_getBadCube {A : PDR I} (h31 : ∀ n ∈ A.fsts.stateLits, 0 < n ∧ n < 2147483648) : Keep (On (FlagQ A.fsts)) A.getBadCube :=
  fun s hs => Post.mono (getBadCube_flags h31 hs s ⟨rfl, rfl⟩) (fun _ h => h) fun _ _ h => h.1

theorem keep_solveRelative {A : PDR I} (h31 : ∀ n ∈ A.fsts.stateLits, 0 < n ∧ n < 2147483648) (t : TCube) (q : Param) :
    Keep (On (FlagQ A.fsts)) (A.solveRelative t q) :=
  fun s hs => Post.mono (solveRelative_flags h31 hs t q s ⟨rfl, rfl⟩) (fun _ h => h) fun _ _ h => h.1

section

variable {A : PDR I} (h31 : ∀ n ∈ A.fsts.stateLits, 0 < n ∧ n < 2147483648)
include h31

theorem keep_generalizeLoop (fr : Frame) : ∀ b lits j, Keep (On (FlagQ A.fsts)) (A.generalizeLoop fr b lits j) := by
  intro b
  induction b with
  | zero => intro lits j; unfold generalizeLoop; exact Keep.ite (Keep.lift _) (Keep.pure _)
  | succ b ih =>
    intro lits j
    unfold generalizeLoop
    refine Keep.ite (Keep.bind (Keep.lift _) fun x => ?_) (Keep.pure _)
    refine Keep.bind (Keep.ite (Keep.pure _) (Keep.bind (keep_solveRelative h31 _ _) fun _ => Keep.pure _)) fun d => ?_
    exact Keep.ite (ih _ _) (Keep.bind (Keep.lift _) fun _ => ih _ _)

theorem keep_generalize (t : TCube) : Keep (On (FlagQ A.fsts)) (A.generalize t) :=
  Keep.bind keep_fresh fun _ => Keep.bind (keep_generalizeLoop h31 _ _ _ _) fun _ => Keep.pure _

theorem keep_propagateLoop (k : Nat) : ∀ b i, Keep (On (FlagQ A.fsts)) (A.propagateLoop k b i) := by
  intro b
  induction b with
  | zero =>
    intro i
    unfold propagateLoop
    refine Keep.read fun s _ => Keep.bind (Keep.lift _) fun l => ?_
    cases l[i]? <;> first | exact Keep.pure _ | exact Keep.lift _
  | succ b ih =>
    intro i
    unfold propagateLoop
    refine Keep.read fun s _ => Keep.bind (Keep.lift _) fun l => ?_
    cases l[i]? with
    | none => exact Keep.pure _
    | some c =>
      exact Keep.bind (keep_solveRelative h31 _ _) fun r => Keep.ite (Keep.bind (keep_addBlockedCube A _) fun _ => ih _) (ih _)

theorem keep_propagateFrames : ∀ ks, Keep (On (FlagQ A.fsts)) (A.propagateFrames ks)
  | [] => Keep.pure _
  | k :: ks => Keep.read fun s _ => Keep.bind (Keep.lift _) fun _ => Keep.bind (keep_propagateLoop h31 _ _ _) fun _ => Keep.read fun _ _ =>
      Keep.bind (Keep.lift _) fun _ => Keep.ite (Keep.pure _) (keep_propagateFrames ks)

theorem keep_propagate : Keep (On (FlagQ A.fsts)) A.propagateBlockedCubes := Keep.bind keep_depth fun _ => keep_propagateFrames h31 _

theorem keep_forwardLoop : ∀ b z zf, Keep (On (FlagQ A.fsts)) (A.forwardLoop b z zf) := by
  intro b
  induction b with
  | zero =>
    intro z zf
    unfold forwardLoop
    exact Keep.bind keep_depth fun _ => Keep.ite (Keep.lift _) (Keep.ite (Keep.lift _) (Keep.pure _))
  | succ b ih =>
    intro z zf
    unfold forwardLoop
    refine Keep.bind keep_depth fun _ => Keep.ite (Keep.lift _) (Keep.ite ?_ (Keep.pure _))
    refine Keep.bind (Keep.lift _) fun n => Keep.bind (keep_solveRelative h31 _ _) fun y => Keep.ite (Keep.bind (Keep.lift _) fun _ => ?_) (Keep.pure _)
    cases y.frame with
    | ok i => exact ih _ _
    | null => exact Keep.lift _
    | inf => exact Keep.lift _

theorem keep_handle (t : TCube) (sf : Nat) (q : PQueue TCube) : Keep (On (FlagQ A.fsts)) (A.handle t sf q) := by
  unfold handle
  refine Keep.bind (Keep.lift _) fun _ => Keep.bind (keep_solveRelative h31 _ _) fun z => Keep.ite ?_ (Keep.bind (Keep.lift _) fun _ => Keep.pure _)
  refine Keep.bind (keep_generalize h31 _) fun z => Keep.bind (Keep.lift _) fun _ => ?_
  cases z.frame with
  | ok i =>
    refine Keep.bind keep_depth fun _ => Keep.bind (keep_forwardLoop h31 _ _ _) fun z => Keep.bind (Keep.lift _) fun _ =>
      Keep.bind (keep_addBlockedCube A _) fun _ => Keep.bind (Keep.lift _) fun _ => Keep.bind keep_depth fun _ => Keep.ite ?_ (Keep.pure _)
    refine Keep.bind (Keep.lift _) fun n => ?_
    cases n.frame with
    | ok i => exact Keep.pure _
    | null => exact Keep.lift _
    | inf => exact Keep.lift _
  | null => exact Keep.lift _
  | inf => exact Keep.lift _

theorem keep_blockQueue : ∀ fuel q, Keep (On (FlagQ A.fsts)) (A.blockQueue fuel q) := by
  intro fuel
  induction fuel with
  | zero => intro q; unfold blockQueue; exact Keep.ite (Keep.pure _) (Keep.lift _)
  | succ fuel ih =>
    intro q
    unfold blockQueue
    refine Keep.ite (Keep.pure _) (Keep.bind keep_fresh fun _ => Keep.bind (Keep.lift _) fun x => ?_)
    obtain ⟨⟨s, n⟩, q⟩ := x
    dsimp only
    cases s.frame with
    | ok i =>
      exact Keep.ite (Keep.pure _) (Keep.bind (keep_isBlocked _) fun _ => Keep.ite (ih _) (Keep.bind (keep_handle h31 _ _ _) fun _ => ih _))
    | null => exact Keep.lift _
    | inf => exact Keep.lift _

theorem keep_recBlockCube (fuel : Nat) (t : TCube) : Keep (On (FlagQ A.fsts)) (A.recBlockCube fuel t) := by
  unfold recBlockCube
  cases t.frame with
  | ok i => exact keep_blockQueue h31 _ _
  | null => exact Keep.lift _
  | inf => exact Keep.lift _

theorem keep_mainLoop (fuel : Nat) : ∀ rounds, Keep (On (FlagQ A.fsts)) (A.mainLoop fuel rounds)
  | 0 => Keep.lift _
  | rounds + 1 => by
    refine Keep.bind (keep_getBadCube h31) fun r => ?_
    cases r with
    | some c =>
      exact Keep.bind keep_depth fun _ => Keep.bind (keep_recBlockCube h31 _ _) fun _ => Keep.ite (keep_mainLoop fuel rounds)
        (Keep.bind keep_depth fun _ => Keep.bind (Keep.lift _) fun _ => Keep.pure _)
    | none =>
      refine Keep.bind (keep_newFrame A) fun _ => Keep.bind (keep_propagate h31) fun r => ?_
      cases r with
      | some i => exact Keep.bind (keep_getRi A _) fun _ => Keep.pure _
      | none => exact keep_mainLoop fuel rounds

theorem keep_prove (fuel : Nat) : Keep (On (FlagQ A.fsts)) (A.prove fuel) :=
  Keep.read fun _ hs => Keep.bind (Keep.write (P := On (FlagQ A.fsts)) hs) fun _ => Keep.bind (keep_newFrame A) fun _ => keep_mainLoop h31 _ _

theorem calls_flags {s s' : St I} (hs : On (FlagQ A.fsts) s) (h : Calls A s s') : On (FlagQ A.fsts) s' := by
  induction h with
  | none => exact hs
  | getBadCube _ e ih => exact (keep_getBadCube h31).elim ih e
  | solveRelative _ e ih => exact (keep_solveRelative h31 _ _).elim ih e
  | isBlocked _ e ih => exact (keep_isBlocked _).elim ih e
  | addBlockedCube _ e ih => exact (keep_addBlockedCube A _).elim ih e
  | generalize _ e ih => exact (keep_generalize h31 _).elim ih e
  | newFrame _ e ih => exact (keep_newFrame A).elim ih e
  | propagate _ e ih => exact (keep_propagate h31).elim ih e
  | recBlockCube _ e ih => exact (keep_recBlockCube h31 _ _).elim ih e
  | prove _ e ih => exact (keep_prove h31 _).elim ih e

end

/-- The reduced state fixes the latches of the cone; it is shorter iff there are others. -/
theorem reduced_fixes {c : Circuit} {bads : List Nat} (h : Laws f c bads) {full : Cube} (hp : (full.iter.map Literal.number).Perm f.stateLits)
    {k : List Nat} {p : Nat → Prop} (hk : ∀ n, n ∈ k ↔ ∃ i, i < c.latches.length ∧ n = c.latchVar i ∧ p i) :
    Fixes c p (Cube.new (full.iter.filter (fun l => k.contains l.number))) ∧
      ((Cube.new (full.iter.filter (fun l => k.contains l.number))).len ≠ full.len ↔ ∃ i, i < c.latches.length ∧ ¬ p i) := by
  have hn : (full.iter.map Literal.number).Nodup := by
    rw [hp.nodup_iff, h.states]
    exact List.nodup_range'
  have hperm : ((Cube.new (full.iter.filter (fun l => k.contains l.number))).iter.map Literal.number).Perm
    ((full.iter.filter (fun l => k.contains l.number)).map Literal.number) := (sortBy_perm _ _).map _
  refine ⟨⟨hperm.nodup_iff.2 (hn.sublist (List.filter_sublist.map _)), fun n => ?_⟩, ?_⟩
  · rw [hperm.mem_iff, ← hk n, List.mem_map]
    constructor
    · rintro ⟨l, hl, rfl⟩
      exact List.contains_iff_mem.1 (List.mem_filter.1 hl).2
    · intro hnk
      obtain ⟨i, hi, rfl, _⟩ := (hk n).1 hnk
      obtain ⟨l, hl, e⟩ := List.mem_map.1 (hp.mem_iff.2 ((mem_states h).2 ⟨i, hi, rfl⟩))
      exact ⟨l, List.mem_filter.2 ⟨hl, List.contains_iff_mem.2 (e ▸ hnk)⟩, e⟩
  · constructor
    · intro hlen
      refine Classical.byContradiction fun hno => hlen ?_
      have hall : ∀ l ∈ full.iter, l.number ∈ k := by
        intro l hl
        obtain ⟨i, hi, e⟩ := (mem_states h).1 (hp.mem_iff.1 (List.mem_map_of_mem hl))
        exact (hk _).2 ⟨i, hi, e, Classical.byContradiction fun hpi => hno ⟨i, hi, hpi⟩⟩
      rw [List.filter_eq_self.2 fun l hl => List.contains_iff_mem.2 (hall l hl)]
      exact length_sortBy
    · rintro ⟨i, hi, hpi⟩ hlen
      obtain ⟨l, hl, e⟩ := List.mem_map.1 (hp.mem_iff.2 ((mem_states h).2 ⟨i, hi, rfl⟩))
      obtain ⟨j, _, e', hpj⟩ := (hk _).1 (reduce_len hlen l hl)
      rw [e] at e'
      have : i = j := by unfold Circuit.latchVar at e'; omega
      exact hpi (this ▸ hpj)

theorem states_small {c : Circuit} {bads : List Nat} (S : SmallSys f c bads) : ∀ n ∈ f.stateLits, 0 < n ∧ n < 2147483648 := by
  intro n hn
  obtain ⟨i, hi, rfl⟩ := (mem_states S.laws).1 hn
  have := S.small
  unfold Circuit.Small Circuit.maxVar at this
  unfold Circuit.latchVar
  omega

end Verif.PDR
