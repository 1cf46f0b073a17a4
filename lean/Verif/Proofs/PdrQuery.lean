import Verif.Proofs.PdrSolvers
import Verif.Proofs.Extract

/-! # PDR: what the queries and the cubes made from their answers mean -/

namespace Verif.PDR

open Fsts IC3

variable {sys : Fsts} {c : Circuit} {bads : List Nat} {f f' : List (List Cube)} {I : StatefulImpl} {F : Err → Prop} {O : I.OK F} {d m k : Nat} {L : Prop}

/-! ## Cubes -/

/-- Every state of `p` has inputs under which `Q` holds. -/
def Leads (c : Circuit) (p : Cube) (Q : Val → Prop) : Prop := ∀ w, p.holds w → ∃ x, c.SameState x w ∧ Q x

theorem holds_consistent {p : Cube} {v : Val} (h : p.holds v) : ∀ l ∈ p.iter, l.not ∉ p.iter := by
  intro l hl hn
  exact (Literal.holds_not _ _).1 (h _ hn) (h l hl)

/-- The cube of the latches of `v` in `k`. -/
theorem kept_holds {v : Val} {k : List Nat} {w : Val} (hw : (Cube.new ((stateCube c v).iter.filter (fun l => k.contains l.number))).holds w)
    {i : Nat} (hi : i < c.latches.length) (hk : c.latchVar i ∈ k) : w (c.latchVar i) = v (c.latchVar i) := by
  rw [Cube.holds_new] at hw
  have := hw (valueLit (c.latchVar i) (v (c.latchVar i))) (List.mem_filter.2 ⟨mem_stateCube.2 ⟨i, hi, rfl⟩, by
    rw [valueLit_number]; simpa using hk⟩)
  exact valueLit_holds.1 this

theorem kept_latchCube (v : Val) (k : List Nat) : LatchCube c (Cube.new ((stateCube c v).iter.filter (fun l => k.contains l.number))) :=
  ⟨Cube.sorted_new _, fun l hl => by rw [Cube.mem_new, List.mem_filter] at hl; exact stateCube_latch hl.1⟩

theorem kept_self (v : Val) (k : List Nat) : (Cube.new ((stateCube c v).iter.filter (fun l => k.contains l.number))).holds v := by
  rw [Cube.holds_new]
  intro l hl
  exact stateCube_holds.2 (fun _ _ => rfl) l (List.mem_filter.1 hl).1

theorem kept_len (p : Cube) (k : Literal → Bool) : (Cube.new (p.iter.filter k)).len ≤ p.len := by
  unfold Cube.len Cube.new
  rw [length_sortBy]
  exact List.length_filter_le _ _

/-- Inputs of `v`, everything else of `w`. -/
def mix (c : Circuit) (v w : Val) : Val := fun x => if x ≤ c.numInputs then v x else w x

theorem mix_sameState (v w : Val) : c.SameState (mix c v w) w := by
  intro i _
  unfold mix
  rw [if_neg (by unfold Circuit.latchVar; omega)]

theorem mix_agree {k : List Nat} (hst : ∀ n ∈ k, ∃ i, i < c.latches.length ∧ n = c.latchVar i) {v w : Val}
    (hw : (Cube.new ((stateCube c v).iter.filter (fun l => k.contains l.number))).holds w) : ∀ x ∈ k, v x = mix c v w x := by
  intro x hx
  obtain ⟨i, hi, rfl⟩ := hst x hx
  unfold mix
  rw [if_neg (by unfold Circuit.latchVar; omega), kept_holds hw hi hx]

theorem reduced_leads (h : Laws sys c bads) (hw : c.WF) {v v' : Val} (ht : c.Trans v v') :
    Leads c (sys.intersectTransition (stateCube c v)) (fun x => c.Trans x v') := by
  intro w hwv
  refine ⟨mix c v w, mix_sameState v w, fun i p hp => ?_⟩
  rw [ht i p hp]
  refine transition_cone_indep h hw (fun x _ h2 => ?_) (mix_agree (fun n hn => (mem_states h).1 ((h.coneTransition n).1 hn).1) hwv) hp
  unfold mix; rw [if_pos h2]

theorem state_leads {v v' : Val} (ht : c.Trans v v') : Leads c (stateCube c v) (fun x => c.Trans x v') :=
  fun _ hwv => ⟨v, sameState_symm (stateCube_holds.1 hwv), ht⟩

theorem reduced_bad (h : Laws sys c bads) (hw : c.WF) (hb : BadsOK c bads)
    (hl : c.Covered bads) {v : Val} (hv : c.BadAt bads v) :
    Leads c (sys.intersectSafety (stateCube c v)) (c.BadAt bads) := by
  intro w hwv
  refine ⟨mix c v w, mix_sameState v w, ?_⟩
  obtain ⟨b, hbm, hbv⟩ := hv
  refine ⟨b, hbm, ?_⟩
  rw [← hbv]
  refine (safety_cone_indep h hw hb hl (fun x _ h2 => ?_) (mix_agree (fun n hn => (mem_states h).1 ((h.coneSafety n).1 hn).1) hwv) hbm).symm
  unfold mix; rw [if_pos h2]

theorem state_bad {v : Val} (hv : c.BadAt bads v) : Leads c (stateCube c v) (c.BadAt bads) :=
  fun _ hwv => ⟨v, sameState_symm (stateCube_holds.1 hwv), hv⟩

/-! ## `z_solve_relative` -/

/-- The states the query of `z_solve_relative` starts from. -/
def From (c : Circuit) (f : List (List Cube)) (p : Param) (k : Nat) (z : Cube) (v : Val) : Prop := RR c f k v ∧ (p ≠ .noInd → ¬ z.holds v)

/-- What `z_solve_relative` returns. -/
def Relative (c : Circuit) (f : List (List Cube)) (p : Param) (k : Nat) (z : Cube) (r : TCube) : Prop :=
  (r = ⟨z, .ok (k + 1)⟩ ∧ ∀ v v', From c f p k z v → c.Trans v v' → ¬ z.holds v') ∨
  (r.frame = .null ∧ ∃ v v', From c f p k z v ∧ c.Trans v v' ∧ z.holds v' ∧
    (p = .extractModel → LatchCube c r.cube ∧ r.cube.holds v ∧ Leads c r.cube (fun x => c.Trans x v')) ∧
    (p ≠ .extractModel → r.cube = Cube.new []))

theorem setCone_inv {fm : Formulas} {s : St I} (h : Inv O fm s f) (a b : Bool) : Inv O fm { s with conePred := a, coneBad := b } f :=
  ⟨h.f_eq, fun w => by rw [← h.len w]; cases w <;> rfl, fun w i x hx => h.rep w i x (by cases w <;> exact hx)⟩

theorem from_enc (S : SmallSys sys c bads) (hc : ∀ j, ∀ z ∈ fr f j, LatchCube c z) (p : Param) (k : Nat) {z : Cube} (hz : LatchCube c z) :
    ∃ g, Enc c g (From c f p k z) ∧ ∀ w, g.holds w ↔ From c f p k z w := by
  have h1 := rCnf_enc S.laws hc k
  by_cases hp : p = .noInd
  · refine ⟨rCnf sys f k, h1.congr fun v => ?_, fun w => ?_⟩
    · exact ⟨fun h => ⟨h, fun h' => absurd hp h'⟩, fun h => h.1⟩
    · rw [rCnf_holds S.laws]
      exact ⟨fun h => ⟨h, fun h' => absurd hp h'⟩, fun h => h.1⟩
  · refine ⟨(rCnf sys f k).addClause z.not, (IC3.Enc.addClause h1 hz.not).congr fun v => ?_, fun w => ?_⟩
    · rw [Cube.holds_not]
      exact ⟨fun h => ⟨h.1, fun _ => h.2⟩, fun h => ⟨h.1, h.2 hp⟩⟩
    · rw [CNF.holds_addClause, Cube.holds_not, rCnf_holds S.laws]
      exact ⟨fun h => ⟨h.1, fun _ => h.2⟩, fun h => ⟨h.1, h.2 hp⟩⟩

theorem solveRelative_spec {A : PDR I} (S : SmallSys sys c bads) (hA : A.fsts = sys) (hc : ∀ j, ∀ z ∈ fr f j, LatchCube c z)
    (hlen : f.length = d + 2) (hk : k + 1 ≤ d) {z : Cube} (hz : LatchCube c z) (p : Param) :
    GTri F (Inv O (formulas sys)) f (A.solveRelative ⟨z, .ok (k + 1)⟩ p) (fun r f' => f' = f ∧ Relative c f p k z r) := by
  unfold solveRelative
  dsimp only
  rw [hA]
  refine GTri.read fun s hs => ?_
  have hl : s.riT.length = f.length - 1 := hs.len .riT
  refine GTri.bind (GTri.assert (by rw [hl]; simp; omega)) ?_
  rintro _ f rfl
  refine GTri.bind (GTri.lift_ok (Q := fun g f' => g = z.shift c.maxVar ∧ f' = f) (hz.shift_ok A.dbg S.laws.maxLit S.small) ⟨rfl, rfl⟩) ?_
  rintro _ f ⟨rfl, rfl⟩
  rw [if_neg (by omega), show k + 1 - 1 = k by omega]
  have hd : optHolds Clause.Good (if p = Param.noInd then none else some z.not) := by
    split
    · trivial
    · exact hz.not.good S.small
  have hsd : optHolds (fun c : Clause => c.lits.Pairwise (fun a b => a.le b = true)) (if p = Param.noInd then none else some z.not) := by
    split
    · trivial
    · exact hz.not.sorted
  refine GTri.bind (call_spec (f := f) (fm := formulas sys) (w := .riT) (i := k) (cube := some (z.shift c.maxVar)) (by omega) (hz.shift_good S.small) hd hsd) ?_
  rintro r f ⟨rfl, cs, hbase, hsem, hq, ht⟩
  obtain ⟨g, hg, hgh⟩ := from_enc S hc p k hz
  have hcl : ∀ w : Val, optHolds (Clause.holds w) (if p = Param.noInd then none else some z.not) ↔ (p ≠ .noInd → ¬ z.holds w) := by
    intro w
    split
    · rename_i hp; exact ⟨fun _ h => absurd hp h, fun _ => trivial⟩
    · rename_i hp
      show Clause.holds w z.not ↔ _
      rw [Cube.holds_not]; exact ⟨fun h _ => h, fun h => h hp⟩
  have ha := Ans.of_query S.laws (fun d hd => hbase d (mem_riT hd)) hq ht
  obtain ⟨h1, h2⟩ := Ans.step S.laws S.wf hg hz.enc (H := QueryHolds cs (some (z.shift c.maxVar)) (if p = Param.noInd then none else some z.not))
    (fun w => by
      rw [Cube.shift_toCnf_holds]
      unfold QueryHolds
      rw [hcl, hgh, hsem, base_riT S.laws]
      exact ⟨fun ⟨⟨⟨a, b⟩, e⟩, g, h⟩ => ⟨⟨⟨a, e⟩, h⟩, b, g⟩, fun ⟨⟨⟨a, e⟩, h⟩, b, g⟩ => ⟨⟨⟨a, b⟩, e⟩, g, h⟩⟩) ha
  cases r with
  | unsat => exact GTri.pure ⟨rfl, .inl ⟨rfl, h1 rfl⟩⟩
  | sat a =>
    obtain ⟨v, v', hv, ht, hzv, hval⟩ := h2 a rfl
    dsimp only
    refine GTri.ite (fun hp => ?_) (fun hp => ?_)
    · have hex := extractState_ok A.dbg S.laws (by have := S.small.encodable.max_lt; omega) hval
      refine GTri.bind (GTri.lift_ok (Q := fun p f'' => p = stateCube c v ∧ f'' = f) hex ⟨rfl, rfl⟩) ?_
      rintro _ f ⟨rfl, rfl⟩
      refine GTri.read fun s hs => ?_
      refine GTri.ite (fun _ => ?_) (fun _ => ?_)
      · refine GTri.bind (GTri.assert (decide_eq_true (kept_len _ _))) ?_
        rintro _ f rfl
        refine GTri.bind (GTri.write (g' := f) (Q := fun _ f' => f' = f) (setCone_inv hs _ s.coneBad) rfl) ?_
        rintro _ f rfl
        exact GTri.pure ⟨rfl, .inr ⟨rfl, v, v', hv, ht, hzv, fun _ => ⟨kept_latchCube v _, kept_self v _, reduced_leads S.laws S.wf ht⟩,
          fun h => absurd hp h⟩⟩
      · exact GTri.pure ⟨rfl, .inr ⟨rfl, v, v', hv, ht, hzv, fun _ => ⟨stateCube_latchCube c v, stateCube_holds.2 (fun _ _ => rfl), state_leads ht⟩,
          fun h => absurd hp h⟩⟩
    · exact GTri.pure ⟨rfl, .inr ⟨rfl, v, v', hv, ht, hzv, fun h => absurd h hp, fun _ => rfl⟩⟩

/-! ## `z_get_bad_cube` -/

/-- Every answer about a frame and `¬P` values all latches. -/
def Deep (c : Circuit) (bads : List Nat) : Prop := bads = [] ∨ ∃ b ∈ bads, c.andVar 0 ≤ b / 2

theorem getBadCube_spec {A : PDR I} (S : SmallSys sys c bads) (hA : A.fsts = sys) (hD : Deep c bads ∨ F (.panic "features.rs:107 unwrap"))
    (hc : ∀ j, ∀ z ∈ fr f j, LatchCube c z) (hlen : f.length = d + 2) :
    GTri F (Inv O (formulas sys)) f A.getBadCube (fun r f' => f' = f ∧
      (r = none → ∀ v, RR c f d v → ¬ c.BadAt bads v) ∧
      ∀ s, r = some s → LatchCube c s ∧ (∃ v, RR c f d v ∧ s.holds v ∧ c.BadAt bads v) ∧ (c.Covered bads → Leads c s (c.BadAt bads))) := by
  unfold getBadCube
  rw [hA]
  refine GTri.bind (depth_spec hlen) ?_
  rintro d' f' ⟨e1, e2⟩
  rw [e1, e2]
  clear e1 e2 d' f'
  refine GTri.bind (call_spec (f := f) (fm := formulas sys) (w := .notP) (i := d) (cube := none) (clause := none) (by omega) trivial trivial trivial) ?_
  rintro r f ⟨rfl, cs, hbase, hsem, hq, ht⟩
  have hbad := Enc.bad (g := CNF.new.append (sys.stateToSafety) |>.addClause sys.unsafety) S.laws S.wf S.bad
    ((CNF.WF.new.append S.laws.safety_wf).addClause (unsafety_sorted S.laws)) (fun d => by
      rw [CNF.mem_addClause, CNF.mem_append]; simp [CNF.new])
  have hg := (rCnf_enc S.laws hc d).append hbad
  have hH : ∀ w, QueryHolds cs none none w ↔ ((rCnf sys f d).append (CNF.new.append (sys.stateToSafety) |>.addClause sys.unsafety)).holds w := by
    intro w
    rw [CNF.holds_append, CNF.holds_addClause, CNF.holds_append, rCnf_holds S.laws]
    unfold QueryHolds
    rw [hsem, base_notP S.laws]
    exact ⟨fun ⟨⟨⟨a, b, g⟩, e⟩, _⟩ => ⟨⟨a, e⟩, ⟨new_holds w, b⟩, g⟩, fun ⟨⟨a, e⟩, ⟨_, b⟩, g⟩ => ⟨⟨⟨a, b, g⟩, e⟩, trivial, trivial⟩⟩
  cases r with
  | unsat =>
    refine GTri.pure ⟨rfl, fun _ v hv hb => ?_, fun _ h => by simp at h⟩
    exact hq _ ((hH _).2 (hg.complete v _ ⟨hv, hb⟩ (fun x _ _ => rfl)))
  | sat a =>
    obtain ⟨w, hw, hag⟩ := hq
    have hw' := hg.sound w ((hH w).1 hw)
    have hval : Deep c bads → IC3.Values c a w := by
      intro hD
      refine Ans.values hag fun i hi => ?_
      rcases hD with hD | ⟨b, hb, hbv⟩
      · obtain ⟨b, hbm, _⟩ := hw'.2
        rw [hD] at hbm; simp at hbm
      · refine ht ⟨b⟩ (.inl ⟨sys.unsafety, hbase _ mem_notP, ?_⟩) _ (latchVar_le c hi).1 ?_
        · show _ ∈ sys.unsafety.lits
          rw [S.laws.unsafety, Clause.mem_new, List.mem_map]; exact ⟨b, hb, rfl⟩
        · rw [literal_number_mk]
          unfold Circuit.andVar at hbv
          unfold Circuit.latchVar
          omega
    have hm : c.maxVar < 2147483648 := by have := S.small.encodable.max_lt; omega
    dsimp only
    refine GTri.bind (R := fun p f'' => p = stateCube c w ∧ f'' = f) ?_ ?_
    · by_cases hall : ∀ i, i < c.latches.length → (a.getValue (c.latchVar i)).isSome
      · exact GTri.lift_ok (Q := fun p f'' => p = stateCube c w ∧ f'' = f) (extractState_ok A.dbg S.laws hm (Ans.values hag hall)) ⟨rfl, rfl⟩
      · simp only [Classical.not_forall] at hall
        obtain ⟨i, hi, hnone⟩ := hall
        have hnone : a.getValue (c.latchVar i) = none := by simpa using hnone
        have hF := hD.resolve_left fun hD => by rw [hval hD i hi] at hnone; simp at hnone
        rw [extractState_panic A.dbg S.laws hm hi hnone]
        exact GTri.error hF
    rintro _ f ⟨rfl, rfl⟩
    refine GTri.read fun s hs => ?_
    refine GTri.ite (fun _ => ?_) (fun _ => ?_)
    · refine GTri.bind (GTri.assert (decide_eq_true (kept_len _ _))) ?_
      rintro _ f rfl
      refine GTri.bind (GTri.write (g' := f) (Q := fun _ f' => f' = f) (setCone_inv hs s.conePred _) rfl) ?_
      rintro _ f rfl
      refine GTri.pure ⟨rfl, fun h => by simp at h, ?_⟩
      intro _ e; cases e
      exact ⟨kept_latchCube w _, ⟨w, hw'.1, kept_self w _, hw'.2⟩, fun hL => reduced_bad S.laws S.wf S.bad hL hw'.2⟩
    · refine GTri.pure ⟨rfl, fun h => by simp at h, ?_⟩
      intro _ e; cases e
      exact ⟨stateCube_latchCube c w, ⟨w, hw'.1, stateCube_holds.2 (fun _ _ => rfl), hw'.2⟩, fun _ => state_bad hw'.2⟩

/-! ## `is_blocked` -/

theorem blocked_excludes {z s : Cube} {i j : Nat} (hz : z ∈ fr f j) (hij : i ≤ j) (hs : subsumes z s = true) {v : Val} (hv : RC f i v) :
    ¬ s.holds v := fun h => hv j hij z hz (subsumes_holds hs h)

theorem isBlocked_exact (S : SmallSys sys c bads) (hlen : f.length = d + 2) {i : Nat} (hi : i ≤ d) (s : Cube) :
    GTri F (Inv O (formulas sys)) f (isBlocked (I := I) ⟨s, .ok i⟩) (fun b f' => f' = f ∧
      (b = true ↔ (∃ j, i ≤ j ∧ ∃ z ∈ fr f j, subsumes z s = true) ∨ ∀ v, ¬ RR c f i v)) := by
  unfold isBlocked
  dsimp only
  refine GTri.read fun st hs => ?_
  have hany : ((st.f.drop i).any (fun cubes => cubes.any (fun c => subsumes c s))) = true ↔ ∃ j, i ≤ j ∧ ∃ z ∈ fr f j, subsumes z s = true := by
    rw [hs.f_eq, List.any_eq_true]
    constructor
    · rintro ⟨l, hl, h⟩
      rw [List.any_eq_true] at h
      obtain ⟨z, hz, h⟩ := h
      obtain ⟨j, hj, hzj⟩ := mem_flatten_drop.1 (List.mem_flatten.2 ⟨l, hl, hz⟩)
      exact ⟨j, hj, z, hzj, h⟩
    · rintro ⟨j, hj, z, hz, h⟩
      obtain ⟨l, hl, hzl⟩ := List.mem_flatten.1 (mem_flatten_drop.2 ⟨j, hj, hz⟩)
      exact ⟨l, hl, List.any_eq_true.2 ⟨z, hzl, h⟩⟩
  refine GTri.ite (fun h => GTri.pure ⟨rfl, fun _ => .inl (hany.1 h), fun _ => rfl⟩) (fun h => ?_)
  unfold solverBlocked
  dsimp only
  refine GTri.bind (call_spec (f := f) (fm := formulas sys) (w := .ri) (i := i) (cube := none) (clause := none) (by omega) trivial trivial trivial) ?_
  rintro r f ⟨rfl, cs, hbase, hsem, hq, ht⟩
  have hH : ∀ v, QueryHolds cs none none v ↔ RR c f i v := by
    intro v
    unfold QueryHolds RR
    rw [hsem, base_ri S.laws i v]
    exact ⟨fun h => h.1, fun h => ⟨h, trivial, trivial⟩⟩
  cases r with
  | unsat => exact GTri.pure ⟨rfl, fun _ => .inr fun v hv => hq v ((hH v).2 hv), fun _ => rfl⟩
  | sat a =>
    obtain ⟨w, hw, _⟩ := hq
    refine GTri.pure ⟨rfl, ⟨fun h => Bool.noConfusion h, ?_⟩⟩
    rintro (h' | h')
    · exact absurd (hany.2 h') h
    · exact absurd ((hH w).1 hw) (h' w)

theorem isBlocked_spec (S : SmallSys sys c bads) (hlen : f.length = d + 2) {i : Nat} (h1 : 1 ≤ i) (hi : i ≤ d) (s : Cube) :
    GTri F (Inv O (formulas sys)) f (isBlocked (I := I) ⟨s, .ok i⟩) (fun b f' => f' = f ∧
      (b = true → ∀ v, RC f i v → ¬ s.holds v) ∧ (b = false → ∀ j, i ≤ j → ∀ z ∈ fr f j, subsumes z s = false)) := by
  refine (isBlocked_exact S hlen hi s).mono ?_
  rintro b f ⟨rfl, hb⟩
  refine ⟨rfl, fun e v hv => ?_, fun e j hj z hz => ?_⟩
  · rcases hb.1 e with ⟨j, hj, z, hz, h⟩ | h
    · exact blocked_excludes hz hj h hv
    · exact absurd ⟨fun e => by omega, hv⟩ (h v)
  · cases h : subsumes z s with
    | false => rfl
    | true => rw [hb.2 (.inl ⟨j, hj, z, hz, h⟩)] at e; cases e

/-! ## `generalize` -/

theorem Rel.congr {z z' : Cube} (he : ∀ v, z.holds v ↔ z'.holds v) (h : Rel c L f k z) : Rel c L f k z' := by
  refine ⟨fun hL v hv hz => h.1 hL v hv ((he v).2 hz), fun v v' hv hn ht hz => h.2 v v' hv (fun hz' => hn ((he v).1 hz')) ht ((he v').2 hz)⟩

theorem new_holds_perm {l l' : List Literal} (h : l.Perm l') (v : Val) : (Cube.new l).holds v ↔ (Cube.new l').holds v := by
  rw [Cube.holds_new, Cube.holds_new]
  exact ⟨fun a x hx => a x (h.mem_iff.2 hx), fun a x hx => a x (h.mem_iff.1 hx)⟩

theorem latchCube_new {l : List Literal} (h : ∀ x ∈ l, LatchLit c x) : LatchCube c (Cube.new l) :=
  ⟨Cube.sorted_new _, fun x hx => h x (Cube.mem_new.1 hx)⟩

theorem rel_of_relative (h : Laws sys c bads) {z : Cube} {p : Param} (hi : sys.isCubeInitial z = false) {r : TCube}
    (hr : Relative c f p k z r) (hn : r.frame ≠ .null) : r = ⟨z, .ok (k + 1)⟩ ∧ Rel c L f k z := by
  rcases hr with ⟨e, hr⟩ | ⟨e, _⟩
  · refine ⟨e, fun _ v hv hz => ?_, fun v v' hv hnz ht => hr v v' ⟨hv, fun _ => hnz⟩ ht⟩
    rw [isCubeInitial_of_init h hv hz] at hi
    exact Bool.noConfusion hi
  · exact absurd e hn

theorem generalizeLoop_spec {A : PDR I} (S : SmallSys sys c bads) (hA : A.fsts = sys) (hc : ∀ j, ∀ z ∈ fr f j, LatchCube c z)
    (hlen : f.length = d + 2) (hk : k + 1 ≤ d) : ∀ (b : Nat) (lits : List Literal) (j : Nat), lits.length ≤ b + j →
    (∀ x ∈ lits, LatchLit c x) → Rel c L f k (Cube.new lits) →
    GTri F (Inv O (formulas sys)) f (A.generalizeLoop (.ok (k + 1)) b lits j) (fun r f' => f' = f ∧ (∀ x ∈ r, x ∈ lits) ∧ Rel c L f k (Cube.new r)) := by
  intro b
  induction b with
  | zero =>
    intro lits j hb hl hr
    unfold generalizeLoop
    rw [if_neg (by omega)]
    exact GTri.pure ⟨rfl, fun _ h => h, hr⟩
  | succ b ih =>
    intro lits j hb hl hr
    unfold generalizeLoop
    by_cases hj : j < lits.length
    · rw [if_pos hj]
      obtain ⟨x, rest, hx, hperm⟩ := swapRemove_spec hj
      refine GTri.bind (GTri.lift_ok (a := (x, rest)) (Q := fun y f' => y = (x, rest) ∧ f' = f) (by rw [hx]; rfl) ⟨rfl, rfl⟩) ?_
      rintro _ f ⟨rfl, rfl⟩
      dsimp only
      have hlenr := hperm.length_eq
      rw [List.length_cons] at hlenr
      have hrest : ∀ y ∈ rest, LatchLit c y := fun y hy => hl y (hperm.mem_iff.2 (List.mem_cons_of_mem _ hy))
      have hin : A.isInitial (Cube.new rest) = sys.isCubeInitial (Cube.new rest) := by unfold isInitial; rw [hA]
      refine GTri.bind (R := fun b f' => f' = f ∧ (b = true → Rel c L f k (Cube.new rest))) ?_ ?_
      · refine GTri.ite (fun _ => GTri.pure ⟨rfl, fun h => by simp at h⟩) (fun hi => ?_)
        refine GTri.bind (solveRelative_spec S hA hc hlen hk (latchCube_new hrest) _) ?_
        rintro r f ⟨rfl, hrel⟩
        refine GTri.pure ⟨rfl, fun h => ?_⟩
        exact (rel_of_relative S.laws (by rw [← hin]; simpa using hi) hrel (of_decide_eq_true h)).2
      · rintro dr f ⟨rfl, hdr⟩
        refine GTri.ite (fun h => ?_) (fun h => ?_)
        · refine (ih rest j (by omega) hrest (hdr h)).mono ?_
          rintro r f ⟨rfl, h1, h2⟩
          exact ⟨rfl, fun y hy => hperm.mem_iff.2 (List.mem_cons_of_mem _ (h1 y hy)), h2⟩
        · obtain ⟨sw, hsw, hp2⟩ := swapAt_spec (l := rest ++ [x]) (i := j) (j := (rest ++ [x]).length - 1) (by simp; omega) (by simp)
          refine GTri.bind (GTri.lift_ok (a := sw) (Q := fun y f' => y = sw ∧ f' = f) (by rw [hsw]; rfl) ⟨rfl, rfl⟩) ?_
          rintro sw f ⟨rfl, rfl⟩
          have hp3 : sw.Perm lits := hp2.trans ((List.perm_append_comm (l₁ := rest) (l₂ := [x])).trans hperm.symm)
          refine (ih sw (j + 1) (by have := hp3.length_eq; omega) (fun y hy => hl y (hp3.mem_iff.1 hy)) (hr.congr (new_holds_perm hp3.symm))).mono ?_
          rintro r f ⟨rfl, h1, h2⟩
          exact ⟨rfl, fun y hy => hp3.mem_iff.1 (h1 y hy), h2⟩
    · rw [if_neg hj]
      exact GTri.pure ⟨rfl, fun _ h => h, hr⟩

theorem generalize_spec {A : PDR I} (S : SmallSys sys c bads) (hA : A.fsts = sys) (hsch : A.sched.OK) (hc : ∀ j, ∀ z ∈ fr f j, LatchCube c z)
    (hlen : f.length = d + 2) (hk : k + 1 ≤ d) {z : Cube} (hz : LatchCube c z) (hr : Rel c L f k z) :
    GTri F (Inv O (formulas sys)) f (A.generalize ⟨z, .ok (k + 1)⟩) (fun r f' => f' = f ∧ ∃ y, r = ⟨y, .ok (k + 1)⟩ ∧ LatchCube c y ∧
      subsumes y z = true ∧ Rel c L f k y) := by
  unfold generalize
  refine GTri.bind (fresh_spec f) ?_
  rintro t f rfl
  have hp := hsch.shuffle t z.iter
  refine GTri.bind (generalizeLoop_spec S hA hc hlen hk _ (A.sched.shuffle t z.iter) 0 (Nat.le_refl _)
    (fun x hx => hz.lits x (hp.mem_iff.1 hx)) (hr.congr fun v => ?_)) ?_
  · rw [Cube.holds_new]
    exact ⟨fun h x hx => h x (hp.mem_iff.1 hx), fun h x hx => h x (hp.mem_iff.2 hx)⟩
  · rintro r f ⟨rfl, h1, h2⟩
    refine GTri.pure ⟨rfl, _, rfl, latchCube_new fun x hx => hz.lits x (hp.mem_iff.1 (h1 x hx)), ?_, h2⟩
    rw [subsumes_iff]
    exact fun l hl => hp.mem_iff.1 (h1 l (Cube.mem_new.1 hl))

/-! ## Moving a cube forward -/

theorem forwardLoop_spec {A : PDR I} (S : SmallSys sys c bads) (hA : A.fsts = sys) (hc : ∀ j, ∀ z ∈ fr f j, LatchCube c z)
    (hlen : f.length = d + 2) {z : Cube} (hz : LatchCube c z) : ∀ (b k : Nat), k + 1 ≤ d → d ≤ b + k + 1 → Rel c L f k z →
    GTri F (Inv O (formulas sys)) f (A.forwardLoop b ⟨z, .ok (k + 1)⟩ (k + 1)) (fun r f' => f' = f ∧ ∃ k', r = ⟨z, .ok (k' + 1)⟩ ∧ k ≤ k' ∧
      k' + 1 ≤ d ∧ Rel c L f k' z) := by
  intro b
  induction b with
  | zero =>
    intro k hk hb hr
    unfold forwardLoop
    refine GTri.bind (depth_spec hlen) ?_
    rintro d' f' ⟨e1, e2⟩
    rw [e1, e2]
    clear e1 e2 d' f'
    rw [if_neg (by omega), if_neg (by omega)]
    exact GTri.pure ⟨rfl, k, rfl, Nat.le_refl _, hk, hr⟩
  | succ b ih =>
    intro k hk hb hr
    unfold forwardLoop
    refine GTri.bind (depth_spec hlen) ?_
    rintro d' f' ⟨e1, e2⟩
    rw [e1, e2]
    clear e1 e2 d' f'
    rw [if_neg (by omega)]
    refine GTri.ite (fun hlt => ?_) (fun _ => GTri.pure ⟨rfl, k, rfl, Nat.le_refl _, hk, hr⟩)
    refine GTri.bind (GTri.lift_ok (a := ⟨z, .ok (k + 1 + 1)⟩) (Q := fun y f' => y = ⟨z, .ok (k + 1 + 1)⟩ ∧ f' = f) rfl ⟨rfl, rfl⟩) ?_
    rintro _ f ⟨rfl, rfl⟩
    refine GTri.bind (solveRelative_spec S hA hc hlen (k := k + 1) (by omega) hz _) ?_
    rintro y f ⟨rfl, hrel⟩
    refine GTri.ite (fun hne => ?_) (fun _ => GTri.pure ⟨rfl, k, rfl, Nat.le_refl _, hk, hr⟩)
    rcases hrel with ⟨rfl, hrel⟩ | ⟨e, _⟩
    · refine GTri.bind (GTri.assert (by simp)) ?_
      rintro _ f rfl
      dsimp only
      refine (ih (k + 1) (by omega) (by omega) ⟨hr.1, fun v v' hv hnz ht => hrel v v' ⟨hv, fun _ => hnz⟩ ht⟩).mono ?_
      rintro r f ⟨rfl, k', h1, h2, h3, h4⟩
      exact ⟨rfl, k', h1, by omega, h3, h4⟩
    · exact absurd e hne

end Verif.PDR
