import Verif.Model.SatTests
import Verif.Props.Solvers
import Verif.Props.Stateful
import Verif.Props.FormulaLogic
import Verif.Proofs.BruteDimacs
import Verif.Proofs.Res

/-!
# C80: the random test of the SAT front-ends
-/

namespace Verif.Props

open Verif.SatTests

/-- Back-ends that are right and value every variable. -/
structure BackendsOK (B : Backends) : Prop where
  splr : SplrOK B.splr ∧ SplrTotal B.splr
  varisat : VarisatOK B.varisat ∧ VarisatTotal B.varisat
  cadical : CadicalOK B.cadical
  ms : MsOK B.ms
  cd : CdOK B.cd ∧ CdTotal B.cd

variable {f : CNF} {order : List Clause → List Clause}

theorem answerOK_of_query (hw : f.WF) {r : SatResponse} (h1 : QueryCorrect ([] ++ f.iter) none none r) (h2 : QueryTotal ([] ++ f.iter) none none r) :
    AnswerOK f r := by
  rw [List.nil_append] at h1 h2
  cases r with
  | unsat => exact fun v hv => h1 v ⟨hv, trivial, trivial⟩
  | sat a =>
    obtain ⟨v, hv, ha⟩ := h1
    refine ⟨⟨v, hv.1, ha⟩, fun n hn hle => ?_⟩
    rcases hw.attained with h0 | ⟨c, hc, l, hl, e⟩
    · have : f.getMaxVar = 0 := h0
      omega
    · exact h2 l (.inl ⟨c, hc, hl⟩) n hn (e ▸ hle)

theorem ask_minisat (dbg : Bool) {be : MsBackend} (hb : MsOK be) (hw : f.WF) (hm : f.getMaxVar < 2147483648) :
    ∃ r, askStateful (MiniSat.impl dbg be) f = .ok r ∧ AnswerOK f r := by
  obtain ⟨s, e1, h1⟩ := MiniSat.addCnf_rep MiniSat.rep_new hm hw.le_max
  obtain ⟨r, s', e2, _, h2, h3⟩ := MiniSat.solve_ok dbg hb 0 h1 none none trivial trivial trivial
  refine ⟨r, ?_, answerOK_of_query hw h2 h3⟩
  show (MiniSat.addCnf f MiniSat.new >>= fun s => MiniSat.solve dbg be 0 none none s >>= fun r => pure r.1) = _
  rw [e1]
  show (MiniSat.solve dbg be 0 none none s >>= fun r => pure r.1) = _
  rw [e2]
  rfl

theorem ask_cadical (dbg : Bool) {be : CdBackend} (hb : CdOK be) (hT : CdTotal be) (hw : f.WF) (hm : f.getMaxVar + 2 < 2147483648) :
    ∃ r, askStateful (CaDiCal.impl dbg be) f = .ok r ∧ AnswerOK f r := by
  have hsz : CaDiCal.new.size f.maxVar = f.getMaxVar + 1 := by
    show max 0 (f.maxVar + 1) = f.maxVar + 1
    omega
  obtain ⟨s, e1, h1, hl⟩ := CaDiCal.addCnf_rep dbg CaDiCal.rep_new (f := f) (by rw [hsz]; omega) hw.le_max
  obtain ⟨r, s', e2, _, _, h2, h3⟩ := CaDiCal.solve_ok dbg hb 0 h1 none none
    (by show 1 + s.lits.length + (0 + 0) < _; rw [hl, hsz]; omega) trivial trivial trivial
  refine ⟨r, ?_, answerOK_of_query hw h2 (h3 hT)⟩
  show (CaDiCal.addCnf dbg f CaDiCal.new >>= fun s => CaDiCal.solve dbg be 0 none none s >>= fun r => pure r.1) = _
  rw [e1]
  show (CaDiCal.solve dbg be 0 none none s >>= fun r => pure r.1) = _
  rw [e2]
  rfl

/-- An answer with values for everything evaluates to true. -/
theorem eval_answer (ho : ∀ l, (order l).Perm l) (hg : f.Good) (hw : f.WF) {a : Assignment} (h : AnswerOK f (.sat a)) :
    evalOnCnf order f a = .ok true := by
  obtain ⟨⟨v, hv, ha⟩, ht⟩ := h
  obtain ⟨r, e, hr⟩ := C08_total order ho f a (fun c hc l hl => ht _ (hg c hc l hl).1 (hw.le_max c hc l hl)) v ha
  rw [e, hr.2 hv]

/-- The five answers, if complete and right, pass; the verdict says whether the CNF is satisfiable. -/
theorem compare_ok (ho : ∀ l, (order l).Perm l) (hg : f.Good) (hw : f.WF) {r1 r2 r3 r4 r5 : SatResponse} (h1 : AnswerOK f r1)
    (h2 : AnswerOK f r2) (h3 : AnswerOK f r3) (h4 : AnswerOK f r4) (h5 : AnswerOK f r5) :
    ∃ b, compareAnswers order f r1 r2 r3 r4 r5 = .ok b ∧ (b = true ↔ ∃ v, f.holds v) := by
  have key : ∀ {r : SatResponse}, AnswerOK f r → ((∃ v, f.holds v) ∧ ∃ a, r = .sat a ∧ evalOnCnf order f a = .ok true) ∨
      (¬ (∃ v, f.holds v) ∧ r = .unsat) := by
    intro r h
    cases r with
    | unsat => exact .inr ⟨fun ⟨v, hv⟩ => h v hv, rfl⟩
    | sat a => exact .inl ⟨⟨h.1.choose, h.1.choose_spec.1⟩, a, rfl, eval_answer ho hg hw h⟩
  by_cases hs : ∃ v, f.holds v
  · have sat : ∀ {r : SatResponse}, AnswerOK f r → ∃ a, r = .sat a ∧ evalOnCnf order f a = .ok true := fun h =>
      (key h).elim (fun h => h.2) (fun h => absurd hs h.1)
    obtain ⟨a, rfl, ea⟩ := sat h1
    obtain ⟨b, rfl, eb⟩ := sat h2
    obtain ⟨c, rfl, ec⟩ := sat h3
    obtain ⟨d, rfl, ed⟩ := sat h4
    obtain ⟨e, rfl, ee⟩ := sat h5
    refine ⟨true, ?_, by simp [hs]⟩
    simp [compareAnswers, ea, eb, ec, ed, ee, assertR, bind, Except.bind, pure, Except.pure]
  · have unsat : ∀ {r : SatResponse}, AnswerOK f r → r = .unsat := fun h => (key h).elim (fun h => absurd h.1 hs) (fun h => h.2)
    rw [unsat h1, unsat h2, unsat h3, unsat h4, unsat h5]
    exact ⟨false, rfl, by simp [hs]⟩

/-- C80: with right back-ends that value every variable the test passes on every CNF with variables below 2^31 − 2, in both builds, and what it returns says
whether the CNF is satisfiable. -/
theorem C80_passes (dbg : Bool) {B : Backends} (hB : BackendsOK B) (ho : ∀ l, (order l).Perm l) (hg : f.Good) (hw : f.WF)
    (hm : f.getMaxVar + 2 < 2147483648) : ∃ b, testCnf dbg B order f = .ok b ∧ (b = true ↔ ∃ v, f.holds v) := by
  obtain ⟨r1, e1, _, h1⟩ := C12_splr dbg B.splr hB.splr.1 f hg hw
  obtain ⟨r2, e2, _, h2⟩ := C12_varisat dbg B.varisat hB.varisat.1 f hg hw
  obtain ⟨r3, e3, h3⟩ := C12_cadical dbg B.cadical hB.cadical f hg hw (by omega)
  obtain ⟨r4, e4, h4⟩ := ask_minisat dbg hB.ms hw (by omega)
  obtain ⟨r5, e5, h5⟩ := ask_cadical dbg hB.cd.1 hB.cd.2 hw hm
  unfold testCnf
  rw [e1, e2, e3, e4, e5]
  exact compare_ok ho hg hw (h1 hB.splr.2) (h2 hB.varisat.2) h3 h4 h5

/-- What a pass tells about the five answers. -/
theorem compare_inv {r1 r2 r3 r4 r5 : SatResponse} {b : Bool} (h : compareAnswers order f r1 r2 r3 r4 r5 = .ok b) :
    (b = true ∧ ∀ r ∈ [r1, r2, r3, r4, r5], ∃ a, r = .sat a ∧ evalOnCnf order f a = .ok true) ∨
    (b = false ∧ ∀ r ∈ [r1, r2, r3, r4, r5], r = .unsat) := by
  have step : ∀ {site : String} {a : Assignment} {x : Res Bool}, (do assertR site (← evalOnCnf order f a); x) = .ok b →
      evalOnCnf order f a = .ok true ∧ x = .ok b := by
    intro site a x h
    obtain ⟨c, e, h⟩ := bind_ok.1 h
    obtain ⟨u, hc, h⟩ := bind_ok.1 h
    cases c with
    | false => simp [assertR, panicR] at hc
    | true => exact ⟨e, h⟩
  unfold compareAnswers at h
  split at h
  · obtain ⟨ea, h⟩ := step h
    obtain ⟨eb, h⟩ := step h
    obtain ⟨ec, h⟩ := step h
    obtain ⟨ed, h⟩ := step h
    obtain ⟨ee, h⟩ := step h
    left
    refine ⟨by cases h; rfl, ?_⟩
    simp [ea, eb, ec, ed, ee]
  · right
    exact ⟨by cases h; rfl, by simp⟩
  · simp [panicR] at h

/-- The five answers behind a result of the test. -/
theorem testCnf_inv {dbg : Bool} {B : Backends} {b : Bool} (h : testCnf dbg B order f = .ok b) : ∃ r1 r2 r3 r4 r5,
    splrSolveCnf dbg B.splr f = .ok r1 ∧ varisatSolveCnf dbg B.varisat f = .ok r2 ∧ cadicalSolveCnf dbg B.cadical f = .ok r3 ∧
    askStateful (MiniSat.impl dbg B.ms) f = .ok r4 ∧ askStateful (CaDiCal.impl dbg B.cd) f = .ok r5 ∧
    compareAnswers order f r1 r2 r3 r4 r5 = .ok b := by
  obtain ⟨r1, e1, h⟩ := bind_ok.1 h
  obtain ⟨r2, e2, h⟩ := bind_ok.1 h
  obtain ⟨r3, e3, h⟩ := bind_ok.1 h
  obtain ⟨r4, e4, h⟩ := bind_ok.1 h
  obtain ⟨r5, e5, h⟩ := bind_ok.1 h
  exact ⟨r1, r2, r3, r4, r5, e1, e2, e3, e4, e5, h⟩

/-- Five verdicts of "satisfiable", each checked: whatever the back-ends are, the assignment of each front-end satisfies the CNF. -/
theorem C80_sat (ho : ∀ l, (order l).Perm l) {dbg : Bool} {B : Backends} (h : testCnf dbg B order f = .ok true) :
    (∃ v, f.holds v) ∧ (∀ r, (splrSolveCnf dbg B.splr f = .ok r ∨ varisatSolveCnf dbg B.varisat f = .ok r ∨ cadicalSolveCnf dbg B.cadical f = .ok r ∨
      askStateful (MiniSat.impl dbg B.ms) f = .ok r ∨ askStateful (CaDiCal.impl dbg B.cd) f = .ok r) →
      ∃ a, r = .sat a ∧ ∀ v, a.Agrees v → f.holds v) := by
  obtain ⟨r1, r2, r3, r4, r5, e1, e2, e3, e4, e5, h⟩ := testCnf_inv h
  rcases compare_inv h with ⟨_, h⟩ | ⟨h, _⟩
  · have all : ∀ r ∈ [r1, r2, r3, r4, r5], ∃ a, r = .sat a ∧ ∀ v, a.Agrees v → f.holds v := by
      intro r hr
      obtain ⟨a, e, ha⟩ := h r hr
      exact ⟨a, e, fun v hv => (C08_sound order ho f a true ha v hv).1 rfl⟩
    constructor
    · obtain ⟨a, _, ha⟩ := all r1 (by simp)
      exact ⟨fun n => (a.getValue n).getD false, ha _ (fun n b e => by simp [e])⟩
    · rintro r (e | e | e | e | e)
      · rw [e1] at e; cases e; exact all _ (by simp)
      · rw [e2] at e; cases e; exact all _ (by simp)
      · rw [e3] at e; cases e; exact all _ (by simp)
      · rw [e4] at e; cases e; exact all _ (by simp)
      · rw [e5] at e; cases e; exact all _ (by simp)
  · cases h

/-- The verdict "unsatisfiable" is right if one of the five back-ends is; that one need not value every variable. -/
theorem C80_unsat {dbg : Bool} {B : Backends} (hg : f.Good) (hw : f.WF) (hm : f.getMaxVar + 2 < 2147483648)
    (one : SplrOK B.splr ∨ VarisatOK B.varisat ∨ CadicalOK B.cadical ∨ MsOK B.ms ∨ CdOK B.cd) (h : testCnf dbg B order f = .ok false) :
    ∀ v, ¬ f.holds v := by
  obtain ⟨r1, r2, r3, r4, r5, e1, e2, e3, e4, e5, h⟩ := testCnf_inv h
  rcases compare_inv h with ⟨h, _⟩ | ⟨_, h⟩
  · cases h
  · simp only [List.mem_cons, List.not_mem_nil, or_false, forall_eq_or_imp, forall_eq] at h
    obtain ⟨rfl, rfl, rfl, rfl, rfl⟩ := h
    rcases one with hb | hb | hb | hb | hb
    · obtain ⟨r, e, hr, _⟩ := C12_splr dbg B.splr hb f hg hw
      rw [e1] at e; cases e; exact hr
    · obtain ⟨r, e, hr, _⟩ := C12_varisat dbg B.varisat hb f hg hw
      rw [e2] at e; cases e; exact hr
    · obtain ⟨r, e, hr⟩ := C12_cadical dbg B.cadical hb f hg hw (by omega)
      rw [e3] at e; cases e; exact hr
    · obtain ⟨r, e, hr⟩ := ask_minisat dbg hb hw (by omega)
      rw [e4] at e; cases e; exact hr
    · have hsz : CaDiCal.new.size f.maxVar = f.getMaxVar + 1 := by
        show max 0 (f.maxVar + 1) = f.maxVar + 1
        omega
      obtain ⟨s, a1, h1, hl⟩ := CaDiCal.addCnf_rep dbg CaDiCal.rep_new (f := f) (by rw [hsz]; omega) hw.le_max
      obtain ⟨r, s', a2, _, _, h2, _⟩ := CaDiCal.solve_ok dbg hb 0 h1 none none
        (by show 1 + s.lits.length + (0 + 0) < _; rw [hl, hsz]; omega) trivial trivial trivial
      have a3 : askStateful (CaDiCal.impl dbg B.cd) f = .ok r := by
        show (CaDiCal.addCnf dbg f CaDiCal.new >>= fun s => CaDiCal.solve dbg B.cd 0 none none s >>= fun r => pure r.1) = _
        rw [a1]
        show (CaDiCal.solve dbg B.cd 0 none none s >>= fun r => pure r.1) = _
        rw [a2]
        rfl
      rw [e5] at a3; cases a3
      exact fun v hv => h2 v ⟨by rw [List.nil_append]; exact hv, trivial, trivial⟩

/-! ## The generator -/

theorem literals_ok (dbg : Bool) {n : Nat} (hn : n < 2147483648) :
    (List.range' 1 n).mapM (Literal.new dbg) = .ok ((List.range' 1 n).map fun i => ⟨2 * i⟩) := by
  have : ∀ l : List Nat, (∀ i ∈ l, 0 < i ∧ i < 2147483648) → l.mapM (Literal.new dbg) = .ok (l.map fun i => ⟨2 * i⟩) := by
    intro l
    induction l with
    | nil => intro _; rfl
    | cons i l ih =>
      intro h
      rw [List.mapM_cons, Literal.new_ok dbg (h i (by simp)).1 (h i (by simp)).2, ih fun j hj => h j (List.mem_cons_of_mem _ hj)]
      rfl
  refine this _ fun i hi => ?_
  have := List.mem_range'_1.1 hi
  omega

/-- Drawing literals: it ends, unless the coin keeps saying "more"; the literals are those on offer, and there is one if there has to be. -/
theorem drawLits_inv {L : List Literal} (hL : L ≠ []) {forced : Bool} {R : Coins} : ∀ (fuel k : Nat) (acc : List Literal),
    (∃ ls, drawLits L forced R fuel k acc = .ok ls ∧ (forced = true → ls ≠ []) ∧
      ∀ l ∈ ls, l ∈ acc ∨ ∃ l0 ∈ L, l = l0 ∨ l = l0.not) ∨
    (drawLits L forced R fuel k acc = .error .fuel ∧ ∀ i, acc ≠ [] ∨ 0 < i → i < fuel → R.more (k + i) = true)
  | 0, k, acc => .inr ⟨rfl, fun i _ hi => by omega⟩
  | fuel + 1, k, acc => by
    unfold drawLits
    have hlen : L.length ≠ 0 := fun h => hL (List.length_eq_zero_iff.1 h)
    split
    · rename_i hc
      have hlt : R.pick k % L.length < L.length := Nat.mod_lt _ (by omega)
      simp only [genRange, hlen, if_false, pure, Except.pure, bind, Except.bind, List.getElem?_eq_getElem hlt, unwrapR]
      rcases drawLits_inv hL fuel (k + 1) (acc ++ [(L[R.pick k % L.length]).negateIfTrue (R.neg k)]) with ⟨ls, e, h1, h2⟩ | ⟨e, h⟩
      · left
        refine ⟨ls, e, h1, fun l hl => ?_⟩
        rcases h2 l hl with h | h
        · rcases List.mem_append.1 h with h | h
          · exact .inl h
          · refine .inr ⟨_, List.getElem_mem hlt, ?_⟩
            rw [List.mem_singleton] at h
            rw [h]
            unfold Literal.negateIfTrue
            split
            · exact .inr rfl
            · exact .inl rfl
        · exact .inr h
      · right
        refine ⟨e, fun i hi hlt => ?_⟩
        cases i with
        | zero =>
          have ha : acc ≠ [] := hi.resolve_right (by omega)
          simpa [ha] using hc
        | succ j =>
          have := h j (.inl (by simp)) (by omega)
          rwa [show k + 1 + j = k + (j + 1) from by omega] at this
    · rename_i hc
      left
      refine ⟨acc, rfl, fun hf e => hc ?_, fun l hl => .inl hl⟩
      simp [hf, e]

theorem negateIfTrue_mk (l : Literal) : (⟨2 * l.number⟩ : Literal).negateIfTrue l.isNegated = l := by
  have h0 : (⟨2 * l.number⟩ : Literal).isNegated = false := by simp [Literal.isNegated_def]
  unfold Literal.negateIfTrue
  split
  · rename_i hn
    exact Literal.ext' (by simp) (by rw [Literal.isNegated_not, h0, hn]; rfl)
  · rename_i hn
    exact Literal.ext' (by simp) (by rw [h0]; simpa using hn)

theorem drawClauses_inv {L : List Literal} (hL : L ≠ []) {V : Nat} (hV : ∀ l ∈ L, l.Good V) {forced : Bool} {fuel : Nat} :
    ∀ (Rs : List Coins) (g : CNF), g.WF → g.Good V →
    (∃ f, drawClauses L forced fuel Rs g = .ok f ∧ f.WF ∧ f.Good V ∧ f.iter.length ≤ g.iter.length + Rs.length ∧
      ((∀ c ∈ g.iter, c.lits ≠ []) → forced = true → ∀ c ∈ f.iter, c.lits ≠ [])) ∨
    (drawClauses L forced fuel Rs g = .error .fuel ∧ ∃ R ∈ Rs, ∀ i, 0 < i → i < fuel → R.more i = true)
  | [], g, hw, hg => .inl ⟨g, rfl, hw, hg, by simp, fun h _ => h⟩
  | R :: Rs, g, hw, hg => by
    unfold drawClauses
    rcases drawLits_inv hL (forced := forced) (R := R) fuel 0 [] with ⟨ls, e, h1, h2⟩ | ⟨e, h⟩
    · rw [e]
      show (∃ f, drawClauses L forced fuel Rs (g.addClause (Clause.new ls)) = .ok f ∧ _) ∨
        (drawClauses L forced fuel Rs (g.addClause (Clause.new ls)) = .error .fuel ∧ _)
      have hr : (g.addClause (Clause.new ls)).Ready V := (CNF.Ready.mk hw hg).addClause (Clause.sorted_new _) (by
        intro l hl
        rcases h2 l (Clause.mem_new.1 hl) with h | ⟨l0, h0, rfl | rfl⟩
        · simp at h
        · exact hV _ h0
        · exact Literal.good_not.2 (hV _ h0))
      rcases drawClauses_inv hL hV Rs (g.addClause (Clause.new ls)) hr.wf hr.good with ⟨f, e, hw', hg', hlen, hne⟩ | ⟨e, R', hR', h⟩
      · left
        refine ⟨f, e, hw', hg', ?_, fun hg0 hf => hne (fun c hc => ?_) hf⟩
        · have : (g.addClause (Clause.new ls)).iter.length ≤ g.iter.length + 1 := by
            show (setInsert g.clauses _).length ≤ g.clauses.length + 1
            unfold setInsert
            split <;> simp
          simp only [List.length_cons]
          omega
        · rcases CNF.mem_addClause.1 hc with hc | rfl
          · exact hg0 c hc
          · obtain ⟨l, hl⟩ := List.exists_mem_of_ne_nil _ (h1 hf)
            exact List.ne_nil_of_mem (Clause.mem_new.2 hl)
      · exact .inr ⟨e, R', List.mem_cons_of_mem _ hR', h⟩
    · right
      rw [e]
      exact ⟨rfl, R, List.mem_cons_self .., fun i h0 hi => by simpa using h i (.inr h0) hi⟩

/-- C80: with at least one variable the generator returns, unless a coin keeps saying "more", a CNF over those variables, with no more clauses than asked
for, and without an empty clause if there are more variables than the limit for that. -/
theorem C80_generates (dbg : Bool) {vars maxEmpty fuel : Nat} (h1 : 1 ≤ vars) (hn : vars < 2147483648) (Rs : List Coins) :
    (∃ f, generateCnf dbg vars maxEmpty fuel Rs = .ok f ∧ f.WF ∧ f.Good vars ∧ f.iter.length ≤ Rs.length ∧
      (maxEmpty < vars → ∀ c ∈ f.iter, c.lits ≠ [])) ∨
    (generateCnf dbg vars maxEmpty fuel Rs = .error .fuel ∧ ∃ R ∈ Rs, ∀ i, 0 < i → i < fuel → R.more i = true) := by
  unfold generateCnf
  rw [literals_ok dbg hn]
  have hne : (List.range' 1 vars).map (fun i => (⟨2 * i⟩ : Literal)) ≠ [] := by
    intro h
    have := congrArg List.length h
    simp at this
    omega
  have hg : ∀ l ∈ (List.range' 1 vars).map (fun i => (⟨2 * i⟩ : Literal)), l.Good vars := by
    intro l hl
    obtain ⟨i, hi, rfl⟩ := List.mem_map.1 hl
    have := List.mem_range'_1.1 hi
    have e : (⟨2 * i⟩ : Literal).number = i := Literal.number_mk i
    rw [Literal.Good, e]
    omega
  rcases drawClauses_inv hne hg (forced := decide (vars > maxEmpty)) (fuel := fuel) Rs CNF.new CNF.WF.new
    (fun c hc => by simp [CNF.new, CNF.iter] at hc) with ⟨f, e, a, b, c, d⟩ | ⟨e, h⟩
  · exact .inl ⟨f, e, a, b, by simpa [CNF.new, CNF.iter] using c, fun hv => d (by simp [CNF.new, CNF.iter]) (by simpa using hv)⟩
  · exact .inr ⟨e, h⟩

/-- Without variables, one clause is enough for a panic, if the coin says "more"; with no clauses to make, as in the test, the result is the empty CNF. -/
theorem C80_no_variables (dbg : Bool) (maxEmpty fuel : Nat) (R : Coins) (hR : R.more 0 = true) (Rs : List Coins) :
    generateCnf dbg 0 maxEmpty (fuel + 1) (R :: Rs) = .error (.panic "tests/sat_solving.rs:165 gen_range") ∧
    generateCnf dbg 0 maxEmpty fuel [] = .ok CNF.new := by
  refine ⟨?_, rfl⟩
  simp [generateCnf, drawClauses, drawLits, hR, genRange, panicR, bind, Except.bind, pure, Except.pure]

theorem drawLits_exact {L : List Literal} {forced : Bool} {R : Coins} : ∀ (ls : List Literal) (fuel k : Nat) (acc : List Literal),
    ls.length < fuel → (∀ i (h : i < ls.length), R.more (k + i) = true ∧ ∃ l, L[R.pick (k + i) % L.length]? = some l ∧
      l.negateIfTrue (R.neg (k + i)) = ls[i]) → R.more (k + ls.length) = false → (forced = true → acc ++ ls ≠ []) →
    drawLits L forced R fuel k acc = .ok (acc ++ ls)
  | _, 0, _, _, h, _, _, _ => by omega
  | [], fuel + 1, k, acc, _, _, hs, hf => by
    unfold drawLits
    have : ¬ ((forced && acc.isEmpty || R.more k) = true) := by
      have hs : R.more k = false := hs
      cases forced with
      | false => simp [hs]
      | true =>
        have := hf rfl
        rw [List.append_nil] at this
        simp [hs, this]
    rw [if_neg this, List.append_nil]
    rfl
  | l :: ls, fuel + 1, k, acc, hl, hr, hs, hf => by
    unfold drawLits
    obtain ⟨hm, l0, h0, hn⟩ := hr 0 (by simp)
    simp only [Nat.add_zero, List.getElem_cons_zero] at hm h0 hn
    have hlen : L.length ≠ 0 := by
      intro h
      have : L = [] := List.length_eq_zero_iff.1 h
      simp [this] at h0
    simp only [hm, Bool.or_true, if_true, genRange, hlen, if_false, pure, Except.pure, bind, Except.bind, h0, unwrapR, hn]
    rw [drawLits_exact ls fuel (k + 1) (acc ++ [l]) (by simpa using hl) (fun i hi => ?_) ?_ (fun _ => by simp)]
    · simp
    · rw [show k + 1 + ls.length = k + (l :: ls).length from by simp; omega]
      exact hs
    · have := hr (i + 1) (by simpa using hi)
      rw [show k + (i + 1) = k + 1 + i from by omega] at this
      simpa using this

/-- Coins that make the given clause. -/
def coinsFor (ls : List Literal) : Coins where
  more := fun i => decide (i < ls.length)
  pick := fun i => (ls[i]?.getD ⟨2⟩).number - 1
  neg := fun i => (ls[i]?.getD ⟨2⟩).isNegated

/-- C80: nothing is left out: every CNF over the variables is generated for some random choices, if its clauses are not empty or may be. -/
theorem C80_covers (dbg : Bool) {vars maxEmpty fuel : Nat} (hn : vars < 2147483648) (cls : List (List Literal))
    (h : ∀ ls ∈ cls, (∀ l ∈ ls, l.Good vars) ∧ ls.length < fuel ∧ (maxEmpty < vars → ls ≠ [])) :
    ∃ Rs, Rs.length = cls.length ∧
      generateCnf dbg vars maxEmpty fuel Rs = .ok (cls.foldl (fun f ls => f.addClause (Clause.new ls)) CNF.new) := by
  refine ⟨cls.map coinsFor, by simp, ?_⟩
  unfold generateCnf
  rw [literals_ok dbg hn]
  show drawClauses _ _ _ _ _ = _
  generalize CNF.new = g
  induction cls generalizing g with
  | nil => rfl
  | cons ls cls ih =>
    obtain ⟨hg, hl, he⟩ := h ls (by simp)
    have e := drawLits_exact (L := (List.range' 1 vars).map fun i => (⟨2 * i⟩ : Literal)) (forced := decide (vars > maxEmpty)) (R := coinsFor ls)
      ls fuel 0 [] hl (fun i hi => ?_) (by simp [coinsFor]) (fun hf => by simpa using he (by simpa using hf))
    · rw [List.map_cons, drawClauses, e]
      exact ih (fun ls' h' => h ls' (List.mem_cons_of_mem _ h')) _
    · have := hg _ (List.getElem_mem hi)
      unfold Literal.Good at this
      refine ⟨by simpa [coinsFor] using hi, ⟨2 * ls[i].number⟩, ?_, ?_⟩
      · have hp : ls[i].number - 1 < vars := by omega
        simp only [coinsFor, Nat.zero_add, List.getElem?_eq_getElem hi, Option.getD_some, List.length_map, List.length_range', Nat.mod_eq_of_lt hp]
        rw [List.getElem?_map, List.getElem?_range' hp]
        simp
        omega
      · simp only [coinsFor, Nat.zero_add, List.getElem?_eq_getElem hi, Option.getD_some]
        exact negateIfTrue_mk _

/-! ## The whole test -/

theorem repeat_ok (dbg : Bool) (ho : ∀ l, (order l).Perm l) (hg : f.Good) (hw : f.WF) (hm : f.getMaxVar + 2 < 2147483648) {b : Bool}
    (hb : b = true ↔ ∃ v, f.holds v) : ∀ Bs : List Backends, (∀ B ∈ Bs, BackendsOK B) → repeatTest dbg order f b Bs = .ok ()
  | [], _ => rfl
  | B :: Bs, h => by
    obtain ⟨b', e, hb'⟩ := C80_passes dbg (h B (by simp)) ho hg hw hm
    have : b = b' := by
      rw [← hb'] at hb
      cases b <;> cases b' <;> simp_all
    unfold repeatTest
    rw [e, ← this]
    simp only [bind, Except.bind, assertR, beq_self_eq_true, if_true]
    exact repeat_ok dbg ho hg hw hm hb Bs fun B' h' => h B' (List.mem_cons_of_mem _ h')

/-- C80: whatever is drawn and however often the solvers are asked again, the test does not fail; the counter it raises is the right one. -/
theorem C80_test (dbg : Bool) (ho : ∀ l, (order l).Perm l) {vars maxEmpty fuel : Nat} (hn : vars + 2 < 2147483648) (Rs : List Coins)
    (hv : 1 ≤ vars ∨ Rs = []) {B : Backends} {Bs : List Backends} (hB : ∀ B' ∈ B :: Bs, BackendsOK B') :
    (∃ f b, generateCnf dbg vars maxEmpty fuel Rs = .ok f ∧ generateAndTest dbg order vars maxEmpty fuel Rs B Bs = .ok b ∧
      (b = true ↔ ∃ v, f.holds v)) ∨
    (generateAndTest dbg order vars maxEmpty fuel Rs B Bs = .error .fuel ∧ ∃ R ∈ Rs, ∀ i, 0 < i → i < fuel → R.more i = true) := by
  have main : ∀ f, generateCnf dbg vars maxEmpty fuel Rs = .ok f → f.WF → f.Good vars →
      ∃ f b, generateCnf dbg vars maxEmpty fuel Rs = .ok f ∧ generateAndTest dbg order vars maxEmpty fuel Rs B Bs = .ok b ∧
      (b = true ↔ ∃ v, f.holds v) := by
    intro f e hw hg
    have hr : f.Ready vars := ⟨hw, hg⟩
    have hr' : f.Ready 2147483647 := hr.mono (by omega)
    have hm : f.getMaxVar + 2 < 2147483648 := by
      have : f.getMaxVar ≤ vars := hr.max_le
      omega
    obtain ⟨b, eb, hb⟩ := C80_passes dbg (hB B (by simp)) ho hr'.good hw hm
    refine ⟨f, b, e, ?_, hb⟩
    unfold generateAndTest
    rw [e]
    simp only [bind, Except.bind, eb, repeat_ok dbg ho hr'.good hw hm hb Bs fun B' h' => hB B' (List.mem_cons_of_mem _ h')]
    rfl
  by_cases h1 : 1 ≤ vars
  · rcases C80_generates dbg (maxEmpty := maxEmpty) (fuel := fuel) h1 (by omega) Rs with ⟨f, e, hw, hg, _⟩ | ⟨e, h⟩
    · exact .inl (main f e hw hg)
    · refine .inr ⟨?_, h⟩
      unfold generateAndTest
      rw [e]
      rfl
  · have h0 : vars = 0 := by omega
    have hRs := hv.resolve_left h1
    subst h0 hRs
    exact .inl (main CNF.new rfl CNF.WF.new (fun c hc => by simp [CNF.new, CNF.iter] at hc))

/-- A repetition that gets a different answer fails the test, whatever the back-ends are. -/
theorem C80_repeat {dbg : Bool} {vars maxEmpty fuel : Nat} {Rs : List Coins} {B : Backends} {Bs : List Backends} {b : Bool}
    (h : generateAndTest dbg order vars maxEmpty fuel Rs B Bs = .ok b) :
    ∃ f, generateCnf dbg vars maxEmpty fuel Rs = .ok f ∧ ∀ B' ∈ B :: Bs, testCnf dbg B' order f = .ok b := by
  obtain ⟨f, e, h⟩ := bind_ok.1 h
  obtain ⟨b', e', h⟩ := bind_ok.1 h
  obtain ⟨u, hr, h⟩ := bind_ok.1 h
  have hb : b' = b := by cases h; rfl
  subst hb
  refine ⟨f, e, ?_⟩
  have : ∀ Bs : List Backends, repeatTest dbg order f b' Bs = .ok u → ∀ B' ∈ Bs, testCnf dbg B' order f = .ok b' := by
    intro Bs
    induction Bs with
    | nil => simp
    | cons B0 Bs ih =>
      intro h
      obtain ⟨c, ec, h⟩ := bind_ok.1 h
      obtain ⟨_, ha, h⟩ := bind_ok.1 h
      intro B' hB'
      rcases List.mem_cons.1 hB' with rfl | hB'
      · have : b' = c := by
          unfold assertR at ha
          split at ha
          · rename_i hc; simpa using hc
          · simp [panicR] at ha
        rw [ec, this]
      · exact ih h B' hB'
  intro B' hB'
  rcases List.mem_cons.1 hB' with rfl | hB'
  · exact e'
  · exact this Bs hr B' hB'

/-! ## The hypotheses are met -/

/-- Back-ends that try all valuations. -/
def bruteBackends : Backends := ⟨Brute.splr, Brute.varisat, Brute.cadical, Brute.ms, Brute.cd⟩

theorem bruteBackends_ok : BackendsOK bruteBackends :=
  ⟨⟨Brute.splr_ok, Brute.splr_total⟩, ⟨Brute.varisat_ok, Brute.varisat_total⟩, Brute.cadical_ok, Brute.ms_ok, ⟨Brute.cd_ok, Brute.cd_total⟩⟩

end Verif.Props
