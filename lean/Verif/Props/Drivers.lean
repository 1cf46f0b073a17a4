import Verif.Model.Drivers
import Verif.Proofs.BmcValues
import Verif.Props.Replay
import Verif.Props.Rounds
import Verif.Props.Invariant

/-!
# C79: the checks that the project's tests make

The tests run a prover and check its result with other parts of the crate.  For which circuits can such a check fail although the crate is right, and which
ones can never fail?
-/

namespace Verif.Props

open Verif.Fsts Verif.BMC Verif.IC3 Verif.Aiger Verif.Drivers

variable {f : Fsts} {c : Circuit} {ob : Bool}

/-! ## Replaying a counterexample of BMC -/

theorem entries_ok {site : String} {a : Assignment} : ∀ {l : List Nat}, (∀ x ∈ l, (a.getValue x).isSome) →
    l.mapM (entry site a) = .ok (l.map fun x => (x, (a.getValue x).getD false))
  | [], _ => rfl
  | x :: l, h => by
    have hx := h x (List.mem_cons_self ..)
    obtain ⟨b, hb⟩ := Option.isSome_iff_exists.1 hx
    rw [List.mapM_cons, entries_ok fun y hy => h y (List.mem_cons_of_mem _ hy)]
    simp [entry, hb, unwrapR, bind, Except.bind, pure, Except.pure]

theorem same_mapM {α β : Type} {x : Res β} {m : β} (h : x = .ok m) : ∀ l : List α, l.mapM (fun _ => x) = .ok (List.replicate l.length m)
  | [] => rfl
  | _ :: l => by
    rw [List.mapM_cons, same_mapM h l, h]
    rfl

theorem foldlM_seen {row : List Bool} : ∀ {bads : List Nat} (seen : Bool), (∀ l ∈ bads, l / 2 < row.length) →
    bads.foldlM (fun seen l => do
      let w ← Aig.readLit "tests/bmc.rs:85 index" row l
      return seen || w) seen = (.ok (seen || bads.any fun l => litVal (rowVal row) l) : Res Bool)
  | [], seen, _ => by simp [pure, Except.pure]
  | l :: bads, seen, h => by
    have hl := h l (List.mem_cons_self ..)
    have hr : Aig.readLit "tests/bmc.rs:85 index" row l = .ok (litVal (rowVal row) l) := readLit_ok.2 ⟨hl, rfl⟩
    rw [List.foldlM_cons]
    show Except.bind (Except.bind (Aig.readLit _ row l) _) _ = _
    rw [hr]
    show List.foldlM _ (seen || litVal (rowVal row) l) bads = _
    rw [foldlM_seen _ fun y hy => h y (List.mem_cons_of_mem _ hy), List.any_cons, Bool.or_assoc]

theorem forM_ok {α : Type} {g : α → Res Unit} : ∀ {l : List α}, (∀ x ∈ l, g x = .ok ()) → l.forM g = .ok ()
  | [], _ => rfl
  | x :: l, h => by
    show Except.bind (g x) (fun _ => l.forM g) = _
    rw [h x (List.mem_cons_self ..)]
    exact forM_ok fun y hy => h y (List.mem_cons_of_mem _ hy)

/-- The stimulus that the test reads off the assignment. -/
def testInputs (a : Assignment) (c : Circuit) (d : Nat) : List BoolMap :=
  List.replicate (d + 1) ((List.range c.numInputs).map fun i => (1 + i, (a.getValue (1 + i)).getD false))

def testLatches (a : Assignment) (c : Circuit) : BoolMap :=
  (List.range c.latches.length).map fun i => (c.latchVar i, (a.getValue (c.latchVar i)).getD false)

theorem range'_map (k n : Nat) (g : Nat → Nat × Bool) : (List.range' k n).map g = (List.range n).map fun i => g (k + i) := by
  rw [List.range'_eq_map_range, List.map_map]; rfl

theorem extracted (h : Built f c ob) (a : Assignment) (d : Nat)
    (hval : ∀ x, 1 ≤ x → x ≤ c.numInputs + c.latches.length → (a.getValue x).isSome) :
    extractInputs a f (d + 1) = .ok (testInputs a c d) ∧ extractLatches a f = .ok (testLatches a c) := by
  have hL := h.laws
  refine ⟨?_, ?_⟩
  · unfold extractInputs getInputLiteralNumbers
    rw [same_mapM (m := (List.range c.numInputs).map fun i => (1 + i, (a.getValue (1 + i)).getD false)), List.length_range]
    · rfl
    · rw [hL.inputs, entries_ok (fun x hx => ?_), range'_map]
      rw [List.mem_range'_1] at hx
      exact hval x hx.1 (by omega)
  · unfold extractLatches getStateLiteralNumbers
    rw [hL.states, entries_ok (fun x hx => ?_), range'_map]
    · rfl
    · rw [List.mem_range'_1] at hx
      exact hval x (by omega) (by omega)

/-- The simulator accepts the stimulus of the test. -/
theorem test_accepted (hw : c.WF) (aig : Aig) (hA : aig.Represents c) (a : Assignment) (d : Nat) :
    ∃ rows, aig.simulate (testInputs a c d) (testLatches a c) = .ok rows := by
  have hlat : ∀ i, i < c.latches.length → given (testLatches a c) (c.latchVar i) = some ((a.getValue (c.latchVar i)).getD false) :=
    fun i hi => get_map_range (1 + c.numInputs) c.latches.length (fun i => (a.getValue (c.latchVar i)).getD false) i hi
  refine (C22_accepts_iff aig c hA hw _ _).2 ⟨⟨by simp [testInputs], ?_, by simp [testLatches], ?_⟩, ?_⟩
  · intro clk hclk
    rw [testInputs, List.mem_replicate] at hclk
    obtain ⟨_, rfl⟩ := hclk
    refine ⟨by simp, fun i hi => ?_⟩
    rw [get_map_range 1 c.numInputs (fun i => (a.getValue (1 + i)).getD false) i hi]; rfl
  · intro i p hp _ _
    rw [hlat i (getElem?_lt hp)]; rfl
  · rintro hI ⟨p, hp, _⟩
    have := hlat 0 (getElem?_lt hp)
    rw [show c.latchVar 0 = 1 by unfold Circuit.latchVar; omega] at this
    rw [this]; rfl

/-- `check_that_bad_is_true_only_for_last_cycle` does what its name says. -/
theorem checkLast_ok (hw : c.WF) (aig : Aig) (hA : aig.Represents c) {inputs : List BoolMap} {latches : BoolMap} {rows : List (List Bool)}
    (hsim : aig.simulate inputs latches = .ok rows) (d : Nat) (hlen : rows.length = d + 1) (hlit : ∀ l ∈ c.bad, c.LitOK l)
    (hlast : Circuit.BadNow c.bad (rowVal (rows.getD d []))) (hno : ∀ s, s < d → ¬ Circuit.BadNow c.bad (rowVal (rows.getD s []))) :
    checkLast aig rows = .ok () := by
  have htr := C21_trace aig c hA hw inputs latches rows hsim
  refine forM_ok fun p hp => ?_
  obtain ⟨row, s⟩ := p
  have hrow : rows[s]? = some row := by
    have := List.mem_zipIdx_iff_getElem?.1 hp
    simpa using this
  have hs : s < rows.length := getElem?_lt hrow
  have hd : rows.getD s [] = row := by rw [List.getD_eq_getElem?_getD, hrow]; rfl
  have hm : s < (inputs.map given).length := by rw [← htr.length]; exact hs
  have hR := htr.row s _ _ (List.getElem?_eq_getElem hm) hrow
  have hseen : badSeen aig row = .ok (c.bad.any fun l => litVal (rowVal row) l) := by
    unfold badSeen Aig.getBadInformation
    rw [hA.bad, foldlM_seen false fun l hl => ?_]
    · simp
    · have := hlit l hl
      have := hR.length
      unfold Circuit.LitOK at *
      omega
  have hany : (c.bad.any fun l => litVal (rowVal row) l) = true ↔ Circuit.BadNow c.bad (rowVal row) := by
    rw [List.any_eq_true]; rfl
  show Except.bind (badSeen aig row) _ = _
  rw [hseen]
  show (if s = rows.length - 1 then _ else _) = _
  split
  · next hl =>
    have : s = d := by omega
    subst this
    rw [hd] at hlast
    rw [hany.2 hlast]; rfl
  · next hl =>
    have := hno s (by omega)
    rw [hd, ← hany, Bool.not_eq_true] at this
    rw [this]; rfl

/-- With a value for the variables of the first frame and inputs that do not change, the check passes. -/
theorem replay_of_values (dbg : Bool) (V : Nat) (env : Env) (he : env.OK V) (clock : Clock) (h : Built f c false) (limit : Nat) (hl : limit < 4294967296)
    (hr : Representable V dbg c limit) (t t' : Nat) (a : Assignment) (d : Nat) (hs : search dbg env clock f limit t = .ok (.ctx a d, t'))
    (aig : Aig) (hA : aig.Represents c) (hval : ∀ x, 1 ≤ x → x ≤ c.numInputs + c.latches.length → (a.getValue x).isSome)
    (hconst : ∀ s i b, s ≤ d → i < c.numInputs → a.getValue (1 + i + c.maxVar * s) = some b → a.getValue (1 + i) = some b) :
    replayTest aig f a d = .ok () := by
  have hw := h.1.wf
  obtain ⟨e1, e2⟩ := extracted h a d hval
  obtain ⟨rows, e3⟩ := test_accepted hw aig hA a d
  have hread : ReadsOff a c f.getMaxLiteralNumber d (testInputs a c d) (testLatches a c) := by
    refine ⟨by simp [testInputs], ?_, ?_⟩
    · intro s m i b hm hi hv
      have hsd : s < d + 1 := by
        have := getElem?_lt hm
        simpa [testInputs] using this
      rw [show f.getMaxLiteralNumber = c.maxVar from h.laws.maxLit] at hv
      have := hconst s i b (by omega) hi hv
      rw [testInputs, List.getElem?_replicate, if_pos hsd] at hm
      cases hm
      rw [get_map_range 1 c.numInputs (fun i => (a.getValue (1 + i)).getD false) i hi, this]; rfl
    · intro i p b hp _ _ hv
      rw [testLatches, show (fun i => (c.latchVar i, (a.getValue (c.latchVar i)).getD false)) =
        fun i => (1 + c.numInputs + i, (a.getValue (c.latchVar i)).getD false) from rfl]
      show given _ (1 + c.numInputs + i) = _
      rw [get_map_range (1 + c.numInputs) c.latches.length (fun i => (a.getValue (c.latchVar i)).getD false) i (getElem?_lt hp), hv]; rfl
  obtain ⟨hlen, hlast, hno, _⟩ := C52_replay dbg V env he clock h limit hl hr t t' a d hs aig hA _ _ rows hread e3
  rw [show badLits c false = c.bad by simp [badLits]] at hlast hno
  have e4 := checkLast_ok hw aig hA e3 d hlen hw.bad_ok hlast hno
  unfold replayTest
  rw [e1, e2]
  show Except.bind (assertR _ ((testInputs a c d).length - 1 == d)) _ = _
  rw [show ((testInputs a c d).length - 1 == d) = true by simp [testInputs]]
  show Except.bind (aig.simulate _ _) _ = _
  rw [e3]
  show Except.bind (assertR _ (rows.length - 1 == d)) _ = _
  rw [show (rows.length - 1 == d) = true by simp [hlen]]
  exact e4

/-- C79: a counterexample has a value for every variable up to the bad literals of the last frame.  (`Env.OK` asks the solver for a value of each variable up
to the largest of its formula, which CaDiCaL's front-end gives, C12.) -/
theorem C79_values (dbg : Bool) (V : Nat) (env : Env) (he : env.OK V) (clock : Clock) (h : Built f c ob) (limit : Nat) (hl : limit < 4294967296)
    (hr : Representable V dbg c limit) (t t' : Nat) (a : Assignment) (d : Nat) (hs : search dbg env clock f limit t = .ok (.ctx a d, t'))
    (b : Nat) (hb : b ∈ badLits c ob) (x : Nat) (h1 : 1 ≤ x) (h2 : x ≤ b / 2 + c.maxVar * d) : (a.getValue x).isSome :=
  search_values he (sys_of h) hl hr hs hb h1 h2

/-- C79: what `bmc_test` needs beyond a right counterexample: at least one step, or a bad literal above the latches; and inputs that do not change. -/
theorem C79_replay (dbg : Bool) (V : Nat) (env : Env) (he : env.OK V) (clock : Clock) (h : Built f c false) (limit : Nat) (hl : limit < 4294967296)
    (hr : Representable V dbg c limit) (t t' : Nat) (a : Assignment) (d : Nat) (hs : search dbg env clock f limit t = .ok (.ctx a d, t'))
    (aig : Aig) (hA : aig.Represents c) (hd : 1 ≤ d ∨ ∃ b ∈ c.bad, c.numInputs + c.latches.length ≤ b / 2)
    (hconst : ∀ s i b, s ≤ d → i < c.numInputs → a.getValue (1 + i + c.maxVar * s) = some b → a.getValue (1 + i) = some b) :
    replayTest aig f a d = .ok () := by
  have e : badLits c false = c.bad := by simp [badLits]
  refine replay_of_values dbg V env he clock h limit hl hr t t' a d hs aig hA (fun x h1 h2 => ?_) hconst
  rcases hd with hd | ⟨b, hb, hge⟩
  · obtain ⟨w, _, b, hb, _⟩ := (C36_shortest dbg V env he.correct clock h limit hl hr t t' a d hs).1
    refine C79_values dbg V env he clock h limit hl hr t t' a d hs b hb x h1 ?_
    have : c.maxVar * 1 ≤ c.maxVar * d := Nat.mul_le_mul_left _ hd
    have : c.maxVar = c.numInputs + c.latches.length + c.ands.length := rfl
    omega
  · exact C79_values dbg V env he clock h limit hl hr t t' a d hs b (by rw [e]; exact hb) x h1 (by omega)

/-- C79: so on a circuit without inputs the check passes for every counterexample of at least one step. -/
theorem C79_replay_closed (dbg : Bool) (V : Nat) (env : Env) (he : env.OK V) (clock : Clock) (h : Built f c false) (limit : Nat) (hl : limit < 4294967296)
    (hr : Representable V dbg c limit) (t t' : Nat) (a : Assignment) (d : Nat) (hs : search dbg env clock f limit t = .ok (.ctx a d, t'))
    (aig : Aig) (hA : aig.Represents c) (hd : 1 ≤ d) (hI : c.numInputs = 0) : replayTest aig f a d = .ok () :=
  C79_replay dbg V env he clock h limit hl hr t t' a d hs aig hA (.inl hd) fun _ i _ _ hi => by omega

theorem forM_each {α : Type} {g : α → Res Unit} : ∀ {l : List α}, l.forM g = .ok () → ∀ x ∈ l, g x = .ok ()
  | y :: l, h, x, hx => by
    have h : Except.bind (g y) (fun _ => l.forM g) = .ok () := h
    match e : g y, h with
    | .ok (), h =>
      rcases List.mem_cons.1 hx with rfl | hx
      · exact e
      · exact forM_each h x hx

/-- The test holds the inputs: all clocks get the same map. -/
theorem held {a : Assignment} {n : Nat} {inputs : List BoolMap} (h : extractInputs a f (n + 1) = .ok inputs) : ∃ m, inputs = List.replicate (n + 1) m := by
  unfold extractInputs at h
  generalize f.getInputLiteralNumbers.mapM (entry "tests/bmc.rs:44 unwrap" a) = x at h
  match x, h with
  | .ok m, h =>
    rw [same_mapM rfl, List.length_range] at h
    cases h
    exact ⟨m, rfl⟩
  | .error e, h =>
    rw [List.range_succ_eq_map, List.mapM_cons] at h
    cases h

theorem mapM_each {α β : Type} {g : α → Res β} : ∀ {l : List α} {r : List β}, l.mapM g = .ok r → ∀ x ∈ l, ∃ y, g x = .ok y
  | y :: l, r, h, x, hx => by
    rw [List.mapM_cons] at h
    obtain ⟨z, hz, h⟩ := bind_ok.1 h
    obtain ⟨zs, hzs, _⟩ := bind_ok.1 h
    rcases List.mem_cons.1 hx with rfl | hx
    · exact ⟨z, hz⟩
    · exact mapM_each hzs x hx

theorem entry_ok {site : String} {a : Assignment} {x : Nat} {y : Nat × Bool} (h : entry site a x = .ok y) : (a.getValue x).isSome := by
  unfold entry at h
  obtain ⟨b, hb, _⟩ := bind_ok.1 h
  unfold unwrapR at hb
  cases e : a.getValue x with
  | some _ => rfl
  | none => rw [e] at hb; cases hb

theorem badSeen_ok (hw : c.WF) (aig : Aig) (hA : aig.Represents c) {row : List Bool} (hlen : row.length = c.maxVar + 1) :
    badSeen aig row = .ok (c.bad.any fun l => litVal (rowVal row) l) := by
  unfold badSeen Aig.getBadInformation
  rw [hA.bad, foldlM_seen false fun l hl => ?_]
  · simp
  · have := hw.bad_ok l hl
    unfold Circuit.LitOK at *
    omega

/-- C79: whatever assignment and depth it is given, a check that passes has seen a counterexample of that length, and values for the first frame. -/
theorem C79_replay_sound (h : Built f c ob) (aig : Aig) (hA : aig.Represents c) (a : Assignment) (d : Nat) (hok : replayTest aig f a d = .ok ()) :
    (∃ w, c.Exec w d ∧ Circuit.BadNow c.bad (w d) ∧ (∀ s, s < d → ¬ Circuit.BadNow c.bad (w s)) ∧
      (∀ s i b, s ≤ d → i < c.numInputs → a.getValue (1 + i) = some b → w s (1 + i) = b) ∧
      (∀ (i : Nat) (p : Nat × Nat) (b : Bool), c.latches[i]? = some p → p.2 ≠ 0 → p.2 ≠ 1 → a.getValue (c.latchVar i) = some b → w 0 (c.latchVar i) = b)) ∧
    ∀ x, 1 ≤ x → x ≤ c.numInputs + c.latches.length → (a.getValue x).isSome := by
  have hw := h.1.wf
  unfold replayTest at hok
  obtain ⟨inputs, e1, h1⟩ := bind_ok.1 hok
  obtain ⟨latches, e2, h2⟩ := bind_ok.1 h1
  obtain ⟨_, _, h3⟩ := bind_ok.1 h2
  obtain ⟨rows, e3, h4⟩ := bind_ok.1 h3
  obtain ⟨_, _, h5⟩ := bind_ok.1 h4
  have hval : ∀ x, 1 ≤ x → x ≤ c.numInputs + c.latches.length → (a.getValue x).isSome := by
    intro x hx1 hx2
    by_cases hx : x ≤ c.numInputs
    · obtain ⟨y, hy⟩ := mapM_each e1 0 (List.mem_range.2 (Nat.succ_pos d))
      obtain ⟨z, hz⟩ := mapM_each hy x (by
        unfold getInputLiteralNumbers
        rw [h.laws.inputs, List.mem_range'_1]; omega)
      exact entry_ok hz
    · obtain ⟨z, hz⟩ := mapM_each e2 x (by
        unfold getStateLiteralNumbers
        rw [h.laws.states, List.mem_range'_1]; omega)
      exact entry_ok hz
  obtain ⟨e1', e2'⟩ := extracted h a d hval
  rw [e1'] at e1; cases e1
  rw [e2'] at e2; cases e2
  have htr := C21_trace aig c hA hw _ _ rows e3
  have hlen : rows.length = d + 1 := by rw [htr.length]; simp [testInputs]
  have hrow : ∀ s, s ≤ d → rows[s]? = some (rows.getD s []) := by
    intro s hs
    rw [List.getD_eq_getElem?_getD, List.getElem?_eq_getElem (by omega)]; rfl
  have hR : ∀ s, s ≤ d → c.Row (given ((List.range c.numInputs).map fun i => (1 + i, (a.getValue (1 + i)).getD false))) (rows.getD s []) := by
    intro s hs
    refine htr.row s _ _ ?_ (hrow s hs)
    rw [List.getElem?_map, testInputs, List.getElem?_replicate, if_pos (by omega)]; rfl
  have hseen : ∀ s, s ≤ d → ∃ seen, seen = (c.bad.any fun l => litVal (rowVal (rows.getD s [])) l) ∧
      (if s = d then assertR "tests/bmc.rs:95" seen else assertR "tests/bmc.rs:98" (!seen)) = .ok () := by
    intro s hs
    have := forM_each h5 (rows.getD s [], s) (List.mem_zipIdx_iff_getElem?.2 (hrow s hs))
    obtain ⟨seen, e, h6⟩ := bind_ok.1 this
    dsimp only at e h6
    rw [badSeen_ok hw aig hA (hR s hs).length] at e
    refine ⟨seen, by injection e with e; exact e.symm, ?_⟩
    rwa [hlen, Nat.add_sub_cancel] at h6
  have hany : ∀ s, (c.bad.any fun l => litVal (rowVal (rows.getD s [])) l) = true ↔ Circuit.BadNow c.bad (rowVal (rows.getD s [])) := by
    intro s
    rw [List.any_eq_true]; rfl
  refine ⟨⟨fun s => rowVal (rows.getD s []), C21_exec aig c hA hw _ _ rows e3 d (by omega), ?_, ?_, ?_, ?_⟩, hval⟩
  · obtain ⟨seen, e, h6⟩ := hseen d (Nat.le_refl d)
    rw [if_pos rfl] at h6
    refine (hany d).1 ?_
    rw [← e]
    cases seen with
    | true => rfl
    | false => cases h6
  · intro s hs hbad
    obtain ⟨seen, e, h6⟩ := hseen s (by omega)
    rw [if_neg (by omega), e, (hany s).2 hbad] at h6
    cases h6
  · intro s i b hs hi hv
    have := (hR s hs).inputs i hi
    rw [get_map_range 1 c.numInputs (fun i => (a.getValue (1 + i)).getD false) i hi, hv] at this
    injection this with this
    exact this.symm
  · intro i p b hp h0 h1' hv
    have := (htr.start _ (hrow 0 (by omega)) i p hp).2.2 h0 h1'
    rw [show given (testLatches a c) (c.latchVar i) = some ((a.getValue (c.latchVar i)).getD false) from
      get_map_range (1 + c.numInputs) c.latches.length (fun i => (a.getValue (c.latchVar i)).getD false) i (getElem?_lt hp), hv] at this
    injection this with this
    exact this.symm

/-- The run in which the inputs keep the values of frame 0: `w 0, …, w d` is an execution with these inputs and, where the reset leaves them open, the
counterexample's first latch values, and it is bad at the last clock only. -/
structure HeldRun (a : Assignment) (c : Circuit) (d : Nat) (w : Nat → Nat → Bool) : Prop where
  exec : c.Exec w d
  latches : ∀ (i : Nat) (p : Nat × Nat), c.latches[i]? = some p → p.2 ≠ 0 → p.2 ≠ 1 → a.getValue (c.latchVar i) = some (w 0 (c.latchVar i))
  inputs : ∀ s i, s ≤ d → i < c.numInputs → a.getValue (1 + i) = some (w s (1 + i))
  last : Circuit.BadNow c.bad (w d)
  before : ∀ s, s < d → ¬ Circuit.BadNow c.bad (w s)

/-- C79: exactly what the check accepts, whatever assignment and depth it is given. -/
theorem C79_replay_exact (h : Built f c ob) (aig : Aig) (hA : aig.Represents c) (a : Assignment) (d : Nat) :
    replayTest aig f a d = .ok () ↔
      (∀ x, 1 ≤ x → x ≤ c.numInputs + c.latches.length → (a.getValue x).isSome) ∧ ∃ w, HeldRun a c d w := by
  have hw := h.1.wf
  constructor
  · intro hok
    obtain ⟨⟨w, h1, h2, h3, h4, h5⟩, hval⟩ := C79_replay_sound h aig hA a d hok
    refine ⟨hval, w, h1, ?_, ?_, h2, h3⟩
    · intro i p hp h0 h1'
      have hi := getElem?_lt hp
      obtain ⟨b, hb⟩ := Option.isSome_iff_exists.1 (hval (c.latchVar i) (by unfold Circuit.latchVar; omega) (by unfold Circuit.latchVar; omega))
      rw [hb, h5 i p b hp h0 h1' hb]
    · intro s i hs hi
      obtain ⟨b, hb⟩ := Option.isSome_iff_exists.1 (hval (1 + i) (by omega) (by omega))
      rw [hb, h4 s i b hs hi hb]
  · rintro ⟨hval, w, hH⟩
    obtain ⟨e1, e2⟩ := extracted h a d hval
    obtain ⟨rows, e3⟩ := test_accepted hw aig hA a d
    have htr := C21_trace aig c hA hw _ _ rows e3
    have hlen : rows.length = d + 1 := by rw [htr.length]; simp [testInputs]
    have hex := C21_exec aig c hA hw _ _ rows e3 d (by omega)
    have hrow : ∀ s, s ≤ d → rows[s]? = some (rows.getD s []) := by
      intro s hs
      rw [List.getD_eq_getElem?_getD, List.getElem?_eq_getElem (by omega)]; rfl
    have hin : ∀ s i, s ≤ d → i < c.numInputs → rowVal (rows.getD s []) (1 + i) = w s (1 + i) := by
      intro s i hs hi
      have := (htr.row s (given ((List.range c.numInputs).map fun i => (1 + i, (a.getValue (1 + i)).getD false))) _ (by
        rw [List.getElem?_map, testInputs, List.getElem?_replicate, if_pos (by omega)]; rfl) (hrow s hs)).inputs i hi
      rw [get_map_range 1 c.numInputs (fun i => (a.getValue (1 + i)).getD false) i hi, hH.inputs s i hs hi] at this
      injection this with this
      exact this.symm
    have wires : ∀ s, s ≤ d → (∀ i, i < c.latches.length → rowVal (rows.getD s []) (c.latchVar i) = w s (c.latchVar i)) →
        ∀ x, x ≤ c.maxVar → rowVal (rows.getD s []) x = w s x := by
      intro s hs hl x hx
      refine Circuit.frame_unique hw (hex.frame s hs) (hH.exec.frame s hs) (fun y hy1 hy2 => ?_) x hx
      unfold Circuit.andVar at hy2
      by_cases hy : y < 1 + c.numInputs
      · have := hin s (y - 1) hs (by omega)
        rwa [show 1 + (y - 1) = y by omega] at this
      · have := hl (y - (1 + c.numInputs)) (by omega)
        unfold Circuit.latchVar at this
        rwa [show 1 + c.numInputs + (y - (1 + c.numInputs)) = y by omega] at this
    have hst : ∀ i, i < c.latches.length → rowVal (rows.getD 0 []) (c.latchVar i) = w 0 (c.latchVar i) := by
      intro i hi
      obtain ⟨s0, s1, s2⟩ := htr.start _ (hrow 0 (by omega)) i _ (List.getElem?_eq_getElem hi)
      obtain ⟨w0, w1⟩ := hH.exec.init i _ (List.getElem?_eq_getElem hi)
      by_cases h0 : (c.latches[i]).2 = 0
      · rw [s0 h0, w0 h0]
      · by_cases h1 : (c.latches[i]).2 = 1
        · rw [s1 h1, w1 h1]
        · have h2 := s2 h0 h1
          have h3 := hH.latches i _ (List.getElem?_eq_getElem hi) h0 h1
          rw [show given (testLatches a c) (c.latchVar i) = some ((a.getValue (c.latchVar i)).getD false) from
            get_map_range (1 + c.numInputs) c.latches.length (fun i => (a.getValue (c.latchVar i)).getD false) i hi, h3] at h2
          injection h2 with h2
          exact h2.symm
    have hall : ∀ s, s ≤ d → ∀ x, x ≤ c.maxVar → rowVal (rows.getD s []) x = w s x := by
      intro s
      induction s with
      | zero => exact fun hs => wires 0 hs hst
      | succ s ih =>
        intro hs
        refine wires (s + 1) hs fun i hi => ?_
        have hp := List.getElem?_eq_getElem hi
        have k1 := hex.step s (by omega) i _ hp
        have k2 := hH.exec.step s (by omega) i _ hp
        have hnext := hw.next_ok i _ hp
        rw [k2, show rowVal (rows.getD (s + 1) []) (c.latchVar i) = litVal (rowVal (rows.getD s [])) _ from k1]
        unfold litVal
        rw [ih (by omega) _ hnext]
    have hbad : ∀ s, s ≤ d → (Circuit.BadNow c.bad (rowVal (rows.getD s [])) ↔ Circuit.BadNow c.bad (w s)) := by
      intro s hs
      have key : ∀ b ∈ c.bad, litVal (rowVal (rows.getD s [])) b = litVal (w s) b := by
        intro b hb
        unfold litVal
        rw [hall s hs _ (hw.bad_ok b hb)]
      exact ⟨fun ⟨b, hb, hv⟩ => ⟨b, hb, by rw [← key b hb]; exact hv⟩, fun ⟨b, hb, hv⟩ => ⟨b, hb, by rw [key b hb]; exact hv⟩⟩
    have e4 := checkLast_ok hw aig hA e3 d hlen hw.bad_ok ((hbad d (Nat.le_refl d)).2 hH.last) fun s hs hb => hH.before s hs ((hbad s (by omega)).1 hb)
    unfold replayTest
    rw [e1, e2]
    show Except.bind (assertR _ ((testInputs a c d).length - 1 == d)) _ = _
    rw [show ((testInputs a c d).length - 1 == d) = true by simp [testInputs]]
    show Except.bind (aig.simulate _ _) _ = _
    rw [e3]
    show Except.bind (assertR _ (rows.length - 1 == d)) _ = _
    rw [show (rows.length - 1 == d) = true by simp [hlen]]
    exact e4

/-! ## The tests of the provers -/

/-- An answer that is right and, if it is an invariant, passes `check_invariant`. -/
def Answer (f : Fsts) (c : Circuit) (bads : List Nat) : ProofResult → Prop
  | .proof inv => c.Safe bads ∧ ∀ (dbg' : Bool) (env' : Env), env'.Correct → ∀ t, ∃ t', f.checkInvariant dbg' env' inv t = .ok ((), t')
  | .ctx _ => ∃ d, c.UnsafeAt bads d

theorem checkVerdict_ok {bads : List Nat} {r : ProofResult} (h : Answer f c bads r) (dbg : Bool) {env : Env} (he : env.Correct) (check : Bool) (t : Nat) :
    ∃ t', checkVerdict dbg env f check t r = .ok t' := by
  cases r with
  | ctx d => exact ⟨t, rfl⟩
  | proof inv =>
    cases check with
    | false => exact ⟨t, rfl⟩
    | true =>
      obtain ⟨t', e⟩ := h.2 dbg env he t
      refine ⟨t', ?_⟩
      show Except.bind (f.checkInvariant dbg env inv t) _ = _
      rw [e]; rfl

theorem map_ok {α β : Type} {x : Res (α × β)} {b : β} (h : x.map Prod.snd = .ok b) : ∃ a, x = .ok (a, b) := by
  match x, h with
  | .ok (a, _), h => cases h; exact ⟨a, rfl⟩

/-- C79: `test` of tests/ic3_stateless.rs passes on every circuit. -/
theorem C79_ic3_test (dbg : Bool) (env : Env) (he : env.OK) (sched : Sched) (hsched : sched.OK) (h : Built f c ob) (hs : c.Small)
    (hl : ¬ c.Remote (badLits c ob)) (fuel : Nat) (hfuel : (2 ^ c.latches.length + 1) * (2 ^ c.latches.length + 2) < fuel) (t : Nat) :
    ic3Test dbg env sched f fuel t = .ok () := by
  obtain ⟨r, e⟩ := C40_returns dbg env he sched hsched h hs hl fuel hfuel
  have hA : Answer f c (badLits c ob) r := by
    cases r with
    | proof inv => exact C38_proof dbg env he sched hsched h hs fuel inv e
    | ctx d =>
      obtain ⟨k, hk, _⟩ := C39_ctx dbg env he sched hsched h hs fuel d e
      exact ⟨k, hk.1⟩
  obtain ⟨ps, e'⟩ := map_ok ((proveStatelessV_drops true dbg env sched f fuel).trans e)
  obtain ⟨t', e2⟩ := checkVerdict_ok hA dbg he.correct true t
  unfold ic3Test
  rw [e']
  show Except.bind (checkVerdict dbg env f true t r) _ = _
  rw [e2]; rfl

/-- Enough fuel for both provers. -/
def plenty (n : Nat) : Nat := pdrBound (2 ^ n + 1) + (2 ^ n + 1) * (2 ^ n + 2)

theorem callProver_ok (isFirst dbg : Bool) (I : StatefulImpl) (O : I.OK) (sched : Sched) (hsched : sched.OK) (h : Built f c ob) (hs : c.Small)
    (hg : GateBads c ob) (hl : ¬ c.Remote (badLits c ob)) (fuel : Nat) (hfuel : plenty c.latches.length < fuel) :
    ∃ r, callProver isFirst dbg I sched f fuel = .ok r ∧ Answer f c (badLits c ob) r := by
  unfold plenty at hfuel
  unfold callProver
  cases isFirst with
  | true =>
    rw [if_pos rfl, PDR.runV_drops]
    rcases C44_terminates dbg I O sched hsched h hs fuel (by omega) with ⟨r, e⟩ | ⟨site, e⟩
    · refine ⟨r, e, ?_⟩
      cases r with
      | proof inv => exact C42_proof_partial dbg I O sched hsched h hs (.inr hg.1) fuel inv e
      | ctx d =>
        obtain ⟨k, hk, _⟩ := C43_ctx dbg I O sched hsched h hs hg.1 fuel d e
        exact ⟨k, hk.1⟩
    · exact absurd (C44_no_panic dbg I O sched hsched h hs hg fuel site e).2 hl
  | false =>
    rw [if_neg (by decide), proveStatefulV_drops]
    obtain ⟨h1, h2, _⟩ := C41_sound dbg I O sched hsched h hs fuel
    rcases C41_terminates dbg I O sched hsched h hs fuel (by omega) with ⟨r, e⟩ | ⟨h3, _⟩
    · refine ⟨r, e, ?_⟩
      cases r with
      | proof inv => exact h1 inv e
      | ctx d =>
        obtain ⟨k, hk, _⟩ := h2 d e
        exact ⟨k, hk.1⟩
    · exact absurd h3 hl

theorem compareOne_ok (isFirst dbg : Bool) (I : StatefulImpl) (O : I.OK) (env : Env) (he : env.Correct) (sched : Sched) (hsched : sched.OK)
    (h : Built f c ob) (hs : c.Small) (hg : GateBads c ob) (hl : ¬ c.Remote (badLits c ob)) (fuel : Nat) (hfuel : plenty c.latches.length < fuel)
    (check : Bool) (t : Nat) : ∃ r t', compareOne isFirst dbg I env sched f fuel check t = .ok (r, t') ∧ Answer f c (badLits c ob) r := by
  obtain ⟨r, e, hA⟩ := callProver_ok isFirst dbg I O sched hsched h hs hg hl fuel hfuel
  obtain ⟨t', e2⟩ := checkVerdict_ok hA dbg he check t
  refine ⟨r, t', ?_, hA⟩
  unfold compareOne
  rw [e]
  show Except.bind (checkVerdict dbg env f check t r) _ = _
  rw [e2]; rfl

/-- C79: the comparison of tests/compare_provers.rs passes whichever provers it calls, however they shuffle and whichever invariants are checked. -/
theorem C79_compare (first1 first2 dbg : Bool) (I : StatefulImpl) (O : I.OK) (env : Env) (he : env.Correct) (sched1 sched2 : Sched) (h1 : sched1.OK)
    (h2 : sched2.OK) (h : Built f c ob) (hs : c.Small) (hg : GateBads c ob) (hl : ¬ c.Remote (badLits c ob)) (fuel : Nat)
    (hfuel : plenty c.latches.length < fuel) (check1 check2 : Bool) (t : Nat) :
    compareBoth first1 first2 dbg I env sched1 sched2 f fuel check1 check2 t = .ok () := by
  obtain ⟨r1, t1, e1, A1⟩ := compareOne_ok first1 dbg I O env he sched1 h1 h hs hg hl fuel hfuel check1 t
  obtain ⟨r2, t2, e2, A2⟩ := compareOne_ok first2 dbg I O env he sched2 h2 h hs hg hl fuel hfuel check2 t1
  unfold compareBoth
  rw [e1]
  show Except.bind (compareOne first2 dbg I env sched2 f fuel check2 t1) _ = _
  rw [e2]
  cases r1 <;> cases r2
  · rfl
  · obtain ⟨d, hd⟩ := A2
    exact absurd hd (A1.1 d)
  · obtain ⟨d, hd⟩ := A1
    exact absurd hd (A2.1 d)
  · rfl

/-- C79: a comparison that passes has compared the answers of the two provers it was told to call. -/
theorem C79_compare_same (first1 first2 dbg : Bool) (I : StatefulImpl) (env : Env) (sched1 sched2 : Sched) (fuel : Nat) (check1 check2 : Bool) (t : Nat)
    (hok : compareBoth first1 first2 dbg I env sched1 sched2 f fuel check1 check2 t = .ok ()) :
    ∃ r1 r2, callProver first1 dbg I sched1 f fuel = .ok r1 ∧ callProver first2 dbg I sched2 f fuel = .ok r2 ∧
      ((∃ i1 i2, r1 = .proof i1 ∧ r2 = .proof i2) ∨ ∃ d1 d2, r1 = .ctx d1 ∧ r2 = .ctx d2) := by
  unfold compareBoth at hok
  obtain ⟨⟨r1, t1⟩, e1, hok⟩ := bind_ok.1 hok
  obtain ⟨⟨r2, t2⟩, e2, hok⟩ := bind_ok.1 hok
  have one : ∀ {isFirst sched check t r t'}, compareOne isFirst dbg I env sched f fuel check t = .ok (r, t') → callProver isFirst dbg I sched f fuel = .ok r := by
    intro isFirst sched check t r t' e
    unfold compareOne at e
    obtain ⟨r', e3, e⟩ := bind_ok.1 e
    obtain ⟨t'', _, e⟩ := bind_ok.1 e
    cases e
    exact e3
  refine ⟨r1, r2, one e1, one e2, ?_⟩
  cases r1 <;> cases r2
  · exact .inl ⟨_, _, rfl, rfl⟩
  · cases hok
  · cases hok
  · exact .inr ⟨_, _, rfl, rfl⟩

/-- C79: PDR's `Proof` is right on every circuit, covered or not and in both build profiles, if its invariant was checked. -/
theorem C79_checked (dbg : Bool) (I : StatefulImpl) (F : Err → Prop) (O : I.OK F) (env : Env) (he : env.Correct) (sched : Sched) (hsched : sched.OK)
    (h : Built f c ob) (hs : c.Small) (fuel t t' : Nat) (inv : CNF)
    (hok : compareOne true dbg I env sched f fuel true t = .ok (.proof inv, t')) : c.Safe (badLits c ob) := by
  unfold compareOne at hok
  obtain ⟨r, e1, hok⟩ := bind_ok.1 hok
  obtain ⟨t1, e2, hok⟩ := bind_ok.1 hok
  cases hok
  unfold callProver at e1
  rw [if_pos rfl, PDR.runV_drops] at e1
  obtain ⟨⟨_, t2⟩, e3, _⟩ := bind_ok.1 (show (f.checkInvariant dbg env inv t >>= fun r => pure r.2) = .ok _ from e2)
  obtain ⟨k1, k2⟩ := C42_checked dbg I F O sched hsched h hs fuel inv e1 dbg env he t
  exact k2 (k1.1 ⟨t2, e3⟩)

/-- C79: the comparison of PDR with `IC3Stateful` that the names in tests/compare_provers.rs suggest would leave no doubt on any circuit: if it passes, PDR's
verdict is right. -/
theorem C79_compare_intended (dbg : Bool) (I : StatefulImpl) (O : I.OK) (env : Env) (sched1 sched2 : Sched) (h2 : sched2.OK)
    (h : Built f c ob) (hs : c.Small) (fuel : Nat) (check1 check2 : Bool) (t : Nat)
    (hok : compareBoth true false dbg I env sched1 sched2 f fuel check1 check2 t = .ok ()) :
    (∀ inv, PDR.run dbg I sched1 f fuel = .ok (.proof inv) → c.Safe (badLits c ob)) ∧
    (∀ d, PDR.run dbg I sched1 f fuel = .ok (.ctx d) → ∃ k, c.UnsafeAt (badLits c ob) k) ∧ ∃ r, PDR.run dbg I sched1 f fuel = .ok r := by
  obtain ⟨r1, r2, e1, e2, hr⟩ := C79_compare_same true false dbg I env sched1 sched2 fuel check1 check2 t hok
  unfold callProver at e1 e2
  rw [if_pos rfl, PDR.runV_drops] at e1
  rw [if_neg (by decide), proveStatefulV_drops] at e2
  obtain ⟨k1, k2, _⟩ := C41_sound dbg I O sched2 h2 h hs fuel
  rw [e1]
  rcases hr with ⟨i1, i2, rfl, rfl⟩ | ⟨d1, d2, rfl, rfl⟩
  · exact ⟨fun _ _ => (k1 i2 e2).1, fun _ e => (by cases e), _, rfl⟩
  · obtain ⟨k, hk, _⟩ := k2 d2 e2
    exact ⟨fun _ e => (by cases e), fun _ _ => ⟨k, hk.1⟩, _, rfl⟩

/-! ## Concrete runs -/

/-- One latch that remembers the input; bad when the input falls. -/
def pulse : Circuit := ⟨1, [(2, 0)], [(4, 3)], [], [6], []⟩
theorem pulse_supported : Supported pulse false := supported_of (by decide) (by unfold Circuit.Small; decide) rfl (by decide)
theorem pulse_graph : (finish pulse [] none).Represents pulse := represents_finish ⟨by decide, by decide, by decide, by decide, by decide⟩ _ _
theorem pulse_built : Built (systemOf pulse false) pulse false :=
  systemOf_built ⟨by decide, by decide, by decide, by decide, by decide⟩ pulse_supported

/-- Depth and outcome of the replay of the counterexample found for a circuit. -/
def replayOf (c : Circuit) (limit : Nat) : Option (Nat × Except Err Unit) :=
  match search true Brute.env patient (systemOf c false) limit 0 with
  | .ok (.ctx a d, _) => some (d, replayTest (finish c [] none) (systemOf c false) a d)
  | _ => none

/-- C79: the check of tests/bmc.rs rejects right counterexamples: that of `pulse` has length 1, raises the input and lowers it again, and the replay, which
holds the input, ends in a state that is not bad. -/
theorem C79_replay_refuted : ∃ a t', Built (systemOf pulse false) pulse false ∧ (finish pulse [] none).Represents pulse ∧
    search true Brute.env patient (systemOf pulse false) 3 0 = .ok (.ctx a 1, t') ∧ pulse.UnsafeAt (badLits pulse false) 1 ∧
    replayTest (finish pulse [] none) (systemOf pulse false) a 1 = .error (.panic "tests/bmc.rs:95") := by
  have hv : replayOf pulse 3 = some (1, .error (.panic "tests/bmc.rs:95")) := by decide +kernel
  unfold replayOf at hv
  generalize e : search true Brute.env patient (systemOf pulse false) 3 0 = r at hv
  match r, hv with
  | .ok (.ctx a d, t'), hv =>
    injection hv with hv
    injection hv with h1 h2
    subst h1
    exact ⟨a, t', pulse_built, pulse_graph, rfl,
      (C36_shortest true 2147483646 Brute.env (Brute.env_ok_upTo _).correct patient pulse_built 3 (by decide) ⟨by decide, .inr (by decide)⟩ 0 t' a 1 e).1, h2⟩

/-- C79: in fact no assignment at all passes the check on `pulse`, whatever the solver, although the circuit is unsafe. -/
theorem C79_replay_never (aig : Aig) (hA : aig.Represents pulse) (f : Fsts) (a : Assignment) (d : Nat) : replayTest aig f a d ≠ .ok () := by
  intro h
  unfold replayTest at h
  obtain ⟨inputs, e1, h1⟩ := bind_ok.1 h
  obtain ⟨latches, e2, h2⟩ := bind_ok.1 h1
  obtain ⟨_, _, h3⟩ := bind_ok.1 h2
  obtain ⟨rows, e3, h4⟩ := bind_ok.1 h3
  obtain ⟨_, _, h5⟩ := bind_ok.1 h4
  obtain ⟨m, rfl⟩ := held e1
  have hw := pulse_supported.wf
  have htr := C21_trace aig pulse hA hw _ _ rows e3
  have hlen : rows.length = d + 1 := by rw [htr.length]; simp
  have hrow : ∀ s, s ≤ d → ∃ row, rows[s]? = some row ∧ pulse.Row (given m) row := by
    intro s hs
    have hs' : s < rows.length := by omega
    refine ⟨rows[s], List.getElem?_eq_getElem hs', htr.row s _ _ ?_ (List.getElem?_eq_getElem hs')⟩
    rw [List.getElem?_map, List.getElem?_replicate, if_pos (by omega)]; rfl
  obtain ⟨row, hd, hR⟩ := hrow d (Nat.le_refl d)
  have hlast := forM_each h5 (row, d) (List.mem_zipIdx_iff_getElem?.2 hd)
  obtain ⟨seen, hseen, hlast⟩ := bind_ok.1 hlast
  dsimp only at hseen hlast
  rw [if_pos (by omega)] at hlast
  have hseen' : seen = true := by cases seen with
    | true => rfl
    | false => cases hlast
  subst hseen'
  unfold badSeen Aig.getBadInformation at hseen
  rw [hA.bad, foldlM_seen false fun l hl => by have := hw.bad_ok l hl; have := hR.length; unfold Circuit.LitOK at *; omega] at hseen
  have hbad : litVal (rowVal row) 6 = true := by
    have : (false || List.any [6] fun l => litVal (rowVal row) l) = true := by injection hseen
    simpa using this
  have hgate := hR.frame.2 0 (4, 3) rfl
  have h6 : rowVal row 3 = true := by simpa [litVal] using hbad
  rw [show pulse.andVar 0 = 3 from rfl, h6] at hgate
  have hv : rowVal row 2 = true ∧ rowVal row 1 = false := by
    have := hgate.symm
    simpa [litVal] using this
  cases d with
  | zero =>
    have := (htr.start row hd 0 (2, 0) rfl).1 rfl
    rw [show pulse.latchVar 0 = 2 from rfl, hv.1] at this
    cases this
  | succ d =>
    obtain ⟨row', hd', hR'⟩ := hrow d (by omega)
    have hstep := htr.step d row' row hd' hd 0 (2, 0) rfl
    have i1 := hR.inputs 0 (by decide)
    have i2 := hR'.inputs 0 (by decide)
    rw [i1] at i2
    rw [show pulse.latchVar 0 = 2 from rfl, hv.1] at hstep
    have : rowVal row' 1 = true := by simpa [litVal] using hstep.symm
    injection i2 with i2
    rw [show 1 + 0 = 1 from rfl, hv.2, this] at i2
    cases i2

/-- C79: nor can the first condition of `C79_replay` be dropped: with an input as the only bad literal and a latch without a reset value, the formula of depth
0 does not mention the latch, and the test unwraps its missing value. -/
theorem C79_replay_unvalued : ∃ a t', Built (systemOf inputBad false) inputBad false ∧
    search true Brute.env patient (systemOf inputBad false) 3 0 = .ok (.ctx a 0, t') ∧ inputBad.UnsafeAt (badLits inputBad false) 0 ∧
    replayTest (finish inputBad [] none) (systemOf inputBad false) a 0 = .error (.panic "tests/bmc.rs:61 unwrap") := by
  have hv : replayOf inputBad 3 = some (0, .error (.panic "tests/bmc.rs:61 unwrap")) := by decide +kernel
  unfold replayOf at hv
  generalize e : search true Brute.env patient (systemOf inputBad false) 3 0 = r at hv
  match r, hv with
  | .ok (.ctx a d, t'), hv =>
    injection hv with hv
    injection hv with h1 h2
    subst h1
    exact ⟨a, t', inputBad_built, rfl,
      (C36_shortest true 2147483646 Brute.env (Brute.env_ok_upTo _).correct patient inputBad_built 3 (by decide) ⟨by decide, .inr (by decide)⟩ 0 t' a 0 e).1, h2⟩

/-- The hypotheses of `C79_replay` and `C79_replay_closed`: `toggle` holds its input, `shifter` has none. -/
example : replayOf toggle 3 = some (1, .ok ()) := by decide +kernel
example (a : Assignment) (t' : Nat) (hs : search true Brute.env patient (systemOf toggle false) 3 0 = .ok (.ctx a 1, t'))
    (h : a.getValue 6 = a.getValue 1) : replayTest (finish toggle [] none) (systemOf toggle false) a 1 = .ok () :=
  C79_replay true 2147483646 Brute.env (Brute.env_ok_upTo _) patient toggle_built 3 (by decide) ⟨by decide, .inr (by decide)⟩ 0 t' a 1 hs _
    toggle_graph (.inl (Nat.le_refl 1)) fun s i b hsd hi hv => by
      have hi : i = 0 := by have : toggle.numInputs = 1 := rfl; omega
      subst hi
      rcases Nat.le_one_iff_eq_zero_or_eq_one.1 hsd with rfl | rfl
      · exact hv
      · rw [← h]; exact hv
example (a : Assignment) (t' : Nat) (hs : search true Brute.env patient (systemOf shifter false) 3 0 = .ok (.ctx a 3, t')) :
    replayTest (finish shifter [] none) (systemOf shifter false) a 3 = .ok () :=
  C79_replay_closed true 2147483646 Brute.env (Brute.env_ok_upTo _) patient shifter_built 3 (by decide) ⟨by decide, .inr (by decide)⟩ 0 t' a 3 hs _
    (represents_finish ⟨by decide, by decide, by decide, by decide, by decide⟩ _ _) (by decide) rfl
/-- The values that the searches assign: every latch of `shifter` in the first frame; the input of `toggle` in both frames. -/
example : (match search true Brute.env patient (systemOf shifter false) 3 0 with
    | .ok (.ctx a d, _) => some (d, [1, 2, 3].map a.getValue)
    | _ => none) = some (3, [some false, some false, some false]) := by decide +kernel
example : (match search true Brute.env patient (systemOf toggle false) 3 0 with
    | .ok (.ctx a d, _) => some (d, [1, 2, 1 + toggle.maxVar].map a.getValue)
    | _ => none) = some (1, [some true, some false, some true]) := by decide +kernel

end Verif.Props
