import Verif.Props.Pdr
import Verif.Props.AigRead

/-!
# Properties C45 and C46: the provers against each other, and from a file to a verdict
-/

namespace Verif.Props

open Verif.Fsts Verif.IC3 Verif.Aiger

variable {f f' : Fsts} {c : Circuit} {ob : Bool}

/-- A run of one of the three provers, in some build profile, with some correct solver, schedule and fuel, on the system `f` of the
circuit `c`. -/
inductive ProverRun (f : Fsts) (c : Circuit) (ob : Bool) : Res ProofResult → Prop where
  | stateless (dbg : Bool) (env : Env) (sched : Sched) (fuel : Nat) : env.OK → sched.OK →
      ProverRun f c ob (proveStateless dbg env sched f fuel)
  | stateful (dbg : Bool) (I : StatefulImpl) (F : Err → Prop) (sched : Sched) (fuel : Nat) : I.OK F → sched.OK →
      ProverRun f c ob (proveStateful dbg I sched f fuel)
  | pdr (dbg : Bool) (I : StatefulImpl) (F : Err → Prop) (sched : Sched) (fuel : Nat) : I.OK F → sched.OK → c.Covered (badLits c ob) →
      ProverRun f c ob (PDR.run dbg I sched f fuel)

/-- `Proof` and `CTX` without what they carry. -/
def isProof : ProofResult → Bool
  | .proof _ => true
  | .ctx _ => false

theorem ProverRun.proof (h : Built f c ob) (hs : c.Small) {inv : CNF} {x : Res ProofResult} (hr : ProverRun f c ob x)
    (e : x = .ok (.proof inv)) : c.Safe (badLits c ob) := by
  cases hr with
  | stateless dbg env sched fuel he hsched => exact (C38_proof dbg env he sched hsched h hs fuel inv e).1
  | stateful dbg I F sched fuel O hsched =>
    have := proveStateful_ends dbg O hsched (smallSys_of h hs) fuel
    rw [e] at this
    exact this.1
  | pdr dbg I F sched fuel O hsched hg =>
    have := PDR.run_ends dbg O hsched (smallSys_of h hs) fuel
    rw [e] at this
    exact (this.2 (.inl hg)).1

theorem ProverRun.ctx (h : Built f c ob) (hs : c.Small) {d : Nat} {x : Res ProofResult} (hr : ProverRun f c ob x)
    (e : x = .ok (.ctx d)) : ∃ k, c.Shortest (badLits c ob) k ∧ d ≤ k ∧ (d = 0 ↔ k = 0) := by
  have weaken : (∃ k, c.Shortest (badLits c ob) k ∧ (k ≤ 1 ∧ d = k ∨ 1 ≤ d ∧ d < k)) →
      ∃ k, c.Shortest (badLits c ob) k ∧ d ≤ k ∧ (d = 0 ↔ k = 0) := fun ⟨k, h1, h2⟩ => ⟨k, h1, by omega, by omega⟩
  cases hr with
  | stateless dbg env sched fuel he hsched => exact weaken (C39_ctx dbg env he sched hsched h hs fuel d e)
  | stateful dbg I F sched fuel O hsched =>
    have := proveStateful_ends dbg O hsched (smallSys_of h hs) fuel
    rw [e] at this
    exact weaken this
  | pdr dbg I F sched fuel O hsched hg =>
    have := PDR.run_ends dbg O hsched (smallSys_of h hs) fuel
    rw [e] at this
    exact PDR.Outcome.shortest (sys := f) this (.inl hg) hg

/-- C45: two runs of any of the provers that return, return the same verdict: whatever solvers, schedules and build profiles, and even
when each run got its own system of the same circuit. -/
theorem C45_agree (h : Built f c ob) (h' : Built f' c ob) (hs : c.Small) (r r' : ProofResult) (hr : ProverRun f c ob (.ok r))
    (hr' : ProverRun f' c ob (.ok r')) : isProof r = isProof r' := by
  cases r with
  | proof inv =>
    have hsafe := hr.proof h hs rfl
    cases r' with
    | proof inv' => rfl
    | ctx d => obtain ⟨k, ⟨hk, _⟩, _⟩ := hr'.ctx h' hs rfl; exact absurd hk (hsafe k)
  | ctx d =>
    obtain ⟨k, ⟨hk, _⟩, _⟩ := hr.ctx h hs rfl
    cases r' with
    | proof inv' => exact absurd hk (hr'.proof h' hs rfl k)
    | ctx d' => rfl

/-- C45: bounded model checking never contradicts a prover.  After `Proof` it finds no counterexample at any depth limit; after a `CTX`
of bounded model checking every prover that returns says `CTX`, with a depth that is not larger, and 0 for both or neither. -/
theorem C45_bmc (h : Built f c ob) (h' : Built f' c ob) (hs : c.Small) (r : ProofResult) (hr : ProverRun f c ob (.ok r)) (dbg : Bool)
    (V : Nat) (env : Env) (he : env.Correct V) (clock : Clock) (limit : Nat) (hl : limit < 4294967296) (hrep : Representable V dbg c limit)
    (t t' : Nat)
    (a : Assignment) (d : Nat) (hb : BMC.search dbg env clock f' limit t = .ok (.ctx a d, t')) :
    ∃ d', d' ≤ d ∧ (d' = 0 ↔ d = 0) ∧ r = .ctx d' := by
  obtain ⟨hu, hfirst⟩ := C36_shortest dbg V env he clock h' limit hl hrep t t' a d hb
  cases r with
  | proof inv => exact absurd hu (hr.proof h hs rfl d)
  | ctx d' =>
    obtain ⟨k, ⟨hk, hmin⟩, hle, h0⟩ := hr.ctx h hs rfl
    have h1 : k ≤ d := Nat.le_of_not_lt fun hlt => hmin d hlt hu
    have h2 : d ≤ k := Nat.le_of_not_lt fun hlt => hfirst k hlt hk
    exact ⟨d', by omega, by omega, rfl⟩

/-- C45: conversely, after a `CTX` of a prover there is a depth limit at which bounded model checking without timeouts confirms it, if
the variables of that many frames fit. -/
theorem C45_bmc_confirms (h : Built f c ob) (h' : Built f' c ob) (hs : c.Small) (d : Nat) (hr : ProverRun f c ob (.ok (.ctx d))) :
    ∃ k, d ≤ k ∧ ∀ (dbg : Bool) (V : Nat) (env : Env) (clock : Clock), V ≤ 2147483647 → env.Correct V →
      (∀ k, clock.expired k = false ∧ clock.finished k = true) →
      ∀ limit, k ≤ limit → limit < 2147483648 → c.maxVar * (limit + 1) ≤ V → ∀ t,
      ∃ a d' t', BMC.search dbg env clock f' limit t = .ok (.ctx a d', t') := by
  obtain ⟨k, ⟨hu, _⟩, hk, _⟩ := hr.ctx h hs rfl
  exact ⟨k, hk, fun dbg V env clock hV he hc limit h1 h2 h3 t =>
    (C37_exact dbg V env he clock hc h' limit h2 hV h3 t).1 ⟨k, h1, hu⟩⟩

/-! ## C46 -/

/-- Reading a file, building the system and proving, as in tests/ic3_stateless.rs: `from_aig_path`, `from_aig`, `IC3Stateless::prove`. -/
def checkFile (dbg : Bool) (be : BuildEnv) (env : Env) (sched : Sched) (bytes : Text) (ob : Bool) (fuel : Nat) : Res ProofResult := do
  let a ← Aig.fromBytes dbg bytes
  let f ← fromAig dbg be a ob
  proveStateless dbg env sched f fuel

/-- What the file must describe besides being well-formed: no constraints, no constant bad literal, two frames of variables that fit,
and bad states that are unreachable or fewer than 2^32 steps away (as with at most 32 latches). -/
structure Checkable (c : Circuit) (ob : Bool) : Prop where
  constraints : c.constraints = []
  bad : ∀ l ∈ badLits c ob, 2 ≤ l
  small : c.Small
  near : ¬ c.Remote (badLits c ob)

/-- The verdict on a graph that stores a checkable circuit. -/
theorem check_graph (dbg : Bool) (be : BuildEnv) (hbe : be.OK) (env : Env) (he : env.OK) (sched : Sched) (hsched : sched.OK) (a : Aig)
    (hr : a.Represents c) (hw : c.WF) (hc : Checkable c ob) (fuel : Nat)
    (hfuel : (2 ^ c.latches.length + 1) * (2 ^ c.latches.length + 2) < fuel) :
    (c.Safe (badLits c ob) ↔ ∃ inv, (fromAig dbg be a ob >>= fun f => proveStateless dbg env sched f fuel) = .ok (.proof inv)) ∧
    ((∃ d, c.UnsafeAt (badLits c ob) d) ↔
      ∃ d, (fromAig dbg be a ob >>= fun f => proveStateless dbg env sched f fuel) = .ok (.ctx d)) := by
  have hsup : Supported c ob := ⟨hw, hc.small.encodable, hc.constraints, hc.bad⟩
  obtain ⟨f, e⟩ := C28_accepts dbg be hbe a hr hsup
  rw [e]
  exact C40_decides dbg env he sched hsched ⟨hsup, dbg, be, a, hbe, hr, e⟩ hc.small hc.near fuel hfuel

/-- C46: every accepted byte string is a binary AIGER file of a well-formed circuit, and if that circuit is checkable then the verdict is
`Proof` iff no execution of it reaches a bad state and `CTX` iff some execution does; in particular nothing panics. -/
theorem C46_accepted (dbg : Bool) (be : BuildEnv) (hbe : be.OK) (env : Env) (he : env.OK) (sched : Sched) (hsched : sched.OK)
    (bytes : Text) (ob : Bool) (a : Aig) (h : Aig.fromBytes dbg bytes = .ok a) :
    ∃ c tail, c.WF ∧ File bytes c tail ∧ (Checkable c ob → ∀ fuel,
      (2 ^ c.latches.length + 1) * (2 ^ c.latches.length + 2) < fuel →
      (c.Safe (badLits c ob) ↔ ∃ inv, checkFile dbg be env sched bytes ob fuel = .ok (.proof inv)) ∧
      ((∃ d, c.UnsafeAt (badLits c ob) d) ↔ ∃ d, checkFile dbg be env sched bytes ob fuel = .ok (.ctx d))) := by
  obtain ⟨c, tail, hw, hf, hr⟩ := C17_accepted dbg bytes a h
  refine ⟨c, tail, hw, hf, fun hc fuel hfuel => ?_⟩
  have := check_graph dbg be hbe env he sched hsched a hr hw hc fuel hfuel
  unfold checkFile
  rw [h]
  exact this

/-- C46: every file of a checkable circuit, however its numerals are written and whatever its symbol table and comments, gets that
verdict. -/
theorem C46_any_file (dbg : Bool) (be : BuildEnv) (hbe : be.OK) (env : Env) (he : env.OK) (sched : Sched) (hsched : sched.OK)
    (bytes tail : Text) (c : Circuit) (syms : List Symbol) (comment : Option Text) (hw : c.WF) (hF : c.Fits) (hf : File bytes c tail)
    (ht : Tail tail syms comment) (hsym : ∀ s ∈ syms, SymbolOK c s ∧ Utf8 s.name) (hcom : ∀ t, comment = some t → Utf8 t) (ob : Bool)
    (hc : Checkable c ob) (fuel : Nat) (hfuel : (2 ^ c.latches.length + 1) * (2 ^ c.latches.length + 2) < fuel) :
    (c.Safe (badLits c ob) ↔ ∃ inv, checkFile dbg be env sched bytes ob fuel = .ok (.proof inv)) ∧
    ((∃ d, c.UnsafeAt (badLits c ob) d) ↔ ∃ d, checkFile dbg be env sched bytes ob fuel = .ok (.ctx d)) := by
  obtain ⟨a, e, hr, _⟩ := C18_any_file dbg bytes tail c syms comment hw hF hf ht hsym hcom
  have := check_graph dbg be hbe env he sched hsched a hr hw hc fuel hfuel
  unfold checkFile
  rw [e]
  exact this

/-! ## Concrete runs -/

/-- The three provers on `ring`, each with its own schedule. -/
example : ProverRun (systemOf ring false) ring false (proveStateless true Brute.env backwards (systemOf ring false) 10) ∧
    ProverRun (systemOf ring false) ring false (proveStateful false (MiniSat.impl true Brute.ms) plain (systemOf ring false) 10) ∧
    ProverRun (systemOf ring false) ring false (PDR.run true (MiniSat.impl true Brute.ms) backwards (systemOf ring false) 30) :=
  ⟨.stateless _ _ _ _ Brute.env_ok backwards_ok, .stateful _ _ _ _ _ (MiniSat.implOK true Brute.ms_ok) plain_ok,
    .pdr _ _ _ _ _ (MiniSat.implOK true Brute.ms_ok) backwards_ok ring_gate.1⟩
/-- On `shifter` IC3 says 1, PDR 2, bounded model checking 3: different depths, the same verdict. -/
example : verdict (proveStateless true Brute.env plain (systemOf shifter false) 10) = some (some 1) ∧
    verdict (PDR.run true (MiniSat.impl true Brute.ms) plain (systemOf shifter false) 30) = some (some 2) := by decide +kernel
example : ∃ d', d' ≤ 3 ∧ (d' = 0 ↔ 3 = 0) ∧ ProofResult.ctx 1 = .ctx d' := by
  have hv : ((BMC.search true Brute.env patient (systemOf shifter false) 4 0).toOption.map Prod.fst).map
    (fun | .ctx _ d => some d | .noCtx _ => none) = some (some 3) := by decide +kernel
  generalize e : BMC.search true Brute.env patient (systemOf shifter false) 4 0 = x at hv
  match x, hv with
  | .ok (.ctx a d, t'), hv =>
    cases hv
    have hr : ProverRun (systemOf shifter false) shifter false (.ok (.ctx 1)) := by
      rw [show (.ok (.ctx 1) : Res ProofResult) = proveStateless true Brute.env plain (systemOf shifter false) 10 from by decide +kernel]
      exact .stateless _ _ _ _ Brute.env_ok plain_ok
    exact C45_bmc shifter_built shifter_built (by unfold Circuit.Small; decide) _ hr true _ Brute.env (Brute.env_ok_upTo _).correct patient 4 (by decide)
      ⟨by decide, .inl ⟨rfl, rfl⟩⟩ 0 t' a 3 e

/-- The bytes of the counter file, with its output as bad literal. -/
example : verdict (checkFile true bruteBuild Brute.env plain counterBytes true 10) = some (some 0) := by decide +kernel
theorem checkable_of (hw : c.WF) (hc : c.constraints = []) (hb : ∀ l ∈ badLits c ob, 2 ≤ l) (hs : c.Small) (hl : c.latches.length ≤ 32) :
    Checkable c ob := ⟨hc, hb, hs, not_remote ⟨hw, hs.encodable, hc, hb⟩ hl⟩
example : Checkable counter true := checkable_of (Circuit.wf_of_wfb (by decide)) rfl (by decide) (by unfold Circuit.Small; decide) (by decide)
/-- The file of `ring` written canonically. -/
example : verdict (checkFile true bruteBuild Brute.env plain (encode ring) false 10) = some none := by decide +kernel
example : Checkable ring false ∧ ring.WF ∧ ring.Fits ∧ ∃ a, Aig.fromBytes true (encode ring) = .ok a :=
  ⟨checkable_of (Circuit.wf_of_wfb (by decide)) rfl (by decide) (by unfold Circuit.Small; decide) (by decide), Circuit.wf_of_wfb (by decide),
    ⟨by decide, by decide, by decide, by decide, by decide⟩,
    (C18_encode true ring (Circuit.wf_of_wfb (by decide)) (by decide) (by decide) (by decide) (by decide)).imp fun _ h => h.1⟩

end Verif.Props
