import Verif.Props.Agree
import Verif.Props.Solvers
import Verif.Proofs.BruteDimacs

/-!
# Property C47: the algorithms with the crate's own stateless solver front-ends

The theorems about IC3 and bounded model checking are about every solver that meets `Env.OK`.  Here the solver is the crate's own
front-end code, and what is assumed is the contract of the external back-end crate alone.
-/

namespace Verif.Props

open Verif.Fsts Verif.IC3 Verif.Aiger

variable {f : Fsts} {c : Circuit} {ob : Bool}

/-- `T = CaDiCalSolver` — stateless/cadical_solver.rs:37-72; the back-end may answer differently each time it is called. -/
def cadicalEnv (dbg : Bool) (be : Nat → List (List Int) → CadicalAnswer) (order : Nat → List Clause → List Clause)
    (shuffle : Nat → List Literal → List Literal) : Env := ⟨fun t => cadicalSolveCnf dbg (be t), order, shuffle⟩

/-- `T = SplrSolver` — splr_solver.rs:39-60. -/
def splrEnv (dbg : Bool) (be : Nat → List (List Int) → SplrAnswer) (order : Nat → List Clause → List Clause)
    (shuffle : Nat → List Literal → List Literal) : Env := ⟨fun t => splrSolveCnf dbg (be t), order, shuffle⟩

/-- `T = VarisatSolver` — varisat_solver.rs:43-64. -/
def varisatEnv (dbg : Bool) (be : Nat → List (List Int) → VarisatAnswer) (order : Nat → List Clause → List Clause)
    (shuffle : Nat → List Literal → List Literal) : Env := ⟨fun t => varisatSolveCnf dbg (be t), order, shuffle⟩

/-- One of the three front-ends over a back-end that meets its contract, with any hash orders and shuffles, compiled in the build
profile `dbg`; it takes variables up to `V`. -/
inductive FrontEnd (dbg : Bool) : Env → Nat → Prop where
  | cadical (be order shuffle) : (∀ t, CadicalOK (be t)) → (∀ t l, (order t l).Perm l) → (∀ t l, (shuffle t l).Perm l) →
      FrontEnd dbg (cadicalEnv dbg be order shuffle) 2147483646
  | splr (be order shuffle) : (∀ t, SplrOK (be t) ∧ SplrTotal (be t)) → (∀ t l, (order t l).Perm l) → (∀ t l, (shuffle t l).Perm l) →
      FrontEnd dbg (splrEnv dbg be order shuffle) 2147483647
  | varisat (be order shuffle) : (∀ t, VarisatOK (be t) ∧ VarisatTotal (be t)) → (∀ t l, (order t l).Perm l) →
      (∀ t l, (shuffle t l).Perm l) → FrontEnd dbg (varisatEnv dbg be order shuffle) 2147483647

theorem good_mono {g : CNF} {V W : Nat} (h : g.Good V) (hV : V ≤ W) : g.Good W :=
  fun c hc l hl => ⟨(h c hc l hl).1, Nat.le_trans (h c hc l hl).2 hV⟩

theorem FrontEnd.bound {dbg : Bool} {env : Env} {V : Nat} (h : FrontEnd dbg env V) : 2147483646 ≤ V ∧ V ≤ 2147483647 := by
  cases h <;> decide

/-- C47: each front-end meets the contract the algorithms were verified against. -/
theorem C47_contract {dbg : Bool} {env : Env} {V : Nat} (h : FrontEnd dbg env V) : env.OK V := by
  cases h with
  | cadical be order shuffle hb ho hs =>
    refine ⟨fun t g hw hg => ?_, ho, hs⟩
    have hm : g.getMaxVar ≤ 2147483646 := CNF.Ready.max_le ⟨hw, hg⟩
    exact C12_cadical dbg (be t) (hb t) g (good_mono hg (by decide)) hw (by omega)
  | splr be order shuffle hb ho hs =>
    refine ⟨fun t g hw hg => ?_, ho, hs⟩
    obtain ⟨r, e, _, h⟩ := C12_splr dbg (be t) (hb t).1 g hg hw
    exact ⟨r, e, h (hb t).2⟩
  | varisat be order shuffle hb ho hs =>
    refine ⟨fun t g hw hg => ?_, ho, hs⟩
    obtain ⟨r, e, _, h⟩ := C12_varisat dbg (be t) (hb t).1 g hg hw
    exact ⟨r, e, h (hb t).2⟩

theorem FrontEnd.ok {dbg : Bool} {env : Env} {V : Nat} (h : FrontEnd dbg env V) : env.OK :=
  have hc := C47_contract h
  ⟨fun t g hw hg => hc.solve t g hw (good_mono hg h.bound.1), hc.order, hc.shuffle⟩

/-- What `from_aig` does in debug builds with the real `VarisatSolver` — construction.rs:170. -/
def buildEnv (dbg : Bool) (be : List (List Int) → VarisatAnswer) (o1 o2 : List (Nat × Nat × Nat) → List (Nat × Nat × Nat)) : BuildEnv :=
  ⟨o1, o2, varisatSolveCnf dbg be⟩

theorem buildEnv_ok (dbg : Bool) {be : List (List Int) → VarisatAnswer} (hb : VarisatOK be)
    {o1 o2 : List (Nat × Nat × Nat) → List (Nat × Nat × Nat)} (h1 : ∀ l, (o1 l).Perm l) (h2 : ∀ l, (o2 l).Perm l) :
    (buildEnv dbg be o1 o2).OK :=
  ⟨h1, h2, fun g hw hg => by
    obtain ⟨r, e, h, _⟩ := C12_varisat dbg be hb g hg hw
    exact ⟨r, e, h⟩⟩

/-- C47: the whole chain from the bytes of a file to the verdict of `IC3Stateless`, with the crate's own front-ends for the prover's
solver and for the assertion in `from_aig`: the verdict is `Proof` iff the circuit is safe and `CTX` iff it is not. -/
theorem C47_file_to_verdict (dbg : Bool) {env : Env} {V : Nat} (he : FrontEnd dbg env V) (vb : List (List Int) → VarisatAnswer)
    (hv : VarisatOK vb) (o1 o2 : List (Nat × Nat × Nat) → List (Nat × Nat × Nat)) (h1 : ∀ l, (o1 l).Perm l)
    (h2 : ∀ l, (o2 l).Perm l) (sched : Sched) (hsched : sched.OK) (bytes : Text) (ob : Bool) (a : Aig)
    (h : Aig.fromBytes dbg bytes = .ok a) :
    ∃ c tail, c.WF ∧ File bytes c tail ∧ (Checkable c ob → ∀ fuel,
      (2 ^ c.latches.length + 1) * (2 ^ c.latches.length + 2) < fuel →
      (c.Safe (badLits c ob) ↔ ∃ inv, checkFile dbg (buildEnv dbg vb o1 o2) env sched bytes ob fuel = .ok (.proof inv)) ∧
      ((∃ d, c.UnsafeAt (badLits c ob) d) ↔ ∃ d, checkFile dbg (buildEnv dbg vb o1 o2) env sched bytes ob fuel = .ok (.ctx d))) :=
  C46_accepted dbg _ (buildEnv_ok dbg hv h1 h2) env he.ok sched hsched bytes ob a h

/-- C47: bounded model checking with a front-end.  `CTX` is a real counterexample of the reported depth and `NoCTX` excludes all up to
the reported depth.  In debug builds Splr and Varisat need no bound on the variables; CaDiCaL needs variables below 2³¹−1 (see
`C12_cadical_overflow`). -/
theorem C47_bmc_sound (dbg : Bool) {env : Env} {V : Nat} (he : FrontEnd dbg env V) (clock : Clock) (h : Built f c ob) (limit : Nat)
    (hl : limit < 4294967296) (hr : (dbg = true ∧ V = 2147483647) ∨ c.maxVar * (limit + 1) ≤ V) (t t' : Nat) :
    (∀ d, BMC.search dbg env clock f limit t = .ok (.noCtx d, t') → ∀ k : Nat, (k : Int) ≤ d → ¬ c.UnsafeAt (badLits c ob) k) ∧
    (∀ a d, BMC.search dbg env clock f limit t = .ok (.ctx a d, t') →
      c.UnsafeAt (badLits c ob) d ∧ ∀ k, k < d → ¬ c.UnsafeAt (badLits c ob) k) :=
  ⟨fun d hs => C35_noCtx dbg V env (C47_contract he).correct clock h limit hl ⟨he.bound.2, hr⟩ t t' d hs,
    fun a d hs => C36_shortest dbg V env (C47_contract he).correct clock h limit hl ⟨he.bound.2, hr⟩ t t' a d hs⟩

/-- C47: and it always returns, with the exact answer when there is no timeout. -/
theorem C47_bmc_exact (dbg : Bool) {env : Env} {V : Nat} (he : FrontEnd dbg env V) (clock : Clock) (h : Built f c ob) (limit : Nat)
    (hl : limit < 2147483648) (hr : c.maxVar * (limit + 1) ≤ V) (t : Nat) :
    (∃ r t', BMC.search dbg env clock f limit t = .ok (r, t')) ∧
    ((∀ k, clock.expired k = false ∧ clock.finished k = true) →
      ((∃ d, d ≤ limit ∧ c.UnsafeAt (badLits c ob) d) → ∃ a d t', BMC.search dbg env clock f limit t = .ok (.ctx a d, t')) ∧
      ((¬ ∃ d, d ≤ limit ∧ c.UnsafeAt (badLits c ob) d) → ∃ t', BMC.search dbg env clock f limit t = .ok (.noCtx limit, t'))) :=
  ⟨C37_returns dbg V env (C47_contract he).correct clock h limit hl he.bound.2 hr t,
    fun hc => C37_exact dbg V env (C47_contract he).correct clock hc h limit hl he.bound.2 hr t⟩

/-- C47: IC3 on a system, with a front-end. -/
theorem C47_ic3 (dbg : Bool) {env : Env} {V : Nat} (he : FrontEnd dbg env V) (sched : Sched) (hsched : sched.OK) (h : Built f c ob)
    (hs : c.Small) (hl : ¬ c.Remote (badLits c ob)) (fuel : Nat) (hfuel : (2 ^ c.latches.length + 1) * (2 ^ c.latches.length + 2) < fuel) :
    (c.Safe (badLits c ob) ↔ ∃ inv, proveStateless dbg env sched f fuel = .ok (.proof inv)) ∧
    ((∃ d, c.UnsafeAt (badLits c ob) d) ↔ ∃ d, proveStateless dbg env sched f fuel = .ok (.ctx d)) :=
  C40_decides dbg env he.ok sched hsched h hs hl fuel hfuel

/-- C47: a front-end that panics takes bounded model checking down with it: the `unwrap` of the solver thread's result fails.  By
`C47_contract` this cannot happen with variables up to `V`; by `C12_cadical_overflow` it can with CaDiCaL at variable 2³¹−1. -/
theorem C47_panic_propagates (env : Env) (clock : Clock) (depth t : Nat) (g : CNF) (site : String) (hf : clock.finished depth = true)
    (h : env.solve t g = .error (.panic site)) :
    BMC.timedSatCall env clock depth g t = .error (.panic "bmc.rs:74 unwrap") := by
  rw [BMC.timedSatCall_run, hf, h]
  rfl

/-! ## Concrete front-ends over exhaustive back-ends -/

theorem brute_cadical (dbg : Bool) : FrontEnd dbg (cadicalEnv dbg (fun _ => Brute.cadical) (fun _ l => l) (fun _ l => l)) 2147483646 :=
  .cadical _ _ _ (fun _ => Brute.cadical_ok) (fun _ l => List.Perm.refl l) (fun _ l => List.Perm.refl l)
theorem brute_splr (dbg : Bool) : FrontEnd dbg (splrEnv dbg (fun _ => Brute.splr) (fun _ l => l.reverse) (fun _ l => l)) 2147483647 :=
  .splr _ _ _ (fun _ => ⟨Brute.splr_ok, Brute.splr_total⟩) (fun _ l => List.reverse_perm l) (fun _ l => List.Perm.refl l)
theorem brute_varisat (dbg : Bool) : FrontEnd dbg (varisatEnv dbg (fun _ => Brute.varisat) (fun _ l => l) (fun _ l => l.reverse)) 2147483647 :=
  .varisat _ _ _ (fun _ => ⟨Brute.varisat_ok, Brute.varisat_total⟩) (fun _ l => List.Perm.refl l) (fun _ l => List.reverse_perm l)

/-- The shift register, through each of the front-ends. -/
example : verdict (proveStateless true (cadicalEnv true (fun _ => Brute.cadical) (fun _ l => l) (fun _ l => l)) plain
    (systemOf shifter false) 10) = some (some 1) := by decide +kernel
example : verdict (proveStateless true (splrEnv true (fun _ => Brute.splr) (fun _ l => l.reverse) (fun _ l => l)) plain
    (systemOf shifter false) 10) = some (some 1) := by decide +kernel
example : verdict (proveStateless false (varisatEnv false (fun _ => Brute.varisat) (fun _ l => l) (fun _ l => l.reverse)) plain
    (systemOf ring false) 10) = some none := by decide +kernel
example : ((BMC.search true (varisatEnv true (fun _ => Brute.varisat) (fun _ l => l) (fun _ l => l)) patient
    (systemOf shifter false) 4 0).toOption.map Prod.fst).map (fun | .ctx _ d => some d | .noCtx _ => none) = some (some 3) := by decide +kernel
/-- The bytes of a file, with the debug assertion of `from_aig` checked by the Varisat front-end. -/
example : verdict (checkFile true (buildEnv true Brute.varisat id id) (cadicalEnv true (fun _ => Brute.cadical) (fun _ l => l) (fun _ l => l))
    plain counterBytes true 10) = some (some 0) := by decide +kernel
example : buildEnv true Brute.varisat id id |>.OK :=
  buildEnv_ok true Brute.varisat_ok (fun l => List.Perm.refl l) (fun l => List.Perm.refl l)

end Verif.Props
