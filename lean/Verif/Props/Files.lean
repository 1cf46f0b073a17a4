import Verif.Props.Agree
import Verif.Props.Replay
import Verif.Props.AigPrint
import Verif.Proofs.AigStrip

/-!
# Property C65 and the rest of C46: what depends on a file, and every tool on it
-/

namespace Verif.Props

open Verif.Fsts Verif.IC3 Verif.Aiger

variable {c : Circuit} {ob : Bool}

/-! ## C65 -/

/-- C65: of a graph that stores a circuit, everything but the printed names and comments is determined by the circuit: the getters, the
cone of influence, the simulation with any stimulus and the transition system, panics included. -/
theorem C65_circuit_only (a a' : Aig) (h : a.Represents c) (h' : a'.Represents c) :
    a.getInputInformation = a'.getInputInformation ∧ a.getLatchInformation = a'.getLatchInformation ∧
    (∀ order lits, a.getAndInformationInCone order lits = a'.getAndInformationInCone order lits) ∧
    (∀ inputs latches, a.simulate inputs latches = a'.simulate inputs latches) ∧
    ∀ dbg be ob, fromAig dbg be a ob = fromAig dbg be a' ob := by
  have e := h.strip_eq h'
  refine ⟨?_, ?_, fun order lits => ?_, fun inputs latches => ?_, fun dbg be ob => ?_⟩
  · rw [← a.strip_inputInformation, ← a'.strip_inputInformation, e]
  · rw [← a.strip_latchInformation, ← a'.strip_latchInformation, e]
  · rw [← Aig.strip_cone order a, ← Aig.strip_cone order a', e]
  · rw [← a.strip_simulate, ← a'.strip_simulate, e]
  · rw [← Aig.strip_fromAig dbg be a, ← Aig.strip_fromAig dbg be a', e]

/-- A file of `c` with a valid symbol table and comment section. -/
def FileOf (c : Circuit) (bytes : Text) : Prop :=
  ∃ tail syms comment, File bytes c tail ∧ Tail tail syms comment ∧ (∀ s ∈ syms, SymbolOK c s ∧ Utf8 s.name) ∧
    ∀ t, comment = some t → Utf8 t

/-- C65: these are exactly the byte strings read as a graph of that circuit. -/
theorem C65_file_of (dbg : Bool) (bytes : Text) (hw : c.WF) (hF : c.Fits) :
    FileOf c bytes ↔ ∃ a, Aig.fromBytes dbg bytes = .ok a ∧ a.Represents c := by
  constructor
  · rintro ⟨tail, syms, comment, hf, ht, hs, hc⟩
    obtain ⟨a, e, hr, _⟩ := C18_any_file dbg bytes tail c syms comment hw hF hf ht hs hc
    exact ⟨a, e, hr⟩
  · rintro ⟨a, e, hr⟩
    obtain ⟨c', tail, syms, comment, _, hF', hf, ht, hs, hc, rfl⟩ := (fromBytes_ok dbg bytes a).1 e
    obtain rfl := hr.unique (represents_finish hF' syms comment)
    exact ⟨tail, syms, comment, hf, ht, hs, hc⟩

/-- C65: two files of the same circuit, whatever their numerals, symbol tables and comments, give the same transition system, simulations
and, with the same solver and random choices, the very same verdict with the same invariant or depth. -/
theorem C65_files (dbg : Bool) (bytes bytes' : Text) (hw : c.WF) (hF : c.Fits) (h : FileOf c bytes) (h' : FileOf c bytes') :
    ∃ a a', Aig.fromBytes dbg bytes = .ok a ∧ Aig.fromBytes dbg bytes' = .ok a' ∧
      (∀ inputs latches, a.simulate inputs latches = a'.simulate inputs latches) ∧
      (∀ be ob, fromAig dbg be a ob = fromAig dbg be a' ob) ∧
      ∀ be env sched ob fuel, checkFile dbg be env sched bytes ob fuel = checkFile dbg be env sched bytes' ob fuel := by
  obtain ⟨tail, syms, comment, hf, ht, hs, hc⟩ := h
  obtain ⟨tail', syms', comment', hf', ht', hs', hc'⟩ := h'
  obtain ⟨a, e, hr, _⟩ := C18_any_file dbg bytes tail c syms comment hw hF hf ht hs hc
  obtain ⟨a', e', hr', _⟩ := C18_any_file dbg bytes' tail' c syms' comment' hw hF hf' ht' hs' hc'
  obtain ⟨_, _, _, h4, h5⟩ := C65_circuit_only a a' hr hr'
  refine ⟨a, a', e, e', h4, h5 dbg, fun be env sched ob fuel => ?_⟩
  unfold checkFile
  rw [e, e']
  show (fromAig dbg be a ob >>= _) = (fromAig dbg be a' ob >>= _)
  rw [h5]

/-! ## C46 for the other tools -/

/-- `from_aig_path` and `from_aig`. -/
def readSystem (dbg : Bool) (be : BuildEnv) (bytes : Text) (ob : Bool) : Res Fsts := do
  let a ← Aig.fromBytes dbg bytes
  fromAig dbg be a ob

/-- C46: on the system read from a file of a checkable circuit, `IC3Stateful` and (with bad literals as it needs them) PDR decide the
safety of the circuit the file describes. -/
theorem C46_stateful_provers (dbg : Bool) (be : BuildEnv) (hbe : be.OK) (bytes : Text) (hw : c.WF) (hF : c.Fits) (hfile : FileOf c bytes)
    (hc : Checkable c ob) (I : StatefulImpl) (O : I.OK) (sched : Sched) (hsched : sched.OK) :
    (∀ fuel, (2 ^ c.latches.length + 1) * (2 ^ c.latches.length + 2) < fuel →
      (c.Safe (badLits c ob) ↔ ∃ inv, (readSystem dbg be bytes ob >>= fun f => proveStateful dbg I sched f fuel) = .ok (.proof inv)) ∧
      ((∃ d, c.UnsafeAt (badLits c ob) d) ↔
        ∃ d, (readSystem dbg be bytes ob >>= fun f => proveStateful dbg I sched f fuel) = .ok (.ctx d))) ∧
    (GateBads c ob → ∀ fuel, pdrBound (2 ^ c.latches.length + 1) < fuel →
      (c.Safe (badLits c ob) ↔ ∃ inv, (readSystem dbg be bytes ob >>= fun f => PDR.run dbg I sched f fuel) = .ok (.proof inv)) ∧
      ((∃ d, c.UnsafeAt (badLits c ob) d) ↔ ∃ d, (readSystem dbg be bytes ob >>= fun f => PDR.run dbg I sched f fuel) = .ok (.ctx d))) := by
  obtain ⟨tail, syms, comment, hf, ht, hs, hcom⟩ := hfile
  obtain ⟨a, e, hr, _⟩ := C18_any_file dbg bytes tail c syms comment hw hF hf ht hs hcom
  have hsup : Supported c ob := ⟨hw, hc.small.encodable, hc.constraints, hc.bad⟩
  obtain ⟨f, e2⟩ := C28_accepts dbg be hbe a hr hsup
  have hb : Built f c ob := ⟨hsup, dbg, be, a, hbe, hr, e2⟩
  have e3 : readSystem dbg be bytes ob = .ok f := by
    unfold readSystem
    rw [e]; exact e2
  rw [e3]
  exact ⟨fun fuel hfuel => C41_decides dbg I O sched hsched hb hc.small hc.near fuel hfuel,
    fun hg fuel hfuel => C44_decides dbg I O sched hsched hb hc.small hg hc.near fuel hfuel⟩

/-- C46: bounded model checking of a file, without timeouts: a counterexample if the circuit has one within the limit, and then the
simulator of the graph read from the same file accepts a stimulus with the values of the counterexample and shows a bad literal at the
last clock and at no earlier one; `NoCTX` with the limit otherwise. -/
theorem C46_bmc (dbg : Bool) (be : BuildEnv) (hbe : be.OK) (bytes : Text) (hw : c.WF) (hF : c.Fits) (hfile : FileOf c bytes)
    (hc : Checkable c ob) (V : Nat) (env : Env) (he : env.OK V) (clock : Clock)
    (hclock : ∀ k, clock.expired k = false ∧ clock.finished k = true) (limit : Nat) (hl : limit < 2147483648) (hV : V ≤ 2147483647)
    (hr : c.maxVar * (limit + 1) ≤ V) (t : Nat) :
    ∃ a f, Aig.fromBytes dbg bytes = .ok a ∧ fromAig dbg be a ob = .ok f ∧
      ((∃ k, k ≤ limit ∧ c.UnsafeAt (badLits c ob) k) → ∃ m d t', BMC.search dbg env clock f limit t = .ok (.ctx m d, t') ∧
        ∃ inputs latches rows, ReadsOff m c f.getMaxLiteralNumber d inputs latches ∧ a.simulate inputs latches = .ok rows ∧
          rows.length = d + 1 ∧ Circuit.BadNow (badLits c ob) (rowVal (rows.getD d [])) ∧
          ∀ s, s < d → ¬ Circuit.BadNow (badLits c ob) (rowVal (rows.getD s []))) ∧
      ((¬ ∃ k, k ≤ limit ∧ c.UnsafeAt (badLits c ob) k) → ∃ t', BMC.search dbg env clock f limit t = .ok (.noCtx limit, t')) := by
  obtain ⟨tail, syms, comment, hf, ht, hs, hcom⟩ := hfile
  obtain ⟨a, e, hrep, _⟩ := C18_any_file dbg bytes tail c syms comment hw hF hf ht hs hcom
  have hsup : Supported c ob := ⟨hw, hc.small.encodable, hc.constraints, hc.bad⟩
  obtain ⟨f, e2⟩ := C28_accepts dbg be hbe a hrep hsup
  have hb : Built f c ob := ⟨hsup, dbg, be, a, hbe, hrep, e2⟩
  obtain ⟨h1, h2⟩ := C37_exact dbg V env he.correct clock hclock hb limit hl hV hr t
  refine ⟨a, f, e, e2, fun hu => ?_, h2⟩
  obtain ⟨m, d, t', hs⟩ := h1 hu
  obtain ⟨hread, rows, hsim⟩ := C52_stimulus m c hw a hrep f.getMaxLiteralNumber d
  obtain ⟨g1, g2, g3, _⟩ := C52_replay dbg V env he clock hb limit (by omega) ⟨hV, .inr hr⟩ t t' m d hs a hrep _ _ rows hread hsim
  exact ⟨m, d, t', hs, _, _, rows, hread, hsim, g1, g2, g3⟩

/-! ## Concrete files -/

theorem counter_fits : counter.Fits := ⟨by decide, by decide, by decide, by decide, by decide⟩

/-- The counter's file, and the same with a name for a latch and a comment. -/
def namedBytes : Text := counterBytes ++ [108, 49, 32, 120, 10, 99, 10, 104, 105, 10]

theorem counterBytes_file : FileOf counter counterBytes :=
  (C65_file_of true _ counter_wf counter_fits).2 ⟨finish counter [] none, by decide +kernel, represents_finish counter_fits _ _⟩

theorem namedBytes_file : FileOf counter namedBytes :=
  (C65_file_of true _ counter_wf counter_fits).2 ⟨finish counter [⟨108, 1, [120]⟩] (some [99, 10, 104, 105, 10]), by decide +kernel,
    represents_finish counter_fits _ _⟩

/-- The graphs differ, and `get_aag_string` shows it. -/
example : ∃ a a', Aig.fromBytes true counterBytes = .ok a ∧ Aig.fromBytes true namedBytes = .ok a' ∧ a ≠ a' ∧
    (a.getAagString.toOption.map List.length, a'.getAagString.toOption.map List.length) = (some 43, some 53) :=
  ⟨finish counter [] none, finish counter [⟨108, 1, [120]⟩] (some [99, 10, 104, 105, 10]), by decide +kernel, by decide +kernel,
    by decide +kernel, by decide +kernel⟩
example (env : Env) (sched : Sched) (fuel : Nat) :
    checkFile true bruteBuild env sched counterBytes true fuel = checkFile true bruteBuild env sched namedBytes true fuel := by
  obtain ⟨_, _, _, _, _, _, h⟩ := C65_files true _ _ counter_wf counter_fits counterBytes_file namedBytes_file
  exact h bruteBuild env sched true fuel

/-- `ring` and `shifter` as files, for every tool. -/
theorem encode_file {c : Circuit} (hw : c.WF) (hF : c.Fits) (h : ∃ a, Aig.fromBytes true (encode c) = .ok a ∧ a.Represents c) :
    FileOf c (encode c) := (C65_file_of true _ hw hF).2 h

example : FileOf ring (encode ring) ∧ Checkable ring false ∧ GateBads ring false ∧ bruteBuild.OK ∧ Nonempty (MiniSat.impl true Brute.ms).OK :=
  have hw : ring.WF := Circuit.wf_of_wfb (by decide)
  have hF : ring.Fits := ⟨by decide, by decide, by decide, by decide, by decide⟩
  ⟨encode_file hw hF (C18_encode true ring hw (by decide) (by decide) (by decide) (by decide)),
    checkable_of hw rfl (by decide) (by unfold Circuit.Small; decide) (by decide), ring_gate, bruteBuild_ok, ⟨MiniSat.implOK true Brute.ms_ok⟩⟩
example : verdict (readSystem true bruteBuild (encode ring) false >>= fun f => proveStateful true (MiniSat.impl true Brute.ms) plain f 10) =
      some none ∧
    verdict (readSystem true bruteBuild (encode ring) false >>= fun f => PDR.run true (MiniSat.impl true Brute.ms) plain f 30) =
      some none := by decide +kernel
example : ((readSystem true bruteBuild (encode shifter) false >>= fun f => BMC.search true Brute.env patient f 4 0).toOption.map
    Prod.fst).map (fun | .ctx _ d => some d | .noCtx _ => none) = some (some 3) := by decide +kernel
/-- The hypotheses of `C46_bmc` on the shift register's file. -/
example : ∃ a f, Aig.fromBytes true (encode shifter) = .ok a ∧ fromAig true bruteBuild a false = .ok f ∧
    ((∃ k, k ≤ 4 ∧ shifter.UnsafeAt (badLits shifter false) k) → ∃ m d t', BMC.search true Brute.env patient f 4 0 = .ok (.ctx m d, t')) := by
  have hw : shifter.WF := Circuit.wf_of_wfb (by decide)
  have hF : shifter.Fits := ⟨by decide, by decide, by decide, by decide, by decide⟩
  obtain ⟨a, f, e1, e2, h, _⟩ := C46_bmc true bruteBuild bruteBuild_ok (encode shifter) hw hF
    (encode_file hw hF (C18_encode true shifter hw (by decide) (by decide) (by decide) (by decide)))
    (ob := false) (checkable_of hw rfl (by decide) (by unfold Circuit.Small; decide) (by decide)) 2147483647 Brute.env (Brute.env_ok_upTo _) patient
    (fun _ => ⟨rfl, rfl⟩) 4 (by decide) (by decide) (by decide) 0
  exact ⟨a, f, e1, e2, fun hu => (h hu).imp fun m => .imp fun d => .imp fun t' h => h.1⟩

end Verif.Props
