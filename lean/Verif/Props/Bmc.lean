import Verif.Proofs.Bmc
import Verif.Props.Fsts

/-!
# Properties C35–C37: bounded model checking

`env.Correct V`: the solver answers formulas over variables up to `V` correctly; `env.OK V`: and values all of them (`V` is 2³¹−1 for back-ends that take every literal and
2³¹−2 for CaDiCaL).  `Representable V dbg c limit`: the variables of all frames up to the depth limit are that small.  With `V` = 2³¹−1
debug builds need no such assumption, because they panic when a variable does not fit a literal.
-/

namespace Verif.Props

open Verif.Fsts Verif.BMC

variable {f : Fsts} {c : Circuit} {ob : Bool}

/-- Release builds wrap variable numbers that do not fit; debug builds panic instead. -/
def Representable (V : Nat) (dbg : Bool) (c : Circuit) (limit : Nat) : Prop :=
  V ≤ 2147483647 ∧ ((dbg = true ∧ V = 2147483647) ∨ c.maxVar * (limit + 1) ≤ V)

theorem sys_of (h : Built f c ob) : Sys f c (badLits c ob) := ⟨h.laws, h.1.wf, badsOK_of h.1, h.1.encodable⟩

/-- C35: `NoCTX { depth_reached: d }` excludes every counterexample of at most `d` steps, whatever the clock did. -/
theorem C35_noCtx (dbg : Bool) (V : Nat) (env : Env) (he : env.Correct V) (clock : Clock) (h : Built f c ob) (limit : Nat) (hl : limit < 4294967296)
    (hr : Representable V dbg c limit) (t t' : Nat) (d : Int) (hs : search dbg env clock f limit t = .ok (.noCtx d, t')) :
    ∀ k : Nat, (k : Int) ≤ d → ¬ c.UnsafeAt (badLits c ob) k := (search_inv he (sys_of h) hl hr hs).1

/-- The execution that the variables of an unrolled formula describe. -/
theorem exec_of_unrolled (h : Built f c ob) {w : Val} {d : Nat} (hu : Unrolled f d w) :
    ∃ e, c.Exec e d ∧ Circuit.BadNow (badLits c ob) (e d) ∧
      (∀ s x, s ≤ d → 1 ≤ x → x ≤ c.numInputs + c.latches.length → e s x = w (x + f.getMaxLiteralNumber * s)) ∧
      (∀ s i, s < d → i < c.ands.length → c.InCone (c.latches.map Prod.fst) i →
        e s (c.andVar i) = w (c.andVar i + f.getMaxLiteralNumber * s)) ∧
      (∀ i, i < c.ands.length → c.InCone (badLits c ob) i → e d (c.andVar i) = w (c.andVar i + f.getMaxLiteralNumber * d)) := by
  obtain ⟨hp, hb⟩ := hu.path (sys_of h)
  have hw := h.1.wf
  have gate : ∀ ls s i, ConeOK c ls (at_ f w s) → i < c.ands.length → c.InCone ls i →
      c.evalVar (at_ f w s) (c.andVar i) = w (c.andVar i + f.maxLiteral * s) := by
    intro ls s i hc hi hin
    rw [← cone_eval hw hc (c.andVar i) (by unfold Circuit.andVar Circuit.maxVar; omega) (by
      intro j _ e
      have : i = j := by unfold Circuit.andVar at e; omega
      subst this; exact hin)]
    unfold grounded
    rw [if_neg (by unfold Circuit.andVar; omega)]
    rfl
  refine ⟨fun s => c.evalVar (at_ f w s), ⟨?_, fun s _ => Circuit.frame_evalVar hw _, ?_⟩, hb, ?_, ?_, ?_⟩
  · exact hp.init.congr fun i hi => (Circuit.evalVar_latch c _ hi).symm
  · intro s hs i p hq
    show c.evalVar _ (c.latchVar i) = _
    rw [Circuit.evalVar_latch c _ (getElem?_lt hq)]
    exact hp.step s hs i p hq
  · intro s x _ hx1 hx2
    show c.evalVar (at_ f w s) x = _
    rw [Circuit.sameBase_evalVar c _ x hx1 (by unfold Circuit.andVar; omega)]
    rfl
  · intro s i hs hi hin
    exact gate _ s i ((transition_holds h.laws).1 (hu.step s hs)).2 hi hin
  · intro i hi hin
    exact gate _ d i ((safety_holds h.laws).1 hu.safety) hi hin

/-- C36: `CTX { assignment, depth }` is a shortest execution into a bad state: however the variables the assignment leaves open are
filled in, the inputs and latches of every frame, the gates the next states depend on, and the gates the last frame's bad literals depend
on, have the values of one execution of that many steps that ends in a bad state. -/
theorem C36_ctx (dbg : Bool) (V : Nat) (env : Env) (he : env.OK V) (clock : Clock) (h : Built f c ob) (limit : Nat) (hl : limit < 4294967296)
    (hr : Representable V dbg c limit) (t t' : Nat) (a : Assignment) (d : Nat) (hs : search dbg env clock f limit t = .ok (.ctx a d, t')) :
    d ≤ limit ∧ (∀ k, k < d → ¬ c.UnsafeAt (badLits c ob) k) ∧ ∀ w, a.Agrees w →
    ∃ e, c.Exec e d ∧ Circuit.BadNow (badLits c ob) (e d) ∧
      (∀ s x, s ≤ d → 1 ≤ x → x ≤ c.numInputs + c.latches.length → e s x = w (x + f.getMaxLiteralNumber * s)) ∧
      (∀ s i, s < d → i < c.ands.length → c.InCone (c.latches.map Prod.fst) i →
        e s (c.andVar i) = w (c.andVar i + f.getMaxLiteralNumber * s)) ∧
      (∀ i, i < c.ands.length → c.InCone (badLits c ob) i → e d (c.andVar i) = w (c.andVar i + f.getMaxLiteralNumber * d)) := by
  obtain ⟨h1, h2, _, hall⟩ := search_inv he.correct (sys_of h) hl hr hs
  exact ⟨h2, h1, fun w hag => exec_of_unrolled h (hall he w hag)⟩

/-- C36: with a solver that may leave variables of the formula open, some way of filling them in is such an execution. -/
theorem C36_some (dbg : Bool) (V : Nat) (env : Env) (he : env.Correct V) (clock : Clock) (h : Built f c ob) (limit : Nat) (hl : limit < 4294967296)
    (hr : Representable V dbg c limit) (t t' : Nat) (a : Assignment) (d : Nat) (hs : search dbg env clock f limit t = .ok (.ctx a d, t')) :
    d ≤ limit ∧ (∀ k, k < d → ¬ c.UnsafeAt (badLits c ob) k) ∧ ∃ w, a.Agrees w ∧
    ∃ e, c.Exec e d ∧ Circuit.BadNow (badLits c ob) (e d) ∧
      (∀ s x, s ≤ d → 1 ≤ x → x ≤ c.numInputs + c.latches.length → e s x = w (x + f.getMaxLiteralNumber * s)) ∧
      (∀ s i, s < d → i < c.ands.length → c.InCone (c.latches.map Prod.fst) i →
        e s (c.andVar i) = w (c.andVar i + f.getMaxLiteralNumber * s)) ∧
      (∀ i, i < c.ands.length → c.InCone (badLits c ob) i → e d (c.andVar i) = w (c.andVar i + f.getMaxLiteralNumber * d)) := by
  obtain ⟨h1, h2, ⟨w, hag, hu⟩, _⟩ := search_inv he (sys_of h) hl hr hs
  exact ⟨h2, h1, w, hag, exec_of_unrolled h hu⟩

/-- C36: so the reported depth is the length of a shortest counterexample. -/
theorem C36_shortest (dbg : Bool) (V : Nat) (env : Env) (he : env.Correct V) (clock : Clock) (h : Built f c ob) (limit : Nat) (hl : limit < 4294967296)
    (hr : Representable V dbg c limit) (t t' : Nat) (a : Assignment) (d : Nat) (hs : search dbg env clock f limit t = .ok (.ctx a d, t')) :
    c.Shortest (badLits c ob) d := by
  obtain ⟨_, h1, w, _, e, he, hb, _⟩ := C36_some dbg V env he clock h limit hl hr t t' a d hs
  exact ⟨⟨e, he, hb⟩, h1⟩

/-- Every assignment has completions. -/
theorem C36_completable (a : Assignment) : ∃ w, a.Agrees w := ⟨_, getD_agrees a⟩

/-- C37: with every variable representable `search` returns in both build profiles, whatever the clock does. -/
theorem C37_returns (dbg : Bool) (V : Nat) (env : Env) (he : env.Correct V) (clock : Clock) (h : Built f c ob) (limit : Nat) (hl : limit < 2147483648)
    (hV : V ≤ 2147483647) (hr : c.maxVar * (limit + 1) ≤ V) (t : Nat) : ∃ r t', search dbg env clock f limit t = .ok (r, t') :=
  search_total he (sys_of h) hV hr hl t

/-- C37: without timeouts the answer is exact. -/
theorem C37_exact (dbg : Bool) (V : Nat) (env : Env) (he : env.Correct V) (clock : Clock) (hc : ∀ k, clock.expired k = false ∧ clock.finished k = true)
    (h : Built f c ob) (limit : Nat) (hl : limit < 2147483648) (hV : V ≤ 2147483647) (hr : c.maxVar * (limit + 1) ≤ V) (t : Nat) :
    ((∃ d, d ≤ limit ∧ c.UnsafeAt (badLits c ob) d) → ∃ a d t', search dbg env clock f limit t = .ok (.ctx a d, t')) ∧
    ((¬ ∃ d, d ≤ limit ∧ c.UnsafeAt (badLits c ob) d) → ∃ t', search dbg env clock f limit t = .ok (.noCtx limit, t')) := by
  obtain ⟨r, t', e⟩ := C37_returns dbg V env he clock h limit hl hV hr t
  have hok := search_inv he (sys_of h) (by omega) ⟨hV, .inr hr⟩ e
  cases r with
  | noCtx d =>
    obtain ⟨h1, _, _, h4⟩ := hok
    have hd := h4 hc
    subst hd
    refine ⟨?_, fun _ => ⟨t', e⟩⟩
    rintro ⟨k, hk, hu⟩
    exact absurd hu (h1 k (by omega))
  | ctx a d =>
    obtain ⟨_, h2, ⟨w, _, hu⟩, _⟩ := hok
    refine ⟨fun _ => ⟨a, d, t', e⟩, fun hn => absurd ⟨d, h2, ?_⟩ hn⟩
    exact (unrolled_iff (sys_of h) d).1 ⟨w, hu⟩

/-- C37: a depth limit that cannot be a result panics in every build profile, so no wrong verdict is given for it. -/
theorem C37_limit_overflow (dbg : Bool) (env : Env) (clock : Clock) (f : Fsts) (t : Nat) :
    ∃ site, search dbg env clock f 4294967295 t = .error (.panic site) := by
  cases dbg <;> exact ⟨_, rfl⟩

/-- No timeouts. -/
def patient : Clock := ⟨fun _ => false, fun _ => true⟩

/-- A shift register fed with 1; bad when its last two bits are set, first after three clocks. -/
def shifter : Circuit := ⟨0, [(1, 0), (2, 0), (4, 0)], [(6, 4)], [], [8], []⟩
theorem shifter_built : Built (systemOf shifter false) shifter false :=
  systemOf_built ⟨by decide, by decide, by decide, by decide, by decide⟩
    (supported_of (by decide) (by unfold Circuit.Small; decide) rfl (by decide))

example : ((search true Brute.env patient (systemOf shifter false) 4 0).toOption.map Prod.fst).map
    (fun | .ctx _ d => some d | .noCtx _ => none) = some (some 3) := by decide +kernel
example : (search true Brute.env patient (systemOf shifter false) 2 0).toOption.map Prod.fst = some (.noCtx 2) := by decide +kernel
/-- A timeout at depth 2. -/
example : (search true Brute.env ⟨fun _ => false, fun k => k < 2⟩ (systemOf shifter false) 4 0).toOption.map Prod.fst =
    some (.noCtx 1) := by decide +kernel
example : Representable 2147483646 false shifter 4 := ⟨by decide, .inr (by decide)⟩
example (limit : Nat) : Representable 2147483647 true shifter limit := ⟨by decide, .inl ⟨rfl, rfl⟩⟩

end Verif.Props
