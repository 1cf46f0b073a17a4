import Verif.Model.Counted
import Verif.Spec.Asked

/-! # Counters of SAT calls: related runs

A run `x` with counters is compared with runs `y i` without: one of them with the same solver, the others with solvers that answer otherwise at some moment.
On some calls (`hit`) such a run fails; after others (`free`) nothing is said about it; otherwise it goes on as `x` does. -/

namespace Verif

/-- What the comparison is about: counters `γ` with keys `κ`, the clock of the environment, the runs `ι` without counters and their states, which calls (moment
and key) these runs fail on, and how. -/
structure Meter (σ γ κ ι : Type) (τ : ι → Type) where
  none : ι
  hit : ι → Nat × κ → Prop
  free : ι → Nat × κ → Prop
  err : ι → Err
  same : ∀ p, ¬ hit none p ∧ ¬ free none p
  dbg : Bool
  over : Err
  clock : σ → Nat
  view : ∀ t, σ → τ t
  cnt : γ → κ → Nat
  good : γ → Prop
  key : κ → Prop
  count : κ → StateT (Counted σ γ) Res Unit

namespace Meter

variable {σ γ κ ι α β : Type} {τ : ι → Type} [DecidableEq κ]

/-- Counting adds one to one counter; only the largest `u32` overflows, and only a debug build minds. -/
structure OK (M : Meter σ γ κ ι τ) : Prop where
  lt : ∀ g, M.good g → ∀ k, M.cnt g k < u32Size
  count : ∀ k, M.key k → ∀ b g, M.good g →
    (M.cnt g k + 1 = u32Size ∧ M.dbg = true ∧ M.count k ⟨b, g⟩ = .error M.over) ∨
    (∃ g', M.count k ⟨b, g⟩ = .ok ((), ⟨b, g'⟩) ∧ M.good g' ∧ (M.dbg = true → M.cnt g k + 1 < u32Size) ∧
      M.cnt g' k = (M.cnt g k + 1) % u32Size ∧ ∀ k', k' ≠ k → M.cnt g' k' = M.cnt g k')

/-- How many calls with this key a list of calls has. -/
def num (k : κ) (ts : List (Nat × κ)) : Nat := (ts.filter fun p => decide (p.2 = k)).length

theorem num_nil (k : κ) : num k [] = 0 := rfl

theorem num_append (k : κ) (ts us : List (Nat × κ)) : num k (ts ++ us) = num k ts + num k us := by simp [num]

theorem num_single (k k' : κ) (n : Nat) : num k [(n, k')] = if k' = k then 1 else 0 := by
  unfold num
  by_cases h : k' = k <;> simp [h]

/-- Calls at increasing moments from `n` on. -/
def From (n : Nat) (ts : List (Nat × κ)) : Prop := (ts.map Prod.fst).Pairwise (· < ·) ∧ ∀ p ∈ ts, n ≤ p.1

omit [DecidableEq κ] in
theorem From.append {n m : Nat} {ts us : List (Nat × κ)} (h : From n ts) (h' : From m us) (hm : ∀ p ∈ ts, p.1 < m) (hn : n ≤ m) :
    From n (ts ++ us) := by
  refine ⟨?_, fun p hp => ?_⟩
  · rw [List.map_append, List.pairwise_append]
    refine ⟨h.1, h'.1, fun a ha b hb => ?_⟩
    obtain ⟨p, hp, rfl⟩ := List.mem_map.1 ha
    obtain ⟨q, hq, rfl⟩ := List.mem_map.1 hb
    exact Nat.lt_of_lt_of_le (hm p hp) (h'.2 q hq)
  · rcases List.mem_append.1 hp with hp | hp
    · exact h.2 p hp
    · exact Nat.le_trans hn (h'.2 p hp)

/-- The calls `ts` lead from `s` to `s'`. -/
structure Step (M : Meter σ γ κ ι τ) (s : Counted σ γ) (ts : List (Nat × κ)) (s' : Counted σ γ) : Prop where
  good : M.good s'.stats
  asc : From (M.clock s.base) ts
  lt : ∀ p ∈ ts, p.1 < M.clock s'.base
  le : M.clock s.base ≤ M.clock s'.base
  key : ∀ p ∈ ts, M.key p.2
  cnt : ∀ k, M.cnt s'.stats k = (M.cnt s.stats k + num k ts) % u32Size
  debug : M.dbg = true → ∀ k, M.cnt s.stats k + num k ts < u32Size

/-- The run fails on one of the calls. -/
def Hit (M : Meter σ γ κ ι τ) (t : ι) (ts : List (Nat × κ)) : Prop := ∃ p ∈ ts, M.hit t p

/-- Nothing is said about the run after one of the calls. -/
def Free (M : Meter σ γ κ ι τ) (t : ι) (ts : List (Nat × κ)) : Prop := ∃ p ∈ ts, M.free t p

/-- What the run `t` without counters does if the run with counters makes the calls `ts` and returns `r`. -/
def Does (M : Meter σ γ κ ι τ) (t : ι) (ts : List (Nat × κ)) (q r : Res β) : Prop :=
  M.Free t ts ∨ (M.Hit t ts ∧ q = .error (M.err t)) ∨ (¬ M.Hit t ts ∧ q = r)

/-- The comparison for runs that start in `s`. -/
def At (M : Meter σ γ κ ι τ) (s : Counted σ γ) (x : StateT (Counted σ γ) Res α) (y : ∀ t, StateT (τ t) Res α) : Prop :=
  M.good s.stats →
    match x s with
    | .ok (a, s') => ∃ ts, M.Step s ts s' ∧ ∀ t, M.Does t ts (y t (M.view t s.base)) (.ok (a, M.view t s'.base))
    | .error e =>
      (e = M.over ∧ M.dbg = true ∧ ∃ ts k, From (M.clock s.base) ts ∧ M.key k ∧ M.cnt s.stats k + num k ts + 1 = u32Size ∧
        ∀ t, M.Hit t ts → M.Free t ts ∨ y t (M.view t s.base) = .error (M.err t)) ∨
      y M.none (M.view M.none s.base) = .error e

/-- The comparison for all starting states. -/
def Runs (M : Meter σ γ κ ι τ) (x : StateT (Counted σ γ) Res α) (y : ∀ t, StateT (τ t) Res α) : Prop := ∀ s, M.At s x y

variable {M : Meter σ γ κ ι τ}

theorem Runs.at {x : StateT (Counted σ γ) Res α} {y : ∀ t, StateT (τ t) Res α} (h : M.Runs x y) {s : Counted σ γ} : M.At s x y := h s

theorem Step.refl (hM : M.OK) {s : Counted σ γ} (hg : M.good s.stats) {b : σ} (hb : M.clock s.base ≤ M.clock b) : M.Step s [] ⟨b, s.stats⟩ := by
  refine ⟨hg, ⟨List.Pairwise.nil, fun _ h => absurd h List.not_mem_nil⟩, fun _ h => absurd h List.not_mem_nil, hb, fun _ h => absurd h List.not_mem_nil,
    fun k => ?_, fun _ k => ?_⟩
  · rw [num_nil, Nat.add_zero, Nat.mod_eq_of_lt (hM.lt _ hg k)]
  · rw [num_nil, Nat.add_zero]; exact hM.lt _ hg k

theorem Step.trans {s s' s'' : Counted σ γ} {ts us : List (Nat × κ)} (h : M.Step s ts s') (h' : M.Step s' us s'') : M.Step s (ts ++ us) s'' := by
  refine ⟨h'.good, h.asc.append h'.asc h.lt h.le, fun p hp => ?_, Nat.le_trans h.le h'.le, fun p hp => ?_, fun k => ?_, fun hd k => ?_⟩
  · rcases List.mem_append.1 hp with hp | hp
    · exact Nat.lt_of_lt_of_le (h.lt p hp) h'.le
    · exact h'.lt p hp
  · rcases List.mem_append.1 hp with hp | hp
    · exact h.key p hp
    · exact h'.key p hp
  · rw [h'.cnt k, h.cnt k, num_append, ← Nat.add_assoc, Nat.mod_add_mod]
  · have h1 := h.debug hd k
    have h2 := h'.debug hd k
    rw [h.cnt k, Nat.mod_eq_of_lt h1] at h2
    rw [num_append, ← Nat.add_assoc]
    exact h2

omit [DecidableEq κ] in
theorem Hit.append {t : ι} {ts us : List (Nat × κ)} : M.Hit t (ts ++ us) ↔ M.Hit t ts ∨ M.Hit t us := by
  unfold Hit
  simp only [List.mem_append, or_and_right, exists_or]

omit [DecidableEq κ] in
theorem Free.append {t : ι} {ts us : List (Nat × κ)} : M.Free t (ts ++ us) ↔ M.Free t ts ∨ M.Free t us := by
  unfold Free
  simp only [List.mem_append, or_and_right, exists_or]

omit [DecidableEq κ] in
theorem Hit.nil {t : ι} : ¬ M.Hit t [] := fun ⟨_, h, _⟩ => absurd h List.not_mem_nil

omit [DecidableEq κ] in
theorem Does.none {ts : List (Nat × κ)} {q r : Res β} (h : M.Does M.none ts q r) : q = r := by
  rcases h with ⟨p, _, h⟩ | ⟨⟨p, _, h⟩, _⟩ | ⟨_, h⟩
  · exact absurd h (M.same p).2
  · exact absurd h (M.same p).1
  · exact h

theorem At.pure (hM : M.OK) (s : Counted σ γ) (a : α) : M.At s (Pure.pure a) (fun _ => Pure.pure a) :=
  fun hg => ⟨[], Step.refl hM hg (Nat.le_refl _), fun _ => .inr (.inr ⟨Hit.nil, rfl⟩)⟩

theorem Runs.pure (hM : M.OK) (a : α) : M.Runs (Pure.pure a) (fun _ => Pure.pure a) := fun s => At.pure hM s a

theorem At.bind {s : Counted σ γ} {x : StateT (Counted σ γ) Res α} {y : ∀ t, StateT (τ t) Res α} {f : α → StateT (Counted σ γ) Res β}
    {g : ∀ t, α → StateT (τ t) Res β} (h : M.At s x y) (hk : ∀ a s', M.At s' (f a) (fun t => g t a)) :
    M.At s (x >>= f) (fun t => y t >>= g t) := by
  intro hg
  have h1 := h hg
  have eo : ∀ t u a v, y t u = .ok (a, v) → (y t >>= g t) u = g t a v := fun t u a v h => by
    show Except.bind (y t u) (fun p => g t p.1 p.2) = _
    rw [h]; rfl
  have ee : ∀ t u er, y t u = .error er → (y t >>= g t) u = .error er := fun t u er h => by
    show Except.bind (y t u) (fun p => g t p.1 p.2) = _
    rw [h]; rfl
  have e' : (x >>= f) s = Except.bind (x s) fun p => f p.1 p.2 := rfl
  rw [e']
  match hx : x s with
  | .error er =>
    rw [hx] at h1
    show _ ∨ _
    rcases h1 with ⟨he, hd, ts, k, hf, hkk, hn, hp⟩ | h1
    · exact .inl ⟨he, hd, ts, k, hf, hkk, hn, fun t ht => (hp t ht).imp id (ee _ _ _)⟩
    · exact .inr (ee _ _ _ h1)
  | .ok (a, s') =>
    rw [hx] at h1
    obtain ⟨ts, hs, ht⟩ := h1
    have h2 := hk a s' hs.good
    show match f a s' with
      | .ok (a, s') => _
      | .error e => _
    match hf : f a s' with
    | .ok (b, s'') =>
      rw [hf] at h2
      obtain ⟨us, hu, hv⟩ := h2
      refine ⟨ts ++ us, hs.trans hu, fun t => ?_⟩
      rcases ht t with hh | ⟨hh, hy⟩ | ⟨hh, hy⟩
      · exact .inl (Free.append.2 (.inl hh))
      · exact .inr (.inl ⟨Hit.append.2 (.inl hh), ee _ _ _ hy⟩)
      · rcases hv t with hh' | ⟨hh', hy'⟩ | ⟨hh', hy'⟩
        · exact .inl (Free.append.2 (.inr hh'))
        · exact .inr (.inl ⟨Hit.append.2 (.inr hh'), (eo _ _ _ _ hy).trans hy'⟩)
        · exact .inr (.inr ⟨fun hc => (Hit.append.1 hc).elim hh hh', (eo _ _ _ _ hy).trans hy'⟩)
    | .error er =>
      rw [hf] at h2
      rcases h2 with ⟨he, hd, us, k, hfr, hkk, hn, hp⟩ | h2
      · refine .inl ⟨he, hd, ts ++ us, k, hs.asc.append hfr hs.lt hs.le, hkk, ?_, fun t hp' => ?_⟩
        · have h1 := hs.debug hd k
          rw [hs.cnt k, Nat.mod_eq_of_lt h1] at hn
          rw [num_append, ← Nat.add_assoc]
          exact hn
        · rcases ht t with hh | ⟨hh, hy⟩ | ⟨hh, hy⟩
          · exact .inl (Free.append.2 (.inl hh))
          · exact .inr (ee _ _ _ hy)
          · rcases hp t ((Hit.append.1 hp').resolve_left hh) with hf' | hy'
            · exact .inl (Free.append.2 (.inr hf'))
            · exact .inr ((eo _ _ _ _ hy).trans hy')
      · exact .inr ((eo _ _ _ _ (ht M.none).none).trans h2)

theorem Runs.bind {x : StateT (Counted σ γ) Res α} {y : ∀ t, StateT (τ t) Res α} {f : α → StateT (Counted σ γ) Res β}
    {g : ∀ t, α → StateT (τ t) Res β} (h : M.Runs x y) (hk : ∀ a, M.Runs (f a) (fun t => g t a)) : M.Runs (x >>= f) (fun t => y t >>= g t) :=
  fun s => (h s).bind hk

theorem Runs.lift (hM : M.OK) (x : Res α) : M.Runs (liftM x : StateT (Counted σ γ) Res α) (fun t => (liftM x : StateT (τ t) Res α)) := by
  intro s hg
  cases x with
  | ok a => exact ⟨[], Step.refl hM hg (Nat.le_refl _), fun _ => .inr (.inr ⟨Hit.nil, rfl⟩)⟩
  | error e => exact .inr rfl

theorem Runs.read {f : Counted σ γ → StateT (Counted σ γ) Res β} {g : ∀ t, τ t → StateT (τ t) Res β}
    (h : ∀ s, M.At s (f s) (fun t => g t (M.view t s.base))) :
    M.Runs ((get : StateT (Counted σ γ) Res (Counted σ γ)) >>= f) (fun t => (get : StateT (τ t) Res (τ t)) >>= g t) :=
  fun s => h s

theorem At.set (hM : M.OK) {s : Counted σ γ} {b : σ} (hb : M.clock s.base ≤ M.clock b) {u : ∀ t, τ t} (hu : ∀ t, u t = M.view t b) :
    M.At s (MonadStateOf.set (⟨b, s.stats⟩ : Counted σ γ) : StateT (Counted σ γ) Res PUnit) (fun t => (MonadStateOf.set (u t) : StateT (τ t) Res PUnit)) :=
  fun hg => ⟨[], Step.refl hM hg hb, fun t => .inr (.inr ⟨Hit.nil, by rw [← hu t]; rfl⟩)⟩

/-- Steps that may fail but leave the state alone. -/
theorem At.lift {s : Counted σ γ} {x : Res α} {f : α → StateT (Counted σ γ) Res β} {g : ∀ t, α → StateT (τ t) Res β}
    (h : ∀ a, M.At s (f a) (fun t => g t a)) :
    M.At s ((liftM x : StateT (Counted σ γ) Res α) >>= f) (fun t => (liftM x : StateT (τ t) Res α) >>= g t) := by
  cases x with
  | ok a => exact h a
  | error e => exact fun _ => .inr rfl

theorem At.plainSet (hM : M.OK) {s : Counted σ γ} {b : σ} (hb : M.clock s.base ≤ M.clock b) {u : ∀ t, τ t} (hu : ∀ t, u t = M.view t b) :
    M.At s (Counted.plain (MonadStateOf.set b : StateT σ Res PUnit)) (fun t => (MonadStateOf.set (u t) : StateT (τ t) Res PUnit)) :=
  At.set hM hb hu

/-- A step that makes no call and is the same in all runs. -/
def Still (M : Meter σ γ κ ι τ) (z : StateT σ Res α) (y : ∀ t, StateT (τ t) Res α) : Prop :=
  ∀ s, match z s with
    | .ok (a, b) => M.clock s ≤ M.clock b ∧ ∀ t, y t (M.view t s) = .ok (a, M.view t b)
    | .error e => y M.none (M.view M.none s) = .error e

theorem Still.runs (hM : M.OK) {z : StateT σ Res α} {y : ∀ t, StateT (τ t) Res α} (h : M.Still z y) : M.Runs (Counted.plain z) y := by
  intro s hg
  have h1 := h s.base
  show match Except.bind (z s.base) fun p => Except.ok (p.1, (⟨p.2, s.stats⟩ : Counted σ γ)) with
    | .ok (a, s') => _
    | .error e => _
  match hz : z s.base with
  | .ok (a, b) =>
    rw [hz] at h1
    exact ⟨[], Step.refl hM hg h1.1, fun t => .inr (.inr ⟨Hit.nil, h1.2 t⟩)⟩
  | .error e =>
    rw [hz] at h1
    exact .inr h1

/-- A step that makes one call, at the moment shown by the clock when the step begins. -/
def Asks (M : Meter σ γ κ ι τ) (k : κ) (z : StateT σ Res α) (y : ∀ t, StateT (τ t) Res α) : Prop :=
  ∀ s, match z s with
    | .ok (a, b) => M.clock s < M.clock b ∧ ∀ t, M.free t (M.clock s, k) ∨ (M.hit t (M.clock s, k) ∧ y t (M.view t s) = .error (M.err t)) ∨
        (¬ M.hit t (M.clock s, k) ∧ y t (M.view t s) = .ok (a, M.view t b))
    | .error e => y M.none (M.view M.none s) = .error e

/-- A counted call. -/
theorem Asks.runs (hM : M.OK) {z : StateT σ Res α} {y : ∀ t, StateT (τ t) Res α} {k : κ} (h : M.Asks k z y) (hk : M.key k) :
    M.Runs (M.count k >>= fun _ => Counted.plain z) y := by
  intro s hg
  have h1 := h s.base
  show match Except.bind (M.count k s) fun p => Counted.plain z p.2 with
    | .ok (a, s') => _
    | .error e => _
  rcases hM.count k hk s.base s.stats hg with ⟨hn, hd, he⟩ | ⟨g', he, hg', hd, hc, ho⟩
  · rw [show M.count k s = .error M.over from he]
    exact .inl ⟨rfl, hd, [], k, ⟨List.Pairwise.nil, fun _ h => absurd h List.not_mem_nil⟩, hk, by rw [num_nil]; exact hn, fun _ h => absurd h Hit.nil⟩
  · rw [show M.count k s = _ from he]
    show match Except.bind (z s.base) fun p => Except.ok (p.1, (⟨p.2, g'⟩ : Counted σ γ)) with
      | .ok (a, s') => _
      | .error e => _
    match hz : z s.base with
    | .ok (a, b) =>
      rw [hz] at h1
      refine ⟨[(M.clock s.base, k)], ⟨hg', ⟨List.pairwise_singleton _ _, fun p hp => ?_⟩, fun p hp => ?_, Nat.le_of_lt h1.1, fun p hp => ?_,
        fun k' => ?_, fun hdb k' => ?_⟩, fun t => ?_⟩
      · rw [List.mem_singleton.1 hp]; exact Nat.le_refl _
      · rw [List.mem_singleton.1 hp]; exact h1.1
      · rw [List.mem_singleton.1 hp]; exact hk
      · rw [num_single]
        by_cases e : k = k'
        · subst e; rw [if_pos rfl]; exact hc
        · rw [if_neg e, Nat.add_zero, Nat.mod_eq_of_lt (hM.lt _ hg k')]; exact ho k' (Ne.symm e)
      · rw [num_single]
        by_cases e : k = k'
        · subst e; rw [if_pos rfl]; exact hd hdb
        · rw [if_neg e]; exact hM.lt _ hg k'
      · rcases h1.2 t with h | ⟨h, hy⟩ | ⟨h, hy⟩
        · exact .inl ⟨_, List.mem_cons_self, h⟩
        · exact .inr (.inl ⟨⟨_, List.mem_cons_self, h⟩, hy⟩)
        · refine .inr (.inr ⟨?_, hy⟩)
          rintro ⟨p, hp, hh⟩
          rw [List.mem_singleton.1 hp] at hh
          exact h hh
    | .error e =>
      rw [hz] at h1
      exact .inr h1

/-- A call that is counted but fails before it is made. -/
theorem Runs.countFail (hM : M.OK) {k : κ} (hk : M.key k) (e : Err) :
    M.Runs (M.count k >>= fun _ => (liftM (.error e : Res α) : StateT (Counted σ γ) Res α)) (fun t => (liftM (.error e : Res α) : StateT (τ t) Res α)) := by
  intro s hg
  show match Except.bind (M.count k s) fun p => (.error e : Res (α × Counted σ γ)) with
    | .ok (a, s') => _
    | .error e => _
  rcases hM.count k hk s.base s.stats hg with ⟨hn, hd, he⟩ | ⟨g', he, hg', hd, hc, ho⟩
  · rw [show M.count k s = .error M.over from he]
    exact .inl ⟨rfl, hd, [], k, ⟨List.Pairwise.nil, fun _ h => absurd h List.not_mem_nil⟩, hk, by rw [num_nil]; exact hn, fun _ h => absurd h Hit.nil⟩
  · rw [show M.count k s = _ from he]
    exact .inr rfl

/-- A counted call and what follows it. -/
theorem Asks.bind (hM : M.OK) {z : StateT σ Res α} {y : ∀ t, StateT (τ t) Res α} {k : κ} (h : M.Asks k z y) (hk : M.key k)
    {f : α → StateT (Counted σ γ) Res β} {g : ∀ t, α → StateT (τ t) Res β} (hf : ∀ a, M.Runs (f a) (fun t => g t a)) :
    M.Runs (M.count k >>= fun _ => Counted.plain z >>= f) (fun t => y t >>= g t) := by
  have e : (M.count k >>= fun _ => Counted.plain z >>= f) = ((M.count k >>= fun _ => Counted.plain z) >>= f) := (bind_assoc _ _ _).symm
  rw [e]
  exact (h.runs hM hk).bind hf

end Meter

end Verif
