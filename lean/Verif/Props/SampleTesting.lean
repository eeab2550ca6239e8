import Verif.Lemmas.SampleTesting
import Verif.Props.ASIFHistory
import Verif.Props.Reset
import Mathlib.Algebra.Order.Archimedean.Basic

/-! Sample testing: recorded episodes (C54), initial states (C55), safety assurance tests (C56), independence of episodes (C61). -/
namespace RTA

variable {K S P E R : Type}

/-! ### C54 -/

section
variable [Field K] [LinearOrder K]

/-- **C54.** An episode that returns consists of `n >= 1` steps. The three records have `n + 1` entries each: the states start with the
initial state, the controls with zeros and the interventions with `False`; entry `i + 1` is the control the module returned at state
`i`, the state the plant step reaches under it, and the flag of the module after that call. The done condition, asked at the times
`step_size, 2 * step_size, ...`, holds at step `n` and at no earlier one. -/
theorem C54_record (sim : Sim K S P E R) (check : Bool) (fuel : Nat) (r r' : R) (e e' : E) (t : Record K S)
    (h : simulateEpisode sim check fuel r e = some (.ok t, r', e')) :
    ∃ n x xs us rs, 0 < n ∧ Steps sim r x n xs us rs ∧ rs n = r' ∧
      t.states = (List.range (n + 1)).map xs ∧
      t.controls = zeros sim.controlDim :: (List.range n).map (fun i => us (i + 1)) ∧
      t.interventions = false :: (List.range n).map (fun i => sim.intervening (rs (i + 1))) ∧
      (∀ i, 0 < i → i < n → ¬ DoneAt sim xs i) ∧ DoneAt sim xs n := by
  unfold simulateEpisode at h
  rcases hi : (if check = true then sampleSafe sim r 99 e else sim.getInitial e) with ⟨res, e1⟩
  rw [hi] at h
  cases res with
  | error er => simp at h
  | ok x =>
    simp only [Option.map_eq_some_iff, Prod.mk.injEq] at h
    obtain ⟨⟨a, b⟩, hl, rfl, rfl, rfl⟩ := h
    have hl' : episodeLoop sim fuel r x ((0 : Nat) * sim.stepSize)
        { states := [x], controls := [zeros sim.controlDim], interventions := [false] } = some (.ok t, b) := by
      rw [Nat.cast_zero, zero_mul]; exact hl
    obtain ⟨n, xs, us, rs, hn, -, hst, hr, h1, h2, h3, h4, h5⟩ := episodeLoop_ok sim _ _ _ _ _ _ _ hl'
    refine ⟨n, x, xs, us, rs, hn, hst, hr, ?_, h2, h3, ?_, ?_⟩
    · rw [h1, List.range_succ_eq_map]; simp [hst.state0, Function.comp_def]
    · intro i h0 hi hd
      have := h4 i h0 hi
      rw [Nat.zero_add] at this
      exact Bool.false_ne_true (this.symm.trans hd)
    · rw [Nat.zero_add] at h5; exact h5

/-- **C54, lengths.** -/
theorem C54_lengths (sim : Sim K S P E R) (check : Bool) (fuel : Nat) (r r' : R) (e e' : E) (t : Record K S)
    (h : simulateEpisode sim check fuel r e = some (.ok t, r', e')) :
    t.controls.length = t.states.length ∧ t.interventions.length = t.states.length ∧ 2 ≤ t.states.length := by
  obtain ⟨n, x, xs, us, rs, hn, -, -, h1, h2, h3, -, -⟩ := C54_record sim check fuel r r' e e' t h
  rw [h1, h2, h3]
  simp; omega

/-- **C54, exceptions.** An episode that raises does so because sampling the initial state raised, or because the module raised at some
step before which the done condition never held; the exception is passed on. -/
theorem C54_error_source (sim : Sim K S P E R) (check : Bool) (fuel : Nat) (r r' : R) (e e' : E) (er : PyErr)
    (h : simulateEpisode sim check fuel r e = some (.error er, r', e')) :
    (if check = true then sampleSafe sim r 99 e else sim.getInitial e) = (.error er, e') ∨
    ∃ n x xs us rs, Steps sim r x n xs us rs ∧
      sim.filter (rs n) (xs n) sim.stepSize (sim.desired (xs n)) = (.error er, r') ∧ ∀ i, 0 < i → i ≤ n → ¬ DoneAt sim xs i := by
  unfold simulateEpisode at h
  rcases hi : (if check = true then sampleSafe sim r 99 e else sim.getInitial e) with ⟨res, e1⟩
  rw [hi] at h
  cases res with
  | error er =>
    simp only [Option.some.injEq, Prod.mk.injEq, Except.error.injEq] at h
    obtain ⟨rfl, -, rfl⟩ := h
    exact Or.inl rfl
  | ok x =>
    simp only [Option.map_eq_some_iff, Prod.mk.injEq] at h
    obtain ⟨⟨a, b⟩, hl, rfl, rfl, rfl⟩ := h
    have hl' : episodeLoop sim fuel r x ((0 : Nat) * sim.stepSize)
        { states := [x], controls := [zeros sim.controlDim], interventions := [false] } = some (.error er, b) := by
      rw [Nat.cast_zero, zero_mul]; exact hl
    obtain ⟨n, xs, us, rs, hst, hf, h4⟩ := episodeLoop_error sim _ _ _ _ _ _ _ hl'
    refine Or.inr ⟨n, x, xs, us, rs, hst, hf, ?_⟩
    intro i h0 hi hd
    have := h4 i h0 hi
    rw [Nat.zero_add] at this
    exact Bool.false_ne_true (this.symm.trans hd)

/-- **C54, the default time limit.** With a positive step size the loop ends: some number of iterations is enough, and giving it more does
not change the result. -/
theorem C54_terminates [IsStrictOrderedRing K] [Archimedean K] (sim : Sim K S P E R) (T : K) (hdone : sim.done = defaultDone T)
    (hdt : 0 < sim.stepSize) (check : Bool) (r : R) (e : E) :
    ∃ v fuel0, ∀ fuel, fuel0 ≤ fuel → simulateEpisode sim check fuel r e = some v := by
  obtain ⟨N, hN⟩ := Archimedean.arch T hdt
  have hN' : ∀ x, sim.done x ((0 + (N + 1) : Nat) * sim.stepSize) = true := by
    intro x
    rw [hdone]
    simp only [defaultDone, decide_eq_true_eq]
    rw [nsmul_eq_mul] at hN
    push_cast
    linarith
  unfold simulateEpisode
  rcases hi : (if check = true then sampleSafe sim r 99 e else sim.getInitial e) with ⟨res, e1⟩
  cases res with
  | error er => exact ⟨_, 0, fun _ _ => rfl⟩
  | ok x =>
    obtain ⟨v, hv⟩ := episodeLoop_terminates sim (N + 1) r x 0
      { states := [x], controls := [zeros sim.controlDim], interventions := [false] } (by omega) hN'
    rw [Nat.cast_zero, zero_mul] at hv
    refine ⟨(v.1, v.2, e1), N + 1, fun fuel hf => ?_⟩
    obtain ⟨m, rfl⟩ := Nat.exists_eq_add_of_le hf
    have := episodeLoop_mono sim (N + 1) m r x 0 _ v hv
    simp only [this, Option.map_some]

/-- **C54, duration with the default time limit.** The number of steps is the least positive one at which the time limit is reached. -/
theorem C54_duration (sim : Sim K S P E R) (T : K) (hdone : sim.done = defaultDone T) (check : Bool) (fuel : Nat) (r r' : R)
    (e e' : E) (t : Record K S) (h : simulateEpisode sim check fuel r e = some (.ok t, r', e')) :
    IsLeast {n : Nat | 0 < n ∧ T ≤ n * sim.stepSize} (t.states.length - 1) := by
  obtain ⟨n, x, xs, us, rs, hn, -, -, h1, -, -, h4, h5⟩ := C54_record sim check fuel r r' e e' t h
  have hl : t.states.length - 1 = n := by rw [h1]; simp
  rw [hl]
  refine ⟨⟨hn, ?_⟩, ?_⟩
  · simpa [DoneAt, hdone, defaultDone] using h5
  · rintro m ⟨hm0, hm⟩
    by_contra hlt
    exact h4 m hm0 (by omega) (by simpa [DoneAt, hdone, defaultDone] using hm)

/-! ### C55 -/

/-- **C55.** With initial-state checking, the first recorded state of an episode is safe for every constraint of the module, and it is the
first safe one of the drawn states, of which there are at most 99. -/
theorem C55_initial_safe (sim : Sim K S P E R) (fuel : Nat) (r r' : R) (e e' : E) (t : Record K S)
    (h : simulateEpisode sim true fuel r e = some (.ok t, r', e')) :
    ∃ j xs es, j < 99 ∧ Draws sim e (j + 1) xs es ∧ (∀ i < j, ¬ SafeState sim r (xs i)) ∧ SafeState sim r (xs j) ∧
      t.states[0]? = some (xs j) ∧ e' = es (j + 1) := by
  unfold simulateEpisode at h
  rw [if_pos rfl] at h
  rcases hi : sampleSafe sim r 99 e with ⟨res, e1⟩
  rw [hi] at h
  cases res with
  | error er => simp at h
  | ok x =>
    simp only [Option.map_eq_some_iff, Prod.mk.injEq] at h
    obtain ⟨⟨a, b⟩, hl, rfl, rfl, rfl⟩ := h
    obtain ⟨j, xs, es, hj, hd, hu, hs, rfl, rfl⟩ := sampleSafe_ok sim r _ _ _ _ hi
    have hl' : episodeLoop sim fuel r (xs j) ((0 : Nat) * sim.stepSize)
        { states := [xs j], controls := [zeros sim.controlDim], interventions := [false] } = some (.ok t, b) := by
      rw [Nat.cast_zero, zero_mul]; exact hl
    obtain ⟨n, ys, us, rs, hn, -, -, -, h1, -⟩ := episodeLoop_ok sim _ _ _ _ _ _ _ hl'
    exact ⟨j, xs, es, hj, hd, hu, hs, by rw [h1]; rfl, rfl⟩

/-- **C55, giving up.** If the first 99 draws are all unsafe, `ValueError` is raised after the 99th; the module is not touched. -/
theorem C55_gives_up (sim : Sim K S P E R) (fuel : Nat) (r : R) (e : E) (xs : Nat → S) (es : Nat → E) (hd : Draws sim e 99 xs es)
    (hu : ∀ i < 99, ¬ SafeState sim r (xs i)) :
    ∃ msg, simulateEpisode sim true fuel r e = some (.error (.valueError msg), r, es 99) := by
  obtain ⟨msg, hm⟩ := sampleSafe_giveUp sim r 99 e xs es hd hu
  refine ⟨msg, ?_⟩
  unfold simulateEpisode
  rw [if_pos rfl, hm]

/-- **C55, finding a state.** If one of the first 99 draws is safe, the episode is the one from the first safe draw. -/
theorem C55_finds (sim : Sim K S P E R) (fuel j : Nat) (r : R) (e : E) (xs : Nat → S) (es : Nat → E) (hj : j < 99)
    (hd : Draws sim e (j + 1) xs es) (hu : ∀ i < j, ¬ SafeState sim r (xs i)) (hs : SafeState sim r (xs j)) :
    simulateEpisode sim true fuel r e =
      simulateEpisode { sim with getInitial := fun _ => (.ok (xs j), es (j + 1)) } false fuel r e := by
  unfold simulateEpisode
  rw [if_pos rfl, sampleSafe_complete sim r 99 j e xs es hj hd hu hs]
  have hl : ∀ fuel r x time t, episodeLoop { sim with getInitial := fun _ => (.ok (xs j), es (j + 1)) } fuel r x time t =
      episodeLoop sim fuel r x time t := by
    intro fuel
    induction fuel with
    | zero => intros; rfl
    | succ fuel ih => intro r x time t; simp only [episodeLoop, ih]
  simp [hl]

/-! ### C56 -/

/-- **C56 is false for every module with constraints of the repository.** The test evaluates constraints without their `params`
argument, so whatever the module, the plant and the sampler, the first test case raises `TypeError`. -/
theorem C56_refuted (sim : Sim K S P E R) (hphi : sim.phi1 = phiNoParams) (r : R) (hc : sim.constraints r ≠ []) (e e1 : E) (x : S)
    (hx : sim.getInitial e = (.ok x, e1)) (n fuel tries : Nat) (hn : 0 < n) (ht : 0 < tries) :
    ∃ msg, runSampleTest sim fuel tries n r e [] = some (.error (.typeError msg), r, e1) := by
  obtain ⟨n, rfl⟩ := Nat.exists_eq_add_of_lt hn
  obtain ⟨tries, rfl⟩ := Nat.exists_eq_add_of_lt ht
  simp only [Nat.zero_add, runSampleTest, onePoint, hx, assureEpisode]
  rcases hcs : sim.constraints r with _ | ⟨p, cs⟩
  · exact absurd hcs hc
  · obtain ⟨nm, c⟩ := p
    exact ⟨"missing 1 required positional argument: 'params'", by simp only [initialUnsafe, hphi, phiNoParams]⟩

/-- What one test case does. -/
theorem onePoint_ok {sim : Sim K S P E R} {phi val : Constraint K S P → S → K} (h1 : OneArgument sim phi val) (fuel : Nat) :
    ∀ (tries : Nat) (r r' : R) (e e' : E) (row : Bool × S), onePoint sim fuel tries r e = some (.ok row, r', e') →
    ∃ j xs es, Draws sim e (j + 1) xs es ∧ e' = es (j + 1) ∧ row.2 = sim.transform (xs j) ∧
      (∀ i < j, ¬ ∀ p ∈ sim.constraints r, 0 ≤ phi p.2 (sim.transform (xs i)) ∧ 0 ≤ val p.2 (sim.transform (xs i))) ∧
      (∀ p ∈ sim.constraints r, 0 ≤ phi p.2 row.2 ∧ 0 ≤ val p.2 row.2) ∧
      (row.1 = true → KeptSafe sim phi r row.2 r') ∧ (row.1 = false → BecameUnsafe sim phi r row.2 r') := by
  intro tries
  induction tries with
  | zero => intro r r' e e' row h; simp [onePoint] at h
  | succ tries ih =>
    intro r r' e e' row h
    rw [onePoint] at h
    rcases hg : sim.getInitial e with ⟨res, e1⟩
    rw [hg] at h
    cases res with
    | error er => simp at h
    | ok x =>
      simp only at h
      obtain ⟨b, hb, hiff⟩ := initialUnsafe_eq h1 (sim.transform x) (sim.constraints r)
      cases b with
      | true =>
        have ha : assureEpisode sim fuel r (sim.transform x) = some (.ok none, r) := by simp only [assureEpisode, hb]
        rw [ha] at h
        obtain ⟨j, xs, es, hd, he, hx, hu, hrest⟩ := ih _ _ _ _ _ h
        refine ⟨j + 1, shift x xs, shift e es, Draws.cons hg hd, he, hx, ?_, hrest⟩
        intro i hi
        cases i with
        | zero => exact fun hs => Bool.false_ne_true (hiff.2 hs).symm
        | succ i => exact hu i (by omega)
      | false =>
        rcases hl : assureLoop sim fuel r (sim.transform x) 0 with _ | ⟨res, r1⟩
        · have ha : assureEpisode sim fuel r (sim.transform x) = none := by simp only [assureEpisode, hb, hl, Option.map_none]
          rw [ha] at h; simp at h
        · have ha : assureEpisode sim fuel r (sim.transform x) = some (res.map some, r1) := by
            simp only [assureEpisode, hb, hl, Option.map_some]
          rw [ha] at h
          cases res with
          | error er => simp [Except.map] at h
          | ok v =>
            simp only [Except.map, Option.some.injEq, Prod.mk.injEq, Except.ok.injEq] at h
            obtain ⟨rfl, rfl, rfl⟩ := h
            have hl' : assureLoop sim fuel r (sim.transform x) ((0 : Nat) * sim.stepSize) = some (.ok v, r1) := by
              rw [Nat.cast_zero, zero_mul]; exact hl
            refine ⟨0, fun _ => x, shift e fun _ => e1, ⟨rfl, ?_⟩, rfl, rfl, by omega, hiff.1 rfl, ?_, ?_⟩
            · intro i hi; obtain rfl : i = 0 := by omega
              exact hg
            · intro hv
              rcases assureLoop_ok h1 _ _ _ _ _ _ hl' with ⟨-, n, xs, us, rs, hn, hst, hr, h4, h5, h6⟩ | ⟨hf, -⟩
              · refine ⟨n, xs, us, rs, hn, hst, hr, ?_, ?_, h6⟩
                · intro i h0 hi hd
                  have := h4 i h0 hi
                  rw [Nat.zero_add] at this
                  exact Bool.false_ne_true (this.symm.trans hd)
                · rw [Nat.zero_add] at h5; exact h5
              · exact absurd (hf.symm.trans hv) Bool.false_ne_true
            · intro hv
              rcases assureLoop_ok h1 _ _ _ _ _ _ hl' with ⟨hf, -⟩ | ⟨-, n, xs, us, rs, hst, h4, h6, h7⟩
              · exact absurd (hv.symm.trans hf) Bool.false_ne_true
              · refine ⟨n, xs, us, rs, hst, ?_, h6, h7⟩
                intro i h0 hi hd
                have := h4 i h0 hi
                rw [Nat.zero_add] at this
                exact Bool.false_ne_true (this.symm.trans hd)

/-- **C56, what holds.** For constraints that can be called without `params` (the repository has none; what is missing is that its
constraints raise), a test run that returns has exactly one row per test case, in order. The state of a row is the first of the drawn
and transformed states that satisfies every constraint. Its flag is `True` when the episode from there kept `phi` nonnegative at every
step until it was done, and `False` when the solver failed or some `phi` became negative. Resampling does not touch the module. -/
theorem C56_rows_partial {sim : Sim K S P E R} {phi val : Constraint K S P → S → K} (h1 : OneArgument sim phi val) (fuel tries : Nat) :
    ∀ (n : Nat) (r r' : R) (e e' : E) (rows : List (Bool × S)), runSampleTest sim fuel tries n r e [] = some (.ok rows, r', e') →
    rows.length = n ∧ ∃ (rs : Nat → R) (es : Nat → E), rs 0 = r ∧ rs n = r' ∧ es 0 = e ∧ es n = e' ∧
      ∀ i row, rows[i]? = some row →
        (∃ j xs ds, Draws sim (es i) (j + 1) xs ds ∧ es (i + 1) = ds (j + 1) ∧ row.2 = sim.transform (xs j) ∧
          ∀ m < j, ¬ ∀ p ∈ sim.constraints (rs i), 0 ≤ phi p.2 (sim.transform (xs m)) ∧ 0 ≤ val p.2 (sim.transform (xs m))) ∧
        (∀ p ∈ sim.constraints (rs i), 0 ≤ phi p.2 row.2 ∧ 0 ≤ val p.2 row.2) ∧
        (row.1 = true → KeptSafe sim phi (rs i) row.2 (rs (i + 1))) ∧
        (row.1 = false → BecameUnsafe sim phi (rs i) row.2 (rs (i + 1))) := by
  suffices H : ∀ (n : Nat) (r r' : R) (e e' : E) (acc rows : List (Bool × S)),
      runSampleTest sim fuel tries n r e acc = some (.ok rows, r', e') → ∃ new, rows = acc ++ new ∧
      new.length = n ∧ ∃ (rs : Nat → R) (es : Nat → E), rs 0 = r ∧ rs n = r' ∧ es 0 = e ∧ es n = e' ∧
      ∀ i row, new[i]? = some row →
        (∃ j xs ds, Draws sim (es i) (j + 1) xs ds ∧ es (i + 1) = ds (j + 1) ∧ row.2 = sim.transform (xs j) ∧
          ∀ m < j, ¬ ∀ p ∈ sim.constraints (rs i), 0 ≤ phi p.2 (sim.transform (xs m)) ∧ 0 ≤ val p.2 (sim.transform (xs m))) ∧
        (∀ p ∈ sim.constraints (rs i), 0 ≤ phi p.2 row.2 ∧ 0 ≤ val p.2 row.2) ∧
        (row.1 = true → KeptSafe sim phi (rs i) row.2 (rs (i + 1))) ∧
        (row.1 = false → BecameUnsafe sim phi (rs i) row.2 (rs (i + 1))) by
    intro n r r' e e' rows h
    obtain ⟨new, rfl, hlen, hrest⟩ := H n r r' e e' [] rows h
    exact ⟨hlen, hrest⟩
  intro n
  induction n with
  | zero =>
    intro r r' e e' acc rows h
    simp only [runSampleTest, Option.some.injEq, Prod.mk.injEq, Except.ok.injEq] at h
    obtain ⟨rfl, rfl, rfl⟩ := h
    exact ⟨[], by simp, rfl, fun _ => r, fun _ => e, rfl, rfl, rfl, rfl, by simp⟩
  | succ n ih =>
    intro r r' e e' acc rows h
    rw [runSampleTest] at h
    rcases ho : onePoint sim fuel tries r e with _ | ⟨res, r1, e1⟩
    · rw [ho] at h; simp at h
    · rw [ho] at h
      cases res with
      | error er => simp at h
      | ok row =>
        obtain ⟨new, rfl, hlen, rs, es, hr0, hrn, he0, hen, hrows⟩ := ih _ _ _ _ _ _ h
        obtain ⟨j, xs, ds, hd, he, hx, hu, hsafe, hk, hb⟩ := onePoint_ok h1 fuel _ _ _ _ _ _ ho
        refine ⟨row :: new, by simp, by simp [hlen], shift r rs, shift e es, rfl, hrn, rfl, hen, ?_⟩
        intro i row' hrow
        cases i with
        | zero =>
          simp only [List.getElem?_cons_zero, Option.some.injEq] at hrow
          subst hrow
          refine ⟨⟨j, xs, ds, hd, ?_, hx, hu⟩, hsafe, ?_, ?_⟩
          · simpa [shift, he0] using he
          · simpa [shift, hr0] using hk
          · simpa [shift, hr0] using hb
        | succ i => exact hrows i row' (by simpa using hrow)

end

/-- **C56, Latin hypercube sampling.** The draws of a Latin hypercube module from the beginning are the rows of its table, each exactly once and
in order; the draw after the last row raises `IndexError`. -/
theorem C56_latin_hypercube (sim : Sim K S P Nat R) (all : List S) (hs : sim.getInitial = latinInitial all) :
    (∀ n xs es, Draws sim 0 n xs es ↔ es 0 = 0 ∧ ∀ i < n, all[i]? = some (xs i) ∧ es (i + 1) = i + 1) ∧
    sim.getInitial all.length = (.error .indexError, all.length) := by
  refine ⟨fun n xs es => ⟨fun h => ?_, fun h => ⟨h.1, fun i hi => ?_⟩⟩, by simp [hs, latinInitial]⟩
  · have key : ∀ i ≤ n, es i = i := by
      intro i
      induction i with
      | zero => intro _; exact h.source0
      | succ i ih =>
        intro hi
        have hd := h.drawn i (by omega)
        rw [hs, ih (by omega)] at hd
        unfold latinInitial at hd
        rcases hg : all[i]? with _ | y
        · rw [hg] at hd; simp at hd
        · rw [hg] at hd
          simp only [Prod.mk.injEq] at hd
          exact hd.2.symm
    refine ⟨h.source0, fun i hi => ⟨?_, key (i + 1) (by omega)⟩⟩
    have hd := h.drawn i hi
    rw [hs, key i (by omega)] at hd
    unfold latinInitial at hd
    rcases hg : all[i]? with _ | y
    · rw [hg] at hd; simp at hd
    · rw [hg] at hd
      simp only [Prod.mk.injEq, Except.ok.injEq] at hd
      rw [hd.1]
  · have hei : es i = i := by
      cases i with
      | zero => exact h.1
      | succ i => exact (h.2 i (by omega)).2
    rw [hs, hei, (h.2 i hi).2]
    simp [latinInitial, (h.2 i hi).1]

/-! ### C61 -/

/-- The test module of `C61_refuted`: `toyLatched` (backup control 0, `x >= 3`, latch time 2) under the desired control `-2` at state 3 and 1
elsewhere, for one step; the sampler returns the given state. -/
def toySim (x : Int) : Sim Int Int Int Unit (SimplexObj Int Int Int Unit) where
  getInitial := fun _ => (.ok x, ())
  pred := toyPred
  desired := fun x => if x = 3 then [-2] else [1]
  done := defaultDone 1
  filter := fun r x dt u => explicitSimplex toyPred r (.array x) dt u
  intervening := fun r => r.intervening
  constraints := fun r => r.constraints
  stepSize := 1
  controlDim := 1

/-- **C61 is false for latching modules.** The module is not reset between episodes: the episode from state 10 is `10, 11` with the
control 1 when it is the first, and `10, 10` with the backup control when an episode in which the module intervened came before. -/
theorem C61_refuted :
    ∃ r1 t1, simulateEpisode (toySim 3) true 5 toyLatched () = some (.ok t1, r1, ()) ∧
    ∃ r2 t2, simulateEpisode (toySim 10) true 5 toyLatched () = some (.ok t2, r2, ()) ∧
      t2.states = [10, 11] ∧ t2.controls = [[0], [1]] ∧
    ∃ r3 t3, simulateEpisode (toySim 10) true 5 r1 () = some (.ok t3, r3, ()) ∧
      t3.states = [10, 10] ∧ t3.controls = [[0], [0]] :=
  ⟨_, _, rfl, _, _, rfl, rfl, rfl, _, _, rfl, rfl, rfl⟩

/-- `Q` relates conditions of the module that cannot be told apart by further calls. -/
structure Indistinct (sim : Sim K S P E R) (Q : R → R → Prop) : Prop where
  result : ∀ {r t}, Q r t → ∀ x u, (sim.filter t x sim.stepSize u).1 = (sim.filter r x sim.stepSize u).1
  keeps : ∀ {r t}, Q r t → ∀ x u, Q (sim.filter r x sim.stepSize u).2 (sim.filter t x sim.stepSize u).2
  flag : ∀ {r t}, Q r t → ∀ x u v, (sim.filter r x sim.stepSize u).1 = .ok v →
    sim.intervening (sim.filter t x sim.stepSize u).2 = sim.intervening (sim.filter r x sim.stepSize u).2
  constraints : ∀ {r t}, Q r t → sim.constraints t = sim.constraints r

theorem episodeLoop_indistinct [Add K] {sim : Sim K S P E R} {Q : R → R → Prop} (hQ : Indistinct sim Q) :
    ∀ (fuel : Nat) (r t : R) (x : S) (time : K) (rc : Record K S), Q r t →
    (episodeLoop sim fuel t x time rc).map Prod.fst = (episodeLoop sim fuel r x time rc).map Prod.fst := by
  intro fuel
  induction fuel with
  | zero => intros; rfl
  | succ fuel ih =>
    intro r t x time rc h
    have e1 := hQ.result h x (sim.desired x)
    have e2 := hQ.keeps h x (sim.desired x)
    have e3 := hQ.flag h x (sim.desired x)
    rw [episodeLoop, episodeLoop]
    rcases hr : sim.filter r x sim.stepSize (sim.desired x) with ⟨res, r1⟩
    rcases ht : sim.filter t x sim.stepSize (sim.desired x) with ⟨res', t1⟩
    rw [hr, ht] at e1 e2 e3
    simp only at e1 e2 e3
    subst e1
    cases res' with
    | error e => rfl
    | ok u =>
      simp only [e3 u rfl]
      split_ifs with hd
      · rfl
      · exact ih _ _ _ _ _ e2

/-- **C61, what holds.** If earlier episodes leave the module in a condition that calls cannot tell from the first one, the next episode
draws the same states and has the same record or exception as if it were the first. -/
theorem C61_indistinct_partial [Add K] [Zero K] [LT K] [DecidableLT K] {sim : Sim K S P E R} {Q : R → R → Prop}
    (hQ : Indistinct sim Q) {r t : R} (h : Q r t) (check : Bool) (fuel : Nat) (e : E) :
    (simulateEpisode sim check fuel t e).map (fun v => (v.1, v.2.2)) = (simulateEpisode sim check fuel r e).map fun v => (v.1, v.2.2) := by
  have hs : ∀ n e, sampleSafe sim t n e = sampleSafe sim r n e := by
    intro n
    induction n with
    | zero => intros; rfl
    | succ n ih => intro e; simp only [sampleSafe, hQ.constraints h, ih]
  unfold simulateEpisode
  rw [hs]
  rcases (if check = true then sampleSafe sim r 99 e else sim.getInitial e) with ⟨_ | x, e1⟩
  · rfl
  · have hl := episodeLoop_indistinct hQ fuel r t x 0 { states := [x], controls := [zeros sim.controlDim], interventions := [false] } h
    have conv : ∀ o : Option (Except PyErr (Record K S) × R),
        o.map ((fun v : Except PyErr (Record K S) × R × E => (v.1, v.2.2)) ∘ fun p => (p.1, p.2, e1)) =
          (o.map Prod.fst).map fun a => (a, e1) := by
      intro o; cases o <;> rfl
    refine (Option.map_map _ _ _).trans (((conv _).trans ?_).trans ((conv _).symm.trans (Option.map_map _ _ _).symm))
    rw [hl]

/-- The calls of a history. -/
def callsOnly (ops : List (AOp K S P)) : Prop := ∀ op ∈ ops, ∃ i dt u, op = .call i dt u

/-- **C61 for explicit optimisation modules.** An enabled explicit ASIF module keeps nothing between calls that could matter: after any
earlier calls - such as those of earlier episodes, including failed ones - an episode has the same record as if it were the first. -/
theorem C61_asif_partial {X : Type} [Field K] [LinearOrder K] [IsStrictOrderedRing K] [HasSqrt K] {solver : Solver K} {f : S → List K}
    {g : S → List (List K)} {s : ASIFObj K S P X} (hs : ExplicitModule solver f g s) (hen : s.enable = true)
    (past : List (AOp K S P)) (hpast : callsOnly past)
    (sim : Sim K S P E (ASIFObj K S P X)) (hf : sim.filter = fun r x dt u => explicitASIF solver f g r (.array x) dt u)
    (hi : sim.intervening = fun r => r.intervening) (hc : sim.constraints = fun r => r.constraints) (check : Bool) (fuel : Nat) (e : E) :
    (simulateEpisode sim check fuel (runE solver f g s past) e).map (fun v => (v.1, v.2.2)) =
      (simulateEpisode sim check fuel s e).map fun v => (v.1, v.2.2) := by
  obtain ⟨hinv, hnames⟩ := hs.inv
  have hQ : Indistinct sim fun r t => SameAS Eq r t ∧ r.enable = true ∧ ASIFInv r := by
    refine ⟨?_, ?_, ?_, ?_⟩
    · rintro r t ⟨h, hen, -⟩ x u
      rw [hf]
      exact (sameAS_call (genCong_explicit f g) (genFrame_explicit f g) solver h (.array x) sim.stepSize u).1
    · rintro r t ⟨h, hen, hinv⟩ x u
      rw [hf]
      have h' := explicit_after_call solver f g (directWF_of_inv hinv) (.array x) sim.stepSize u
      refine ⟨(sameAS_call (genCong_explicit f g) (genFrame_explicit f g) solver h (.array x) sim.stepSize u).2.1, ?_, ?_⟩
      · exact h'.enable.trans hen
      · exact asifInv_same h' hinv
    · rintro r t ⟨h, hen, -⟩ x u v hv
      rw [hf] at hv ⊢
      rw [hi]
      exact (sameAS_call (genCong_explicit f g) (genFrame_explicit f g) solver h (.array x) sim.stepSize u).2.2.1 hen v hv
    · rintro r t ⟨h, -⟩
      rw [hc]
      exact h.constraints
  refine C61_indistinct_partial hQ ⟨?_, hen, hinv⟩ check fuel e
  have key : ∀ (ops : List (AOp K S P)) (a : ASIFObj K S P X), callsOnly ops → ASIFInv a → ExplicitNames a →
      (runE solver f g a ops).constraints = a.constraints ∧ (runE solver f g a ops).ext.direct = a.ext.direct ∧
      (runE solver f g a ops).enable = a.enable := by
    intro ops
    induction ops with
    | nil => intro a _ _ _; exact ⟨rfl, rfl, rfl⟩
    | cons op ops ih =>
      intro a ho ha hn
      obtain ⟨i, dt, u, rfl⟩ := ho op (by simp)
      have h' := explicit_after_call solver f g (directWF_of_inv ha) i dt u
      obtain ⟨h1, h2, h3⟩ := ih (explicitASIF solver f g a i dt u).2 (fun op hop => ho op (by simp [hop])) (asifInv_same h' ha)
        (explicitNames_same h' hn)
      exact ⟨h1.trans h'.constraints, h2.trans h'.direct, h3.trans h'.enable⟩
  obtain ⟨k1, k2, k3⟩ := key past s hpast hinv hnames
  obtain ⟨i2, n2⟩ := inv_run solver f g past hinv hnames
  have s2 := static_run solver f g past hinv hnames
  exact ⟨s2.low, s2.high, k3, k1, hinv.wf, i2.wf, s2.epsilon, s2.controlDim, s2.exc, s2.slack, s2.weight, s2.act, k2, hinv.dnodup,
    hinv.dparams, hinv.denabled, i2.dparams, i2.denabled, by rw [s2.names, s2.extra]⟩

/-! ### C62 -/

/-- The value drawn for a component with the distribution `pdf` and the parameters `a`, `b` when the random source is in the condition
`e`, and the condition afterwards. -/
inductive DrawnFrom {K E : Type} (normal uniform : K → K → E → K × E) : String → K → K → E → K → E → Prop
  | gaussian (a b : K) (e : E) : DrawnFrom normal uniform "gaussian" a b e (normal a b e).1 (normal a b e).2
  | constant (a b : K) (e : E) : DrawnFrom normal uniform "constant" a b e a e
  | uniform (a b : K) (e : E) : DrawnFrom normal uniform "uniform" a b e (uniform a b e).1 (uniform a b e).2

/-- **C62.** A state drawn by a parametric module has `state_dim` components, component `i` drawn from the distribution declared for it
with the parameters declared for it, in order. -/
theorem C62_parametric (normal uniform : K → K → E → K × E) (pdfs : List String) (p q : List K) :
    ∀ (n i : Nat) (e e' : E) (x : List K), parametricInitial normal uniform pdfs p q i n e = (.ok x, e') →
    x.length = n ∧ ∃ es : Nat → E, es 0 = e ∧ es n = e' ∧ ∀ j < n, ∃ pdf a b v, pdfs[i + j]? = some pdf ∧ p[i + j]? = some a ∧
      q[i + j]? = some b ∧ x[j]? = some v ∧ DrawnFrom normal uniform pdf a b (es j) v (es (j + 1)) := by
  intro n
  induction n with
  | zero =>
    intro i e e' x h
    simp only [parametricInitial, Prod.mk.injEq, Except.ok.injEq] at h
    obtain ⟨rfl, rfl⟩ := h
    exact ⟨rfl, fun _ => e, rfl, rfl, by omega⟩
  | succ n ih =>
    intro i e e' x h
    rw [parametricInitial] at h
    rcases h1 : pdfs[i]? with _ | pdf
    · rw [h1] at h; simp at h
    rcases h2 : p[i]? with _ | a
    · rw [h1, h2] at h; simp at h
    rcases h3 : q[i]? with _ | b
    · rw [h1, h2, h3] at h; simp at h
    rw [h1, h2, h3] at h
    simp only at h
    rcases hd : (if pdf = "gaussian" then some (normal a b e) else if pdf = "constant" then some (a, e)
        else if pdf = "uniform" then some (uniform a b e) else none) with _ | ⟨v, e1⟩
    · rw [hd] at h; simp at h
    · rw [hd] at h
      simp only at h
      have hdrawn : DrawnFrom normal uniform pdf a b e v e1 := by
        split_ifs at hd with c1 c2 c3
        · subst c1; obtain ⟨rfl, rfl⟩ := Prod.mk.inj (Option.some.inj hd); exact .gaussian a b e
        · subst c2; obtain ⟨rfl, rfl⟩ := Prod.mk.inj (Option.some.inj hd); exact .constant a b e
        · subst c3; obtain ⟨rfl, rfl⟩ := Prod.mk.inj (Option.some.inj hd); exact .uniform a b e
      rcases hr : parametricInitial normal uniform pdfs p q (i + 1) n e1 with ⟨_ | l, e2⟩
      · rw [hr] at h; simp at h
      · rw [hr] at h
        simp only [Prod.mk.injEq, Except.ok.injEq] at h
        obtain ⟨rfl, rfl⟩ := h
        obtain ⟨hl, es, h0, hn, hj⟩ := ih _ _ _ _ hr
        refine ⟨by simp [hl], shift e es, rfl, hn, ?_⟩
        intro j hjn
        cases j with
        | zero => exact ⟨pdf, a, b, v, h1, h2, h3, rfl, by simpa [shift, h0] using hdrawn⟩
        | succ j =>
          obtain ⟨pdf, a, b, v, g1, g2, g3, g4, g5⟩ := hj j (by omega)
          rw [show i + 1 + j = i + (j + 1) by omega] at g1 g2 g3
          exact ⟨pdf, a, b, v, g1, g2, g3, by simpa using g4, g5⟩

/-- **C62, unknown distributions.** When some component within the dimension has an undeclared kind of distribution, and the tables are long
enough, `ValueError` is raised. -/
theorem C62_unknown (normal uniform : K → K → E → K × E) (pdfs : List String) (p q : List K) :
    ∀ (n i : Nat) (e : E), i + n ≤ pdfs.length → i + n ≤ p.length → i + n ≤ q.length →
    (∃ j < n, ∀ pdf, pdfs[i + j]? = some pdf → pdf ≠ "gaussian" ∧ pdf ≠ "constant" ∧ pdf ≠ "uniform") →
    ∃ msg e', parametricInitial normal uniform pdfs p q i n e = (.error (.valueError msg), e') := by
  intro n
  induction n with
  | zero => rintro i e - - - ⟨j, hj, -⟩; omega
  | succ n ih =>
    rintro i e l1 l2 l3 ⟨j, hj, hbad⟩
    rw [parametricInitial, List.getElem?_eq_getElem (by omega : i < pdfs.length), List.getElem?_eq_getElem (by omega : i < p.length),
      List.getElem?_eq_getElem (by omega : i < q.length)]
    simp only
    rcases hd : (if pdfs[i] = "gaussian" then some (normal p[i] q[i] e) else if pdfs[i] = "constant" then some (p[i], e)
        else if pdfs[i] = "uniform" then some (uniform p[i] q[i] e) else none) with _ | ⟨v, e1⟩
    · exact ⟨_, _, rfl⟩
    · simp only
      have hj0 : j ≠ 0 := by
        rintro rfl
        obtain ⟨g1, g2, g3⟩ := hbad pdfs[i] (List.getElem?_eq_getElem (by omega))
        rw [if_neg g1, if_neg g2, if_neg g3] at hd
        cases hd
      obtain ⟨j, rfl⟩ := Nat.exists_eq_succ_of_ne_zero hj0
      obtain ⟨msg, e', hm⟩ := ih (i + 1) e1 (by omega) (by omega) (by omega)
        ⟨j, by omega, by rw [show i + 1 + j = i + (j + 1) by omega]; exact hbad⟩
      rw [hm]
      exact ⟨_, _, rfl⟩

example : parametricInitial (K := Int) (E := Unit) (fun a _ e => (a + 1, e)) (fun _ b e => (b, e)) ["constant", "uniform", "gaussian"]
    [1, 2, 3] [4, 5, 6] 0 3 () = (.ok [1, 5, 4], ()) := rfl

/-! ### A concrete test module -/

/-- A plant `x + dt * u` over the rationals under the desired control 1, with a module that halves the control and never intervenes, the
constraint `x >= 0` (which takes a default parameter when `one` is true), step size 1/2 and time limit 1. The sampler returns
`-2, -1, 0, ...`. -/
def ratSim (one : Bool) : Sim Rat Rat Unit Nat Unit where
  getInitial := fun e => (.ok (e - 2), e + 1)
  pred := fun x dt u => x + dt * u.headD 0
  desired := fun _ => [1]
  done := defaultDone 1
  filter := fun r _ _ u => (.ok (u.map (· / 2)), r)
  intervening := fun _ => false
  constraints := fun _ => [("c", { computeFn := fun x _ => x, phiFn := fun x _ => x, gradFn := fun _ _ => [1], alpha := none
                                   alphaNeg := none, bias := 0, biasNegative := 0, slackPriorityScale := none, params := ()
                                   enabled := true, subsample := {} })]
  phi1 := if one then fun c x => .ok (c.phiFn x ()) else phiNoParams
  value1 := if one then fun c x => .ok (c.compute x ()) else phiNoParams
  stepSize := 1 / 2
  controlDim := 1

/-- C54, C55: the third draw is the first safe one; two steps reach the time limit. -/
example : (match simulateEpisode (ratSim false) true 5 () 0 with
    | some (.ok t, _, e) => decide (t.states = [0, 1 / 4, 1 / 2]) && decide (t.controls = [[0], [1 / 2], [1 / 2]]) &&
        decide (t.interventions = [false, false, false]) && decide (e = 3)
    | _ => false) = true := by decide +kernel

/-- C56: the same test with the constraints of the repository and with constraints that accept the call. -/
example : ∃ msg, runSampleTest (ratSim false) 5 5 2 () 0 [] = some (.error (.typeError msg), (), 1) :=
  C56_refuted (ratSim false) rfl () (by simp [ratSim]) 0 1 _ rfl 2 5 5 (by omega) (by omega)

example : OneArgument (ratSim true) (fun c x => c.phiFn x ()) (fun c x => c.compute x ()) := ⟨fun _ _ => rfl, fun _ _ => rfl⟩

example : (runSampleTest (ratSim true) 5 5 2 () 0 []).map (fun v => (v.1.toOption, v.2.2)) = some (some [(true, 0), (true, 1)], 4) := by
  decide +kernel

end RTA
