import Verif.Lemmas.LatinHypercube
import Verif.Props.SampleTesting
import Verif.Props.Zoo.Docking

/-! Latin hypercube tests (C89), the test modules of the docking zoo (C56) and `run_one_step` (C54). -/
namespace RTA
variable {K S P E R : Type}

/-! ### C89 -/

section
variable [Field K] [LinearOrder K] [IsStrictOrderedRing K]

/-- **C89, construction.** With consistent bounds and at least one row, construction succeeds; the table has `n_points * multiplier` rows,
all of them in the box, and in every column each of the `n_points * multiplier` equal slices of the interval contains an entry. -/
theorem C89_table {sampler : Nat → Nat → List (List K)} (hsam : LatinSampler sampler) {n m d : Nat} (hnm : 0 < n * m)
    {lower upper : List K} (hl : lower.length = d) (hu : upper.length = d)
    (hlt : ∀ (i : Nat) (a b : K), lower[i]? = some a → upper[i]? = some b → a < b) :
    ∃ table, latinInit sampler n m d lower upper = .ok table ∧ table.length = n * m ∧ (∀ row ∈ table, InBox lower upper row) ∧
      ∀ (i : Nat) (a b : K), lower[i]? = some a → upper[i]? = some b → CoversSlices (n * m) a b (column i table) := by
  have hne : sampler (n * m) d ≠ [] := by
    intro h
    have := hsam.rows (n * m) d
    rw [h, List.length_nil] at this
    omega
  have hall : ((sampler (n * m) d).all fun r => r.all fun v => decide (0 ≤ v) && decide (v ≤ 1)) = true := by
    simp only [List.all_eq_true, Bool.and_eq_true, decide_eq_true_eq]
    exact fun r hr v hv => hsam.unit _ _ r hr v hv
  have hzip : ((lower.zip upper).all fun p => decide (p.1 < p.2)) = true := by
    simp only [List.all_eq_true, decide_eq_true_eq]
    intro p hp
    obtain ⟨i, hi⟩ := List.mem_iff_getElem?.1 hp
    rw [List.getElem?_zip_eq_some] at hi
    exact hlt i _ _ hi.1 hi.2
  refine ⟨(sampler (n * m) d).map fun r => scaleRow r lower upper, ?_, by simp [hsam.rows], ?_, ?_⟩
  · unfold latinInit qmcScale
    rw [if_neg hne, if_pos hall]
    simp only [broadcastRow, hl, hu, if_true]
    rw [if_pos hzip]
  · intro row hrow
    obtain ⟨r, hr, rfl⟩ := List.mem_map.1 hrow
    have hw := hsam.width _ _ r hr
    refine ⟨scaleRow_length _ _ _ (hw.trans hl.symm) (hu.trans hl.symm), fun i a b v ha hb hv => ?_⟩
    have hi : i < r.length := by
      rw [hw, ← hl]
      exact (List.getElem?_eq_some_iff.1 ha).1
    have hri : r[i]? = some r[i] := List.getElem?_eq_getElem hi
    rw [scaleRow_get _ _ _ _ _ _ _ hri ha hb] at hv
    simp only [Option.some.injEq] at hv
    obtain ⟨h0, h1⟩ := hsam.unit _ _ r hr r[i] (List.getElem_mem hi)
    have hab := hlt i a b ha hb
    subst hv
    constructor <;> nlinarith
  · intro i a b ha hb k hk
    have hid : i < d := by rw [← hl]; exact (List.getElem?_eq_some_iff.1 ha).1
    obtain ⟨v, hv, h0, h1⟩ := hsam.covers (n * m) d i hid k hk
    unfold column at hv
    obtain ⟨r, hr, hrv⟩ := List.mem_filterMap.1 hv
    have hab := hlt i a b ha hb
    refine ⟨v * (b - a) + a, ?_, ?_, ?_⟩
    · exact List.mem_filterMap.2 ⟨_, List.mem_map.2 ⟨r, hr, rfl⟩, scaleRow_get _ _ _ _ _ _ _ hrv ha hb⟩
    · have : (k : K) / ((n * m : Nat) : K) ≤ v := by linarith
      nlinarith
    · have : v ≤ ((k : K) + 1) / ((n * m : Nat) : K) := by linarith
      nlinarith

omit [IsStrictOrderedRing K] in
/-- **C89, inconsistent bounds.** A lower bound that is not below its upper bound, or no rows at all, is reported by `ValueError` at
construction. -/
theorem C89_bad_bounds {sampler : Nat → Nat → List (List K)} (hsam : LatinSampler sampler) (n m d : Nat) {lower upper : List K}
    (hl : lower.length = d) (hu : upper.length = d)
    (hbad : n * m = 0 ∨ ∃ (i : Nat) (a b : K), lower[i]? = some a ∧ upper[i]? = some b ∧ b ≤ a) :
    ∃ msg, latinInit sampler n m d lower upper = .error (.valueError msg) := by
  unfold latinInit qmcScale
  by_cases hne : sampler (n * m) d = []
  · exact ⟨_, by rw [if_pos hne]⟩
  · have hall : ((sampler (n * m) d).all fun r => r.all fun v => decide (0 ≤ v) && decide (v ≤ 1)) = true := by
      simp only [List.all_eq_true, Bool.and_eq_true, decide_eq_true_eq]
      exact fun r hr v hv => hsam.unit _ _ r hr v hv
    rcases hbad with h0 | ⟨i, a, b, ha, hb, hab⟩
    · exact absurd (List.eq_nil_of_length_eq_zero ((hsam.rows (n * m) d).trans h0)) hne
    · have hzip : ¬ ((lower.zip upper).all fun p => decide (p.1 < p.2)) = true := by
        intro h
        simp only [List.all_eq_true, decide_eq_true_eq] at h
        have := h (a, b) (List.mem_of_getElem? (List.getElem?_zip_eq_some.2 ⟨ha, hb⟩))
        exact absurd this (not_lt.2 hab)
      rw [if_neg hne, if_pos hall]
      simp only [broadcastRow, hl, hu, if_true]
      rw [if_neg hzip]
      exact ⟨_, rfl⟩

end

section
variable [Add K] [Zero K] [LT K] [DecidableLT K]

/-- **C89, the starts are rows of the table.** Whatever the module, the plant and the constraints, a test run that returns reports
`n_points` rows, and their starting states are (transformed) rows of the table in order, each row used at most once. With `C89_table`
they are in the box when `_transform_state` is the default. -/
theorem C89_starts (sim : Sim K S P Nat R) {table : List S} (hs : sim.getInitial = latinInitial table) (fuel tries n : Nat) (r r' : R)
    (e' : Nat) (rows : List (Bool × S)) (h : runSampleTest sim fuel tries n r 0 [] = some (.ok rows, r', e')) :
    rows.length = n ∧ List.Sublist (rows.map Prod.snd) (table.map sim.transform) := by
  obtain ⟨new, rfl, hlen, hsub⟩ := latin_run hs fuel tries n r r' 0 e' [] rows h
  exact ⟨hlen, by simpa using hsub⟩

end

/-- **C89 for `multiplier = 1`.** A test run that returns has used every row of the table, so each of the `n_points` equal slices of the
interval of every component contains a reported starting state. What is missing from C89 is a larger multiplier, for which it is
false (`C89_refuted`); with `multiplier = 1` a single unsafe row makes the run fail (`C89_runs_out`). -/
theorem C89_covers_partial [Field K] [LinearOrder K] [IsStrictOrderedRing K] {sampler : Nat → Nat → List (List K)}
    (hsam : LatinSampler sampler) {n d : Nat} (hn : 0 < n) {lower upper : List K} (hl : lower.length = d) (hu : upper.length = d)
    (hlt : ∀ (i : Nat) (a b : K), lower[i]? = some a → upper[i]? = some b → a < b) {table : List (List K)}
    (hinit : latinInit sampler n 1 d lower upper = .ok table) (sim : Sim K (List K) P Nat R)
    (hs : sim.getInitial = latinInitial table) (htr : sim.transform = id) (fuel tries : Nat) (r r' : R) (e' : Nat)
    (rows : List (Bool × List K)) (h : runSampleTest sim fuel tries n r 0 [] = some (.ok rows, r', e')) :
    rows.map Prod.snd = table ∧ (∀ row ∈ rows, InBox lower upper row.2) ∧
      ∀ (i : Nat) (a b : K), lower[i]? = some a → upper[i]? = some b → CoversSlices n a b (column i (rows.map Prod.snd)) := by
  obtain ⟨t, ht, hlen, hbox, hcov⟩ := C89_table hsam (n := n) (m := 1) (by omega) hl hu hlt
  rw [hinit] at ht
  obtain rfl : table = t := Except.ok.inj ht
  obtain ⟨hr, hsub⟩ := C89_starts sim hs fuel tries n r r' e' rows h
  rw [htr, List.map_id] at hsub
  have heq : rows.map Prod.snd = table := hsub.eq_of_length (by rw [List.length_map, hr, hlen]; omega)
  refine ⟨heq, fun row hrow => hbox _ (heq ▸ List.mem_map_of_mem hrow), fun i a b ha hb => ?_⟩
  rw [heq]
  have := hcov i a b ha hb
  rwa [Nat.mul_one] at this

open Classical in
/-- **C89, when the table suffices.** Suppose the constraints can be called without `params`, every episode returns, and episodes do not
change the set of constraints (`Inv`). The test run returns exactly when at least `n_points` rows of the table satisfy every constraint;
the reported starts are then the first `n_points` of those rows. Otherwise it raises `IndexError` and reports nothing. -/
theorem C89_runs_out [Field K] [LinearOrder K] {sim : Sim K S P Nat R} {phi val : Constraint K S P → S → K}
    (h1 : OneArgument sim phi val) {table : List S} (hs : sim.getInitial = latinInitial table) {fuel tries : Nat} {Inv : R → Prop}
    {cs : Dict (Constraint K S P)} (hcs : ∀ r, Inv r → sim.constraints r = cs)
    (hret : ∀ r x, Inv r → ∃ b r', assureLoop sim fuel r x 0 = some (.ok b, r') ∧ Inv r') (ht : table.length < tries) (n : Nat) (r : R)
    (hr : Inv r) :
    let starts := (table.filter fun x =>
      decide (∀ p ∈ cs, 0 ≤ phi p.2 (sim.transform x) ∧ 0 ≤ val p.2 (sim.transform x))).map sim.transform
    (n ≤ starts.length → ∃ rows r' e', runSampleTest sim fuel tries n r 0 [] = some (.ok rows, r', e') ∧
      rows.map Prod.snd = starts.take n) ∧
    (starts.length < n → ∃ r' e', runSampleTest sim fuel tries n r 0 [] = some (.error .indexError, r', e')) := by
  intro starts
  let safe := fun x => decide (∀ p ∈ cs, 0 ≤ phi p.2 (sim.transform x) ∧ 0 ≤ val p.2 (sim.transform x))
  suffices H : ∀ (n : Nat) (r : R) (e : Nat) (acc : List (Bool × S)), Inv r →
      (n ≤ ((table.drop e).filter safe).length → ∃ new r' e', runSampleTest sim fuel tries n r e acc = some (.ok (acc ++ new), r', e') ∧
        new.map Prod.snd = (((table.drop e).filter safe).map sim.transform).take n) ∧
      (((table.drop e).filter safe).length < n → ∃ r' e', runSampleTest sim fuel tries n r e acc = some (.error .indexError, r', e')) by
    obtain ⟨ha, hb⟩ := H n r 0 [] hr
    simp only [List.drop_zero] at ha hb
    refine ⟨fun h => ?_, fun h => hb ?_⟩
    · obtain ⟨new, r', e', h2, h3⟩ := ha (by simpa [starts, safe] using h)
      exact ⟨new, r', e', by simpa using h2, h3⟩
    · simpa [starts, safe] using h
  intro n
  induction n with
  | zero =>
    intro r e acc hr
    exact ⟨fun _ => ⟨[], r, e, by simp [runSampleTest], by simp⟩, fun h => absurd h (by omega)⟩
  | succ n ih =>
    intro r e acc hr
    obtain ⟨hp1, hp2⟩ := latin_point_total h1 hs hcs hret (table.drop e) e tries r rfl
      (lt_of_le_of_lt (by simp) ht) hr
    rcases hf : (table.drop e).filter safe with _ | ⟨y, ys⟩
    · obtain ⟨e', ho⟩ := hp1 hf
      refine ⟨fun h => by simp at h, fun _ => ⟨r, e', ?_⟩⟩
      rw [runSampleTest, ho]
    · obtain ⟨b, r1, e1, ho, hr1, hys⟩ := hp2 y ys hf
      obtain ⟨ha, hb⟩ := ih r1 e1 (acc ++ [(b, sim.transform y)]) hr1
      have hys' : (table.drop e1).filter safe = ys := hys
      rw [hys'] at ha hb
      refine ⟨fun h => ?_, fun h => ?_⟩
      · obtain ⟨new, r', e', h2, h3⟩ := ha (by simpa using h)
        refine ⟨(b, sim.transform y) :: new, r', e', ?_, by simp [h3]⟩
        rw [runSampleTest, ho]
        simpa using h2
      · obtain ⟨r', e', h2⟩ := hb (by simpa using h)
        exact ⟨r', e', by rw [runSampleTest, ho]; exact h2⟩

/-! ### A sampler, and a test run that leaves half of the box untested -/

/-- The middle points of the slices, in increasing order: a possible outcome of Latin hypercube sampling. -/
def midSampler {K : Type} [Field K] (n d : Nat) : List (List K) :=
  (List.range n).map fun k : Nat => List.replicate d (((k : K) + 1 / 2) / n)

theorem midSampler_latin [Field K] [LinearOrder K] [IsStrictOrderedRing K] : LatinSampler (midSampler (K := K)) := by
  have hpos : ∀ n k : Nat, k < n → (0 : K) < n := fun n k h => by exact_mod_cast (by omega : 0 < n)
  refine ⟨fun n d => by simp [midSampler], fun n d r hr => ?_, fun n d r hr v hv => ?_, fun n d i hi k hk => ?_⟩
  · obtain ⟨k, -, rfl⟩ := List.mem_map.1 hr
    simp
  · obtain ⟨k, hk, rfl⟩ := List.mem_map.1 hr
    obtain ⟨-, rfl⟩ := List.mem_replicate.1 hv
    have hk' := List.mem_range.1 hk
    have h0 := hpos n k hk'
    have h1 : (k : K) + 1 ≤ n := by exact_mod_cast hk'
    have h2 : (0 : K) ≤ k := Nat.cast_nonneg k
    exact ⟨div_nonneg (by linarith) h0.le, (div_le_one h0).2 (by linarith)⟩
  · refine ⟨((k : K) + 1 / 2) / n, ?_, ?_, ?_⟩
    · refine List.mem_filterMap.2 ⟨List.replicate d (((k : K) + 1 / 2) / n), List.mem_map.2 ⟨k, List.mem_range.2 hk, rfl⟩, ?_⟩
      simp [hi]
    · have h0 := hpos n k hk
      simp only [sub_zero, mul_one, zero_add]
      exact (div_le_div_iff_of_pos_right h0).2 (by linarith)
    · have h0 := hpos n k hk
      simp only [sub_zero, mul_one, zero_add]
      exact (div_le_div_iff_of_pos_right h0).2 (by linarith)

/-- A one-dimensional test: the plant stays where it is, the module returns the desired control, the constraint `x >= 0` can be called
without `params`. -/
def boxSim (table : List (List Rat)) : Sim Rat (List Rat) Unit Nat Unit where
  getInitial := latinInitial table
  pred := fun x _ _ => x
  desired := defaultDesired 1
  done := defaultDone 1
  filter := fun r _ _ u => (.ok u, r)
  intervening := fun _ => false
  constraints := fun _ => [("c", { computeFn := fun x _ => x.headD 0, phiFn := fun x _ => x.headD 0, gradFn := fun _ _ => [1]
                                   alpha := none, alphaNeg := none, bias := 0, biasNegative := 0, slackPriorityScale := none
                                   params := (), enabled := true, subsample := {} })]
  phi1 := fun c x => .ok (c.phiFn x ())
  value1 := fun c x => .ok (c.compute x ())
  stepSize := 1
  controlDim := 1

/-- **C89 is false for `multiplier > 1`.** Two test cases, `multiplier = 2`, the box `[0, 1]`, every state safe: the run reports the first two
of the four rows of the table, which may both be in the lower half. The upper half of the box is not tested. -/
theorem C89_refuted :
    latinInit (K := Rat) midSampler 2 2 1 [0] [1] = .ok [[1 / 8], [3 / 8], [5 / 8], [7 / 8]] ∧
    runSampleTest (boxSim [[1 / 8], [3 / 8], [5 / 8], [7 / 8]]) 5 5 2 () 0 [] =
      some (.ok [(true, [1 / 8]), (true, [3 / 8])], (), 2) ∧
    ¬ CoversSlices 2 (0 : Rat) 1 (column 0 [[1 / 8], [3 / 8]]) := by
  refine ⟨by decide +kernel, by decide +kernel, fun h => ?_⟩
  obtain ⟨v, hv, h1, -⟩ := h 1 (by omega)
  simp only [column, List.filterMap_cons, List.getElem?_cons_zero, List.filterMap_nil, List.mem_cons, List.not_mem_nil, or_false] at hv
  rcases hv with rfl | rfl <;> norm_num at h1

/-- The hypotheses of `C89_covers_partial`, `C89_starts` and `C89_runs_out` hold in `boxSim`. -/
example : latinInit (K := Rat) midSampler 2 1 1 [0] [1] = .ok [[1 / 4], [3 / 4]] ∧
    runSampleTest (boxSim [[1 / 4], [3 / 4]]) 5 5 2 () 0 [] = some (.ok [(true, [1 / 4]), (true, [3 / 4])], (), 2) :=
  ⟨by decide +kernel, by decide +kernel⟩

example : runSampleTest (boxSim [[-1], [1 / 4], [-1]]) 5 5 2 () 0 [] = some (.error .indexError, (), 3) := by decide +kernel

example (table : List (List Rat)) : OneArgument (boxSim table) (fun c x => c.phiFn x ()) (fun c x => c.compute x ()) :=
  ⟨fun _ _ => rfl, fun _ _ => rfl⟩

example (table : List (List Rat)) (r : Unit) (x : List Rat) :
    ∃ b r', assureLoop (boxSim table) 5 r x 0 = some (.ok b, r') ∧ True := by
  by_cases hx : x.head?.getD 0 < 0
  · exact ⟨false, (), by simp [assureLoop, boxSim, stepUnsafe, hx], trivial⟩
  · exact ⟨true, (), by simp [assureLoop, boxSim, stepUnsafe, hx, defaultDone], trivial⟩

/-! ### C54: `run_one_step` -/

/-- **C54, `run_one_step`.** It is the first step of an episode without initial check: if the episode returns, `run_one_step` returns too,
draws the same state and leaves the module with the recorded intervention flag. -/
theorem C54_one_step [Add K] [Zero K] [LT K] [DecidableLT K] (sim : Sim K S P E R) (fuel : Nat) (r r' : R) (e e' : E) (t : Record K S)
    (h : simulateEpisode sim false fuel r e = some (.ok t, r', e')) :
    ∃ r1, runOneStep sim r e = (.ok (), r1, e') ∧ t.interventions[1]? = some (sim.intervening r1) := by
  have hext : ∀ (fuel : Nat) (r r' : R) (x : S) (time : K) (t t' : Record K S) (b : Bool),
      episodeLoop sim fuel r x time t = some (.ok t', r') → t.interventions[1]? = some b → t'.interventions[1]? = some b := by
    intro fuel
    induction fuel with
    | zero => intro r r' x time t t' b h; simp [episodeLoop] at h
    | succ fuel ih =>
      intro r r' x time t t' b h hb
      rw [episodeLoop] at h
      rcases hf : sim.filter r x sim.stepSize (sim.desired x) with ⟨er | u, r1⟩
      · rw [hf] at h; simp at h
      · rw [hf] at h
        simp only at h
        have hb' : (t.interventions ++ [sim.intervening r1])[1]? = some b := by
          rw [List.getElem?_append_left (List.getElem?_eq_some_iff.1 hb).1]; exact hb
        by_cases hd : sim.done (sim.pred x sim.stepSize u) (time + sim.stepSize) = true
        · rw [if_pos hd] at h
          simp only [Option.some.injEq, Prod.mk.injEq, Except.ok.injEq] at h
          rw [← h.1]; exact hb'
        · rw [if_neg hd] at h
          exact ih _ _ _ _ _ _ _ h hb'
  unfold simulateEpisode at h
  rw [if_neg (by simp)] at h
  unfold runOneStep
  rcases hg : sim.getInitial e with ⟨er | x, e1⟩
  · rw [hg] at h; simp at h
  · rw [hg] at h
    simp only at h ⊢
    cases fuel with
    | zero => simp [episodeLoop] at h
    | succ fuel =>
      rw [episodeLoop] at h
      rcases hf : sim.filter r x sim.stepSize (sim.desired x) with ⟨er | u, r1⟩
      · rw [hf] at h; simp at h
      · rw [hf] at h
        simp only at h ⊢
        by_cases hd : sim.done (sim.pred x sim.stepSize u) (0 + sim.stepSize) = true
        · rw [if_pos hd] at h
          simp only [Option.map_some, Option.some.injEq, Prod.mk.injEq, Except.ok.injEq] at h
          obtain ⟨rfl, -, rfl⟩ := h
          exact ⟨r1, rfl, rfl⟩
        · rw [if_neg hd] at h
          rcases hl : episodeLoop sim fuel r1 (sim.pred x sim.stepSize u) (0 + sim.stepSize)
            { states := [x] ++ [sim.pred x sim.stepSize u], controls := [zeros sim.controlDim] ++ [u]
              interventions := [false] ++ [sim.intervening r1] } with _ | ⟨res, r2⟩
          · rw [hl] at h; simp at h
          · rw [hl] at h
            simp only [Option.map_some, Option.some.injEq, Prod.mk.injEq] at h
            obtain ⟨rfl, -, rfl⟩ := h
            exact ⟨r1, rfl, hext _ _ _ _ _ _ _ _ hl rfl⟩

/-! ### C56: the test modules of the docking zoo -/

/-- **C56 is false for the docking tests as shipped.** `Docking2DLatinHypercubeRandomSampleTest` with its default module, bounds, 100
points and multiplier 3 is constructed, and `run_sample_test` raises `TypeError` at the first point, whatever the sampler, the plant and
the solver. -/
theorem C56_refuted_docking_latin [HasSqrt ℝ] (solver : Solver ℝ) (step : List ℝ → ℝ → List ℝ → List ℝ)
    {sampler : Nat → Nat → List (List ℝ)} (hsam : LatinSampler sampler) (n v0 v1Coef v0Distance epsilon m : ℝ) (exc : Bool)
    (fuel tries : Nat) (ht : 0 < tries) :
    ∃ table r0, latinInit sampler 100 3 4 [-10000, -10000, -5, -5] [10000, 10000, 5, 5] = .ok table ∧ table.length = 300 ∧
      dock2ASIF n v0 v1Coef v0Distance 10 10 (some (.scalar 1)) (some (.scalar (-1))) epsilon exc = .ok r0 ∧
      ∃ msg, runSampleTest (dockLatinSim step (fun r x dt u => explicitASIF solver (dockF2 n) (dockG2 m) r (.array x) dt u)
        (fun r => r.intervening) (fun r => r.constraints) 100 1 2 table) fuel tries 100 r0 0 [] =
        some (.error (.typeError msg), r0, 1) := by
  obtain ⟨table, h1, h2, -, -⟩ := C89_table hsam (n := 100) (m := 3) (d := 4) (lower := [-10000, -10000, -5, -5])
    (upper := [10000, 10000, 5, 5]) (by omega) rfl rfl (by
      intro i a b ha hb
      rcases i with _ | _ | _ | _ | i <;> simp at ha hb <;> subst ha hb <;> norm_num)
  obtain ⟨x, hx⟩ : ∃ x, table[0]? = some x := ⟨table[0], List.getElem?_eq_getElem (by omega)⟩
  refine ⟨table, _, h1, h2, rfl, ?_⟩
  refine C56_refuted _ rfl _ ?_ 0 1 x ?_ 100 fuel tries (by omega) ht
  · exact List.cons_ne_nil _ _
  · simp [dockLatinSim, latinInitial, hx]

/-- A sampler over the reals that meets the hypothesis. -/
example : LatinSampler (midSampler (K := ℝ)) := midSampler_latin

/-- The same for `Docking2DParametricRandomSampleTest` with its default distributions. -/
theorem C56_refuted_docking_parametric [HasSqrt ℝ] (solver : Solver ℝ) (step : List ℝ → ℝ → List ℝ → List ℝ) {E : Type}
    (normal uniform : ℝ → ℝ → E → ℝ × E) (e : E) (n v0 v1Coef v0Distance epsilon m : ℝ) (exc : Bool)
    (fuel tries : Nat) (ht : 0 < tries) :
    ∃ r0 e1, dock2ASIF n v0 v1Coef v0Distance 10 10 (some (.scalar 1)) (some (.scalar (-1))) epsilon exc = .ok r0 ∧
      ∃ msg, runSampleTest (dockParamSim step (fun r x dt u => explicitASIF solver (dockF2 n) (dockG2 m) r (.array x) dt u)
        (fun r => r.intervening) (fun r => r.constraints) 100 1 2 4 normal uniform ["gaussian", "gaussian", "gaussian", "gaussian"]
        [0, 0, 0, 0] [5000, 5000, 2, 2]) fuel tries 100 r0 e [] = some (.error (.typeError msg), r0, e1) := by
  refine ⟨_, (normal 0 2 (normal 0 2 (normal 0 5000 (normal 0 5000 e).2).2).2).2, rfl, ?_⟩
  refine C56_refuted _ rfl _ ?_ e _ [(normal 0 5000 e).1, (normal 0 5000 (normal 0 5000 e).2).1,
    (normal 0 2 (normal 0 5000 (normal 0 5000 e).2).2).1, (normal 0 2 (normal 0 2 (normal 0 5000 (normal 0 5000 e).2).2).2).1] ?_
    100 fuel tries (by omega) ht
  · exact List.cons_ne_nil _ _
  · simp [dockParamSim, parametricInitial]

end RTA
