import Verif.Lemmas.Zoo.InspectionDiscrete

/-!
C79: the discrete-time module of the 1v1 inspection problem.
-/
namespace RTA
open Real

/-! ### What holds at every sample -/

/-- The farthest the maximum distance constraint lets the deputy be, moving back at the largest speed. -/
noncomputable def InspConfig.reach (c : InspConfig) : ℝ := c.rMax + 3 * c.velLimit ^ 2 / (2 * c.aMax)

/-- An upper bound for the values of the two distance constraints. -/
noncomputable def InspConfig.largest (c : InspConfig) : ℝ := √(2 * c.aMax * c.reach) + √3 * c.velLimit

/-- Step sizes small enough for the strengtheners of the module. -/
structure StepOK (c : InspConfig) (dt : ℝ) : Prop where
  pos : 0 < dt
  axis : dt * (1 / 10 + 1 / 100 * (c.velLimit ^ 2) ^ 2) ≤ 1
  speed : dt * (1 / 100 + 1 / 1000 * (c.v0 + c.v1Coef * c.n * (c.reach + 1)) ^ 2) ≤ 1
  distance : dt * (1 / 100 + 1 / 1000 * c.largest ^ 2) ≤ 1

/-- Configurations the guarantees are for. -/
structure DiscConfigOK (c : InspConfig) : Prop where
  aMax : 0 < c.aMax
  radius : 0 ≤ c.radius
  rMax : 0 ≤ c.rMax
  velLimit : 0 ≤ c.velLimit
  v1 : 0 ≤ c.v1Coef * c.n
  v0Distance : 0 ≤ c.v0Distance

/-- The deputy respects the limits at a sample: velocity per axis, speed, distance and collision constraint. -/
structure SampleSafe (c : InspConfig) (x : List ℝ) : Prop where
  axis : ∀ i < 3, comp x (i + 3) ^ 2 ≤ c.velLimit ^ 2 - 1 / 1000
  speed : 1 / 1000 ≤ relativeVelocity 3 c.v0 (c.v1Coef * c.n) c.v0Distance (1 / 100000) x
  distance : ∃ h, maxDistance c.rMax c.aMax x = some h ∧ 1 / 1000 ≤ h
  collision : ∃ h, chiefCollision c.radius c.aMax x = some h ∧ 0 ≤ h

/-- **C79, distance.** A deputy that respects the limits is within the maximum distance, or within the braking distance of its largest
speed beyond it. -/
theorem C79_distance {c : InspConfig} (hc : DiscConfigOK c) {x : List ℝ} (hx : x.length = 8) (h0 : norm2 (pySlice x 0 3) ≠ 0)
    (h : SampleSafe c x) : norm2 (pySlice x 0 3) ≤ c.rMax + 3 * c.velLimit ^ 2 / (2 * c.aMax) := by
  obtain ⟨v, hv, hle⟩ := h.distance
  rw [dist_value hc.aMax.le h0] at hv
  cases hv
  have hpos : 0 ≤ 3 * c.velLimit ^ 2 / (2 * c.aMax) := by have := hc.aMax; positivity
  by_cases hr : norm2 (pySlice x 0 3) ≤ c.rMax
  · linarith
  rw [if_neg hr] at hle
  have h1 := (abs_le.1 (radial_le hx h0)).1
  have h2 := speed_le hx hc.velLimit fun i hi => le_trans (h.axis i hi) (by linarith)
  have h3 : √(2 * c.aMax * (norm2 (pySlice x 0 3) - c.rMax)) ≤ √3 * c.velLimit := by linarith
  have h4 := pow_le_pow_left₀ (sqrt_nonneg _) h3 2
  rw [mul_pow, sq_sqrt (show (0 : ℝ) ≤ 3 by norm_num), sq_sqrt (mul_nonneg (by linarith [hc.aMax]) (by linarith [not_le.1 hr]))] at h4
  rw [← sub_le_iff_le_add', le_div_iff₀ (by linarith [hc.aMax])]
  linarith

/-- **C79, collision.** A deputy that respects the limits is outside the collision sphere, or inside it and leaving at least as fast as the
braking speed of its depth. -/
theorem C79_collision {c : InspConfig} (hc : DiscConfigOK c) {x : List ℝ} (h0 : norm2 (pySlice x 0 3) ≠ 0) (h : SampleSafe c x) :
    c.chiefRadius + c.deputyRadius ≤ norm2 (pySlice x 0 3) ∨
      √(2 * c.aMax * (c.chiefRadius + c.deputyRadius - norm2 (pySlice x 0 3))) ≤
        dot (pySlice x 0 3) (pySlice x 3 6) / norm2 (pySlice x 0 3) := by
  obtain ⟨v, hv, hle⟩ := h.collision
  rw [coll_value hc.aMax.le h0] at hv
  cases hv
  by_cases hr : c.radius ≤ norm2 (pySlice x 0 3)
  · exact Or.inl hr
  · rw [if_neg hr] at hle
    refine Or.inr ?_
    change √(2 * c.aMax * (c.radius - norm2 (pySlice x 0 3))) ≤ _
    linarith

section
variable {c : InspConfig} {x : List ℝ}

theorem dC_collision (hc : DiscConfigOK c) (h0 : norm2 (pySlice x 0 3) ≠ 0) :
    (∃ h, chiefCollision c.radius c.aMax x = some h ∧ 0 ≤ h) ↔ 0 ≤ hval (dC c .coll).2 x := by
  obtain ⟨v, hv⟩ : ∃ v, chiefCollision c.radius c.aMax x = some v := ⟨_, coll_value hc.aMax.le h0⟩
  have : hval (dC c .coll).2 x = v := by
    show (chiefCollision c.radius c.aMax x).getD 0 + 0 = v
    rw [hv]; simp
  rw [this, hv]
  simp

theorem dC_distance (hc : DiscConfigOK c) (h0 : norm2 (pySlice x 0 3) ≠ 0) :
    (∃ h, maxDistance c.rMax c.aMax x = some h ∧ 1 / 1000 ≤ h) ↔ 0 ≤ hval (dC c .rmax).2 x := by
  obtain ⟨v, hv⟩ : ∃ v, maxDistance c.rMax c.aMax x = some v := ⟨_, dist_value hc.aMax.le h0⟩
  have : hval (dC c .rmax).2 x = v + -(1 / 1000) := by
    show (maxDistance c.rMax c.aMax x).getD 0 + -(1 / 1000) = _
    rw [hv]; rfl
  rw [this, hv]
  simp

/-- In terms of the values of the constraints. -/
theorem safe_iff (hc : DiscConfigOK c) (h0 : norm2 (pySlice x 0 3) ≠ 0) :
    SampleSafe c x ↔ ∀ k ∈ [InspIx.vx, .vy, .vz, .rel, .rmax, .coll], 0 ≤ hval (dC c k).2 x := by
  have hax : ∀ i k, (k, i) ∈ [(InspIx.vx, 0), (.vy, 1), (.vz, 2)] →
      (0 ≤ hval (dC c k).2 x ↔ comp x (i + 3) ^ 2 ≤ c.velLimit ^ 2 - 1 / 1000) := by
    intro i k hk
    simp only [List.mem_cons, Prod.mk.injEq, List.mem_nil_iff, or_false] at hk
    rcases hk with ⟨rfl, rfl⟩ | ⟨rfl, rfl⟩ | ⟨rfl, rfl⟩ <;>
    · show 0 ≤ c.velLimit ^ 2 - comp x _ ^ 2 + -(1 / 1000) ↔ _
      constructor <;> intro h <;> linarith
  have hrel : 0 ≤ hval (dC c .rel).2 x ↔ 1 / 1000 ≤ relativeVelocity 3 c.v0 (c.v1Coef * c.n) c.v0Distance (1 / 100000) x := by
    show 0 ≤ relativeVelocity 3 c.v0 (c.v1Coef * c.n) c.v0Distance (1 / 100000) x + -(1 / 1000) ↔ _
    constructor <;> intro h <;> linarith
  simp only [List.mem_cons, List.mem_nil_iff, or_false, forall_eq_or_imp, forall_eq, hax 0 .vx (by simp), hax 1 .vy (by simp),
    hax 2 .vz (by simp), hrel, ← dC_distance hc h0, ← dC_collision hc h0]
  constructor
  · exact fun h => ⟨h.axis 0 (by norm_num), h.axis 1 (by norm_num), h.axis 2 (by norm_num), h.speed, h.distance, h.collision⟩
  · rintro ⟨h1, h2, h3, h4, h5, h6⟩
    refine ⟨fun i hi => ?_, h4, h5, h6⟩
    interval_cases i
    · exact h1
    · exact h2
    · exact h3

/-- How large the values can be. -/
theorem safe_bound (hc : DiscConfigOK c) (hx : x.length = 8) (h0 : norm2 (pySlice x 0 3) ≠ 0) (h : SampleSafe c x) :
    hval (dC c .rel).2 x ≤ c.v0 + c.v1Coef * c.n * (c.reach + 1) ∧ hval (dC c .rmax).2 x ≤ c.largest ∧
      hval (dC c .coll).2 x ≤ c.largest := by
  have hD : norm2 (pySlice x 0 3) ≤ c.reach := C79_distance hc hx h0 h
  have hr0 := norm2_nonneg (pySlice x 0 3)
  have hrad := abs_le.1 (radial_le hx h0)
  have hsp := speed_le hx hc.velLimit fun i hi => le_trans (h.axis i hi) (by linarith)
  have hext : 0 ≤ 3 * c.velLimit ^ 2 / (2 * c.aMax) := by have := hc.aMax; positivity
  have hreach : c.rMax ≤ c.reach := by unfold InspConfig.reach; linarith
  have h2a : 0 ≤ 2 * c.aMax := by linarith [hc.aMax]
  refine ⟨?_, ?_, ?_⟩
  · show relativeVelocity 3 c.v0 (c.v1Coef * c.n) c.v0Distance (1 / 100000) x + -(1 / 1000) ≤ _
    have hn : normWithDelta (pySlice x 0 3) (1 / 100000) ≤ c.reach + 1 := by
      obtain ⟨hp, -⟩ := slice_length hx
      have e : normWithDelta (pySlice x 0 3) (1 / 100000) = √(norm2 (pySlice x 0 3) ^ 2 + 1 / 100000) := by
        rw [norm2_sq hp, list3 hp]
        simp [normWithDelta, sqNorm, dot, sq]
      rw [e]
      refine le_trans (sqrt_le_sqrt (y := (norm2 (pySlice x 0 3) + 1) ^ 2) (by nlinarith)) ?_
      rw [sqrt_sq (by linarith)]
      linarith
    have hv : 0 ≤ normWithDelta (pySlice x 3 (2 * 3)) (1 / 100000) := sqrt_nonneg _
    unfold relativeVelocity
    nlinarith [mul_le_mul_of_nonneg_left hn hc.v1, mul_nonneg hc.v1 hc.v0Distance]
  · show (maxDistance c.rMax c.aMax x).getD 0 + -(1 / 1000) ≤ _
    rw [dist_value hc.aMax.le h0, Option.getD_some]
    unfold InspConfig.largest
    split_ifs with hr
    · have := sqrt_le_sqrt (mul_le_mul_of_nonneg_left (show c.rMax - norm2 (pySlice x 0 3) ≤ c.reach by linarith) h2a)
      linarith
    · linarith [sqrt_nonneg (2 * c.aMax * (norm2 (pySlice x 0 3) - c.rMax)), sqrt_nonneg (2 * c.aMax * c.reach)]
  · show (chiefCollision c.radius c.aMax x).getD 0 + 0 ≤ _
    rw [coll_value hc.aMax.le h0, Option.getD_some]
    unfold InspConfig.largest
    split_ifs with hr
    · have := sqrt_le_sqrt (mul_le_mul_of_nonneg_left (show norm2 (pySlice x 0 3) - c.radius ≤ c.reach by linarith [hc.radius]) h2a)
      linarith
    · linarith [sqrt_nonneg (2 * c.aMax * (c.radius - norm2 (pySlice x 0 3))), sqrt_nonneg (2 * c.aMax * c.reach)]

end

/-- One sample to the next, any of the eight constraints: a constraint that holds at a sample and whose value is small enough for the step
size holds at the next. -/
theorem C79_one_step {solver : NLPSolver ℝ} (hsound : NLPSound solver) {c : InspConfig} {s s' : DiscObj ℝ (List ℝ) InspParams}
    (hinv : DiscInv s) (hcs : s.constraints = discInspConstraints c) (hen : s.enable = true) (hexc : s.ext.solverException = true)
    {x u v : List ℝ} {dt : ℝ} (hdt : 0 < dt) (h : discreteASIF solver (discInspNext c) s (.array x) dt u = (.ok v, s'))
    (k : InspIx) (h0 : 0 ≤ hval (dC c k).2 x) (hk : dt * (dA k + dB k * hval (dC c k).2 x ^ 2) ≤ 1) :
    0 ≤ hval (dC c k).2 (discInspNext c x dt v) :=
  disc_step hsound hinv hen hexc hdt h (k := (dC c k).1) (by rw [hcs]; exact dC_mem c k) (dC_enabled c k) (dC_noslack c k)
    (dC_alpha c k) (dB_nonneg k) le_rfl hk h0

/-- **C79, samples** (partial: without the sun and the passive safety constraint, and the collision constraint does not keep the deputy
outside the sphere, see below). Let the solver satisfy its constraints whenever it reports success and let the module raise when it does
not. For every configuration with positive braking acceleration, every sequence of desired controls and of small enough step sizes, a
deputy that respects the limits at first does so at every sample of the loop formed by the module and the motion it predicts, as long as it is not
exactly at the chief's centre at a sample. -/
theorem C79_samples_partial {solver : NLPSolver ℝ} (hsound : NLPSound solver) {c : InspConfig} (hc : DiscConfigOK c)
    {high low : Option (Bound ℝ)} {epsilon : ℝ} {s0 : DiscObj ℝ (List ℝ) InspParams} (hs0 : discInsp c high low epsilon true = .ok s0)
    {dts : Nat → ℝ} (hdt : ∀ n, StepOK c (dts n)) (us : Nat → List ℝ) {x0 : List ℝ} (hx0 : x0.length = 8) (h0 : SampleSafe c x0)
    (hoff : ∀ n x s, closedLoop (discreteASIF solver (discInspNext c)) (discInspNext c) dts us x0 s0 n = some (x, s) →
      norm2 (pySlice x 0 3) ≠ 0) (n : Nat) (x : List ℝ) (s : DiscObj ℝ (List ℝ) InspParams)
    (h : closedLoop (discreteASIF solver (discInspNext c)) (discInspNext c) dts us x0 s0 n = some (x, s)) : SampleSafe c x := by
  obtain ⟨hinv, hcs, -, -, hen, -, -, hexc⟩ := discInsp_init hs0
  suffices H : x.length = 8 ∧ SampleSafe c x ∧ DiscInv s ∧ s.enable = true ∧ s.constraints = s0.constraints ∧ s.ext = s0.ext from H.2.1
  induction n generalizing x s with
  | zero =>
    simp only [closedLoop, Option.some.injEq, Prod.mk.injEq] at h
    obtain ⟨rfl, rfl⟩ := h
    exact ⟨hx0, h0, hinv, hen, rfl, rfl⟩
  | succ n ih =>
    have hnext := hoff (n + 1) x s h
    simp only [closedLoop] at h
    rcases hn : closedLoop (discreteASIF solver (discInspNext c)) (discInspNext c) dts us x0 s0 n with _ | ⟨y, t⟩
    · simp [hn] at h
    rw [hn] at h
    simp only at h
    rcases hcall : discreteASIF solver (discInspNext c) t (.array y) (dts n) (us n) with ⟨e | v, t'⟩
    · simp [hcall] at h
    rw [hcall] at h
    simp only [Option.some.injEq, Prod.mk.injEq] at h
    obtain ⟨rfl, rfl⟩ := h
    obtain ⟨hy, hsafe, hi, he, hc', hx'⟩ := ih y t hn
    obtain ⟨hi', he', hcons', hext', -, -⟩ := disc_keeps hi he hcall
    refine ⟨discInspNext_length, ?_, hi', he', hcons'.trans hc', hext'.trans hx'⟩
    have hy0 := hoff n y t hn
    rw [safe_iff hc hnext]
    have hval0 := (safe_iff hc hy0).1 hsafe
    obtain ⟨b1, b2, b3⟩ := safe_bound hc hy hy0 hsafe
    have hd := hdt n
    have step : ∀ k ∈ [InspIx.vx, .vy, .vz, .rel, .rmax, .coll], ∀ Y, hval (dC c k).2 y ≤ Y → dts n * (dA k + dB k * Y ^ 2) ≤ 1 →
        0 ≤ hval (dC c k).2 (discInspNext c y (dts n) v) := fun k hk Y hY hb =>
      disc_step hsound hi he (by rw [hx', hexc]) hd.pos hcall (k := (dC c k).1) (by rw [hc', hcs]; exact dC_mem c k) (dC_enabled c k)
        (dC_noslack c k) (dC_alpha c k) (dB_nonneg k) hY hb (hval0 k hk)
    have hlim : ∀ i, c.velLimit ^ 2 - stateAt y i ^ 2 + -(1 / 1000) ≤ c.velLimit ^ 2 := fun i => by nlinarith [sq_nonneg (stateAt y i)]
    intro k hk
    have hk' := hk
    simp only [List.mem_cons, List.mem_nil_iff, or_false] at hk
    rcases hk with rfl | rfl | rfl | rfl | rfl | rfl
    · exact step _ hk' _ (hlim 3) hd.axis
    · exact step _ hk' _ (hlim 4) hd.axis
    · exact step _ hk' _ (hlim 5) hd.axis
    · exact step _ hk' _ b1 hd.speed
    · exact step _ hk' _ b2 (le_trans (mul_le_mul_of_nonneg_left (by norm_num [dA, dB]) hd.pos.le) hd.distance)
    · exact step _ hk' _ b3 hd.distance

/-- **C79, velocity limits.** The limits on the velocity components alone need no assumption about positions and only that the step sizes are
small enough for their strengthener. -/
theorem C79_axis_limits {solver : NLPSolver ℝ} (hsound : NLPSound solver) {c : InspConfig}
    {high low : Option (Bound ℝ)} {epsilon : ℝ} {s0 : DiscObj ℝ (List ℝ) InspParams} (hs0 : discInsp c high low epsilon true = .ok s0)
    {dts : Nat → ℝ} (hpos : ∀ n, 0 < dts n) (hdt : ∀ n, dts n * (1 / 10 + 1 / 100 * (c.velLimit ^ 2) ^ 2) ≤ 1) (us : Nat → List ℝ)
    {x0 : List ℝ} {i : Nat} (hi : i < 3) (h0 : comp x0 (i + 3) ^ 2 ≤ c.velLimit ^ 2 - 1 / 1000) (n : Nat) (x : List ℝ)
    (s : DiscObj ℝ (List ℝ) InspParams)
    (h : closedLoop (discreteASIF solver (discInspNext c)) (discInspNext c) dts us x0 s0 n = some (x, s)) :
    comp x (i + 3) ^ 2 ≤ c.velLimit ^ 2 - 1 / 1000 := by
  obtain ⟨hinv, hcs, -, -, hen, -, -, hexc⟩ := discInsp_init hs0
  obtain ⟨k, hk, hkB, hkA⟩ : ∃ k, (∀ y, hval (dC c k).2 y = c.velLimit ^ 2 - comp y (i + 3) ^ 2 + -(1 / 1000)) ∧ dB k = 1 / 100 ∧
      dA k = 1 / 10 := by
    interval_cases i
    · exact ⟨.vx, fun _ => rfl, rfl, rfl⟩
    · exact ⟨.vy, fun _ => rfl, rfl, rfl⟩
    · exact ⟨.vz, fun _ => rfl, rfl, rfl⟩
  have := (closedLoop_invariant (fun y (t : DiscObj ℝ (List ℝ) InspParams) => 0 ≤ hval (dC c k).2 y ∧ DiscInv t ∧ t.enable = true ∧
      t.constraints = s0.constraints ∧ t.ext = s0.ext) ⟨by rw [hk]; linarith, hinv, hen, rfl, rfl⟩ ?_ n x s h).1
  · rw [hk] at this; linarith
  rintro n y t v t' ⟨hy, hit, he, hcons, hext⟩ hcall
  obtain ⟨hi', he', hcons', hext', -, -⟩ := disc_keeps hit he hcall
  refine ⟨?_, hi', he', hcons'.trans hcons, hext'.trans hext⟩
  exact disc_step hsound hit he (by rw [hext, hexc]) (hpos n) hcall (k := (dC c k).1) (by rw [hcons, hcs]; exact dC_mem c k)
    (dC_enabled c k) (dC_noslack c k) (dC_alpha c k) (Y := c.velLimit ^ 2) (dB_nonneg k)
    (by rw [hk]; nlinarith [sq_nonneg (comp y (i + 3))]) (by rw [hkB, hkA]; exact hdt n) hy

end RTA
