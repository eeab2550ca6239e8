import Verif.Lemmas.Zoo.KeepOut

/-!
C46: availability of the assumed braking acceleration. C48: the relative velocity constraint bounds the true speed.
-/
namespace RTA
open Set Real

/-- The acceleration of the module's dynamics: the last three components of `A x + B u`. -/
noncomputable def acceleration (n m : ℝ) (x u : List ℝ) : List ℝ :=
  pySlice (vadd (matVec (cwhA3 n) x) (matVec (cwhB3 m) u)) 3 6

theorem acceleration_eq (n m x y z a b w u1 u2 u3 : ℝ) : acceleration n m [x, y, z, a, b, w] [u1, u2, u3] =
    [3 * n ^ 2 * x + 2 * n * b + 1 / m * u1, -2 * n * a + 1 / m * u2, -(n ^ 2) * z + 1 / m * u3] := by
  unfold acceleration
  rw [field_eq]
  rfl

/-- Thrust of full strength along each axis, in the direction of `d`. -/
noncomputable def fullThrust (d : List ℝ) : List ℝ := d.map fun c => if 0 ≤ c then 1 else -1

theorem mul_sgn (c : ℝ) : c * (if 0 ≤ c then 1 else -1) = |c| := by
  split_ifs with h
  · rw [mul_one, abs_of_nonneg h]
  · rw [abs_of_neg (not_le.1 h)]; ring

theorem abs_le_one_norm (d1 d2 d3 : ℝ) (h : d1 ^ 2 + d2 ^ 2 + d3 ^ 2 = 1) : 1 ≤ |d1| + |d2| + |d3| := by
  have h1 := sq_abs d1
  have h2 := sq_abs d2
  have h3 := sq_abs d3
  by_contra hc
  have := abs_nonneg d1
  have := abs_nonneg d2
  have := abs_nonneg d3
  nlinarith [mul_nonneg (abs_nonneg d1) (abs_nonneg d2), mul_nonneg (abs_nonneg d1) (abs_nonneg d3),
    mul_nonneg (abs_nonneg d2) (abs_nonneg d3)]

/-- **C46.** In every state within the maximum distance, with each velocity component within the velocity limit and the speed
within the distance-dependent limit at maximum distance, and for every unit direction, there is a thrust within the bounds
`±1` whose resulting acceleration along the direction is at least the module's `a_max`; provided `a_max` is not negative (which
is the case for the default values). -/
theorem C46_available {m n v0 v1Coef rMax velLimit : ℝ} (hm : 0 < m) (hn : 0 ≤ n)
    (hpos : 0 ≤ inspectionAMax m n v0 v1Coef rMax velLimit) {x d : List ℝ} (hx : x.length = 6) (hd : d.length = 3)
    (hunit : sqNorm d = 1) (hr : √(sqNorm (pySlice x 0 3)) ≤ rMax) (hv : ∀ i, 3 ≤ i → i < 6 → |comp x i| ≤ velLimit)
    (hs : √(sqNorm (pySlice x 3 6)) ≤ v0 + v1Coef * n * rMax) :
    ∃ u : List ℝ, u.length = 3 ∧ (∀ i, i < 3 → -1 ≤ comp u i ∧ comp u i ≤ 1) ∧
      inspectionAMax m n v0 v1Coef rMax velLimit ≤ dot d (acceleration n m x u) := by
  match x, hx, d, hd with
  | [x, y, z, a, b, w], _, [d1, d2, d3], _ =>
    refine ⟨fullThrust [d1, d2, d3], rfl, fun i hi => ?_, ?_⟩
    · have : ∀ c : ℝ, -1 ≤ (if 0 ≤ c then (1 : ℝ) else -1) ∧ (if 0 ≤ c then (1 : ℝ) else -1) ≤ 1 := fun c => by
        split_ifs <;> constructor <;> norm_num
      interval_cases i <;> exact this _
    have e : fullThrust [d1, d2, d3] = [if 0 ≤ d1 then 1 else -1, if 0 ≤ d2 then 1 else -1, if 0 ≤ d3 then 1 else -1] := rfl
    rw [e, acceleration_eq, dot3 rfl rfl]
    simp only [comp, List.getD_cons_zero, List.getD_cons_succ]
    have hu : d1 ^ 2 + d2 ^ 2 + d3 ^ 2 = 1 := by
      have := sqNorm3 (p := [d1, d2, d3]) rfl
      rw [hunit] at this
      simpa [comp] using this.symm
    have hone := abs_le_one_norm d1 d2 d3 hu
    have s1 := mul_sgn d1
    have s2 := mul_sgn d2
    have s3 := mul_sgn d3
    -- the gravity gradient
    have hr2 : x ^ 2 + y ^ 2 + z ^ 2 ≤ rMax ^ 2 := by
      have h1 : sqNorm (pySlice [x, y, z, a, b, w] 0 3) = x ^ 2 + y ^ 2 + z ^ 2 := by
        rw [sqNorm3 rfl]; simp [pySlice, comp]
      rw [h1] at hr
      exact (sqrt_le_left ((sqrt_nonneg _).trans hr)).1 hr
    have hR0 : 0 ≤ rMax := (sqrt_nonneg _).trans hr
    have hgrav : -(3 * rMax) ≤ 3 * x * d1 - z * d3 := by
      have h2 : (3 * x * d1 - z * d3) ^ 2 ≤ (3 * rMax) ^ 2 := by
        have : (3 * x * d1 - z * d3) ^ 2 ≤ ((3 * x) ^ 2 + z ^ 2) * (d1 ^ 2 + d3 ^ 2) := by
          nlinarith [sq_nonneg (3 * x * d3 + z * d1)]
        have h3 : d1 ^ 2 + d3 ^ 2 ≤ 1 := by nlinarith [sq_nonneg d2]
        have h4 : (3 * x) ^ 2 + z ^ 2 ≤ (3 * rMax) ^ 2 := by nlinarith [sq_nonneg y, sq_nonneg z]
        calc _ ≤ _ := this
          _ ≤ ((3 * x) ^ 2 + z ^ 2) * 1 := mul_le_mul_of_nonneg_left h3 (by positivity)
          _ ≤ _ := by rw [mul_one]; exact h4
      exact (abs_le_of_sq_le_sq' h2 (by linarith)).1
    have hg2 := mul_le_mul_of_nonneg_left hgrav (sq_nonneg n)
    -- the Coriolis term, bounded in two ways
    have hcor2 : -(v0 + v1Coef * n * rMax) ≤ b * d1 - a * d2 := by
      have h1 : sqNorm (pySlice [x, y, z, a, b, w] 3 6) = a ^ 2 + b ^ 2 + w ^ 2 := by
        rw [sqNorm3 rfl]; simp [pySlice, comp]
      rw [h1] at hs
      have hV0 : 0 ≤ v0 + v1Coef * n * rMax := (sqrt_nonneg _).trans hs
      have h2 := (sqrt_le_left hV0).1 hs
      refine (abs_le_of_sq_le_sq' ?_ hV0).1
      have : (b * d1 - a * d2) ^ 2 ≤ (a ^ 2 + b ^ 2) * (d1 ^ 2 + d2 ^ 2) := by nlinarith [sq_nonneg (b * d2 + a * d1)]
      have h3 : d1 ^ 2 + d2 ^ 2 ≤ 1 := by nlinarith [sq_nonneg d3]
      calc _ ≤ _ := this
        _ ≤ (a ^ 2 + b ^ 2) * 1 := mul_le_mul_of_nonneg_left h3 (by positivity)
        _ ≤ _ := by nlinarith [sq_nonneg w]
    have hva : |a| ≤ velLimit := hv 3 (by omega) (by omega)
    have hvb : |b| ≤ velLimit := hv 4 (by omega) (by omega)
    have hL0 : 0 ≤ velLimit := (abs_nonneg a).trans hva
    have hcor1 : -(velLimit * (|d1| + |d2| + |d3|)) ≤ b * d1 - a * d2 := by
      have h1 : -(velLimit * |d1|) ≤ b * d1 := by
        have := neg_abs_le (b * d1)
        rw [abs_mul] at this
        have := mul_le_mul_of_nonneg_right hvb (abs_nonneg d1)
        linarith
      have h2 : a * d2 ≤ velLimit * |d2| := by
        have := le_abs_self (a * d2)
        rw [abs_mul] at this
        have := mul_le_mul_of_nonneg_right hva (abs_nonneg d2)
        linarith
      have h3 : 0 ≤ velLimit * |d3| := mul_nonneg hL0 (abs_nonneg d3)
      linarith
    have hm1 : 0 < 1 / m := by positivity
    have expand : d1 * (3 * n ^ 2 * x + 2 * n * b + 1 / m * (if 0 ≤ d1 then 1 else -1)) +
        d2 * (-2 * n * a + 1 / m * (if 0 ≤ d2 then 1 else -1)) +
        d3 * (-(n ^ 2) * z + 1 / m * (if 0 ≤ d3 then 1 else -1)) =
        n ^ 2 * (3 * x * d1 - z * d3) + 2 * n * (b * d1 - a * d2) + 1 / m * (|d1| + |d2| + |d3|) := by
      rw [← s1, ← s2, ← s3]; ring
    rw [expand]
    unfold inspectionAMax at hpos ⊢
    rcases min_choice velLimit (v0 + v1Coef * n * rMax) with hmin | hmin <;> rw [hmin] at hpos ⊢
    · have h1 := mul_le_mul_of_nonneg_left hcor1 (show 0 ≤ 2 * n by linarith)
      have h2 : 0 ≤ 1 / m - 2 * n * velLimit := by
        have : 0 ≤ 3 * n ^ 2 * rMax := by positivity
        linarith
      have h3 := mul_le_mul_of_nonneg_left hone h2
      linarith
    · have h1 := mul_le_mul_of_nonneg_left hcor2 (show 0 ≤ 2 * n by linarith)
      have h3 := mul_le_mul_of_nonneg_left hone hm1.le
      linarith

/-- The default parameters have a positive `a_max`. -/
example : 0 < inspectionAMax 12 (1027 / 1000000) (1 / 5) 2 1000 1 := by
  unfold inspectionAMax
  have : min (1 : ℝ) (1 / 5 + 2 * (1027 / 1000000) * 1000) ≤ 1 := min_le_left _ _
  nlinarith

/-- **C46 is false for tighter control bounds**: `a_max` is computed from the default maximal thrust 1 whatever bounds the user
gives. With bounds `±0.1` and otherwise default values no admissible thrust gives the assumed braking acceleration, even at
rest at the origin. -/
theorem C46_refuted_custom_bounds : ¬ ∃ u : List ℝ, u.length = 3 ∧ (∀ i, i < 3 → -(1 / 10) ≤ comp u i ∧ comp u i ≤ 1 / 10) ∧
    inspectionAMax 12 (1027 / 1000000) (1 / 5) 2 1000 1 ≤
      dot [1, 0, 0] (acceleration (1027 / 1000000) 12 [0, 0, 0, 0, 0, 0] u) := by
  rintro ⟨u, hu, hb, h⟩
  match u, hu with
  | [u1, u2, u3], _ =>
    rw [acceleration_eq, dot3 rfl rfl] at h
    simp only [comp, List.getD_cons_zero, List.getD_cons_succ] at h
    have h1 := (hb 0 (by omega)).2
    simp only [comp, List.getD_cons_zero] at h1
    unfold inspectionAMax at h
    have : min (1 : ℝ) (1 / 5 + 2 * (1027 / 1000000) * 1000) ≤ 1 := min_le_left _ _
    nlinarith

/-! ### C48 -/

theorem sumsq_eq (x : List ℝ) : (x.map (· ^ 2)).foldr (· + ·) 0 = sqNorm x := by
  unfold sqNorm
  induction x with
  | nil => rfl
  | cons a l ih => simp only [List.map_cons, List.foldr_cons, dot_cons, ih]; ring

theorem sqNorm_nonneg' (x : List ℝ) : 0 ≤ sqNorm x := by
  rw [← sumsq_eq]
  induction x with
  | nil => simp
  | cons a l ih => simp only [List.map_cons, List.foldr_cons]; positivity

theorem norm_le_normWithDelta {x : List ℝ} {δ : ℝ} (hδ : 0 ≤ δ) : √(sqNorm x) ≤ normWithDelta x δ := by
  unfold normWithDelta
  rw [sumsq_eq]
  exact sqrt_le_sqrt (by linarith)

theorem normWithDelta_le {x : List ℝ} {δ : ℝ} (hδ : 0 ≤ δ) : normWithDelta x δ ≤ √(sqNorm x) + √δ := by
  unfold normWithDelta
  rw [sumsq_eq]
  refine sqrt_le_iff.2 ⟨by positivity, ?_⟩
  have h1 := sq_sqrt (sqNorm_nonneg' x)
  have h2 := sq_sqrt hδ
  have := mul_nonneg (sqrt_nonneg (sqNorm x)) (sqrt_nonneg δ)
  nlinarith

/-- **C48.** Where the relative velocity constraint is nonnegative, the true speed is at most the distance-dependent limit
`v0 + v1 (distance - v0_distance)` plus `v1 √δ`, where `δ` is the smoothing inside the norms (default `1e-5`). -/
theorem C48_speed {d : Nat} {v0 v1 v0Distance δ : ℝ} (hv1 : 0 ≤ v1) (hδ : 0 ≤ δ) {state : List ℝ}
    (h : 0 ≤ relativeVelocity d v0 v1 v0Distance δ state) :
    √(sqNorm (pySlice state d (2 * d))) ≤ v0 + v1 * (√(sqNorm (pySlice state 0 d)) - v0Distance) + v1 * √δ := by
  unfold relativeVelocity at h
  have h1 := norm_le_normWithDelta (x := pySlice state d (2 * d)) hδ
  have h2 := mul_le_mul_of_nonneg_left (normWithDelta_le (x := pySlice state 0 d) hδ) hv1
  linarith

/-- **C48.** The constraint is not more than `√δ` stricter than the true limit: with a margin of `√δ` below the limit it is
nonnegative. -/
theorem C48_complete {d : Nat} {v0 v1 v0Distance δ : ℝ} (hv1 : 0 ≤ v1) (hδ : 0 ≤ δ) {state : List ℝ}
    (h : √(sqNorm (pySlice state d (2 * d))) + √δ ≤ v0 + v1 * (√(sqNorm (pySlice state 0 d)) - v0Distance)) :
    0 ≤ relativeVelocity d v0 v1 v0Distance δ state := by
  unfold relativeVelocity
  have h1 := normWithDelta_le (x := pySlice state d (2 * d)) hδ
  have h2 := mul_le_mul_of_nonneg_left (norm_le_normWithDelta (x := pySlice state 0 d) hδ) hv1
  linarith

/-- **C48.** The 3-D constraint is defined and differentiable at every state, also at zero position or velocity: along every
curve of states with differentiable components its value is differentiable. -/
theorem C48_differentiable {v0 v1 v0Distance δ : ℝ} (hδ : 0 < δ) {x : ℝ → List ℝ} (hx : ∀ t, 6 ≤ (x t).length) {t : ℝ}
    (hd : ∀ i, i < 6 → DifferentiableAt ℝ (fun s => comp (x s) i) t) :
    DifferentiableAt ℝ (fun s => relativeVelocity 3 v0 v1 v0Distance δ (x s)) t := by
  have hp : ∀ s, normWithDelta (pySlice (x s) 0 3) δ =
      √(comp (x s) 0 ^ 2 + comp (x s) 1 ^ 2 + comp (x s) 2 ^ 2 + δ) := fun s => by
    have e := hx s
    generalize x s = l at e
    match l, e with
    | a :: b :: c :: d :: e :: f :: rest, _ =>
      unfold normWithDelta
      rw [sumsq_eq, sqNorm3 rfl]; rfl
  have hv : ∀ s, normWithDelta (pySlice (x s) 3 6) δ =
      √(comp (x s) 3 ^ 2 + comp (x s) 4 ^ 2 + comp (x s) 5 ^ 2 + δ) := fun s => by
    have e := hx s
    generalize x s = l at e
    match l, e with
    | a :: b :: c :: d :: e :: f :: rest, _ =>
      unfold normWithDelta
      rw [sumsq_eq, sqNorm3 rfl]; rfl
  unfold relativeVelocity
  simp only [show 2 * 3 = 6 from rfl, hp, hv]
  have d0 := hd 0 (by omega)
  have d1 := hd 1 (by omega)
  have d2 := hd 2 (by omega)
  have d3 := hd 3 (by omega)
  have d4 := hd 4 (by omega)
  have d5 := hd 5 (by omega)
  have q1 : DifferentiableAt ℝ (fun s => √(comp (x s) 0 ^ 2 + comp (x s) 1 ^ 2 + comp (x s) 2 ^ 2 + δ)) t :=
    (((d0.fun_pow 2).fun_add (d1.fun_pow 2)).fun_add (d2.fun_pow 2)).fun_add (differentiableAt_const δ) |>.sqrt (by positivity)
  have q2 : DifferentiableAt ℝ (fun s => √(comp (x s) 3 ^ 2 + comp (x s) 4 ^ 2 + comp (x s) 5 ^ 2 + δ)) t :=
    (((d3.fun_pow 2).fun_add (d4.fun_pow 2)).fun_add (d5.fun_pow 2)).fun_add (differentiableAt_const δ) |>.sqrt (by positivity)
  exact ((((q1.sub_const _).const_mul v1).const_add v0)).sub q2

/-- The defaults, at rest ten metres away. -/
example : 0 ≤ relativeVelocity 2 (1 / 5) (1 / 1000) 0 (1 / 100000) [10, 0, 0, 0] := by
  refine C48_complete (by norm_num) (by norm_num) ?_
  have h1 : sqNorm (pySlice [10, 0, 0, 0] 2 (2 * 2)) = (0 : ℝ) := by simp [pySlice, sqNorm]
  have h2 : 0 ≤ √(sqNorm (pySlice [10, 0, 0, 0] 0 2) : ℝ) := sqrt_nonneg _
  rw [h1]
  have h3 : √(1 / 100000 : ℝ) ≤ 1 / 10 := by
    rw [sqrt_le_left (by norm_num)]; norm_num
  simp only [sqrt_zero]
  nlinarith

end RTA
