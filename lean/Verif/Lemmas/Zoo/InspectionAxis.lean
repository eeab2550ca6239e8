import Verif.Lemmas.Zoo.InspectionDiscrete
import Verif.Lemmas.DiscreteDesired
import Verif.Props.Zoo.InspectionModule

/-!
The discrete inspection module on states on the axis perpendicular to the orbit.
-/
namespace RTA
open Real

/-- At height `z` above the chief's orbital plane, moving along that axis with velocity `w`. -/
def axisState (z w angle fuel : ℝ) : List ℝ := [0, 0, z, 0, 0, w, angle, fuel]

section
variable {z w angle fuel : ℝ}

theorem axis_norm : norm2 (pySlice (axisState z w angle fuel) 0 3) = |z| := by
  unfold norm2
  rw [sqNorm3 rfl]
  show √((0 : ℝ) ^ 2 + 0 ^ 2 + z ^ 2) = |z|
  rw [show (0 : ℝ) ^ 2 + 0 ^ 2 + z ^ 2 = z ^ 2 by ring, sqrt_sq_eq_abs]

theorem axis_pv : dot (pySlice (axisState z w angle fuel) 0 3) (pySlice (axisState z w angle fuel) 3 6) = z * w := by
  rw [dot3 rfl rfl]; simp [axisState, pySlice, comp]

theorem axis_ps : dot (pySlice (axisState z w angle fuel) 0 3) (sunVector (axisState z w angle fuel)) = 0 := by
  rw [dot3 rfl rfl]; simp [axisState, pySlice, comp, sunVector]

theorem axis_vs : dot (pySlice (axisState z w angle fuel) 3 6) (sunVector (axisState z w angle fuel)) = 0 := by
  rw [dot3 rfl rfl]; simp [axisState, pySlice, comp, sunVector]

theorem axis_pc (k : ℝ) :
    dot (pySlice (axisState z w angle fuel) 0 3) (cross [0, 0, k] (sunVector (axisState z w angle fuel))) = 0 := by
  rw [dot3 rfl rfl]; simp [axisState, pySlice, comp, sunVector, cross]

theorem axis_dist : axisDist (pySlice (axisState z w angle fuel) 0 3) (sunVector (axisState z w angle fuel)) = |z| := by
  unfold axisDist
  rw [axis_ps, ← norm2_sq rfl, axis_norm, sq_abs]
  simp [sqrt_sq_eq_abs]

theorem axis_psm (n t R : ℝ) : psmFutureState n (axisState z w angle fuel) t R = |z * cos (n * t) + w / n * sin (n * t)| - R := by
  unfold psmFutureState norm2
  simp only
  rw [sqNorm3 rfl]
  simp only [axisState, comp, List.getD_cons_zero, List.getD_cons_succ, mul_zero, zero_div, add_zero, sub_zero]
  rw [show (0 : ℝ) ^ 2 + 0 ^ 2 + (z * cos (n * t) + w / n * sin (n * t)) ^ 2 = (z * cos (n * t) + w / n * sin (n * t)) ^ 2 by ring,
    sqrt_sq_eq_abs]

theorem axis_rel (v0 v1 d : ℝ) : relativeVelocity 3 v0 v1 d (1 / 100000) (axisState z w angle fuel) =
    v0 + v1 * (√(z ^ 2 + 1 / 100000) - d) - √(w ^ 2 + 1 / 100000) := by
  simp [relativeVelocity, normWithDelta, pySlice, axisState]

variable {c : InspConfig}

/-- Where the module expects the deputy after a step with thrust along the axis. -/
theorem axis_next (u dt : ℝ) : discInspNext c (axisState z w angle fuel) dt [0, 0, u] =
    axisState (z * cos (c.n * dt) + w / c.n * sin (c.n * dt) + u * (1 - cos (c.n * dt)) / (c.n ^ 2 * c.m))
      (-c.n * sin (c.n * dt) * z + cos (c.n * dt) * w + u * sin (c.n * dt) / (c.n * c.m)) (angle - c.sunVel * dt) 0 := by
  unfold discInspNext
  rw [jaxPad_eight rfl]
  simp only [discreteNext, axisState, discreteA, discreteB, matVec, vadd, dot, pySlice, comp, List.map_cons, List.map_nil,
    List.zipWith_cons_cons, List.zipWith_nil_left, List.drop_zero, Nat.sub_zero, List.take_succ_cons, List.take_zero,
    List.cons_append, List.nil_append, List.getD_cons_zero, List.getD_cons_succ, List.foldr_cons, List.foldr_nil, mul_zero, zero_mul, add_zero, zero_add, zero_div]
  simp only [List.cons.injEq, and_true, true_and]
  constructor
  · simp only [div_eq_mul_inv, mul_inv]; ring
  · simp only [div_eq_mul_inv, mul_inv]; ring

/-! ### The values -/

section
variable (hz : z ≠ 0)
include hz

theorem axis_coll (ha : 0 ≤ c.aMax) : hval (dC c .coll).2 (axisState z w angle fuel) =
    (if c.radius ≤ |z| then √(2 * c.aMax * (|z| - c.radius)) else -√(2 * c.aMax * (c.radius - |z|))) + z * w / |z| := by
  show (chiefCollision c.radius c.aMax (axisState z w angle fuel)).getD 0 + 0 = _
  rw [coll_value ha (by rw [axis_norm]; exact abs_ne_zero.2 hz), axis_norm, axis_pv]
  simp

theorem axis_rmax (ha : 0 ≤ c.aMax) (hr : |z| ≤ c.rMax) : hval (dC c .rmax).2 (axisState z w angle fuel) =
    √(2 * c.aMax * (c.rMax - |z|)) - z * w / |z| - 1 / 1000 := by
  show (maxDistance c.rMax c.aMax (axisState z w angle fuel)).getD 0 + -(1 / 1000) = _
  rw [dist_value ha (by rw [axis_norm]; exact abs_ne_zero.2 hz), axis_norm, axis_pv, if_pos hr]
  rfl

theorem axis_sun (ha : 0 ≤ c.aMax) (hcos : 0 < cos (c.fov / 2)) : hval (dC c .sun).2 (axisState z w angle fuel) =
    √(2 * c.aMax * (cos (c.fov / 2) * |z|)) + cos (c.fov / 2) * (z * w / |z|) - 1 / 1000 := by
  have hz' := abs_pos.2 hz
  show (conicKeepOut c.fov c.aMax [0, 0, c.sunVel] (pySlice (jaxPad (axisState z w angle fuel)) 0 3)
    (pySlice (jaxPad (axisState z w angle fuel)) 3 6) (sunVector (jaxPad (axisState z w angle fuel)))).getD 0 + -(1 / 1000) = _
  rw [jaxPad_eight rfl]
  have hM : coneM (c.fov / 2) (pySlice (axisState z w angle fuel) 0 3) (sunVector (axisState z w angle fuel)) = cos (c.fov / 2) * |z| := by
    unfold coneM
    rw [axis_dist, axis_ps]; ring
  rw [sun_value ha hcos.ne' rfl (by rw [axis_norm]; exact hz'.ne') (by rw [axis_dist]; exact hz'.ne') (by rw [hM]; positivity)]
  unfold sunH coneRate
  rw [hM, axis_dist, axis_pv, axis_ps, axis_vs, axis_pc]
  ring

end

theorem axis_relv : hval (dC c .rel).2 (axisState z w angle fuel) =
    c.v0 + c.v1Coef * c.n * (√(z ^ 2 + 1 / 100000) - c.v0Distance) - √(w ^ 2 + 1 / 100000) - 1 / 1000 := by
  show relativeVelocity 3 c.v0 (c.v1Coef * c.n) c.v0Distance (1 / 100000) _ + -(1 / 1000) = _
  rw [axis_rel]; rfl

theorem axis_vx : hval (dC c .vx).2 (axisState z w angle fuel) = c.velLimit ^ 2 - 1 / 1000 := by
  show c.velLimit ^ 2 - (0 : ℝ) ^ 2 + -(1 / 1000) = _
  ring

theorem axis_vy : hval (dC c .vy).2 (axisState z w angle fuel) = c.velLimit ^ 2 - 1 / 1000 := by
  show c.velLimit ^ 2 - (0 : ℝ) ^ 2 + -(1 / 1000) = _
  ring

theorem axis_vz : hval (dC c .vz).2 (axisState z w angle fuel) = c.velLimit ^ 2 - w ^ 2 - 1 / 1000 := by
  show c.velLimit ^ 2 - w ^ 2 + -(1 / 1000) = _
  ring

/-- The value of the passive safety constraint: a lower bound of every sample that is attained. -/
theorem axis_psmv : (∀ j ∈ Finset.range 100, hval (dC c .psm).2 (axisState z w angle fuel) ≤
      |z * cos (c.n * ((j : ℕ) + 1)) + w / c.n * sin (c.n * ((j : ℕ) + 1))| - c.radius) ∧
    ∃ j ∈ Finset.range 100, hval (dC c .psm).2 (axisState z w angle fuel) =
      |z * cos (c.n * ((j : ℕ) + 1)) + w / c.n * sin (c.n * ((j : ℕ) + 1))| - c.radius := by
  obtain ⟨v, hv, hle, j, hj, e⟩ := psm_samples c.n c.radius (axisState z w angle fuel)
  have hval : hval (dC c .psm).2 (axisState z w angle fuel) = v := by
    simp only [hval, dC, inspPSM, Constraint.mk', hv, add_zero, Except.orZero]
  rw [hval]
  simp only [axis_psm, mul_one] at hle e
  exact ⟨hle, j, hj, e.symm⟩

end

/-! ### Accepting the desired control -/

/-- A control within the bounds that meets every barrier condition is returned as it is. -/
theorem discInsp_accepts' {solver : NLPSolver ℝ} (hsound : NLPSound solver) (hglob : NLPGlobal solver) (hcomp : NLPComplete solver)
    {c : InspConfig} {U : ℝ} {s : DiscObj ℝ (List ℝ) InspParams} (hinv : DiscInv s) (hcs : s.constraints = discInspConstraints c)
    (hdim : s.ext.controlDim = 3) (hen : s.enable = true) (hlo : s.controlBoundsLow = some (.scalar (-U)))
    (hhi : s.controlBoundsHigh = some (.scalar U)) {x u : List ℝ} {dt : ℝ} (hdt : 0 < dt)
    (hu : u.length = 3) (hb : ∀ a ∈ u, -U ≤ a ∧ a ≤ U)
    (hk : ∀ k, hval (dC c k).2 x - dt * (dA k * hval (dC c k).2 x + dB k * hval (dC c k).2 x ^ 3) ≤
      hval (dC c k).2 (discInspNext c x dt u)) :
    (discreteASIF solver (discInspNext c) s (.array x) dt u).1 = .ok u := by
  have hsl : slackScales s.constraints = [] := by rw [hcs]; rfl
  refine disc_desired hsound hglob hcomp hinv hsl hen (lo := some (-U)) (hi := some U) (by rw [hlo]; rfl) (by rw [hhi]; rfl) ?_ hdt
    ⟨by rw [hu, hdim], by rw [hsl], ?_, ?_⟩
  · rw [hcs, discInspConstraints_eq]
    intro kc hkc _
    obtain ⟨k, -, rfl⟩ := List.mem_map.1 hkc
    rw [dC_alpha]; rfl
  · rw [hlo, hhi]
    intro i v hv
    obtain ⟨h1, h2⟩ := hb v (List.mem_of_getElem? hv)
    constructor <;> intro b hb' <;> simp [boundAt] at hb' <;> subst hb' <;> assumption
  · have e : assignSlack s.constraints ([] : List ℝ) = [InspIx.coll, .rel, .sun, .rmax, .psm, .vx, .vy, .vz].map fun k => ((dC c k).2, 0) := by
      rw [hcs]; rfl
    rw [e]
    intro cd hcd _
    obtain ⟨k, -, rfl⟩ := List.mem_map.1 hcd
    refine ⟨_, dC_alpha c k, ?_⟩
    have := hk k
    rw [cubic]
    simpa using this

theorem discInsp_accepts {solver : NLPSolver ℝ} (hsound : NLPSound solver) (hglob : NLPGlobal solver) (hcomp : NLPComplete solver)
    {c : InspConfig} {U epsilon : ℝ} {exc : Bool} {s : DiscObj ℝ (List ℝ) InspParams}
    (hs : discInsp c (some (.scalar U)) (some (.scalar (-U))) epsilon exc = .ok s) {x u : List ℝ} {dt : ℝ} (hdt : 0 < dt)
    (hu : u.length = 3) (hb : ∀ a ∈ u, -U ≤ a ∧ a ≤ U)
    (hk : ∀ k, hval (dC c k).2 x - dt * (dA k * hval (dC c k).2 x + dB k * hval (dC c k).2 x ^ 3) ≤
      hval (dC c k).2 (discInspNext c x dt u)) :
    (discreteASIF solver (discInspNext c) s (.array x) dt u).1 = .ok u := by
  obtain ⟨hinv, hcs, hdim, -, hen, hlo, hhi, -⟩ := discInsp_init hs
  exact discInsp_accepts' hsound hglob hcomp hinv hcs hdim hen hlo hhi hdt hu hb hk

theorem dA_ge (k : InspIx) : 1 / 1000 ≤ dA k := by cases k <;> norm_num [dA]

/-- With steps of at least 1000 seconds every control between states that satisfy the constraints is admissible. -/
theorem long_step {c : InspConfig} {x y : List ℝ} {dt : ℝ} (hdt : 1000 ≤ dt) (k : InspIx) (hx : 0 < hval (dC c k).2 x)
    (hy : 0 < hval (dC c k).2 y) :
    hval (dC c k).2 x - dt * (dA k * hval (dC c k).2 x + dB k * hval (dC c k).2 x ^ 3) ≤ hval (dC c k).2 y := by
  have h1 := dA_ge k
  have h2 : 0 ≤ dB k * hval (dC c k).2 x ^ 3 := mul_nonneg (dB_nonneg k) (by positivity)
  have h3 : hval (dC c k).2 x ≤ dt * (dA k * hval (dC c k).2 x) := by
    have : 1 ≤ dt * dA k := by nlinarith
    nlinarith
  nlinarith

/-- A constraint that does not get smaller is no obstacle. -/
theorem no_drop {c : InspConfig} {x y : List ℝ} {dt : ℝ} (hdt : 0 < dt) (k : InspIx) (hx : 0 < hval (dC c k).2 x)
    (hy : hval (dC c k).2 x ≤ hval (dC c k).2 y) :
    hval (dC c k).2 x - dt * (dA k * hval (dC c k).2 x + dB k * hval (dC c k).2 x ^ 3) ≤ hval (dC c k).2 y := by
  have h1 := dA_ge k
  have h2 : 0 ≤ dB k * hval (dC c k).2 x ^ 3 := mul_nonneg (dB_nonneg k) (by positivity)
  have h3 : 0 ≤ dt * (dA k * hval (dC c k).2 x + dB k * hval (dC c k).2 x ^ 3) := mul_nonneg hdt.le (by nlinarith)
  linarith

end RTA
