import Verif.Model.Zoo.InspectionDiscrete
import Verif.Lemmas.Zoo.InspectionMotion
import Verif.Props.Discrete

/-!
Lemmas about the discrete inspection module.
-/
namespace RTA
open Real

theorem cubic (a b y : ℝ) : polyAlpha [0, a, 0, b] y = a * y + b * y ^ 3 := by
  simp [polyAlpha, polyLoop]

/-- One step of a discrete module with a constraint whose strengthener is cubic. -/
theorem disc_step {S P : Type} {solver : NLPSolver ℝ} (hsound : NLPSound solver) {next : S → ℝ → List ℝ → S}
    {s s' : DiscObj ℝ S P} {x : S} {dt : ℝ} {u v : List ℝ} (hinv : DiscInv s) (hen : s.enable = true)
    (hexc : s.ext.solverException = true) (hdt : 0 < dt) (h : discreteASIF solver next s (.array x) dt u = (.ok v, s'))
    {k : String} {c : Constraint ℝ S P} {a b : ℝ} (hc : (k, c) ∈ s.constraints) (hce : c.enabled = true)
    (hcs : c.slackPriorityScale = none) (hal : c.alpha = some (polyAlpha [0, a, 0, b])) {Y : ℝ} (hb : 0 ≤ b)
    (hY : hval c x ≤ Y) (hk : dt * (a + b * Y ^ 2) ≤ 1) (h0 : 0 ≤ hval c x) : 0 ≤ hval c (next x dt v) := by
  obtain ⟨d, -, -, -, had, -⟩ := disc_solved hsound hinv hen hdt h hexc
  obtain ⟨al, hal', hle⟩ := had.barrier (c, 0) (mem_assignSlack_none hc hcs d) hce
  simp only at hal' hle
  rw [hal] at hal'
  cases hal'
  rw [cubic] at hle
  have h2 : hval c x ^ 2 ≤ Y ^ 2 := pow_le_pow_left₀ h0 hY 2
  have h3 : dt * (a + b * hval c x ^ 2) ≤ 1 :=
    le_trans (mul_le_mul_of_nonneg_left (by nlinarith) hdt.le) hk
  nlinarith [mul_le_mul_of_nonneg_right h3 h0]

/-- Indices of the constraints of the discrete module. -/
noncomputable def dC (c : InspConfig) : InspIx → String × Constraint ℝ (List ℝ) InspParams
  | .coll => ("chief_collision", inspCollision [0, 1 / 100, 0, 1 / 1000] c.radius c.aMax)
  | .rel => ("rel_vel", inspRelVel [0, 1 / 100, 0, 1 / 1000] (-(1 / 1000)) c.v0 (c.v1Coef * c.n) c.v0Distance)
  | .sun => ("sun", discInspSun [0, 1 / 1000, 0, 1 / 1000] (-(1 / 1000)) c.aMax c.fov c.sunVel)
  | .rmax => ("r_max", inspMaxDistance [0, 1 / 1000, 0, 1 / 1000] (-(1 / 1000)) c.rMax c.aMax)
  | .psm => ("PSM", inspPSM [0, 1 / 1000, 0, 1 / 1000] c.radius c.n 1 100)
  | .vx => ("x_vel", inspLimit [0, 1 / 10, 0, 1 / 100] (-(1 / 1000)) c.velLimit 3)
  | .vy => ("y_vel", inspLimit [0, 1 / 10, 0, 1 / 100] (-(1 / 1000)) c.velLimit 4)
  | .vz => ("z_vel", inspLimit [0, 1 / 10, 0, 1 / 100] (-(1 / 1000)) c.velLimit 5)

theorem discInspConstraints_eq (c : InspConfig) :
    discInspConstraints c = [.coll, .rel, .sun, .rmax, .psm, .vx, .vy, .vz].map (dC c) := rfl

theorem dC_mem (c : InspConfig) (k : InspIx) : dC c k ∈ discInspConstraints c := by
  rw [discInspConstraints_eq]
  cases k <;> simp

/-- The linear and cubic coefficients of the strengtheners. -/
noncomputable def dA : InspIx → ℝ
  | .coll => 1 / 100
  | .rel => 1 / 100
  | .sun => 1 / 1000
  | .rmax => 1 / 1000
  | .psm => 1 / 1000
  | .vx => 1 / 10
  | .vy => 1 / 10
  | .vz => 1 / 10

noncomputable def dB : InspIx → ℝ
  | .vx => 1 / 100
  | .vy => 1 / 100
  | .vz => 1 / 100
  | _ => 1 / 1000

theorem dB_nonneg (k : InspIx) : 0 ≤ dB k := by cases k <;> norm_num [dB]

theorem dC_alpha (c : InspConfig) (k : InspIx) : (dC c k).2.alpha = some (polyAlpha [0, dA k, 0, dB k]) := by cases k <;> rfl

theorem dC_enabled (c : InspConfig) (k : InspIx) : (dC c k).2.enabled = true := by cases k <;> rfl

theorem dC_noslack (c : InspConfig) (k : InspIx) : (dC c k).2.slackPriorityScale = none := by cases k <;> rfl

/-- What every constructed module looks like. -/
theorem discInsp_init {c : InspConfig} {epsilon : ℝ} {high low : Option (Bound ℝ)} {exc : Bool} {s : DiscObj ℝ (List ℝ) InspParams}
    (h : discInsp c high low epsilon exc = .ok s) :
    DiscInv s ∧ s.constraints = discInspConstraints c ∧ s.ext.controlDim = 3 ∧ s.ext.numSlack = 0 ∧ s.enable = true ∧
      s.controlBoundsLow = low ∧ s.controlBoundsHigh = high ∧ s.ext.solverException = exc := by
  refine ⟨discInv_init (by simp [dictKeys, discInspConstraints]) h, ?_⟩
  unfold discInsp discInit CBObj.init at h
  have e : selectConstraints (discInspConstraints c) none = .ok (discInspConstraints c) := rfl
  rw [e] at h
  simp only [Except.ok.injEq] at h
  subst h
  exact ⟨rfl, rfl, rfl, rfl, rfl, rfl, rfl⟩

theorem discInsp_init_ok (c : InspConfig) (high low : Option (Bound ℝ)) (epsilon : ℝ) (exc : Bool) :
    ∃ s, discInsp c high low epsilon exc = .ok s := ⟨_, rfl⟩

theorem jaxPad_eight {x : List ℝ} (hx : x.length = 8) : jaxPad x = x := by simp [jaxPad, hx]

theorem discInspNext_length {c : InspConfig} {x u : List ℝ} {dt : ℝ} : (discInspNext c x dt u).length = 8 := by
  simp [discInspNext, discreteNext, discreteA, discreteB, matVec, vadd]

/-! ### Values at any position off the centre -/

theorem coll_value {R a : ℝ} (ha : 0 ≤ a) {x : List ℝ} (h0 : norm2 (pySlice x 0 3) ≠ 0) :
    chiefCollision R a x = some ((if R ≤ norm2 (pySlice x 0 3) then √(2 * a * (norm2 (pySlice x 0 3) - R)) else
      -√(2 * a * (R - norm2 (pySlice x 0 3)))) + dot (pySlice x 0 3) (pySlice x 3 6) / norm2 (pySlice x 0 3)) := by
  unfold chiefCollision keepOut
  by_cases h : R ≤ norm2 (pySlice x 0 3)
  · have hs : ¬ 2 * a * (norm2 (pySlice x 0 3) - R) < 0 := not_lt.2 (mul_nonneg (by linarith) (by linarith))
    simp only [if_pos h, sqrtF, if_neg hs, divF, if_neg h0]
    rfl
  · have hs : ¬ 2 * a * (-norm2 (pySlice x 0 3) + R) < 0 := not_lt.2 (mul_nonneg (by linarith) (by linarith [not_le.1 h]))
    simp only [if_neg h, sqrtF, if_neg hs, divF, if_neg h0, sub_eq_neg_add R]
    rfl

theorem dist_value {R a : ℝ} (ha : 0 ≤ a) {x : List ℝ} (h0 : norm2 (pySlice x 0 3) ≠ 0) :
    maxDistance R a x = some ((if norm2 (pySlice x 0 3) ≤ R then √(2 * a * (R - norm2 (pySlice x 0 3))) else
      -√(2 * a * (norm2 (pySlice x 0 3) - R))) - dot (pySlice x 0 3) (pySlice x 3 6) / norm2 (pySlice x 0 3)) := by
  unfold maxDistance
  by_cases h : norm2 (pySlice x 0 3) ≤ R
  · have hs : ¬ 2 * a * (R - norm2 (pySlice x 0 3)) < 0 := not_lt.2 (mul_nonneg (by linarith) (by linarith))
    simp only [if_pos h, sqrtF, if_neg hs, divF, if_neg h0]
    rfl
  · have hs : ¬ 2 * a * (-R + norm2 (pySlice x 0 3)) < 0 := not_lt.2 (mul_nonneg (by linarith) (by linarith [not_le.1 h]))
    simp only [if_neg h, sqrtF, if_neg hs, divF, if_neg h0, sub_eq_neg_add (norm2 (pySlice x 0 3))]
    rfl

/-- The radial speed is at most the speed. -/
theorem radial_le {x : List ℝ} (hx : x.length = 8) (h0 : norm2 (pySlice x 0 3) ≠ 0) :
    |dot (pySlice x 0 3) (pySlice x 3 6) / norm2 (pySlice x 0 3)| ≤ norm2 (pySlice x 3 6) := by
  obtain ⟨hp, hv⟩ := slice_length hx
  have h1 : 0 < norm2 (pySlice x 0 3) := lt_of_le_of_ne (norm2_nonneg _) (Ne.symm h0)
  rw [abs_div, abs_of_pos h1, div_le_iff₀ h1]
  apply abs_le_of_sq_le_sq _ (mul_nonneg (norm2_nonneg _) h1.le)
  rw [mul_pow, norm2_sq hp, norm2_sq hv]
  linarith [cauchy3 hp hv]

/-- Speed from the per-axis limits. -/
theorem speed_le {x : List ℝ} (hx : x.length = 8) {L : ℝ} (hL : 0 ≤ L) (h : ∀ i < 3, comp x (i + 3) ^ 2 ≤ L ^ 2) :
    norm2 (pySlice x 3 6) ≤ √3 * L := by
  obtain ⟨hp, hv⟩ := slice_length hx
  apply le_of_sq_le_sq _ (mul_nonneg (sqrt_nonneg _) hL)
  rw [norm2_sq hv, sqNorm3 hv, mul_pow, sq_sqrt (by norm_num)]
  have := fun i hi => (comp_pos hx i hi).2
  rw [this 0 (by norm_num), this 1 (by norm_num), this 2 (by norm_num)]
  linarith [h 0 (by norm_num), h 1 (by norm_num), h 2 (by norm_num)]

end RTA
