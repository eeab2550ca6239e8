import Verif.Props.Zoo.InspectionMulti
import Verif.Props.Zoo.InspectionModule
import Verif.Props.Zoo.InspectionDiscreteRefuted

set_option linter.style.longLine false

/-! C70 and C72 for the default arguments of the inspection modules, with the limits as numbers. -/

namespace RTA

open Real Set

theorem inspDefault_ok : InspOK inspDefault where
  radius := inspStill_ok.radius
  aMax := inspStill_ok.aMax
  fov0 := inspStill_ok.fov0
  fov := inspStill_ok.fov

theorem multiDefault_ok : MultiOK multiDefault where
  toInspOK := ⟨inspStill_ok.radius, inspStill_ok.aMax, inspStill_ok.fov0, inspStill_ok.fov⟩
  deputies := by show 0 < 5; omega
  deputyRadius := by show (0 : ℝ) < 5; norm_num

/-- **C70 for the default arguments.** The single-inspector module as constructed without arguments, in the loop of
`C70_closed_loop`: up to `T` the deputy stays further than 10 m and closer than 1000 m from the chief, the angle between the direction to the sun and the
direction of the deputy stays above 30 degrees, and no velocity component reaches 1 m/s. -/
theorem C70_default {solver : Solver ℝ} (hspec : SolverSpec solver) {x u : ℝ → List ℝ}
    (hm : InspectionMotion (1027 / 1000000) 12 (-(1027 / 1000000)) x u) {T : ℝ}
    (hloop : ∀ t, 0 ≤ t → t < T → ∃ (s s' : ASIFObj ℝ (List ℝ) InspParams Unit) (dt : ℝ) (uDes : List ℝ),
      ExplicitModule solver (inspectionF inspDefault.n inspDefault.sunVel) (fun _ => inspectionG inspDefault.m) s ∧
      s.constraints = inspConstraints inspDefault ∧
      s.ext.controlDim = 3 ∧ s.ext.direct = [] ∧ s.enable = true ∧ uDes.length = 3 ∧ s.ext.solverException = true ∧
      explicitASIF solver (inspectionF inspDefault.n inspDefault.sunVel) (fun _ => inspectionG inspDefault.m) s (.array (x t)) dt uDes =
        (.ok (u t), s'))
    (hax : ∀ t, 0 ≤ t → t ≤ T → sqNorm (pySlice (x t) 0 3) ≠ dot (pySlice (x t) 0 3) (sunVector (x t)) ^ 2)
    (h0 : 10 < norm2 (pySlice (x 0) 0 3) ∧ norm2 (pySlice (x 0) 0 3) < 1000 ∧
      dot (pySlice (x 0) 0 3) (sunVector (x 0)) < norm2 (pySlice (x 0) 0 3) * (√3 / 2))
    (h0' : ∀ kc ∈ inspConstraints inspDefault, 0 < kc.2.value (x 0)) :
    ∀ t, 0 ≤ t → t ≤ T → 10 < norm2 (pySlice (x t) 0 3) ∧ norm2 (pySlice (x t) 0 3) < 1000 ∧
      dot (pySlice (x t) 0 3) (sunVector (x t)) < norm2 (pySlice (x t) 0 3) * (√3 / 2) ∧
      |comp (x t) 3| < 1 ∧ |comp (x t) 4| < 1 ∧ |comp (x t) 5| < 1 := by
  have hr := default_radius
  have hc := default_cos
  have hR : inspDefault.rMax = 1000 := rfl
  intro t ht htT
  obtain ⟨⟨h1, h2, h3⟩, hv⟩ := C70_closed_loop hspec inspDefault_ok (T := T) hm
    (fun t ht htT => by
      obtain ⟨s, s', dt, uDes, a, b, c, d, e, f, g, h⟩ := hloop t ht htT
      exact ⟨s, s', dt, uDes, a, b, c, d, e, f, Or.inl g, h⟩)
    hax ⟨by rw [hr]; exact h0.1, by rw [hR]; exact h0.2.1, by rw [hc]; exact h0.2.2⟩ h0' t ht htT
  have hlim : ∀ i, 0 < (1 : ℝ) ^ 2 - comp (x t) i ^ 2 + -(1 / 1000) → |comp (x t) i| < 1 := fun i h => by
    rw [← sq_lt_one_iff_abs_lt_one]; linarith
  rw [hr] at h1
  rw [hR] at h2
  rw [hc] at h3
  exact ⟨h1, h2, h3, hlim 3 (hv ("x_vel", inspLimit [0, 1 / 10, 0, 1 / 100] (-(1 / 1000)) inspDefault.velLimit 3) (by simp [inspConstraints, inspCommon])),
    hlim 4 (hv ("y_vel", inspLimit [0, 1 / 10, 0, 1 / 100] (-(1 / 1000)) inspDefault.velLimit 4) (by simp [inspConstraints, inspCommon])), hlim 5 (hv ("z_vel", inspLimit [0, 1 / 10, 0, 1 / 100] (-(1 / 1000)) inspDefault.velLimit 5) (by simp [inspConstraints, inspCommon]))⟩

/-- **C72 for the default arguments.** The multi-deputy module as constructed without arguments has five deputies and twenty
constraints. In the loop of `C72_closed_loop`, up to `T` the first deputy stays further than 10 m and closer than 1000 m from the chief and further than 10 m from each of the
four others, the sun stays out of its 60 degree field of view and out of the views along the lines between it and the others, and none of its velocity components
reaches 1 m/s. -/
theorem C72_default {solver : Solver ℝ} (hspec : SolverSpec solver) {x u : ℝ → List ℝ}
    (hm : FleetMotion (1027 / 1000000) 12 (-(1027 / 1000000)) 5 x (onlyFirst u)) {T : ℝ}
    (hloop : ∀ t, 0 ≤ t → t < T → ∃ (s s' : ASIFObj ℝ (List ℝ) InspParams Unit) (dt : ℝ) (uDes : List ℝ),
      ExplicitModule solver (multiF multiDefault) (fun _ => multiG multiDefault) s ∧ s.constraints = multiConstraints multiDefault ∧
      s.ext.controlDim = 3 ∧ s.ext.direct = [] ∧ s.enable = true ∧ uDes.length = 3 ∧ s.ext.solverException = true ∧
      explicitASIF solver (multiF multiDefault) (fun _ => multiG multiDefault) s (.array (x t)) dt uDes = (.ok (u t), s'))
    (hax : ∀ t, 0 ≤ t → t ≤ T → sqNorm (pySlice (x t) 0 3) ≠ dot (pySlice (x t) 0 3) (sunDirection (comp (x t) 30)) ^ 2)
    (hperp : ∀ t, 0 ≤ t → t ≤ T → ∀ i, 1 ≤ i → i ≤ 4 → dot (positionFrom i (x t)) (sunDirection (comp (x t) 30)) ≠ 0)
    (h0 : 10 < norm2 (pySlice (x 0) 0 3) ∧ norm2 (pySlice (x 0) 0 3) < 1000 ∧
      dot (pySlice (x 0) 0 3) (sunDirection (comp (x 0) 30)) < norm2 (pySlice (x 0) 0 3) * (√3 / 2) ∧
      ∀ i, 1 ≤ i → i ≤ 4 → 10 < norm2 (positionFrom i (x 0)) ∧
        |dot (positionFrom i (x 0)) (sunDirection (comp (x 0) 30))| < norm2 (positionFrom i (x 0)) * (√3 / 2))
    (h0' : ∀ kc ∈ multiConstraints multiDefault, 0 < kc.2.value (x 0)) :
    (multiConstraints multiDefault).length = 20 ∧
    ∀ t, 0 ≤ t → t ≤ T → 10 < norm2 (pySlice (x t) 0 3) ∧ norm2 (pySlice (x t) 0 3) < 1000 ∧
      dot (pySlice (x t) 0 3) (sunDirection (comp (x t) 30)) < norm2 (pySlice (x t) 0 3) * (√3 / 2) ∧
      (∀ i, 1 ≤ i → i ≤ 4 → 10 < norm2 (positionFrom i (x t)) ∧
        |dot (positionFrom i (x t)) (sunDirection (comp (x t) 30))| < norm2 (positionFrom i (x t)) * (√3 / 2)) ∧
      |comp (x t) 3| < 1 ∧ |comp (x t) 4| < 1 ∧ |comp (x t) 5| < 1 := by
  have hr : multiDefault.radius = 10 := default_radius
  have hc : cos (multiDefault.fov / 2) = √3 / 2 := default_cos
  have hR : multiDefault.rMax = 1000 := rfl
  have hD : multiDefault.deputyRadius * 2 = 10 := by show (5 : ℝ) * 2 = 10; norm_num
  have hN : multiDefault.numDeputies = 5 := rfl
  refine ⟨by simp [multiConstraints, multiOwn, multiPair, hN], ?_⟩
  intro t ht htT
  obtain ⟨⟨h1, h2, h3, h4, h5⟩, hv⟩ := C72_closed_loop hspec multiDefault_ok (T := T) hm
    (fun t ht htT => by
      obtain ⟨s, s', dt, uDes, a, b, c, d, e, f, g, h⟩ := hloop t ht htT
      exact ⟨s, s', dt, uDes, a, b, c, d, e, f, Or.inl g, h⟩)
    hax (fun t ht htT i hi hi' => hperp t ht htT i hi (by rw [hN] at hi'; omega))
    ⟨by rw [hr]; exact h0.1, by rw [hR]; exact h0.2.1, by rw [hc]; exact h0.2.2.1,
      fun i hi hi' => by rw [hD]; exact (h0.2.2.2 i hi (by rw [hN] at hi'; omega)).1,
      fun i hi hi' => by rw [hc]; exact (h0.2.2.2 i hi (by rw [hN] at hi'; omega)).2⟩ h0' t ht htT
  have hlim : ∀ i, 0 < (1 : ℝ) ^ 2 - comp (x t) i ^ 2 + -(1 / 1000) → |comp (x t) i| < 1 := fun i h => by
    rw [← sq_lt_one_iff_abs_lt_one]; linarith
  rw [hr] at h1
  rw [hR] at h2
  rw [hc] at h3
  refine ⟨h1, h2, h3, fun i hi hi' => ⟨?_, ?_⟩, hlim 3 (hv _ (multiC_mem (c := multiDefault) (mem_own _ .vx))),
    hlim 4 (hv _ (multiC_mem (c := multiDefault) (mem_own _ .vy))), hlim 5 (hv _ (multiC_mem (c := multiDefault) (mem_own _ .vz)))⟩
  · have := h4 i hi (by rw [hN]; omega)
    rwa [hD] at this
  · have := h5 i hi (by rw [hN]; omega)
    rwa [hc] at this

/-! ### The hypotheses on the start are met -/

/-- Five deputies at rest on the chief's orbit, 100, 300, 500, 700 and 900 m ahead of the chief, the sun 60 degrees off their line. -/
noncomputable def fiveRest : List ℝ :=
  [0, 100, 0, 0, 0, 0, 0, 300, 0, 0, 0, 0, 0, 500, 0, 0, 0, 0, 0, 700, 0, 0, 0, 0, 0, 900, 0, 0, 0, 0, π / 6]

/-- The sun moving away does not lower the sun constraint. -/
theorem orbitRest_sunH_le (d f : ℝ) {fov a w : ℝ} (hw : w ≤ 0) (hd : d ≠ 0) (hfov : fov / 2 = π / 6) :
    √(2 * a * (3 / 4 * |d| + d / 4)) ≤ sunH fov a w (orbitRest d 0 f) := by
  have e0 : dot (pySlice (orbitRest d 0 f) 0 3) (cross [0, 0, w] (sunVector (orbitRest d 0 f))) = -(d * w * (√3 / 2)) := by
    rw [dot3 rfl rfl]
    simp [orbitRest, pySlice, comp, sunVector, cross]
    ring
  have e1 : dot (pySlice (orbitRest d 0 f) 3 6) (sunVector (orbitRest d 0 f)) = 0 := by
    rw [dot3 rfl rfl]; simp [orbitRest, pySlice, comp, sunVector]
  unfold sunH coneRate
  rw [hfov, orbitRest_coneM, orbitRest_pv, e0, e1, orbitRest_axis, orbitRest_ps, cos_pi_div_six, sin_pi_div_six]
  have h3 : (0 : ℝ) < √3 := sqrt_pos.2 (by norm_num)
  have hd' : 0 < |d| := abs_pos.2 hd
  have e2 : √3 / 2 / (√3 / 2 * |d|) * (0 - -(d / 2) * (0 + -(d * w * (√3 / 2)))) - 1 / 2 * (0 + -(d * w * (√3 / 2))) =
      √3 / 4 * ((-w) * (|d| - d)) := by
    have : |d| * |d| = d * d := abs_mul_abs_self d
    field_simp
    linear_combination (4 * √3 * w) * this
  rw [e2]
  have := mul_nonneg (by linarith : (0 : ℝ) ≤ √3 / 4) (mul_nonneg (neg_nonneg.2 hw) (sub_nonneg.2 (le_abs_self d)))
  linarith

theorem fiveRest_rel {i : Nat} (h0 : 0 < i) (h1 : i < 5) (σ : ℝ) : relView σ i fiveRest = orbitRest (σ * -(200 * i)) 0 0 := by
  interval_cases i <;> simp [relView, orbitRest, fiveRest, comp] <;> norm_num

theorem fiveRest_from {i : Nat} (h0 : 0 < i) (h1 : i < 5) : positionFrom i fiveRest = pySlice (orbitRest (-(200 * i)) 0 0) 0 3 := by
  interval_cases i <;> simp [positionFrom, orbitRest, fiveRest, pySlice, vsub] <;> norm_num

theorem fiveRest_side {i : Nat} (h0 : 0 < i) (h1 : i < 5) : dot (positionFrom i fiveRest) (sunDirection (comp fiveRest 30)) = 100 * i := by
  have : sunDirection (comp fiveRest 30) = sunVector (orbitRest (-(200 * i)) 0 0) := rfl
  rw [fiveRest_from h0 h1, this, orbitRest_ps]; ring

theorem fiveRest_dist {i : Nat} (h0 : 0 < i) (h1 : i < 5) : norm2 (positionFrom i fiveRest) = 200 * i := by
  rw [fiveRest_from h0 h1, orbitRest_norm, abs_neg, abs_of_nonneg (by positivity)]

theorem fiveRest_norm : norm2 (pySlice fiveRest 0 3) = 100 := by
  rw [show pySlice fiveRest 0 3 = pySlice (orbitRest 100 0 0) 0 3 from rfl, orbitRest_norm]; norm_num

theorem fiveRest_sun : dot (pySlice fiveRest 0 3) (sunDirection (comp fiveRest 30)) = -50 := by
  have : sunDirection (comp fiveRest 30) = sunVector (orbitRest 100 0 0) := rfl
  rw [show pySlice fiveRest 0 3 = pySlice (orbitRest 100 0 0) 0 3 from rfl, this, orbitRest_ps]; norm_num

theorem fiveRest_axis : sqNorm (pySlice fiveRest 0 3) ≠ dot (pySlice fiveRest 0 3) (sunDirection (comp fiveRest 30)) ^ 2 := by
  rw [fiveRest_sun, ← norm2_sq rfl, fiveRest_norm]
  norm_num

theorem fiveRest_inside : FleetInside multiDefault fiveRest := by
  have hcos : cos (multiDefault.fov / 2) = √3 / 2 := default_cos
  have h3 := sqrt3_gt
  refine ⟨by rw [fiveRest_norm]; show inspDefault.radius < 100; rw [default_radius]; norm_num,
    by rw [fiveRest_norm]; show (100 : ℝ) < 1000; norm_num, ?_, fun i h0 h1 => ?_, fun i h0 h1 => ?_⟩
  · show dot (pySlice fiveRest 0 3) (sunDirection (comp fiveRest 30)) < _
    rw [fiveRest_norm, hcos, fiveRest_sun]
    linarith
  · have : (1 : ℝ) ≤ i := by exact_mod_cast h0
    rw [fiveRest_dist h0 h1]
    show (5 : ℝ) * 2 < 200 * i
    linarith
  · have : (1 : ℝ) ≤ i := by exact_mod_cast h0
    show |dot (positionFrom i fiveRest) (sunDirection (comp fiveRest 30))| < _
    rw [fiveRest_side h0 h1, fiveRest_dist h0 h1, hcos, abs_of_nonneg (by positivity)]
    nlinarith

theorem fiveRest_in : MultiIn multiDefault (fun _ => 1) fiveRest := by
  refine (fleet_inside_iff multiDefault_ok (fun _ => Or.inl rfl) rfl fiveRest_axis fun i h0 h1 => ?_).1 fiveRest_inside
  have : (1 : ℝ) ≤ i := by exact_mod_cast h0
  have := fiveRest_side h0 h1
  show 0 < 1 * dot (positionFrom i fiveRest) (sunDirection (comp fiveRest 30))
  rw [this]
  linarith

theorem fiveRest_values : ∀ kc ∈ multiConstraints multiDefault, 0 < kc.2.value fiveRest := by
  rw [multi_value_pos multiDefault_ok (fun _ => Or.inl rfl) fiveRest_in]
  have ha : 7 / 100 < multiDefault.aMax := inspStill_aMax
  have hrad : multiDefault.radius = 10 := default_radius
  have hfov : multiDefault.fov / 2 = π / 6 := multiStill_fov
  have hsv : multiDefault.sunVel ≤ 0 := by show (-(1027 / 1000000) : ℝ) ≤ 0; norm_num
  have hmarg : ∀ a y, 7 / 100 < a → 1 ≤ y → 1 / 1000 < √(2 * a * y) := fun a y ha hy => by
    rw [lt_sqrt (by norm_num)]
    nlinarith
  have hlim : ∀ i, stateAt (orbitRest 100 0 0) i = 0 → 0 < multiDefault.velLimit ^ 2 - stateAt (orbitRest 100 0 0) i ^ 2 + -(1 / 1000) + 0 := fun i h => by
    rw [h]
    show (0 : ℝ) < 1 ^ 2 - 0 ^ 2 + -(1 / 1000) + 0
    norm_num
  have hown : ownView fiveRest = orbitRest 100 0 0 := rfl
  have habs : ∀ i : Nat, |(1 : ℝ) * -(200 * i)| = 200 * i := fun i => by rw [one_mul, abs_neg, abs_of_nonneg (by positivity)]
  intro k hk j _
  cases k with
  | own k =>
    show 0 < inspH multiDefault.toInspConfig k j (ownView fiveRest) + mShift k
    rw [hown]
    cases k
    · show 0 < relativeVelocity 3 multiDefault.v0 (multiDefault.v1Coef * multiDefault.n) multiDefault.v0Distance (1 / 100000) (orbitRest 100 0 0) + -(1 / 1000)
        + -(1 / 1000)
      have e : relativeVelocity 3 multiDefault.v0 (multiDefault.v1Coef * multiDefault.n) multiDefault.v0Distance (1 / 100000) (orbitRest 100 0 0) =
          2 / 10 + 2 * (1027 / 1000000) * (√(0 ^ 2 + 100 ^ 2 + 0 ^ 2 + 1 / 100000) - 0) - √(0 ^ 2 + 0 ^ 2 + 0 ^ 2 + 1 / 100000) := by
        simp [relativeVelocity, normWithDelta, pySlice, orbitRest, multiDefault, inspDefault]
      rw [e]
      have h1 : √((0 : ℝ) ^ 2 + 0 ^ 2 + 0 ^ 2 + 1 / 100000) ≤ 1 / 100 := by
        rw [sqrt_le_left (by norm_num)]; norm_num
      have h2 := sqrt_nonneg ((0 : ℝ) ^ 2 + 100 ^ 2 + 0 ^ 2 + 1 / 100000)
      nlinarith
    · show 0 < sunH multiDefault.fov multiDefault.aMax multiDefault.sunVel (orbitRest 100 0 0) + -(1 / 1000) + 0
      have h1 := orbitRest_sunH_le 100 0 (a := multiDefault.aMax) hsv (by norm_num) hfov
      have := hmarg multiDefault.aMax (3 / 4 * |100| + 100 / 4) ha (by norm_num)
      linarith
    · show 0 < maxH multiDefault.rMax multiDefault.aMax (orbitRest 100 0 0) + -(1 / 1000) + 1 / 1000
      unfold maxH
      rw [orbitRest_pv, orbitRest_norm]
      have := hmarg multiDefault.aMax (multiDefault.rMax - |100|) ha (by show (1 : ℝ) ≤ 1000 - |100|; norm_num)
      linarith
    · show 0 < psmFutureState multiDefault.n (orbitRest 100 0 0) ((j + 1) * 1) multiDefault.radius + 0
      rw [orbitRest_psm, hrad]; norm_num
    · exact hlim 3 rfl
    · exact hlim 4 rfl
    · exact hlim 5 rfl
    · show 0 < chiefH multiDefault.radius multiDefault.aMax (orbitRest 100 0 0) + 0
      unfold chiefH
      rw [orbitRest_pv, orbitRest_norm, hrad]
      have := hmarg multiDefault.aMax (|100| - 10) ha (by norm_num)
      linarith
  | coll i =>
    have hi := mem_mAll.1 hk
    have hi1 : (1 : ℝ) ≤ i := by exact_mod_cast hi.1
    show 0 < chiefH (multiDefault.deputyRadius * 2) (2 * multiDefault.aMax) (relView 1 i fiveRest)
    rw [fiveRest_rel hi.1 hi.2]
    unfold chiefH
    rw [orbitRest_pv, orbitRest_norm, habs, zero_div, add_zero]
    have := hmarg (2 * multiDefault.aMax) (200 * i - multiDefault.deputyRadius * 2) (by linarith)
      (by show (1 : ℝ) ≤ 200 * i - 5 * 2; linarith)
    linarith
  | dsun i =>
    have hi := mem_mAll.1 hk
    have hi1 : (1 : ℝ) ≤ i := by exact_mod_cast hi.1
    show 0 < sunH multiDefault.fov multiDefault.aMax multiDefault.sunVel (relView 1 i fiveRest) + -(1 / 1000)
    rw [fiveRest_rel hi.1 hi.2]
    have h1 := orbitRest_sunH_le (1 * -(200 * i)) 0 (a := multiDefault.aMax) hsv (by linarith) hfov
    have := hmarg multiDefault.aMax (3 / 4 * |(1 : ℝ) * -(200 * i)| + 1 * -(200 * i) / 4) ha (by rw [habs]; linarith)
    linarith
  | psm i =>
    have hi := mem_mAll.1 hk
    have hi1 : (1 : ℝ) ≤ i := by exact_mod_cast hi.1
    show 0 < psmFutureState multiDefault.n (relView 1 i fiveRest) ((j + 1) * 1) multiDefault.radius
    rw [fiveRest_rel hi.1 hi.2, orbitRest_psm, hrad, habs]; linarith

/-- The hypotheses of `C72_default` on the start hold for five deputies at rest on the chief's orbit. -/
example : fiveRest.length = 6 * 5 + 1 ∧ FleetInside multiDefault fiveRest ∧ (∀ kc ∈ multiConstraints multiDefault, 0 < kc.2.value fiveRest) ∧
    sqNorm (pySlice fiveRest 0 3) ≠ dot (pySlice fiveRest 0 3) (sunDirection (comp fiveRest 30)) ^ 2 :=
  ⟨rfl, fiveRest_inside, fiveRest_values, fiveRest_axis⟩

end RTA
