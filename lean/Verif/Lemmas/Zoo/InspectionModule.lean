import Verif.Spec.Zoo.Inspection
import Verif.Lemmas.FlowEnd
import Verif.Lemmas.Zoo.Conic
import Verif.Lemmas.Zoo.PSM
import Mathlib.Analysis.Calculus.FDeriv.Pi
import Mathlib.Analysis.SpecialFunctions.Trigonometric.Deriv

/-!
The constraints of the inspection module in closed form, where they are differentiable, and along motions.
-/
namespace RTA
open Set Real Filter Topology

theorem vec8 (y : Fin 8 → ℝ) : List.ofFn y = [y 0, y 1, y 2, y 3, y 4, y 5, y 6, y 7] := by
  simp [List.ofFn_succ]

theorem list8 {x : List ℝ} (h : x.length = 8) :
    x = [comp x 0, comp x 1, comp x 2, comp x 3, comp x 4, comp x 5, comp x 6, comp x 7] := by
  match x, h with
  | [_, _, _, _, _, _, _, _], _ => rfl

/-! ### Values in closed form -/

/-- The chief collision constraint outside the sphere. -/
noncomputable def chiefH (R a : ℝ) (x : List ℝ) : ℝ :=
  √(2 * a * (norm2 (pySlice x 0 3) - R)) + dot (pySlice x 0 3) (pySlice x 3 6) / norm2 (pySlice x 0 3)

theorem chief_value {R a : ℝ} {x : List ℝ} (ha : 0 ≤ a) (hR : R ≤ norm2 (pySlice x 0 3)) (h0 : norm2 (pySlice x 0 3) ≠ 0) :
    (chiefCollision R a x).getD 0 = chiefH R a x := by
  have hs : ¬ 2 * a * (norm2 (pySlice x 0 3) - R) < 0 := not_lt.2 (mul_nonneg (by linarith) (by linarith))
  unfold chiefCollision keepOut chiefH
  simp only [if_pos hR, sqrtF, if_neg hs, divF, if_neg h0]
  rfl

/-- The maximum distance constraint inside. -/
noncomputable def maxH (R a : ℝ) (x : List ℝ) : ℝ :=
  √(2 * a * (R - norm2 (pySlice x 0 3))) - dot (pySlice x 0 3) (pySlice x 3 6) / norm2 (pySlice x 0 3)

theorem max_value {R a : ℝ} {x : List ℝ} (ha : 0 ≤ a) (hR : norm2 (pySlice x 0 3) ≤ R) (h0 : norm2 (pySlice x 0 3) ≠ 0) :
    (maxDistance R a x).getD 0 = maxH R a x := by
  have hs : ¬ 2 * a * (R - norm2 (pySlice x 0 3)) < 0 := not_lt.2 (mul_nonneg (by linarith) (by linarith))
  unfold maxDistance maxH
  simp only [if_pos hR, sqrtF, if_neg hs, divF, if_neg h0]
  rfl

/-- The rate of change of the signed distance from the cone. -/
noncomputable def coneRate (θ : ℝ) (w p v c : List ℝ) : ℝ :=
  cos θ / axisDist p c * (dot p v - dot p c * (dot v c + dot p (cross w c))) - sin θ * (dot v c + dot p (cross w c))

/-- The sun constraint outside the cone. -/
noncomputable def sunH (fov a sunVel : ℝ) (x : List ℝ) : ℝ :=
  √(2 * a * coneM (fov / 2) (pySlice x 0 3) (sunVector x)) +
    coneRate (fov / 2) [0, 0, sunVel] (pySlice x 0 3) (pySlice x 3 6) (sunVector x)

theorem conic_value {fov a : ℝ} (ha : 0 ≤ a) (hcos : cos (fov / 2) ≠ 0) {w p v c : List ℝ} (hw : w.length = 3) (hp : p.length = 3)
    (hv : v.length = 3) (hcl : c.length = 3) (hc : sqNorm c = 1) (hp0 : norm2 p ≠ 0) (hρ : axisDist p c ≠ 0)
    (hM : 0 < coneM (fov / 2) p c) :
    conicKeepOut fov a w p v c = some (√(2 * a * coneM (fov / 2) p c) + coneRate (fov / 2) w p v c) := by
  have hunit : vdivF c (norm2 c) = some c := by
    have : norm2 c = 1 := by unfold norm2; rw [hc, sqrt_one]
    simp [vdivF, this]
  have hs : ¬ 2 * a * coneM (fov / 2) p c < 0 := not_lt.2 (by positivity)
  have hr := coneM_rate (fov / 2) (cos (fov / 2) / axisDist p c) (coneM (fov / 2) p c) hw hp hv hcl
  have hdp : vsub p (vsub p (vscale (coneM (fov / 2) p c) (coneN (fov / 2) p c))) = vscale (coneM (fov / 2) p c) (coneN (fov / 2) p c) := by
    have hN3 : (coneN (fov / 2) p c).length = 3 := by simp [coneN, vsub, hp, hcl]
    generalize coneN (fov / 2) p c = N at hN3
    generalize coneM (fov / 2) p c = M
    rw [list3 hp, list3 hN3]
    simp [vsub, vscale]
  simp only [conicKeepOut, hunit, Option.bind_eq_bind, Option.bind_some, conicProj_eq hp hcl hc fov hcos hρ,
    conicMag_eq hp hcl hc fov hp0, if_pos hM.le, hdp, sqrtF, if_neg hs, divF, if_neg hM.ne', dot_vscale_left]
  rw [mul_div_cancel_left₀ _ hM.ne']
  change some _ = some _
  congr 2

theorem sun_value {fov a sunVel : ℝ} {x : List ℝ} (ha : 0 ≤ a) (hcos : cos (fov / 2) ≠ 0) (hx : x.length = 8)
    (hp0 : norm2 (pySlice x 0 3) ≠ 0) (hρ : axisDist (pySlice x 0 3) (sunVector x) ≠ 0)
    (hM : 0 < coneM (fov / 2) (pySlice x 0 3) (sunVector x)) :
    (conicKeepOut fov a [0, 0, sunVel] (pySlice x 0 3) (pySlice x 3 6) (sunVector x)).getD 0 = sunH fov a sunVel x := by
  have hu : sqNorm (sunVector x) = 1 := by
    rw [sqNorm3 rfl]; simp [sunVector, comp]
  rw [conic_value ha hcos rfl (by simp [pySlice, hx]) (by simp [pySlice, hx]) rfl hu hp0 hρ hM]
  rfl

/-! ### Differentiability -/

theorem norm8 (y : Fin 8 → ℝ) : norm2 (pySlice (List.ofFn y) 0 3) = √(y 0 ^ 2 + y 1 ^ 2 + y 2 ^ 2) := by
  rw [vec8]
  unfold norm2
  rw [sqNorm3 rfl]
  rfl

theorem dot8 (y : Fin 8 → ℝ) : dot (pySlice (List.ofFn y) 0 3) (pySlice (List.ofFn y) 3 6) = y 0 * y 3 + y 1 * y 4 + y 2 * y 5 := by
  rw [vec8, dot3 rfl rfl]
  rfl

theorem dots8 (y : Fin 8 → ℝ) : dot (pySlice (List.ofFn y) 0 3) (sunVector (List.ofFn y)) = -(y 0 * cos (y 6) + y 1 * sin (y 6)) := by
  rw [vec8, dot3 rfl rfl]
  show y 0 * -cos (y 6) + y 1 * -sin (y 6) + y 2 * 0 = _
  ring

theorem dotv8 (y : Fin 8 → ℝ) (w : ℝ) : dot (pySlice (List.ofFn y) 3 6) (sunVector (List.ofFn y)) +
    dot (pySlice (List.ofFn y) 0 3) (cross [0, 0, w] (sunVector (List.ofFn y))) =
    -(y 3 * cos (y 6) + y 4 * sin (y 6)) + w * (y 0 * sin (y 6) - y 1 * cos (y 6)) := by
  rw [vec8, dot3 rfl rfl, dot3 rfl rfl]
  simp [sunVector, cross, comp, pySlice]
  ring

theorem axis8 (y : Fin 8 → ℝ) : axisDist (pySlice (List.ofFn y) 0 3) (sunVector (List.ofFn y)) =
    √(y 0 ^ 2 + y 1 ^ 2 + y 2 ^ 2 - (y 0 * cos (y 6) + y 1 * sin (y 6)) ^ 2) := by
  unfold axisDist
  rw [dots8, vec8, sqNorm3 rfl, neg_sq]
  rfl

theorem chief_diff {R a : ℝ} (ha : 0 < a) (hR : 0 ≤ R) {y0 : Fin 8 → ℝ} (h : R < norm2 (pySlice (List.ofFn y0) 0 3)) :
    DifferentiableAt ℝ (fun y : Fin 8 → ℝ => (chiefCollision R a (List.ofFn y)).getD 0) y0 := by
  rw [norm8] at h
  have h1 : √(y0 0 ^ 2 + y0 1 ^ 2 + y0 2 ^ 2) ≠ 0 := (hR.trans_lt h).ne'
  have h2 : y0 0 ^ 2 + y0 1 ^ 2 + y0 2 ^ 2 ≠ 0 := fun e => h1 (by rw [e, sqrt_zero])
  have h3 : 2 * a * (√(y0 0 ^ 2 + y0 1 ^ 2 + y0 2 ^ 2) - R) ≠ 0 := (mul_pos (by linarith) (by linarith)).ne'
  have hd : DifferentiableAt ℝ (fun y : Fin 8 → ℝ => √(2 * a * (√(y 0 ^ 2 + y 1 ^ 2 + y 2 ^ 2) - R)) +
      (y 0 * y 3 + y 1 * y 4 + y 2 * y 5) / √(y 0 ^ 2 + y 1 ^ 2 + y 2 ^ 2)) y0 := by fun_prop (disch := assumption)
  refine hd.congr_of_eventuallyEq ?_
  have hc : ContinuousAt (fun y : Fin 8 → ℝ => √(y 0 ^ 2 + y 1 ^ 2 + y 2 ^ 2)) y0 := by fun_prop
  filter_upwards [hc.eventually (lt_mem_nhds h)] with y hy
  have hy' : R < norm2 (pySlice (List.ofFn y) 0 3) := by rw [norm8]; exact hy
  rw [chief_value ha.le hy'.le (hR.trans_lt hy').ne', chiefH, norm8, dot8]

theorem max_diff {R a : ℝ} (ha : 0 < a) {y0 : Fin 8 → ℝ} (h0 : 0 < norm2 (pySlice (List.ofFn y0) 0 3))
    (h : norm2 (pySlice (List.ofFn y0) 0 3) < R) :
    DifferentiableAt ℝ (fun y : Fin 8 → ℝ => (maxDistance R a (List.ofFn y)).getD 0) y0 := by
  rw [norm8] at h h0
  have h1 : √(y0 0 ^ 2 + y0 1 ^ 2 + y0 2 ^ 2) ≠ 0 := h0.ne'
  have h2 : y0 0 ^ 2 + y0 1 ^ 2 + y0 2 ^ 2 ≠ 0 := fun e => h1 (by rw [e, sqrt_zero])
  have h3 : 2 * a * (R - √(y0 0 ^ 2 + y0 1 ^ 2 + y0 2 ^ 2)) ≠ 0 := (mul_pos (by linarith) (by linarith)).ne'
  have hd : DifferentiableAt ℝ (fun y : Fin 8 → ℝ => √(2 * a * (R - √(y 0 ^ 2 + y 1 ^ 2 + y 2 ^ 2))) -
      (y 0 * y 3 + y 1 * y 4 + y 2 * y 5) / √(y 0 ^ 2 + y 1 ^ 2 + y 2 ^ 2)) y0 := by fun_prop (disch := assumption)
  refine hd.congr_of_eventuallyEq ?_
  have hc : ContinuousAt (fun y : Fin 8 → ℝ => √(y 0 ^ 2 + y 1 ^ 2 + y 2 ^ 2)) y0 := by fun_prop
  filter_upwards [hc.eventually (lt_mem_nhds h0), hc.eventually (gt_mem_nhds h)] with y hy0 hy
  have hy' : norm2 (pySlice (List.ofFn y) 0 3) < R := by rw [norm8]; exact hy
  have hy0' : 0 < norm2 (pySlice (List.ofFn y) 0 3) := by rw [norm8]; exact hy0
  rw [max_value ha.le hy'.le hy0'.ne', maxH, norm8, dot8]

theorem sun_diff {fov a sunVel : ℝ} (ha : 0 < a) (hcos : cos (fov / 2) ≠ 0) {y0 : Fin 8 → ℝ}
    (h0 : 0 < norm2 (pySlice (List.ofFn y0) 0 3)) (hρ : axisDist (pySlice (List.ofFn y0) 0 3) (sunVector (List.ofFn y0)) ≠ 0)
    (hM : 0 < coneM (fov / 2) (pySlice (List.ofFn y0) 0 3) (sunVector (List.ofFn y0))) :
    DifferentiableAt ℝ (fun y : Fin 8 → ℝ => (conicKeepOut fov a [0, 0, sunVel] (pySlice (List.ofFn y) 0 3) (pySlice (List.ofFn y) 3 6)
      (sunVector (List.ofFn y))).getD 0) y0 := by
  have eM : ∀ y : Fin 8 → ℝ, coneM (fov / 2) (pySlice (List.ofFn y) 0 3) (sunVector (List.ofFn y)) =
      cos (fov / 2) * √(y 0 ^ 2 + y 1 ^ 2 + y 2 ^ 2 - (y 0 * cos (y 6) + y 1 * sin (y 6)) ^ 2) +
        sin (fov / 2) * (y 0 * cos (y 6) + y 1 * sin (y 6)) := by
    intro y
    unfold coneM
    rw [axis8, dots8]; ring
  rw [norm8] at h0
  rw [axis8] at hρ
  rw [eM] at hM
  have h2 : y0 0 ^ 2 + y0 1 ^ 2 + y0 2 ^ 2 - (y0 0 * cos (y0 6) + y0 1 * sin (y0 6)) ^ 2 ≠ 0 := fun e => hρ (by rw [e, sqrt_zero])
  have h3 : 2 * a * (cos (fov / 2) * √(y0 0 ^ 2 + y0 1 ^ 2 + y0 2 ^ 2 - (y0 0 * cos (y0 6) + y0 1 * sin (y0 6)) ^ 2) +
        sin (fov / 2) * (y0 0 * cos (y0 6) + y0 1 * sin (y0 6))) ≠ 0 := (mul_pos (by linarith) hM).ne'
  have hd : DifferentiableAt ℝ (fun y : Fin 8 → ℝ =>
      √(2 * a * (cos (fov / 2) * √(y 0 ^ 2 + y 1 ^ 2 + y 2 ^ 2 - (y 0 * cos (y 6) + y 1 * sin (y 6)) ^ 2) +
        sin (fov / 2) * (y 0 * cos (y 6) + y 1 * sin (y 6)))) +
      (cos (fov / 2) / √(y 0 ^ 2 + y 1 ^ 2 + y 2 ^ 2 - (y 0 * cos (y 6) + y 1 * sin (y 6)) ^ 2) *
        ((y 0 * y 3 + y 1 * y 4 + y 2 * y 5) - -(y 0 * cos (y 6) + y 1 * sin (y 6)) *
          (-(y 3 * cos (y 6) + y 4 * sin (y 6)) + sunVel * (y 0 * sin (y 6) - y 1 * cos (y 6)))) -
        sin (fov / 2) * (-(y 3 * cos (y 6) + y 4 * sin (y 6)) + sunVel * (y 0 * sin (y 6) - y 1 * cos (y 6))))) y0 := by
    fun_prop (disch := assumption)
  refine hd.congr_of_eventuallyEq ?_
  have hc : ContinuousAt (fun y : Fin 8 → ℝ => √(y 0 ^ 2 + y 1 ^ 2 + y 2 ^ 2)) y0 := by fun_prop
  have hc2 : ContinuousAt (fun y : Fin 8 → ℝ => √(y 0 ^ 2 + y 1 ^ 2 + y 2 ^ 2 - (y 0 * cos (y 6) + y 1 * sin (y 6)) ^ 2)) y0 := by fun_prop
  have hc3 : ContinuousAt (fun y : Fin 8 → ℝ => cos (fov / 2) * √(y 0 ^ 2 + y 1 ^ 2 + y 2 ^ 2 - (y 0 * cos (y 6) + y 1 * sin (y 6)) ^ 2) +
        sin (fov / 2) * (y 0 * cos (y 6) + y 1 * sin (y 6))) y0 := by fun_prop
  filter_upwards [hc.eventually (lt_mem_nhds h0), hc2.eventually_ne hρ, hc3.eventually (lt_mem_nhds hM)] with y hy0 hy1 hy2
  have hy0' : 0 < norm2 (pySlice (List.ofFn y) 0 3) := by rw [norm8]; exact hy0
  rw [sun_value ha.le hcos (by simp) hy0'.ne' (by rw [axis8]; exact hy1) (by rw [eM]; exact hy2), sunH, eM, coneRate, axis8, dot8, dots8, dotv8]

theorem rel_diff {v0 v1 v0Distance : ℝ} {y0 : Fin 8 → ℝ} :
    DifferentiableAt ℝ (fun y : Fin 8 → ℝ => relativeVelocity 3 v0 v1 v0Distance (1 / 100000) (List.ofFn y)) y0 := by
  have h1 : y0 0 ^ 2 + y0 1 ^ 2 + y0 2 ^ 2 + 1 / 100000 ≠ 0 := by positivity
  have h2 : y0 3 ^ 2 + y0 4 ^ 2 + y0 5 ^ 2 + 1 / 100000 ≠ 0 := by positivity
  have hd : DifferentiableAt ℝ (fun y : Fin 8 → ℝ => v0 + v1 * (√(y 0 ^ 2 + y 1 ^ 2 + y 2 ^ 2 + 1 / 100000) - v0Distance) -
      √(y 3 ^ 2 + y 4 ^ 2 + y 5 ^ 2 + 1 / 100000)) y0 := by fun_prop (disch := assumption)
  refine hd.congr_of_eventuallyEq (Eventually.of_forall fun y => ?_)
  simp only [vec8]
  simp [relativeVelocity, normWithDelta, pySlice, add_assoc]

theorem psm_diff {n t R : ℝ} (hR : 0 ≤ R) {y0 : Fin 8 → ℝ} (h : 0 < psmFutureState n (List.ofFn y0) t R) :
    DifferentiableAt ℝ (fun y : Fin 8 → ℝ => psmFutureState n (List.ofFn y) t R) y0 := by
  have e : ∀ y : Fin 8 → ℝ, psmFutureState n (List.ofFn y) t R =
      √(((4 - 3 * cos (n * t)) * y 0 + sin (n * t) * y 3 / n + 2 / n * (1 - cos (n * t)) * y 4) ^ 2 +
        (6 * (sin (n * t) - n * t) * y 0 + y 1 - 2 / n * (1 - cos (n * t)) * y 3 + (4 * sin (n * t) - 3 * n * t) * y 4 / n) ^ 2 +
        (y 2 * cos (n * t) + y 5 / n * sin (n * t)) ^ 2) - R := by
    intro y
    rw [vec8]
    unfold psmFutureState norm2
    simp only
    rw [sqNorm3 rfl]
    rfl
  rw [e] at h
  have h1 : (((4 - 3 * cos (n * t)) * y0 0 + sin (n * t) * y0 3 / n + 2 / n * (1 - cos (n * t)) * y0 4) ^ 2 +
        (6 * (sin (n * t) - n * t) * y0 0 + y0 1 - 2 / n * (1 - cos (n * t)) * y0 3 + (4 * sin (n * t) - 3 * n * t) * y0 4 / n) ^ 2 +
        (y0 2 * cos (n * t) + y0 5 / n * sin (n * t)) ^ 2) ≠ 0 := fun e => by rw [e, sqrt_zero] at h; linarith
  refine DifferentiableAt.congr_of_eventuallyEq ?_ (Eventually.of_forall e)
  have hs : (fun y : Fin 8 → ℝ => y 5 / n) = fun y => y 5 * n⁻¹ := rfl
  simp only [div_eq_mul_inv] at h1 ⊢
  fun_prop (disch := assumption)

end RTA
