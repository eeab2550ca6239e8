import Verif.Lemmas.Zoo.Conic

/-!
C47: the position term of the conic keep-out constraint has the sign of the angular margin. C58: the constraint protects the
cone along trajectories. C49: motion of the sun in the continuous and the discrete module.
-/
namespace RTA
open Set Real

/-- Normalising a nonzero vector. -/
theorem unit_spec {c unit : List ℝ} (hcl : c.length = 3) (hu : vdivF c (norm2 c) = some unit) :
    unit.length = 3 ∧ sqNorm unit = 1 ∧ norm2 c ≠ 0 ∧ ∀ p : List ℝ, p.length = 3 → dot p unit = dot p c / norm2 c := by
  unfold vdivF at hu
  split_ifs at hu with h
  obtain rfl := Option.some.inj hu
  have hsq := norm2_sq hcl
  refine ⟨by simp [hcl], ?_, h, fun p hp => ?_⟩
  · rw [sqNorm3 (by simp [hcl])]
    rw [sqNorm3 hcl] at hsq
    generalize norm2 c = r at h hsq
    match c, hcl with
    | [c1, c2, c3], _ =>
      simp only [comp, List.map_cons, List.map_nil, List.getD_cons_zero, List.getD_cons_succ] at hsq ⊢
      field_simp
      linarith
  · generalize norm2 c = r at h
    match p, hp, c, hcl with
    | [p1, p2, p3], _, [c1, c2, c3], _ =>
      rw [dot3 rfl rfl, dot3 rfl rfl]
      simp only [comp, List.map_cons, List.map_nil, List.getD_cons_zero, List.getD_cons_succ]
      field_simp

/-- **C47.** The distance-like term of the conic keep-out constraint is nonnegative exactly when the angle `φ` between the
position and the axis of the cone is at least half the field of view. -/
theorem C47_sign {fov φ mag : ℝ} {pos coneVec unit : List ℝ} (hp : pos.length = 3) (hcl : coneVec.length = 3)
    (hu : vdivF coneVec (norm2 coneVec) = some unit) (hmag : conicMag fov pos unit = some mag)
    (hfov0 : 0 ≤ fov) (hfov : fov < 2 * π) (hφ0 : 0 ≤ φ) (hφ : φ ≤ π)
    (hang : dot pos coneVec = √(sqNorm pos) * √(sqNorm coneVec) * cos φ) : 0 ≤ mag ↔ fov / 2 ≤ φ := by
  obtain ⟨hul, hu1, hne, hdot⟩ := unit_spec hcl hu
  have hp0 : norm2 pos ≠ 0 := by
    intro h
    simp [conicMag, vdivF, h] at hmag
  rw [conicMag_eq hp hul hu1 fov hp0] at hmag
  obtain rfl := Option.some.inj hmag
  refine coneM_sign hp hp0 (by linarith) (by linarith) hφ0 hφ ?_
  rw [hdot pos hp, hang]
  change norm2 pos * norm2 coneVec * cos φ / norm2 coneVec = _
  field_simp

/-- **C47.** It is defined away from the origin, and its absolute value is the distance to the nearest point of the cone that the
constraint computes. -/
theorem C47_distance {fov : ℝ} {pos unit : List ℝ} (hp : pos.length = 3) (hul : unit.length = 3) (hu1 : sqNorm unit = 1)
    (hp0 : 0 < sqNorm pos) (hcos : cos (fov / 2) ≠ 0) {proj : List ℝ} (hproj : conicProj fov pos unit = some proj) :
    ∃ mag, conicMag fov pos unit = some mag ∧ |mag| = √(sqNorm (vsub pos proj)) := by
  refine ⟨_, conicMag_eq hp hul hu1 fov (sqrt_pos.2 hp0).ne', ?_⟩
  have hρ : axisDist pos unit ≠ 0 := by
    intro h
    simp [conicProj, posCone_norm hp hul hu1, vdivF, h] at hproj
  rw [conicProj_eq hp hul hu1 fov hcos hρ] at hproj
  obtain rfl := Option.some.inj hproj
  have hax := axis_sq hp hul hu1
  generalize coneM (fov / 2) pos unit = M
  have key : sqNorm (vsub pos (vsub pos (vscale M (coneN (fov / 2) pos unit)))) = M ^ 2 := by
    unfold coneN
    have hd := dot3 hp hul
    generalize dot pos unit = s at hd hax
    generalize axisDist pos unit = ρ at hρ hax
    have ht := sin_sq_add_cos_sq (fov / 2)
    generalize sin (fov / 2) = σ at ht
    generalize cos (fov / 2) = κ at ht
    rw [sqNorm3 hp] at hax
    rw [sqNorm3 hul] at hu1
    match pos, hp, unit, hul with
    | [p1, p2, p3], _, [c1, c2, c3], _ =>
      rw [sqNorm3 rfl]
      simp only [vsub, vscale, comp, List.map_cons, List.map_nil, List.zipWith_cons_cons, List.zipWith_nil_right,
        List.getD_cons_zero, List.getD_cons_succ] at hax hu1 hd ⊢
      have e1 : κ ^ 2 / ρ ^ 2 * ρ ^ 2 = κ ^ 2 := by field_simp
      have e2 : (κ / ρ) ^ 2 = κ ^ 2 / ρ ^ 2 := by ring
      have e3 : (p1 - (p1 - M * (κ / ρ * (p1 - s * c1) - σ * c1))) ^ 2 + (p2 - (p2 - M * (κ / ρ * (p2 - s * c2) - σ * c2))) ^ 2 +
          (p3 - (p3 - M * (κ / ρ * (p3 - s * c3) - σ * c3))) ^ 2 =
          M ^ 2 * ((κ / ρ) ^ 2 * (p1 ^ 2 + p2 ^ 2 + p3 ^ 2 - 2 * s * (p1 * c1 + p2 * c2 + p3 * c3) +
            s ^ 2 * (c1 ^ 2 + c2 ^ 2 + c3 ^ 2)) - 2 * (κ / ρ) * σ * ((p1 * c1 + p2 * c2 + p3 * c3) -
            s * (c1 ^ 2 + c2 ^ 2 + c3 ^ 2)) + σ ^ 2 * (c1 ^ 2 + c2 ^ 2 + c3 ^ 2)) := by ring
      rw [e3, hu1, ← hd]
      have e4 : p1 ^ 2 + p2 ^ 2 + p3 ^ 2 - 2 * s * s + s ^ 2 * 1 = ρ ^ 2 := by rw [hax]; ring
      rw [e4, e2, e1]
      linear_combination M ^ 2 * ht
  rw [key, sqrt_sq_eq_abs]

/-- **C47.** The safety value of the constraint is nonnegative exactly when the distance-like term is. -/
theorem C47_phi {fov φ mag : ℝ} {pos coneVec unit : List ℝ} (hp : pos.length = 3) (hcl : coneVec.length = 3)
    (hu : vdivF coneVec (norm2 coneVec) = some unit) (hmag : conicMag fov pos unit = some mag)
    (hfov0 : 0 ≤ fov) (hfov : fov < 2 * π) (hφ : conicPhi fov pos coneVec = some φ) : 0 ≤ φ ↔ 0 ≤ mag := by
  obtain ⟨hul, hu1, hne, hdot⟩ := unit_spec hcl hu
  have hp0 : norm2 pos ≠ 0 := by
    intro h
    simp [conicMag, vdivF, h] at hmag
  have hp0' : vdivF pos (norm2 pos) = some (pos.map (· / norm2 pos)) := by simp [vdivF, hp0]
  obtain ⟨hl, hr⟩ := cos_angle_mem hp hul hu1 hp0
  have hd : dot (pos.map (· / norm2 pos)) unit = dot pos unit / norm2 pos := by
    rw [dot_comm, dot_unit hp hul hu1 hp0]
  simp only [conicPhi, hp0', hu, Option.bind_eq_bind, Option.bind_some, hd, arccosF] at hφ
  rw [if_neg (by push Not; exact ⟨hl, hr⟩)] at hφ
  have hφ' : arccos (dot pos unit / norm2 pos) - fov / 2 = φ := Option.some.inj hφ
  rw [C47_sign hp hcl hu hmag hfov0 hfov (arccos_nonneg (dot pos unit / norm2 pos)) (arccos_le_pi _) ?_, ← hφ']
  · constructor <;> intro h <;> linarith
  · rw [cos_arccos hl hr, hdot pos hp]
    change _ = norm2 pos * norm2 coneVec * _
    field_simp

/-- **C58.** If the conic keep-out constraint is never negative along a trajectory that never meets the chief's centre and starts
outside the cone, the trajectory never enters the cone, although the cone turns: `c` is the (unit) axis, turning with the
configured angular velocity. The constraint may be undefined (NaN) at some times. -/
theorem C58_protects {fov aMax : ℝ} (ha : 0 ≤ aMax) (hfov0 : 0 < fov) (hfov : fov < π) {angVel : List ℝ} (hw : angVel.length = 3)
    {p v c : ℝ → List ℝ} (hm : Moves p v) (hc : Moves c (fun t => cross angVel (c t))) (hunit : ∀ t, 0 ≤ t → sqNorm (c t) = 1)
    (hp0 : ∀ t, 0 ≤ t → 0 < sqNorm (p t))
    (hh : ∀ t, 0 ≤ t → ∀ h, conicKeepOut fov aMax angVel (p t) (v t) (c t) = some h → 0 ≤ h)
    (hstart : ∀ φ, 0 ≤ φ → φ ≤ π → dot (p 0) (c 0) = √(sqNorm (p 0)) * cos φ → fov / 2 ≤ φ)
    {t φ : ℝ} (ht : 0 ≤ t) (hφ0 : 0 ≤ φ) (hφ : φ ≤ π) (hang : dot (p t) (c t) = √(sqNorm (p t)) * cos φ) : fov / 2 ≤ φ := by
  have hne : ∀ t, 0 ≤ t → norm2 (p t) ≠ 0 := fun t ht => (sqrt_pos.2 (hp0 t ht)).ne'
  have hs : 0 ≤ coneM (fov / 2) (p 0) (c 0) := by
    obtain ⟨hl, hr⟩ := cos_angle_mem (hm.lenP 0 le_rfl) (hc.lenP 0 le_rfl) (hunit 0 le_rfl) (hne 0 le_rfl)
    have hcosφ : dot (p 0) (c 0) = norm2 (p 0) * cos (arccos (dot (p 0) (c 0) / norm2 (p 0))) := by
      rw [cos_arccos hl hr]
      have := hne 0 le_rfl
      field_simp
    rw [coneM_sign (hm.lenP 0 le_rfl) (hne 0 le_rfl) (by linarith) (by linarith) (arccos_nonneg _) (arccos_le_pi _) hcosφ]
    exact hstart _ (arccos_nonneg _) (arccos_le_pi _) hcosφ
  have := conic_stays ha hfov0 hfov hw hm hc hunit hne hh hs t ht
  exact (coneM_sign (hm.lenP t ht) (hne t ht) (by linarith) (by linarith) hφ0 hφ hang).1 this

/-- The sun vector of the module turns with the angular velocity the module configures, when the sun angle changes at the
rate `sunVel`, as it does in the module's dynamics. -/
theorem C58_sun_turns {sunVel : ℝ} {x : ℝ → List ℝ}
    (hc : ContinuousOn (fun t => comp (x t) 6) (Ici 0))
    (hd : ∀ t, 0 ≤ t → HasDerivWithinAt (fun s => comp (x s) 6) sunVel (Ici t) t) :
    Moves (fun t => sunVector (x t)) (fun t => cross [0, 0, sunVel] (sunVector (x t))) := by
  refine ⟨fun _ _ => rfl, fun _ _ => rfl, fun i hi => ?_, fun i hi t ht => ?_⟩
  · interval_cases i
    · exact (Real.continuous_cos.comp_continuousOn hc).neg
    · exact (Real.continuous_sin.comp_continuousOn hc).neg
    · exact continuousOn_const
  · interval_cases i
    · refine ((hd t ht).cos.neg).congr_deriv ?_
      simp [cross, sunVector, comp]; ring
    · refine ((hd t ht).sin.neg).congr_deriv ?_
      simp [cross, sunVector, comp]; ring
    · refine (hasDerivWithinAt_const _ _ (0 : ℝ)).congr_deriv ?_
      simp [cross, sunVector, comp]

theorem sun_unit (x : List ℝ) : sqNorm (sunVector x) = 1 := by
  rw [sqNorm3 rfl]
  simp [sunVector, comp]

/-- **C58.** For the inspection module: along every trajectory of its dynamics that never meets the chief's centre, on which its sun
constraint is never negative, and which starts with the sun at least half a field of view off the line of sight, the sun stays
out of the field of view. -/
theorem C58_inspection {D : Set (List ℝ)} {n m sunVel fov aMax : ℝ} (ha : 0 ≤ aMax) (hfov0 : 0 < fov) (hfov : fov < π)
    {x u : ℝ → List ℝ} (ht : Trajectory D 8 (inspectionF n sunVel) (fun _ => inspectionG m) x u)
    (hm : Moves (fun t => pySlice (x t) 0 3) (fun t => pySlice (x t) 3 6))
    (hu : ∀ t, 0 ≤ t → (u t).length = 3)
    (hp0 : ∀ t, 0 ≤ t → 0 < sqNorm (pySlice (x t) 0 3))
    (hh : ∀ t, 0 ≤ t → ∀ h,
      conicKeepOut fov aMax [0, 0, sunVel] (pySlice (x t) 0 3) (pySlice (x t) 3 6) (sunVector (x t)) = some h → 0 ≤ h)
    (hstart : ∀ φ, 0 ≤ φ → φ ≤ π → dot (pySlice (x 0) 0 3) (sunVector (x 0)) = √(sqNorm (pySlice (x 0) 0 3)) * cos φ → fov / 2 ≤ φ)
    {t φ : ℝ} (ht0 : 0 ≤ t) (hφ0 : 0 ≤ φ) (hφ : φ ≤ π)
    (hang : dot (pySlice (x t) 0 3) (sunVector (x t)) = √(sqNorm (pySlice (x t) 0 3)) * cos φ) : fov / 2 ≤ φ := by
  refine C58_protects ha hfov0 hfov rfl hm (C58_sun_turns (ht.cont 6 (by omega)) fun t h => ?_) (fun t _ => sun_unit (x t)) hp0 hh
    hstart ht0 hφ0 hφ hang
  refine (ht.deriv t h 6 (by omega)).congr_deriv ?_
  have e := (ht.curve t h).2
  have eu := hu t h
  generalize x t = l at e
  generalize u t = w at eu
  match l, e, w, eu with
  | [a, b, c, d, e, f, g, h], _, [u1, u2, u3], _ =>
    simp [inspectionF, inspectionG, cwhA3, cwhB3, matVec, vadd]

/-- The constraint does have values: at right angles to the sun. -/
example : conicMag (π / 3) [0, 1, 0] [1, 0, 0] = some (√3 / 2) := by
  rw [conicMag_eq rfl rfl (by rw [sqNorm3 rfl]; simp [comp]) _ (by unfold norm2; rw [sqNorm3 rfl]; simp [comp])]
  unfold coneM axisDist
  rw [sqNorm3 rfl, dot3 rfl rfl]
  simp only [comp, List.getD_cons_zero, List.getD_cons_succ]
  have : π / 3 / 2 = π / 6 := by ring
  rw [this, cos_pi_div_six]
  norm_num

/-! ### C49 -/

/-- **C49.** The sun angle predicted by the discrete module agrees with the one reached by the continuous module's dynamics only when
the sun does not move during the step: the two modules turn the sun in opposite directions. `z` is any trajectory of the
continuous module's dynamics from the same state. -/
theorem C49_agrees_iff_partial {n m sunVel dt : ℝ} {state control : List ℝ} (hu : control.length = 3)
    {z : ℝ → List ℝ} (hz : ∀ t, (z t).length = 8)
    (hd : ∀ i, i < 8 → ∀ t, HasDerivAt (fun τ => comp (z τ) i)
      (comp (vadd (inspectionF n sunVel (z t)) (matVec (inspectionG m) control)) i) t)
    (h0 : z 0 = state) : comp (discreteNext n m sunVel state dt control) 6 = comp (z dt) 6 ↔ sunVel * dt = 0 := by
  have h6 : ∀ t, HasDerivAt (fun τ => comp (z τ) 6 - sunVel * τ) 0 t := fun t => by
    have h1 := (hd 6 (by omega) t).sub ((hasDerivAt_id t).const_mul sunVel)
    refine h1.congr_deriv ?_
    have e := hz t
    generalize z t = l at e
    match l, e, control, hu with
    | [a, b, c, d, e, f, g, h], _, [u1, u2, u3], _ =>
      simp [inspectionF, inspectionG, cwhA3, cwhB3, matVec, vadd, comp]
  have hconst := const_of_deriv_zero h6 dt 0
  simp only [mul_zero, sub_zero, h0] at hconst
  have e : comp (discreteNext n m sunVel state dt control) 6 = comp state 6 - sunVel * dt := rfl
  rw [e]
  constructor
  · intro h; linarith
  · intro h; linarith

/-- **C49 is false**: with the default direction of rotation the two modules disagree after every step of positive length. -/
theorem C49_refuted : ∃ (n m sunVel dt : ℝ) (z : ℝ → List ℝ), n ≠ 0 ∧ 0 < dt ∧
    (∀ i, i < 8 → ∀ t, HasDerivAt (fun τ => comp (z τ) i)
      (comp (vadd (inspectionF n sunVel (z t)) (matVec (inspectionG m) [0, 0, 0])) i) t) ∧
    comp (discreteNext n m sunVel (z 0) dt [0, 0, 0]) 6 ≠ comp (z dt) 6 := by
  have hder : ∀ i, i < 8 → ∀ t, HasDerivAt (fun τ => comp ((fun t : ℝ => [0, 100, 0, 0, 0, 0, t, 0]) τ) i)
      (comp (vadd (inspectionF 1 1 ((fun t : ℝ => [0, 100, 0, 0, 0, 0, t, 0]) t)) (matVec (inspectionG 1) [0, 0, 0])) i) t := by
    intro i hi t
    by_cases h6 : i = 6
    · subst h6
      refine (hasDerivAt_id t).congr_deriv ?_
      simp [inspectionF, inspectionG, cwhA3, cwhB3, matVec, vadd, comp]
    · have e : (fun τ => comp ((fun t : ℝ => [0, 100, 0, 0, 0, 0, t, 0]) τ) i) = fun _ => comp [0, 100, 0, 0, 0, 0, 0, 0] i := by
        funext τ
        interval_cases i <;> first | rfl | exact absurd rfl h6
      rw [e]
      refine (hasDerivAt_const t _).congr_deriv ?_
      interval_cases i <;> first
        | exact absurd rfl h6
        | simp [inspectionF, inspectionG, cwhA3, cwhB3, matVec, vadd, comp, pySlice]
  refine ⟨1, 1, 1, 1, fun t => [0, 100, 0, 0, 0, 0, t, 0], one_ne_zero, one_pos, hder, ?_⟩
  intro h
  have := (C49_agrees_iff_partial (dt := 1) (z := fun t => [0, 100, 0, 0, 0, 0, t, 0]) rfl (fun _ => rfl) hder rfl).1 h
  norm_num at this

end RTA
