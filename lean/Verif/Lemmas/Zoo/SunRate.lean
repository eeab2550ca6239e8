import Verif.Props.Zoo.InspectionModule
import Verif.Lemmas.PadJit
import Verif.Model.Zoo.InspectionJit

/-!
The inspection module with only the sun constraint: admissible controls in one state, by the rate of the sun.
-/
namespace RTA
open Real Filter Topology

/-- A deputy at rest, one metre from the chief in the `y` direction, with the sun angle at zero. -/
def sideState : List ℝ := [0, 1, 0, 0, 0, 0, 0, 0]

theorem side_angle {fov a w : ℝ} (ha : 0 < a) (h0 : 0 < fov) (h1 : fov < π) :
    HasDerivAt (fun s => (conicKeepOut fov a [0, 0, w] (pySlice (sideState.set 6 s) 0 3) (pySlice (sideState.set 6 s) 3 6)
      (sunVector (sideState.set 6 s))).getD 0) (a * sin (fov / 2) / √(2 * a * cos (fov / 2)) - w * cos (fov / 2)) 0 := by
  have hc : 0 < cos (fov / 2) := cos_pos_of_mem_Ioo ⟨by linarith, by linarith⟩
  have hd : HasDerivAt (fun s : ℝ => √(2 * a * cos (s - fov / 2)) - w * sin (s - fov / 2))
      (2 * a * (-sin (0 - fov / 2) * 1) / (2 * √(2 * a * cos (0 - fov / 2))) - w * (cos (0 - fov / 2) * 1)) 0 := by
    have e1 : HasDerivAt (fun s : ℝ => s - fov / 2) 1 0 := (hasDerivAt_id (0 : ℝ)).sub_const _
    refine HasDerivAt.sub (HasDerivAt.sqrt (e1.cos.const_mul _) ?_) (e1.sin.const_mul _)
    rw [zero_sub, cos_neg]
    positivity
  refine (hd.congr_deriv ?_).congr_of_eventuallyEq ?_
  · rw [zero_sub, cos_neg, sin_neg]
    field_simp
  · have hn : ∀ᶠ s : ℝ in 𝓝 0, 0 < cos s ∧ 0 < cos (s - fov / 2) := by
      refine ((continuous_cos.tendsto' 0 1 cos_zero).eventually (lt_mem_nhds one_pos)).and ?_
      have : Continuous fun s : ℝ => cos (s - fov / 2) := by fun_prop
      exact (this.tendsto' 0 (cos (fov / 2)) (by simp)).eventually (lt_mem_nhds hc)
    filter_upwards [hn] with s hs
    have ep : pySlice (sideState.set 6 s) 0 3 = [0, 1, 0] := rfl
    have ev : pySlice (sideState.set 6 s) 3 6 = [0, 0, 0] := rfl
    have ec : sunVector (sideState.set 6 s) = [-cos s, -sin s, 0] := rfl
    have ed : dot [0, 1, 0] [-cos s, -sin s, 0] = -sin s := by simp [dot]
    have en : sqNorm [0, (1 : ℝ), 0] = 1 := by simp [sqNorm, dot]
    have eax : axisDist [0, 1, 0] [-cos s, -sin s, 0] = cos s := by
      unfold axisDist
      rw [ed, en, neg_sq, show 1 - sin s ^ 2 = cos s ^ 2 by linarith [sin_sq_add_cos_sq s], sqrt_sq hs.1.le]
    have eM : coneM (fov / 2) [0, 1, 0] [-cos s, -sin s, 0] = cos (s - fov / 2) := by
      unfold coneM
      rw [eax, ed, cos_sub]
      ring
    rw [sun_value ha.le hc.ne' rfl (by rw [ep]; unfold norm2; rw [en]; simp) (by rw [ep, ec, eax]; exact hs.1.ne')
      (by rw [ep, ec, eM]; exact hs.2)]
    unfold sunH
    rw [ep, ev, ec, eM]
    unfold coneRate
    rw [eax, ed]
    have e1 : dot [0, 0, 0] [-cos s, -sin s, 0] + dot [0, 1, 0] (cross [0, 0, w] [-cos s, -sin s, 0]) = -(w * cos s) := by
      simp [dot, cross, comp]
    have e2 : dot [(0 : ℝ), 1, 0] [0, 0, 0] = 0 := by simp [dot]
    rw [e1, e2, sin_sub]
    have := hs.1.ne'
    field_simp
    ring

theorem side_vel {fov a w : ℝ} (ha : 0 < a) (h0 : 0 < fov) (h1 : fov < π) :
    HasDerivAt (fun s => (conicKeepOut fov a [0, 0, w] (pySlice (sideState.set 3 s) 0 3) (pySlice (sideState.set 3 s) 3 6)
      (sunVector (sideState.set 3 s))).getD 0) (sin (fov / 2)) 0 := by
  have hc : 0 < cos (fov / 2) := cos_pos_of_mem_Ioo ⟨by linarith, by linarith⟩
  have hd : HasDerivAt (fun s : ℝ => √(2 * a * cos (fov / 2)) - sin (fov / 2) * (-s - w)) (-(sin (fov / 2) * (-1))) 0 := by
    have e1 : HasDerivAt (fun s : ℝ => -s - w) (-1) 0 := (hasDerivAt_id (0 : ℝ)).neg.sub_const _
    exact (e1.const_mul _).const_sub _
  refine (hd.congr_deriv (by ring)).congr_of_eventuallyEq (Eventually.of_forall fun s => ?_)
  have ep : pySlice (sideState.set 3 s) 0 3 = [0, 1, 0] := rfl
  have ev : pySlice (sideState.set 3 s) 3 6 = [s, 0, 0] := rfl
  have ec : sunVector (sideState.set 3 s) = [-1, 0, 0] := by
    simp [sunVector, sideState, comp]
  have ed : dot [0, 1, 0] [-1, 0, (0 : ℝ)] = 0 := by simp [dot]
  have en : sqNorm [0, (1 : ℝ), 0] = 1 := by simp [sqNorm, dot]
  have eax : axisDist [0, 1, 0] [-1, 0, 0] = 1 := by
    unfold axisDist
    rw [ed, en]; simp
  have eM : coneM (fov / 2) [0, 1, 0] [-1, 0, 0] = cos (fov / 2) := by
    unfold coneM
    rw [eax, ed]; ring
  show (conicKeepOut fov a [0, 0, w] (pySlice (sideState.set 3 s) 0 3) (pySlice (sideState.set 3 s) 3 6)
      (sunVector (sideState.set 3 s))).getD 0 = _
  rw [sun_value ha.le hc.ne' rfl (by rw [ep]; unfold norm2; rw [en]; simp) (by rw [ep, ec, eax]; exact one_ne_zero)
    (by rw [ep, ec, eM]; exact hc)]
  unfold sunH
  rw [ep, ev, ec, eM]
  unfold coneRate
  rw [eax, ed]
  have e1 : dot [s, 0, 0] [-1, 0, 0] + dot [0, 1, 0] (cross [0, 0, w] [-1, 0, 0]) = -s - w := by
    simp [dot, cross, comp]; ring
  have e2 : dot [(0 : ℝ), 1, 0] [s, 0, 0] = 0 := by simp [dot]
  rw [e1, e2]
  ring

/-- The inspection module with only the sun constraint, without control bounds. -/
noncomputable def sunOnly (c : InspConfig) : ASIFObj ℝ (List ℝ) InspParams ℝ :=
  match inspSunASIF c (some ["sun"]) none none (1 / 100) false with
  | .ok s => s
  | .error _ => ⟨⟨none, none, true, false, none, none⟩, [], [], [], [], true, ⟨0, 0, false, 0, [], [], [], [], [], [], none, 0⟩⟩

theorem sunOnly_init (c : InspConfig) : inspSunASIF c (some ["sun"]) none none (1 / 100) false = .ok (sunOnly c) := rfl

theorem sunOnly_fields (c : InspConfig) : (sunOnly c).constraints = [inspC c .sun] ∧ (sunOnly c).enable = true ∧
    (sunOnly c).ext.controlDim = 3 ∧ (sunOnly c).ext.direct = [] ∧ (sunOnly c).controlBoundsLow = none ∧
    (sunOnly c).controlBoundsHigh = none ∧ (sunOnly c).ext.extra = c.sunVel ∧ (sunOnly c).ext.epsilon = 1 / 100 :=
  ⟨rfl, rfl, rfl, rfl, rfl, rfl, rfl, rfl⟩

theorem sunOnly_module (solver : Solver ℝ) (c : InspConfig) (v : ℝ) :
    ExplicitModule solver (inspectionF c.n v) (fun _ => inspectionG c.m) (sunOnly c) :=
  ⟨_, _, _, _, _, _, _, _, _, _, [], by simp [dictKeys, inspConstraints, inspCommon], by simp [dictKeys], sunOnly_init c, rfl⟩

theorem sunOnly_shapes (c : InspConfig) (v : ℝ) :
    ShapesOK (inspectionF c.n v) (fun _ => inspectionG c.m) (sunOnly c) sideState := by
  obtain ⟨h1, -, h3, h4, -⟩ := sunOnly_fields c
  have hf : (inspectionF c.n v sideState).length = 8 := by simp [inspectionF, cwhA3, matVec]
  refine ⟨?_, ?_, by rw [hf]; rfl, ?_, by rw [h4]; simp⟩
  · rw [h1]; intro kc hkc
    rw [List.mem_singleton.1 hkc, inspC_alpha]; rfl
  · rw [h1]; intro kc hkc
    rw [List.mem_singleton.1 hkc, insp_gradFn_length, hf]; rfl
  · rw [h3]; simp [inspectionG, cwhB3]

/-- Admissible controls in `sideState`, by the rate of the sun. -/
theorem sunOnly_admissible {c : InspConfig} (ha : 0 < c.aMax) (h0 : 0 < c.fov) (h1 : c.fov < π) : ∃ A : ℝ, ∀ v t : ℝ,
    Admissible (inspectionF c.n v) (fun _ => inspectionG c.m) (sunOnly c) sideState [t, 0, 0] ↔
      0 ≤ sin (c.fov / 2) * (t / c.m) +
        (c.aMax * sin (c.fov / 2) / √(2 * c.aMax * cos (c.fov / 2)) - c.sunVel * cos (c.fov / 2)) * v + A := by
  obtain ⟨h2, -, h3, h4, h5, h6, -⟩ := sunOnly_fields c
  refine ⟨strengthening (inspC c .sun).2 (polyAlpha (inspCoefs .sun)) ((inspC c .sun).2.computeFn sideState (inspC c .sun).2.params +
    (inspC c .sun).2.bias), fun v t => ?_⟩
  have hb : barrierValue (inspectionF c.n v) (fun _ => inspectionG c.m) (inspC c .sun).2 sideState [t, 0, 0] =
      some (sin (c.fov / 2) * (t / c.m) +
        (c.aMax * sin (c.fov / 2) / √(2 * c.aMax * cos (c.fov / 2)) - c.sunVel * cos (c.fov / 2)) * v +
        strengthening (inspC c .sun).2 (polyAlpha (inspCoefs .sun)) ((inspC c .sun).2.computeFn sideState (inspC c .sun).2.params +
          (inspC c .sun).2.bias)) := by
    rw [barrierValue, inspC_alpha, Option.map_some]
    congr 2
    have hfg : vadd (inspectionF c.n v sideState) (matVec (inspectionG c.m) [t, 0, 0]) = [0, 0, 0, t / c.m, 0, 0, v, 0] := by
      simp [inspectionF, inspectionG, cwhA3, cwhB3, matVec, vadd, pySlice, sideState, dot, div_eq_inv_mul]
    rw [hfg]
    have e3 := (side_vel (w := c.sunVel) ha h0 h1).deriv
    have e6 := (side_angle (w := c.sunVel) ha h0 h1).deriv
    have hq : (inspC c .sun).2.gradFn sideState (inspC c .sun).2.params =
      partials (fun x (p : InspParams) => (conicKeepOut p.fov p.aMax [0, 0, c.sunVel] (pySlice x 0 3) (pySlice x 3 6) (sunVector x)).getD 0)
        sideState { fov := c.fov, aMax := c.aMax } := rfl
    rw [hq]
    simp only [partials, show sideState.length = 8 from rfl, List.range_succ, List.range_zero, List.nil_append, List.cons_append,
      List.map_cons, List.map_nil, dot_cons, dot_nil_left, mul_zero, zero_add, add_zero]
    rw [show sideState.getD 3 0 = 0 from rfl, show sideState.getD 6 0 = 0 from rfl, e3, e6]
  constructor
  · intro h
    obtain ⟨m, hm, hm'⟩ := h.barrier _ (by rw [h2]; exact List.mem_singleton.2 rfl) (inspC_enabled c .sun)
    rw [hb, Option.some.injEq] at hm
    rw [hm]; exact hm'
  · intro h
    refine ⟨by rw [h3]; rfl, ?_, fun kc hkc _ => ?_, by rw [h4]; simp⟩
    · rw [h5, h6]
      exact fun i b _ => ⟨fun a h => by simp [boundAt] at h, fun a h => by simp [boundAt] at h⟩
    · rw [h2] at hkc
      rw [List.mem_singleton.1 hkc]
      exact ⟨_, hb, h⟩

end RTA
