import Verif.Lemmas.Zoo.InspectionMotion
import Verif.Props.Zoo.Docking
import Verif.Props.Zoo.PSM
import Verif.Props.Rest

/-!
The explicit optimisation module of the 1v1 inspection problem.
-/
namespace RTA
open Set Real Filter Topology

/-! ### Construction -/

/-- What every constructed module looks like. -/
theorem insp_init {c : InspConfig} {epsilon : ℝ} {high low : Option (Bound ℝ)} {exc : Bool} {s : ASIFObj ℝ (List ℝ) InspParams Unit}
    (h : inspASIF c high low epsilon exc = .ok s) :
    s.constraints = inspConstraints c ∧ s.ext.controlDim = 3 ∧ s.ext.direct = [] ∧
      s.enable = true ∧ s.controlBoundsLow = low ∧ s.controlBoundsHigh = high ∧ s.ext.solverException = exc ∧ s.ext.epsilon = epsilon := by
  unfold inspASIF asifInit CBObj.init at h
  have e : selectConstraints (inspConstraints c) none = .ok (inspConstraints c) := rfl
  rw [e] at h
  simp only at h
  split at h
  · cases h
  · simp only [Except.ok.injEq] at h
    subst h
    exact ⟨rfl, rfl, rfl, rfl, rfl, rfl, rfl, rfl⟩

/-- With scalar bounds construction succeeds. -/
theorem insp_init_ok (c : InspConfig) (U epsilon : ℝ) (exc : Bool) :
    ∃ s, inspASIF c (some (.scalar U)) (some (.scalar (-U))) epsilon exc = .ok s := ⟨_, rfl⟩

theorem insp_module {solver : Solver ℝ} {c : InspConfig} {epsilon : ℝ} {high low : Option (Bound ℝ)} {exc : Bool}
    {s : ASIFObj ℝ (List ℝ) InspParams Unit} (h : inspASIF c high low epsilon exc = .ok s) :
    ExplicitModule solver (inspectionF c.n c.sunVel) (fun _ => inspectionG c.m) s :=
  ⟨_, _, _, _, _, _, _, _, _, _, [], by simp [dictKeys, inspConstraints, inspCommon], by simp [dictKeys], h, rfl⟩

theorem insp_noslack (c : InspConfig) : slackScales (inspConstraints c) = [] := rfl

theorem insp_gradFn_length (c : InspConfig) (k : InspIx) (x : List ℝ) :
    ((inspC c k).2.gradFn x (inspC c k).2.params).length = x.length := by
  cases k
  case psm => exact minGrad_length _ _ _
  all_goals
    simp only [inspC, inspRelVel, inspSun, inspMaxDistance, inspCollision, inspLimit, adConstraint, Constraint.mk', partials_length, gradAt,
      List.length_map, List.length_range]

theorem insp_shapes {c : InspConfig} {s : ASIFObj ℝ (List ℝ) InspParams Unit} (hc : s.constraints = inspConstraints c)
    (hdim : s.ext.controlDim = 3) (hdir : s.ext.direct = []) {x : List ℝ} (hx : x.length = 8) :
    ShapesOK (inspectionF c.n c.sunVel) (fun _ => inspectionG c.m) s x := by
  have hf : (inspectionF c.n c.sunVel x).length = 8 := by simp [inspectionF, cwhA3, matVec]
  refine ⟨?_, ?_, by rw [hf]; rfl, ?_, by rw [hdir]; simp⟩
  · rw [hc, inspConstraints_eq]
    intro kc hkc
    obtain ⟨k, -, rfl⟩ := List.mem_map.1 hkc
    rw [inspC_alpha]; rfl
  · rw [hc, inspConstraints_eq]
    intro kc hkc
    obtain ⟨k, -, rfl⟩ := List.mem_map.1 hkc
    rw [insp_gradFn_length, hf, hx]
  · rw [hdim]; simp [inspectionG, cwhB3]

/-! ### C70 -/

/-- The deputy is between the spheres and the sun is out of the field of view. -/
structure InspectionInside (c : InspConfig) (x : List ℝ) : Prop where
  outside : c.radius < norm2 (pySlice x 0 3)
  inside : norm2 (pySlice x 0 3) < c.rMax
  sun : dot (pySlice x 0 3) (sunVector x) < norm2 (pySlice x 0 3) * cos (c.fov / 2)

/-- Out of the cone in terms of the angle. -/
theorem coneM_pos_iff {θ : ℝ} (h0 : 0 < θ) (h1 : θ < π / 2) {p v : List ℝ} (hp : p.length = 3) (hv : v.length = 3) (hu : sqNorm v = 1)
    (hp0 : 0 < norm2 p) : 0 < coneM θ p v ↔ dot p v < norm2 p * cos θ := by
  have hs : 0 < sin θ := sin_pos_of_pos_of_lt_pi h0 (by linarith [pi_pos])
  have hk : 0 < cos θ := cos_pos_of_mem_Ioo ⟨by linarith, h1⟩
  have hsk := sin_sq_add_cos_sq θ
  have hax := axis_sq hp hv hu
  rw [← norm2_sq hp] at hax
  have hρ : 0 ≤ axisDist p v := sqrt_nonneg _
  unfold coneM
  generalize axisDist p v = ρ at *
  generalize dot p v = s at *
  generalize norm2 p = r at *
  generalize sin θ = a at *
  generalize cos θ = k at *
  have hrk : 0 < r * k := mul_pos hp0 hk
  have e : (k * ρ) ^ 2 - (a * s) ^ 2 = (r * k) ^ 2 - s ^ 2 := by linear_combination k ^ 2 * hax - s ^ 2 * hsk
  rcases lt_or_ge 0 s with hs0 | hs0
  · have has : 0 < a * s := mul_pos hs hs0
    constructor
    · intro h
      have : (a * s) ^ 2 < (k * ρ) ^ 2 := by
        have := mul_nonneg hk.le hρ
        nlinarith
      exact lt_of_pow_lt_pow_left₀ 2 hrk.le (by linarith)
    · intro h
      have : s ^ 2 < (r * k) ^ 2 := by nlinarith
      have : a * s < k * ρ := lt_of_pow_lt_pow_left₀ 2 (mul_nonneg hk.le hρ) (by linarith)
      linarith
  · refine ⟨fun _ => by linarith, fun _ => ?_⟩
    have has : a * s ≤ 0 := mul_nonpos_of_nonneg_of_nonpos hs.le hs0
    have hkρ := mul_nonneg hk.le hρ
    rcases hs0.eq_or_lt with h | h
    · have : 0 < (k * ρ) ^ 2 := by
        rw [h] at e
        have : 0 < (r * k) ^ 2 := by positivity
        nlinarith
      have : 0 < k * ρ := lt_of_le_of_ne hkρ fun e => by rw [← e] at this; simp at this
      linarith
    · have := mul_neg_of_pos_of_neg hs h
      linarith

theorem insp_inside_iff {c : InspConfig} (hc : InspOK c) {x : List ℝ} (hx : x.length = 8) :
    InspectionInside c x ↔ ∀ g, 0 < inspGuard c g x := by
  have hθ0 : 0 < c.fov / 2 := by linarith [hc.fov0]
  have hθ : c.fov / 2 < π / 2 := by linarith [hc.fov]
  have hl := slice_length hx
  constructor
  · intro h g
    have hr : 0 < norm2 (pySlice x 0 3) := hc.radius.trans h.outside
    cases g
    · exact sub_pos.2 h.outside
    · exact sub_pos.2 h.inside
    · exact (coneM_pos_iff hθ0 hθ hl.1 rfl (sun_unit x) hr).2 h.sun
  · intro h
    have h1 : 0 < norm2 (pySlice x 0 3) - c.radius := h .outside
    have hr : 0 < norm2 (pySlice x 0 3) := by linarith [hc.radius]
    exact ⟨sub_pos.1 h1, sub_pos.1 (h .inside), (coneM_pos_iff hθ0 hθ hl.1 rfl (sun_unit x) hr).1 (h .cone)⟩

theorem insp_psm_value (c : InspConfig) (x : List ℝ) :
    ∃ v, psmCompute c.n c.radius 1 100 x = .ok v ∧ (inspC c .psm).2.value x = v := by
  obtain ⟨v, hv, -⟩ := psm_samples c.n c.radius x
  refine ⟨v, hv, ?_⟩
  show (inspC c .psm).2.computeFn x (inspC c .psm).2.params + (inspC c .psm).2.bias = v
  simp only [inspC, inspPSM, Constraint.mk', hv, add_zero, Except.orZero]

/-- The constraint values are positive exactly when all their samples are. -/
theorem insp_value_pos {c : InspConfig} (hc : InspOK c) {x : List ℝ} (h : InspIn c x) :
    (∀ kc ∈ inspConstraints c, 0 < kc.2.value x) ↔ ∀ k, ∀ j ∈ inspJ k, 0 < inspH c k j x := by
  have hsplit : (∀ kc ∈ inspConstraints c, 0 < kc.2.value x) ↔ ∀ k, 0 < (inspC c k).2.value x := by
    constructor
    · exact fun h k => h _ (inspC_mem c k)
    · intro h kc hkc
      rw [inspConstraints_eq] at hkc
      obtain ⟨k, -, rfl⟩ := List.mem_map.1 hkc
      exact h k
  rw [hsplit]
  refine forall_congr' fun k => ?_
  by_cases hk : k = .psm
  · subst hk
    obtain ⟨v, hv, hle, j0, hj0, e0⟩ := psm_samples c.n c.radius x
    obtain ⟨v', hv', e⟩ := insp_psm_value c x
    obtain rfl : v = v' := by rw [hv] at hv'; exact Except.ok.inj hv'
    rw [e]
    constructor
    · exact fun h j hj => h.trans_le (hle j hj)
    · intro h
      rw [← e0]
      exact h j0 hj0
  · have hj : inspJ k = {0} := by cases k <;> first | rfl | exact absurd rfl hk
    rw [inspC_value hc h hk 0, hj]
    simp

/-- **C70.** Let the deputy move by the true dynamics, and let at every instant before `T` the thrust be what the module (constructed
with the configuration `c`, after whatever history) returns for the current state and some desired control. Let it start
with all constraints strictly positive, between the two spheres and with the sun out of the field of view, and never be on
the line through the chief and the sun. Let the module raise on unsolvable programs, or let the program be solvable whenever
all constraints are positive. Then at every time up to `T`: the deputy is outside the collision radius and
within `r_max`, the sun is out of the field of view, every constraint is positive. -/
theorem C70_closed_loop {solver : Solver ℝ} (hspec : SolverSpec solver) {c : InspConfig} (hc : InspOK c) {x u : ℝ → List ℝ}
    (hm : InspectionMotion c.n c.m c.sunVel x u) {T : ℝ}
    (hloop : ∀ t, 0 ≤ t → t < T → ∃ (s s' : ASIFObj ℝ (List ℝ) InspParams Unit) (dt : ℝ) (uDes : List ℝ),
      ExplicitModule solver (inspectionF c.n c.sunVel) (fun _ => inspectionG c.m) s ∧ s.constraints = inspConstraints c ∧
      s.ext.controlDim = 3 ∧ s.ext.direct = [] ∧ s.enable = true ∧ uDes.length = 3 ∧
      (s.ext.solverException = true ∨ (InspectionInside c (x t) → (∀ kc ∈ inspConstraints c, 0 < kc.2.value (x t)) →
        ∃ w, Admissible (inspectionF c.n c.sunVel) (fun _ => inspectionG c.m) s (x t) w)) ∧
      explicitASIF solver (inspectionF c.n c.sunVel) (fun _ => inspectionG c.m) s (.array (x t)) dt uDes = (.ok (u t), s'))
    (hax : ∀ t, 0 ≤ t → t ≤ T → sqNorm (pySlice (x t) 0 3) ≠ dot (pySlice (x t) 0 3) (sunVector (x t)) ^ 2)
    (h0 : InspectionInside c (x 0)) (h0' : ∀ kc ∈ inspConstraints c, 0 < kc.2.value (x 0)) :
    ∀ t, 0 ≤ t → t ≤ T → InspectionInside c (x t) ∧ ∀ kc ∈ inspConstraints c, 0 < kc.2.value (x t) := by
  intro t ht htT
  have hax' : ∀ t, 0 ≤ t → t ≤ T → axisDist (pySlice (x t) 0 3) (sunVector (x t)) ≠ 0 := fun t ht htT e => by
    have hl := slice_length (hm.len t ht)
    have := axis_nonneg hl.1 rfl (sun_unit (x t))
    unfold axisDist at e
    rw [sqrt_eq_zero this] at e
    exact hax t ht htT (by linarith)
  have hT0 : 0 ≤ T := ht.trans htT
  have hin0 : InspIn c (x 0) := ⟨hm.len 0 le_rfl, hax' 0 le_rfl hT0, (insp_inside_iff hc (hm.len 0 le_rfl)).1 h0⟩
  suffices hbar : ∀ t, 0 ≤ t → t < T → InspIn c (x t) → (∀ k, ∀ j ∈ inspJ k, 0 < inspH c k j (x t)) →
      ∀ k, BarrierOK (inspectionF c.n c.sunVel) (fun _ => inspectionG c.m) (inspC c k).2 (x t) (u t) 0 by
    obtain ⟨hin, hp⟩ := insp_stays hc hm hax' hbar hin0 ((insp_value_pos hc hin0).1 h0') t ht htT
    exact ⟨(insp_inside_iff hc (hm.len t ht)).2 hin.guard, (insp_value_pos hc hin).2 hp⟩
  · intro t ht htT hin hp k
    obtain ⟨s, s', dt, uDes, hs, hcs, hdim, hdir, hen, hul, hsolv, hcall⟩ := hloop t ht htT
    have hns : slackScales s.constraints = [] := by rw [hcs]; rfl
    have hsp : ScalesPos s.constraints := by intro w hw; rw [hns] at hw; simp at hw
    have hadm : ∃ w d, AdmissibleS (inspectionF c.n c.sunVel) (fun _ => inspectionG c.m) s (x t) w d := by
      rcases hsolv with hexc | hsolv
      · by_contra hno
        have := C27_infeasible_policy hspec hs hsp hen (x t) (insp_shapes hcs hdim hdir (hm.len t ht)) dt uDes (hul.trans hdim.symm) hno
        rw [hcall, if_pos hexc] at this
        cases this
      · obtain ⟨w, hw⟩ := hsolv ((insp_inside_iff hc (hm.len t ht)).2 hin.guard) ((insp_value_pos hc hin).2 hp)
        exact ⟨w, _, admissible_iff_zeros.1 hw⟩
    obtain ⟨-, d, -, had, -⟩ := explicit_solved hspec hs.inv.1 hs.inv.2 hsp hen hcall hadm
    exact barrier_of_admissible had (show ((inspC c k).1, (inspC c k).2) ∈ s.constraints by rw [hcs]; exact inspC_mem c k)
      (inspC_enabled c k) (inspC_noslack c k)

/-- **C70, the documented limits.** What positive constraints mean at one state: every velocity component is within `vel_limit`, the speed
is at most `v0 + v1 (|r| - v0_distance)`, and the deputy can stop thrusting and be outside the collision radius at every whole
second for 100 seconds. -/
theorem C70_documented_limits {c : InspConfig} (hn : c.n ≠ 0) (hv1 : 0 ≤ c.v1Coef * c.n) (hv1' : c.v1Coef * c.n ≤ 1 / 32)
    {x : List ℝ} (hx : x.length = 8) (h : ∀ kc ∈ inspConstraints c, 0 < kc.2.value x) :
    comp x 3 ^ 2 < c.velLimit ^ 2 ∧ comp x 4 ^ 2 < c.velLimit ^ 2 ∧ comp x 5 ^ 2 < c.velLimit ^ 2 ∧
    norm2 (pySlice x 3 6) ≤ c.v0 + c.v1Coef * c.n * (norm2 (pySlice x 0 3) - c.v0Distance) ∧
    ∀ y : ℝ → List ℝ, CWHSolution c.n c.m [0, 0, 0] y → y 0 = pySlice x 0 6 → ∀ k : ℕ, 1 ≤ k → k ≤ 100 → c.radius < norm2 (pySlice (y k) 0 3) := by
  have hlim : ∀ i, 0 < c.velLimit ^ 2 - stateAt x i ^ 2 + -(1 / 1000) → comp x i ^ 2 < c.velLimit ^ 2 := fun i h => by
    unfold comp; unfold stateAt at h; linarith
  refine ⟨hlim 3 (h _ (inspC_mem c .vx)), hlim 4 (h _ (inspC_mem c .vy)), hlim 5 (h _ (inspC_mem c .vz)), ?_, ?_⟩
  · have hr : 0 < relativeVelocity 3 c.v0 (c.v1Coef * c.n) c.v0Distance (1 / 100000) x + -(1 / 1000) := h _ (inspC_mem c .rel)
    match x, hx with
    | [p0, p1, p2, a, b, d, e, f], _ =>
      have hr' : 0 < c.v0 + c.v1Coef * c.n * (√(p0 ^ 2 + p1 ^ 2 + p2 ^ 2 + 1 / 100000) - c.v0Distance) -
          √(a ^ 2 + b ^ 2 + d ^ 2 + 1 / 100000) + -(1 / 1000) := by
        have e : relativeVelocity 3 c.v0 (c.v1Coef * c.n) c.v0Distance (1 / 100000) [p0, p1, p2, a, b, d, e, f] =
            c.v0 + c.v1Coef * c.n * (√(p0 ^ 2 + p1 ^ 2 + p2 ^ 2 + 1 / 100000) - c.v0Distance) -
            √(a ^ 2 + b ^ 2 + d ^ 2 + 1 / 100000) := by
          simp [relativeVelocity, normWithDelta, pySlice, add_assoc]
        rwa [e] at hr
      unfold norm2
      rw [sqNorm3 rfl, sqNorm3 rfl]
      exact C64_documented_limit hv1 hv1' (V := a ^ 2 + b ^ 2 + d ^ 2) (P := p0 ^ 2 + p1 ^ 2 + p2 ^ 2) (by positivity) rfl (v0 := c.v0)
        (v0Distance := c.v0Distance) (by linarith) rfl
  · intro y hy hy0 k hk1 hk2
    obtain ⟨v, hv, e⟩ := insp_psm_value c x
    have hpos := h _ (inspC_mem c .psm)
    rw [e] at hpos
    have := (C44_value hn (by omega) hv hy hy0).1 k hk1 hk2
    rw [mul_one] at this
    unfold norm2
    linarith

/-! ### The hypotheses are met -/

/-- The default configuration with a sun that stands still. -/
noncomputable def inspStill : InspConfig := { inspDefault with sunVel := 0 }

theorem inspStill_aMax : 7 / 100 < inspStill.aMax := by
  have h : min (1 : ℝ) (2 / 10 + 2 * (1027 / 1000000) * 1000) ≤ 1 := min_le_left _ _
  show 7 / 100 < 1 / (12 : ℝ) - 3 * (1027 / 1000000) ^ 2 * 1000 - 2 * (1027 / 1000000) * min (1 : ℝ) (2 / 10 + 2 * (1027 / 1000000) * 1000)
  have := mul_le_mul_of_nonneg_left h (show (0 : ℝ) ≤ 2 * (1027 / 1000000) by norm_num)
  norm_num at this ⊢

theorem inspStill_radius : inspStill.radius = 10 := by
  show (5 : ℝ) + 5 = 10
  norm_num

theorem inspStill_ok : InspOK inspStill where
  radius := by rw [inspStill_radius]; norm_num
  aMax := by linarith [inspStill_aMax]
  fov0 := by show 0 < 60 * π / 180; positivity
  fov := by show 60 * π / 180 < π; linarith [pi_pos]

/-- At rest 100 m ahead of the chief on its orbit, the sun at a right angle. -/
def inspRest : List ℝ := [0, 100, 0, 0, 0, 0, 0, 0]

theorem inspRest_dot (u : List ℝ) (hu : u = [0, 0, 0]) : computeStateDot inspStill.n inspStill.m inspStill.sunVel inspRest u = [0, 0, 0, 0, 0, 0, 0, 0] := by
  subst hu
  have e : inspStill.sunVel = 0 := rfl
  rw [e]
  simp [computeStateDot, inspRest, cwhA3, cwhB3, matVec, vadd, pySlice]

theorem inspRest_norm : norm2 (pySlice inspRest 0 3) = 100 := by
  unfold norm2
  rw [sqNorm3 rfl]
  show √((0 : ℝ) ^ 2 + 100 ^ 2 + 0 ^ 2) = 100
  rw [show (0 : ℝ) ^ 2 + 100 ^ 2 + 0 ^ 2 = 100 ^ 2 by norm_num, sqrt_sq (by norm_num)]

theorem inspRest_pv : dot (pySlice inspRest 0 3) (pySlice inspRest 3 6) = 0 := by
  rw [dot3 rfl rfl]; simp [inspRest, pySlice, comp]

theorem inspRest_ps : dot (pySlice inspRest 0 3) (sunVector inspRest) = 0 := by
  rw [dot3 rfl rfl]; simp [inspRest, pySlice, comp, sunVector]

theorem inspRest_vs : dot (pySlice inspRest 3 6) (sunVector inspRest) = 0 := by
  rw [dot3 rfl rfl]; simp [inspRest, pySlice, comp, sunVector]

theorem inspRest_cos : 0 < cos (inspStill.fov / 2) :=
  cos_pos_of_mem_Ioo ⟨by linarith [inspStill_ok.fov0, pi_pos], by linarith [inspStill_ok.fov]⟩

theorem inspRest_inside : InspectionInside inspStill inspRest where
  outside := by rw [inspRest_norm, inspStill_radius]; norm_num
  inside := by rw [inspRest_norm]; show (100 : ℝ) < 1000; norm_num
  sun := by
    rw [inspRest_norm, inspRest_ps]
    have := inspRest_cos
    linarith

theorem inspRest_axis : sqNorm (pySlice inspRest 0 3) ≠ dot (pySlice inspRest 0 3) (sunVector inspRest) ^ 2 := by
  rw [inspRest_ps, ← norm2_sq rfl, inspRest_norm]; norm_num

theorem inspRest_in : InspIn inspStill inspRest where
  len := rfl
  axis := by
    unfold axisDist
    rw [inspRest_ps, ← norm2_sq rfl, inspRest_norm]
    exact (sqrt_pos.2 (by norm_num)).ne'
  guard := (insp_inside_iff inspStill_ok rfl).1 inspRest_inside

theorem inspRest_values : ∀ kc ∈ inspConstraints inspStill, 0 < kc.2.value inspRest := by
  rw [insp_value_pos inspStill_ok inspRest_in]
  have ha := inspStill_aMax
  have hmarg : ∀ y, 1 ≤ y → 1 / 1000 < √(2 * inspStill.aMax * y) := fun y hy => by
    rw [lt_sqrt (by norm_num)]
    nlinarith
  have hcos : 1 / 2 ≤ cos (inspStill.fov / 2) := by
    rw [← cos_pi_div_three]
    refine cos_le_cos_of_nonneg_of_le_pi ?_ ?_ ?_
    · show 0 ≤ 60 * π / 180 / 2; positivity
    · linarith [pi_pos]
    · show 60 * π / 180 / 2 ≤ π / 3; linarith [pi_pos]
  have hlim : ∀ i, stateAt inspRest i = 0 → 0 < inspStill.velLimit ^ 2 - stateAt inspRest i ^ 2 + -(1 / 1000) := fun i h => by
    rw [h]
    show (0 : ℝ) < 1 ^ 2 - 0 ^ 2 + -(1 / 1000)
    norm_num
  intro k j _
  cases k
  · show 0 < relativeVelocity 3 inspStill.v0 (inspStill.v1Coef * inspStill.n) inspStill.v0Distance (1 / 100000) inspRest + -(1 / 1000)
    have e : relativeVelocity 3 inspStill.v0 (inspStill.v1Coef * inspStill.n) inspStill.v0Distance (1 / 100000) inspRest =
        2 / 10 + 2 * (1027 / 1000000) * (√(0 ^ 2 + 100 ^ 2 + 0 ^ 2 + 1 / 100000) - 0) - √(0 ^ 2 + 0 ^ 2 + 0 ^ 2 + 1 / 100000) := by
      simp [relativeVelocity, normWithDelta, pySlice, inspRest, inspStill, inspDefault]
    rw [e]
    have h1 : √((0 : ℝ) ^ 2 + 0 ^ 2 + 0 ^ 2 + 1 / 100000) ≤ 1 / 100 := by
      rw [sqrt_le_left (by norm_num)]; norm_num
    have h2 := sqrt_nonneg ((0 : ℝ) ^ 2 + 100 ^ 2 + 0 ^ 2 + 1 / 100000)
    nlinarith
  · show 0 < sunH inspStill.fov inspStill.aMax inspStill.sunVel inspRest + -(1 / 1000)
    have e : coneRate (inspStill.fov / 2) [0, 0, inspStill.sunVel] (pySlice inspRest 0 3) (pySlice inspRest 3 6) (sunVector inspRest) = 0 := by
      unfold coneRate
      have e0 : dot (pySlice inspRest 0 3) (cross [0, 0, inspStill.sunVel] (sunVector inspRest)) = 0 := by
        rw [dot3 rfl rfl]
        simp [inspRest, pySlice, comp, sunVector, cross, inspStill]
      rw [inspRest_pv, inspRest_ps, inspRest_vs, e0]
      ring
    have eM : coneM (inspStill.fov / 2) (pySlice inspRest 0 3) (sunVector inspRest) = cos (inspStill.fov / 2) * 100 := by
      unfold coneM axisDist
      rw [inspRest_ps, ← norm2_sq rfl, inspRest_norm]
      rw [show (100 : ℝ) ^ 2 - 0 ^ 2 = 100 ^ 2 by norm_num, sqrt_sq (by norm_num)]
      ring
    unfold sunH
    rw [e, eM]
    have := hmarg (cos (inspStill.fov / 2) * 100) (by linarith)
    linarith
  · show 0 < maxH inspStill.rMax inspStill.aMax inspRest + -(1 / 1000)
    unfold maxH
    rw [inspRest_pv, inspRest_norm]
    have := hmarg (inspStill.rMax - 100) (by show (1 : ℝ) ≤ 1000 - 100; norm_num)
    linarith
  · show 0 < psmFutureState inspStill.n inspRest ((j + 1) * 1) inspStill.radius
    have e : psmFutureState inspStill.n inspRest ((j + 1) * 1) inspStill.radius = norm2 (pySlice inspRest 0 3) - inspStill.radius := by
      unfold psmFutureState
      simp [inspRest, comp, pySlice]
    rw [e, inspRest_norm, inspStill_radius]; norm_num
  · exact hlim 3 rfl
  · exact hlim 4 rfl
  · exact hlim 5 rfl
  · show 0 < chiefH inspStill.radius inspStill.aMax inspRest
    unfold chiefH
    rw [inspRest_pv, inspRest_norm]
    have := hmarg (100 - inspStill.radius) (by rw [inspStill_radius]; norm_num)
    linarith

/-- **C71 for the inspection module**: a deputy at rest on the chief's orbit, with a sun that stands still and all constraints
satisfied, that asks for no thrust gets none. -/
theorem C71_inspection {solver : Solver ℝ} (hspec : SolverSpec solver) {c : InspConfig} (hsun : c.sunVel = 0) {y sunAngle fuel : ℝ}
    {s : ASIFObj ℝ (List ℝ) InspParams Unit}
    (hs : ExplicitModule solver (inspectionF c.n c.sunVel) (fun _ => inspectionG c.m) s) (hcs : s.constraints = inspConstraints c)
    (hdim : s.ext.controlDim = 3) (hdir : s.ext.direct = []) (hen : s.enable = true) (heps : 0 ≤ s.ext.epsilon)
    (hb : Within s.controlBoundsLow s.controlBoundsHigh [0, 0, 0])
    (hval : ∀ kc ∈ inspConstraints c, 0 ≤ kc.2.value [0, y, 0, 0, 0, 0, sunAngle, fuel]) (dt : ℝ) :
    (explicitASIF solver (inspectionF c.n c.sunVel) (fun _ => inspectionG c.m) s (.array [0, y, 0, 0, 0, 0, sunAngle, fuel]) dt [0, 0, 0]).1 =
        .ok [0, 0, 0] ∧
      (explicitASIF solver (inspectionF c.n c.sunVel) (fun _ => inspectionG c.m) s (.array [0, y, 0, 0, 0, 0, sunAngle, fuel]) dt
        [0, 0, 0]).2.intervening = false := by
  have hns : slackScales s.constraints = [] := by rw [hcs]; rfl
  have hsp : ScalesPos s.constraints := by intro w hw; rw [hns] at hw; simp at hw
  refine C71_rest hspec hs hsp heps hen _ (insp_shapes hcs hdim hdir rfl) dt [0, 0, 0] hdim.symm hb (by rw [hdir]; simp) ?_
    (fun kc hkc _ => hval kc (hcs ▸ hkc)) ?_
  · rw [hsun]
    simp [inspectionF, inspectionG, cwhA3, cwhB3, matVec, vadd, pySlice]
  · intro kc hkc _ al ha h hh
    rw [hcs, inspConstraints_eq] at hkc
    obtain ⟨k, -, rfl⟩ := List.mem_map.1 hkc
    rw [inspC_alpha, Option.some.injEq] at ha
    subst ha
    rcases hh.eq_or_lt with rfl | hh
    · exact (C33_class_k _ (inspCoefs_classK k)).1.ge
    · exact ((C33_sign _ (inspCoefs_classK k) h).2 hh).le

/-- A closed loop as in `C70_closed_loop` up to any time: the deputy waits at rest ahead of the chief. -/
example {solver : Solver ℝ} (hspec : SolverSpec solver) {exc : Bool} (T : ℝ) :
    InspectionMotion inspStill.n inspStill.m inspStill.sunVel (fun _ => inspRest) (fun _ => [0, 0, 0]) ∧
    (∀ t, 0 ≤ t → t < T → ∃ (s s' : ASIFObj ℝ (List ℝ) InspParams Unit) (dt : ℝ) (uDes : List ℝ),
      ExplicitModule solver (inspectionF inspStill.n inspStill.sunVel) (fun _ => inspectionG inspStill.m) s ∧ s.constraints = inspConstraints inspStill ∧
      s.ext.controlDim = 3 ∧ s.ext.direct = [] ∧ s.enable = true ∧ uDes.length = 3 ∧
      (s.ext.solverException = true ∨ (InspectionInside inspStill inspRest → (∀ kc ∈ inspConstraints inspStill, 0 < kc.2.value inspRest) →
        ∃ w, Admissible (inspectionF inspStill.n inspStill.sunVel) (fun _ => inspectionG inspStill.m) s inspRest w)) ∧
      explicitASIF solver (inspectionF inspStill.n inspStill.sunVel) (fun _ => inspectionG inspStill.m) s (.array inspRest) dt uDes =
        (.ok [0, 0, 0], s')) := by
  refine ⟨⟨fun _ _ => rfl, fun _ _ => rfl, fun _ _ => continuousOn_const, fun t _ i hi => ?_⟩, fun t _ _ => ?_⟩
  · rw [inspRest_dot _ rfl]
    refine (hasDerivWithinAt_const t (Ici t) _).congr_deriv ?_
    interval_cases i <;> rfl
  · obtain ⟨s, h⟩ := insp_init_ok inspStill 1 (1 / 100) exc
    obtain ⟨hc, hdim, hdir, hen, hlo, hhi, -, heps⟩ := insp_init h
    have hbnd : Within s.controlBoundsLow s.controlBoundsHigh [0, 0, 0] := by rw [hlo, hhi]; exact within_scalar (by simp)
    have hr := (C71_inspection hspec (c := inspStill) rfl (insp_module h) hc hdim hdir hen (by rw [heps]; norm_num) hbnd
      (fun kc hkc => (inspRest_values kc hkc).le) 1).1
    refine ⟨s, _, 1, [0, 0, 0], insp_module h, hc, hdim, hdir, hen, rfl, Or.inr fun _ _ => ⟨[0, 0, 0], ?_⟩, Prod.ext hr rfl⟩
    refine ⟨hdim.symm, hbnd, fun kc hkc _ => ?_, by rw [hdir]; simp⟩
    rw [hc, inspConstraints_eq] at hkc
    obtain ⟨k, -, rfl⟩ := List.mem_map.1 hkc
    have h0 : vadd (inspectionF inspStill.n inspStill.sunVel inspRest) (matVec (inspectionG inspStill.m) [0, 0, 0]) = zeros 8 := by
      have e : inspStill.sunVel = 0 := rfl
      rw [e]
      simp [inspectionF, inspectionG, cwhA3, cwhB3, matVec, vadd, pySlice, inspRest, zeros, List.replicate]
    have hv : 0 < (inspC inspStill k).2.computeFn inspRest (inspC inspStill k).2.params + (inspC inspStill k).2.bias :=
      inspRest_values _ (inspC_mem _ k)
    refine ⟨polyAlpha (inspCoefs k) ((inspC inspStill k).2.computeFn inspRest (inspC inspStill k).2.params + (inspC inspStill k).2.bias), ?_,
      ((C33_sign _ (inspCoefs_classK k) _).2 hv).le⟩
    rw [barrierValue, inspC_alpha, h0, dot_zeros_right]
    simp only [Option.map_some, zero_add]
    rw [strengthening, if_pos hv.le]

end RTA
