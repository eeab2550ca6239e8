import Verif.Props.ModuleReports
import Verif.Props.Zoo.InspectionHocbf
import Verif.Props.Zoo.InspectionMulti

/-!
C100: the values the inspection modules report measure the limits they are named after.
-/
namespace RTA
open Real

/-! ### One call -/

theorem report_call {K S P X : Type} [Add K] [Mul K] [Neg K] [Sub K] [Zero K] [One K] [OfNat K 10] [Max K] [Min K] [HasSqrt K] [LT K]
    [DecidableLT K] (solver : Solver K) (f : S → List K) (g : S → List (List K)) {s : ASIFObj K S P X} (hen : s.enable = true)
    (x : S) (dt : K) (u : List K) :
    logOf (explicitASIF solver f g s (.array x) dt u).2 =
      ("constraints_at_last_state", s.constraints.map fun kc => (kc.1, kc.2.phiFn x kc.2.params)) := by
  unfold explicitASIF
  rw [logOf_call frame_getStateDefault (frameFilter_of (asif_untouched solver (explicitGen_untouched f g)))]
  simp only [logEvent, hen, if_true, getStateDefault, reportLog]

/-! ### Angles and smoothed norms -/

theorem conicPhi_unit {fov : ℝ} {p v : List ℝ} (hp : p.length = 3) (hv : v.length = 3) (hu : sqNorm v = 1) (hp0 : norm2 p ≠ 0) :
    conicPhi fov p v = some (arccos (dot p v / norm2 p) - fov / 2) := by
  have hn : norm2 v = 1 := by unfold norm2; rw [hu, sqrt_one]
  have e1 : vdivF p (norm2 p) = some (p.map (· / norm2 p)) := by simp [vdivF, hp0]
  have e2 : vdivF v (norm2 v) = some v := by simp [vdivF, hn]
  have hd : dot (p.map (· / norm2 p)) v = dot p v / norm2 p := by rw [dot_comm]; exact dot_unit hp hv hu hp0
  unfold conicPhi
  simp only [e1, e2, Option.bind_eq_bind, Option.bind_some, hd, arccosF]
  rw [if_neg (by push Not; exact cos_angle_mem hp hv hu hp0)]
  rfl

theorem angle_nonneg_iff {fov d r : ℝ} (h0 : 0 ≤ fov) (h1 : fov ≤ 2 * π) (hr : 0 < r) (hl : -1 ≤ d / r) (hh : d / r ≤ 1) :
    0 ≤ arccos (d / r) - fov / 2 ↔ d ≤ r * cos (fov / 2) := by
  have e : cos (arccos (d / r)) = d / r := cos_arccos hl hh
  rw [sub_nonneg]
  constructor
  · intro h
    have := cos_le_cos_of_nonneg_of_le_pi (by linarith) (arccos_le_pi _) h
    rw [e, div_le_iff₀ hr] at this
    linarith
  · intro h
    by_contra hc
    have := cos_lt_cos_of_nonneg_of_le_pi (arccos_nonneg _) (show fov / 2 ≤ π by linarith) (not_le.1 hc)
    rw [e, lt_div_iff₀ hr] at this
    linarith

theorem angle_pos {fov d r : ℝ} (h1 : fov ≤ 2 * π) (hr : 0 < r) (hl : -1 ≤ d / r) (hh : d / r ≤ 1)
    (h : d < r * cos (fov / 2)) : 0 < arccos (d / r) - fov / 2 := by
  have e : cos (arccos (d / r)) = d / r := cos_arccos hl hh
  by_contra hc
  have := cos_le_cos_of_nonneg_of_le_pi (arccos_nonneg _) (show fov / 2 ≤ π by linarith) (show arccos (d / r) ≤ fov / 2 by linarith)
  rw [e, le_div_iff₀ hr] at this
  linarith

/-- The smoothed length is at most 1/316 more than the length. -/
theorem normWithDelta_near {p : List ℝ} (hp : p.length = 3) :
    norm2 p ≤ normWithDelta p (1 / 100000) ∧ normWithDelta p (1 / 100000) ≤ norm2 p + 1 / 316 := by
  match p, hp with
  | [a, b, d], _ =>
    have e1 : norm2 [a, b, d] = √(a ^ 2 + b ^ 2 + d ^ 2) := by unfold norm2; rw [sqNorm3 rfl]; rfl
    have e2 : normWithDelta [a, b, d] (1 / 100000) = √(a ^ 2 + b ^ 2 + d ^ 2 + 1 / 100000) := by simp [normWithDelta, add_assoc]
    rw [e1, e2]
    have hs : √((1 : ℝ) / 100000) ≤ 1 / 316 := by rw [sqrt_le_left (by norm_num)]; norm_num
    refine ⟨sqrt_le_sqrt (by linarith), ?_⟩
    have : √(a ^ 2 + b ^ 2 + d ^ 2 + 1 / 100000) ≤ √(a ^ 2 + b ^ 2 + d ^ 2) + √((1 : ℝ) / 100000) :=
      sqrt_le_iff.2 ⟨by positivity, by
        nlinarith [sq_sqrt (show 0 ≤ a ^ 2 + b ^ 2 + d ^ 2 by positivity), sq_sqrt (show (0 : ℝ) ≤ 1 / 100000 by norm_num),
          mul_nonneg (sqrt_nonneg (a ^ 2 + b ^ 2 + d ^ 2)) (sqrt_nonneg ((1 : ℝ) / 100000))]⟩
    linarith

theorem relVel_near {v0 v1 d : ℝ} (hv1 : 0 ≤ v1) {x : List ℝ} (hx : 6 ≤ x.length) :
    v0 + v1 * (norm2 (pySlice x 0 3) - d) - norm2 (pySlice x 3 6) - 1 / 316 ≤ relativeVelocity 3 v0 v1 d (1 / 100000) x ∧
    relativeVelocity 3 v0 v1 d (1 / 100000) x ≤ v0 + v1 * (norm2 (pySlice x 0 3) - d) - norm2 (pySlice x 3 6) + v1 / 316 := by
  obtain ⟨h1, h2⟩ := normWithDelta_near (p := pySlice x 0 3) (by simp [pySlice]; omega)
  obtain ⟨h3, h4⟩ := normWithDelta_near (p := pySlice x 3 6) (by simp [pySlice]; omega)
  unfold relativeVelocity
  rw [show 2 * 3 = 6 by rfl]
  have := mul_le_mul_of_nonneg_left h1 hv1
  have := mul_le_mul_of_nonneg_left h2 hv1
  constructor <;> linarith

/-! ### C100 -/

/-- What the entries shared by all inspection modules say about a state: the speed limit (up to the smoothing), the field of view and
coasting without thrust for 100 seconds. -/
structure OwnReports (c : InspConfig) (x : List ℝ) (angle rel sun psm : ℝ) : Prop where
  rel_low : c.v0 + c.v1Coef * c.n * (norm2 (pySlice x 0 3) - c.v0Distance) - norm2 (pySlice x 3 6) - 1 / 316 ≤ rel
  rel_high : rel ≤ c.v0 + c.v1Coef * c.n * (norm2 (pySlice x 0 3) - c.v0Distance) - norm2 (pySlice x 3 6) + c.v1Coef * c.n / 316
  sun : 0 ≤ sun ↔ dot (pySlice x 0 3) (sunDirection angle) ≤ norm2 (pySlice x 0 3) * cos (c.fov / 2)
  psm : ∀ y : ℝ → List ℝ, CWHSolution c.n c.m [0, 0, 0] y → y 0 = pySlice x 0 6 →
    (∀ k : ℕ, 1 ≤ k → k ≤ 100 → psm ≤ norm2 (pySlice (y k) 0 3) - c.radius) ∧
    ∃ k : ℕ, 1 ≤ k ∧ k ≤ 100 ∧ psm = norm2 (pySlice (y k) 0 3) - c.radius

theorem sunDirection_unit (a : ℝ) : sqNorm (sunDirection a) = 1 := by
  rw [sqNorm3 rfl]; simp [sunDirection, comp]

theorem own_reports {c : InspConfig} (hn : c.n ≠ 0) (hf0 : 0 ≤ c.fov) (hf : c.fov ≤ 2 * π) (hv1 : 0 ≤ c.v1Coef * c.n) {x : List ℝ}
    (hx : 6 ≤ x.length) (hr : 0 < norm2 (pySlice x 0 3)) (angle : ℝ) :
    OwnReports c x angle (relativeVelocity 3 c.v0 (c.v1Coef * c.n) c.v0Distance (1 / 100000) x)
      ((conicPhi c.fov (pySlice x 0 3) (sunDirection angle)).getD 0) (Except.orZero (psmCompute c.n c.radius 1 100 x)) := by
  have hp : (pySlice x 0 3).length = 3 := by simp [pySlice]; omega
  obtain ⟨h1, h2⟩ := relVel_near (v0 := c.v0) (d := c.v0Distance) hv1 hx
  refine ⟨h1, h2, ?_, fun y hy hy0 => ?_⟩
  · rw [conicPhi_unit hp rfl (sunDirection_unit angle) hr.ne']
    have hm := cos_angle_mem hp (c := sunDirection angle) rfl (sunDirection_unit angle) hr.ne'
    exact angle_nonneg_iff hf0 hf hr hm.1 hm.2
  · obtain ⟨v, hv, -⟩ := psm_samples c.n c.radius x
    rw [hv]
    obtain ⟨h1, k, hk1, hk2, e⟩ := C44_value hn hx hv hy hy0
    refine ⟨fun k hk1 hk2 => ?_, k, hk1, hk2, ?_⟩
    · have := h1 k hk1 hk2
      rwa [mul_one] at this
    · rwa [mul_one] at e

theorem common_reports (c : InspConfig) (x : List ℝ) :
    ((inspCommon c).map fun kc => (kc.1, kc.2.phiFn x kc.2.params)) =
      [("rel_vel", relativeVelocity 3 c.v0 (c.v1Coef * c.n) c.v0Distance (1 / 100000) x),
       ("sun", (conicPhi c.fov (pySlice x 0 3) (sunDirection (comp x 6))).getD 0), ("r_max", c.rMax - norm2 (pySlice x 0 3)),
       ("PSM", Except.orZero (psmCompute c.n c.radius 1 100 x)),
       ("x_vel", c.velLimit ^ 2 - comp x 3 ^ 2), ("y_vel", c.velLimit ^ 2 - comp x 4 ^ 2), ("z_vel", c.velLimit ^ 2 - comp x 5 ^ 2)] := by
  unfold inspCommon
  simp only [List.map_cons, List.map_nil, inspRelVel, inspSun, inspMaxDistance, inspPSM, inspLimit, adConstraint, Constraint.mk',
    maxDistancePhi]
  rfl

/-- **C100**, the 1v1 inspection module: after a call, in every state off the chief's centre and whatever the call returned or raised, it
reports exactly: the distance beyond the collision radius, the distance left to `r_max`, the squares left to the velocity limits,
a number that is nonnegative exactly if the sun is out of the field of view, the speed left to the distance-dependent limit up to
1/316 m/s, and the least distance beyond the collision radius at the whole seconds of coasting for 100 s. -/
theorem C100_inspection (solver : Solver ℝ) {c : InspConfig} (hn : c.n ≠ 0) (hf0 : 0 ≤ c.fov) (hf : c.fov ≤ 2 * π)
    (hv1 : 0 ≤ c.v1Coef * c.n) {s : ASIFObj ℝ (List ℝ) InspParams Unit} (hcs : s.constraints = inspConstraints c) (hen : s.enable = true)
    {x : List ℝ} (hx : x.length = 8) (hr : 0 < norm2 (pySlice x 0 3)) (dt : ℝ) (u : List ℝ) :
    ∃ rel sun psm, logOf (explicitASIF solver (inspectionF c.n c.sunVel) (fun _ => inspectionG c.m) s (.array x) dt u).2 =
      ("constraints_at_last_state",
        [("rel_vel", rel), ("sun", sun), ("r_max", c.rMax - norm2 (pySlice x 0 3)), ("PSM", psm),
         ("x_vel", c.velLimit ^ 2 - comp x 3 ^ 2), ("y_vel", c.velLimit ^ 2 - comp x 4 ^ 2), ("z_vel", c.velLimit ^ 2 - comp x 5 ^ 2),
         ("chief_collision", norm2 (pySlice x 0 3) - c.radius)]) ∧
      OwnReports c x (comp x 6) rel sun psm := by
  refine ⟨_, _, _, ?_, own_reports hn hf0 hf hv1 (by omega) hr (comp x 6)⟩
  rw [report_call solver _ _ hen, hcs, inspConstraints, List.map_append, common_reports]
  rfl

/-- **C100**, the same with `use_hocbf`: the high-order constraint reports the distance too. -/
theorem C100_hocbf (solver : Solver ℝ) {c : InspConfig} (hn : c.n ≠ 0) (hf0 : 0 ≤ c.fov) (hf : c.fov ≤ 2 * π)
    (hv1 : 0 ≤ c.v1Coef * c.n) {s : ASIFObj ℝ (List ℝ) InspParams Unit} (hcs : inspHocbfConstraints c = .ok s.constraints)
    (hen : s.enable = true) {x : List ℝ} (hx : x.length = 8) (hr : 0 < norm2 (pySlice x 0 3)) (dt : ℝ) (u : List ℝ) :
    ∃ rel sun psm, logOf (explicitASIF solver (inspectionF c.n c.sunVel) (fun _ => inspectionG c.m) s (.array x) dt u).2 =
      ("constraints_at_last_state",
        [("rel_vel", rel), ("sun", sun), ("r_max", c.rMax - norm2 (pySlice x 0 3)), ("PSM", psm),
         ("x_vel", c.velLimit ^ 2 - comp x 3 ^ 2), ("y_vel", c.velLimit ^ 2 - comp x 4 ^ 2), ("z_vel", c.velLimit ^ 2 - comp x 5 ^ 2),
         ("chief_collision_hocbf", norm2 (pySlice x 0 3) - c.radius)]) ∧
      OwnReports c x (comp x 6) rel sun psm := by
  refine ⟨_, _, _, ?_, own_reports hn hf0 hf hv1 (by omega) hr (comp x 6)⟩
  rw [report_call solver _ _ hen]
  unfold inspHocbfConstraints at hcs
  rcases hh : inspHocbf c with e | h
  · rw [hh] at hcs; cases hcs
  · rw [hh] at hcs
    simp only [Except.map, Except.ok.injEq] at hcs
    rw [← hcs]
    have e : h.phiFn x h.params = norm2 (pySlice x 0 3) - c.radius := by
      unfold inspHocbf hocbf at hh
      rw [if_neg (by omega)] at hh
      simp only [Except.ok.injEq] at hh
      rw [← hh]
      rfl
    rw [List.map_append, common_reports]
    simp only [List.map_cons, List.map_nil, e]
    rfl

/-- What the sun constraint between two deputies reports: an angle with the sun's axis. -/
theorem deputy_sun_phi {fov : ℝ} {i : Nat} {x : List ℝ} (h6 : 6 ≤ x.length) (hx : 6 * i + 6 ≤ x.length) (h0 : norm2 (positionFrom i x) ≠ 0) :
    (conicPhi fov (vscale (getSign i x) (relPos i x)) (multiSun x)).getD 0 =
        arccos (|dot (positionFrom i x) (multiSun x)| / norm2 (positionFrom i x)) - fov / 2 ∧
      -1 ≤ |dot (positionFrom i x) (multiSun x)| / norm2 (positionFrom i x) ∧
      |dot (positionFrom i x) (multiSun x)| / norm2 (positionFrom i x) ≤ 1 := by
  have h0' : norm2 (relPos i x) ≠ 0 := h0
  have hl := relPos_length (i := i) h6 hx
  have hσ := getSign_eq h6 hx h0'
  have habs : getSign i x * dot (relPos i x) (multiSun x) = |dot (relPos i x) (multiSun x)| := by
    rw [hσ]
    split_ifs with h
    · rw [abs_of_neg h]; ring
    · rw [abs_of_nonneg (not_lt.1 h)]; ring
  have hls : (vscale (getSign i x) (relPos i x)).length = 3 := by simp [vscale, hl]
  have hns : norm2 (vscale (getSign i x) (relPos i x)) = norm2 (relPos i x) := by
    refine norm2_vscale_sign ?_ _
    rw [hσ]
    split_ifs
    · exact Or.inr rfl
    · exact Or.inl rfl
  have hd : dot (vscale (getSign i x) (relPos i x)) (multiSun x) = |dot (relPos i x) (multiSun x)| := by
    rw [dot_vscale_left, habs]
  have hm := cos_angle_mem hls (c := multiSun x) rfl (multiSun_unit x) (by rw [hns]; exact h0')
  rw [conicPhi_unit hls rfl (multiSun_unit x) (by rw [hns]; exact h0'), hns, hd]
  rw [hns, hd] at hm
  exact ⟨rfl, hm⟩

/-- **C100**, the multi-deputy inspection module: its own entries as for one deputy; and for every other deputy the distance beyond twice
the deputy radius, a number that is nonnegative exactly if neither of the two has the sun in view behind the other, and the least
distance beyond `chief_radius + deputy_radius` at the whole seconds of coasting for 100 s. There is one entry per name. -/
theorem C100_fleet (solver : Solver ℝ) {c : MultiConfig} (hN : 0 < c.numDeputies) (hn : c.n ≠ 0) (hf0 : 0 ≤ c.fov) (hf : c.fov ≤ 2 * π)
    (hv1 : 0 ≤ c.v1Coef * c.n) {s : ASIFObj ℝ (List ℝ) InspParams Unit} (hcs : s.constraints = multiConstraints c) (hen : s.enable = true)
    {x : List ℝ} (hx : x.length = 6 * c.numDeputies + 1) (hr : 0 < norm2 (pySlice x 0 3)) (dt : ℝ) (u : List ℝ) :
    ∃ rel sun psm pairs, logOf (explicitASIF solver (multiF c) (fun _ => multiG c) s (.array x) dt u).2 =
      ("constraints_at_last_state",
        [("chief_collision", norm2 (pySlice x 0 3) - c.radius), ("rel_vel", rel), ("chief_sun", sun),
         ("r_max", c.rMax - norm2 (pySlice x 0 3)), ("PSM", psm),
         ("x_vel", c.velLimit ^ 2 - comp x 3 ^ 2), ("y_vel", c.velLimit ^ 2 - comp x 4 ^ 2), ("z_vel", c.velLimit ^ 2 - comp x 5 ^ 2)] ++
          pairs) ∧
      OwnReports c.toInspConfig x (comp x (6 * c.numDeputies)) rel sun psm ∧ pairs.length = 3 * (c.numDeputies - 1) ∧
      ∀ i, 0 < i → i < c.numDeputies → ∃ dsun dpsm,
        ("deputy_collision_" ++ toString i, norm2 (positionFrom i x) - c.deputyRadius * 2) ∈ pairs ∧
        ("deputy_sun_" ++ toString i, dsun) ∈ pairs ∧ ("deputy_PSM_" ++ toString i, dpsm) ∈ pairs ∧
        (0 < norm2 (positionFrom i x) → (0 ≤ dsun ↔
          |dot (positionFrom i x) (sunDirection (comp x (6 * c.numDeputies)))| ≤ norm2 (positionFrom i x) * cos (c.fov / 2))) ∧
        ∀ y z : ℝ → List ℝ, CWHSolution c.n c.m [0, 0, 0] y → y 0 = pySlice x 0 6 → CWHSolution c.n c.m [0, 0, 0] z →
          z 0 = pySlice x (6 * i) (6 * i + 6) →
          (∀ k : ℕ, 1 ≤ k → k ≤ 100 → dpsm ≤ norm2 (vsub (pySlice (y k) 0 3) (pySlice (z k) 0 3)) - c.radius) ∧
          ∃ k : ℕ, 1 ≤ k ∧ k ≤ 100 ∧ dpsm = norm2 (vsub (pySlice (y k) 0 3) (pySlice (z k) 0 3)) - c.radius := by
  have h6 : 6 ≤ x.length := by omega
  refine ⟨_, _, _, ((List.range (c.numDeputies - 1)).flatMap fun j => multiPair c (j + 1)).map fun kc => (kc.1, kc.2.phiFn x kc.2.params),
    ?_, own_reports hn hf0 hf hv1 h6 hr (comp x (6 * c.numDeputies)), ?_, fun i hi0 hi => ?_⟩
  · rw [report_call solver _ _ hen, hcs, multiConstraints, List.map_append]
    congr 2
    unfold multiOwn
    simp only [List.map_cons, List.map_nil, inspRelVel, multiChiefSun, inspMaxDistance, inspPSM, inspLimit, inspCollision, adConstraint,
      Constraint.mk', maxDistancePhi, chiefCollisionPhi, multiSun_eq hx]
    rfl
  · rw [List.length_map, List.length_flatMap]
    simp [multiPair, mul_comm]
  · have hmem : ∀ kc ∈ multiPair c i, (kc.1, kc.2.phiFn x kc.2.params) ∈
        ((List.range (c.numDeputies - 1)).flatMap fun j => multiPair c (j + 1)).map fun kc => (kc.1, kc.2.phiFn x kc.2.params) := by
      intro kc hkc
      refine List.mem_map_of_mem (List.mem_flatMap.2 ⟨i - 1, List.mem_range.2 (by omega), ?_⟩)
      rwa [show i - 1 + 1 = i by omega]
    have hcol := hmem _ (List.mem_cons_self ..)
    have ecol : ∀ r, deputyCollisionPhi r i x = norm2 (positionFrom i x) - r := fun r => by
      rw [deputyCollisionPhi, mul_comm i 6]; rfl
    refine ⟨_, _, by rw [← ecol]; exact hcol, hmem _ (List.mem_cons_of_mem _ (List.mem_cons_self ..)),
      hmem _ (List.mem_cons_of_mem _ (List.mem_cons_of_mem _ (List.mem_cons_self ..))), fun h0 => ?_, fun y z hy hy0 hz hz0 => ?_⟩
    · obtain ⟨e, hl, hh⟩ := deputy_sun_phi (fov := c.fov) h6 (show 6 * i + 6 ≤ x.length by omega) h0.ne'
      show 0 ≤ (conicPhi c.fov (vscale (getSign i x) (relPos i x)) (multiSun x)).getD 0 ↔ _
      rw [e, ← multiSun_eq hx]
      exact angle_nonneg_iff hf0 hf h0 hl hh
    · obtain ⟨v, hv, -, -⟩ := multi_psm_value c i x
      obtain ⟨h1, k, hk1, hk2, e'⟩ := C66_value hn h6 (show i * 6 + 6 ≤ x.length by omega) hv hy hy0 hz (by rw [hz0, mul_comm])
      have e : Except.orZero (psmDeputyCompute c.n c.radius 1 100 i x) = v := by rw [hv]; rfl
      simp only [multiPSM, Constraint.mk', e]
      refine ⟨fun k hk1 hk2 => ?_, k, hk1, hk2, ?_⟩
      · have := h1 k hk1 hk2
        rwa [mul_one] at this
      · rwa [mul_one] at e'

/-! ### Closed loop -/

/-- **C100.** With the limits kept and the constraints positive nothing that is reported is negative or zero. -/
theorem C100_positive (solver : Solver ℝ) {c : InspConfig} (hc : InspOK c) {s : ASIFObj ℝ (List ℝ) InspParams Unit}
    (hcs : s.constraints = inspConstraints c) (hen : s.enable = true) {x : List ℝ} (hx : x.length = 8) (hin : InspectionInside c x)
    (hpos : ∀ kc ∈ inspConstraints c, 0 < kc.2.value x) (dt : ℝ) (u : List ℝ) :
    ∀ kv ∈ (logOf (explicitASIF solver (inspectionF c.n c.sunVel) (fun _ => inspectionG c.m) s (.array x) dt u).2).2, 0 < kv.2 := by
  have hp : (pySlice x 0 3).length = 3 := (slice_length hx).1
  have hr : 0 < norm2 (pySlice x 0 3) := hc.radius.trans hin.outside
  rw [report_call solver _ _ hen, hcs, inspConstraints, List.map_append, common_reports]
  have hrel : 0 < relativeVelocity 3 c.v0 (c.v1Coef * c.n) c.v0Distance (1 / 100000) x + -(1 / 1000) := hpos _ (inspC_mem c .rel)
  have hlim : ∀ i, 0 < c.velLimit ^ 2 - stateAt x i ^ 2 + -(1 / 1000) → 0 < c.velLimit ^ 2 - comp x i ^ 2 := fun i h => by
    unfold comp; unfold stateAt at h; linarith
  have hpsm : 0 < Except.orZero (psmCompute c.n c.radius 1 100 x) := by
    obtain ⟨v, hv, e⟩ := insp_psm_value c x
    have := hpos _ (inspC_mem c .psm)
    rw [e] at this
    rw [hv]; exact this
  have hsun : 0 < (conicPhi c.fov (pySlice x 0 3) (sunDirection (comp x 6))).getD 0 := by
    rw [conicPhi_unit hp rfl (sunDirection_unit _) hr.ne']
    have hm := cos_angle_mem hp (c := sunDirection (comp x 6)) rfl (sunDirection_unit _) hr.ne'
    exact angle_pos (by linarith [hc.fov, pi_pos]) hr hm.1 hm.2 hin.sun
  intro kv hkv
  simp only [List.cons_append, List.nil_append, List.map_cons, List.map_nil, List.mem_cons, List.not_mem_nil, or_false] at hkv
  rcases hkv with rfl | rfl | rfl | rfl | rfl | rfl | rfl | rfl
  · show 0 < relativeVelocity 3 c.v0 (c.v1Coef * c.n) c.v0Distance (1 / 100000) x
    linarith
  · exact hsun
  · exact sub_pos.2 hin.inside
  · exact hpsm
  · exact hlim 3 (hpos _ (inspC_mem c .vx))
  · exact hlim 4 (hpos _ (inspC_mem c .vy))
  · exact hlim 5 (hpos _ (inspC_mem c .vz))
  · exact sub_pos.2 hin.outside

/-- **C100, closed loop.** Under the hypotheses of `C70_closed_loop` every module of the configuration reports positive values only,
at every time up to `T`, also for the state at `T` itself. -/
theorem C100_closed_loop {solver : Solver ℝ} (hspec : SolverSpec solver) {c : InspConfig} (hc : InspOK c) {x u : ℝ → List ℝ}
    (hm : InspectionMotion c.n c.m c.sunVel x u) {T : ℝ}
    (hloop : ∀ t, 0 ≤ t → t < T → ∃ (s s' : ASIFObj ℝ (List ℝ) InspParams Unit) (dt : ℝ) (uDes : List ℝ),
      ExplicitModule solver (inspectionF c.n c.sunVel) (fun _ => inspectionG c.m) s ∧ s.constraints = inspConstraints c ∧
      s.ext.controlDim = 3 ∧ s.ext.direct = [] ∧ s.enable = true ∧ uDes.length = 3 ∧
      (s.ext.solverException = true ∨ (InspectionInside c (x t) → (∀ kc ∈ inspConstraints c, 0 < kc.2.value (x t)) →
        ∃ w, Admissible (inspectionF c.n c.sunVel) (fun _ => inspectionG c.m) s (x t) w)) ∧
      explicitASIF solver (inspectionF c.n c.sunVel) (fun _ => inspectionG c.m) s (.array (x t)) dt uDes = (.ok (u t), s'))
    (hax : ∀ t, 0 ≤ t → t ≤ T → sqNorm (pySlice (x t) 0 3) ≠ dot (pySlice (x t) 0 3) (sunVector (x t)) ^ 2)
    (h0 : InspectionInside c (x 0)) (h0' : ∀ kc ∈ inspConstraints c, 0 < kc.2.value (x 0)) {t : ℝ} (ht : 0 ≤ t) (htT : t ≤ T)
    {s : ASIFObj ℝ (List ℝ) InspParams Unit} (hcs : s.constraints = inspConstraints c) (hen : s.enable = true) (dt : ℝ) (w : List ℝ) :
    ∀ kv ∈ (logOf (explicitASIF solver (inspectionF c.n c.sunVel) (fun _ => inspectionG c.m) s (.array (x t)) dt w).2).2, 0 < kv.2 := by
  obtain ⟨hin, hpos⟩ := C70_closed_loop hspec hc hm hloop hax h0 h0' t ht htT
  exact C100_positive solver hc hcs hen (hm.len t ht) hin hpos dt w

/-- **C100**, the same for the multi-deputy module. -/
theorem C100_fleet_positive (solver : Solver ℝ) {c : MultiConfig} (hc : MultiOK c) {s : ASIFObj ℝ (List ℝ) InspParams Unit}
    (hcs : s.constraints = multiConstraints c) (hen : s.enable = true) {x : List ℝ} (hx : x.length = 6 * c.numDeputies + 1)
    (hin : FleetInside c x) (hpos : ∀ kc ∈ multiConstraints c, 0 < kc.2.value x) (dt : ℝ) (u : List ℝ) :
    ∀ kv ∈ (logOf (explicitASIF solver (multiF c) (fun _ => multiG c) s (.array x) dt u).2).2, 0 < kv.2 := by
  have h6 : 6 ≤ x.length := by have := hc.deputies; omega
  have hp : (pySlice x 0 3).length = 3 := by simp [pySlice]; omega
  have hr : 0 < norm2 (pySlice x 0 3) := hc.radius.trans hin.outside
  have hlim : ∀ i, 0 < c.velLimit ^ 2 - stateAt x i ^ 2 + -(1 / 1000) → 0 < c.velLimit ^ 2 - stateAt x i ^ 2 := fun i h => by linarith
  have hfov : c.fov ≤ 2 * π := by linarith [hc.fov, pi_pos]
  rw [report_call solver _ _ hen, hcs]
  intro kv hkv
  obtain ⟨kc, hkc, rfl⟩ := List.mem_map.1 hkv
  have hv := hpos kc hkc
  rw [multiConstraints, List.mem_append] at hkc
  rcases hkc with hkc | hkc
  · unfold multiOwn at hkc
    simp only [List.mem_cons, List.not_mem_nil, or_false] at hkc
    rcases hkc with rfl | rfl | rfl | rfl | rfl | rfl | rfl | rfl
    · exact sub_pos.2 hin.outside
    · have h : 0 < relativeVelocity 3 c.v0 (c.v1Coef * c.n) c.v0Distance (1 / 100000) x + -(2 / 1000) := hv
      show 0 < relativeVelocity 3 c.v0 (c.v1Coef * c.n) c.v0Distance (1 / 100000) x
      linarith
    · show 0 < (conicPhi c.fov (pySlice x 0 3) (multiSun x)).getD 0
      rw [conicPhi_unit hp rfl (multiSun_unit x) hr.ne']
      have hm := cos_angle_mem hp (c := multiSun x) rfl (multiSun_unit x) hr.ne'
      have hs := hin.sun
      rw [← multiSun_eq hx] at hs
      exact angle_pos hfov hr hm.1 hm.2 hs
    · exact sub_pos.2 hin.inside
    · obtain ⟨v, hv', e⟩ := insp_psm_value c.toInspConfig x
      have h : 0 < (inspC c.toInspConfig .psm).2.value x := hv
      rw [e] at h
      simp only [inspPSM, Constraint.mk', hv']
      exact h
    · exact hlim 3 hv
    · exact hlim 4 hv
    · exact hlim 5 hv
  · obtain ⟨j, hj, hkc⟩ := List.mem_flatMap.1 hkc
    have hj' : j + 1 < c.numDeputies := by have := List.mem_range.1 hj; omega
    have hap := hin.apart (j + 1) (by omega) hj'
    have hd0 : 0 < norm2 (positionFrom (j + 1) x) := by linarith [hc.deputyRadius]
    unfold multiPair at hkc
    simp only [List.mem_cons, List.not_mem_nil, or_false] at hkc
    rcases hkc with rfl | rfl | rfl
    · show 0 < deputyCollisionPhi (c.deputyRadius * 2) (j + 1) x
      rw [deputyCollisionPhi, mul_comm (j + 1) 6]
      exact sub_pos.2 hap
    · obtain ⟨e, hl, hh⟩ := deputy_sun_phi (fov := c.fov) h6 (show 6 * (j + 1) + 6 ≤ x.length by omega) hd0.ne'
      show 0 < (conicPhi c.fov (vscale (getSign (j + 1) x) (relPos (j + 1) x)) (multiSun x)).getD 0
      have hs := hin.clear (j + 1) (by omega) hj'
      rw [← multiSun_eq hx] at hs
      rw [e]
      exact angle_pos hfov hd0 hl hh hs
    · obtain ⟨v, hv', e, -⟩ := multi_psm_value c (j + 1) x
      have h : 0 < (multiC c (.psm (j + 1))).2.value x := hv
      rw [e] at h
      simp only [multiPSM, Constraint.mk', hv']
      exact h

/-- **C100, closed loop**, for the multi-deputy module under the hypotheses of `C72_closed_loop`. -/
theorem C100_fleet_closed_loop {solver : Solver ℝ} (hspec : SolverSpec solver) {c : MultiConfig} (hc : MultiOK c) {x u : ℝ → List ℝ}
    (hm : FleetMotion c.n c.m c.sunVel c.numDeputies x (onlyFirst u)) {T : ℝ}
    (hloop : ∀ t, 0 ≤ t → t < T → ∃ (s s' : ASIFObj ℝ (List ℝ) InspParams Unit) (dt : ℝ) (uDes : List ℝ),
      ExplicitModule solver (multiF c) (fun _ => multiG c) s ∧ s.constraints = multiConstraints c ∧
      s.ext.controlDim = 3 ∧ s.ext.direct = [] ∧ s.enable = true ∧ uDes.length = 3 ∧
      (s.ext.solverException = true ∨ (FleetInside c (x t) → (∀ kc ∈ multiConstraints c, 0 < kc.2.value (x t)) →
        ∃ w, Admissible (multiF c) (fun _ => multiG c) s (x t) w)) ∧
      explicitASIF solver (multiF c) (fun _ => multiG c) s (.array (x t)) dt uDes = (.ok (u t), s'))
    (hax : ∀ t, 0 ≤ t → t ≤ T →
      sqNorm (pySlice (x t) 0 3) ≠ dot (pySlice (x t) 0 3) (sunDirection (comp (x t) (6 * c.numDeputies))) ^ 2)
    (hperp : ∀ t, 0 ≤ t → t ≤ T → ∀ i, 0 < i → i < c.numDeputies →
      dot (positionFrom i (x t)) (sunDirection (comp (x t) (6 * c.numDeputies))) ≠ 0)
    (h0 : FleetInside c (x 0)) (h0' : ∀ kc ∈ multiConstraints c, 0 < kc.2.value (x 0)) {t : ℝ} (ht : 0 ≤ t) (htT : t ≤ T)
    {s : ASIFObj ℝ (List ℝ) InspParams Unit} (hcs : s.constraints = multiConstraints c) (hen : s.enable = true) (dt : ℝ) (w : List ℝ) :
    ∀ kv ∈ (logOf (explicitASIF solver (multiF c) (fun _ => multiG c) s (.array (x t)) dt w).2).2, 0 < kv.2 := by
  obtain ⟨hin, hpos⟩ := C72_closed_loop hspec hc hm hloop hax hperp h0 h0' t ht htT
  exact C100_fleet_positive solver hc hcs hen (hm.len t ht) hin hpos dt w

/-! ### The hypotheses are met -/

/-- The default module with the sun standing still, at rest 100 m from the chief: everything it reports is positive, the chief
collision entry is 90, the `r_max` entry 700. -/
example (solver : Solver ℝ) (exc : Bool) (u : List ℝ) :
    ∃ s, inspASIF inspStill (some (.scalar 1)) (some (.scalar (-1))) (1 / 1000) exc = .ok s ∧
      (∀ kv ∈ (logOf (explicitASIF solver (inspectionF inspStill.n inspStill.sunVel) (fun _ => inspectionG inspStill.m) s
        (.array inspRest) 1 u).2).2, 0 < kv.2) ∧
      ("chief_collision", 90) ∈ (logOf (explicitASIF solver (inspectionF inspStill.n inspStill.sunVel)
        (fun _ => inspectionG inspStill.m) s (.array inspRest) 1 u).2).2 := by
  obtain ⟨s, hs⟩ := insp_init_ok inspStill 1 (1 / 1000) exc
  obtain ⟨hcs, -, -, hen, -⟩ := insp_init hs
  refine ⟨s, hs, C100_positive solver inspStill_ok hcs hen rfl inspRest_inside inspRest_values 1 u, ?_⟩
  have hn : inspStill.n ≠ 0 := by norm_num [inspStill, inspDefault]
  obtain ⟨rel, sun, psm, h, -⟩ := C100_inspection solver hn (by linarith [inspStill_ok.fov0]) (by linarith [inspStill_ok.fov, pi_pos])
    (by norm_num [inspStill, inspDefault]) hcs hen (x := inspRest) rfl (by rw [inspRest_norm]; norm_num) 1 u
  rw [h, inspRest_norm, inspStill_radius]
  norm_num

/-- Two deputies at rest, 100 m and 300 m ahead of the chief: the module of the first one reports positive values only, and 190 for the
distance between the two. -/
example (solver : Solver ℝ) (exc : Bool) (u : List ℝ) :
    ∃ s, multiASIF multiStill none (some (.scalar 1)) (some (.scalar (-1))) (1 / 1000) exc = .ok s ∧
      (∀ kv ∈ (logOf (explicitASIF solver (multiF multiStill) (fun _ => multiG multiStill) s (.array multiRest) 1 u).2).2, 0 < kv.2) ∧
      ("deputy_collision_1", 190) ∈ (logOf (explicitASIF solver (multiF multiStill) (fun _ => multiG multiStill) s
        (.array multiRest) 1 u).2).2 := by
  obtain ⟨s, hs⟩ := multi_init_ok multiStill 1 (1 / 1000) exc
  obtain ⟨hcs, -, -, hen, -⟩ := multi_init hs
  refine ⟨s, hs, C100_fleet_positive solver multiStill_ok hcs hen rfl multiRest_inside multiRest_values 1 u, ?_⟩
  have hn : multiStill.n ≠ 0 := by norm_num [multiStill, multiDefault, inspDefault]
  obtain ⟨rel, sun, psm, pairs, h, -, -, hp⟩ := C100_fleet solver (c := multiStill) multiStill_ok.deputies hn
    (by linarith [multiStill_ok.fov0]) (by linarith [multiStill_ok.fov, pi_pos])
    (by norm_num [multiStill, multiDefault, inspDefault]) hcs hen (x := multiRest) rfl
    (multiStill_ok.radius.trans multiRest_inside.outside) 1 u
  obtain ⟨_, _, h1, -⟩ := hp 1 one_pos (by show 1 < 2; omega)
  rw [h]
  refine List.mem_append_right _ ?_
  have e : norm2 (positionFrom 1 multiRest) - multiStill.deputyRadius * 2 = 190 := by
    have ed : multiStill.deputyRadius = 5 := rfl
    rw [multiRest_from, orbitRest_norm, ed]
    norm_num
  rw [e] at h1
  exact h1

end RTA
