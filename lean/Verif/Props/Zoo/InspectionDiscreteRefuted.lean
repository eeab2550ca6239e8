import Verif.Props.Zoo.InspectionDiscrete
import Verif.Lemmas.Zoo.InspectionAxis
import Mathlib.Analysis.SpecialFunctions.Trigonometric.Bounds
import Mathlib.Analysis.Real.Pi.Bounds

/-!
C79, what the discrete inspection module does not guarantee. All witnesses use the default configuration.
-/
namespace RTA
open Real

section
variable {z w angle fuel : ℝ}

theorem default_aMax : 7 / 100 < inspDefault.aMax := inspStill_aMax

theorem default_aMax_le : inspDefault.aMax ≤ 1 / 12 := by
  have h : (0 : ℝ) ≤ min (1 : ℝ) (2 / 10 + 2 * (1027 / 1000000) * 1000) := le_min (by norm_num) (by norm_num)
  show 1 / (12 : ℝ) - 3 * (1027 / 1000000) ^ 2 * 1000 - 2 * (1027 / 1000000) * min (1 : ℝ) (2 / 10 + 2 * (1027 / 1000000) * 1000) ≤ 1 / 12
  nlinarith

theorem default_radius : inspDefault.radius = 10 := inspStill_radius

theorem default_cos : cos (inspDefault.fov / 2) = √3 / 2 := by
  show cos (60 * π / 180 / 2) = _
  rw [show 60 * π / 180 / 2 = π / 6 by ring, cos_pi_div_six]

theorem default_cos_bounds : 86 / 100 < cos (inspDefault.fov / 2) ∧ cos (inspDefault.fov / 2) < 87 / 100 := by
  rw [default_cos]
  have h1 : 172 / 100 < √(3 : ℝ) := by rw [lt_sqrt (by norm_num)]; norm_num
  have h2 : √(3 : ℝ) < 174 / 100 := by rw [sqrt_lt' (by norm_num)]; norm_num
  constructor <;> linarith

theorem axis_rate (hz : z ≠ 0) : abs (z * w / |z|) = |w| := by
  rw [abs_div, abs_mul, abs_abs, mul_div_cancel_left₀ _ (abs_ne_zero.2 hz)]

theorem rel_norm_le : √(w ^ 2 + 1 / 100000) ≤ |w| + 4 / 1000 := by
  rw [sqrt_le_left (by positivity), ← sq_abs w]
  nlinarith [abs_nonneg w]

/-- When every constraint of the default module holds strictly at a state on the axis. -/
theorem axis_positive (hz : 9 ≤ |z|) (hz' : |z| ≤ 900) (hw : |w| ≤ 19 / 100)
    (hcoll : 0 < hval (dC inspDefault .coll).2 (axisState z w angle fuel))
    (hpsm : 0 < hval (dC inspDefault .psm).2 (axisState z w angle fuel)) (k : InspIx) :
    0 < hval (dC inspDefault k).2 (axisState z w angle fuel) := by
  have hz0 : z ≠ 0 := abs_pos.1 (by linarith)
  have ha := default_aMax
  have hr := abs_le.1 (axis_rate (w := w) hz0).le
  have hc := default_cos_bounds
  have hw2 : w ^ 2 ≤ (19 / 100) ^ 2 := by rw [← sq_abs]; exact pow_le_pow_left₀ (abs_nonneg _) hw 2
  cases k with
  | coll => exact hcoll
  | psm => exact hpsm
  | vx => rw [axis_vx]; show 0 < (1 : ℝ) ^ 2 - 1 / 1000; norm_num
  | vy => rw [axis_vy]; show 0 < (1 : ℝ) ^ 2 - 1 / 1000; norm_num
  | vz => rw [axis_vz]; show 0 < (1 : ℝ) ^ 2 - w ^ 2 - 1 / 1000; norm_num; linarith
  | rel =>
    rw [axis_relv]
    show 0 < (2 : ℝ) / 10 + 2 * (1027 / 1000000) * (√(z ^ 2 + 1 / 100000) - 0) - √(w ^ 2 + 1 / 100000) - 1 / 1000
    have h1 := rel_norm_le (w := w)
    have h2 : 9 ≤ √(z ^ 2 + 1 / 100000) := by
      rw [le_sqrt' (by norm_num), ← sq_abs z]; nlinarith
    linarith
  | rmax =>
    rw [axis_rmax hz0 (by linarith) (show |z| ≤ (1000 : ℝ) by linarith)]
    show 0 < √(2 * inspDefault.aMax * ((1000 : ℝ) - |z|)) - z * w / |z| - 1 / 1000
    have : 1 < √(2 * inspDefault.aMax * ((1000 : ℝ) - |z|)) := by
      rw [lt_sqrt (by norm_num)]; nlinarith
    linarith [hr.2]
  | sun =>
    rw [axis_sun hz0 (by linarith) (by linarith [hc.1])]
    have : 1 / 2 < √(2 * inspDefault.aMax * (cos (inspDefault.fov / 2) * |z|)) := by
      rw [lt_sqrt (by norm_num)]
      have h1 : 7 < cos (inspDefault.fov / 2) * |z| := by nlinarith [hc.1]
      nlinarith
    have h2 : -(19 / 100) ≤ cos (inspDefault.fov / 2) * (z * w / |z|) := by
      have : |cos (inspDefault.fov / 2) * (z * w / |z|)| ≤ 19 / 100 := by
        rw [abs_mul, axis_rate hz0, abs_of_pos (by linarith [hc.1])]
        nlinarith [abs_nonneg w, hc.1, hc.2]
      exact (abs_le.1 this).1
    linarith

theorem axis_psm_pos (h : ∀ x : ℝ, 1027 / 1000000 ≤ x → x ≤ 1027 / 10000 → 10 < |z * cos x + w / (1027 / 1000000) * sin x|) :
    0 < hval (dC inspDefault .psm).2 (axisState z w angle fuel) := by
  obtain ⟨j, hj, e⟩ := (axis_psmv (c := inspDefault) (z := z) (w := w) (angle := angle) (fuel := fuel)).2
  rw [e, default_radius]
  have h1 : (j : ℝ) + 1 ≤ 100 := by exact_mod_cast Finset.mem_range.1 hj
  have h0 : (0 : ℝ) ≤ j := Nat.cast_nonneg j
  have := h (1027 / 1000000 * (j + 1)) (by linarith) (by linarith)
  change 0 < |z * cos (1027 / 1000000 * ((j : ℝ) + 1)) + w / (1027 / 1000000) * sin (1027 / 1000000 * (j + 1))| - 10
  linarith

end

theorem all_positive {c : InspConfig} {x : List ℝ} (h : ∀ k, 0 < hval (dC c k).2 x) : ∀ kc ∈ discInspConstraints c, 0 < hval kc.2 x := by
  rw [discInspConstraints_eq]
  intro kc hkc
  obtain ⟨k, -, rfl⟩ := List.mem_map.1 hkc
  exact h k

/-! ### Crossing the chief between two samples -/

theorem crossing_positive {z angle : ℝ} (hz : |z| = 100) {fuel : ℝ} (k : InspIx) :
    0 < hval (dC inspDefault k).2 (axisState z 0 angle fuel) := by
  have hz0 : z ≠ 0 := abs_pos.1 (by rw [hz]; norm_num)
  have ha := default_aMax
  refine axis_positive (by rw [hz]; norm_num) (by rw [hz]; norm_num) (by norm_num) ?_ ?_ k
  · rw [axis_coll hz0 (by linarith), hz, default_radius, if_pos (by norm_num)]
    have : 0 < √(2 * inspDefault.aMax * ((100 : ℝ) - 10)) := sqrt_pos.2 (by nlinarith)
    simpa using this
  · refine axis_psm_pos fun x h1 h2 => ?_
    have hcos : 1 / 2 < cos x := by nlinarith [one_sub_sq_div_two_le_cos (x := x)]
    rw [zero_div, zero_mul, add_zero, abs_mul, hz, abs_of_pos (by linarith)]
    linarith

/-- **C79, refuted between samples.** With a step of half a revolution (51 minutes) the module lets the deputy fly through the chief: all eight
constraints hold strictly at both samples, the module returns the desired control, and every motion with that control is at
the chief's centre half way. -/
theorem C79_refuted_crossing {solver : NLPSolver ℝ} (hsound : NLPSound solver) (hglob : NLPGlobal solver) (hcomp : NLPComplete solver)
    {epsilon : ℝ} {exc : Bool} {s : DiscObj ℝ (List ℝ) InspParams}
    (hs : discInsp inspDefault (some (.scalar 1)) (some (.scalar (-1))) epsilon exc = .ok s) :
    ∃ (x u : List ℝ) (dt : ℝ), x.length = 8 ∧ 0 < dt ∧ (∀ kc ∈ discInspConstraints inspDefault, 0 < hval kc.2 x) ∧
      (discreteASIF solver (discInspNext inspDefault) s (.array x) dt u).1 = .ok u ∧
      (∀ kc ∈ discInspConstraints inspDefault, 0 < hval kc.2 (discInspNext inspDefault x dt u)) ∧
      ∀ y : ℝ → List ℝ, CWHSolution inspDefault.n inspDefault.m u y → y 0 = pySlice x 0 6 → pySlice (y (dt / 2)) 0 3 = [0, 0, 0] := by
  have hn : inspDefault.n = 1027 / 1000000 := rfl
  have hn0 : inspDefault.n ≠ 0 := by rw [hn]; norm_num
  have hdt : 1000 ≤ π / inspDefault.n := by
    rw [hn, le_div_iff₀ (by norm_num)]; linarith [pi_gt_three]
  have hnext : discInspNext inspDefault (axisState 100 0 0 0) (π / inspDefault.n) [0, 0, 0] =
      axisState (-100) 0 (0 - inspDefault.sunVel * (π / inspDefault.n)) 0 := by
    rw [axis_next, mul_div_cancel₀ _ hn0]
    simp
  have hx := fun k => crossing_positive (z := 100) (angle := 0) (fuel := 0) (by norm_num) k
  have hy := fun k => crossing_positive (z := -100) (angle := 0 - inspDefault.sunVel * (π / inspDefault.n)) (fuel := 0) (by norm_num) k
  refine ⟨axisState 100 0 0 0, [0, 0, 0], π / inspDefault.n, rfl, by linarith, all_positive hx, ?_, ?_, ?_⟩
  · refine discInsp_accepts hsound hglob hcomp hs (by linarith) rfl (by simp) fun k => ?_
    refine long_step hdt k (hx k) ?_
    rw [hnext]
    exact hy k
  · rw [hnext]
    exact all_positive hy
  · intro y hy h0
    have h := C43_exact hn0 rfl hy 0 (π / inspDefault.n / 2)
    rw [zero_add, h0] at h
    rw [h]
    have e : inspDefault.n * (π / inspDefault.n / 2) = π / 2 := by field_simp
    simp [discreteA, discreteB, matVec, vadd, dot, pySlice, axisState, e]

/-! ### Inside the sphere at a sample -/

/-- **C79, refuted at samples.** All eight constraints hold strictly at a sample, the module returns the desired control, all eight hold strictly at the
next sample, and there the deputy is closer to the chief than the sum of the radii. -/
theorem C79_refuted_inside {solver : NLPSolver ℝ} (hsound : NLPSound solver) (hglob : NLPGlobal solver) (hcomp : NLPComplete solver)
    {epsilon : ℝ} {exc : Bool} {s : DiscObj ℝ (List ℝ) InspParams}
    (hs : discInsp inspDefault (some (.scalar 1)) (some (.scalar (-1))) epsilon exc = .ok s) :
    ∃ (x u : List ℝ) (dt : ℝ), x.length = 8 ∧ 0 < dt ∧ (∀ kc ∈ discInspConstraints inspDefault, 0 < hval kc.2 x) ∧
      (discreteASIF solver (discInspNext inspDefault) s (.array x) dt u).1 = .ok u ∧
      (∀ kc ∈ discInspConstraints inspDefault, 0 < hval kc.2 (discInspNext inspDefault x dt u)) ∧
      norm2 (pySlice (discInspNext inspDefault x dt u) 0 3) < inspDefault.chiefRadius + inspDefault.deputyRadius := by
  have hn : inspDefault.n = 1027 / 1000000 := rfl
  have hn0 : inspDefault.n ≠ 0 := by rw [hn]; norm_num
  have ha := default_aMax
  have ha' := default_aMax_le
  set dt := 2 * π / 3 / inspDefault.n with hdtdef
  have hdt : 1000 ≤ dt := by
    rw [hdtdef, hn, le_div_iff₀ (by norm_num)]; linarith [pi_gt_three]
  have harg : inspDefault.n * dt = π - π / 3 := by rw [hdtdef, mul_div_cancel₀ _ hn0]; ring
  have h31 : 173 / 100 < √(3 : ℝ) := by rw [lt_sqrt (by norm_num)]; norm_num
  have h32 : √(3 : ℝ) < 174 / 100 := by rw [sqrt_lt' (by norm_num)]; norm_num
  obtain ⟨w, hw⟩ : ∃ w, w = -(1027 / 1000000) * (√3 / 2) * (19998 / 1000) := ⟨_, rfl⟩
  have hw1 : w < -(1775 / 100000) := by rw [hw]; linarith
  have hw2 : -(2 / 100) < w := by rw [hw]; linarith
  have hnext : discInspNext inspDefault (axisState (19998 / 1000) 0 0 0) dt [0, 0, 0] =
      axisState (-(9999 / 1000)) w (0 - inspDefault.sunVel * dt) 0 := by
    rw [axis_next, harg, cos_pi_sub, sin_pi_sub, cos_pi_div_three, sin_pi_div_three, hw, hn]
    simp only [axisState, List.cons.injEq, and_true, true_and]
    constructor <;> norm_num
  have hsin : ∀ x : ℝ, 1027 / 1000000 ≤ x → x ≤ 1027 / 10000 → 99 / 100 * x ≤ sin x := fun x h1 h2 => by
    have := sin_gt_sub_cube (x := x) (by linarith) 
    nlinarith [mul_le_mul h2 h2 (by linarith) (by norm_num), sq_nonneg x]
  have hx : ∀ k, 0 < hval (dC inspDefault k).2 (axisState (19998 / 1000) 0 0 0) := by
    refine axis_positive (by rw [abs_of_pos] <;> norm_num) (by rw [abs_of_pos] <;> norm_num) (by norm_num) ?_ ?_
    · rw [axis_coll (by norm_num) (by linarith), default_radius, abs_of_pos (by norm_num), if_pos (by norm_num)]
      have : 0 < √(2 * inspDefault.aMax * ((19998 / 1000 : ℝ) - 10)) := sqrt_pos.2 (by nlinarith)
      simpa using this
    · refine axis_psm_pos fun x h1 h2 => ?_
      have hcos : 9 / 10 < cos x := by nlinarith [one_sub_sq_div_two_le_cos (x := x)]
      rw [zero_div, zero_mul, add_zero, abs_mul, abs_of_pos (show (0 : ℝ) < cos x by linarith), abs_of_pos (by norm_num)]
      linarith
  have hy : ∀ k, 0 < hval (dC inspDefault k).2 (axisState (-(9999 / 1000)) w (0 - inspDefault.sunVel * dt) 0) := by
    refine axis_positive (by rw [abs_neg, abs_of_pos] <;> norm_num) (by rw [abs_neg, abs_of_pos] <;> norm_num)
      (abs_le.2 ⟨by linarith, by linarith⟩) ?_ ?_
    · rw [axis_coll (by norm_num) (by linarith), default_radius, abs_neg, abs_of_pos (by norm_num), if_neg (by norm_num)]
      have h1 : √(2 * inspDefault.aMax * ((10 : ℝ) - 9999 / 1000)) ≤ 13 / 1000 := by
        rw [sqrt_le_left (by norm_num)]; nlinarith
      have h2 : -(9999 / 1000) * w / (9999 / 1000) = -w := by ring
      rw [h2]
      linarith
    · refine axis_psm_pos fun x h1 h2 => ?_
      have hcos := one_sub_sq_div_two_le_cos (x := x)
      have hs := hsin x h1 h2
      have hx2 : x ^ 2 ≤ 1027 / 10000 * x := by nlinarith
      have hpos : 10 < 9999 / 1000 * cos x + -w / (1027 / 1000000) * sin x := by
        have h3 : 17 ≤ -w / (1027 / 1000000) := by rw [le_div_iff₀ (by norm_num)]; linarith
        have h4 : 0 ≤ sin x := by linarith
        nlinarith
      have e : -(9999 / 1000) * cos x + w / (1027 / 1000000) * sin x = -(9999 / 1000 * cos x + -w / (1027 / 1000000) * sin x) := by ring
      rw [e, abs_neg]
      exact lt_of_lt_of_le hpos (le_abs_self _)
  refine ⟨axisState (19998 / 1000) 0 0 0, [0, 0, 0], dt, rfl, by linarith, all_positive hx, ?_, ?_, ?_⟩
  · refine discInsp_accepts hsound hglob hcomp hs (by linarith) rfl (by simp) fun k => ?_
    refine long_step hdt k (hx k) ?_
    rw [hnext]
    exact hy k
  · rw [hnext]
    exact all_positive hy
  · rw [hnext, axis_norm]
    show |-(9999 / 1000)| < (5 : ℝ) + 5
    rw [abs_neg, abs_of_pos] <;> norm_num

/-! ### Passive safety -/

/-- The step of 50 seconds. -/
theorem psm_next : ∃ z w : ℝ, (18 ≤ z ∧ z ≤ 1806 / 100) ∧ (-(1 / 10) ≤ w ∧ w ≤ -(97 / 1000)) ∧
    discInspNext inspDefault (axisState 18 (1 / 10) 0 0) 50 [0, 0, -(475 / 10000)] = axisState z w (0 - inspDefault.sunVel * 50) 0 := by
  refine ⟨_, _, ?_, ?_, axis_next _ _⟩
  all_goals
    have hn : inspDefault.n = 1027 / 1000000 := rfl
    have hm : inspDefault.m = 12 := rfl
    rw [hn, hm, show (1027 / 1000000 : ℝ) * 50 = 5135 / 100000 by norm_num]
    have hc := abs_le.1 (cos_bound (x := (5135 / 100000 : ℝ)) (by rw [abs_of_pos] <;> norm_num))
    have hs := abs_le.1 (sin_bound (x := (5135 / 100000 : ℝ)) (by rw [abs_of_pos] <;> norm_num))
    rw [abs_of_pos (by norm_num)] at hc hs
    generalize cos (5135 / 100000 : ℝ) = C at *
    generalize sin (5135 / 100000 : ℝ) = S at *
    norm_num at hc hs ⊢
    constructor <;> linarith [hc.1, hc.2, hs.1, hs.2]

/-- **C79, refuted for passive safety.** With a step of 50 seconds, all eight constraints hold strictly, the module returns the desired control, and
from the state it leads to a deputy that switches its thrusters off is inside the collision sphere 100 seconds later: the passive
safety constraint is violated at the next sample. -/
theorem C79_refuted_psm {solver : NLPSolver ℝ} (hsound : NLPSound solver) (hglob : NLPGlobal solver) (hcomp : NLPComplete solver)
    {epsilon : ℝ} {exc : Bool} {s : DiscObj ℝ (List ℝ) InspParams}
    (hs : discInsp inspDefault (some (.scalar 1)) (some (.scalar (-1))) epsilon exc = .ok s) :
    ∃ x u : List ℝ, x.length = 8 ∧ (∀ kc ∈ discInspConstraints inspDefault, 0 < hval kc.2 x) ∧
      (discreteASIF solver (discInspNext inspDefault) s (.array x) 50 u).1 = .ok u ∧
      (∃ c, ("PSM", c) ∈ discInspConstraints inspDefault ∧ hval c (discInspNext inspDefault x 50 u) < 0) ∧
      ∀ y : ℝ → List ℝ, CWHSolution inspDefault.n inspDefault.m [0, 0, 0] y → y 0 = pySlice (discInspNext inspDefault x 50 u) 0 6 →
        norm2 (pySlice (y 100) 0 3) < inspDefault.chiefRadius + inspDefault.deputyRadius := by
  obtain ⟨z, w, ⟨hz1, hz2⟩, ⟨hw1, hw2⟩, hnext⟩ := psm_next
  have hn : inspDefault.n = 1027 / 1000000 := rfl
  have ha := default_aMax
  have ha' := default_aMax_le
  have hz0 : z ≠ 0 := by linarith
  have hza : |z| = z := abs_of_pos (by linarith)
  have h18 : |(18 : ℝ)| = 18 := abs_of_pos (by norm_num)
  have hrate : z * w / z = w := by field_simp
  have hrate' : (18 : ℝ) * (1 / 10) / 18 = 1 / 10 := by norm_num
  have hc := default_cos_bounds
  have hpsm18 : ∀ x : ℝ, 1027 / 1000000 ≤ x → x ≤ 1027 / 10000 → 18 < 18 * cos x + (1 / 10) / (1027 / 1000000) * sin x := by
    intro x h1 h2
    have hcos := one_sub_sq_div_two_le_cos (x := x)
    have hsin := sin_gt_sub_cube (x := x) (by linarith)
    have hx2 : x ^ 2 ≤ 1027 / 10000 * x := by nlinarith
    have hx3 : x ^ 3 ≤ x * (1027 / 10000 : ℝ) ^ 2 := by
      have := mul_le_mul_of_nonneg_left (pow_le_pow_left₀ (by linarith) h2 2) (show 0 ≤ x by linarith)
      nlinarith
    norm_num at hx3 ⊢
    linarith
  have hx : ∀ k, 0 < hval (dC inspDefault k).2 (axisState 18 (1 / 10) 0 0) := by
    refine axis_positive (by rw [h18]; norm_num) (by rw [h18]; norm_num) (by rw [abs_of_pos] <;> norm_num) ?_ ?_
    · rw [axis_coll (by norm_num) (by linarith), default_radius, h18, if_pos (by norm_num), hrate']
      positivity
    · refine axis_psm_pos fun x h1 h2 => ?_
      have := hpsm18 x h1 h2
      exact lt_of_lt_of_le (by linarith) (le_abs_self _)
  have hdrift : |z * cos (1027 / 10000) + w / (1027 / 1000000) * sin (1027 / 10000)| < 10 := by
    have hs1 := sin_gt_sub_cube (x := (1027 / 10000 : ℝ)) (by norm_num)
    have hs2 := sin_lt (x := (1027 / 10000 : ℝ)) (by norm_num)
    have hc1 := one_sub_sq_div_two_le_cos (x := (1027 / 10000 : ℝ))
    have hc2 := cos_le_one (1027 / 10000 : ℝ)
    generalize cos (1027 / 10000 : ℝ) = C at *
    generalize sin (1027 / 10000 : ℝ) = S at *
    norm_num at hs1 hc1
    rw [abs_lt, div_mul_eq_mul_div, show w * S / (1027 / 1000000) = w * S * (1000000 / 1027) by ring]
    have h1 : z * C ≤ 1806 / 100 := by nlinarith
    have h2 : 17 ≤ z * C := by nlinarith
    have h3 : w * S ≤ -(97 / 1000) * (102 / 1000) := by nlinarith
    have h4 : -(1 / 10) * (103 / 1000) ≤ w * S := by nlinarith
    constructor
    · linarith
    · linarith
  have hy : hval (dC inspDefault .psm).2 (axisState z w (0 - inspDefault.sunVel * 50) 0) < 0 := by
    have h := (axis_psmv (c := inspDefault) (z := z) (w := w) (angle := 0 - inspDefault.sunVel * 50) (fuel := 0)).1 99 (by simp)
    rw [hn, default_radius] at h
    have e : (1027 / 1000000 : ℝ) * (((99 : ℕ) : ℝ) + 1) = 1027 / 10000 := by norm_num
    rw [e] at h
    linarith
  refine ⟨axisState 18 (1 / 10) 0 0, [0, 0, -(475 / 10000)], rfl, all_positive hx, ?_, ⟨(dC inspDefault .psm).2, ?_, ?_⟩, ?_⟩
  · refine discInsp_accepts hsound hglob hcomp hs (by norm_num) rfl ?_ fun k => ?_
    · intro a hmem
      simp only [List.mem_cons, List.mem_nil_iff, or_false] at hmem
      rcases hmem with rfl | rfl | rfl <;> norm_num
    rw [hnext]
    have hk := hx k
    cases k with
    | vx => exact no_drop (by norm_num) .vx hk (by rw [axis_vx, axis_vx])
    | vy => exact no_drop (by norm_num) .vy hk (by rw [axis_vy, axis_vy])
    | vz => exact no_drop (by norm_num) .vz hk (by rw [axis_vz, axis_vz]; nlinarith)
    | rel =>
      refine no_drop (by norm_num) .rel hk ?_
      rw [axis_relv, axis_relv]
      have h1 : √((18 : ℝ) ^ 2 + 1 / 100000) ≤ √(z ^ 2 + 1 / 100000) := sqrt_le_sqrt (by nlinarith)
      have h2 : √(w ^ 2 + 1 / 100000) ≤ √((1 / 10 : ℝ) ^ 2 + 1 / 100000) := sqrt_le_sqrt (by nlinarith)
      have h3 : (0 : ℝ) ≤ inspDefault.v1Coef * inspDefault.n := by show (0 : ℝ) ≤ 2 * (1027 / 1000000); norm_num
      have := mul_le_mul_of_nonneg_left (sub_le_sub_right h1 inspDefault.v0Distance) h3
      linarith
    | coll =>
      rw [axis_coll (by norm_num) (by linarith), axis_coll hz0 (by linarith), default_radius, h18, hza, if_pos (by norm_num),
        if_pos (by linarith), hrate, hrate']
      have h1 : √(2 * inspDefault.aMax * ((18 : ℝ) - 10)) ≤ √(2 * inspDefault.aMax * (z - 10)) := sqrt_le_sqrt (by nlinarith)
      have h2 : 1 ≤ √(2 * inspDefault.aMax * ((18 : ℝ) - 10)) := by rw [le_sqrt' (by norm_num)]; linarith
      generalize √(2 * inspDefault.aMax * ((18 : ℝ) - 10)) = q at *
      have h3 : 0 ≤ (q + 1 / 10) ^ 3 := by positivity
      simp only [dA, dB]
      linarith
    | sun =>
      rw [axis_sun (by norm_num) (by linarith) (by linarith [hc.1]), axis_sun hz0 (by linarith) (by linarith [hc.1]), h18, hza, hrate,
        hrate']
      generalize cos (inspDefault.fov / 2) = C at *
      have h1 : √(2 * inspDefault.aMax * (C * 18)) ≤ √(2 * inspDefault.aMax * (C * z)) :=
        sqrt_le_sqrt (mul_le_mul_of_nonneg_left (by nlinarith [hc.1]) (by linarith))
      have h2 : 147 / 100 ≤ √(2 * inspDefault.aMax * (C * 18)) := by
        rw [le_sqrt' (by norm_num)]
        have : 1548 / 100 ≤ C * 18 := by linarith [hc.1]
        nlinarith
      generalize √(2 * inspDefault.aMax * (C * 18)) = q at *
      have h4 : 155 / 100 ≤ q + C * (1 / 10) - 1 / 1000 := by linarith [hc.1]
      have h3 : (155 / 100) ^ 3 ≤ (q + C * (1 / 10) - 1 / 1000) ^ 3 := pow_le_pow_left₀ (by norm_num) h4 3
      have h5 : -(87 / 1000) ≤ C * w := by nlinarith [hc.1, hc.2]
      simp only [dA, dB]
      norm_num at h3 ⊢
      linarith [hc.2]
    | rmax =>
      have hR : inspDefault.rMax = 1000 := rfl
      rw [axis_rmax (by norm_num) (by linarith) (by rw [h18, hR]; norm_num), axis_rmax hz0 (by linarith) (by rw [hza, hR]; linarith), h18, hza,
        hrate, hrate', hR]
      have h1 : 11 ≤ √(2 * inspDefault.aMax * ((1000 : ℝ) - 18)) := by rw [le_sqrt' (by norm_num)]; linarith
      have h2 : √(2 * inspDefault.aMax * ((1000 : ℝ) - 18)) ≤ 13 := by rw [sqrt_le_left (by norm_num)]; linarith
      have h3 := sqrt_nonneg (2 * inspDefault.aMax * (1000 - z))
      generalize √(2 * inspDefault.aMax * ((1000 : ℝ) - 18)) = q at *
      have h4 : (10 : ℝ) ^ 3 ≤ (q - 1 / 10 - 1 / 1000) ^ 3 := pow_le_pow_left₀ (by norm_num) (by linarith) 3
      simp only [dA, dB]
      norm_num at h4 ⊢
      linarith
    | psm =>
      obtain ⟨hle, j, hj, e⟩ := axis_psmv (c := inspDefault) (z := 18) (w := 1 / 10) (angle := 0) (fuel := 0)
      obtain ⟨-, j', -, e'⟩ := axis_psmv (c := inspDefault) (z := z) (w := w) (angle := 0 - inspDefault.sunVel * 50) (fuel := 0)
      have hlo : -10 ≤ hval (dC inspDefault .psm).2 (axisState z w (0 - inspDefault.sunVel * 50) 0) := by
        rw [e', default_radius]
        linarith [abs_nonneg (z * cos (inspDefault.n * ((j' : ℝ) + 1)) + w / inspDefault.n * sin (inspDefault.n * ((j' : ℝ) + 1)))]
      have h8 : 8 ≤ hval (dC inspDefault .psm).2 (axisState 18 (1 / 10) 0 0) := by
        rw [e, default_radius, hn]
        have h1 : (j : ℝ) + 1 ≤ 100 := by exact_mod_cast Finset.mem_range.1 hj
        have h0 : (0 : ℝ) ≤ j := Nat.cast_nonneg j
        have h3 := hpsm18 (1027 / 1000000 * (j + 1)) (by linarith) (by linarith)
        have h4 := le_abs_self (18 * cos (1027 / 1000000 * ((j : ℝ) + 1)) + 1 / 10 / (1027 / 1000000) * sin (1027 / 1000000 * ((j : ℝ) + 1)))
        linarith
      have h81 : hval (dC inspDefault .psm).2 (axisState 18 (1 / 10) 0 0) ≤ 82 / 10 := by
        have h := hle 0 (by simp)
        rw [default_radius, hn] at h
        norm_num only [Nat.cast_zero, zero_add, mul_one] at h
        have h3 := hpsm18 (1027 / 1000000) le_rfl (by norm_num)
        rw [abs_of_pos (by norm_num at h3 ⊢; linarith)] at h
        have hs2 := sin_lt (x := (1027 / 1000000 : ℝ)) (by norm_num)
        have hc2 := cos_le_one (1027 / 1000000 : ℝ)
        linarith
      generalize hval (dC inspDefault .psm).2 (axisState 18 (1 / 10) 0 0) = q at *
      have h4 : (8 : ℝ) ^ 3 ≤ q ^ 3 := pow_le_pow_left₀ (by norm_num) h8 3
      simp only [dA, dB]
      norm_num only at h4
      linarith
  · exact dC_mem inspDefault .psm
  · rw [hnext]; exact hy
  · intro y hsol h0
    have h := C43_exact (by rw [hn]; norm_num) rfl hsol 0 100
    rw [zero_add, h0, hnext] at h
    rw [h]
    have e : inspDefault.n * 100 = 1027 / 10000 := by rw [hn]; norm_num
    have e2 : pySlice (vadd (matVec (discreteA inspDefault.n 100) (pySlice (axisState z w (0 - inspDefault.sunVel * 50) 0) 0 6))
        (matVec (discreteB inspDefault.n inspDefault.m 100) [0, 0, 0])) 0 3 =
        [0, 0, z * cos (1027 / 10000) + w / (1027 / 1000000) * sin (1027 / 10000)] := by
      simp [discreteA, discreteB, matVec, vadd, dot, pySlice, axisState, e]
      rw [hn]; ring
    rw [e2]
    unfold norm2
    rw [sqNorm3 rfl]
    show √((0 : ℝ) ^ 2 + 0 ^ 2 + (z * cos (1027 / 10000) + w / (1027 / 1000000) * sin (1027 / 10000)) ^ 2) < 5 + 5
    rw [zero_pow (by norm_num), zero_add, zero_add, sqrt_sq_eq_abs]
    linarith

/-! ### States with six components -/

theorem six_cbfs {next : List ℝ → ℝ → List ℝ → List ℝ} {m : Nat} {x x' : List ℝ} {dt : ℝ} (hn : next x dt = next x' dt) :
    ∀ (cs : List (Constraint ℝ (List ℝ) InspParams)), (∀ c ∈ cs, c.computeFn x = c.computeFn x') → ∀ (sc : Nat) (ps : List InspParams) (es : List Bool),
      enabledCbfs next m x dt sc cs ps es = enabledCbfs next m x' dt sc cs ps es := by
  intro cs
  induction cs with
  | nil => intros; cases ‹List InspParams› <;> rfl
  | cons c cs ih =>
    intro h sc ps es
    match ps, es with
    | [], _ => rfl
    | _ :: _, [] => rfl
    | p :: ps, e :: es =>
      have hc := h c (by simp)
      have ih := ih (fun d hd => h d (by simp [hd])) (if c.slackPriorityScale.isSome then sc + 1 else sc) ps es
      have hb : ∀ al idx, cbfFn c al next m idx x dt p = cbfFn c al next m idx x' dt p := by
        intro al idx
        funext z
        simp only [cbfFn, Constraint.compute, hn, hc]
      simp only [enabledCbfs, ih, hb]

theorem six_psm {n R a b d e f g dt : ℝ} {k : Nat} :
    psmCompute n R dt k [a, b, d, e, f, g] = psmCompute n R dt k [a, b, d, e, f, g, g, g] := rfl

theorem six_reads (c : InspConfig) {x : List ℝ} (hx : x.length = 6) (k : InspIx) :
    (dC c k).2.computeFn x = (dC c k).2.computeFn (x ++ [comp x 5, comp x 5]) ∧
      (dC c k).2.phiFn x = (dC c k).2.phiFn (x ++ [comp x 5, comp x 5]) := by
  match x, hx with
  | [a, b, d, e, f, g], _ =>
    cases k with
    | psm =>
      have h : ∀ p, (dC c .psm).2.computeFn [a, b, d, e, f, g] p = (dC c .psm).2.computeFn [a, b, d, e, f, g, g, g] p := fun p => by
        simp only [dC, inspPSM, Constraint.mk']
        rw [six_psm]
      exact ⟨funext h, funext h⟩
    | _ => exact ⟨rfl, rfl⟩

/-- **C79, six components.** The module accepts states with six components. Unlike the continuous-time module it does not append a sun angle of zero:
it takes the velocity along the third axis for the sun angle, and does exactly what it does for the state with that angle. -/
theorem C79_six (solver : NLPSolver ℝ) {c : InspConfig} {high low : Option (Bound ℝ)} {epsilon : ℝ} {exc : Bool}
    {s : DiscObj ℝ (List ℝ) InspParams} (hs : discInsp c high low epsilon exc = .ok s) {x : List ℝ} (hx : x.length = 6) (dt : ℝ) (u : List ℝ) :
    discreteASIF solver (discInspNext c) s (.array x) dt u =
      discreteASIF solver (discInspNext c) s (.array (x ++ [comp x 5, comp x 5])) dt u := by
  obtain ⟨-, hcs, -⟩ := discInsp_init hs
  have hmem : ∀ kc ∈ s.constraints, ∃ k, kc = dC c k := by
    rw [hcs, discInspConstraints_eq]
    intro kc hkc
    obtain ⟨k, -, rfl⟩ := List.mem_map.1 hkc
    exact ⟨k, rfl⟩
  have hf : ∀ (t : DiscObj ℝ (List ℝ) InspParams), t.constraints = s.constraints →
      discFilter solver (discInspNext c) t x dt u = discFilter solver (discInspNext c) t (x ++ [comp x 5, comp x 5]) dt u := by
    intro t ht
    have hcb := six_cbfs (next := discInspNext c) (m := t.ext.controlDim) (x := x) (x' := x ++ [comp x 5, comp x 5]) (dt := dt)
      (by match x, hx with
          | [_, _, _, _, _, _], _ => rfl)
      (t.constraints.map (·.2)) (by
        rw [ht]
        intro d hd
        obtain ⟨kc, hkc, rfl⟩ := List.mem_map.1 hd
        obtain ⟨k, rfl⟩ := hmem kc hkc
        exact (six_reads c hx k).1) 0 (t.params.map (·.2)) (t.constraintEnabled.map (·.2))
    unfold discFilter
    rw [hcb]
  have hv : ∀ (t : DiscObj ℝ (List ℝ) InspParams), t.constraints = s.constraints →
      updateConstraintValuesAt t x true = updateConstraintValuesAt t (x ++ [comp x 5, comp x 5]) true := by
    intro t ht
    have : (t.constraints.map fun kc => (kc.1, kc.2.phiFn x kc.2.params)) =
        t.constraints.map fun kc => (kc.1, kc.2.phiFn (x ++ [comp x 5, comp x 5]) kc.2.params) := by
      refine List.map_congr_left fun kc hkc => ?_
      obtain ⟨k, rfl⟩ := hmem kc (ht ▸ hkc)
      rw [(six_reads c hx k).2]
    unfold updateConstraintValuesAt
    rw [this]
  have hcomp : ∀ (t : DiscObj ℝ (List ℝ) InspParams), t.constraints = s.constraints →
      computeFilteredControl getStateDefault (discFilter solver (discInspNext c)) t (.array x) dt u =
        computeFilteredControl getStateDefault (discFilter solver (discInspNext c)) t (.array (x ++ [comp x 5, comp x 5])) dt u := by
    intro t ht
    unfold computeFilteredControl
    simp only [getStateDefault]
    rw [hv (updateParams t) ht, hf (updateConstraintValuesAt (updateParams t) (x ++ [comp x 5, comp x 5]) true) ht]
  unfold discreteASIF filterControlCB filterControl
  simp only
  rw [hcomp (modifyBase (fun b => { b with controlDesired := some u }) s) rfl]

theorem phi_line (fov : ℝ) {θ : ℝ} (h0 : 0 ≤ θ) (h1 : θ ≤ π) :
    conicPhi fov [-500, 0, 0] [-cos θ, -sin θ, 0] = some (θ - fov / 2) := by
  have hp : norm2 [-500, 0, 0] = 500 := by
    unfold norm2
    rw [sqNorm3 rfl]
    show √((-500 : ℝ) ^ 2 + 0 ^ 2 + 0 ^ 2) = 500
    rw [show ((-500 : ℝ)) ^ 2 + 0 ^ 2 + 0 ^ 2 = 500 ^ 2 by norm_num, sqrt_sq (by norm_num)]
  have hc : norm2 [-cos θ, -sin θ, 0] = 1 := by
    unfold norm2
    rw [sqNorm3 rfl]
    show √((-cos θ) ^ 2 + (-sin θ) ^ 2 + 0 ^ 2) = 1
    rw [show (-cos θ) ^ 2 + (-sin θ) ^ 2 + 0 ^ 2 = 1 by nlinarith [sin_sq_add_cos_sq θ], sqrt_one]
  have hd : dot ([-500, 0, 0].map (· / (500 : ℝ))) ([-cos θ, -sin θ, 0].map (· / (1 : ℝ))) = cos θ := by
    rw [dot3 rfl rfl]
    simp [comp]
  unfold conicPhi
  rw [hp, hc]
  simp only [vdivF, if_neg (show (500 : ℝ) ≠ 0 by norm_num), if_neg (one_ne_zero (α := ℝ)), Option.bind_eq_bind, Option.bind_some, hd, arccosF,
    if_neg (show ¬ (cos θ < -1 ∨ 1 < cos θ) by simp [neg_one_le_cos, cos_le_one]), arccos_cos h0 h1]
  rfl

/-- **C79, six components, refuted.** For the default configuration a deputy right in the line of the sun whose velocity along the third axis is 0.8: at the sun
angle of zero, the one the continuous-time module assumes for six components, the sun constraint is reported violated by half the field of
view; for the six components alone it is reported satisfied. -/
theorem C79_refuted_six : ∃ (x : List ℝ) (c : Constraint ℝ (List ℝ) InspParams), x.length = 6 ∧ ("sun", c) ∈ discInspConstraints inspDefault ∧
    c.phiFn (x ++ [0, 0]) c.params = -(inspDefault.fov / 2) ∧ 0 < c.phiFn x c.params := by
  have hfov : inspDefault.fov = 60 * π / 180 := rfl
  refine ⟨[-500, 0, 0, 0, 0, 8 / 10], (dC inspDefault .sun).2, rfl, dC_mem inspDefault .sun, ?_, ?_⟩
  · show (conicPhi inspDefault.fov [-500, 0, 0] [-cos 0, -sin 0, 0]).getD 0 = _
    rw [phi_line _ le_rfl pi_pos.le]
    simp
  · show 0 < (conicPhi inspDefault.fov [-500, 0, 0] [-cos (8 / 10), -sin (8 / 10), 0]).getD 0
    rw [phi_line _ (by norm_num) (by linarith [pi_gt_three])]
    simp only [Option.getD_some, hfov]
    linarith [pi_lt_d2]

/-! ### The hypotheses are met -/

example : DiscConfigOK inspDefault where
  aMax := by linarith [default_aMax]
  radius := by rw [default_radius]; norm_num
  rMax := by show (0 : ℝ) ≤ 1000; norm_num
  velLimit := by show (0 : ℝ) ≤ 1; norm_num
  v1 := by show (0 : ℝ) ≤ 2 * (1027 / 1000000); norm_num
  v0Distance := le_rfl

theorem default_step {dt : ℝ} (h0 : 0 < dt) (h4 : dt ≤ 4) : StepOK inspDefault dt := by
  have ha := default_aMax
  have ha' := default_aMax_le
  have hr : inspDefault.reach ≤ 1022 := by
    show (1000 : ℝ) + 3 * 1 ^ 2 / (2 * inspDefault.aMax) ≤ 1022
    have : 3 * 1 ^ 2 / (2 * inspDefault.aMax) ≤ 22 := by rw [div_le_iff₀ (by linarith)]; linarith
    linarith
  have hr0 : 1000 ≤ inspDefault.reach := by
    show (1000 : ℝ) ≤ 1000 + 3 * 1 ^ 2 / (2 * inspDefault.aMax)
    have : 0 ≤ 3 * 1 ^ 2 / (2 * inspDefault.aMax) := by positivity
    linarith
  have hl : inspDefault.largest ≤ 15 := by
    show √(2 * inspDefault.aMax * inspDefault.reach) + √3 * 1 ≤ 15
    have h1 : √(2 * inspDefault.aMax * inspDefault.reach) ≤ 1315 / 100 := by
      rw [sqrt_le_left (by norm_num)]
      nlinarith
    have h2 : √(3 : ℝ) ≤ 174 / 100 := by rw [sqrt_le_left (by norm_num)]; norm_num
    linarith
  have hl0 : 0 ≤ inspDefault.largest := by
    show 0 ≤ √(2 * inspDefault.aMax * inspDefault.reach) + √3 * 1
    positivity
  refine ⟨h0, ?_, ?_, ?_⟩
  · show dt * (1 / 10 + 1 / 100 * ((1 : ℝ) ^ 2) ^ 2) ≤ 1
    linarith
  · have h1 : (2 : ℝ) / 10 + 2 * (1027 / 1000000) * (inspDefault.reach + 1) ≤ 3 := by linarith
    have h2 := pow_le_pow_left₀ (by linarith) h1 2
    show dt * (1 / 100 + 1 / 1000 * ((2 : ℝ) / 10 + 2 * (1027 / 1000000) * (inspDefault.reach + 1)) ^ 2) ≤ 1
    nlinarith
  · have h2 := pow_le_pow_left₀ hl0 hl 2
    nlinarith

theorem rest_positive (k : InspIx) : 0 < hval (dC inspStill k).2 inspRest := by
  have h := inspRest_values _ (inspC_mem inspStill k)
  cases k <;> exact h

theorem rest_next (dt : ℝ) : discInspNext inspStill inspRest dt [0, 0, 0] = inspRest := by
  unfold discInspNext
  rw [jaxPad_eight rfl]
  simp [discreteNext, discreteA, discreteB, matVec, vadd, dot, pySlice, comp, inspRest, inspStill]

/-- At rest on the chief's orbit without thrust the loop stands still. -/
theorem rest_stays {dt : ℝ} (hdt : 0 < dt) {s0 : DiscObj ℝ (List ℝ) InspParams}
    (hs0 : discInsp inspStill (some (.scalar 1)) (some (.scalar (-1))) (1 / 100) true = .ok s0) (m : Nat) (y : List ℝ)
    (t : DiscObj ℝ (List ℝ) InspParams)
    (hy : closedLoop (discreteASIF refNLP (discInspNext inspStill)) (discInspNext inspStill) (fun _ => dt) (fun _ => [0, 0, 0]) inspRest s0 m =
      some (y, t)) : y = inspRest := by
  obtain ⟨hinv, hcs, hdim, -, hen, hlo, hhi, -⟩ := discInsp_init hs0
  refine (closedLoop_invariant (fun y (t : DiscObj ℝ (List ℝ) InspParams) => y = inspRest ∧ DiscInv t ∧ t.enable = true ∧
    t.constraints = s0.constraints ∧ t.ext = s0.ext ∧ t.controlBoundsLow = s0.controlBoundsLow ∧
      t.controlBoundsHigh = s0.controlBoundsHigh) ⟨rfl, hinv, hen, rfl, rfl, rfl, rfl⟩ ?_ m y t hy).1
  rintro m y t v t' ⟨rfl, hi, he, h1, h2, h3, h4⟩ hcall
  obtain ⟨hi', he', h1', h2', h3', h4'⟩ := disc_keeps hi he hcall
  refine ⟨?_, hi', he', h1'.trans h1, h2'.trans h2, h3'.trans h3, h4'.trans h4⟩
  have hret := discInsp_accepts' refNLP_sound refNLP_global refNLP_complete (c := inspStill) (U := 1) (x := inspRest) (u := [0, 0, 0]) (dt := dt) hi
    (h1.trans hcs) (by rw [h2, hdim]) he (h3.trans hlo) (h4.trans hhi) hdt rfl (by simp) fun k =>
      no_drop hdt k (rest_positive k) (by rw [rest_next])
  rw [hcall] at hret
  cases hret
  exact rest_next dt

theorem inspStill_disc : DiscConfigOK inspStill := ⟨by linarith [inspStill_aMax], by rw [inspStill_radius]; norm_num,
  by show (0 : ℝ) ≤ 1000; norm_num, by show (0 : ℝ) ≤ 1; norm_num, by show (0 : ℝ) ≤ 2 * (1027 / 1000000); norm_num, le_rfl⟩

theorem still_step {dt : ℝ} (h0 : 0 < dt) (h4 : dt ≤ 4) : StepOK inspStill dt := by
  have := default_step h0 h4
  exact ⟨this.pos, this.axis, this.speed, this.distance⟩

/-- All hypotheses of `C79_samples_partial` together: a deputy at rest on the chief's orbit that asks for no thrust. -/
example (n : Nat) (x : List ℝ) (s s0 : DiscObj ℝ (List ℝ) InspParams)
    (hs0 : discInsp inspStill (some (.scalar 1)) (some (.scalar (-1))) (1 / 100) true = .ok s0)
    (h : closedLoop (discreteASIF refNLP (discInspNext inspStill)) (discInspNext inspStill) (fun _ => 1) (fun _ => [0, 0, 0]) inspRest s0 n =
      some (x, s)) : SampleSafe inspStill x := by
  have hrest : norm2 (pySlice inspRest 0 3) ≠ 0 := by rw [inspRest_norm]; norm_num
  refine C79_samples_partial refNLP_sound inspStill_disc hs0 (fun _ => still_step one_pos (by norm_num)) _ rfl
    ((safe_iff inspStill_disc hrest).2 fun k _ => (rest_positive k).le) ?_ n x s h
  intro m y t hy
  rw [rest_stays one_pos hs0 m y t hy]
  exact hrest

end RTA
