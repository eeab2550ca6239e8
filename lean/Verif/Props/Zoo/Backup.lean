import Verif.Props.Zoo.Docking
import Verif.Lemmas.Flow
import Mathlib.Topology.Order.IntermediateValue
import Mathlib.Analysis.SpecialFunctions.ExpDeriv
import Mathlib.LinearAlgebra.Matrix.ToLinearEquiv
import Mathlib.LinearAlgebra.Matrix.Determinant.Basic

/-!
C65: the backup controllers of the docking modules. Their documentation says that they bring the velocity to zero. The gains `K` are those of a
linear-quadratic regulator for the whole state, but only the velocity part of the state is fed back.
-/
namespace RTA
open Set Real

theorem lqr2_eq (p11 p12 p21 p22 k11 k12 k21 k22 x y a b : ℝ) :
    lqrControl 2 [[p11, p12, k11, k12], [p21, p22, k21, k22]] [x, y, a, b] = [-(k11 * a + k12 * b), -(k21 * a + k22 * b)] := by
  simp only [lqrControl, matVec, dot, vsub, zeros, List.take, List.length, List.map_cons, List.map_nil, List.zipWith_cons_cons,
    List.zipWith_nil_right, List.foldr_cons, List.foldr_nil, List.cons_append, List.nil_append, List.replicate]
  simp only [sub_self, sub_zero, mul_zero, zero_add, add_zero, List.cons.injEq, and_true]
  constructor <;> ring

theorem lqr3_eq (p11 p12 p13 p21 p22 p23 p31 p32 p33 k11 k12 k13 k21 k22 k23 k31 k32 k33 x y z a b c : ℝ) :
    lqrControl 3 [[p11, p12, p13, k11, k12, k13], [p21, p22, p23, k21, k22, k23], [p31, p32, p33, k31, k32, k33]] [x, y, z, a, b, c] =
      [-(k11 * a + k12 * b + k13 * c), -(k21 * a + k22 * b + k23 * c), -(k31 * a + k32 * b + k33 * c)] := by
  simp only [lqrControl, matVec, dot, vsub, zeros, List.take, List.length, List.map_cons, List.map_nil, List.zipWith_cons_cons,
    List.zipWith_nil_right, List.foldr_cons, List.foldr_nil, List.cons_append, List.nil_append, List.replicate]
  simp only [sub_self, sub_zero, mul_zero, zero_add, add_zero, List.cons.injEq, and_true]
  refine ⟨?_, ?_, ?_⟩ <;> ring

/-- A monic cubic that is negative at zero has a positive root. -/
theorem cubic_root {a b c : ℝ} (hc : c < 0) : ∃ l, 0 < l ∧ l ^ 3 + a * l ^ 2 + b * l + c = 0 := by
  have hL : (1 : ℝ) ≤ 1 + |a| + |b| + |c| := by have := abs_nonneg a; have := abs_nonneg b; have := abs_nonneg c; linarith
  generalize hLe : 1 + |a| + |b| + |c| = L at hL
  have hcont : ContinuousOn (fun l : ℝ => l ^ 3 + a * l ^ 2 + b * l + c) (Icc 0 L) := by fun_prop
  have hL2 : L ≤ L ^ 2 := by nlinarith
  have hL1 : 1 ≤ L ^ 2 := by nlinarith
  have h1 : -(|a| * L ^ 2) ≤ a * L ^ 2 := by have := neg_abs_le a; nlinarith
  have h2 : -(|b| * L ^ 2) ≤ b * L := by
    have := neg_abs_le b
    have := mul_le_mul_of_nonneg_left hL2 (abs_nonneg b)
    nlinarith
  have h3 : -(|c| * L ^ 2) ≤ c := by
    have := neg_abs_le c
    have := mul_le_mul_of_nonneg_left hL1 (abs_nonneg c)
    nlinarith
  have hpos : 0 ≤ L ^ 3 + a * L ^ 2 + b * L + c := by
    have : L ^ 3 = (1 + |a| + |b| + |c|) * L ^ 2 := by rw [hLe]; ring
    nlinarith
  obtain ⟨l, hl, he⟩ := intermediate_value_Icc (by linarith : (0 : ℝ) ≤ L) hcont ⟨by norm_num; exact hc.le, hpos⟩
  refine ⟨l, lt_of_le_of_ne hl.1 ?_, he⟩
  rintro rfl
  norm_num at he
  exact hc.ne he

/-- The same for degree five. -/
theorem quintic_root {a b c d e : ℝ} (he : e < 0) : ∃ l, 0 < l ∧ l ^ 5 + a * l ^ 4 + b * l ^ 3 + c * l ^ 2 + d * l + e = 0 := by
  have hL : (1 : ℝ) ≤ 1 + |a| + |b| + |c| + |d| + |e| := by
    have := abs_nonneg a; have := abs_nonneg b; have := abs_nonneg c; have := abs_nonneg d; have := abs_nonneg e; linarith
  generalize hLe : 1 + |a| + |b| + |c| + |d| + |e| = L at hL
  have hcont : ContinuousOn (fun l : ℝ => l ^ 5 + a * l ^ 4 + b * l ^ 3 + c * l ^ 2 + d * l + e) (Icc 0 L) := by fun_prop
  have key : ∀ (r : ℝ) (k : Nat), k ≤ 4 → -(|r| * L ^ 4) ≤ r * L ^ k := by
    intro r k hk
    have h1 := pow_le_pow_right₀ hL hk
    have h2 := mul_le_mul_of_nonneg_left h1 (abs_nonneg r)
    have h3 := mul_le_mul_of_nonneg_right (neg_abs_le r) (pow_nonneg (by linarith : 0 ≤ L) k)
    linarith
  have hpos : 0 ≤ L ^ 5 + a * L ^ 4 + b * L ^ 3 + c * L ^ 2 + d * L + e := by
    have h5 : L ^ 5 = (1 + |a| + |b| + |c| + |d| + |e|) * L ^ 4 := by rw [hLe]; ring
    have h4 := key a 4 le_rfl
    have h3 := key b 3 (by norm_num)
    have h2 := key c 2 (by norm_num)
    have h1 := key d 1 (by norm_num)
    have h0 := key e 0 (by norm_num)
    have hp : 0 ≤ L ^ 4 := by positivity
    rw [pow_one] at h1
    rw [pow_zero, mul_one] at h0
    linarith
  obtain ⟨l, hl, hr⟩ := intermediate_value_Icc (by linarith : (0 : ℝ) ≤ L) hcont ⟨by norm_num; exact he.le, hpos⟩
  refine ⟨l, lt_of_le_of_ne hl.1 ?_, hr⟩
  rintro rfl
  norm_num at hr
  exact he.ne hr

/-- Small enough multiples of growing functions stay below a bound for a given time. -/
theorem small_scale (l T U M : ℝ) (hl : 0 < l) (hU : 0 < U) : ∃ e, 0 < e ∧ ∀ t, t ≤ T → e * exp (l * t) * M ≤ U := by
  refine ⟨U / (exp (l * T) * (|M| + 1)), by positivity, fun t ht => ?_⟩
  have h1 : exp (l * t) ≤ exp (l * T) := exp_le_exp.2 (by nlinarith)
  have h2 : 0 < exp (l * T) * (|M| + 1) := by positivity
  have h3 : exp (l * t) * M ≤ exp (l * T) * (|M| + 1) := by
    have := le_abs_self M
    have hp := exp_pos (l * t)
    have : exp (l * t) * M ≤ exp (l * t) * (|M| + 1) := mul_le_mul_of_nonneg_left (by linarith) hp.le
    have : exp (l * t) * (|M| + 1) ≤ exp (l * T) * (|M| + 1) := mul_le_mul_of_nonneg_right h1 (by positivity)
    linarith
  rw [mul_assoc, div_mul_eq_mul_div, div_le_iff₀ h2]
  exact mul_le_mul_of_nonneg_left h3 hU.le

theorem exp_deriv (l c t : ℝ) : HasDerivWithinAt (fun s => exp (l * s) * c) (l * (exp (l * t) * c)) (Ici t) t := by
  have h1 : HasDerivAt (fun s => l * s) l t := by simpa using (hasDerivAt_id t).const_mul l
  exact ((h1.exp.mul_const c).congr_deriv (by ring)).hasDerivWithinAt

/-- **C65 is false in the plane**, whatever the gain matrix, as long as it damps the along-track velocity (`0 < k22`; the gains of the
regulator do): there is a growth rate `l > 0` such that for every time `T` and every thrust bound `U > 0` there is a motion
under the backup controller, needing no more thrust than `U` until `T`, whose speed starts positive and
grows like `exp (l t)`. -/
theorem C65_refuted_2d {m n : ℝ} (hm : 0 < m) (hn : n ≠ 0) (p11 p12 p21 p22 k11 k12 k21 k22 : ℝ) (hk : 0 < k22) :
    ∃ l, 0 < l ∧ ∀ T U, 0 < U → ∃ x u : ℝ → List ℝ, Trajectory univ 4 (dockF2 n) (dockG2 m) x u ∧
      (∀ t, u t = lqrControl 2 [[p11, p12, k11, k12], [p21, p22, k21, k22]] (x t)) ∧
      (∀ t, t ≤ T → ∀ c ∈ u t, |c| ≤ U) ∧ 0 < √(comp (x 0) 2 ^ 2 + comp (x 0) 3 ^ 2) ∧
      ∀ t, √(comp (x t) 2 ^ 2 + comp (x t) 3 ^ 2) = exp (l * t) * √(comp (x 0) 2 ^ 2 + comp (x 0) 3 ^ 2) := by
  have hn2 : 0 < n ^ 2 := by positivity
  have hkm : 0 < k22 / m := by positivity
  obtain ⟨l, hl, he⟩ := cubic_root (a := k11 / m + k22 / m) (b := k11 / m * (k22 / m) - 3 * n ^ 2 - (k12 / m - 2 * n) * (k21 / m + 2 * n))
    (c := -(3 * n ^ 2 * (k22 / m))) (by have := mul_pos hn2 hkm; linarith)
  refine ⟨l, hl, fun T U hU => ?_⟩
  obtain ⟨w, hw⟩ : ∃ w, w = -(k21 / m + 2 * n) / (l + k22 / m) := ⟨_, rfl⟩
  have hd : 0 < l + k22 / m := by linarith
  have e2 : (l + k22 / m) * w = -(k21 / m + 2 * n) := by rw [hw]; field_simp
  have e1 : l ^ 2 + l * (k11 / m) - 3 * n ^ 2 + l * (k12 / m - 2 * n) * w = 0 := by
    have : (l + k22 / m) * (l ^ 2 + l * (k11 / m) - 3 * n ^ 2 + l * (k12 / m - 2 * n) * w) = 0 := by
      have : (l + k22 / m) * (l ^ 2 + l * (k11 / m) - 3 * n ^ 2 + l * (k12 / m - 2 * n) * w) =
        (l + k22 / m) * (l ^ 2 + l * (k11 / m) - 3 * n ^ 2) + l * (k12 / m - 2 * n) * ((l + k22 / m) * w) := by ring
      rw [this, e2]
      linear_combination he
    exact (mul_eq_zero.1 this).resolve_left hd.ne'
  obtain ⟨e, hepos, hsmall⟩ := small_scale l T U (|l * (k11 + k12 * w)| + |l * (k21 + k22 * w)|) hl hU
  let x : ℝ → List ℝ := fun t => [exp (l * t) * e, exp (l * t) * (e * w), exp (l * t) * (l * e), exp (l * t) * (l * (e * w))]
  have hu : ∀ t, lqrControl 2 [[p11, p12, k11, k12], [p21, p22, k21, k22]] (x t) =
      [-(e * exp (l * t) * (l * (k11 + k12 * w))), -(e * exp (l * t) * (l * (k21 + k22 * w)))] := by
    intro t
    refine (lqr2_eq _ _ _ _ _ _ _ _ _ _ _ _).trans ?_
    simp only [List.cons.injEq, and_true]
    constructor <;> ring
  have hfield : ∀ t, vadd (dockF2 n (x t)) (matVec (dockG2 m (x t)) (lqrControl 2 [[p11, p12, k11, k12], [p21, p22, k21, k22]] (x t))) =
      [l * (exp (l * t) * e), l * (exp (l * t) * (e * w)), l * (exp (l * t) * (l * e)), l * (exp (l * t) * (l * (e * w)))] := by
    intro t
    rw [hu]
    refine (field2_eq n m _ _ _ _ _ _ _).trans ?_
    simp only [List.cons.injEq, and_true]
    refine ⟨by ring, by ring, ?_, ?_⟩
    · linear_combination (-(exp (l * t) * e)) * e1
    · linear_combination (-(exp (l * t) * e * l)) * e2
  have hspeed : ∀ t, √(comp (x t) 2 ^ 2 + comp (x t) 3 ^ 2) = exp (l * t) * √((l * e) ^ 2 + (l * (e * w)) ^ 2) := by
    intro t
    have : comp (x t) 2 ^ 2 + comp (x t) 3 ^ 2 = exp (l * t) ^ 2 * ((l * e) ^ 2 + (l * (e * w)) ^ 2) := by
      simp only [x, comp, List.getD_cons_zero, List.getD_cons_succ]; ring
    rw [this, sqrt_mul (by positivity), sqrt_sq (exp_pos _).le]
  have h0 : √(comp (x 0) 2 ^ 2 + comp (x 0) 3 ^ 2) = √((l * e) ^ 2 + (l * (e * w)) ^ 2) := by rw [hspeed 0]; simp
  refine ⟨x, fun t => lqrControl 2 [[p11, p12, k11, k12], [p21, p22, k21, k22]] (x t), ⟨fun _ _ => ⟨mem_univ _, rfl⟩, ?_, ?_, ?_⟩,
    fun _ => rfl, ?_, ?_, ?_⟩
  · intro i hi
    match i, hi with
    | 0, _ => simp only [x, List.getD_cons_zero]; fun_prop
    | 1, _ => simp only [x, List.getD_cons_zero, List.getD_cons_succ]; fun_prop
    | 2, _ => simp only [x, List.getD_cons_zero, List.getD_cons_succ]; fun_prop
    | 3, _ => simp only [x, List.getD_cons_zero, List.getD_cons_succ]; fun_prop
  · intro t _
    rw [hfield]; rfl
  · intro t _ i hi
    rw [hfield]
    match i, hi with
    | 0, _ => exact exp_deriv _ _ _
    | 1, _ => exact exp_deriv _ _ _
    | 2, _ => exact exp_deriv _ _ _
    | 3, _ => exact exp_deriv _ _ _
  · intro t ht c hc
    simp only [hu, List.mem_cons, List.not_mem_nil, or_false] at hc
    have hs := hsmall t ht
    have hp : 0 < e * exp (l * t) := mul_pos hepos (exp_pos _)
    rcases hc with rfl | rfl
    · rw [abs_neg, abs_mul, abs_of_pos hp]
      refine (mul_le_mul_of_nonneg_left ?_ hp.le).trans hs
      have := abs_nonneg (l * (k21 + k22 * w)); linarith
    · rw [abs_neg, abs_mul, abs_of_pos hp]
      refine (mul_le_mul_of_nonneg_left ?_ hp.le).trans hs
      have := abs_nonneg (l * (k11 + k12 * w)); linarith
  · rw [h0]
    exact sqrt_pos.2 (by have : 0 < l * e := mul_pos hl hepos; positivity)
  · intro t
    rw [hspeed, h0]

/-- **C65 is false in space** in the same way. -/
theorem C65_refuted_3d {m n : ℝ} (hm : 0 < m) (hn : n ≠ 0)
    (p11 p12 p13 p21 p22 p23 p31 p32 p33 k11 k12 k13 k21 k22 k23 k31 k32 k33 : ℝ) (hk : 0 < k22) :
    ∃ l, 0 < l ∧ ∀ T U, 0 < U → ∃ x u : ℝ → List ℝ, Trajectory univ 6 (dockF3 n) (dockG3 m) x u ∧
      (∀ t, u t = lqrControl 3 [[p11, p12, p13, k11, k12, k13], [p21, p22, p23, k21, k22, k23], [p31, p32, p33, k31, k32, k33]] (x t)) ∧
      (∀ t, t ≤ T → ∀ c ∈ u t, |c| ≤ U) ∧ 0 < √(comp (x 0) 3 ^ 2 + comp (x 0) 4 ^ 2 + comp (x 0) 5 ^ 2) ∧
      ∀ t, √(comp (x t) 3 ^ 2 + comp (x t) 4 ^ 2 + comp (x t) 5 ^ 2) =
        exp (l * t) * √(comp (x 0) 3 ^ 2 + comp (x 0) 4 ^ 2 + comp (x 0) 5 ^ 2) := by
  have hn2 : 0 < n ^ 2 := by positivity
  have hkm : 0 < k22 / m := by positivity
  obtain ⟨d11, h11⟩ : ∃ d, d = k11 / m := ⟨_, rfl⟩
  obtain ⟨d12, h12⟩ : ∃ d, d = k12 / m - 2 * n := ⟨_, rfl⟩
  obtain ⟨d13, h13⟩ : ∃ d, d = k13 / m := ⟨_, rfl⟩
  obtain ⟨d21, h21⟩ : ∃ d, d = k21 / m + 2 * n := ⟨_, rfl⟩
  obtain ⟨d22, h22⟩ : ∃ d, d = k22 / m := ⟨_, rfl⟩
  obtain ⟨d23, h23⟩ : ∃ d, d = k23 / m := ⟨_, rfl⟩
  obtain ⟨d31, h31⟩ : ∃ d, d = k31 / m := ⟨_, rfl⟩
  obtain ⟨d32, h32⟩ : ∃ d, d = k32 / m := ⟨_, rfl⟩
  obtain ⟨d33, h33⟩ : ∃ d, d = k33 / m := ⟨_, rfl⟩
  obtain ⟨l, hl, he⟩ := quintic_root (a := d33 + d22 + d11)
    (b := n ^ 2 + d22 * d33 - d23 * d32 + d11 * (d33 + d22) - 3 * n ^ 2 - d12 * d21 - d13 * d31)
    (c := d22 * n ^ 2 + d11 * (n ^ 2 + d22 * d33 - d23 * d32) - 3 * n ^ 2 * (d33 + d22) - (d12 * d21 * d33 - d12 * d23 * d31) +
      (d13 * d21 * d32 - d22 * d13 * d31))
    (d := d11 * d22 * n ^ 2 - 3 * n ^ 2 * (n ^ 2 + d22 * d33 - d23 * d32) - d12 * d21 * n ^ 2)
    (e := -(3 * n ^ 2 * d22 * n ^ 2)) (by rw [h22]; have := mul_pos (mul_pos hn2 hkm) hn2; linarith)
  refine ⟨l, hl, fun T U hU => ?_⟩
  obtain ⟨w, hw0, hw⟩ := (Matrix.exists_mulVec_eq_zero_iff (M := !![l ^ 2 + l * d11 - 3 * n ^ 2, l * d12, l * d13; d21, l + d22, d23;
    l * d31, l * d32, l ^ 2 + l * d33 + n ^ 2])).2 (by rw [Matrix.det_fin_three]; simp; linear_combination he)
  have e1 := congrFun hw 0
  have e2 := congrFun hw 1
  have e3 := congrFun hw 2
  simp [Matrix.mulVec, dotProduct, Fin.sum_univ_three] at e1 e2 e3
  have hww : 0 < w 0 ^ 2 + w 1 ^ 2 + w 2 ^ 2 := by
    by_contra hneg
    rw [not_lt] at hneg
    have s0 := sq_nonneg (w 0)
    have s1 := sq_nonneg (w 1)
    have s2 := sq_nonneg (w 2)
    refine hw0 (funext fun i => ?_)
    fin_cases i
    · exact pow_eq_zero_iff (two_ne_zero) |>.1 (by linarith : w 0 ^ 2 = 0)
    · exact pow_eq_zero_iff (two_ne_zero) |>.1 (by linarith : w 1 ^ 2 = 0)
    · exact pow_eq_zero_iff (two_ne_zero) |>.1 (by linarith : w 2 ^ 2 = 0)
  generalize w 0 = w0 at *
  generalize w 1 = w1 at *
  generalize w 2 = w2 at *
  clear hw hw0
  obtain ⟨e, hepos, hsmall⟩ := small_scale l T U
    (|l * (k11 * w0 + k12 * w1 + k13 * w2)| + |l * (k21 * w0 + k22 * w1 + k23 * w2)| + |l * (k31 * w0 + k32 * w1 + k33 * w2)|) hl hU
  obtain ⟨G, hG⟩ : ∃ G, G = [[p11, p12, p13, k11, k12, k13], [p21, p22, p23, k21, k22, k23], [p31, p32, p33, k31, k32, k33]] := ⟨_, rfl⟩
  let x : ℝ → List ℝ := fun t => [exp (l * t) * (e * w0), exp (l * t) * (e * w1), exp (l * t) * (e * w2),
    exp (l * t) * (l * (e * w0)), exp (l * t) * (l * (e * w1)), exp (l * t) * (l * (e * w2))]
  have hu : ∀ t, lqrControl 3 G (x t) =
      [-(e * exp (l * t) * (l * (k11 * w0 + k12 * w1 + k13 * w2))), -(e * exp (l * t) * (l * (k21 * w0 + k22 * w1 + k23 * w2))),
        -(e * exp (l * t) * (l * (k31 * w0 + k32 * w1 + k33 * w2)))] := by
    intro t
    rw [hG]
    refine (lqr3_eq _ _ _ _ _ _ _ _ _ _ _ _ _ _ _ _ _ _ _ _ _ _ _ _).trans ?_
    simp only [List.cons.injEq, and_true]
    refine ⟨?_, ?_, ?_⟩ <;> ring
  have hfield : ∀ t, vadd (dockF3 n (x t)) (matVec (dockG3 m (x t)) (lqrControl 3 G (x t))) =
      [l * (exp (l * t) * (e * w0)), l * (exp (l * t) * (e * w1)), l * (exp (l * t) * (e * w2)),
        l * (exp (l * t) * (l * (e * w0))), l * (exp (l * t) * (l * (e * w1))), l * (exp (l * t) * (l * (e * w2)))] := by
    intro t
    rw [hu]
    refine (field3_eq n m _ _ _ _ _ _ _ _ _ _).trans ?_
    simp only [List.cons.injEq, and_true]
    rw [h11, h12, h13] at e1
    rw [h21, h22, h23] at e2
    rw [h31, h32, h33] at e3
    refine ⟨by ring, by ring, by ring, ?_, ?_, ?_⟩
    · linear_combination (-(exp (l * t) * e)) * e1
    · linear_combination (-(exp (l * t) * e * l)) * e2
    · linear_combination (-(exp (l * t) * e)) * e3
  have hspeed : ∀ t, √(comp (x t) 3 ^ 2 + comp (x t) 4 ^ 2 + comp (x t) 5 ^ 2) = exp (l * t) * (l * e * √(w0 ^ 2 + w1 ^ 2 + w2 ^ 2)) := by
    intro t
    have : comp (x t) 3 ^ 2 + comp (x t) 4 ^ 2 + comp (x t) 5 ^ 2 = (exp (l * t) * (l * e)) ^ 2 * (w0 ^ 2 + w1 ^ 2 + w2 ^ 2) := by
      simp only [x, comp, List.getD_cons_zero, List.getD_cons_succ]; ring
    rw [this, sqrt_mul (by positivity), sqrt_sq (by positivity)]
    ring
  have h0 : √(comp (x 0) 3 ^ 2 + comp (x 0) 4 ^ 2 + comp (x 0) 5 ^ 2) = l * e * √(w0 ^ 2 + w1 ^ 2 + w2 ^ 2) := by rw [hspeed 0]; simp
  rw [← hG]
  refine ⟨x, fun t => lqrControl 3 G (x t), ⟨fun _ _ => ⟨mem_univ _, rfl⟩, ?_, ?_, ?_⟩, fun _ => rfl, ?_, ?_, ?_⟩
  · intro i hi
    match i, hi with
    | 0, _ => simp only [x, List.getD_cons_zero]; fun_prop
    | 1, _ => simp only [x, List.getD_cons_zero, List.getD_cons_succ]; fun_prop
    | 2, _ => simp only [x, List.getD_cons_zero, List.getD_cons_succ]; fun_prop
    | 3, _ => simp only [x, List.getD_cons_zero, List.getD_cons_succ]; fun_prop
    | 4, _ => simp only [x, List.getD_cons_zero, List.getD_cons_succ]; fun_prop
    | 5, _ => simp only [x, List.getD_cons_zero, List.getD_cons_succ]; fun_prop
  · intro t _
    rw [hfield]; rfl
  · intro t _ i hi
    rw [hfield]
    match i, hi with
    | 0, _ => exact exp_deriv _ _ _
    | 1, _ => exact exp_deriv _ _ _
    | 2, _ => exact exp_deriv _ _ _
    | 3, _ => exact exp_deriv _ _ _
    | 4, _ => exact exp_deriv _ _ _
    | 5, _ => exact exp_deriv _ _ _
  · intro t ht c hc
    simp only [hu, List.mem_cons, List.not_mem_nil, or_false] at hc
    have hs := hsmall t ht
    have hp : 0 < e * exp (l * t) := mul_pos hepos (exp_pos _)
    have a1 := abs_nonneg (l * (k11 * w0 + k12 * w1 + k13 * w2))
    have a2 := abs_nonneg (l * (k21 * w0 + k22 * w1 + k23 * w2))
    have a3 := abs_nonneg (l * (k31 * w0 + k32 * w1 + k33 * w2))
    rcases hc with rfl | rfl | rfl <;> rw [abs_neg, abs_mul, abs_of_pos hp] <;>
      refine (mul_le_mul_of_nonneg_left ?_ hp.le).trans hs <;> linarith
  · rw [h0]
    have := sqrt_pos.2 hww
    positivity
  · intro t
    rw [hspeed, h0]

/-- The estimate behind the settling theorems. -/
theorem settle_step {m n κ R V E D Q : ℝ} (hm : 0 < m) (hκ : 0 < κ) (hV : 0 ≤ V) (hD : κ * V ≤ D) (hQ : Q ≤ 3 * n ^ 2 * R * √V)
    (hneg : E + (3 * n ^ 2 * m * R / κ) ^ 2 - V < 0) : 0 ≤ -(κ / m) * E - 2 * (Q - 1 / m * D) := by
  have hk : 0 < κ / m := by positivity
  have h1 : 2 * (3 * n ^ 2 * R * √V) ≤ κ / m * V + κ / m * (3 * n ^ 2 * m * R / κ) ^ 2 := by
    have e : 3 * n ^ 2 * R * √V = κ / m * (3 * n ^ 2 * m * R / κ) * √V := by field_simp
    rw [e]
    have := mul_le_mul_of_nonneg_left (two_mul_le_add_sq (3 * n ^ 2 * m * R / κ) (√V)) hk.le
    rw [sq_sqrt hV] at this
    linarith
  have h2 : κ / m * V ≤ 1 / m * D := by
    have := mul_le_mul_of_nonneg_left hD (by positivity : 0 ≤ 1 / m)
    calc κ / m * V = 1 / m * (κ * V) := by ring
      _ ≤ _ := this
  have h3 := mul_neg_of_pos_of_neg hk hneg
  linarith

/-- What does hold in the plane (`C65`): if the velocity part of the gain damps at rate `κ` (`κ |v|² ≤ v · K v`, which a positive definite
part does) then while the radial distance stays within `R`, the speed falls exponentially to within `3 n² m R / κ`.
Missing: the residual speed, which does not go to zero, and the bound on the position. -/
theorem C65_settles_2d_partial {m n : ℝ} (hm : 0 < m) {p11 p12 p21 p22 k11 k12 k21 k22 κ R : ℝ} (hκ : 0 < κ)
    (hdamp : ∀ a b : ℝ, κ * (a ^ 2 + b ^ 2) ≤ a * (k11 * a + k12 * b) + b * (k21 * a + k22 * b))
    {x u : ℝ → List ℝ} (htraj : Trajectory univ 4 (dockF2 n) (dockG2 m) x u)
    (hu : ∀ t, 0 ≤ t → u t = lqrControl 2 [[p11, p12, k11, k12], [p21, p22, k21, k22]] (x t))
    (hR : ∀ t, 0 ≤ t → |comp (x t) 0| ≤ R) : ∀ t, 0 ≤ t →
    comp (x t) 2 ^ 2 + comp (x t) 3 ^ 2 ≤ exp (-(κ / m) * t) * (comp (x 0) 2 ^ 2 + comp (x 0) 3 ^ 2) + (3 * n ^ 2 * m * R / κ) ^ 2 := by
  have hd : ∀ t, 0 ≤ t → HasDerivWithinAt (fun s => exp (-(κ / m) * s) * (comp (x 0) 2 ^ 2 + comp (x 0) 3 ^ 2) + (3 * n ^ 2 * m * R / κ) ^ 2 -
      (comp (x s) 2 ^ 2 + comp (x s) 3 ^ 2))
      (-(κ / m) * (exp (-(κ / m) * t) * (comp (x 0) 2 ^ 2 + comp (x 0) 3 ^ 2)) -
        2 * (3 * n ^ 2 * comp (x t) 0 * comp (x t) 2 -
          1 / m * (comp (x t) 2 * (k11 * comp (x t) 2 + k12 * comp (x t) 3) + comp (x t) 3 * (k21 * comp (x t) 2 + k22 * comp (x t) 3))))
      (Ici t) t := by
    intro t ht
    have h2 := htraj.deriv t ht 2 (by norm_num)
    have h3 := htraj.deriv t ht 3 (by norm_num)
    have hl := (htraj.curve t ht).2
    have e : vadd (dockF2 n (x t)) (matVec (dockG2 m (x t)) (u t)) =
        [comp (x t) 2, comp (x t) 3,
          3 * n ^ 2 * comp (x t) 0 + 2 * n * comp (x t) 3 + 1 / m * -(k11 * comp (x t) 2 + k12 * comp (x t) 3),
          -2 * n * comp (x t) 2 + 1 / m * -(k21 * comp (x t) 2 + k22 * comp (x t) 3)] := by
      rw [hu t ht]
      clear h2 h3
      generalize x t = y at hl
      match y, hl with
      | [p, q, a, b], _ => rw [lqr2_eq]; exact field2_eq _ _ _ _ _ _ _ _ _
    rw [e] at h2 h3
    simp only [List.getD_cons_zero, List.getD_cons_succ] at h2 h3
    change HasDerivWithinAt (fun s => comp (x s) 2) _ _ _ at h2
    change HasDerivWithinAt (fun s => comp (x s) 3) _ _ _ at h3
    have hexp := exp_deriv (-(κ / m)) (comp (x 0) 2 ^ 2 + comp (x 0) 3 ^ 2) t
    refine ((hexp.add_const _).sub ((h2.pow 2).add (h3.pow 2))).congr_deriv ?_
    norm_num
    ring
  have hc : ContinuousOn (fun s => exp (-(κ / m) * s) * (comp (x 0) 2 ^ 2 + comp (x 0) 3 ^ 2) + (3 * n ^ 2 * m * R / κ) ^ 2 -
      (comp (x s) 2 ^ 2 + comp (x s) 3 ^ 2)) (Ici 0) := by
    have c2 : ContinuousOn (fun s => comp (x s) 2) (Ici 0) := htraj.cont 2 (by norm_num)
    have c3 : ContinuousOn (fun s => comp (x s) 3) (Ici 0) := htraj.cont 3 (by norm_num)
    fun_prop
  intro t ht
  have := stays_nonneg hc hd (fun t ht hneg => ?_) (by norm_num; positivity) t ht
  · linarith
  · have hxR := hR t ht
    have hda := hdamp (comp (x t) 2) (comp (x t) 3)
    generalize comp (x t) 0 = p at *
    generalize comp (x t) 2 = a at *
    generalize comp (x t) 3 = b at *
    generalize exp (-(κ / m) * t) * (comp (x 0) 2 ^ 2 + comp (x 0) 3 ^ 2) = E at *
    refine settle_step hm hκ (by positivity) hda ?_ hneg
    have h1 : |3 * n ^ 2 * p * a| ≤ 3 * n ^ 2 * R * |a| := by
      rw [abs_mul, abs_mul, abs_of_nonneg (by positivity : (0 : ℝ) ≤ 3 * n ^ 2)]
      exact mul_le_mul_of_nonneg_right (mul_le_mul_of_nonneg_left hxR (by positivity)) (abs_nonneg a)
    have h2 : |a| ≤ √(a ^ 2 + b ^ 2) := by
      rw [← sqrt_sq_eq_abs]; exact sqrt_le_sqrt (by nlinarith [sq_nonneg b])
    have hR0 : 0 ≤ R := (abs_nonneg p).trans hxR
    have h3 := mul_le_mul_of_nonneg_left h2 (by positivity : (0 : ℝ) ≤ 3 * n ^ 2 * R)
    have := le_abs_self (3 * n ^ 2 * p * a)
    linarith

/-- The same in space: while the distance from the along-track axis stays within `R`. -/
theorem C65_settles_3d_partial {m n : ℝ} (hm : 0 < m) {p11 p12 p13 p21 p22 p23 p31 p32 p33 k11 k12 k13 k21 k22 k23 k31 k32 k33 κ R : ℝ}
    (hκ : 0 < κ) (hR0 : 0 ≤ R)
    (hdamp : ∀ a b c : ℝ, κ * (a ^ 2 + b ^ 2 + c ^ 2) ≤
      a * (k11 * a + k12 * b + k13 * c) + b * (k21 * a + k22 * b + k23 * c) + c * (k31 * a + k32 * b + k33 * c))
    {x u : ℝ → List ℝ} (htraj : Trajectory univ 6 (dockF3 n) (dockG3 m) x u)
    (hu : ∀ t, 0 ≤ t → u t =
      lqrControl 3 [[p11, p12, p13, k11, k12, k13], [p21, p22, p23, k21, k22, k23], [p31, p32, p33, k31, k32, k33]] (x t))
    (hR : ∀ t, 0 ≤ t → comp (x t) 0 ^ 2 + comp (x t) 2 ^ 2 ≤ R ^ 2) : ∀ t, 0 ≤ t →
    comp (x t) 3 ^ 2 + comp (x t) 4 ^ 2 + comp (x t) 5 ^ 2 ≤
      exp (-(κ / m) * t) * (comp (x 0) 3 ^ 2 + comp (x 0) 4 ^ 2 + comp (x 0) 5 ^ 2) + (3 * n ^ 2 * m * R / κ) ^ 2 := by
  have hd : ∀ t, 0 ≤ t → HasDerivWithinAt (fun s => exp (-(κ / m) * s) * (comp (x 0) 3 ^ 2 + comp (x 0) 4 ^ 2 + comp (x 0) 5 ^ 2) +
      (3 * n ^ 2 * m * R / κ) ^ 2 - (comp (x s) 3 ^ 2 + comp (x s) 4 ^ 2 + comp (x s) 5 ^ 2))
      (-(κ / m) * (exp (-(κ / m) * t) * (comp (x 0) 3 ^ 2 + comp (x 0) 4 ^ 2 + comp (x 0) 5 ^ 2)) -
        2 * (3 * n ^ 2 * comp (x t) 0 * comp (x t) 3 - n ^ 2 * comp (x t) 2 * comp (x t) 5 -
          1 / m * (comp (x t) 3 * (k11 * comp (x t) 3 + k12 * comp (x t) 4 + k13 * comp (x t) 5) +
            comp (x t) 4 * (k21 * comp (x t) 3 + k22 * comp (x t) 4 + k23 * comp (x t) 5) +
            comp (x t) 5 * (k31 * comp (x t) 3 + k32 * comp (x t) 4 + k33 * comp (x t) 5))))
      (Ici t) t := by
    intro t ht
    have h3 := htraj.deriv t ht 3 (by norm_num)
    have h4 := htraj.deriv t ht 4 (by norm_num)
    have h5 := htraj.deriv t ht 5 (by norm_num)
    have hl := (htraj.curve t ht).2
    have e : vadd (dockF3 n (x t)) (matVec (dockG3 m (x t)) (u t)) =
        [comp (x t) 3, comp (x t) 4, comp (x t) 5,
          3 * n ^ 2 * comp (x t) 0 + 2 * n * comp (x t) 4 + 1 / m * -(k11 * comp (x t) 3 + k12 * comp (x t) 4 + k13 * comp (x t) 5),
          -2 * n * comp (x t) 3 + 1 / m * -(k21 * comp (x t) 3 + k22 * comp (x t) 4 + k23 * comp (x t) 5),
          -(n ^ 2) * comp (x t) 2 + 1 / m * -(k31 * comp (x t) 3 + k32 * comp (x t) 4 + k33 * comp (x t) 5)] := by
      rw [hu t ht]
      clear h3 h4 h5
      generalize x t = y at hl
      match y, hl with
      | [p, q, r, a, b, c], _ => rw [lqr3_eq]; exact field3_eq _ _ _ _ _ _ _ _ _ _ _ _
    rw [e] at h3 h4 h5
    simp only [List.getD_cons_zero, List.getD_cons_succ] at h3 h4 h5
    change HasDerivWithinAt (fun s => comp (x s) 3) _ _ _ at h3
    change HasDerivWithinAt (fun s => comp (x s) 4) _ _ _ at h4
    change HasDerivWithinAt (fun s => comp (x s) 5) _ _ _ at h5
    have hexp := exp_deriv (-(κ / m)) (comp (x 0) 3 ^ 2 + comp (x 0) 4 ^ 2 + comp (x 0) 5 ^ 2) t
    refine ((hexp.add_const _).sub (((h3.pow 2).add (h4.pow 2)).add (h5.pow 2))).congr_deriv ?_
    norm_num
    ring
  have hc : ContinuousOn (fun s => exp (-(κ / m) * s) * (comp (x 0) 3 ^ 2 + comp (x 0) 4 ^ 2 + comp (x 0) 5 ^ 2) +
      (3 * n ^ 2 * m * R / κ) ^ 2 - (comp (x s) 3 ^ 2 + comp (x s) 4 ^ 2 + comp (x s) 5 ^ 2)) (Ici 0) := by
    have c3 : ContinuousOn (fun s => comp (x s) 3) (Ici 0) := htraj.cont 3 (by norm_num)
    have c4 : ContinuousOn (fun s => comp (x s) 4) (Ici 0) := htraj.cont 4 (by norm_num)
    have c5 : ContinuousOn (fun s => comp (x s) 5) (Ici 0) := htraj.cont 5 (by norm_num)
    fun_prop
  intro t ht
  have := stays_nonneg hc hd (fun t ht hneg => ?_) (by norm_num; positivity) t ht
  · linarith
  · have hxR := hR t ht
    have hda := hdamp (comp (x t) 3) (comp (x t) 4) (comp (x t) 5)
    generalize comp (x t) 0 = p at *
    generalize comp (x t) 2 = q at *
    generalize comp (x t) 3 = a at *
    generalize comp (x t) 4 = b at *
    generalize comp (x t) 5 = c at *
    generalize exp (-(κ / m) * t) * (comp (x 0) 3 ^ 2 + comp (x 0) 4 ^ 2 + comp (x 0) 5 ^ 2) = E at *
    refine settle_step hm hκ (by positivity) hda ?_ hneg
    have h1 : p * a - 1 / 3 * q * c ≤ R * √(a ^ 2 + b ^ 2 + c ^ 2) := by
      rw [← sqrt_sq hR0, ← sqrt_mul (by positivity)]
      apply le_sqrt_of_sq_le
      have s1 : (p * a - 1 / 3 * q * c) ^ 2 ≤ (p ^ 2 + q ^ 2) * (a ^ 2 + c ^ 2) := by
        nlinarith [sq_nonneg (p * c + 1 / 3 * q * a), sq_nonneg (q * a), sq_nonneg (q * c)]
      have s2 : (p ^ 2 + q ^ 2) * (a ^ 2 + c ^ 2) ≤ R ^ 2 * (a ^ 2 + b ^ 2 + c ^ 2) := by
        have := sq_nonneg b
        exact mul_le_mul hxR (by linarith) (by positivity) (by positivity)
      linarith
    have := mul_le_mul_of_nonneg_left h1 (by positivity : (0 : ℝ) ≤ 3 * n ^ 2)
    linarith

/-- Gains as in the theorems: damping 1, no coupling. -/
example : ∀ a b : ℝ, 1 * (a ^ 2 + b ^ 2) ≤ a * (1 * a + 0 * b) + b * (0 * a + 1 * b) := fun a b => le_of_eq (by ring)

/-- A motion as in the settling theorems: at rest on the along-track axis. -/
example : Trajectory univ 4 (dockF2 (1027 / 1000000)) (dockG2 12) (fun _ => [0, 100, 0, 0])
    (fun _ => lqrControl 2 [[1, 0, 1, 0], [0, 1, 0, 1]] [0, 100, 0, 0]) := by
  have hfield : vadd (dockF2 (1027 / 1000000) [0, 100, 0, 0]) (matVec (dockG2 12 [0, 100, 0, 0])
      (lqrControl 2 [[1, 0, 1, 0], [0, 1, 0, 1]] [0, 100, 0, 0])) = [0, 0, 0, 0] := by
    rw [lqr2_eq, field2_eq]; norm_num
  refine ⟨fun _ _ => ⟨mem_univ _, rfl⟩, fun _ _ => continuousOn_const, fun t _ => by rw [hfield]; rfl, fun t _ i hi => ?_⟩
  rw [hfield]
  refine (hasDerivWithinAt_const t (Ici t) _).congr_deriv ?_
  match i, hi with
  | 0, _ => rfl
  | 1, _ => rfl
  | 2, _ => rfl
  | 3, _ => rfl

end RTA
