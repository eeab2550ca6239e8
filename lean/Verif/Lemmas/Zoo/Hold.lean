import Verif.Lemmas.Hold
import Mathlib.Analysis.SpecialFunctions.Sqrt
import Mathlib.Analysis.Calculus.Deriv.Inv

/-!
The smoothed speed limit of the docking problems while a thrust is held.
-/
namespace RTA
open Set Real

/-- Relative motion under a constant thrust acceleration `(c1, c2, c3)` over `[a, b]`. -/
structure DockHold (n c1 c2 c3 a b : ℝ) (X Y Z A B C : ℝ → ℝ) : Prop where
  cX : ContinuousOn X (Icc a b)
  cY : ContinuousOn Y (Icc a b)
  cZ : ContinuousOn Z (Icc a b)
  cA : ContinuousOn A (Icc a b)
  cB : ContinuousOn B (Icc a b)
  cC : ContinuousOn C (Icc a b)
  dX : ∀ t ∈ Ico a b, HasDerivWithinAt X (A t) (Ici t) t
  dY : ∀ t ∈ Ico a b, HasDerivWithinAt Y (B t) (Ici t) t
  dZ : ∀ t ∈ Ico a b, HasDerivWithinAt Z (C t) (Ici t) t
  dA : ∀ t ∈ Ico a b, HasDerivWithinAt A (3 * n ^ 2 * X t + 2 * n * B t + c1) (Ici t) t
  dB : ∀ t ∈ Ico a b, HasDerivWithinAt B (-2 * n * A t + c2) (Ici t) t
  dC : ∀ t ∈ Ico a b, HasDerivWithinAt C (-(n ^ 2) * Z t + c3) (Ici t) t

theorem DockHold.mono {n c1 c2 c3 a b b' : ℝ} {X Y Z A B C : ℝ → ℝ} (h : DockHold n c1 c2 c3 a b X Y Z A B C) (hb : b' ≤ b) :
    DockHold n c1 c2 c3 a b' X Y Z A B C := by
  have k : Icc a b' ⊆ Icc a b := Icc_subset_Icc_right hb
  have k' : ∀ t ∈ Ico a b', t ∈ Ico a b := fun t ht => ⟨ht.1, ht.2.trans_le hb⟩
  exact ⟨h.cX.mono k, h.cY.mono k, h.cZ.mono k, h.cA.mono k, h.cB.mono k, h.cC.mono k, fun t ht => h.dX t (k' t ht),
    fun t ht => h.dY t (k' t ht), fun t ht => h.dZ t (k' t ht), fun t ht => h.dA t (k' t ht), fun t ht => h.dB t (k' t ht),
    fun t ht => h.dC t (k' t ht)⟩

theorem cs3 (a b c x y z : ℝ) : (a * x + b * y + c * z) ^ 2 ≤ (a ^ 2 + b ^ 2 + c ^ 2) * (x ^ 2 + y ^ 2 + z ^ 2) := by
  nlinarith [sq_nonneg (a * y - b * x), sq_nonneg (a * z - c * x), sq_nonneg (b * z - c * y)]

/-- Cauchy-Schwarz with a smoothed norm. -/
theorem dot_smooth {a b c x y z E δ : ℝ} (hE : 0 ≤ E) (hδ : 0 ≤ δ) (h : x ^ 2 + y ^ 2 + z ^ 2 ≤ E ^ 2) :
    |a * x + b * y + c * z| ≤ E * √(a ^ 2 + b ^ 2 + c ^ 2 + δ) := by
  refine abs_le_of_sq_le_sq ?_ (by positivity)
  rw [mul_pow, sq_sqrt (by positivity)]
  have h1 := cs3 a b c x y z
  have h2 : (a ^ 2 + b ^ 2 + c ^ 2) * (x ^ 2 + y ^ 2 + z ^ 2) ≤ (a ^ 2 + b ^ 2 + c ^ 2 + δ) * E ^ 2 :=
    mul_le_mul (by linarith) h (by positivity) (by positivity)
  linarith

/-- The triangle inequality with the Coriolis acceleration. -/
theorem accel_le {e1 e2 e3 n A B C E V : ℝ} (hn : 0 ≤ n) (hE : 0 ≤ E) (hV : 0 ≤ V) (he : e1 ^ 2 + e2 ^ 2 + e3 ^ 2 ≤ E ^ 2)
    (hv : A ^ 2 + B ^ 2 + C ^ 2 ≤ V ^ 2) :
    (e1 + 2 * n * B) ^ 2 + (e2 - 2 * n * A) ^ 2 + e3 ^ 2 ≤ (E + 2 * n * V) ^ 2 := by
  have h1 : |e1 * B + e2 * (-A) + e3 * 0| ≤ E * V := by
    refine abs_le_of_sq_le_sq ?_ (by positivity)
    refine (cs3 _ _ _ _ _ _).trans ?_
    rw [mul_pow]
    exact mul_le_mul he (by nlinarith [sq_nonneg C]) (by positivity) (by positivity)
  have h2 := (abs_le.1 h1).2
  have h3 := mul_le_mul_of_nonneg_left h2 hn
  have h4 : n ^ 2 * (A ^ 2 + B ^ 2 + C ^ 2) ≤ n ^ 2 * V ^ 2 := mul_le_mul_of_nonneg_left hv (sq_nonneg n)
  have h5 : 0 ≤ n ^ 2 * C ^ 2 := by positivity
  linear_combination he + 4 * h3 + 4 * h4 + 4 * h5

/-- The derivative of a smoothed norm. -/
theorem smooth_deriv {A B C : ℝ → ℝ} {a b c δ : ℝ} {S : Set ℝ} {t : ℝ} (hδ : 0 < δ) (hA : HasDerivWithinAt A a S t)
    (hB : HasDerivWithinAt B b S t) (hC : HasDerivWithinAt C c S t) :
    HasDerivWithinAt (fun s => √(A s ^ 2 + B s ^ 2 + C s ^ 2 + δ))
      ((A t * a + B t * b + C t * c) / √(A t ^ 2 + B t ^ 2 + C t ^ 2 + δ)) S t := by
  have h := ((((hA.pow 2).add (hB.pow 2)).add (hC.pow 2)).add_const δ).sqrt (by simp only [Pi.add_apply, Pi.pow_apply]; positivity)
  refine h.congr_deriv ?_
  have : √(A t ^ 2 + B t ^ 2 + C t ^ 2 + δ) ≠ 0 := (sqrt_pos.2 (by positivity)).ne'
  simp only [Pi.add_apply, Pi.pow_apply]
  field_simp
  simp
  ring

variable {n c1 c2 c3 a b : ℝ} {X Y Z A B C : ℝ → ℝ}

/-- The smoothed speed changes at most at the rate `E`, the size of the acceleration without the Coriolis part. -/
theorem speed_hold {δ E : ℝ} (hδ : 0 < δ) (hE : 0 ≤ E) (h : DockHold n c1 c2 c3 a b X Y Z A B C) (hab : a ≤ b)
    (he : ∀ t ∈ Ico a b, (3 * n ^ 2 * X t + c1) ^ 2 + c2 ^ 2 + (-(n ^ 2) * Z t + c3) ^ 2 ≤ E ^ 2) :
    √(A a ^ 2 + B a ^ 2 + C a ^ 2 + δ) - E * (b - a) ≤ √(A b ^ 2 + B b ^ 2 + C b ^ 2 + δ) ∧
      √(A b ^ 2 + B b ^ 2 + C b ^ 2 + δ) ≤ √(A a ^ 2 + B a ^ 2 + C a ^ 2 + δ) + E * (b - a) := by
  have hc : ContinuousOn (fun s => √(A s ^ 2 + B s ^ 2 + C s ^ 2 + δ)) (Icc a b) :=
    ((((h.cA.pow 2).add (h.cB.pow 2)).add (h.cC.pow 2)).add continuousOn_const).sqrt
  have hd := fun t ht => smooth_deriv hδ (h.dA t ht) (h.dB t ht) (h.dC t ht)
  have hb : ∀ t ∈ Ico a b, |(A t * (3 * n ^ 2 * X t + 2 * n * B t + c1) + B t * (-2 * n * A t + c2) + C t * (-(n ^ 2) * Z t + c3)) /
      √(A t ^ 2 + B t ^ 2 + C t ^ 2 + δ)| ≤ E := by
    intro t ht
    have hs : 0 < √(A t ^ 2 + B t ^ 2 + C t ^ 2 + δ) := sqrt_pos.2 (by positivity)
    rw [abs_div, abs_of_pos hs, div_le_iff₀ hs]
    have := dot_smooth (a := A t) (b := B t) (c := C t) (δ := δ) hE hδ.le (he t ht)
    rwa [show A t * (3 * n ^ 2 * X t + 2 * n * B t + c1) + B t * (-2 * n * A t + c2) + C t * (-(n ^ 2) * Z t + c3) =
      A t * (3 * n ^ 2 * X t + c1) + B t * c2 + C t * (-(n ^ 2) * Z t + c3) by ring]
  constructor
  · have := hold_lower0 (r := -E) hab hc hd (fun t ht => (abs_le.1 (hb t ht)).1)
    linarith
  · exact hold_upper hab hc hd (fun t ht => (abs_le.1 (hb t ht)).2)

/-- The rate of the speed limit: `v1 d|r|/dt - d|v|/dt`. -/
noncomputable def relRate (n c1 c2 c3 v1 δ x y z a b c : ℝ) : ℝ :=
  v1 * ((x * a + y * b + z * c) / √(x ^ 2 + y ^ 2 + z ^ 2 + δ)) -
    (a * (3 * n ^ 2 * x + c1) + b * c2 + c * (-(n ^ 2) * z + c3)) / √(a ^ 2 + b ^ 2 + c ^ 2 + δ)

/-- The size of the rate. -/
theorem relRate_abs {v1 δ E V x y z a b c : ℝ} (hδ : 0 < δ) (hv1 : 0 ≤ v1) (hE : 0 ≤ E)
    (he : (3 * n ^ 2 * x + c1) ^ 2 + c2 ^ 2 + (-(n ^ 2) * z + c3) ^ 2 ≤ E ^ 2) (hV : √(a ^ 2 + b ^ 2 + c ^ 2 + δ) ≤ V) :
    |relRate n c1 c2 c3 v1 δ x y z a b c| ≤ v1 * V + E := by
  have hs : 0 < √(a ^ 2 + b ^ 2 + c ^ 2 + δ) := sqrt_pos.2 (by positivity)
  have hr : 0 < √(x ^ 2 + y ^ 2 + z ^ 2 + δ) := sqrt_pos.2 (by positivity)
  have h1 : |(x * a + y * b + z * c) / √(x ^ 2 + y ^ 2 + z ^ 2 + δ)| ≤ V := by
    rw [abs_div, abs_of_pos hr, div_le_iff₀ hr]
    refine dot_smooth (hs.le.trans hV) hδ.le ?_
    have := pow_le_pow_left₀ hs.le hV 2
    rw [sq_sqrt (by positivity)] at this
    linarith
  have h2 : |(a * (3 * n ^ 2 * x + c1) + b * c2 + c * (-(n ^ 2) * z + c3)) / √(a ^ 2 + b ^ 2 + c ^ 2 + δ)| ≤ E := by
    rw [abs_div, abs_of_pos hs, div_le_iff₀ hs]
    exact dot_smooth hE hδ.le he
  unfold relRate
  refine (abs_sub _ _).trans ?_
  rw [abs_mul, abs_of_nonneg hv1]
  exact add_le_add (mul_le_mul_of_nonneg_left h1 hv1) h2

/-- The rate of the smoothed distance drops at most at the rate of the acceleration. -/
theorem dist_second {x y z a b c a1 a2 a3 δ E : ℝ} (hδ : 0 < δ) (hE : 0 ≤ E) (ha : a1 ^ 2 + a2 ^ 2 + a3 ^ 2 ≤ E ^ 2) :
    -E ≤ ((a ^ 2 + b ^ 2 + c ^ 2 + (x * a1 + y * a2 + z * a3)) * √(x ^ 2 + y ^ 2 + z ^ 2 + δ) -
      (x * a + y * b + z * c) * ((x * a + y * b + z * c) / √(x ^ 2 + y ^ 2 + z ^ 2 + δ))) / √(x ^ 2 + y ^ 2 + z ^ 2 + δ) ^ 2 := by
  have hp : 0 < x ^ 2 + y ^ 2 + z ^ 2 + δ := by positivity
  have hr : 0 < √(x ^ 2 + y ^ 2 + z ^ 2 + δ) := sqrt_pos.2 hp
  have h1 := (abs_le.1 (dot_smooth (a := x) (b := y) (c := z) hE hδ.le ha)).1
  have h2 := cs3 x y z a b c
  have h3 := sq_sqrt hp.le
  generalize √(x ^ 2 + y ^ 2 + z ^ 2 + δ) = r at *
  rw [le_div_iff₀ (by positivity)]
  have h4 : (x * a + y * b + z * c) * ((x * a + y * b + z * c) / r) ≤ (a ^ 2 + b ^ 2 + c ^ 2) * r := by
    rw [← mul_div_assoc, div_le_iff₀ hr]
    have : 0 ≤ a ^ 2 + b ^ 2 + c ^ 2 := by positivity
    nlinarith
  nlinarith [mul_le_mul_of_nonneg_right h1 hr.le]

/-- The rate of the smoothed speed rises at most at the rate `M / w` while the speed is at least `w`. -/
theorem speed_second {q s' σ M w : ℝ} (hw : 0 < w) (hσ : w ≤ σ) (hM : 0 ≤ M) (hs : s' ≤ M) :
    (s' * σ - q * (q / σ)) / σ ^ 2 ≤ M / w := by
  have h0 : 0 < σ := hw.trans_le hσ
  have h1 : (s' * σ - q * (q / σ)) / σ ^ 2 ≤ M / σ := by
    rw [div_le_div_iff₀ (by positivity) h0]
    have : 0 ≤ q * (q / σ) := by rw [← mul_div_assoc]; exact div_nonneg (mul_self_nonneg _) h0.le
    have h2 : s' * σ * σ ≤ M * σ * σ := by gcongr
    nlinarith [mul_nonneg this h0.le]
  exact h1.trans (div_le_div_of_nonneg_left hM hw hσ)

/-- While the smoothed speed is between `w` and `V`, the rate of the speed limit drops at most at the rate
`v1 (E + 2 n V) + (3 n² V² + E (E + 2 n V)) / w`. -/
theorem relRate_hold {v1 δ E V w : ℝ} (hn : 0 ≤ n) (hδ : 0 < δ) (hv1 : 0 ≤ v1) (hE : 0 ≤ E) (hw : 0 < w) (hV : 0 ≤ V)
    (h : DockHold n c1 c2 c3 a b X Y Z A B C) (hab : a ≤ b)
    (he : ∀ t ∈ Ico a b, (3 * n ^ 2 * X t + c1) ^ 2 + c2 ^ 2 + (-(n ^ 2) * Z t + c3) ^ 2 ≤ E ^ 2)
    (hlo : ∀ t ∈ Ico a b, w ≤ √(A t ^ 2 + B t ^ 2 + C t ^ 2 + δ)) (hhi : ∀ t ∈ Ico a b, √(A t ^ 2 + B t ^ 2 + C t ^ 2 + δ) ≤ V) :
    relRate n c1 c2 c3 v1 δ (X a) (Y a) (Z a) (A a) (B a) (C a) -
        (v1 * (E + 2 * n * V) + (3 * n ^ 2 * V ^ 2 + E * (E + 2 * n * V)) / w) * (b - a) ≤
      relRate n c1 c2 c3 v1 δ (X b) (Y b) (Z b) (A b) (B b) (C b) := by
  have hs : ∀ t, 0 < √(A t ^ 2 + B t ^ 2 + C t ^ 2 + δ) := fun t => sqrt_pos.2 (by positivity)
  have hr : ∀ t, 0 < √(X t ^ 2 + Y t ^ 2 + Z t ^ 2 + δ) := fun t => sqrt_pos.2 (by positivity)
  have cq := ((h.cX.mul h.cA).add (h.cY.mul h.cB)).add (h.cZ.mul h.cC)
  have cs := ((h.cA.mul ((h.cX.const_smul (3 * n ^ 2)).add (continuousOn_const (c := c1)))).add (h.cB.mul (continuousOn_const (c := c2)))).add
    (h.cC.mul ((h.cZ.const_smul (-(n ^ 2))).add (continuousOn_const (c := c3))))
  have cρ : ContinuousOn (fun s => √(X s ^ 2 + Y s ^ 2 + Z s ^ 2 + δ)) (Icc a b) :=
    ((((h.cX.pow 2).add (h.cY.pow 2)).add (h.cZ.pow 2)).add continuousOn_const).sqrt
  have cσ : ContinuousOn (fun s => √(A s ^ 2 + B s ^ 2 + C s ^ 2 + δ)) (Icc a b) :=
    ((((h.cA.pow 2).add (h.cB.pow 2)).add (h.cC.pow 2)).add continuousOn_const).sqrt
  have hc : ContinuousOn (fun t => relRate n c1 c2 c3 v1 δ (X t) (Y t) (Z t) (A t) (B t) (C t)) (Icc a b) :=
    (continuousOn_const.mul (cq.div cρ (fun t _ => (hr t).ne'))).sub (cs.div cσ (fun t _ => (hs t).ne'))
  have hd : ∀ t ∈ Ico a b, HasDerivWithinAt (fun t => relRate n c1 c2 c3 v1 δ (X t) (Y t) (Z t) (A t) (B t) (C t))
      (v1 * (((A t ^ 2 + B t ^ 2 + C t ^ 2 + (X t * (3 * n ^ 2 * X t + 2 * n * B t + c1) + Y t * (-2 * n * A t + c2) + Z t * (-(n ^ 2) * Z t + c3))) *
            √(X t ^ 2 + Y t ^ 2 + Z t ^ 2 + δ) -
          (X t * A t + Y t * B t + Z t * C t) * ((X t * A t + Y t * B t + Z t * C t) / √(X t ^ 2 + Y t ^ 2 + Z t ^ 2 + δ))) /
            √(X t ^ 2 + Y t ^ 2 + Z t ^ 2 + δ) ^ 2) -
        ((3 * n ^ 2 * A t ^ 2 - n ^ 2 * C t ^ 2 + ((3 * n ^ 2 * X t + 2 * n * B t + c1) * (3 * n ^ 2 * X t + c1) + (-2 * n * A t + c2) * c2 +
            (-(n ^ 2) * Z t + c3) * (-(n ^ 2) * Z t + c3))) * √(A t ^ 2 + B t ^ 2 + C t ^ 2 + δ) -
          (A t * (3 * n ^ 2 * X t + c1) + B t * c2 + C t * (-(n ^ 2) * Z t + c3)) *
            ((A t * (3 * n ^ 2 * X t + c1) + B t * c2 + C t * (-(n ^ 2) * Z t + c3)) / √(A t ^ 2 + B t ^ 2 + C t ^ 2 + δ))) /
            √(A t ^ 2 + B t ^ 2 + C t ^ 2 + δ) ^ 2) (Ici t) t := by
    intro t ht
    have dq := (((h.dX t ht).mul (h.dA t ht)).add ((h.dY t ht).mul (h.dB t ht))).add ((h.dZ t ht).mul (h.dC t ht))
    have ds := (((h.dA t ht).mul (((h.dX t ht).const_mul (3 * n ^ 2)).add_const c1)).add ((h.dB t ht).mul_const c2)).add
      ((h.dC t ht).mul (((h.dZ t ht).const_mul (-(n ^ 2))).add_const c3))
    have dρ := smooth_deriv hδ (h.dX t ht) (h.dY t ht) (h.dZ t ht)
    have dσ := smooth_deriv hδ (h.dA t ht) (h.dB t ht) (h.dC t ht)
    have k := ((dq.div dρ (hr t).ne').const_mul v1).sub (ds.div dσ (hs t).ne')
    refine k.congr_deriv ?_
    simp only [Pi.add_apply, Pi.mul_apply]
    congr 1
    · congr 3
      ring
    · congr 2
      · congr 1
        ring
      · congr 2
        ring
  have hrate : ∀ t ∈ Ico a b, _ := fun t ht => by
    have hv : A t ^ 2 + B t ^ 2 + C t ^ 2 ≤ V ^ 2 := by
      have := pow_le_pow_left₀ (hs t).le (hhi t ht) 2
      rw [sq_sqrt (by positivity)] at this
      linarith
    have hacc := accel_le hn hE hV (he t ht) hv
    have e1 : (3 * n ^ 2 * X t + c1 + 2 * n * B t) ^ 2 + (c2 - 2 * n * A t) ^ 2 + (-(n ^ 2) * Z t + c3) ^ 2 =
        (3 * n ^ 2 * X t + 2 * n * B t + c1) ^ 2 + (-2 * n * A t + c2) ^ 2 + (-(n ^ 2) * Z t + c3) ^ 2 := by ring
    rw [e1] at hacc
    have hE2 : 0 ≤ E + 2 * n * V := by positivity
    have p1 := dist_second (x := X t) (y := Y t) (z := Z t) (a := A t) (b := B t) (c := C t) hδ hE2 hacc
    have hdot : (3 * n ^ 2 * X t + 2 * n * B t + c1) * (3 * n ^ 2 * X t + c1) + (-2 * n * A t + c2) * c2 +
        (-(n ^ 2) * Z t + c3) * (-(n ^ 2) * Z t + c3) ≤ E * (E + 2 * n * V) := by
      refine (le_abs_self _).trans (abs_le_of_sq_le_sq ?_ (by positivity))
      refine (cs3 _ _ _ _ _ _).trans ?_
      rw [mul_comm, mul_pow]
      exact mul_le_mul (he t ht) hacc (by positivity) (by positivity)
    have hs' : 3 * n ^ 2 * A t ^ 2 - n ^ 2 * C t ^ 2 + ((3 * n ^ 2 * X t + 2 * n * B t + c1) * (3 * n ^ 2 * X t + c1) + (-2 * n * A t + c2) * c2 +
            (-(n ^ 2) * Z t + c3) * (-(n ^ 2) * Z t + c3)) ≤ 3 * n ^ 2 * V ^ 2 + E * (E + 2 * n * V) := by
      have : 3 * n ^ 2 * A t ^ 2 ≤ 3 * n ^ 2 * V ^ 2 :=
        mul_le_mul_of_nonneg_left (by nlinarith [sq_nonneg (B t), sq_nonneg (C t)]) (by positivity)
      have : 0 ≤ n ^ 2 * C t ^ 2 := by positivity
      linarith
    have p2 := speed_second (q := A t * (3 * n ^ 2 * X t + c1) + B t * c2 + C t * (-(n ^ 2) * Z t + c3)) hw (hlo t ht)
      (by positivity : (0:ℝ) ≤ 3 * n ^ 2 * V ^ 2 + E * (E + 2 * n * V)) hs'
    exact sub_le_sub (mul_le_mul_of_nonneg_left p1 hv1) p2
  have := hold_lower0 hab hc hd hrate
  linarith

/-- The rate of the smoothed limit minus the smoothed speed. -/
theorem rel_hold_deriv {v1 δ w0 : ℝ} (hδ : 0 < δ) (h : DockHold n c1 c2 c3 a b X Y Z A B C) : ∀ t ∈ Ico a b,
    HasDerivWithinAt (fun s => w0 + v1 * √(X s ^ 2 + Y s ^ 2 + Z s ^ 2 + δ) - √(A s ^ 2 + B s ^ 2 + C s ^ 2 + δ))
      (relRate n c1 c2 c3 v1 δ (X t) (Y t) (Z t) (A t) (B t) (C t)) (Ici t) t := by
  intro t ht
  have k := (((smooth_deriv hδ (h.dX t ht) (h.dY t ht) (h.dZ t ht)).const_mul v1).const_add w0).sub
    (smooth_deriv hδ (h.dA t ht) (h.dB t ht) (h.dC t ht))
  refine k.congr_deriv ?_
  unfold relRate
  congr 2
  ring

theorem rel_hold_cont {v1 δ w0 : ℝ} (h : DockHold n c1 c2 c3 a b X Y Z A B C) :
    ContinuousOn (fun s => w0 + v1 * √(X s ^ 2 + Y s ^ 2 + Z s ^ 2 + δ) - √(A s ^ 2 + B s ^ 2 + C s ^ 2 + δ)) (Icc a b) :=
  (continuousOn_const.add (continuousOn_const.mul ((((h.cX.pow 2).add (h.cY.pow 2)).add (h.cZ.pow 2)).add continuousOn_const).sqrt)).sub
    ((((h.cA.pow 2).add (h.cB.pow 2)).add (h.cC.pow 2)).add continuousOn_const).sqrt

/-- The arithmetic of one hold: from the value `y` with rate at least `-S`. -/
theorem hold_arith {y S L dt s Hb : ℝ} (hL : 0 ≤ L) (hs0 : 0 ≤ s) (hs1 : s ≤ dt) (hpos : 0 ≤ y → dt * S ≤ y)
    (hneg : y < 0 → L * dt / 2 ≤ -S) (h0 : -(L * dt ^ 2 / 2) ≤ y) (hb : y + -S * s - L * s ^ 2 / 2 ≤ Hb) : -(L * dt ^ 2 / 2) ≤ Hb := by
  rcases le_or_gt 0 y with hy | hy
  · have h3 := hpos hy
    have h2 : L * s ^ 2 ≤ L * dt ^ 2 := mul_le_mul_of_nonneg_left (pow_le_pow_left₀ hs0 hs1 2) hL
    have h4 : s * S ≤ y := by
      rcases le_or_gt 0 S with hS | hS
      · exact (mul_le_mul_of_nonneg_right hs1 hS).trans h3
      · nlinarith
    linarith
  · have h6 := mul_le_mul_of_nonneg_right (hneg hy) hs0
    have h7 : L * s ^ 2 ≤ L * dt * s := by
      rw [pow_two, ← mul_assoc, mul_right_comm]
      exact mul_le_mul_of_nonneg_left hs1 (mul_nonneg hL hs0) |>.trans_eq (by ring)
    linarith

/-- One hold of a docking module: the limit minus the speed, at the beginning at least `-L dt²/2` with rate at least `-S`, is at the end still
at least `-L dt²/2`. -/
theorem dock_hold {v1 δ E V w w0 L S dt : ℝ} (hn : 0 ≤ n) (hδ : 0 < δ) (hv1 : 0 ≤ v1) (hE : 0 ≤ E) (hw : 0 < w) (hV : 0 ≤ V) (hL : 0 ≤ L)
    (h : DockHold n c1 c2 c3 a b X Y Z A B C) (hab : a ≤ b) (hdt : b ≤ a + dt)
    (he : ∀ t ∈ Ico a b, (3 * n ^ 2 * X t + c1) ^ 2 + c2 ^ 2 + (-(n ^ 2) * Z t + c3) ^ 2 ≤ E ^ 2)
    (hV' : √(A a ^ 2 + B a ^ 2 + C a ^ 2 + δ) + E * dt ≤ V) (hw' : w ≤ w0 - (v1 * V + E) * dt - E * dt)
    (hL' : v1 * (E + 2 * n * V) + (3 * n ^ 2 * V ^ 2 + E * (E + 2 * n * V)) / w ≤ L) {y : ℝ}
    (hy : y = w0 + v1 * √(X a ^ 2 + Y a ^ 2 + Z a ^ 2 + δ) - √(A a ^ 2 + B a ^ 2 + C a ^ 2 + δ))
    (hR : -S ≤ relRate n c1 c2 c3 v1 δ (X a) (Y a) (Z a) (A a) (B a) (C a))
    (hpos : 0 ≤ y → y ≤ (v1 * V + E) * dt → dt * S ≤ y) (hneg : y < 0 → L * dt / 2 ≤ -S) (h0 : -(L * dt ^ 2 / 2) ≤ y) :
    -(L * dt ^ 2 / 2) ≤ w0 + v1 * √(X b ^ 2 + Y b ^ 2 + Z b ^ 2 + δ) - √(A b ^ 2 + B b ^ 2 + C b ^ 2 + δ) := by
  have hdt0 : 0 ≤ dt := by linarith
  have hEt : ∀ t ∈ Icc a b, E * (t - a) ≤ E * dt := fun t ht => mul_le_mul_of_nonneg_left (by linarith [ht.2]) hE
  have sp : ∀ t ∈ Icc a b, _ := fun t ht => speed_hold hδ hE (h.mono ht.2) ht.1 (fun r hr => he r ⟨hr.1, hr.2.trans_le ht.2⟩)
  have hhi : ∀ t ∈ Icc a b, √(A t ^ 2 + B t ^ 2 + C t ^ 2 + δ) ≤ V := fun t ht => by
    have := (sp t ht).2; have := hEt t ht; linarith
  have hico : ∀ t ∈ Ico a b, t ∈ Icc a b := fun t ht => ⟨ht.1, ht.2.le⟩
  rcases le_or_gt ((v1 * V + E) * dt) y with hfar | hnear
  · have := hold_lower0 (r := -(v1 * V + E)) hab (rel_hold_cont (v1 := v1) (δ := δ) (w0 := w0) h) (rel_hold_deriv hδ h)
      (fun t ht => (abs_le.1 (relRate_abs hδ hv1 hE (he t ht) (hhi t (hico t ht)))).1)
    simp only [← hy] at this
    have h1 : (v1 * V + E) * (b - a) ≤ (v1 * V + E) * dt := mul_le_mul_of_nonneg_left (by linarith) (by positivity)
    have h2 : 0 ≤ L * dt ^ 2 / 2 := by positivity
    linarith
  · have hlo : ∀ t ∈ Icc a b, w ≤ √(A t ^ 2 + B t ^ 2 + C t ^ 2 + δ) := fun t ht => by
      have := (sp t ht).1
      have := hEt t ht
      have : 0 ≤ v1 * √(X a ^ 2 + Y a ^ 2 + Z a ^ 2 + δ) := by positivity
      linarith
    have key := hold_lower (r := -S) (L := L) hab (rel_hold_cont (v1 := v1) (δ := δ) (w0 := w0) h) (rel_hold_deriv hδ h)
      (fun t ht => by
        have k := relRate_hold hn hδ hv1 hE hw hV (h.mono ht.2.le) ht.1 (fun r hr => he r ⟨hr.1, hr.2.trans ht.2⟩)
          (fun r hr => hlo r ⟨hr.1, (hr.2.trans ht.2).le⟩) (fun r hr => hhi r ⟨hr.1, (hr.2.trans ht.2).le⟩)
        have := mul_le_mul_of_nonneg_right hL' (sub_nonneg.2 ht.1)
        linarith)
    simp only [← hy] at key
    exact hold_arith hL (by linarith) (by linarith) (fun hy0 => hpos hy0 hnear.le) hneg h0 key

/-- The smoothed distance grows at most at the smoothed speed. -/
theorem dist_hold {δ V : ℝ} (hδ : 0 < δ) (h : DockHold n c1 c2 c3 a b X Y Z A B C) (hab : a ≤ b)
    (hV : ∀ t ∈ Ico a b, √(A t ^ 2 + B t ^ 2 + C t ^ 2 + δ) ≤ V) :
    √(X b ^ 2 + Y b ^ 2 + Z b ^ 2 + δ) ≤ √(X a ^ 2 + Y a ^ 2 + Z a ^ 2 + δ) + V * (b - a) := by
  refine hold_upper (h := fun s => √(X s ^ 2 + Y s ^ 2 + Z s ^ 2 + δ)) hab
    ((((h.cX.pow 2).add (h.cY.pow 2)).add (h.cZ.pow 2)).add continuousOn_const).sqrt
    (fun t ht => smooth_deriv hδ (h.dX t ht) (h.dY t ht) (h.dZ t ht)) (fun t ht => ?_)
  have hs : 0 < √(A t ^ 2 + B t ^ 2 + C t ^ 2 + δ) := sqrt_pos.2 (by positivity)
  have hr : 0 < √(X t ^ 2 + Y t ^ 2 + Z t ^ 2 + δ) := sqrt_pos.2 (by positivity)
  rw [div_le_iff₀ hr]
  refine (le_abs_self _).trans (dot_smooth (hs.le.trans (hV t ht)) hδ.le ?_)
  have := pow_le_pow_left₀ hs.le (hV t ht) 2
  rw [sq_sqrt (by positivity)] at this
  linarith

/-- Over a short hold the distance and the speed together stay bounded: `|v| + |r|/100` grows at most at the rate 1. -/
theorem region_hold {δ c : ℝ} (hn : 0 ≤ n) (hn1 : n ≤ 11 / 10000) (hδ : 0 < δ) (hc : 0 ≤ c) (hcc : c1 ^ 2 + c2 ^ 2 + c3 ^ 2 ≤ c ^ 2)
    (h : DockHold n c1 c2 c3 a b X Y Z A B C) (hab : a ≤ b)
    (hsmall : c + 1 / 100 * (√(A a ^ 2 + B a ^ 2 + C a ^ 2 + δ) + 1 / 100 * √(X a ^ 2 + Y a ^ 2 + Z a ^ 2 + δ) + (b - a)) < 1) :
    √(A b ^ 2 + B b ^ 2 + C b ^ 2 + δ) + 1 / 100 * √(X b ^ 2 + Y b ^ 2 + Z b ^ 2 + δ) ≤
      √(A a ^ 2 + B a ^ 2 + C a ^ 2 + δ) + 1 / 100 * √(X a ^ 2 + Y a ^ 2 + Z a ^ 2 + δ) + (b - a) := by
  have hlin : ∀ s, HasDerivAt (fun s : ℝ => √(A a ^ 2 + B a ^ 2 + C a ^ 2 + δ) + 1 / 100 * √(X a ^ 2 + Y a ^ 2 + Z a ^ 2 + δ) + (s - a)) 1 s :=
    fun s => ((hasDerivAt_id s).sub_const a).const_add _
  have key := image_le_of_deriv_right_lt_deriv_boundary (a := a) (b := b)
    (f := fun s => √(A s ^ 2 + B s ^ 2 + C s ^ 2 + δ) + 1 / 100 * √(X s ^ 2 + Y s ^ 2 + Z s ^ 2 + δ))
    (((((h.cA.pow 2).add (h.cB.pow 2)).add (h.cC.pow 2)).add continuousOn_const).sqrt.add
      (continuousOn_const.mul ((((h.cX.pow 2).add (h.cY.pow 2)).add (h.cZ.pow 2)).add continuousOn_const).sqrt))
    (fun t ht => (smooth_deriv hδ (h.dA t ht) (h.dB t ht) (h.dC t ht)).add ((smooth_deriv hδ (h.dX t ht) (h.dY t ht) (h.dZ t ht)).const_mul (1 / 100)))
    (B := fun s => √(A a ^ 2 + B a ^ 2 + C a ^ 2 + δ) + 1 / 100 * √(X a ^ 2 + Y a ^ 2 + Z a ^ 2 + δ) + (s - a)) (by simp) hlin
    (fun t ht heq => ?_)
  · exact key (right_mem_Icc.2 hab)
  · have hs : 0 < √(A t ^ 2 + B t ^ 2 + C t ^ 2 + δ) := sqrt_pos.2 (by positivity)
    have hr : 0 < √(X t ^ 2 + Y t ^ 2 + Z t ^ 2 + δ) := sqrt_pos.2 (by positivity)
    have h1 : (A t * (3 * n ^ 2 * X t + 2 * n * B t + c1) + B t * (-2 * n * A t + c2) + C t * (-(n ^ 2) * Z t + c3)) /
        √(A t ^ 2 + B t ^ 2 + C t ^ 2 + δ) ≤ c + 3 * n ^ 2 * √(X t ^ 2 + Y t ^ 2 + Z t ^ 2 + δ) := by
      rw [div_le_iff₀ hs]
      have k1 := le_of_abs_le (dot_smooth (a := A t) (b := B t) (c := C t) hc hδ.le hcc)
      have k2 := le_of_abs_le (dot_smooth (a := A t) (b := B t) (c := C t) (x := 3 * n ^ 2 * X t) (y := 0) (z := -(n ^ 2) * Z t) (δ := δ)
        (E := 3 * n ^ 2 * √(X t ^ 2 + Y t ^ 2 + Z t ^ 2 + δ)) (by positivity) hδ.le (by
          rw [mul_pow (3 * n ^ 2) (√(X t ^ 2 + Y t ^ 2 + Z t ^ 2 + δ)), sq_sqrt (by positivity)]
          have q1 : 0 ≤ n ^ 4 * (Y t ^ 2 + δ) := by positivity
          have q2 : 0 ≤ n ^ 4 * Z t ^ 2 := by positivity
          linear_combination 9 * q1 + 8 * q2))
      linarith
    have h2 : (X t * A t + Y t * B t + Z t * C t) / √(X t ^ 2 + Y t ^ 2 + Z t ^ 2 + δ) ≤ √(A t ^ 2 + B t ^ 2 + C t ^ 2 + δ) := by
      rw [div_le_iff₀ hr]
      refine (le_abs_self _).trans (dot_smooth hs.le hδ.le ?_)
      rw [sq_sqrt (by positivity)]
      linarith
    have h3 : 3 * n ^ 2 ≤ 1 / 10000 := by nlinarith
    have h4 := mul_le_mul_of_nonneg_right h3 hr.le
    have h5 := ht.2

    linarith

end RTA
