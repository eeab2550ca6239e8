import Verif.Model.Zoo.Docking
import Verif.Props.Zoo.Limits
import Verif.Props.Constraints
import Verif.Props.Flow
import Mathlib.Analysis.SpecialFunctions.Pow.Deriv

/-!
The docking constraints: barrier conditions of a braking control, gradients.
-/
namespace RTA
open Set Real

theorem cauchy_list : ∀ p v : List ℝ, p.length = v.length → dot p v ^ 2 ≤ sqNorm p * sqNorm v
  | [], [], _ => by simp [sqNorm]
  | a :: p, b :: v, h => by
    have ih := cauchy_list p v (by simpa using h)
    have hP := sqNorm_nonneg p
    have hV := sqNorm_nonneg v
    unfold sqNorm at *
    simp only [dot_cons]
    generalize dot p p = P at *
    generalize dot v v = V at *
    generalize dot p v = D at *
    have h1 : (2 * (a * b * D)) ^ 2 ≤ (a * a * V + b * b * P) ^ 2 := by
      have := mul_le_mul_of_nonneg_left ih (show 0 ≤ 4 * (a * b) ^ 2 by positivity)
      nlinarith [sq_nonneg (a * a * V - b * b * P)]
    have h2 := (abs_le_of_sq_le_sq' h1 (by have := mul_nonneg (mul_self_nonneg a) hV; have := mul_nonneg (mul_self_nonneg b) hP; linarith)).2
    nlinarith
  | [], _ :: _, h => by simp at h
  | _ :: _, [], h => by simp at h

theorem abs_dot_le {p v : List ℝ} (h : p.length = v.length) : |dot p v| ≤ √(sqNorm p) * √(sqNorm v) := by
  rw [← sqrt_mul (sqNorm_nonneg p), ← sqrt_sq_eq_abs]
  exact sqrt_le_sqrt (cauchy_list p v h)

theorem normWithDelta_pos (x : List ℝ) {δ : ℝ} (hδ : 0 < δ) : 0 < normWithDelta x δ := by
  unfold normWithDelta
  rw [sumsq_eq]
  have := sqNorm_nonneg x
  exact sqrt_pos.2 (by linarith)

/-- The braking rate: decelerating by `brake * v` removes speed at the rate `v1 |v|`. -/
noncomputable def brake (v1 δ : ℝ) (v : List ℝ) : ℝ := v1 * normWithDelta v δ / √(sqNorm v)

theorem brake_nonneg {v1 δ : ℝ} (h : 0 ≤ v1) (v : List ℝ) : 0 ≤ brake v1 δ v := by
  unfold brake normWithDelta
  positivity

/-- Each component of the braking deceleration is at most `v1` times the (smoothed) speed. -/
theorem brake_comp {v1 δ : ℝ} (h : 0 ≤ v1) {v : List ℝ} {c : ℝ} (hc : c ∈ v) : |brake v1 δ v * c| ≤ v1 * normWithDelta v δ := by
  have hN : 0 ≤ normWithDelta v δ := sqrt_nonneg _
  rcases eq_or_ne (√(sqNorm v)) 0 with h0 | h0
  · unfold brake
    rw [h0, div_zero, zero_mul, abs_zero]
    positivity
  · have hpos : 0 < √(sqNorm v) := lt_of_le_of_ne (sqrt_nonneg _) (Ne.symm h0)
    have hcs : |c| ≤ √(sqNorm v) := by
      rw [← sqrt_sq_eq_abs]
      refine sqrt_le_sqrt ?_
      clear hN h0 hpos
      induction v with
      | nil => simp at hc
      | cons a l ih =>
        have hl := sqNorm_nonneg l
        have e : sqNorm (a :: l) = a * a + sqNorm l := rfl
        rw [e]
        rcases List.mem_cons.1 hc with rfl | hc
        · nlinarith
        · have := ih hc
          nlinarith [mul_self_nonneg a]
    rw [abs_mul, abs_of_nonneg (brake_nonneg h v)]
    unfold brake
    rw [div_mul_eq_mul_div, div_le_iff₀ hpos]
    exact mul_le_mul_of_nonneg_left hcs (by positivity)

theorem slices {d : Nat} {p v : List ℝ} (hp : p.length = d) (hv : v.length = d) :
    pySlice (p ++ v) 0 d = p ∧ pySlice (p ++ v) d (2 * d) = v := by
  unfold pySlice
  constructor
  · simp [hp]
  · rw [List.drop_append_of_le_length (by omega), List.drop_of_length_le (by omega)]
    simp only [List.nil_append]
    exact List.take_of_length_le (by omega)

theorem dot_map_scale (k : ℝ) (p v : List ℝ) : dot (p.map fun c => k * c) v = k * dot p v := dot_vscale_left k p v

/-- The rate of the relative velocity constraint when the velocities change by `-b v`. -/
theorem rel_rate {d : Nat} {p v : List ℝ} (hp : p.length = d) (hv : v.length = d) (v1 δ b : ℝ) :
    dot (relVelGrad d v1 δ (p ++ v)) (v ++ vscale (-b) v) =
      v1 * (dot p v / normWithDelta p δ) + b * (sqNorm v / normWithDelta v δ) := by
  unfold relVelGrad
  obtain ⟨e1, e2⟩ := slices hp hv
  rw [e1, e2]
  have e3 : (p ++ v).length - 2 * d = 0 := by simp; omega
  rw [e3]
  simp only [zeros, List.replicate_zero, List.append_nil]
  rw [dot_append (by simp [hp, hv])]
  have h1 : (p.map fun c => v1 * (c / normWithDelta p δ)) = p.map fun c => (v1 / normWithDelta p δ) * c :=
    List.map_congr_left fun c _ => by ring
  have h2 : (v.map fun c => -(c / normWithDelta v δ)) = v.map fun c => (-1 / normWithDelta v δ) * c :=
    List.map_congr_left fun c _ => by ring
  rw [h1, h2, dot_map_scale, dot_map_scale, dot_vscale_right]
  unfold sqNorm
  ring

/-- Braking meets the barrier condition of the relative velocity constraint wherever that is nonnegative. -/
theorem rel_barrier {d : Nat} {p v u : List ℝ} (hp : p.length = d) (hv : v.length = d) {coefs : List ℝ} (hk : ClassKCoefs coefs)
    {v0 v1 v0Distance : ℝ} (hv1 : 0 ≤ v1) {f : List ℝ → List ℝ} {g : List ℝ → List (List ℝ)}
    (hx : vadd (f (p ++ v)) (matVec (g (p ++ v)) u) = v ++ vscale (-brake v1 (1 / 100000) v) v)
    (h : 0 ≤ (dockRelVel d coefs v0 v1 v0Distance).value (p ++ v)) :
    BarrierOK f g (dockRelVel d coefs v0 v1 v0Distance) (p ++ v) u 0 := by
  refine ⟨_, rfl, ?_⟩
  have hs : strengthening (dockRelVel d coefs v0 v1 v0Distance) (polyAlpha coefs) ((dockRelVel d coefs v0 v1 v0Distance).value (p ++ v)) =
      polyAlpha coefs ((dockRelVel d coefs v0 v1 v0Distance).value (p ++ v)) := if_pos h
  have ha : 0 ≤ polyAlpha coefs ((dockRelVel d coefs v0 v1 v0Distance).value (p ++ v)) := by
    rcases h.eq_or_lt with h | h
    · rw [← h, (C33_class_k coefs hk).1]
    · exact ((C33_sign coefs hk _).2 h).le
  have hr := rel_rate hp hv v1 (1 / 100000) (brake v1 (1 / 100000) v)
  show 0 ≤ dot (relVelGrad d v1 (1 / 100000) (p ++ v)) (vadd (f (p ++ v)) (matVec (g (p ++ v)) u)) +
    strengthening (dockRelVel d coefs v0 v1 v0Distance) (polyAlpha coefs) ((dockRelVel d coefs v0 v1 v0Distance).value (p ++ v))
  rw [hs, hx, hr]
  have hNp := normWithDelta_pos p (δ := 1 / 100000) (by norm_num)
  have hNv := normWithDelta_pos v (δ := 1 / 100000) (by norm_num)
  have hle := norm_le_normWithDelta (x := p) (δ := 1 / 100000) (by norm_num)
  have hcs := (abs_le.1 (abs_dot_le (hp.trans hv.symm))).1
  have h1 : -√(sqNorm v) ≤ dot p v / normWithDelta p (1 / 100000) := by
    rw [le_div_iff₀ hNp]
    have := mul_le_mul_of_nonneg_right hle (sqrt_nonneg (sqNorm v))
    linarith
  have h2 : brake v1 (1 / 100000) v * (sqNorm v / normWithDelta v (1 / 100000)) = v1 * √(sqNorm v) := by
    unfold brake
    rcases eq_or_ne (√(sqNorm v)) 0 with h0 | h0
    · rw [h0, div_zero, zero_mul, mul_zero]
    · have hsq := mul_self_sqrt (sqNorm_nonneg v)
      field_simp
      rw [sq, hsq]
  rw [h2]
  have := mul_le_mul_of_nonneg_left h1 hv1
  linarith

theorem limit_value (L : ℝ) (i : Nat) (x : List ℝ) : (dockLimit L i).value x = L ^ 2 - x.getD i 0 ^ 2 := by
  simp [Constraint.value, dockLimit, Constraint.mk', stateAt]

theorem limitAlpha_nonneg {y : ℝ} (h : 0 ≤ y) : 0 ≤ (limitAlpha : ℝ → ℝ) y := by
  rcases h.eq_or_lt with h | h
  · rw [← h]; exact (C33_class_k _ limitAlpha_class_k).1.ge
  · exact ((C33_sign _ limitAlpha_class_k y).2 h).le

/-- Slowing down meets the barrier condition of the velocity limits. -/
theorem limit_barrier {d i : Nat} {p v u : List ℝ} (hp : p.length = d) (hv : v.length = d) (hi : d ≤ i) (hi2 : i < 2 * d) {L b : ℝ}
    (hb : 0 ≤ b) {f : List ℝ → List ℝ} {g : List ℝ → List (List ℝ)}
    (hx : vadd (f (p ++ v)) (matVec (g (p ++ v)) u) = v ++ vscale (-b) v) (h : 0 ≤ (dockLimit L i).value (p ++ v)) :
    BarrierOK f g (dockLimit L i) (p ++ v) u 0 := by
  refine ⟨_, rfl, ?_⟩
  have hs : strengthening (dockLimit L i) (limitAlpha : ℝ → ℝ) ((dockLimit L i).value (p ++ v)) =
      limitAlpha ((dockLimit L i).value (p ++ v)) := if_pos h
  show 0 ≤ dot (gradAt (p ++ v).length i (-(2 * stateAt (p ++ v) i))) (vadd (f (p ++ v)) (matVec (g (p ++ v)) u)) +
    strengthening (dockLimit L i) (limitAlpha : ℝ → ℝ) ((dockLimit L i).value (p ++ v))
  rw [hs, hx, dot_gradAt _ _ (by simp; omega) _ _ (by simp [hp, hv])]
  have e1 : stateAt (p ++ v) i = v.getD (i - d) 0 := by
    unfold stateAt
    rw [List.getD_eq_getElem?_getD, List.getD_eq_getElem?_getD, List.getElem?_append_right (by omega), hp]
  have e2 : (v ++ vscale (-b) v).getD i 0 = -b * v.getD (i - d) 0 := by
    rw [List.getD_eq_getElem?_getD, List.getElem?_append_right (by omega), hv]
    have hlt : i - d < v.length := by omega
    simp [vscale, List.getElem?_eq_getElem hlt, List.getD_eq_getElem?_getD]
  rw [e1, e2]
  have := limitAlpha_nonneg h
  have := mul_nonneg hb (sq_nonneg (v.getD (i - d) 0))
  nlinarith

/-! ### Gradients -/

theorem limit_gradient {n i : Nat} (hi : i < n) (L : ℝ) :
    IsGradientOn univ n (fun x => (dockLimit L i).computeFn x (dockLimit L i).params) (fun x => (dockLimit L i).gradFn x (dockLimit L i).params) where
  cont T γ _ hγ := continuousOn_const.sub ((hγ i hi).pow 2)
  deriv T γ v t ht hc hv hd := by
    have h := (((hd i hi).pow 2).const_sub (L ^ 2))
    refine h.congr_deriv ?_
    show _ = dot (gradAt (γ t).length i (-(2 * stateAt (γ t) i))) v
    rw [(hc t ht).2, dot_gradAt _ _ hi _ _ hv]
    simp [stateAt]

theorem relVel2 {δ v0 v1 v0Distance x y a b : ℝ} : relativeVelocity 2 v0 v1 v0Distance δ [x, y, a, b] =
    v0 + v1 * (√(x ^ 2 + y ^ 2 + δ) - v0Distance) - √(a ^ 2 + b ^ 2 + δ) := by
  simp [relativeVelocity, normWithDelta, pySlice]

theorem relVel3 {δ v0 v1 v0Distance x y z a b c : ℝ} : relativeVelocity 3 v0 v1 v0Distance δ [x, y, z, a, b, c] =
    v0 + v1 * (√(x ^ 2 + y ^ 2 + z ^ 2 + δ) - v0Distance) - √(a ^ 2 + b ^ 2 + c ^ 2 + δ) := by
  simp [relativeVelocity, normWithDelta, pySlice, add_assoc]

theorem relVelGrad2 {δ v1 x y a b : ℝ} : relVelGrad 2 v1 δ [x, y, a, b] =
    [v1 * (x / √(x ^ 2 + y ^ 2 + δ)), v1 * (y / √(x ^ 2 + y ^ 2 + δ)), -(a / √(a ^ 2 + b ^ 2 + δ)), -(b / √(a ^ 2 + b ^ 2 + δ))] := by
  simp [relVelGrad, normWithDelta, pySlice, zeros]

theorem relVelGrad3 {δ v1 x y z a b c : ℝ} : relVelGrad 3 v1 δ [x, y, z, a, b, c] =
    [v1 * (x / √(x ^ 2 + y ^ 2 + z ^ 2 + δ)), v1 * (y / √(x ^ 2 + y ^ 2 + z ^ 2 + δ)), v1 * (z / √(x ^ 2 + y ^ 2 + z ^ 2 + δ)),
      -(a / √(a ^ 2 + b ^ 2 + c ^ 2 + δ)), -(b / √(a ^ 2 + b ^ 2 + c ^ 2 + δ)), -(c / √(a ^ 2 + b ^ 2 + c ^ 2 + δ))] := by
  simp [relVelGrad, normWithDelta, pySlice, zeros, add_assoc]

theorem rel_gradient2 (coefs : List ℝ) (v0 v1 v0Distance : ℝ) :
    IsGradientOn univ 4 (fun x => (dockRelVel 2 coefs v0 v1 v0Distance).computeFn x (dockRelVel 2 coefs v0 v1 v0Distance).params)
      (fun x => (dockRelVel 2 coefs v0 v1 v0Distance).gradFn x (dockRelVel 2 coefs v0 v1 v0Distance).params) := by
  have e : ∀ (T : Set ℝ) (γ : ℝ → List ℝ), CurveIn univ 4 T γ → EqOn (fun t => relativeVelocity 2 v0 v1 v0Distance (1 / 100000) (γ t))
      (fun t => v0 + v1 * (√((γ t).getD 0 0 ^ 2 + (γ t).getD 1 0 ^ 2 + 1 / 100000) - v0Distance) -
        √((γ t).getD 2 0 ^ 2 + (γ t).getD 3 0 ^ 2 + 1 / 100000)) T := by
    intro T γ hc t ht
    have hl := (hc t ht).2
    simp only
    generalize γ t = l at hl ⊢
    match l, hl with
    | [x, y, a, b], _ => exact relVel2
  refine ⟨fun T γ hc hγ => ?_, fun T γ v t ht hc hv hd => ?_⟩
  · refine ContinuousOn.congr ?_ (e T γ hc)
    have h0 := hγ 0 (by decide)
    have h1 := hγ 1 (by decide)
    have h2 := hγ 2 (by decide)
    have h3 := hγ 3 (by decide)
    exact (continuousOn_const.add (continuousOn_const.mul ((((h0.pow 2).add (h1.pow 2)).add continuousOn_const).sqrt.sub
      continuousOn_const))).sub (((h2.pow 2).add (h3.pow 2)).add continuousOn_const).sqrt
  · refine HasDerivWithinAt.congr ?_ (e T γ hc) (e T γ hc ht)
    have h0 := hd 0 (by decide)
    have h1 := hd 1 (by decide)
    have h2 := hd 2 (by decide)
    have h3 := hd 3 (by decide)
    have q1 : HasDerivWithinAt (fun s => (γ s).getD 0 0 ^ 2 + (γ s).getD 1 0 ^ 2 + 1 / 100000)
        (2 * (γ t).getD 0 0 * v.getD 0 0 + 2 * (γ t).getD 1 0 * v.getD 1 0) T t :=
      (((h0.pow 2).add (h1.pow 2)).add_const (1 / 100000)).congr_deriv (by simp)
    have q2 : HasDerivWithinAt (fun s => (γ s).getD 2 0 ^ 2 + (γ s).getD 3 0 ^ 2 + 1 / 100000)
        (2 * (γ t).getD 2 0 * v.getD 2 0 + 2 * (γ t).getD 3 0 * v.getD 3 0) T t :=
      (((h2.pow 2).add (h3.pow 2)).add_const (1 / 100000)).congr_deriv (by simp)
    have k := ((((q1.sqrt (by positivity)).sub_const v0Distance).const_mul v1).const_add v0).sub (q2.sqrt (by positivity))
    refine k.congr_deriv ?_
    show _ = dot (relVelGrad 2 v1 (1 / 100000) (γ t)) v
    have hl := (hc t ht).2
    clear k q1 q2 h0 h1 h2 h3 hd hc e
    generalize γ t = l at hl ⊢
    match l, hl, v, hv with
    | [x, y, a, b], _, [vx, vy, va, vb], _ =>
      rw [relVelGrad2]
      simp only [List.getD_cons_zero, List.getD_cons_succ, dot_cons, dot_nil_left]
      have n1 : √(x ^ 2 + y ^ 2 + 1 / 100000) ≠ 0 := (sqrt_pos.2 (by positivity)).ne'
      have n2 : √(a ^ 2 + b ^ 2 + 1 / 100000) ≠ 0 := (sqrt_pos.2 (by positivity)).ne'
      field_simp
      ring

theorem rel_gradient3 (coefs : List ℝ) (v0 v1 v0Distance : ℝ) :
    IsGradientOn univ 6 (fun x => (dockRelVel 3 coefs v0 v1 v0Distance).computeFn x (dockRelVel 3 coefs v0 v1 v0Distance).params)
      (fun x => (dockRelVel 3 coefs v0 v1 v0Distance).gradFn x (dockRelVel 3 coefs v0 v1 v0Distance).params) := by
  have e : ∀ (T : Set ℝ) (γ : ℝ → List ℝ), CurveIn univ 6 T γ → EqOn (fun t => relativeVelocity 3 v0 v1 v0Distance (1 / 100000) (γ t))
      (fun t => v0 + v1 * (√((γ t).getD 0 0 ^ 2 + (γ t).getD 1 0 ^ 2 + (γ t).getD 2 0 ^ 2 + 1 / 100000) - v0Distance) -
        √((γ t).getD 3 0 ^ 2 + (γ t).getD 4 0 ^ 2 + (γ t).getD 5 0 ^ 2 + 1 / 100000)) T := by
    intro T γ hc t ht
    have hl := (hc t ht).2
    simp only
    generalize γ t = l at hl ⊢
    match l, hl with
    | [x, y, z, a, b, c], _ => exact relVel3
  refine ⟨fun T γ hc hγ => ?_, fun T γ v t ht hc hv hd => ?_⟩
  · refine ContinuousOn.congr ?_ (e T γ hc)
    have h0 := hγ 0 (by decide)
    have h1 := hγ 1 (by decide)
    have h2 := hγ 2 (by decide)
    have h3 := hγ 3 (by decide)
    have h4 := hγ 4 (by decide)
    have h5 := hγ 5 (by decide)
    exact (continuousOn_const.add (continuousOn_const.mul (((((h0.pow 2).add (h1.pow 2)).add (h2.pow 2)).add continuousOn_const).sqrt.sub
      continuousOn_const))).sub ((((h3.pow 2).add (h4.pow 2)).add (h5.pow 2)).add continuousOn_const).sqrt
  · refine HasDerivWithinAt.congr ?_ (e T γ hc) (e T γ hc ht)
    have h0 := hd 0 (by decide)
    have h1 := hd 1 (by decide)
    have h2 := hd 2 (by decide)
    have h3 := hd 3 (by decide)
    have h4 := hd 4 (by decide)
    have h5 := hd 5 (by decide)
    have q1 : HasDerivWithinAt (fun s => (γ s).getD 0 0 ^ 2 + (γ s).getD 1 0 ^ 2 + (γ s).getD 2 0 ^ 2 + 1 / 100000)
        (2 * (γ t).getD 0 0 * v.getD 0 0 + 2 * (γ t).getD 1 0 * v.getD 1 0 + 2 * (γ t).getD 2 0 * v.getD 2 0) T t :=
      ((((h0.pow 2).add (h1.pow 2)).add (h2.pow 2)).add_const (1 / 100000)).congr_deriv (by simp)
    have q2 : HasDerivWithinAt (fun s => (γ s).getD 3 0 ^ 2 + (γ s).getD 4 0 ^ 2 + (γ s).getD 5 0 ^ 2 + 1 / 100000)
        (2 * (γ t).getD 3 0 * v.getD 3 0 + 2 * (γ t).getD 4 0 * v.getD 4 0 + 2 * (γ t).getD 5 0 * v.getD 5 0) T t :=
      ((((h3.pow 2).add (h4.pow 2)).add (h5.pow 2)).add_const (1 / 100000)).congr_deriv (by simp)
    have k := ((((q1.sqrt (by positivity)).sub_const v0Distance).const_mul v1).const_add v0).sub (q2.sqrt (by positivity))
    refine k.congr_deriv ?_
    show _ = dot (relVelGrad 3 v1 (1 / 100000) (γ t)) v
    have hl := (hc t ht).2
    clear k q1 q2 h0 h1 h2 h3 h4 h5 hd hc e
    generalize γ t = l at hl ⊢
    match l, hl, v, hv with
    | [x, y, z, a, b, c], _, [vx, vy, vz, va, vb, vc], _ =>
      rw [relVelGrad3]
      simp only [List.getD_cons_zero, List.getD_cons_succ, dot_cons, dot_nil_left]
      have n1 : √(x ^ 2 + y ^ 2 + z ^ 2 + 1 / 100000) ≠ 0 := (sqrt_pos.2 (by positivity)).ne'
      have n2 : √(a ^ 2 + b ^ 2 + c ^ 2 + 1 / 100000) ≠ 0 := (sqrt_pos.2 (by positivity)).ne'
      field_simp
      ring

end RTA
