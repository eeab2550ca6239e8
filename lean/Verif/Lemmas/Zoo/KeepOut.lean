import Verif.Spec.Zoo.Motion
import Verif.Lemmas.Zoo.CWH
import Verif.Lemmas.Flow
import Mathlib.Analysis.Calculus.Deriv.Inv
import Mathlib.Analysis.SpecialFunctions.Sqrt

/-!
Lemmas about distances along curves.
-/
namespace RTA
open Set Real

theorem dot3 {p v : List ℝ} (hp : p.length = 3) (hv : v.length = 3) :
    dot p v = comp p 0 * comp v 0 + comp p 1 * comp v 1 + comp p 2 * comp v 2 := by
  rw [list3 hp, list3 hv]
  simp only [dot_cons, dot_nil_left, comp, List.getD_cons_zero, List.getD_cons_succ]
  ring

theorem sqNorm3 {p : List ℝ} (hp : p.length = 3) : sqNorm p = comp p 0 ^ 2 + comp p 1 ^ 2 + comp p 2 ^ 2 := by
  unfold sqNorm
  rw [dot3 hp hp]
  ring

theorem sqNorm3_nonneg {p : List ℝ} (hp : p.length = 3) : 0 ≤ sqNorm p := by
  rw [sqNorm3 hp]; positivity

theorem norm2_nonneg (p : List ℝ) : 0 ≤ norm2 p := sqrt_nonneg _

theorem norm2_sq {p : List ℝ} (hp : p.length = 3) : norm2 p ^ 2 = sqNorm p := sq_sqrt (sqNorm3_nonneg hp)

theorem norm2_eq_zero {p : List ℝ} (hp : p.length = 3) (h : norm2 p = 0) : comp p 0 = 0 ∧ comp p 1 = 0 ∧ comp p 2 = 0 := by
  have h2 := norm2_sq hp
  rw [h, sqNorm3 hp] at h2
  refine ⟨?_, ?_, ?_⟩ <;> nlinarith [sq_nonneg (comp p 0), sq_nonneg (comp p 1), sq_nonneg (comp p 2)]

theorem cauchy3 {p v : List ℝ} (hp : p.length = 3) (hv : v.length = 3) : dot p v ^ 2 ≤ sqNorm p * sqNorm v := by
  rw [dot3 hp hv, sqNorm3 hp, sqNorm3 hv]
  nlinarith [sq_nonneg (comp p 0 * comp v 1 - comp p 1 * comp v 0), sq_nonneg (comp p 0 * comp v 2 - comp p 2 * comp v 0),
    sq_nonneg (comp p 1 * comp v 2 - comp p 2 * comp v 1)]

theorem Moves.sq_cont {p v : ℝ → List ℝ} (h : Moves p v) : ContinuousOn (fun t => sqNorm (p t)) (Ici 0) := by
  have := (((h.cont 0 (by omega)).pow 2).add ((h.cont 1 (by omega)).pow 2)).add ((h.cont 2 (by omega)).pow 2)
  exact this.congr fun t ht => sqNorm3 (h.lenP t ht)

theorem Moves.sq_deriv {p v : ℝ → List ℝ} (h : Moves p v) {t : ℝ} (ht : 0 ≤ t) :
    HasDerivWithinAt (fun s => sqNorm (p s)) (2 * dot (p t) (v t)) (Ici t) t := by
  have := (((h.deriv 0 (by omega) t ht).pow 2).add ((h.deriv 1 (by omega) t ht).pow 2)).add ((h.deriv 2 (by omega) t ht).pow 2)
  refine (this.congr_deriv ?_).congr (fun s hs => sqNorm3 (h.lenP s (ht.trans hs))) (sqNorm3 (h.lenP t ht))
  rw [dot3 (h.lenP t ht) (h.lenV t ht)]
  push_cast
  ring

/-- Relative motion. -/
theorem Moves.sub {p v q w : ℝ → List ℝ} (h : Moves p v) (k : Moves q w) :
    Moves (fun t => vsub (p t) (q t)) (fun t => vsub (v t) (w t)) := by
  have e : ∀ {a b : List ℝ}, a.length = 3 → b.length = 3 → ∀ i, comp (vsub a b) i = comp a i - comp b i := by
    intro a b ha hb i
    match a, ha, b, hb with
    | [a0, a1, a2], _, [b0, b1, b2], _ =>
      match i with
      | 0 => rfl
      | 1 => rfl
      | 2 => rfl
      | i + 3 => simp [vsub, comp]
  refine ⟨fun t ht => ?_, fun t ht => ?_, fun i hi => ?_, fun i hi t ht => ?_⟩
  · rw [vsub_length _ _ (by rw [h.lenP t ht, k.lenP t ht]), k.lenP t ht]
  · rw [vsub_length _ _ (by rw [h.lenV t ht, k.lenV t ht]), k.lenV t ht]
  · exact ((h.cont i hi).sub (k.cont i hi)).congr fun t ht => e (h.lenP t ht) (k.lenP t ht) i
  · rw [e (h.lenV t ht) (k.lenV t ht)]
    exact ((h.deriv i hi t ht).sub (k.deriv i hi t ht)).congr (fun s hs => e (h.lenP s (ht.trans hs)) (k.lenP s (ht.trans hs)) i)
      (e (h.lenP t ht) (k.lenP t ht) i)

/-- Inside the sphere a nonnegative (or undefined) constraint means not approaching. -/
theorem keepOut_inside {c R : ℝ} (hc : 0 ≤ c) {p v : List ℝ} (hp : p.length = 3) (hv : v.length = 3)
    (hin : norm2 p < R) (h : ∀ x, keepOut c R p v = some x → 0 ≤ x) : 0 ≤ dot p v := by
  by_cases h0 : norm2 p = 0
  · obtain ⟨e0, e1, e2⟩ := norm2_eq_zero hp h0
    rw [dot3 hp hv, e0, e1, e2]; simp
  · have hs : ¬ c * (-norm2 p + R) < 0 := not_lt.2 (mul_nonneg hc (by linarith))
    have := h (-√(c * (-norm2 p + R)) + dot p v / norm2 p) (by
      simp only [keepOut, if_neg (not_le.2 hin), sqrtF, if_neg hs, divF, if_neg h0]; rfl)
    have hpos : 0 < norm2 p := lt_of_le_of_ne (norm2_nonneg p) (Ne.symm h0)
    have h2 : 0 ≤ dot p v / norm2 p := by linarith [sqrt_nonneg (c * (-norm2 p + R))]
    by_contra hneg
    exact absurd h2 (not_le.2 (div_neg_of_neg_of_pos (not_le.1 hneg) hpos))

theorem keepOut_stays {c R : ℝ} (hc : 0 ≤ c) {p v : ℝ → List ℝ} (hm : Moves p v)
    (h : ∀ t, 0 ≤ t → ∀ x, keepOut c R (p t) (v t) = some x → 0 ≤ x) (h0 : R ≤ norm2 (p 0)) :
    ∀ t, 0 ≤ t → R ≤ norm2 (p t) := by
  intro t ht
  rcases lt_or_ge R 0 with hR | hR
  · linarith [norm2_nonneg (p t)]
  have key := stays_nonneg (h := fun t => sqNorm (p t) - R ^ 2) (h' := fun t => 2 * dot (p t) (v t)) (a := 0)
    (hm.sq_cont.sub continuousOn_const) (fun t ht => (hm.sq_deriv ht).sub_const _)
    (fun t ht hneg => by
      have : norm2 (p t) < R := by
        rw [← norm2_sq (hm.lenP t ht)] at hneg
        exact lt_of_pow_lt_pow_left₀ 2 hR (by linarith)
      have := keepOut_inside hc (hm.lenP t ht) (hm.lenV t ht) this (h t ht)
      linarith)
    (by
      have : R ^ 2 ≤ norm2 (p 0) ^ 2 := pow_le_pow_left₀ hR h0 2
      rw [norm2_sq (hm.lenP 0 le_rfl)] at this
      linarith) t ht
  rw [← norm2_sq (hm.lenP t ht)] at key
  exact le_of_pow_le_pow_left₀ two_ne_zero (norm2_nonneg _) (by linarith)

/-- Outside the keep-in sphere a nonnegative (or undefined) constraint means not receding. -/
theorem maxDistance_outside {a R : ℝ} (ha : 0 ≤ a) {x : List ℝ} (hp : (pySlice x 0 3).length = 3)
    (hv : (pySlice x 3 6).length = 3) (hout : R < norm2 (pySlice x 0 3)) (h : ∀ y, maxDistance R a x = some y → 0 ≤ y) :
    dot (pySlice x 0 3) (pySlice x 3 6) ≤ 0 := by
  by_cases h0 : norm2 (pySlice x 0 3) = 0
  · obtain ⟨e0, e1, e2⟩ := norm2_eq_zero hp h0
    rw [dot3 hp hv, e0, e1, e2]; simp
  · have hs : ¬ 2 * a * (-R + norm2 (pySlice x 0 3)) < 0 := not_lt.2 (mul_nonneg (by linarith) (by linarith))
    have := h (-√(2 * a * (-R + norm2 (pySlice x 0 3))) - dot (pySlice x 0 3) (pySlice x 3 6) / norm2 (pySlice x 0 3)) (by
      simp only [maxDistance, if_neg (not_le.2 hout), sqrtF, if_neg hs, divF, if_neg h0]; rfl)
    have hpos : 0 < norm2 (pySlice x 0 3) := lt_of_le_of_ne (norm2_nonneg _) (Ne.symm h0)
    have h2 : dot (pySlice x 0 3) (pySlice x 3 6) / norm2 (pySlice x 0 3) ≤ 0 := by
      linarith [sqrt_nonneg (2 * a * (-R + norm2 (pySlice x 0 3)))]
    by_contra hneg
    exact absurd h2 (not_le.2 (div_pos (not_le.1 hneg) hpos))

theorem keepIn_stays {R : ℝ} {p v : ℝ → List ℝ} (hm : Moves p v)
    (h : ∀ t, 0 ≤ t → R < norm2 (p t) → dot (p t) (v t) ≤ 0) (h0 : norm2 (p 0) ≤ R) : ∀ t, 0 ≤ t → norm2 (p t) ≤ R := by
  intro t ht
  have hR : 0 ≤ R := (norm2_nonneg _).trans h0
  have key := stays_nonneg (h := fun t => R ^ 2 - sqNorm (p t)) (h' := fun t => -(2 * dot (p t) (v t))) (a := 0)
    (continuousOn_const.sub hm.sq_cont) (fun t ht => (hm.sq_deriv ht).const_sub _)
    (fun t ht hneg => by
      have : R < norm2 (p t) := by
        rw [← norm2_sq (hm.lenP t ht)] at hneg
        exact lt_of_pow_lt_pow_left₀ 2 (norm2_nonneg _) (by linarith)
      have := h t ht this
      linarith)
    (by
      have : norm2 (p 0) ^ 2 ≤ R ^ 2 := pow_le_pow_left₀ (norm2_nonneg _) h0 2
      rw [norm2_sq (hm.lenP 0 le_rfl)] at this
      linarith) t ht
  rw [← norm2_sq (hm.lenP t ht)] at key
  exact le_of_pow_le_pow_left₀ two_ne_zero hR (by linarith)

/-- While the position is not the origin the distance has the derivative `p·v/|p|`. -/
theorem Moves.norm_deriv {p v : ℝ → List ℝ} (h : Moves p v) {t : ℝ} (ht : 0 ≤ t) (h0 : norm2 (p t) ≠ 0) :
    HasDerivWithinAt (fun s => norm2 (p s)) (dot (p t) (v t) / norm2 (p t)) (Ici t) t := by
  have hne : sqNorm (p t) ≠ 0 := by rw [← norm2_sq (h.lenP t ht)]; exact pow_ne_zero 2 h0
  refine ((h.sq_deriv ht).sqrt hne).congr_deriv ?_
  rw [mul_div_mul_left _ _ two_ne_zero]; rfl

theorem Moves.norm_cont {p v : ℝ → List ℝ} (h : Moves p v) : ContinuousOn (fun t => norm2 (p t)) (Ici 0) :=
  h.sq_cont.sqrt

theorem Moves.dot_deriv {p v a : ℝ → List ℝ} (h : Moves p v) (k : Moves v a) {t : ℝ} (ht : 0 ≤ t) :
    HasDerivWithinAt (fun s => dot (p s) (v s)) (sqNorm (v t) + dot (p t) (a t)) (Ici t) t := by
  have := (((h.deriv 0 (by omega) t ht).mul (k.deriv 0 (by omega) t ht)).add
    ((h.deriv 1 (by omega) t ht).mul (k.deriv 1 (by omega) t ht))).add
    ((h.deriv 2 (by omega) t ht).mul (k.deriv 2 (by omega) t ht))
  refine (this.congr_deriv ?_).congr (fun s hs => dot3 (h.lenP s (ht.trans hs)) (h.lenV s (ht.trans hs)))
    (dot3 (h.lenP t ht) (h.lenV t ht))
  rw [dot3 (h.lenP t ht) (k.lenV t ht), sqNorm3 (h.lenV t ht)]
  ring

theorem Moves.dot_cont {p v a : ℝ → List ℝ} (h : Moves p v) (k : Moves v a) :
    ContinuousOn (fun t => dot (p t) (v t)) (Ici 0) := by
  have := (((h.cont 0 (by omega)).mul (k.cont 0 (by omega))).add ((h.cont 1 (by omega)).mul (k.cont 1 (by omega)))).add
    ((h.cont 2 (by omega)).mul (k.cont 2 (by omega)))
  exact this.congr fun t ht => dot3 (h.lenP t ht) (h.lenV t ht)

/-- With an outward acceleration of at least `A` the distance grows at least like that of a uniformly accelerated point, as
long as the origin is not met. -/
theorem brake_bound {A T : ℝ} {p v a : ℝ → List ℝ} (h : Moves p v) (k : Moves v a)
    (ha : ∀ t, 0 ≤ t → A * norm2 (p t) ≤ dot (p t) (a t)) (h0 : ∀ t, 0 ≤ t → t ≤ T → norm2 (p t) ≠ 0) (hT : 0 ≤ T) :
    norm2 (p 0) + dot (p 0) (v 0) / norm2 (p 0) * T + A / 2 * T ^ 2 ≤ norm2 (p T) := by
  have hw : ∀ t, 0 ≤ t → t ≤ T → dot (p 0) (v 0) / norm2 (p 0) + A * t ≤ dot (p t) (v t) / norm2 (p t) := by
    intro t ht htT
    have hlin : ∀ s, HasDerivAt (fun s : ℝ => -(dot (p 0) (v 0) / norm2 (p 0)) - A * s) (-A) s := fun s => by
      simpa using ((hasDerivAt_id s).const_mul A).const_sub (-(dot (p 0) (v 0) / norm2 (p 0)))
    have key := image_le_of_deriv_right_le_deriv_boundary (f := fun s => -(dot (p s) (v s) / norm2 (p s)))
      (f' := fun s => -(((sqNorm (v s) + dot (p s) (a s)) * norm2 (p s) - dot (p s) (v s) * (dot (p s) (v s) / norm2 (p s))) /
        norm2 (p s) ^ 2))
      (a := 0) (b := t) (B := fun s => -(dot (p 0) (v 0) / norm2 (p 0)) - A * s) (B' := fun _ => -A)
      ((((h.dot_cont k).mono Icc_subset_Ici_self).div (h.norm_cont.mono Icc_subset_Ici_self)
        (fun s hs => h0 s hs.1 (hs.2.trans htT))).neg)
      (fun s hs => ((h.dot_deriv k hs.1).div (h.norm_deriv hs.1 (h0 s hs.1 (hs.2.le.trans htT)))
        (h0 s hs.1 (hs.2.le.trans htT))).neg)
      (by simp) (fun s _ => (hlin s).continuousAt.continuousWithinAt) (fun s _ => (hlin s).hasDerivWithinAt)
      (fun s hs => by
        have hne := h0 s hs.1 (hs.2.le.trans htT)
        have hpos : 0 < norm2 (p s) := lt_of_le_of_ne (norm2_nonneg _) (Ne.symm hne)
        rw [neg_le_neg_iff, le_div_iff₀ (by positivity)]
        have hC := cauchy3 (h.lenP s hs.1) (h.lenV s hs.1)
        rw [← norm2_sq (h.lenP s hs.1)] at hC
        have e : dot (p s) (v s) * (dot (p s) (v s) / norm2 (p s)) = dot (p s) (v s) ^ 2 / norm2 (p s) := by ring
        rw [e]
        have h1 : dot (p s) (v s) ^ 2 / norm2 (p s) ≤ norm2 (p s) * sqNorm (v s) := by
          rw [div_le_iff₀ hpos]; linarith
        have h2 := mul_le_mul_of_nonneg_right (ha s hs.1) hpos.le
        nlinarith)
    have := key (right_mem_Icc.2 ht)
    linarith
  have hq : ∀ s, HasDerivAt (fun s : ℝ => -norm2 (p 0) - dot (p 0) (v 0) / norm2 (p 0) * s - A / 2 * s ^ 2)
      (-(dot (p 0) (v 0) / norm2 (p 0) + A * s)) s := fun s => by
    have := (((hasDerivAt_id s).const_mul (dot (p 0) (v 0) / norm2 (p 0))).const_sub (-norm2 (p 0))).sub
      (((hasDerivAt_id s).pow 2).const_mul (A / 2))
    refine this.congr_deriv ?_
    simp only [id]
    push_cast
    ring
  have key := image_le_of_deriv_right_le_deriv_boundary (f := fun s => -norm2 (p s))
    (f' := fun s => -(dot (p s) (v s) / norm2 (p s))) (a := 0) (b := T)
    (B := fun s : ℝ => -norm2 (p 0) - dot (p 0) (v 0) / norm2 (p 0) * s - A / 2 * s ^ 2)
    (B' := fun s => -(dot (p 0) (v 0) / norm2 (p 0) + A * s))
    (h.norm_cont.mono Icc_subset_Ici_self).neg
    (fun s hs => (h.norm_deriv hs.1 (h0 s hs.1 hs.2.le)).neg)
    (by simp) (fun s _ => (hq s).continuousAt.continuousWithinAt) (fun s _ => (hq s).hasDerivWithinAt)
    (fun s hs => by have := hw s hs.1 hs.2.le; linarith)
  have := key (right_mem_Icc.2 hT)
  linarith

/-- The stopping parabola does not dip below the sphere. -/
theorem parabola {A r R w T : ℝ} (hA : 0 ≤ A) (hr : R ≤ r) (hw : -√(2 * A * (r - R)) ≤ w) (hT : 0 ≤ T) :
    R ≤ r + w * T + A / 2 * T ^ 2 := by
  have h1 : √(2 * A * (r - R)) ^ 2 = 2 * A * (r - R) := sq_sqrt (mul_nonneg (by linarith) (by linarith))
  have h2 : -√(2 * A * (r - R)) * T ≤ w * T := mul_le_mul_of_nonneg_right hw hT
  rcases hA.eq_or_lt with h | h
  · subst h
    have : √(2 * 0 * (r - R)) = 0 := by simp
    rw [this] at h2
    linarith
  · have h3 : 0 ≤ (√(2 * A * (r - R)) - A * T) ^ 2 := sq_nonneg _
    have h4 : 0 ≤ A * (r - √(2 * A * (r - R)) * T + A / 2 * T ^ 2 - R) := by nlinarith
    have := nonneg_of_mul_nonneg_right h4 h
    linarith

/-- Braking from a state satisfying the braking-distance constraint keeps the distance. -/
theorem brake_keepOut {A R x : ℝ} (hA : 0 ≤ A) (hR : 0 < R) {p v a : ℝ → List ℝ} (h : Moves p v) (k : Moves v a)
    (h0 : R ≤ norm2 (p 0)) (hx : keepOut (2 * A) R (p 0) (v 0) = some x) (hx0 : 0 ≤ x)
    (ha : ∀ t, 0 ≤ t → A * norm2 (p t) ≤ dot (p t) (a t)) : ∀ t, 0 ≤ t → R ≤ norm2 (p t) := by
  have hne : norm2 (p 0) ≠ 0 := by intro h; linarith
  have hs : ¬ 2 * A * (norm2 (p 0) - R) < 0 := not_lt.2 (mul_nonneg (by linarith) (by linarith))
  have hw : -√(2 * A * (norm2 (p 0) - R)) ≤ dot (p 0) (v 0) / norm2 (p 0) := by
    simp only [keepOut, if_pos h0, sqrtF, if_neg hs, divF, if_neg hne] at hx
    have : √(2 * A * (norm2 (p 0) - R)) + dot (p 0) (v 0) / norm2 (p 0) = x := Option.some.inj hx
    linarith
  have hfree : ∀ T, 0 ≤ T → (∀ t, 0 ≤ t → t ≤ T → norm2 (p t) ≠ 0) → R ≤ norm2 (p T) := fun T hT hz =>
    (parabola hA h0 hw hT).trans (brake_bound h k ha hz hT)
  have hnz : ∀ t, 0 ≤ t → norm2 (p t) ≠ 0 := by
    by_contra hc
    push Not at hc
    obtain ⟨t1, ht1, hz1⟩ := hc
    -- the first time at the origin
    have hcl : IsCompact (Icc 0 t1 ∩ (fun t => norm2 (p t)) ⁻¹' {0}) :=
      isCompact_Icc.of_isClosed_subset
        ((h.norm_cont.mono Icc_subset_Ici_self).preimage_isClosed_of_isClosed isClosed_Icc isClosed_singleton)
        inter_subset_left
    obtain ⟨t0, ⟨⟨h00, h01⟩, hz0⟩, hmin⟩ := hcl.exists_isLeast ⟨t1, ⟨ht1, le_rfl⟩, hz1⟩
    have hz0' : norm2 (p t0) = 0 := hz0
    have hpos : 0 < t0 := lt_of_le_of_ne h00 (fun e => hne (e ▸ hz0'))
    have hbefore : ∀ t, 0 ≤ t → t < t0 → R ≤ norm2 (p t) := fun t ht htt => hfree t ht fun s hs hst hz =>
      absurd (hmin ⟨⟨hs, (hst.trans htt.le).trans h01⟩, hz⟩) (not_le.2 (lt_of_le_of_lt hst htt))
    have hcont : ContinuousWithinAt (fun t => norm2 (p t)) (Icc 0 t0) t0 := (h.norm_cont t0 h00).mono Icc_subset_Ici_self
    have : R ≤ norm2 (p t0) := by
      have hc2 : ContinuousWithinAt (fun t => norm2 (p t)) (Ico 0 t0) t0 := hcont.mono Ico_subset_Icc_self
      refine ContinuousWithinAt.closure_le (s := Ico 0 t0) (x := t0) (f := fun _ => R) (g := fun t => norm2 (p t)) ?_ continuousWithinAt_const hc2
        (fun t ht => hbefore t ht.1 ht.2)
      rw [closure_Ico hpos.ne]
      exact ⟨h00, le_rfl⟩
    linarith
  exact fun t ht => hfree t ht fun s hs _ => hnz s hs

/-- With the distance accelerated inward by at least `A` it stays below that of a uniformly accelerated point, until a time `T` up to which the
origin is not met. -/
theorem brake_bound_in {A T : ℝ} {p v a : ℝ → List ℝ} (h : Moves p v) (k : Moves v a) (h0 : ∀ t, 0 ≤ t → t ≤ T → norm2 (p t) ≠ 0)
    (ha : ∀ t, 0 ≤ t → t ≤ T → dot (p t) (a t) + (sqNorm (v t) - dot (p t) (v t) ^ 2 / sqNorm (p t)) ≤ -(A * norm2 (p t))) (hT : 0 ≤ T) :
    norm2 (p T) ≤ norm2 (p 0) + dot (p 0) (v 0) / norm2 (p 0) * T - A / 2 * T ^ 2 := by
  have hw : ∀ t, 0 ≤ t → t ≤ T → dot (p t) (v t) / norm2 (p t) ≤ dot (p 0) (v 0) / norm2 (p 0) - A * t := by
    intro t ht htT
    have hlin : ∀ s, HasDerivAt (fun s : ℝ => dot (p 0) (v 0) / norm2 (p 0) - A * s) (-A) s := fun s => by
      simpa using ((hasDerivAt_id s).const_mul A).const_sub (dot (p 0) (v 0) / norm2 (p 0))
    have key := image_le_of_deriv_right_le_deriv_boundary (f := fun s => dot (p s) (v s) / norm2 (p s))
      (f' := fun s => ((sqNorm (v s) + dot (p s) (a s)) * norm2 (p s) - dot (p s) (v s) * (dot (p s) (v s) / norm2 (p s))) /
        norm2 (p s) ^ 2)
      (a := 0) (b := t) (B := fun s => dot (p 0) (v 0) / norm2 (p 0) - A * s) (B' := fun _ => -A)
      (((h.dot_cont k).mono Icc_subset_Ici_self).div (h.norm_cont.mono Icc_subset_Ici_self) (fun s hs => h0 s hs.1 (hs.2.trans htT)))
      (fun s hs => (h.dot_deriv k hs.1).div (h.norm_deriv hs.1 (h0 s hs.1 (hs.2.le.trans htT))) (h0 s hs.1 (hs.2.le.trans htT)))
      (by simp) (fun s _ => (hlin s).continuousAt.continuousWithinAt) (fun s _ => (hlin s).hasDerivWithinAt)
      (fun s hs => by
        have hne := h0 s hs.1 (hs.2.le.trans htT)
        have hpos : 0 < norm2 (p s) := lt_of_le_of_ne (norm2_nonneg _) (Ne.symm hne)
        rw [div_le_iff₀ (by positivity)]
        have h1 := ha s hs.1 (hs.2.le.trans htT)
        rw [← norm2_sq (h.lenP s hs.1)] at h1
        have h2 := mul_le_mul_of_nonneg_right h1 hpos.le
        have e : (dot (p s) (a s) + (sqNorm (v s) - dot (p s) (v s) ^ 2 / norm2 (p s) ^ 2)) * norm2 (p s) =
            (sqNorm (v s) + dot (p s) (a s)) * norm2 (p s) - dot (p s) (v s) * (dot (p s) (v s) / norm2 (p s)) := by
          field_simp
          ring
        rw [e] at h2
        linarith)
    exact key (right_mem_Icc.2 ht)
  have hq : ∀ s, HasDerivAt (fun s : ℝ => norm2 (p 0) + dot (p 0) (v 0) / norm2 (p 0) * s - A / 2 * s ^ 2)
      (dot (p 0) (v 0) / norm2 (p 0) - A * s) s := fun s => by
    have := (((hasDerivAt_id s).const_mul (dot (p 0) (v 0) / norm2 (p 0))).const_add (norm2 (p 0))).sub
      (((hasDerivAt_id s).pow 2).const_mul (A / 2))
    refine this.congr_deriv ?_
    simp only [id]
    push_cast
    ring
  have key := image_le_of_deriv_right_le_deriv_boundary (f := fun s => norm2 (p s))
    (f' := fun s => dot (p s) (v s) / norm2 (p s)) (a := 0) (b := T)
    (B := fun s : ℝ => norm2 (p 0) + dot (p 0) (v 0) / norm2 (p 0) * s - A / 2 * s ^ 2)
    (B' := fun s => dot (p 0) (v 0) / norm2 (p 0) - A * s)
    (h.norm_cont.mono Icc_subset_Ici_self)
    (fun s hs => h.norm_deriv hs.1 (h0 s hs.1 hs.2.le))
    (by simp) (fun s _ => (hq s).continuousAt.continuousWithinAt) (fun s _ => (hq s).hasDerivWithinAt)
    (fun s hs => hw s hs.1 hs.2.le)
  exact key (right_mem_Icc.2 hT)

end RTA
