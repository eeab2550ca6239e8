import Verif.Lemmas.Zoo.KeepOut

/-!
Geometry of the conic keep-out constraint.
-/
namespace RTA
open Set Real

/-- As `stays_nonneg`, on a bounded interval. -/
theorem stays_nonneg_Icc {h h' : ℝ → ℝ} {a t : ℝ} (ht : a ≤ t) (hc : ContinuousOn h (Icc a t))
    (hd : ∀ s, a ≤ s → s < t → HasDerivWithinAt h (h' s) (Ici s) s) (hn : ∀ s, a ≤ s → s < t → h s < 0 → 0 ≤ h' s)
    (h0 : 0 ≤ h a) : 0 ≤ h t := by
  by_contra hneg
  rw [not_le] at hneg
  obtain ⟨e, he, hlt⟩ : ∃ e : ℝ, 0 < e ∧ e * (1 + (t - a)) < -h t := by
    refine ⟨-h t / (2 * (1 + (t - a))), by apply div_pos <;> linarith, ?_⟩
    have : 0 < 1 + (t - a) := by linarith
    field_simp
    linarith
  have key := image_le_of_deriv_right_lt_deriv_boundary (f := fun s => -h s) (f' := fun s => -h' s) (a := a) (b := t)
    (B := fun s => e * (1 + (s - a))) (B' := fun _ => e)
    hc.neg (fun s hs => (hd s hs.1 hs.2).neg) (by simp only [sub_self, add_zero, mul_one]; linarith)
    (fun s => by
      have : HasDerivAt (fun s : ℝ => e * (1 + (s - a))) (e * 1) s :=
        (((hasDerivAt_id s).sub_const a).const_add 1).const_mul e
      simpa using this)
    (fun s hs heq => by
      have hpos : 0 < e * (1 + (s - a)) := by
        have := hs.1
        apply mul_pos he; linarith
      have := hn s hs.1 hs.2 (by linarith)
      linarith)
  have := key (right_mem_Icc.2 ht)
  linarith

/-- A continuous function that, for a while after each zero, does not decrease while negative, stays non-negative. -/
theorem stays_nonneg_local {h h' : ℝ → ℝ} {a : ℝ} (hc : ContinuousOn h (Ici a))
    (hl : ∀ t, a ≤ t → h t = 0 → ∃ ε > 0, ∀ s, t ≤ s → s < t + ε →
      HasDerivWithinAt h (h' s) (Ici s) s ∧ (h s < 0 → 0 ≤ h' s)) (h0 : 0 ≤ h a) : ∀ t, a ≤ t → 0 ≤ h t := by
  intro t1 ht1
  by_contra hneg
  rw [not_le] at hneg
  have hcI : ContinuousOn h (Icc a t1) := hc.mono Icc_subset_Ici_self
  have hcomp : IsCompact (Icc a t1 ∩ h ⁻¹' Ici 0) :=
    isCompact_Icc.of_isClosed_subset (hcI.preimage_isClosed_of_isClosed isClosed_Icc isClosed_Ici) inter_subset_left
  obtain ⟨t0, ⟨⟨ha0, h01⟩, hz0⟩, hmax⟩ := hcomp.exists_isGreatest ⟨a, ⟨le_rfl, ht1⟩, h0⟩
  have hz0' : 0 ≤ h t0 := hz0
  have hzero : h t0 = 0 := by
    obtain ⟨s, hs, hs0⟩ := intermediate_value_Icc' h01 (hcI.mono (Icc_subset_Icc_left ha0)) ⟨hneg.le, hz0'⟩
    have : s ≤ t0 := hmax ⟨⟨ha0.trans hs.1, hs.2⟩, (mem_preimage.2 (by rw [hs0]; exact self_mem_Ici))⟩
    rw [← le_antisymm this hs.1]; exact hs0
  have hlt : t0 < t1 := lt_of_le_of_ne h01 (fun e => by rw [e] at hzero; linarith)
  obtain ⟨ε, hε, hloc⟩ := hl t0 ha0 hzero
  have ht2 : t0 < min t1 (t0 + ε) := lt_min hlt (by linarith)
  have h2 : h (min t1 (t0 + ε)) < 0 := by
    by_contra hcon
    have : min t1 (t0 + ε) ≤ t0 := hmax ⟨⟨ha0.trans ht2.le, min_le_left _ _⟩, not_lt.1 hcon⟩
    linarith
  have := stays_nonneg_Icc (h' := h') ht2.le (hc.mono fun s hs => ha0.trans hs.1)
    (fun s hs hs2 => (hloc s hs (lt_of_lt_of_le hs2 (min_le_right _ _))).1)
    (fun s hs hs2 => (hloc s hs (lt_of_lt_of_le hs2 (min_le_right _ _))).2) hz0'
  linarith

/-! ### The cone -/

/-- Distance from the cone axis. -/
noncomputable def axisDist (p c : List ℝ) : ℝ := √(sqNorm p - dot p c ^ 2)

/-- The signed distance from the cone in closed form. -/
noncomputable def coneM (θ : ℝ) (p c : List ℝ) : ℝ := cos θ * axisDist p c - sin θ * dot p c

/-- The unit normal of the cone at the nearest point. -/
noncomputable def coneN (θ : ℝ) (p c : List ℝ) : List ℝ :=
  vsub (vscale (cos θ / axisDist p c) (vsub p (vscale (dot p c) c))) (vscale (sin θ) c)

section
variable {p c : List ℝ} (hp : p.length = 3) (hcl : c.length = 3) (hc : sqNorm c = 1)
include hp hcl hc

theorem axis_nonneg : 0 ≤ sqNorm p - dot p c ^ 2 := by
  have := cauchy3 hp hcl
  rw [hc, mul_one] at this
  linarith

theorem axis_sq : axisDist p c ^ 2 = sqNorm p - dot p c ^ 2 := sq_sqrt (axis_nonneg hp hcl hc)

/-- `pos_cone`'s norm is the distance from the axis. -/
theorem posCone_norm : norm2 (vsub p (vscale (dot p c) c)) = axisDist p c := by
  unfold norm2 axisDist
  congr 1
  match p, hp, c, hcl with
  | [p1, p2, p3], _, [c1, c2, c3], _ =>
    have h1 := sqNorm3 (p := [c1, c2, c3]) rfl
    rw [hc] at h1
    simp only [comp, List.getD_cons_zero, List.getD_cons_succ] at h1
    rw [sqNorm3 (by rfl), sqNorm3 (by rfl)]
    have hd := dot3 (p := [p1, p2, p3]) (v := [c1, c2, c3]) rfl rfl
    generalize dot [p1, p2, p3] [c1, c2, c3] = s at hd
    simp only [vsub, vscale, List.map_cons, List.map_nil, List.zipWith_cons_cons, List.zipWith_nil_right, comp,
      List.getD_cons_zero, List.getD_cons_succ] at hd ⊢
    subst hd
    linear_combination (-(p1 * c1 + p2 * c2 + p3 * c3) ^ 2) * h1

theorem cos_angle_mem (hp0 : norm2 p ≠ 0) : -1 ≤ dot p c / norm2 p ∧ dot p c / norm2 p ≤ 1 := by
  have hpos : 0 < norm2 p := lt_of_le_of_ne (norm2_nonneg _) (Ne.symm hp0)
  have h := cauchy3 hp hcl
  rw [hc, mul_one, ← norm2_sq hp] at h
  have := abs_le_of_sq_le_sq' h hpos.le
  rw [div_le_one hpos, le_div_iff₀ hpos]
  constructor <;> linarith

theorem dot_unit (hp0 : norm2 p ≠ 0) : dot c (p.map (· / norm2 p)) = dot p c / norm2 p := by
  generalize norm2 p = r at hp0
  match p, hp, c, hcl with
  | [p1, p2, p3], _, [c1, c2, c3], _ =>
    rw [dot3 rfl rfl, dot3 rfl rfl]
    simp only [comp, List.map_cons, List.map_nil, List.getD_cons_zero, List.getD_cons_succ]
    field_simp

theorem conicMag_eq (fov : ℝ) (hp0 : norm2 p ≠ 0) : conicMag fov p c = some (coneM (fov / 2) p c) := by
  have hpos : 0 < norm2 p := lt_of_le_of_ne (norm2_nonneg _) (Ne.symm hp0)
  obtain ⟨hl, hu⟩ := cos_angle_mem hp hcl hc hp0
  simp only [conicMag, vdivF, if_neg hp0]
  change (arccosF (dot c (p.map (· / norm2 p)))).bind _ = _
  rw [dot_unit hp hcl hc hp0]
  rw [arccosF, if_neg (by push Not; exact ⟨hl, hu⟩)]
  change some (norm2 p * sin (arccos (dot p c / norm2 p) - fov / 2)) = _
  rw [sin_sub, cos_arccos hl hu, sin_arccos]
  have e : √(1 - (dot p c / norm2 p) ^ 2) = axisDist p c / norm2 p := by
    have e1 : 1 - (dot p c / norm2 p) ^ 2 = (sqNorm p - dot p c ^ 2) / norm2 p ^ 2 := by
      rw [← norm2_sq hp]; field_simp
    rw [e1, sqrt_div (axis_nonneg hp hcl hc), sqrt_sq hpos.le]; rfl
  rw [e]
  congr 1
  unfold coneM
  field_simp

omit hcl hc in
/-- The sign of the signed distance is the sign of the angular margin. -/
theorem coneM_sign {θ φ : ℝ} (hp0 : norm2 p ≠ 0) (hθ0 : 0 ≤ θ) (hθ : θ < π) (hφ0 : 0 ≤ φ) (hφ : φ ≤ π)
    (hang : dot p c = norm2 p * cos φ) : 0 ≤ coneM θ p c ↔ θ ≤ φ := by
  have hpos : 0 < norm2 p := lt_of_le_of_ne (norm2_nonneg _) (Ne.symm hp0)
  have hs : axisDist p c = norm2 p * sin φ := by
    unfold axisDist
    rw [hang, ← norm2_sq hp]
    have e : norm2 p ^ 2 - (norm2 p * cos φ) ^ 2 = (norm2 p * sin φ) ^ 2 := by
      have := sin_sq_add_cos_sq φ
      linear_combination (-(norm2 p) ^ 2) * this
    rw [e, sqrt_sq (mul_nonneg hpos.le (sin_nonneg_of_nonneg_of_le_pi hφ0 hφ))]
  have e : coneM θ p c = norm2 p * sin (φ - θ) := by
    unfold coneM
    rw [hs, hang, sin_sub]; ring
  rw [e]
  constructor
  · intro h
    by_contra hlt
    rw [not_le] at hlt
    have : sin (φ - θ) < 0 := sin_neg_of_neg_of_neg_pi_lt (by linarith) (by linarith)
    nlinarith
  · intro h
    exact mul_nonneg hpos.le (sin_nonneg_of_nonneg_of_le_pi (by linarith) (by linarith))

theorem conicProj_eq (fov : ℝ) (hcos : cos (fov / 2) ≠ 0) (hρ : axisDist p c ≠ 0) :
    conicProj fov p c = some (vsub p (vscale (coneM (fov / 2) p c) (coneN (fov / 2) p c))) := by
  unfold conicProj
  simp only [posCone_norm hp hcl hc]
  have hmult : cos (fov / 2) * (axisDist p c - tan (fov / 2) * dot p c) = coneM (fov / 2) p c := by
    unfold coneM
    rw [tan_eq_sin_div_cos]
    field_simp
  rw [hmult]
  unfold coneN
  generalize coneM (fov / 2) p c = M
  generalize dot p c = s
  generalize axisDist p c = ρ at hρ
  simp only [vdivF, if_neg hρ, Option.map_some]
  congr 1
  match p, hp, c, hcl with
  | [p1, p2, p3], _, [c1, c2, c3], _ =>
    simp only [vadd, vsub, vscale, List.map_cons, List.map_nil, List.zipWith_cons_cons, List.zipWith_nil_right,
      List.cons.injEq, and_true]
    refine ⟨?_, ?_, ?_⟩ <;> (field_simp; ring)

end

/-- A nonnegative (or undefined) constraint inside the cone, off its axis, means not going deeper. -/
theorem conic_inside {fov aMax : ℝ} (ha : 0 ≤ aMax) (hcos : cos (fov / 2) ≠ 0) {angVel p v c : List ℝ} (hp : p.length = 3)
    (hcl : c.length = 3) (hc : sqNorm c = 1) (hp0 : norm2 p ≠ 0) (hρ : axisDist p c ≠ 0)
    (hM : coneM (fov / 2) p c < 0) (h : ∀ x, conicKeepOut fov aMax angVel p v c = some x → 0 ≤ x) :
    0 ≤ dot (coneN (fov / 2) p c)
      (vsub v (cross angVel (vsub p (vscale (coneM (fov / 2) p c) (coneN (fov / 2) p c))))) := by
  have hunit : vdivF c (norm2 c) = some c := by
    have : norm2 c = 1 := by unfold norm2; rw [hc, sqrt_one]
    simp [vdivF, this]
  have hs : ¬ -2 * aMax * coneM (fov / 2) p c < 0 := not_lt.2 (by nlinarith)
  set M := coneM (fov / 2) p c with hMdef
  set N := coneN (fov / 2) p c with hNdef
  have hN3 : N.length = 3 := by
    rw [hNdef]
    simp [coneN, vsub, hp, hcl]
  have hdp : vsub p (vsub p (vscale M N)) = vscale M N := by
    rw [list3 hp, list3 hN3]
    simp [vsub, vscale]
  set dv := vsub v (cross angVel (vsub p (vscale M N))) with hdv
  have hval := h (-√(-2 * aMax * M) + dot (vscale M N) dv / M) (by
    simp only [conicKeepOut, hunit, Option.bind_eq_bind, Option.bind_some, conicProj_eq hp hcl hc fov hcos hρ,
      conicMag_eq hp hcl hc fov hp0]
    rw [← hMdef, ← hNdef, if_neg (not_le.2 hM), hdp, ← hdv]
    simp only [sqrtF, if_neg hs, divF, if_neg hM.ne, Option.bind_some]
    rfl)
  have hN : dot (vscale M N) dv / M = dot N dv := by
    rw [dot_vscale_left, mul_div_cancel_left₀ _ hM.ne]
  rw [hN] at hval
  linarith [sqrt_nonneg (-2 * aMax * M)]

/-- The rate of change of the signed distance, with the axis turning with angular velocity `ω`. -/
theorem coneM_rate (θ k M : ℝ) {w p v c : List ℝ} (hw : w.length = 3) (hp : p.length = 3) (hv : v.length = 3) (hcl : c.length = 3) :
    dot (vsub (vscale k (vsub p (vscale (dot p c) c))) (vscale (sin θ) c))
      (vsub v (cross w (vsub p (vscale M (vsub (vscale k (vsub p (vscale (dot p c) c))) (vscale (sin θ) c)))))) =
    k * (dot p v - dot p c * (dot v c + dot p (cross w c))) - sin θ * (dot v c + dot p (cross w c)) := by
  generalize dot p c = s
  generalize sin θ = σ
  match p, hp, c, hcl, v, hv, w, hw with
  | [p1, p2, p3], _, [c1, c2, c3], _, [v1, v2, v3], _, [w1, w2, w3], _ =>
    simp only [vsub, vscale, cross, comp, List.map_cons, List.map_nil, List.zipWith_cons_cons, List.zipWith_nil_right,
      List.getD_cons_zero, List.getD_cons_succ, dot_cons, dot_nil_left]
    ring

theorem dot_along {p v c c' : ℝ → List ℝ} (h : Moves p v) (k : Moves c c') {t : ℝ} (ht : 0 ≤ t) :
    HasDerivWithinAt (fun s => dot (p s) (c s)) (dot (v t) (c t) + dot (p t) (c' t)) (Ici t) t := by
  have := (((h.deriv 0 (by omega) t ht).mul (k.deriv 0 (by omega) t ht)).add
    ((h.deriv 1 (by omega) t ht).mul (k.deriv 1 (by omega) t ht))).add
    ((h.deriv 2 (by omega) t ht).mul (k.deriv 2 (by omega) t ht))
  refine (this.congr_deriv ?_).congr (fun s hs => dot3 (h.lenP s (ht.trans hs)) (k.lenP s (ht.trans hs)))
    (dot3 (h.lenP t ht) (k.lenP t ht))
  rw [dot3 (h.lenP t ht) (k.lenV t ht), dot3 (h.lenV t ht) (k.lenP t ht)]
  ring

theorem dot_along_cont {p v c c' : ℝ → List ℝ} (h : Moves p v) (k : Moves c c') :
    ContinuousOn (fun t => dot (p t) (c t)) (Ici 0) := by
  have := (((h.cont 0 (by omega)).mul (k.cont 0 (by omega))).add ((h.cont 1 (by omega)).mul (k.cont 1 (by omega)))).add
    ((h.cont 2 (by omega)).mul (k.cont 2 (by omega)))
  exact this.congr fun t ht => dot3 (h.lenP t ht) (k.lenP t ht)

theorem axisDist_cont {p v c c' : ℝ → List ℝ} (h : Moves p v) (k : Moves c c') :
    ContinuousOn (fun t => axisDist (p t) (c t)) (Ici 0) := (h.sq_cont.sub ((dot_along_cont h k).pow 2)).sqrt

theorem coneM_cont {p v c c' : ℝ → List ℝ} (h : Moves p v) (k : Moves c c') (θ : ℝ) :
    ContinuousOn (fun t => coneM θ (p t) (c t)) (Ici 0) :=
  (continuousOn_const.mul (axisDist_cont h k)).sub (continuousOn_const.mul (dot_along_cont h k))

theorem coneM_deriv {p v c c' : ℝ → List ℝ} (h : Moves p v) (k : Moves c c') (θ : ℝ) {t : ℝ} (ht : 0 ≤ t)
    (hρ : axisDist (p t) (c t) ≠ 0) :
    HasDerivWithinAt (fun s => coneM θ (p s) (c s))
      (cos θ / axisDist (p t) (c t) *
        (dot (p t) (v t) - dot (p t) (c t) * (dot (v t) (c t) + dot (p t) (c' t))) -
        sin θ * (dot (v t) (c t) + dot (p t) (c' t))) (Ici t) t := by
  have hne : sqNorm (p t) - dot (p t) (c t) ^ 2 ≠ 0 := fun e => hρ (by unfold axisDist; rw [e, sqrt_zero])
  have hd := dot_along h k ht
  have hax := ((h.sq_deriv ht).sub (hd.pow 2)).sqrt hne
  refine ((hax.const_mul (cos θ)).sub (hd.const_mul (sin θ))).congr_deriv ?_
  have e : √((fun s => sqNorm (p s)) t - ((fun s => dot (p s) (c s)) ^ 2) t) = axisDist (p t) (c t) := rfl
  have e2 : √(((fun s => sqNorm (p s)) - (fun s => dot (p s) (c s)) ^ 2) t) = axisDist (p t) (c t) := rfl
  rw [e2]
  push_cast
  field_simp

/-- Off the origin, on the cone's surface, the axis is not met. -/
theorem axis_ne_of_on_cone {θ : ℝ} (hθ : sin θ ≠ 0) {p c : List ℝ} (hp0 : norm2 p ≠ 0)
    (hM : coneM θ p c = 0) (hnn : 0 ≤ sqNorm p - dot p c ^ 2) : axisDist p c ≠ 0 := by
  intro e
  unfold coneM at hM
  rw [e] at hM
  have hs : dot p c = 0 := by
    have : sin θ * dot p c = 0 := by linarith
    exact (mul_eq_zero.1 this).resolve_left hθ
  unfold axisDist at e
  rw [hs] at e hnn
  rw [sqrt_eq_zero hnn] at e
  apply hp0
  unfold norm2
  have : sqNorm p = 0 := by linarith
  rw [this, sqrt_zero]

theorem conic_stays {fov aMax : ℝ} (ha : 0 ≤ aMax) (h0 : 0 < fov) (h1 : fov < π) {angVel : List ℝ} (hw : angVel.length = 3)
    {p v c : ℝ → List ℝ} (hm : Moves p v) (hcm : Moves c (fun t => cross angVel (c t))) (hunit : ∀ t, 0 ≤ t → sqNorm (c t) = 1)
    (hp0 : ∀ t, 0 ≤ t → norm2 (p t) ≠ 0)
    (hh : ∀ t, 0 ≤ t → ∀ x, conicKeepOut fov aMax angVel (p t) (v t) (c t) = some x → 0 ≤ x)
    (hstart : 0 ≤ coneM (fov / 2) (p 0) (c 0)) : ∀ t, 0 ≤ t → 0 ≤ coneM (fov / 2) (p t) (c t) := by
  have hsin : sin (fov / 2) ≠ 0 := (sin_pos_of_pos_of_lt_pi (by linarith) (by linarith [pi_pos])).ne'
  have hcos : cos (fov / 2) ≠ 0 := (cos_pos_of_mem_Ioo ⟨by linarith, by linarith⟩).ne'
  refine stays_nonneg_local (h' := fun s => cos (fov / 2) / axisDist (p s) (c s) *
        (dot (p s) (v s) - dot (p s) (c s) * (dot (v s) (c s) + dot (p s) (cross angVel (c s)))) -
        sin (fov / 2) * (dot (v s) (c s) + dot (p s) (cross angVel (c s)))) (coneM_cont hm hcm _) (fun t ht hz => ?_) hstart
  have hax := axis_ne_of_on_cone hsin (hp0 t ht) hz
    (axis_nonneg (hm.lenP t ht) (hcm.lenP t ht) (hunit t ht))
  -- off the axis for a while
  have hcw : ContinuousWithinAt (fun t => axisDist (p t) (c t)) (Ici t) t :=
    (axisDist_cont hm hcm t ht).mono (Ici_subset_Ici.2 ht)
  have hev := hcw.eventually_ne hax
  rw [eventually_nhdsWithin_iff, Metric.eventually_nhds_iff] at hev
  obtain ⟨ε, hε, hev⟩ := hev
  refine ⟨ε, hε, fun s hts hse => ?_⟩
  have hs0 : 0 ≤ s := ht.trans hts
  have hρ : axisDist (p s) (c s) ≠ 0 := hev (by rw [Real.dist_eq, abs_of_nonneg (by linarith)]; linarith) hts
  refine ⟨coneM_deriv hm hcm _ hs0 hρ, fun hneg => ?_⟩
  have := conic_inside ha hcos (hm.lenP s hs0) (hcm.lenP s hs0) (hunit s hs0) (hp0 s hs0) hρ hneg (hh s hs0)
  unfold coneN at this
  rw [coneM_rate _ _ _ hw (hm.lenP s hs0) (hm.lenV s hs0) (hcm.lenP s hs0)] at this
  exact this

end RTA
