import Verif.Props.Zoo.InspectionDiscrete
import Verif.Props.Zoo.InspectionModule
import Verif.Props.Zoo.InspectionDiscreteRefuted
import Mathlib.Analysis.SpecialFunctions.Trigonometric.Bounds

/-!
C79: all eight constraints of the discrete-time inspection module at the samples, for step sizes small enough for the largest value each of
them can have.
-/
namespace RTA
open Real

/-! ### How large the value of the sun constraint can be -/

/-- The normal of the cone is a unit vector and its product with the position is the signed distance. -/
theorem coneN_spec {θ : ℝ} {p c : List ℝ} (hp : p.length = 3) (hcl : c.length = 3) (hc : sqNorm c = 1) (hρ : axisDist p c ≠ 0) :
    (coneN θ p c).length = 3 ∧ sqNorm (coneN θ p c) = 1 ∧ dot p (coneN θ p c) = coneM θ p c := by
  have hl : (coneN θ p c).length = 3 := by simp [coneN, vsub, hp, hcl]
  have hax := axis_sq hp hcl hc
  have hd := dot3 hp hcl
  have ht := sin_sq_add_cos_sq θ
  refine ⟨hl, ?_, ?_⟩
  · rw [sqNorm3 hl]
    unfold coneN
    generalize dot p c = s at hd hax
    generalize axisDist p c = ρ at hρ hax
    generalize sin θ = σ at ht
    generalize cos θ = κ at ht
    rw [sqNorm3 hp] at hax
    rw [sqNorm3 hcl] at hc
    match p, hp, c, hcl with
    | [p1, p2, p3], _, [c1, c2, c3], _ =>
      simp only [vsub, vscale, comp, List.map_cons, List.map_nil, List.zipWith_cons_cons, List.zipWith_nil_right,
        List.getD_cons_zero, List.getD_cons_succ] at hax hc hd ⊢
      have e1 : (κ / ρ) ^ 2 * ρ ^ 2 = κ ^ 2 := by field_simp
      have e3 : (κ / ρ * (p1 - s * c1) - σ * c1) ^ 2 + (κ / ρ * (p2 - s * c2) - σ * c2) ^ 2 + (κ / ρ * (p3 - s * c3) - σ * c3) ^ 2 =
          (κ / ρ) ^ 2 * (p1 ^ 2 + p2 ^ 2 + p3 ^ 2 - 2 * s * (p1 * c1 + p2 * c2 + p3 * c3) + s ^ 2 * (c1 ^ 2 + c2 ^ 2 + c3 ^ 2)) -
            2 * (κ / ρ) * σ * ((p1 * c1 + p2 * c2 + p3 * c3) - s * (c1 ^ 2 + c2 ^ 2 + c3 ^ 2)) + σ ^ 2 * (c1 ^ 2 + c2 ^ 2 + c3 ^ 2) := by ring
      rw [e3, hc, ← hd]
      have e4 : p1 ^ 2 + p2 ^ 2 + p3 ^ 2 - 2 * s * s + s ^ 2 * 1 = ρ ^ 2 := by rw [hax]; ring
      rw [e4, e1]
      linear_combination ht
  · rw [dot3 hp hl]
    unfold coneN coneM
    generalize dot p c = s at hd hax
    generalize axisDist p c = ρ at hρ hax
    rw [sqNorm3 hp] at hax
    match p, hp, c, hcl with
    | [p1, p2, p3], _, [c1, c2, c3], _ =>
      simp only [vsub, vscale, comp, List.map_cons, List.map_nil, List.zipWith_cons_cons, List.zipWith_nil_right,
        List.getD_cons_zero, List.getD_cons_succ] at hax hd ⊢
      have e3 : p1 * (cos θ / ρ * (p1 - s * c1) - sin θ * c1) + p2 * (cos θ / ρ * (p2 - s * c2) - sin θ * c2) +
          p3 * (cos θ / ρ * (p3 - s * c3) - sin θ * c3) =
          cos θ / ρ * (p1 ^ 2 + p2 ^ 2 + p3 ^ 2 - s * (p1 * c1 + p2 * c2 + p3 * c3)) - sin θ * (p1 * c1 + p2 * c2 + p3 * c3) := by ring
      rw [e3, ← hd]
      have e4 : p1 ^ 2 + p2 ^ 2 + p3 ^ 2 - s * s = ρ ^ 2 := by rw [hax]; ring
      rw [e4]
      field_simp

/-- The value of the sun constraint is at most what the distance and the two velocities allow. -/
theorem conic_le {fov a ω h : ℝ} (ha : 0 ≤ a) (hcos : cos (fov / 2) ≠ 0) {p v c : List ℝ} (hp : p.length = 3) (hv : v.length = 3)
    (hcl : c.length = 3) (hc : sqNorm c = 1) (e : conicKeepOut fov a [0, 0, ω] p v c = some h) :
    h ≤ √(2 * a * norm2 p) + norm2 v + |ω| * norm2 p := by
  have hunit : vdivF c (norm2 c) = some c := by
    have : norm2 c = 1 := by unfold norm2; rw [hc, sqrt_one]
    simp [vdivF, this]
  have hp0 : norm2 p ≠ 0 := by
    intro h0
    have : conicMag fov p c = none := by simp [conicMag, vdivF, h0]
    rcases hpr : conicProj fov p c with _ | q <;>
    simp [conicKeepOut, hunit, hpr, this] at e
  have hρ : axisDist p c ≠ 0 := by
    intro h0
    have : conicProj fov p c = none := by simp [conicProj, posCone_norm hp hcl hc, vdivF, h0]
    simp [conicKeepOut, hunit, this] at e
  obtain ⟨hN3, hN1, hNp⟩ := coneN_spec (θ := fov / 2) hp hcl hc hρ
  simp only [conicKeepOut, hunit, Option.bind_eq_bind, Option.bind_some, conicProj_eq hp hcl hc fov hcos hρ,
    conicMag_eq hp hcl hc fov hp0] at e
  set M := coneM (fov / 2) p c with hMdef
  set N := coneN (fov / 2) p c with hNdef
  clear_value M N
  have hdp : vsub p (vsub p (vscale M N)) = vscale M N := by
    rw [list3 hp, list3 hN3]
    simp [vsub, vscale]
  rw [hdp] at e
  have hP := norm2_nonneg p
  have hM : M ≤ norm2 p := by
    have h1 := cauchy3 hp hN3
    rw [hN1, mul_one, hNp, ← norm2_sq hp] at h1
    exact (abs_le_of_sq_le_sq' h1 hP).2
  have hq3 : (vsub p (vscale M N)).length = 3 := by simp [vsub, hp, hN3]
  have hqsq : sqNorm (vsub p (vscale M N)) ≤ norm2 p ^ 2 := by
    rw [norm2_sq hp]
    have e1 : sqNorm (vsub p (vscale M N)) = sqNorm p - 2 * M * dot p N + M ^ 2 * sqNorm N := by
      rw [sqNorm3 hq3, sqNorm3 hp, sqNorm3 hN3, dot3 hp hN3]
      match p, hp, N, hN3 with
      | [p1, p2, p3], _, [c1, c2, c3], _ =>
        simp only [vsub, vscale, comp, List.map_cons, List.map_nil, List.zipWith_cons_cons, List.zipWith_nil_right,
          List.getD_cons_zero, List.getD_cons_succ]
        ring
    rw [e1, hN1, hNp]
    nlinarith [sq_nonneg M]
  set q := vsub p (vscale M N) with hq
  clear_value q
  have hcr3 : (cross [0, 0, ω] q).length = 3 := rfl
  have hcr : sqNorm (cross [0, 0, ω] q) ≤ (|ω| * norm2 p) ^ 2 := by
    rw [mul_pow, sq_abs]
    refine le_trans ?_ (mul_le_mul_of_nonneg_left hqsq (sq_nonneg ω))
    rw [sqNorm3 hcr3, sqNorm3 hq3]
    simp only [cross, comp, List.getD_cons_zero, List.getD_cons_succ]
    nlinarith [mul_nonneg (sq_nonneg ω) (sq_nonneg (q.getD 2 0))]
  have hd3 : (vsub v (cross [0, 0, ω] q)).length = 3 := by simp [vsub, hv, cross]
  have hdot : dot N (vsub v (cross [0, 0, ω] q)) ≤ norm2 v + |ω| * norm2 p := by
    have e1 : dot N (vsub v (cross [0, 0, ω] q)) = dot N v - dot N (cross [0, 0, ω] q) := by
      generalize cross [0, 0, ω] q = w at hcr3 hd3
      rw [dot3 hN3 hd3, dot3 hN3 hv, dot3 hN3 hcr3]
      match v, hv, w, hcr3 with
      | [p1, p2, p3], _, [c1, c2, c3], _ =>
        simp only [vsub, comp, List.zipWith_cons_cons, List.zipWith_nil_right, List.getD_cons_zero, List.getD_cons_succ]
        ring
    have h1 := cauchy3 hN3 hv
    rw [hN1, one_mul, ← norm2_sq hv] at h1
    have h2 := cauchy3 hN3 hcr3
    rw [hN1, one_mul] at h2
    have h3 := abs_le_of_sq_le_sq' h1 (norm2_nonneg v)
    have h4 := abs_le_of_sq_le_sq' (h2.trans hcr) (mul_nonneg (abs_nonneg ω) hP)
    rw [e1]
    linarith [h3.2, h4.1]
  by_cases h0 : 0 ≤ M
  · rw [if_pos h0] at e
    have hs : ¬ 2 * a * M < 0 := not_lt.2 (by positivity)
    by_cases hM0 : M = 0
    · simp [sqrtF, divF, hM0] at e
    simp only [sqrtF, if_neg hs, divF, if_neg hM0, Option.bind_some] at e
    rw [dot_vscale_left, mul_div_cancel_left₀ _ hM0] at e
    have e' := Option.some.inj e
    have := sqrt_le_sqrt (mul_le_mul_of_nonneg_left hM (show 0 ≤ 2 * a by linarith))
    linarith
  · rw [if_neg h0] at e
    rw [not_le] at h0
    have hs : ¬ -2 * a * M < 0 := not_lt.2 (by nlinarith)
    simp only [sqrtF, if_neg hs, divF, if_neg h0.ne, Option.bind_some] at e
    rw [dot_vscale_left, mul_div_cancel_left₀ _ h0.ne] at e
    have e' := Option.some.inj e
    have h5 := sqrt_nonneg (-2 * a * M)
    have h6 := sqrt_nonneg (2 * a * norm2 p)
    linarith

/-! ### How large the value of the passive safety constraint can be -/

theorem tri3 (a b c d e f : ℝ) : √((a + d) ^ 2 + (b + e) ^ 2 + (c + f) ^ 2) ≤ √(a ^ 2 + b ^ 2 + c ^ 2) + √(d ^ 2 + e ^ 2 + f ^ 2) := by
  have h1 := sqrt_nonneg (a ^ 2 + b ^ 2 + c ^ 2)
  have h2 := sqrt_nonneg (d ^ 2 + e ^ 2 + f ^ 2)
  have h3 := sq_sqrt (show 0 ≤ a ^ 2 + b ^ 2 + c ^ 2 by positivity)
  have h4 := sq_sqrt (show 0 ≤ d ^ 2 + e ^ 2 + f ^ 2 by positivity)
  generalize √(a ^ 2 + b ^ 2 + c ^ 2) = A at *
  generalize √(d ^ 2 + e ^ 2 + f ^ 2) = B at *
  have h5 : a * d + b * e + c * f ≤ A * B := by
    refine (abs_le_of_sq_le_sq' ?_ (mul_nonneg h1 h2)).2
    rw [mul_pow, h3, h4]
    nlinarith [sq_nonneg (a * e - b * d), sq_nonneg (a * f - c * d), sq_nonneg (b * f - c * e)]
  exact sqrt_le_iff.2 ⟨by positivity, by nlinarith⟩

theorem norm_le_abs (a b c : ℝ) : √(a ^ 2 + b ^ 2 + c ^ 2) ≤ |a| + |b| + |c| := by
  refine sqrt_le_iff.2 ⟨by positivity, ?_⟩
  rw [← sq_abs a, ← sq_abs b, ← sq_abs c]
  have := abs_nonneg a; have := abs_nonneg b; have := abs_nonneg c
  nlinarith [mul_nonneg (abs_nonneg a) (abs_nonneg b), mul_nonneg (abs_nonneg a) (abs_nonneg c), mul_nonneg (abs_nonneg b) (abs_nonneg c)]

theorem abs_le3 (a b c : ℝ) : |a| ≤ √(a ^ 2 + b ^ 2 + c ^ 2) ∧ |b| ≤ √(a ^ 2 + b ^ 2 + c ^ 2) ∧ |c| ≤ √(a ^ 2 + b ^ 2 + c ^ 2) := by
  have := sq_nonneg a; have := sq_nonneg b; have := sq_nonneg c
  exact ⟨abs_le_sqrt (by linarith), abs_le_sqrt (by linarith), abs_le_sqrt (by linarith)⟩

/-- After one second of coasting the deputy is about as far as its speed takes it. -/
theorem coast_le {n : ℝ} (hn0 : n ≠ 0) (hn : |n| ≤ 1) {x : List ℝ} (hx : x.length = 8) (R : ℝ) :
    psmFutureState n x 1 R ≤ (1 + 4 * |n|) * (norm2 (pySlice x 0 3) + norm2 (pySlice x 3 6)) - R := by
  have hcos : 0 ≤ 1 - cos n ∧ 1 - cos n ≤ n ^ 2 / 2 := ⟨by linarith [cos_le_one n], by linarith [one_sub_sq_div_two_le_cos (x := n)]⟩
  have hN := abs_nonneg n
  have hN2 : |n| ^ 2 = n ^ 2 := sq_abs n
  have hsin : |sin n - n| ≤ |n| ^ 3 / 4 := by
    have h1 := sin_bound hn
    have h2 : |sin n - n| ≤ |sin n - (n - n ^ 3 / 6)| + |n| ^ 3 / 6 := by
      have : sin n - n = (sin n - (n - n ^ 3 / 6)) + -(n ^ 3 / 6) := by ring
      rw [this]
      refine (abs_add_le _ _).trans ?_
      rw [abs_neg, abs_div, abs_pow, abs_of_pos (show (0 : ℝ) < 6 by norm_num)]
    have h3 : |n| ^ 5 ≤ |n| ^ 3 := pow_le_pow_of_le_one hN hn (by norm_num)
    have h4 := pow_nonneg hN 3
    linarith
  obtain ⟨q, hq, hqb⟩ : ∃ q, sin n = n + n * q ∧ |q| ≤ n ^ 2 / 4 := by
    refine ⟨(sin n - n) / n, by field_simp; ring, ?_⟩
    rw [abs_div, div_le_iff₀ (abs_pos.2 hn0), ← hN2]
    linarith
  obtain ⟨r, hr, hrb⟩ : ∃ r, 1 - cos n = n * r ∧ |r| ≤ |n| / 2 := by
    refine ⟨(1 - cos n) / n, by field_simp, ?_⟩
    rw [abs_div, div_le_iff₀ (abs_pos.2 hn0), abs_of_nonneg hcos.1]
    linarith
  match x, hx with
  | [p0, p1, p2, v0, v1, v2, s, d], _ =>
    have eP : norm2 (pySlice [p0, p1, p2, v0, v1, v2, s, d] 0 3) = √(p0 ^ 2 + p1 ^ 2 + p2 ^ 2) := by
      unfold norm2; rw [sqNorm3 rfl]; rfl
    have eV : norm2 (pySlice [p0, p1, p2, v0, v1, v2, s, d] 3 6) = √(v0 ^ 2 + v1 ^ 2 + v2 ^ 2) := by
      unfold norm2; rw [sqNorm3 rfl]; rfl
    have eF : psmFutureState n [p0, p1, p2, v0, v1, v2, s, d] 1 R =
        √((p0 + v0 + (3 * (1 - cos n) * p0 + q * v0 + 2 * r * v1)) ^ 2 +
          (p1 + v1 + (6 * (n * q) * p0 + -(2 * r * v0) + 4 * q * v1)) ^ 2 + (p2 + v2 + (-(1 - cos n) * p2 + q * v2)) ^ 2) - R := by
      unfold psmFutureState
      simp only [comp, List.getD_cons_zero, List.getD_cons_succ, mul_one]
      unfold norm2
      rw [sqNorm3 rfl]
      simp only [comp, List.getD_cons_zero, List.getD_cons_succ]
      congr 2
      have hc' : cos n = 1 - n * r := by linarith
      rw [hq, hc']
      field_simp
      ring
    rw [eP, eV, eF]
    obtain ⟨hp0, -, hp2⟩ := abs_le3 p0 p1 p2
    obtain ⟨hv0, hv1, hv2⟩ := abs_le3 v0 v1 v2
    have t1 := tri3 (p0 + v0) (p1 + v1) (p2 + v2) (3 * (1 - cos n) * p0 + q * v0 + 2 * r * v1)
      (6 * (n * q) * p0 + -(2 * r * v0) + 4 * q * v1) (-(1 - cos n) * p2 + q * v2)
    have t2 := tri3 p0 p1 p2 v0 v1 v2
    have t3 := norm_le_abs (3 * (1 - cos n) * p0 + q * v0 + 2 * r * v1) (6 * (n * q) * p0 + -(2 * r * v0) + 4 * q * v1)
      (-(1 - cos n) * p2 + q * v2)
    generalize √(p0 ^ 2 + p1 ^ 2 + p2 ^ 2) = P at *
    generalize √(v0 ^ 2 + v1 ^ 2 + v2 ^ 2) = V at *
    have hP : 0 ≤ P := (abs_nonneg _).trans hp0
    have hV : 0 ≤ V := (abs_nonneg _).trans hv0
    have hk : ∀ {k y Y b : ℝ}, |k| ≤ b → |y| ≤ Y → |k * y| ≤ b * Y := fun {k y Y b} h1 h2 => by
      rw [abs_mul]; exact mul_le_mul h1 h2 (abs_nonneg _) ((abs_nonneg _).trans h1)
    have hn2 : n ^ 2 ≤ |n| := by rw [← hN2]; nlinarith
    have hn2' : 0 ≤ n ^ 2 := sq_nonneg n
    have b3 : |3 * (1 - cos n)| ≤ 3 / 2 * |n| := by
      rw [abs_of_nonneg (by linarith [hcos.1])]; linarith [hcos.2]
    have b1 : |q| ≤ |n| / 4 := by linarith
    have b2 : |2 * r| ≤ |n| := by rw [abs_mul, abs_two]; linarith
    have b4 : |6 * (n * q)| ≤ 3 / 2 * |n| := by
      rw [abs_mul, abs_mul, abs_of_pos (show (0 : ℝ) < 6 by norm_num)]
      have := mul_le_mul hn b1 (abs_nonneg _) (zero_le_one)
      linarith
    have b5 : |4 * q| ≤ |n| := by
      rw [abs_mul, abs_of_pos (show (0 : ℝ) < 4 by norm_num)]; linarith
    have b6 : |-(1 - cos n)| ≤ |n| / 2 := by
      rw [abs_neg, abs_of_nonneg hcos.1]; linarith [hcos.2]
    have s1 : |3 * (1 - cos n) * p0 + q * v0 + 2 * r * v1| ≤ 3 / 2 * |n| * P + |n| / 4 * V + |n| * V :=
      (abs_add_three _ _ _).trans (add_le_add (add_le_add (hk b3 hp0) (hk b1 hv0)) (hk b2 hv1))
    have s2 : |6 * (n * q) * p0 + -(2 * r * v0) + 4 * q * v1| ≤ 3 / 2 * |n| * P + |n| * V + |n| * V :=
      (abs_add_three _ _ _).trans (add_le_add (add_le_add (hk b4 hp0) (by rw [abs_neg]; exact hk b2 hv0)) (hk b5 hv1))
    have s3 : |-(1 - cos n) * p2 + q * v2| ≤ |n| / 2 * P + |n| / 4 * V :=
      (abs_add_le _ _).trans (add_le_add (hk b6 hp2) (hk b1 hv2))
    have := mul_nonneg hN hP
    have := mul_nonneg hN hV
    linarith

/-! ### The loop -/

/-- A constraint whose value is bounded along the loop is kept at the samples by steps small enough for the bound. -/
theorem loop_value {solver : NLPSolver ℝ} (hsound : NLPSound solver) {c : InspConfig} {high low : Option (Bound ℝ)} {epsilon : ℝ}
    {s0 : DiscObj ℝ (List ℝ) InspParams} (hs0 : discInsp c high low epsilon true = .ok s0) {dts : Nat → ℝ} {us : Nat → List ℝ} {x0 : List ℝ}
    (k : InspIx) {Y : ℝ} (hpos : ∀ n, 0 < dts n) (hdt : ∀ n, dts n * (dA k + dB k * Y ^ 2) ≤ 1) (h0 : 0 ≤ hval (dC c k).2 x0)
    (hY : ∀ n x s, closedLoop (discreteASIF solver (discInspNext c)) (discInspNext c) dts us x0 s0 n = some (x, s) → hval (dC c k).2 x ≤ Y)
    (n : Nat) (x : List ℝ) (s : DiscObj ℝ (List ℝ) InspParams)
    (h : closedLoop (discreteASIF solver (discInspNext c)) (discInspNext c) dts us x0 s0 n = some (x, s)) : 0 ≤ hval (dC c k).2 x := by
  obtain ⟨hinv, hcs, -, -, hen, -, -, hexc⟩ := discInsp_init hs0
  suffices H : 0 ≤ hval (dC c k).2 x ∧ DiscInv s ∧ s.enable = true ∧ s.constraints = s0.constraints ∧ s.ext = s0.ext from H.1
  induction n generalizing x s with
  | zero =>
    simp only [closedLoop, Option.some.injEq, Prod.mk.injEq] at h
    obtain ⟨rfl, rfl⟩ := h
    exact ⟨h0, hinv, hen, rfl, rfl⟩
  | succ n ih =>
    simp only [closedLoop] at h
    rcases hn : closedLoop (discreteASIF solver (discInspNext c)) (discInspNext c) dts us x0 s0 n with _ | ⟨y, t⟩
    · simp [hn] at h
    rw [hn] at h
    simp only at h
    rcases hcall : discreteASIF solver (discInspNext c) t (.array y) (dts n) (us n) with ⟨e | v, t'⟩
    · simp [hcall] at h
    rw [hcall] at h
    simp only [Option.some.injEq, Prod.mk.injEq] at h
    obtain ⟨rfl, rfl⟩ := h
    obtain ⟨hv0, hi, he, hc', hx'⟩ := ih y t hn
    obtain ⟨hi', he', hcons', hext', -, -⟩ := disc_keeps hi he hcall
    exact ⟨disc_step hsound hi he (by rw [hx', hexc]) (hpos n) hcall (k := (dC c k).1) (by rw [hc', hcs]; exact dC_mem c k) (dC_enabled c k)
      (dC_noslack c k) (dC_alpha c k) (dB_nonneg k) (hY n y t hn) (hdt n) hv0, hi', he', hcons'.trans hc', hext'.trans hx'⟩

theorem loop_length {solver : NLPSolver ℝ} {c : InspConfig} {s0 : DiscObj ℝ (List ℝ) InspParams} {dts : Nat → ℝ} {us : Nat → List ℝ} {x0 : List ℝ}
    (hx0 : x0.length = 8) (n : Nat) (x : List ℝ) (s : DiscObj ℝ (List ℝ) InspParams)
    (h : closedLoop (discreteASIF solver (discInspNext c)) (discInspNext c) dts us x0 s0 n = some (x, s)) : x.length = 8 :=
  closedLoop_invariant (fun y _ => y.length = 8) hx0 (fun _ _ _ _ _ _ _ => discInspNext_length) n x s h

/-- The value of the sun constraint at a state. -/
noncomputable def sunMargin (c : InspConfig) (x : List ℝ) : Option ℝ :=
  conicKeepOut c.fov c.aMax [0, 0, c.sunVel] (pySlice x 0 3) (pySlice x 3 6) (sunVector x)

theorem sun_hval {c : InspConfig} {x : List ℝ} (hx : x.length = 8) : hval (dC c .sun).2 x = (sunMargin c x).getD 0 + -(1 / 1000) := by
  show (conicKeepOut c.fov c.aMax [0, 0, c.sunVel] (pySlice (jaxPad x) 0 3) (pySlice (jaxPad x) 3 6) (sunVector (jaxPad x))).getD 0 + -(1 / 1000) = _
  rw [jaxPad_eight hx]
  rfl

/-- The deputy, switching its thrusters off now, would be outside the collision radius at every whole second for 100 seconds. -/
def CoastsClear (c : InspConfig) (x : List ℝ) : Prop :=
  ∀ y : ℝ → List ℝ, CWHSolution c.n c.m [0, 0, 0] y → y 0 = pySlice x 0 6 → ∀ k : ℕ, 1 ≤ k → k ≤ 100 →
    c.chiefRadius + c.deputyRadius ≤ norm2 (pySlice (y k) 0 3)

theorem psm_hval (c : InspConfig) (x : List ℝ) :
    ∃ v, psmCompute c.n c.radius 1 100 x = .ok v ∧ hval (dC c .psm).2 x = v := by
  obtain ⟨v, hv, -⟩ := psm_samples c.n c.radius x
  refine ⟨v, hv, ?_⟩
  show (dC c .psm).2.computeFn x (dC c .psm).2.params + (dC c .psm).2.bias = v
  simp only [dC, inspPSM, Constraint.mk', hv, add_zero, Except.orZero]

theorem coasts_iff {c : InspConfig} (hn : c.n ≠ 0) {x : List ℝ} (hx : x.length = 8) : CoastsClear c x ↔ 0 ≤ hval (dC c .psm).2 x := by
  obtain ⟨v, hv, e⟩ := psm_hval c x
  have h6 : (pySlice x 0 6).length = 6 := by simp [pySlice, hx]
  rw [e]
  constructor
  · intro h
    have hs := C43_solution (m := c.m) hn h6 (u := [0, 0, 0]) rfl
    have h0 := C43_identity (n := c.n) (m := c.m) h6 (u := [0, 0, 0]) rfl
    refine (C44_nonneg_iff hn (by omega) hv hs h0).2 fun k hk1 hk2 => ?_
    rw [mul_one]
    exact h _ hs h0 k hk1 hk2
  · intro h y hy hy0 k hk1 hk2
    have := (C44_nonneg_iff hn (by omega) hv hy hy0).1 h k hk1 hk2
    rw [mul_one] at this
    exact this

/-- **C79, the sun at the samples.** Under the hypotheses of `C79_samples_partial` and for steps small enough for the largest value the sun
constraint can have (up to 4 seconds for the default configuration), its margin is kept at every sample too, as long as the constraint has a
value there: the deputy is neither on the axis nor exactly on the surface of the cone. -/
theorem C79_sun {solver : NLPSolver ℝ} (hsound : NLPSound solver) {c : InspConfig} (hc : DiscConfigOK c) (hfov0 : 0 < c.fov) (hfov : c.fov < π)
    {high low : Option (Bound ℝ)} {epsilon : ℝ} {s0 : DiscObj ℝ (List ℝ) InspParams} (hs0 : discInsp c high low epsilon true = .ok s0)
    {dts : Nat → ℝ} (hdt : ∀ n, StepOK c (dts n))
    (hsun : ∀ n, dts n * (1 / 1000 + 1 / 1000 * (c.largest + |c.sunVel| * c.reach) ^ 2) ≤ 1) (us : Nat → List ℝ)
    {x0 : List ℝ} (hx0 : x0.length = 8) (h0 : SampleSafe c x0) (h0' : ∃ h, sunMargin c x0 = some h ∧ 1 / 1000 ≤ h)
    (hdef : ∀ n x s, closedLoop (discreteASIF solver (discInspNext c)) (discInspNext c) dts us x0 s0 n = some (x, s) →
      sunMargin c x ≠ none) (n : Nat) (x : List ℝ) (s : DiscObj ℝ (List ℝ) InspParams)
    (h : closedLoop (discreteASIF solver (discInspNext c)) (discInspNext c) dts us x0 s0 n = some (x, s)) :
    SampleSafe c x ∧ ∃ h, sunMargin c x = some h ∧ 1 / 1000 ≤ h := by
  have hoff : ∀ n x s, closedLoop (discreteASIF solver (discInspNext c)) (discInspNext c) dts us x0 s0 n = some (x, s) →
      norm2 (pySlice x 0 3) ≠ 0 := by
    intro n x s h e
    refine hdef n x s h ?_
    unfold sunMargin conicKeepOut
    have : ∀ unit, conicMag c.fov (pySlice x 0 3) unit = none := fun unit => by simp [conicMag, vdivF, e]
    rcases vdivF (sunVector x) (norm2 (sunVector x)) with _ | unit
    · rfl
    rcases conicProj c.fov (pySlice x 0 3) unit with _ | q <;>
    simp [this]
  have hsafe := C79_samples_partial hsound hc hs0 hdt us hx0 h0 hoff
  have hlen := loop_length (solver := solver) (c := c) (dts := dts) (us := us) (s0 := s0) hx0
  have hv := loop_value hsound hs0 (us := us) (x0 := x0) .sun (Y := c.largest + |c.sunVel| * c.reach) (fun n => (hdt n).pos) hsun
    (by obtain ⟨v, hv, hle⟩ := h0'; rw [sun_hval hx0, hv, Option.getD_some]; linarith) ?_ n x s h
  · refine ⟨hsafe n x s h, ?_⟩
    obtain ⟨v, hv'⟩ := Option.ne_none_iff_exists'.1 (hdef n x s h)
    rw [sun_hval (hlen n x s h), hv', Option.getD_some] at hv
    exact ⟨v, hv', by linarith⟩
  · intro n x s h
    have hx := hlen n x s h
    have hS := hsafe n x s h
    obtain ⟨v, hv'⟩ := Option.ne_none_iff_exists'.1 (hdef n x s h)
    rw [sun_hval hx, hv', Option.getD_some]
    have hD : norm2 (pySlice x 0 3) ≤ c.reach := C79_distance hc hx (hoff n x s h) hS
    have hsp := speed_le hx hc.velLimit fun i hi => le_trans (hS.axis i hi) (by linarith)
    have h1 := conic_le hc.aMax.le (cos_pos_of_mem_Ioo ⟨by linarith, by linarith⟩).ne' (slice_length hx).1 (slice_length hx).2 rfl (sun_unit x) hv'
    have h2 := sqrt_le_sqrt (mul_le_mul_of_nonneg_left hD (show 0 ≤ 2 * c.aMax by linarith [hc.aMax]))
    have h3 := mul_le_mul_of_nonneg_left hD (abs_nonneg c.sunVel)
    unfold InspConfig.largest
    linarith

/-- **C79, passive safety at the samples.** Under the hypotheses of `C79_samples_partial` and for steps small enough for the largest value the
passive safety constraint can have (about a millisecond for the default configuration; `C79_refuted_psm` shows what happens for long steps), the
deputy is at every sample able to switch its thrusters off and stay clear of the chief. -/
theorem C79_coast {solver : NLPSolver ℝ} (hsound : NLPSound solver) {c : InspConfig} (hc : DiscConfigOK c) (hn0 : c.n ≠ 0) (hn1 : |c.n| ≤ 1)
    {high low : Option (Bound ℝ)} {epsilon : ℝ} {s0 : DiscObj ℝ (List ℝ) InspParams} (hs0 : discInsp c high low epsilon true = .ok s0)
    {dts : Nat → ℝ} (hdt : ∀ n, StepOK c (dts n))
    (hpsm : ∀ n, dts n * (1 / 1000 + 1 / 1000 * ((1 + 4 * |c.n|) * (c.reach + √3 * c.velLimit)) ^ 2) ≤ 1) (us : Nat → List ℝ)
    {x0 : List ℝ} (hx0 : x0.length = 8) (h0 : SampleSafe c x0) (h0' : CoastsClear c x0)
    (hoff : ∀ n x s, closedLoop (discreteASIF solver (discInspNext c)) (discInspNext c) dts us x0 s0 n = some (x, s) →
      norm2 (pySlice x 0 3) ≠ 0) (n : Nat) (x : List ℝ) (s : DiscObj ℝ (List ℝ) InspParams)
    (h : closedLoop (discreteASIF solver (discInspNext c)) (discInspNext c) dts us x0 s0 n = some (x, s)) :
    SampleSafe c x ∧ CoastsClear c x := by
  have hsafe := C79_samples_partial hsound hc hs0 hdt us hx0 h0 hoff
  have hlen := loop_length (solver := solver) (c := c) (dts := dts) (us := us) (s0 := s0) hx0
  refine ⟨hsafe n x s h, (coasts_iff hn0 (hlen n x s h)).2 ?_⟩
  refine loop_value hsound hs0 (us := us) (x0 := x0) .psm (Y := (1 + 4 * |c.n|) * (c.reach + √3 * c.velLimit)) (fun n => (hdt n).pos) hpsm
    ((coasts_iff hn0 hx0).1 h0') (fun n x s h => ?_) n x s h
  have hx := hlen n x s h
  have hS := hsafe n x s h
  have hD : norm2 (pySlice x 0 3) ≤ c.reach := C79_distance hc hx (hoff n x s h) hS
  have hsp := speed_le hx hc.velLimit fun i hi => le_trans (hS.axis i hi) (by linarith)
  obtain ⟨v, hv, hle, -⟩ := psm_samples c.n c.radius x
  obtain ⟨w, hw, e⟩ := psm_hval c x
  rw [hv] at hw
  cases hw
  rw [e]
  have h1 := hle 0 (by simp)
  have h2 := coast_le hn0 hn1 hx c.radius
  simp only [Nat.cast_zero, zero_add, mul_one] at h1
  have h3 := mul_le_mul_of_nonneg_left (add_le_add hD hsp) (show 0 ≤ 1 + 4 * |c.n| by positivity)
  linarith [hc.radius]

theorem still_reach : inspStill.reach ≤ 1022 := by
  have ha := inspStill_aMax
  show (1000 : ℝ) + 3 * 1 ^ 2 / (2 * inspStill.aMax) ≤ 1022
  have : 3 * 1 ^ 2 / (2 * inspStill.aMax) ≤ 22 := by rw [div_le_iff₀ (by linarith)]; linarith
  linarith

theorem still_largest : 0 ≤ inspStill.largest ∧ inspStill.largest ≤ 15 := by
  have ha := inspStill_aMax
  have ha' : inspStill.aMax ≤ 1 / 12 := default_aMax_le.trans (by norm_num)
  have hr := still_reach
  have hr0 : 0 ≤ inspStill.reach := by
    show (0 : ℝ) ≤ 1000 + 3 * 1 ^ 2 / (2 * inspStill.aMax)
    have : 0 ≤ 3 * 1 ^ 2 / (2 * inspStill.aMax) := by positivity
    linarith
  refine ⟨?_, ?_⟩
  · show 0 ≤ √(2 * inspStill.aMax * inspStill.reach) + √3 * 1
    positivity
  · show √(2 * inspStill.aMax * inspStill.reach) + √3 * 1 ≤ 15
    have h1 : √(2 * inspStill.aMax * inspStill.reach) ≤ 1315 / 100 := by
      rw [sqrt_le_left (by norm_num)]
      nlinarith
    have h2 : √(3 : ℝ) ≤ 174 / 100 := by rw [sqrt_le_left (by norm_num)]; norm_num
    linarith

theorem rest_safe : SampleSafe inspStill inspRest :=
  (safe_iff inspStill_disc (by rw [inspRest_norm]; norm_num)).2 fun k _ => (rest_positive k).le

/-- All hypotheses of `C79_sun` together. -/
example (n : Nat) (x : List ℝ) (s s0 : DiscObj ℝ (List ℝ) InspParams)
    (hs0 : discInsp inspStill (some (.scalar 1)) (some (.scalar (-1))) (1 / 100) true = .ok s0)
    (h : closedLoop (discreteASIF refNLP (discInspNext inspStill)) (discInspNext inspStill) (fun _ => 1) (fun _ => [0, 0, 0]) inspRest s0 n =
      some (x, s)) : SampleSafe inspStill x ∧ ∃ h, sunMargin inspStill x = some h ∧ 1 / 1000 ≤ h := by
  have hv := rest_positive .sun
  rw [sun_hval rfl] at hv
  have hd : ∃ h, sunMargin inspStill inspRest = some h ∧ 1 / 1000 ≤ h := by
    rcases e : sunMargin inspStill inspRest with _ | v
    · rw [e] at hv; norm_num at hv
    · rw [e, Option.getD_some] at hv
      exact ⟨v, rfl, by linarith⟩
  refine C79_sun refNLP_sound inspStill_disc inspStill_ok.fov0 inspStill_ok.fov hs0
    (fun _ => still_step one_pos (by norm_num)) (fun _ => ?_) _ rfl rest_safe hd (fun m y t hy e => ?_) n x s h
  · have e : |inspStill.sunVel| = 0 := abs_zero
    have h2 := pow_le_pow_left₀ still_largest.1 still_largest.2 2
    rw [e, zero_mul, add_zero]
    linarith
  · rw [rest_stays one_pos hs0 m y t hy] at e
    obtain ⟨v, hv, -⟩ := hd
    rw [hv] at e
    cases e

/-- All hypotheses of `C79_coast` together. -/
example (n : Nat) (x : List ℝ) (s s0 : DiscObj ℝ (List ℝ) InspParams)
    (hs0 : discInsp inspStill (some (.scalar 1)) (some (.scalar (-1))) (1 / 100) true = .ok s0)
    (h : closedLoop (discreteASIF refNLP (discInspNext inspStill)) (discInspNext inspStill) (fun _ => 1 / 1100) (fun _ => [0, 0, 0]) inspRest s0 n =
      some (x, s)) : SampleSafe inspStill x ∧ CoastsClear inspStill x := by
  have hn : inspStill.n = 1027 / 1000000 := rfl
  have h3 : √(3 : ℝ) ≤ 174 / 100 := by rw [sqrt_le_left (by norm_num)]; norm_num
  refine C79_coast refNLP_sound inspStill_disc (by rw [hn]; norm_num) (by rw [hn, abs_of_pos (by norm_num)]; norm_num) hs0
    (fun _ => still_step (by norm_num) (by norm_num)) (fun _ => ?_) _ rfl rest_safe ((coasts_iff (by rw [hn]; norm_num) rfl).2 (rest_positive .psm).le)
    (fun m y t hy => ?_) n x s h
  · have hr0 : 0 ≤ inspStill.reach := by
      show (0 : ℝ) ≤ 1000 + 3 * 1 ^ 2 / (2 * inspStill.aMax)
      have := inspStill_aMax
      have : 0 ≤ 3 * 1 ^ 2 / (2 * inspStill.aMax) := by positivity
      linarith
    have hv : inspStill.velLimit = 1 := rfl
    rw [hn, abs_of_pos (by norm_num), hv, mul_one]
    have h1 : (1 + 4 * (1027 / 1000000)) * (inspStill.reach + √3) ≤ 1030 := by linarith [still_reach]
    have h2 := pow_le_pow_left₀ (by positivity) h1 2
    linarith
  · rw [rest_stays (by norm_num) hs0 m y t hy, inspRest_norm]
    norm_num

end RTA
