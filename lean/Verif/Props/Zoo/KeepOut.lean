import Verif.Lemmas.Zoo.KeepOut

/-!
C45: the braking-distance constraints protect the keep-out and keep-in distances. C57: braking with the assumed acceleration
is enough.
-/
namespace RTA
open Set Real

/-- **C45.** A trajectory that starts outside the chief's collision sphere and along which the chief collision constraint is
never negative never enters the sphere. The constraint may even be undefined (NaN) at some times. -/
theorem C45_chief {radius aMax : ℝ} (ha : 0 ≤ aMax) {x : ℝ → List ℝ}
    (hm : Moves (fun t => pySlice (x t) 0 3) (fun t => pySlice (x t) 3 6))
    (hh : ∀ t, 0 ≤ t → ∀ h, chiefCollision radius aMax (x t) = some h → 0 ≤ h)
    (h0 : radius ≤ √(sqNorm (pySlice (x 0) 0 3))) (t : ℝ) (ht : 0 ≤ t) : radius ≤ √(sqNorm (pySlice (x t) 0 3)) :=
  keepOut_stays (by linarith) hm hh h0 t ht

/-- **C45.** The same for the distance to another deputy: the relative position stays outside the sphere. -/
theorem C45_deputy {radius aMax : ℝ} (ha : 0 ≤ aMax) {deputy : Nat} {x : ℝ → List ℝ}
    (hm : Moves (fun t => pySlice (x t) 0 3) (fun t => pySlice (x t) 3 6))
    (hd : Moves (fun t => pySlice (x t) (deputy * 6) (deputy * 6 + 3)) (fun t => pySlice (x t) (deputy * 6 + 3) (deputy * 6 + 6)))
    (hh : ∀ t, 0 ≤ t → ∀ h, deputyCollision radius aMax deputy (x t) = some h → 0 ≤ h)
    (h0 : radius ≤ √(sqNorm (vsub (pySlice (x 0) 0 3) (pySlice (x 0) (deputy * 6) (deputy * 6 + 3))))) (t : ℝ) (ht : 0 ≤ t) :
    radius ≤ √(sqNorm (vsub (pySlice (x t) 0 3) (pySlice (x t) (deputy * 6) (deputy * 6 + 3)))) :=
  keepOut_stays (by linarith) (hm.sub hd) hh h0 t ht

/-- **C45.** A trajectory that starts within the maximum distance and along which the maximum distance constraint is never
negative never exceeds the maximum distance. -/
theorem C45_max_distance {rMax aMax : ℝ} (ha : 0 ≤ aMax) {x : ℝ → List ℝ}
    (hm : Moves (fun t => pySlice (x t) 0 3) (fun t => pySlice (x t) 3 6))
    (hh : ∀ t, 0 ≤ t → ∀ h, maxDistance rMax aMax (x t) = some h → 0 ≤ h)
    (h0 : √(sqNorm (pySlice (x 0) 0 3)) ≤ rMax) (t : ℝ) (ht : 0 ≤ t) : √(sqNorm (pySlice (x t) 0 3)) ≤ rMax :=
  keepIn_stays hm (fun t ht hout => maxDistance_outside ha (hm.lenP t ht) (hm.lenV t ht) hout (hh t ht)) h0 t ht

/-- **C45.** Outside the sphere the constraint is defined (it is at every position off the chief's centre, with a nonnegative
assumed acceleration). -/
theorem C45_defined {radius aMax : ℝ} (ha : 0 ≤ aMax) {x : List ℝ} (hp : sqNorm (pySlice x 0 3) > 0) :
    ∃ h, chiefCollision radius aMax x = some h := by
  have hne : norm2 (pySlice x 0 3) ≠ 0 := (sqrt_pos.2 hp).ne'
  unfold chiefCollision keepOut
  split_ifs with h
  · have hs : ¬ 2 * aMax * (norm2 (pySlice x 0 3) - radius) < 0 := not_lt.2 (mul_nonneg (by linarith) (by linarith))
    simp only [sqrtF, if_neg hs, divF, if_neg hne]
    exact ⟨_, rfl⟩
  · have hs : ¬ 2 * aMax * (-norm2 (pySlice x 0 3) + radius) < 0 :=
      not_lt.2 (mul_nonneg (by linarith) (by linarith [not_le.1 h]))
    simp only [sqrtF, if_neg hs, divF, if_neg hne]
    exact ⟨_, rfl⟩

/-- **C45.** Exactly when the chief collision constraint has a value: off the chief's centre, and with a negative assumed
acceleration only on the sphere. -/
theorem C45_defined_iff {radius aMax : ℝ} {x : List ℝ} : (∃ h, chiefCollision radius aMax x = some h) ↔
    norm2 (pySlice x 0 3) ≠ 0 ∧ (0 ≤ aMax ∨ norm2 (pySlice x 0 3) = radius) := by
  constructor
  · rintro ⟨h, hh⟩
    unfold chiefCollision keepOut at hh
    split_ifs at hh with hr
    · by_cases hs : 2 * aMax * (norm2 (pySlice x 0 3) - radius) < 0
      · simp [sqrtF, hs] at hh
      · by_cases hn : norm2 (pySlice x 0 3) = 0
        · simp [sqrtF, divF, hn] at hh
        · refine ⟨hn, ?_⟩
          by_contra hc
          obtain ⟨h1, h2⟩ := not_or.1 hc
          exact hs (mul_neg_of_neg_of_pos (by linarith [not_le.1 h1]) (sub_pos.2 (lt_of_le_of_ne hr (Ne.symm h2))))
    · by_cases hs : 2 * aMax * (-norm2 (pySlice x 0 3) + radius) < 0
      · simp [sqrtF, hs] at hh
      · by_cases hn : norm2 (pySlice x 0 3) = 0
        · simp [sqrtF, divF, hn] at hh
        · refine ⟨hn, ?_⟩
          by_contra hc
          obtain ⟨h1, h2⟩ := not_or.1 hc
          exact hs (mul_neg_of_neg_of_pos (by linarith [not_le.1 h1]) (by linarith [not_le.1 hr]))
  · rintro ⟨hn, h⟩
    rcases h with h | h
    · exact C45_defined h (sqrt_pos.1 (lt_of_le_of_ne (sqrt_nonneg _) (Ne.symm hn)))
    · refine ⟨√0 + dot (pySlice x 0 3) (pySlice x 3 6) / norm2 (pySlice x 0 3), ?_⟩
      unfold chiefCollision keepOut
      rw [if_pos h.ge, ← h]
      simp [sqrtF, divF, hn]

/-- Every trajectory of the inspection module's dynamics moves with its velocity components. -/
theorem C45_trajectory {D : Set (List ℝ)} {n m sunVel : ℝ} {x u : ℝ → List ℝ} (hu : ∀ t, 0 ≤ t → (u t).length = 3)
    (ht : Trajectory D 8 (inspectionF n sunVel) (fun _ => inspectionG m) x u) :
    Moves (fun t => pySlice (x t) 0 3) (fun t => pySlice (x t) 3 6) := by
  have hlen : ∀ t, 0 ≤ t → (x t).length = 8 := fun t h => (ht.curve t h).2
  have hc : ∀ t, 0 ≤ t → ∀ i, i < 3 → comp (pySlice (x t) 0 3) i = (x t).getD i 0 := fun t h i hi => by
    have e := hlen t h
    generalize x t = l at e
    match l, e with
    | [a, b, c, d, e, f, g, h], _ => interval_cases i <;> rfl
  refine ⟨fun t h => by simp [pySlice, hlen t h], fun t h => by simp [pySlice, hlen t h], fun i hi => ?_, fun i hi t h => ?_⟩
  · exact (ht.cont i (by omega)).congr fun t h => hc t h i hi
  · refine ((ht.deriv t h i (by omega)).congr_deriv ?_).congr (fun s hs => hc s (h.trans hs) i hi) (hc t h i hi)
    have e := hlen t h
    have eu := hu t h
    generalize x t = l at e
    generalize u t = w at eu
    match l, e, w, eu with
    | [a, b, c, d, e, f, g, h], _, [u1, u2, u3], _ =>
      have e6 : pySlice [a, b, c, d, e, f, g, h] 0 6 = [a, b, c, d, e, f] := rfl
      interval_cases i <;>
        simp [inspectionF, inspectionG, cwhA3, cwhB3, matVec, vadd, comp, pySlice]

/-- **C57.** From a state outside the collision sphere where the chief collision constraint is nonnegative, accelerating away
from the chief with at least `a_max` at every time keeps the spacecraft outside the sphere for ever, whatever the sideways
motion: the braking distance in the constraint suffices. -/
theorem C57_chief {radius aMax h : ℝ} (ha : 0 ≤ aMax) (hR : 0 < radius) {x a : ℝ → List ℝ}
    (hm : Moves (fun t => pySlice (x t) 0 3) (fun t => pySlice (x t) 3 6)) (hv : Moves (fun t => pySlice (x t) 3 6) a)
    (h0 : radius ≤ √(sqNorm (pySlice (x 0) 0 3))) (hh : chiefCollision radius aMax (x 0) = some h) (hpos : 0 ≤ h)
    (hb : ∀ t, 0 ≤ t → aMax * √(sqNorm (pySlice (x t) 0 3)) ≤ dot (pySlice (x t) 0 3) (a t)) (t : ℝ) (ht : 0 ≤ t) :
    radius ≤ √(sqNorm (pySlice (x t) 0 3)) :=
  brake_keepOut ha hR hm hv h0 hh hpos hb t ht

/-- **C57.** For two deputies both accelerating apart with `a_max` (relative acceleration `2 a_max`) the deputy collision
constraint suffices. -/
theorem C57_deputy {radius aMax h : ℝ} (ha : 0 ≤ aMax) (hR : 0 < radius) {deputy : Nat} {x a b : ℝ → List ℝ}
    (hm : Moves (fun t => pySlice (x t) 0 3) (fun t => pySlice (x t) 3 6)) (hv : Moves (fun t => pySlice (x t) 3 6) a)
    (hd : Moves (fun t => pySlice (x t) (deputy * 6) (deputy * 6 + 3)) (fun t => pySlice (x t) (deputy * 6 + 3) (deputy * 6 + 6)))
    (hdv : Moves (fun t => pySlice (x t) (deputy * 6 + 3) (deputy * 6 + 6)) b)
    (h0 : radius ≤ √(sqNorm (vsub (pySlice (x 0) 0 3) (pySlice (x 0) (deputy * 6) (deputy * 6 + 3)))))
    (hh : deputyCollision radius aMax deputy (x 0) = some h) (hpos : 0 ≤ h)
    (hb : ∀ t, 0 ≤ t → 2 * aMax * √(sqNorm (vsub (pySlice (x t) 0 3) (pySlice (x t) (deputy * 6) (deputy * 6 + 3)))) ≤
      dot (vsub (pySlice (x t) 0 3) (pySlice (x t) (deputy * 6) (deputy * 6 + 3))) (vsub (a t) (b t))) (t : ℝ) (ht : 0 ≤ t) :
    radius ≤ √(sqNorm (vsub (pySlice (x t) 0 3) (pySlice (x t) (deputy * 6) (deputy * 6 + 3)))) := by
  have e : (4 : ℝ) * aMax = 2 * (2 * aMax) := by ring
  unfold deputyCollision at hh
  rw [e] at hh
  exact brake_keepOut (A := 2 * aMax) (by linarith) hR (hm.sub hd) (hv.sub hdv) h0 hh hpos hb t ht

/-- **C69.** From a state within the maximum distance where the maximum distance constraint is nonnegative, a motion whose distance to the
chief is accelerated by at most `-a_max` until a time, and that does not meet the chief's centre until then, does not exceed the maximum distance until then. The
sideways motion counts: `|v|² - (p·v)²/|p|²` is what it adds to the acceleration of the distance (times the distance). What is missing from the
property: thrusting towards the chief with `a_max` is not enough when there is sideways motion (`C69_refuted_sideways`). -/
theorem C69_max_distance_partial {rMax aMax h T : ℝ} (ha : 0 ≤ aMax) {x a : ℝ → List ℝ}
    (hm : Moves (fun t => pySlice (x t) 0 3) (fun t => pySlice (x t) 3 6)) (hv : Moves (fun t => pySlice (x t) 3 6) a)
    (h0 : √(sqNorm (pySlice (x 0) 0 3)) ≤ rMax) (hh : maxDistance rMax aMax (x 0) = some h) (hpos : 0 ≤ h)
    (hne : ∀ t, 0 ≤ t → t ≤ T → sqNorm (pySlice (x t) 0 3) > 0)
    (hb : ∀ t, 0 ≤ t → t ≤ T → dot (pySlice (x t) 0 3) (a t) +
      (sqNorm (pySlice (x t) 3 6) - dot (pySlice (x t) 0 3) (pySlice (x t) 3 6) ^ 2 / sqNorm (pySlice (x t) 0 3)) ≤
        -(aMax * √(sqNorm (pySlice (x t) 0 3)))) (t : ℝ) (ht : 0 ≤ t) (htT : t ≤ T) :
    √(sqNorm (pySlice (x t) 0 3)) ≤ rMax := by
  have hn : ∀ t, 0 ≤ t → t ≤ T → norm2 (pySlice (x t) 0 3) ≠ 0 := fun t ht htT => (sqrt_pos.2 (hne t ht htT)).ne'
  have hs : ¬ 2 * aMax * (rMax - norm2 (pySlice (x 0) 0 3)) < 0 := not_lt.2 (mul_nonneg (by linarith) (by linarith [show norm2 (pySlice (x 0) 0 3) ≤ rMax from h0]))
  have hw : dot (pySlice (x 0) 0 3) (pySlice (x 0) 3 6) / norm2 (pySlice (x 0) 0 3) ≤ √(2 * aMax * (rMax - norm2 (pySlice (x 0) 0 3))) := by
    simp only [maxDistance, if_pos (show norm2 (pySlice (x 0) 0 3) ≤ rMax from h0), sqrtF, if_neg hs, divF, if_neg (hn 0 le_rfl (ht.trans htT))] at hh
    have := Option.some.inj hh
    linarith
  have e : rMax - norm2 (pySlice (x 0) 0 3) = -norm2 (pySlice (x 0) 0 3) - -rMax := by ring
  rw [e] at hw
  have key := parabola (A := aMax) (r := -norm2 (pySlice (x 0) 0 3)) (R := -rMax)
    (w := -(dot (pySlice (x 0) 0 3) (pySlice (x 0) 3 6) / norm2 (pySlice (x 0) 0 3))) ha (by linarith [show norm2 (pySlice (x 0) 0 3) ≤ rMax from h0])
    (by linarith) ht
  have := brake_bound_in hm hv (fun s hs hst => hn s hs (hst.trans htT)) (fun s hs hst => hb s hs (hst.trans htT)) ht
  show norm2 (pySlice (x t) 0 3) ≤ rMax
  linarith

/-- A spacecraft moving straight out and braking with 1/2: at 10 + t - t²/4, it stops at 11 after 2 time units. The hypotheses of
`C69_max_distance_partial` hold for `r_max = 11`, `a_max = 1/2`, `T = 2`. -/
example : Moves (fun t => pySlice [10 + t - t ^ 2 / 4, 0, 0, 1 - t / 2, 0, 0, 0, 0] 0 3)
      (fun t => pySlice [10 + t - t ^ 2 / 4, 0, 0, 1 - t / 2, 0, 0, 0, 0] 3 6) ∧
    Moves (fun t => pySlice [10 + t - t ^ 2 / 4, 0, 0, 1 - t / 2, 0, 0, 0, 0] 3 6) (fun _ => [-1 / 2, 0, 0]) ∧
    ∀ t : ℝ, 0 ≤ t → t ≤ 2 → 0 < 10 + t - t ^ 2 / 4 ∧
      dot (pySlice [10 + t - t ^ 2 / 4, 0, 0, 1 - t / 2, 0, 0, 0, 0] 0 3) [-1 / 2, 0, 0] +
      (sqNorm (pySlice [10 + t - t ^ 2 / 4, 0, 0, 1 - t / 2, 0, 0, 0, 0] 3 6) -
        dot (pySlice [10 + t - t ^ 2 / 4, 0, 0, 1 - t / 2, 0, 0, 0, 0] 0 3) (pySlice [10 + t - t ^ 2 / 4, 0, 0, 1 - t / 2, 0, 0, 0, 0] 3 6) ^ 2 /
          sqNorm (pySlice [10 + t - t ^ 2 / 4, 0, 0, 1 - t / 2, 0, 0, 0, 0] 0 3)) ≤
        -((1 / 2 : ℝ) * √(sqNorm (pySlice [10 + t - t ^ 2 / 4, 0, 0, 1 - t / 2, 0, 0, 0, 0] 0 3))) := by
  have h1 : ∀ t : ℝ, HasDerivAt (fun t : ℝ => 10 + t - t ^ 2 / 4) (1 - t / 2) t := fun t =>
    (((hasDerivAt_id t).const_add 10).sub (((hasDerivAt_id t).pow 2).div_const 4)).congr_deriv (by simp only [id]; push_cast; ring)
  have h2 : ∀ t : ℝ, HasDerivAt (fun t : ℝ => 1 - t / 2) (-1 / 2) t := fun t =>
    (((hasDerivAt_id t).div_const 2).const_sub 1).congr_deriv (by ring)
  refine ⟨⟨fun _ _ => rfl, fun _ _ => rfl, fun i hi => ?_, fun i hi t _ => ?_⟩, ⟨fun _ _ => rfl, fun _ _ => rfl, fun i hi => ?_, fun i hi t _ => ?_⟩, ?_⟩
  · interval_cases i
    · exact fun t _ => (h1 t).continuousAt.continuousWithinAt
    · exact continuousOn_const
    · exact continuousOn_const
  · interval_cases i
    · exact (h1 t).hasDerivWithinAt
    · exact hasDerivWithinAt_const _ _ _
    · exact hasDerivWithinAt_const _ _ _
  · interval_cases i
    · exact fun t _ => (h2 t).continuousAt.continuousWithinAt
    · exact continuousOn_const
    · exact continuousOn_const
  · interval_cases i
    · exact (h2 t).hasDerivWithinAt
    · exact hasDerivWithinAt_const _ _ _
    · exact hasDerivWithinAt_const _ _ _
  · intro t ht ht2
    have hpos : 0 < 10 + t - t ^ 2 / 4 := by nlinarith
    refine ⟨hpos, ?_⟩
    have e1 : pySlice [10 + t - t ^ 2 / 4, 0, 0, 1 - t / 2, 0, 0, 0, 0] 0 3 = [10 + t - t ^ 2 / 4, 0, 0] := rfl
    have e2 : pySlice [10 + t - t ^ 2 / 4, 0, 0, 1 - t / 2, 0, 0, 0, 0] 3 6 = [1 - t / 2, 0, 0] := rfl
    rw [e1, e2, dot3 rfl rfl, dot3 rfl rfl, sqNorm3 rfl, sqNorm3 rfl]
    simp only [comp, List.getD_cons_zero, List.getD_cons_succ]
    have e3 : √((10 + t - t ^ 2 / 4) ^ 2 + 0 ^ 2 + 0 ^ 2) = 10 + t - t ^ 2 / 4 := by
      rw [show (10 + t - t ^ 2 / 4) ^ 2 + 0 ^ 2 + 0 ^ 2 = (10 + t - t ^ 2 / 4) ^ 2 by ring, sqrt_sq hpos.le]
    rw [e3]
    generalize 10 + t - t ^ 2 / 4 = r at hpos
    have : (r * (1 - t / 2) + 0 * 0 + 0 * 0) ^ 2 / (r ^ 2 + 0 ^ 2 + 0 ^ 2) = (1 - t / 2) ^ 2 := by field_simp; ring
    rw [this]
    apply le_of_eq
    ring

/-- **C69 is violated** by sideways motion: on the ellipse `(cos t, 3 sin t, 0)` the acceleration points to the chief and has at least the
size 1 (the distance) at every time; at the start the maximum distance constraint for `r_max = 2`, `a_max = 1` is positive; after a quarter
of the period the distance is 3. -/
theorem C69_refuted_sideways : ∃ x a : ℝ → List ℝ, Moves (fun t => pySlice (x t) 0 3) (fun t => pySlice (x t) 3 6) ∧
    Moves (fun t => pySlice (x t) 3 6) a ∧ (∃ h, maxDistance 2 1 (x 0) = some h ∧ 0 < h) ∧
    (∀ t, a t = vscale (-1) (pySlice (x t) 0 3) ∧ 1 ≤ √(sqNorm (a t)) ∧
      dot (pySlice (x t) 0 3) (a t) ≤ -(1 * √(sqNorm (pySlice (x t) 0 3)))) ∧
    √(sqNorm (pySlice (x 0) 0 3)) = 1 ∧ √(sqNorm (pySlice (x (π / 2)) 0 3)) = 3 := by
  have hsq : ∀ t, sqNorm [cos t, 3 * sin t, 0] = cos t ^ 2 + 9 * sin t ^ 2 := fun t => by
    rw [sqNorm3 rfl]; simp [comp]; ring
  have hge : ∀ t, 1 ≤ √(cos t ^ 2 + 9 * sin t ^ 2) := fun t => by
    rw [le_sqrt' one_pos]
    nlinarith [sin_sq_add_cos_sq t, sq_nonneg (sin t)]
  refine ⟨fun t => [cos t, 3 * sin t, 0, -sin t, 3 * cos t, 0, 0, 0], fun t => [-cos t, -(3 * sin t), 0], ?_, ?_, ?_, fun t => ⟨?_, ?_, ?_⟩, ?_, ?_⟩
  · refine ⟨fun _ _ => rfl, fun _ _ => rfl, fun i hi => ?_, fun i hi t _ => ?_⟩
    · interval_cases i
      · exact continuous_cos.continuousOn
      · exact (continuous_const.mul continuous_sin).continuousOn
      · exact continuousOn_const
    · interval_cases i
      · exact (hasDerivAt_cos t).hasDerivWithinAt
      · exact ((hasDerivAt_sin t).const_mul 3).hasDerivWithinAt
      · exact hasDerivWithinAt_const _ _ _
  · refine ⟨fun _ _ => rfl, fun _ _ => rfl, fun i hi => ?_, fun i hi t _ => ?_⟩
    · interval_cases i
      · exact continuous_sin.neg.continuousOn
      · exact (continuous_const.mul continuous_cos).continuousOn
      · exact continuousOn_const
    · interval_cases i
      · exact (hasDerivAt_sin t).neg.hasDerivWithinAt
      · exact (((hasDerivAt_cos t).const_mul 3).congr_deriv (show 3 * -sin t = -(3 * sin t) by ring)).hasDerivWithinAt
      · exact hasDerivWithinAt_const _ _ _
  · refine ⟨√2, ?_, by positivity⟩
    have hn : norm2 [(1 : ℝ), 0, 0] = 1 := by
      unfold norm2
      rw [sqNorm3 rfl]; simp [comp]
    have e1 : pySlice [(1 : ℝ), 0, 0, 0, 3, 0, 0, 0] 0 3 = [1, 0, 0] := rfl
    have e2 : pySlice [(1 : ℝ), 0, 0, 0, 3, 0, 0, 0] 3 6 = [0, 3, 0] := rfl
    have e3 : dot [(1 : ℝ), 0, 0] [0, 3, 0] = 0 := by rw [dot3 rfl rfl]; simp [comp]
    simp only [cos_zero, sin_zero, mul_zero, neg_zero, mul_one]
    unfold maxDistance
    simp only [e1, e2, hn, e3]
    rw [if_pos (by norm_num)]
    norm_num [sqrtF, divF]
  · simp [pySlice, vscale]
  · have : sqNorm [-cos t, -(3 * sin t), 0] = cos t ^ 2 + 9 * sin t ^ 2 := by rw [sqNorm3 rfl]; simp [comp]; ring
    rw [this]
    exact hge t
  · have e1 : pySlice [cos t, 3 * sin t, 0, -sin t, 3 * cos t, 0, 0, 0] 0 3 = [cos t, 3 * sin t, 0] := rfl
    rw [e1, hsq, dot3 rfl rfl]
    simp only [comp, List.getD_cons_zero, List.getD_cons_succ]
    have h1 := hge t
    have h2 := sq_sqrt (show 0 ≤ cos t ^ 2 + 9 * sin t ^ 2 by positivity)
    nlinarith
  · show √(sqNorm [cos 0, 3 * sin 0, 0]) = 1
    rw [hsq]
    simp
  · show √(sqNorm [cos (π / 2), 3 * sin (π / 2), 0]) = 3
    rw [hsq]
    simp
    rw [show (9 : ℝ) = 3 ^ 2 by norm_num, sqrt_sq (by norm_num)]

/-- **C45.** Within the maximum distance the maximum distance constraint is the speed at which braking with `a_max` would still stop in time,
minus the speed away from the chief. -/
theorem C45_max_distance_value {rMax aMax : ℝ} (ha : 0 ≤ aMax) {x : List ℝ} (hp : sqNorm (pySlice x 0 3) > 0)
    (hin : √(sqNorm (pySlice x 0 3)) ≤ rMax) : maxDistance rMax aMax x =
      some (√(2 * aMax * (rMax - √(sqNorm (pySlice x 0 3)))) - dot (pySlice x 0 3) (pySlice x 3 6) / √(sqNorm (pySlice x 0 3))) := by
  have hne : norm2 (pySlice x 0 3) ≠ 0 := (sqrt_pos.2 hp).ne'
  have hs : ¬ 2 * aMax * (rMax - norm2 (pySlice x 0 3)) < 0 := not_lt.2 (mul_nonneg (by linarith) (sub_nonneg.2 hin))
  simp only [maxDistance, if_pos (show norm2 (pySlice x 0 3) ≤ rMax from hin), sqrtF, if_neg hs, divF, if_neg hne]
  rfl

/-- A spacecraft moving straight away from the chief. -/
example : Moves (fun t => pySlice [20 + t, 0, 0, 1, 0, 0, 0, 0] 0 3) (fun t => pySlice [20 + t, 0, 0, 1, 0, 0, 0, 0] 3 6) := by
  refine ⟨fun _ _ => rfl, fun _ _ => rfl, fun i hi => ?_, fun i hi t _ => ?_⟩
  · interval_cases i
    · exact (continuous_const.add continuous_id).continuousOn
    · exact continuousOn_const
    · exact continuousOn_const
  · interval_cases i
    · exact ((hasDerivAt_id t).const_add 20).hasDerivWithinAt
    · exact hasDerivWithinAt_const _ _ _
    · exact hasDerivWithinAt_const _ _ _

/-- A spacecraft at rest at distance 20 that accelerates away from the chief with unit acceleration meets the assumption on the
acceleration. -/
example (t : ℝ) : 1 * √(sqNorm (pySlice [20 + t ^ 2 / 2, 0, 0, t, 0, 0, 0, 0] 0 3)) ≤
    dot (pySlice [20 + t ^ 2 / 2, 0, 0, t, 0, 0, 0, 0] 0 3) [1, 0, 0] := by
  have e : sqNorm (pySlice [20 + t ^ 2 / 2, 0, 0, t, 0, 0, 0, 0] 0 3) = (20 + t ^ 2 / 2) ^ 2 := by
    rw [sqNorm3 rfl]; simp [pySlice, comp]
  rw [e, sqrt_sq (by positivity), dot3 rfl rfl]
  simp [pySlice, comp]

end RTA
