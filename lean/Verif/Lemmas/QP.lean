import Verif.Spec.ASIF
import Verif.Lemmas.LinAlg
import Mathlib.Tactic.Linarith
import Mathlib.Tactic.Ring
import Mathlib.Tactic.FieldSimp

/-!
Facts about strictly convex quadratic programs with a diagonal weight.
-/
set_option linter.unusedSectionVars false
namespace RTA
variable {K : Type} [Field K] [LinearOrder K] [IsStrictOrderedRing K]

/-- The point a fraction `t` of the way from `x` to `y`. -/
def lerp (t : K) (x y : List K) : List K := List.zipWith (fun a b => a + t * (b - a)) x y

theorem lerp_length {t : K} {x y : List K} (h : x.length = y.length) : (lerp t x y).length = x.length := by
  simp [lerp, h]

theorem dot_lerp (t : K) (w x y : List K) (h : x.length = y.length) :
    dot w (lerp t x y) = (1 - t) * dot w x + t * dot w y := by
  induction w generalizing x y with
  | nil => simp
  | cons a w ih =>
    cases x with
    | nil => cases y with
      | nil => simp [lerp]
      | cons => simp at h
    | cons b x => cases y with
      | nil => simp at h
      | cons c y =>
        have := ih x y (by simpa using h)
        unfold lerp at this ⊢
        simp only [List.zipWith_cons_cons, dot_cons, this]
        ring

/-- `Σ Gᵢ (yᵢ - xᵢ)²`. -/
def gDist (G x y : List K) : K := dot G (List.zipWith (fun a b => (b - a) * (b - a)) x y)

theorem dot_sq_lerp (t : K) (G x y : List K) (h : x.length = y.length) :
    dot G (List.zipWith (· * ·) (lerp t x y) (lerp t x y)) =
      (1 - t) * dot G (List.zipWith (· * ·) x x) + t * dot G (List.zipWith (· * ·) y y) - t * (1 - t) * gDist G x y := by
  induction G generalizing x y with
  | nil => simp [gDist]
  | cons a w ih =>
    cases x with
    | nil => cases y with
      | nil => simp [lerp, gDist]
      | cons => simp at h
    | cons b x => cases y with
      | nil => simp at h
      | cons c y =>
        have := ih x y (by simpa using h)
        unfold lerp gDist at this ⊢
        simp only [List.zipWith_cons_cons, dot_cons, this]
        ring

theorem qpObj_lerp (t : K) (G a x y : List K) (h : x.length = y.length) :
    qpObj G a (lerp t x y) = (1 - t) * qpObj G a x + t * qpObj G a y - t * (1 - t) / 2 * gDist G x y := by
  unfold qpObj
  rw [dot_sq_lerp t G x y h, dot_lerp t a x y h]
  ring

theorem gDist_nonneg {G : List K} (hG : ∀ w ∈ G, 0 < w) (x y : List K) : 0 ≤ gDist G x y := by
  unfold gDist
  induction G generalizing x y with
  | nil => simp
  | cons w G ih =>
    cases x with
    | nil => simp
    | cons b x => cases y with
      | nil => simp
      | cons c y =>
        simp only [List.zipWith_cons_cons, dot_cons]
        have h1 := ih (fun w hw => hG w (by simp [hw])) x y
        have h2 := hG w (by simp)
        have h3 := mul_self_nonneg (c - b)
        have := mul_nonneg h2.le h3
        linarith

theorem gDist_pos {G : List K} (hG : ∀ w ∈ G, 0 < w) {x y : List K} (hx : x.length = G.length) (hy : y.length = G.length)
    (hne : x ≠ y) : 0 < gDist G x y := by
  induction G generalizing x y with
  | nil =>
    rw [List.length_nil, List.length_eq_zero_iff] at hx hy
    exact absurd (hx.trans hy.symm) hne
  | cons w G ih =>
    cases x with
    | nil => simp at hx
    | cons b x => cases y with
      | nil => simp at hy
      | cons c y =>
        have hw := hG w (by simp)
        have hG' : ∀ w ∈ G, 0 < w := fun w hw => hG w (by simp [hw])
        have e : gDist (w :: G) (b :: x) (c :: y) = w * ((c - b) * (c - b)) + gDist G x y := rfl
        rw [e]
        by_cases hbc : b = c
        · subst hbc
          have := ih hG' (by simpa using hx) (by simpa using hy) (fun h => hne (by rw [h]))
          simpa using this
        · have h1 := gDist_nonneg hG' x y
          have h2 : 0 < (c - b) * (c - b) := by
            have : c - b ≠ 0 := sub_ne_zero.2 (Ne.symm hbc)
            exact mul_self_pos.2 this
          have := mul_pos hw h2
          linarith

theorem rowHolds_lerp {r : Row K} {x y : List K} {t : K} (ht : 0 ≤ t) (ht1 : t ≤ 1) (h : x.length = y.length)
    (hx : RowHolds r x) (hy : RowHolds r y) : RowHolds r (lerp t x y) := by
  unfold RowHolds at *
  rw [dot_lerp t _ _ _ h]
  nlinarith [mul_nonneg (sub_nonneg.2 ht1) (sub_nonneg.2 hx), mul_nonneg ht (sub_nonneg.2 hy)]

theorem feasible_lerp {n : Nat} {rows : List (Row K)} {x y : List K} {t : K} (ht : 0 ≤ t) (ht1 : t ≤ 1)
    (hx : Feasible n rows x) (hy : Feasible n rows y) : Feasible n rows (lerp t x y) := by
  have h : x.length = y.length := hx.1.trans hy.1.symm
  exact ⟨(lerp_length h).trans hx.1, fun r hr => rowHolds_lerp ht ht1 h (hx.2 r hr) (hy.2 r hr)⟩

/-- A minimiser is strictly better than every other feasible point. -/
theorem qp_unique {G a : List K} {rows : List (Row K)} {x y : List K} (hG : ∀ w ∈ G, 0 < w)
    (hx : Feasible G.length rows x) (hmin : ∀ y, Feasible G.length rows y → qpObj G a x ≤ qpObj G a y)
    (hy : Feasible G.length rows y) (hne : x ≠ y) : qpObj G a x < qpObj G a y := by
  have h : x.length = y.length := hx.1.trans hy.1.symm
  have h1 := hmin _ (feasible_lerp (t := 1 / 2) (by positivity) (by linarith) hx hy)
  rw [qpObj_lerp _ G a x y h] at h1
  have h2 := gDist_pos hG hx.1 hy.1 hne
  linarith

theorem dot_ones_sq (v : List K) : dot (List.replicate v.length (1 : K)) (List.zipWith (· * ·) v v) = sqNorm v := by
  unfold sqNorm
  induction v with
  | nil => simp
  | cons a v ih => simp only [List.length_cons, List.replicate_succ, List.zipWith_cons_cons, dot_cons, ih]; ring

theorem sqDist_expand {v u : List K} (h : v.length = u.length) : sqDist v u = sqNorm v - 2 * dot u v + sqNorm u := by
  unfold sqDist sqNorm
  induction v generalizing u with
  | nil => cases u with
    | nil => simp [vsub]
    | cons => simp at h
  | cons a v ih => cases u with
    | nil => simp at h
    | cons b u =>
      have := ih (u := u) (by simpa using h)
      unfold vsub at this ⊢
      simp only [List.zipWith_cons_cons, dot_cons, this]
      ring

/-- The quadratic program of the optimisation module measures the slack cost. -/
theorem qpObj_slackCost {u v d W : List K} (hv : v.length = u.length) :
    qpObj (List.replicate u.length 1 ++ W) (u ++ zeros W.length) (v ++ d) =
      (slackCost W u v d - sqNorm u) / 2 := by
  unfold qpObj slackCost
  have e : List.zipWith (· * ·) (v ++ d) (v ++ d) = List.zipWith (· * ·) v v ++ List.zipWith (· * ·) d d := by
    rw [List.zipWith_append rfl]
  rw [e, dot_append (by simp [hv]), dot_append hv.symm, dot_zeros_left, ← hv, dot_ones_sq, sqDist_expand hv]
  ring

end RTA
