import Verif.Lemmas.Flow
import Mathlib.Analysis.Calculus.Deriv.Pow

/-!
Comparison over one hold interval: a control that is computed at the beginning and kept until the end.
-/
namespace RTA
open Set

/-- A function whose derivative is at least `r - L (t - a)` on `[a, b)` gains at least `r (b - a) - L (b - a)²/2`. -/
theorem hold_lower {h h' : ℝ → ℝ} {a b r L : ℝ} (hab : a ≤ b) (hc : ContinuousOn h (Icc a b))
    (hd : ∀ t ∈ Ico a b, HasDerivWithinAt h (h' t) (Ici t) t) (hr : ∀ t ∈ Ico a b, r - L * (t - a) ≤ h' t) :
    h a + r * (b - a) - L * (b - a) ^ 2 / 2 ≤ h b := by
  have hlin : ∀ s, HasDerivAt (fun s : ℝ => -h a - r * (s - a) + L * (s - a) ^ 2 / 2) (-(r - L * (s - a))) s := by
    intro s
    have h1 : HasDerivAt (fun s : ℝ => s - a) 1 s := (hasDerivAt_id s).sub_const a
    have h2 := ((h1.const_mul r).const_sub (-h a)).add (((h1.pow 2).const_mul L).div_const 2)
    refine h2.congr_deriv ?_
    simp; ring
  have key := image_le_of_deriv_right_le_deriv_boundary (f := fun s => -h s) (f' := fun s => -h' s) (a := a) (b := b)
    (B := fun s => -h a - r * (s - a) + L * (s - a) ^ 2 / 2) (B' := fun s => -(r - L * (s - a)))
    hc.neg (fun s hs => (hd s hs).neg) (by simp)
    (fun s _ => (hlin s).continuousAt.continuousWithinAt) (fun s _ => (hlin s).hasDerivWithinAt)
    (fun s hs => by have := hr s hs; linarith)
  have := key (right_mem_Icc.2 hab)
  linarith

/-- The same from above. -/
theorem hold_upper {h h' : ℝ → ℝ} {a b r : ℝ} (hab : a ≤ b) (hc : ContinuousOn h (Icc a b))
    (hd : ∀ t ∈ Ico a b, HasDerivWithinAt h (h' t) (Ici t) t) (hr : ∀ t ∈ Ico a b, h' t ≤ r) : h b ≤ h a + r * (b - a) := by
  have := hold_lower (h := fun t => -h t) (h' := fun t => -h' t) (r := -r) (L := 0) hab hc.neg (fun t ht => (hd t ht).neg)
    (fun t ht => by have := hr t ht; linarith)
  linarith

/-- The same from below with a constant rate. -/
theorem hold_lower0 {h h' : ℝ → ℝ} {a b r : ℝ} (hab : a ≤ b) (hc : ContinuousOn h (Icc a b))
    (hd : ∀ t ∈ Ico a b, HasDerivWithinAt h (h' t) (Ici t) t) (hr : ∀ t ∈ Ico a b, r ≤ h' t) : h a + r * (b - a) ≤ h b := by
  have := hold_lower (r := r) (L := 0) hab hc hd (fun t ht => by have := hr t ht; linarith)
  linarith

end RTA
