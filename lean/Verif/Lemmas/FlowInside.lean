import Verif.Lemmas.Flow
import Mathlib.Analysis.SpecialFunctions.ExpDeriv
import Mathlib.Topology.Order.Compact

/-!
Finitely many functions that cannot fall to zero faster than exponentially stay positive. The rate is only known while all are
positive.
-/
namespace RTA
open Set

theorem stays_pos_until {ι : Type} (l : List ι) {h h' : ι → ℝ → ℝ} {a : ι → ℝ → ℝ} (hc : ∀ i ∈ l, ContinuousOn (h i) (Ici 0))
    (hd : ∀ i ∈ l, ∀ t, 0 ≤ t → HasDerivWithinAt (h i) (h' i t) (Ici t) t) {t0 : ℝ} (ht0 : 0 ≤ t0)
    (hb : ∀ t, 0 ≤ t → t < t0 → (∀ i ∈ l, 0 < h i t) → ∀ i ∈ l, -a i (h i t) ≤ h' i t)
    (hL : ∀ i ∈ l, ∀ M, ∃ L, ∀ y, 0 < y → y ≤ M → a i y ≤ L * y) (h0 : ∀ i ∈ l, 0 < h i 0) :
    ∀ i ∈ l, 0 < h i t0 := by
  intro i0 hi0
  by_contra hneg
  rw [not_lt] at hneg
  -- the first time some function is not positive
  have hcl : IsClosed (⋃ i ∈ {i | i ∈ l}, (Icc 0 t0 ∩ (h i) ⁻¹' Iic 0)) := by
    refine Set.Finite.isClosed_biUnion (List.finite_toSet l) fun i hi => ?_
    exact ((hc i hi).mono Icc_subset_Ici_self).preimage_isClosed_of_isClosed isClosed_Icc isClosed_Iic
  have hsub : (⋃ i ∈ {i | i ∈ l}, (Icc 0 t0 ∩ (h i) ⁻¹' Iic 0)) ⊆ Icc 0 t0 := by
    intro t ht
    simp only [mem_iUnion] at ht
    obtain ⟨i, -, ht, -⟩ := ht
    exact ht
  have hcomp := isCompact_Icc.of_isClosed_subset hcl hsub
  obtain ⟨T, hT, hleast⟩ := hcomp.exists_isLeast ⟨t0, by
    simp only [mem_iUnion]
    exact ⟨i0, hi0, ⟨ht0, le_rfl⟩, hneg⟩⟩
  simp only [mem_iUnion] at hT
  obtain ⟨i, hi, ⟨hT0, hTt⟩, hTneg⟩ := hT
  have hbefore : ∀ t, 0 ≤ t → t < T → ∀ j ∈ l, 0 < h j t := by
    intro t h1 h2 j hj
    by_contra hn
    rw [not_lt] at hn
    refine absurd (hleast ?_) (not_le.2 h2)
    simp only [mem_iUnion]
    exact ⟨j, hj, ⟨h1, by linarith⟩, hn⟩
  obtain ⟨M, hM⟩ := (isCompact_Icc (a := (0 : ℝ)) (b := T)).bddAbove_image ((hc i hi).mono Icc_subset_Ici_self)
  obtain ⟨L, hL⟩ := hL i hi M
  have hexp : ∀ t, HasDerivAt (fun s => Real.exp (L * s)) (Real.exp (L * t) * L) t := by
    intro t
    have := ((hasDerivAt_id t).const_mul L).exp
    simpa using this
  have key := image_le_of_deriv_right_le_deriv_boundary (f := fun s => -(h i s * Real.exp (L * s)))
    (f' := fun s => -(h' i s * Real.exp (L * s) + h i s * (Real.exp (L * s) * L))) (a := 0) (b := T)
    (B := fun _ => -h i 0) (B' := fun _ => 0)
    (by
      refine ContinuousOn.neg (((hc i hi).mono Icc_subset_Ici_self).mul ?_)
      exact (Continuous.continuousOn (by fun_prop)))
    (fun s hs => ((hd i hi s hs.1).mul (hexp s).hasDerivWithinAt).neg) (by simp)
    continuousOn_const (fun x _ => (hasDerivAt_const x _).hasDerivWithinAt) ?_
    (right_mem_Icc.2 hT0)
  · have hp : 0 < h i 0 := h0 i hi
    have he : 0 < Real.exp (L * T) := Real.exp_pos _
    have hTneg' : h i T ≤ 0 := hTneg
    nlinarith
  · intro s hs
    have hpos := hbefore s hs.1 hs.2
    have h1 := hb s hs.1 (hs.2.trans_le hTt) hpos i hi
    have h2 := hL (h i s) (hpos i hi) (hM ⟨s, ⟨hs.1, hs.2.le⟩, rfl⟩)
    have he : 0 < Real.exp (L * s) := Real.exp_pos _
    have : 0 ≤ (h' i s + L * h i s) * Real.exp (L * s) := mul_nonneg (by linarith) he.le
    linarith

theorem stays_pos_family {ι : Type} (l : List ι) {h h' : ι → ℝ → ℝ} {a : ι → ℝ → ℝ} (hc : ∀ i ∈ l, ContinuousOn (h i) (Ici 0))
    (hd : ∀ i ∈ l, ∀ t, 0 ≤ t → HasDerivWithinAt (h i) (h' i t) (Ici t) t)
    (hb : ∀ t, 0 ≤ t → (∀ i ∈ l, 0 < h i t) → ∀ i ∈ l, -a i (h i t) ≤ h' i t)
    (hL : ∀ i ∈ l, ∀ M, ∃ L, ∀ y, 0 < y → y ≤ M → a i y ≤ L * y) (h0 : ∀ i ∈ l, 0 < h i 0) :
    ∀ t, 0 ≤ t → ∀ i ∈ l, 0 < h i t :=
  fun _ ht => stays_pos_until l hc hd ht (fun t h1 _ => hb t h1) hL h0

end RTA
