import Verif.Lemmas.Flow
import Mathlib.Topology.Order.Compact
import Mathlib.Analysis.Calculus.Deriv.Slope
import Mathlib.Data.Finset.Filter
import Mathlib.Analysis.SpecialFunctions.ExpDeriv

/-!
The least of finitely many functions does not fall below zero when at every time it is negative one of those that attain it
rises. Nothing is assumed about the others, nor about the ones that attain it at the same time.
-/
namespace RTA
open Set Filter Topology

theorem rises {h : ℝ → ℝ} {d c y : ℝ} (hd : HasDerivWithinAt h d (Ici c) c) (hy : y ≤ h c) (hp : y < h c ∨ 0 < d) :
    ∀ᶠ t in 𝓝[>] c, y < h t := by
  rcases hp with hp | hp
  · exact (hd.continuousWithinAt.mono Ioi_subset_Ici_self).eventually (lt_mem_nhds hp)
  · have hs := (hasDerivWithinAt_iff_tendsto_slope' (by simp)).1 (hd.mono Ioi_subset_Ici_self)
    filter_upwards [hs.eventually (lt_mem_nhds hp), self_mem_nhdsWithin] with t ht hct
    have hct : 0 < t - c := sub_pos.2 hct
    rw [slope_def_field, div_pos_iff] at ht
    rcases ht with ht | ht
    · linarith [ht.1]
    · linarith [ht.2]

theorem last_above {ι : Type} (J : Finset ι) {h : ι → ℝ → ℝ} {a b y : ℝ} (hab : a ≤ b) (hc : ∀ i ∈ J, ContinuousOn (h i) (Icc a b))
    (ha : ∀ i ∈ J, y ≤ h i a) : ∃ c ∈ Icc a b, (∀ i ∈ J, y ≤ h i c) ∧ ∀ t, c < t → t ≤ b → ∃ i ∈ J, h i t < y := by
  have e : Icc a b ∩ {t | ∀ i ∈ J, y ≤ h i t} = Icc a b ∩ ⋂ i ∈ J, (Icc a b ∩ (h i) ⁻¹' Ici y) := by
    ext t
    simp only [mem_inter_iff, mem_ofPred_eq, mem_iInter, mem_preimage, mem_Ici]
    constructor
    · rintro ⟨h1, h2⟩; exact ⟨h1, fun i hi => ⟨h1, h2 i hi⟩⟩
    · rintro ⟨h1, h2⟩; exact ⟨h1, fun i hi => (h2 i hi).2⟩
  have hcl : IsClosed (Icc a b ∩ {t | ∀ i ∈ J, y ≤ h i t}) := by
    rw [e]
    exact isClosed_Icc.inter (isClosed_biInter fun i hi => (hc i hi).preimage_isClosed_of_isClosed isClosed_Icc isClosed_Ici)
  obtain ⟨c, hcm, hgr⟩ := (isCompact_Icc.of_isClosed_subset hcl inter_subset_left).exists_isGreatest ⟨a, ⟨le_rfl, hab⟩, ha⟩
  refine ⟨c, hcm.1, hcm.2, fun t h1 h2 => ?_⟩
  by_contra hn
  push Not at hn
  exact absurd (hgr ⟨⟨hcm.1.1.trans h1.le, h2⟩, hn⟩) (not_le.2 h1)

theorem least_rises {ι : Type} [DecidableEq ι] {h h' : ι → ℝ → ℝ} : ∀ (n : Nat) (J : Finset ι), J.card ≤ n → ∀ (a b y : ℝ), a ≤ b →
    (∀ i ∈ J, ContinuousOn (h i) (Icc a b)) → (∀ i ∈ J, ∀ t ∈ Ioo a b, HasDerivWithinAt (h i) (h' i t) (Ici t) t) →
    (∀ t ∈ Ioo a b, ∃ i ∈ J, (∀ j ∈ J, h i t ≤ h j t) ∧ 0 < h' i t) → (∀ i ∈ J, y ≤ h i a) → ∀ i ∈ J, y ≤ h i b := by
  intro n
  induction n with
  | zero =>
    intro J hJ a b y _ _ _ _ _ i hi
    rw [Nat.le_zero, Finset.card_eq_zero] at hJ
    subst hJ
    simp at hi
  | succ n ih =>
    intro J hJ a b y0 hab hc hd hl ha i0 hi0
    by_contra hneg
    rw [not_le] at hneg
    obtain ⟨y, hy1, hy2⟩ := exists_between hneg
    obtain ⟨c, ⟨hac, hcb⟩, hcy, hafter⟩ := last_above J (y := y) hab hc (fun i hi => hy2.le.trans (ha i hi))
    have hcb : c < b := lt_of_le_of_ne hcb (by rintro rfl; exact absurd (hcy i0 hi0) (not_le.2 hy1))
    have hac : a < c := by
      refine lt_of_le_of_ne hac ?_
      rintro rfl
      have hev : ∀ i ∈ J, ∀ᶠ t in 𝓝[>] a, y < h i t := fun i hi =>
        ((hc i hi a ⟨le_rfl, hab⟩).mono Ioc_subset_Icc_self |>.eventually (lt_mem_nhds (hy2.trans_le (ha i hi)))).filter_mono
          (by rw [nhdsWithin_Ioc_eq_nhdsGT hcb])
      have hev := (Finset.eventually_all J).2 hev
      obtain ⟨t, ht1, ht2, ht3⟩ := (hev.and (Ioo_mem_nhdsGT hcb)).exists
      obtain ⟨i, hi, hlt⟩ := hafter t ht2 ht3.le
      exact absurd (ht1 i hi) (not_lt.2 hlt.le)
    -- those that may be least right after `c`
    obtain ⟨J', hJ'⟩ : ∃ J', J' = J.filter fun i => ¬ (y < h i c ∨ 0 < h' i c) := ⟨_, rfl⟩
    have hmem : ∀ i, i ∈ J' ↔ i ∈ J ∧ ¬ (y < h i c ∨ 0 < h' i c) := fun i => by rw [hJ', Finset.mem_filter]
    obtain ⟨ic, hic, -, hicp⟩ := hl c ⟨hac, hcb⟩
    have hcard : J'.card ≤ n := by
      have : J' ⊂ J := by
        rw [Finset.ssubset_iff_of_subset (fun i hi => ((hmem i).1 hi).1)]
        exact ⟨ic, hic, fun hh => ((hmem ic).1 hh).2 (Or.inr hicp)⟩
      have := Finset.card_lt_card this
      omega
    have hev : ∀ i ∈ J, ∀ᶠ t in 𝓝[>] c, i ∉ J' → y < h i t := by
      intro i hi
      by_cases hp : y < h i c ∨ 0 < h' i c
      · exact (rises (hd i hi c ⟨hac, hcb⟩) (hcy i hi) hp).mono fun t ht _ => ht
      · exact Eventually.of_forall fun t hh => absurd ((hmem i).2 ⟨hi, hp⟩) hh
    have hev := (Finset.eventually_all J).2 hev
    rw [eventually_nhdsWithin_iff, Metric.eventually_nhds_iff] at hev
    obtain ⟨ε, hε, hev⟩ := hev
    obtain ⟨d, hd1⟩ : ∃ d, d = c + min (ε / 2) ((b - c) / 2) := ⟨_, rfl⟩
    have hm0 : 0 < min (ε / 2) ((b - c) / 2) := lt_min (by linarith) (by linarith)
    have hm1 := min_le_left (ε / 2) ((b - c) / 2)
    have hm2 := min_le_right (ε / 2) ((b - c) / 2)
    have hcd : c < d := by linarith
    have hdb : d < b := by linarith
    have hout : ∀ t, c < t → t ≤ d → ∀ i ∈ J, i ∉ J' → y < h i t := by
      intro t h1 h2
      refine hev ?_ h1
      rw [Real.dist_eq, abs_of_pos (by linarith)]
      linarith
    have key := ih J' hcard c d y hcd.le
      (fun i hi => (hc i ((hmem i).1 hi).1).mono (Icc_subset_Icc hac.le hdb.le))
      (fun i hi t ht => hd i ((hmem i).1 hi).1 t ⟨hac.trans ht.1, ht.2.trans hdb⟩)
      (fun t ht => by
        obtain ⟨i, hi, hmin, hp⟩ := hl t ⟨hac.trans ht.1, ht.2.trans hdb⟩
        obtain ⟨j, hj, hlt⟩ := hafter t ht.1 (ht.2.trans hdb).le
        refine ⟨i, ?_, fun j hj => hmin j ((hmem j).1 hj).1, hp⟩
        by_contra hni
        have h1 := hout t ht.1 ht.2.le i hi hni
        have h2 := hmin j hj
        linarith)
      (fun i hi => hcy i ((hmem i).1 hi).1)
    obtain ⟨j, hj, hlt⟩ := hafter d hcd hdb.le
    by_cases hjJ : j ∈ J'
    · exact absurd (key j hjJ) (not_le.2 hlt)
    · exact absurd (hout d hcd le_rfl j hj hjJ) (not_lt.2 hlt.le)

/-- If at every time when one of finitely many functions is negative a least one rises, then all stay non-negative. -/
theorem least_stays {ι : Type} [DecidableEq ι] (J : Finset ι) {h h' : ι → ℝ → ℝ} (hc : ∀ i ∈ J, ContinuousOn (h i) (Ici 0))
    (hd : ∀ i ∈ J, ∀ t, 0 ≤ t → HasDerivWithinAt (h i) (h' i t) (Ici t) t)
    (hl : ∀ t, 0 ≤ t → (∃ i ∈ J, h i t < 0) → ∃ i ∈ J, (∀ j ∈ J, h i t ≤ h j t) ∧ 0 < h' i t) (h0 : ∀ i ∈ J, 0 ≤ h i 0) :
    ∀ t, 0 ≤ t → ∀ i ∈ J, 0 ≤ h i t := by
  intro T hT i0 hi0
  by_contra hneg
  rw [not_le] at hneg
  obtain ⟨y, hy1, hy2⟩ := exists_between hneg
  obtain ⟨c, ⟨hc0, hcT⟩, hcy, hafter⟩ := last_above J (y := y) hT (fun i hi => (hc i hi).mono Icc_subset_Ici_self)
    (fun i hi => hy2.le.trans (h0 i hi))
  have := least_rises J.card J le_rfl c T y hcT (fun i hi => (hc i hi).mono fun t ht => hc0.trans ht.1)
    (fun i hi t ht => hd i hi t (hc0.trans ht.1.le))
    (fun t ht => hl t (hc0.trans ht.1.le) (by
      obtain ⟨i, hi, hlt⟩ := hafter t ht.1 ht.2.le
      exact ⟨i, hi, hlt.trans hy2⟩)) hcy i0 hi0
  linarith

/-- If at every time when all of finitely many functions are positive a least one does not fall faster than its strengthener
allows, then all stay positive. -/
theorem least_stays_pos {ι : Type} [DecidableEq ι] (J : Finset ι) {h h' : ι → ℝ → ℝ} {al : ℝ → ℝ} (hc : ∀ i ∈ J, ContinuousOn (h i) (Ici 0))
    (hd : ∀ i ∈ J, ∀ t, 0 ≤ t → HasDerivWithinAt (h i) (h' i t) (Ici t) t)
    (hl : ∀ t, 0 ≤ t → (∀ i ∈ J, 0 < h i t) → ∃ i ∈ J, (∀ j ∈ J, h i t ≤ h j t) ∧ -al (h i t) ≤ h' i t)
    (hL : ∀ M, ∃ L, ∀ y, 0 < y → y ≤ M → al y ≤ L * y) (h0 : ∀ i ∈ J, 0 < h i 0) :
    ∀ t, 0 ≤ t → ∀ i ∈ J, 0 < h i t := by
  intro t0 ht0 i0 hi0
  by_contra hneg
  rw [not_lt] at hneg
  -- the first time one of them is not positive
  have hcl : IsClosed (⋃ i ∈ {i | i ∈ J}, (Icc 0 t0 ∩ (h i) ⁻¹' Iic 0)) := by
    refine Set.Finite.isClosed_biUnion J.finite_toSet fun i hi => ?_
    exact ((hc i hi).mono Icc_subset_Ici_self).preimage_isClosed_of_isClosed isClosed_Icc isClosed_Iic
  have hsub : (⋃ i ∈ {i | i ∈ J}, (Icc 0 t0 ∩ (h i) ⁻¹' Iic 0)) ⊆ Icc 0 t0 := by
    intro t ht
    simp only [mem_iUnion] at ht
    obtain ⟨i, -, ht, -⟩ := ht
    exact ht
  have hcomp := isCompact_Icc.of_isClosed_subset hcl hsub
  obtain ⟨T, hT, hleast⟩ := hcomp.exists_isLeast ⟨t0, by
    simp only [mem_iUnion]
    exact ⟨i0, hi0, ⟨ht0, le_rfl⟩, hneg⟩⟩
  simp only [mem_iUnion] at hT
  obtain ⟨iT, hiT, ⟨hT0, hTt⟩, hTneg⟩ := hT
  have hTneg : h iT T ≤ 0 := hTneg
  have hbefore : ∀ t, 0 ≤ t → t < T → ∀ j ∈ J, 0 < h j t := by
    intro t h1 h2 j hj
    by_contra hn
    rw [not_lt] at hn
    refine absurd (hleast ?_) (not_le.2 h2)
    simp only [mem_iUnion]
    exact ⟨j, hj, ⟨h1, by linarith⟩, hn⟩
  -- all values up to then are bounded
  have hM : ∃ M, ∀ i ∈ J, ∀ t ∈ Icc 0 T, h i t ≤ M := by
    have hb : ∀ i : ι, ∃ M, i ∈ J → ∀ t ∈ Icc 0 T, h i t ≤ M := by
      intro i
      by_cases hi : i ∈ J
      · obtain ⟨M, hM⟩ := (isCompact_Icc (a := (0 : ℝ)) (b := T)).bddAbove_image ((hc i hi).mono Icc_subset_Ici_self)
        exact ⟨M, fun _ t ht => hM ⟨t, ht, rfl⟩⟩
      · exact ⟨0, fun h => absurd h hi⟩
    choose M hM using hb
    obtain ⟨im, him, hmax⟩ := Finset.exists_max_image J M ⟨i0, hi0⟩
    exact ⟨M im, fun i hi t ht => (hM i hi t ht).trans (hmax i hi)⟩
  obtain ⟨M, hM⟩ := hM
  obtain ⟨L, hL⟩ := hL M
  have hexp : ∀ t, HasDerivAt (fun s => Real.exp ((L + 1) * s)) (Real.exp ((L + 1) * t) * (L + 1)) t := by
    intro t
    have := ((hasDerivAt_id t).const_mul (L + 1)).exp
    simpa using this
  obtain ⟨im, him, hmin⟩ := Finset.exists_min_image J (fun i => h i 0) ⟨i0, hi0⟩
  have key := least_rises (h := fun i s => h i s * Real.exp ((L + 1) * s))
    (h' := fun i s => h' i s * Real.exp ((L + 1) * s) + h i s * (Real.exp ((L + 1) * s) * (L + 1))) J.card J le_rfl 0 T (h im 0) hT0
    (fun i hi => ((hc i hi).mono Icc_subset_Ici_self).mul (Continuous.continuousOn (by fun_prop)))
    (fun i hi t ht => (hd i hi t ht.1.le).mul (hexp t).hasDerivWithinAt)
    (fun t ht => by
      obtain ⟨i, hi, hle, hrate⟩ := hl t ht.1.le (hbefore t ht.1.le ht.2)
      have he : 0 < Real.exp ((L + 1) * t) := Real.exp_pos _
      refine ⟨i, hi, fun j hj => mul_le_mul_of_nonneg_right (hle j hj) he.le, ?_⟩
      have hp := hbefore t ht.1.le ht.2 i hi
      have h1 := hL (h i t) hp (hM i hi t ⟨ht.1.le, ht.2.le⟩)
      have : 0 < (h' i t + h i t * (L + 1)) * Real.exp ((L + 1) * t) := mul_pos (by nlinarith) he
      linarith)
    (fun i hi => by simpa using hmin i hi) iT hiT
  have h1 : 0 < h im 0 := h0 im him
  have h2 : 0 < Real.exp ((L + 1) * T) := Real.exp_pos _
  nlinarith

end RTA
