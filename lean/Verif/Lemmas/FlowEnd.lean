import Verif.Lemmas.FlowLeast
import Verif.Lemmas.Flow

/-!
Constraints that are only differentiable inside a region which the constraints themselves protect: arguments up to the first time
something goes wrong, and gradients that are lists of partial derivatives.
-/
namespace RTA
open Set Filter Topology

/-- Induction over time: what holds at the start, for a while after each time at which it holds, and at each time before which it always
held, holds for ever. -/
theorem time_induction {P : ℝ → Prop} (h0 : P 0) (hr : ∀ t, 0 ≤ t → P t → ∀ᶠ s in 𝓝[>] t, P s)
    (hl : ∀ T, 0 < T → (∀ t, 0 ≤ t → t < T → P t) → P T) : ∀ t, 0 ≤ t → P t := by
  intro t0 ht0
  by_contra hneg
  have hne : {t | 0 ≤ t ∧ ¬ P t}.Nonempty := ⟨t0, ht0, hneg⟩
  have hbd : BddBelow {t | 0 ≤ t ∧ ¬ P t} := ⟨0, fun t ht => ht.1⟩
  obtain ⟨T, hT⟩ : ∃ T, T = sInf {t | 0 ≤ t ∧ ¬ P t} := ⟨_, rfl⟩
  have hT0 : 0 ≤ T := by rw [hT]; exact le_csInf hne fun t ht => ht.1
  have hb : ∀ t, 0 ≤ t → t < T → P t := by
    intro t h1 h2
    by_contra hn
    have : T ≤ t := by rw [hT]; exact csInf_le hbd ⟨h1, hn⟩
    linarith
  have hPT : P T := by
    rcases hT0.eq_or_lt with h | h
    · rw [← h]; exact h0
    · exact hl T h hb
  have hev := hr T hT0 hPT
  rw [eventually_nhdsWithin_iff, Metric.eventually_nhds_iff] at hev
  obtain ⟨ε, hε, hev⟩ := hev
  obtain ⟨t, ht, hlt⟩ := exists_lt_of_csInf_lt hne (show sInf {t | 0 ≤ t ∧ ¬ P t} < T + ε by rw [← hT]; linarith)
  have h1 : T ≤ t := by rw [hT]; exact csInf_le hbd ht
  rcases h1.eq_or_lt with h | h
  · exact ht.2 (h ▸ hPT)
  · exact ht.2 (hev (by rw [Real.dist_eq, abs_of_pos (by linarith)]; linarith) h)

/-- `least_stays_pos` up to the end of an interval on whose inside all functions are positive. -/
theorem least_pos_end {ι : Type} [DecidableEq ι] (J : Finset ι) {h h' : ι → ℝ → ℝ} {al : ℝ → ℝ} {T : ℝ} (hT : 0 ≤ T)
    (hc : ∀ i ∈ J, ContinuousOn (h i) (Icc 0 T)) (hd : ∀ i ∈ J, ∀ t, 0 ≤ t → t < T → HasDerivWithinAt (h i) (h' i t) (Ici t) t)
    (hp : ∀ t, 0 ≤ t → t < T → ∀ i ∈ J, 0 < h i t)
    (hl : ∀ t, 0 ≤ t → t < T → ∃ i ∈ J, (∀ j ∈ J, h i t ≤ h j t) ∧ -al (h i t) ≤ h' i t)
    (hL : ∀ M, ∃ L, ∀ y, 0 < y → y ≤ M → al y ≤ L * y) (h0 : ∀ i ∈ J, 0 < h i 0) : ∀ i ∈ J, 0 < h i T := by
  intro iT hiT
  have hM : ∃ M, ∀ i ∈ J, ∀ t ∈ Icc 0 T, h i t ≤ M := by
    have hb : ∀ i : ι, ∃ M, i ∈ J → ∀ t ∈ Icc 0 T, h i t ≤ M := by
      intro i
      by_cases hi : i ∈ J
      · obtain ⟨M, hM⟩ := (isCompact_Icc (a := (0 : ℝ)) (b := T)).bddAbove_image (hc i hi)
        exact ⟨M, fun _ t ht => hM ⟨t, ht, rfl⟩⟩
      · exact ⟨0, fun h => absurd h hi⟩
    choose M hM using hb
    obtain ⟨im, him, hmax⟩ := Finset.exists_max_image J M ⟨iT, hiT⟩
    exact ⟨M im, fun i hi t ht => (hM i hi t ht).trans (hmax i hi)⟩
  obtain ⟨M, hM⟩ := hM
  obtain ⟨L, hL⟩ := hL M
  have hexp : ∀ t, HasDerivAt (fun s => Real.exp ((L + 1) * s)) (Real.exp ((L + 1) * t) * (L + 1)) t := by
    intro t
    have := ((hasDerivAt_id t).const_mul (L + 1)).exp
    simpa using this
  obtain ⟨im, him, hmin⟩ := Finset.exists_min_image J (fun i => h i 0) ⟨iT, hiT⟩
  have key := least_rises (h := fun i s => h i s * Real.exp ((L + 1) * s))
    (h' := fun i s => h' i s * Real.exp ((L + 1) * s) + h i s * (Real.exp ((L + 1) * s) * (L + 1))) J.card J le_rfl 0 T (h im 0) hT
    (fun i hi => (hc i hi).mul (Continuous.continuousOn (by fun_prop)))
    (fun i hi t ht => (hd i hi t ht.1.le ht.2).mul (hexp t).hasDerivWithinAt)
    (fun t ht => by
      obtain ⟨i, hi, hle, hrate⟩ := hl t ht.1.le ht.2
      have he : 0 < Real.exp ((L + 1) * t) := Real.exp_pos _
      refine ⟨i, hi, fun j hj => mul_le_mul_of_nonneg_right (hle j hj) he.le, ?_⟩
      have hp := hp t ht.1.le ht.2 i hi
      have h1 := hL (h i t) hp (hM i hi t ⟨ht.1.le, ht.2.le⟩)
      have : 0 < (h' i t + h i t * (L + 1)) * Real.exp ((L + 1) * t) := mul_pos (by nlinarith) he
      linarith)
    (fun i hi => by simpa using hmin i hi) iT hiT
  have h1 : 0 < h im 0 := h0 im him
  have h2 : 0 < Real.exp ((L + 1) * T) := Real.exp_pos _
  by_contra hn
  rw [not_lt] at hn
  nlinarith

/-- The same for one function. -/
theorem pos_end {h h' : ℝ → ℝ} {al : ℝ → ℝ} {T : ℝ} (hT : 0 ≤ T) (hc : ContinuousOn h (Icc 0 T))
    (hd : ∀ t, 0 ≤ t → t < T → HasDerivWithinAt h (h' t) (Ici t) t) (hp : ∀ t, 0 ≤ t → t < T → 0 < h t)
    (hl : ∀ t, 0 ≤ t → t < T → -al (h t) ≤ h' t) (hL : ∀ M, ∃ L, ∀ y, 0 < y → y ≤ M → al y ≤ L * y) (h0 : 0 < h 0) : 0 < h T :=
  least_pos_end {()} (h := fun _ => h) (h' := fun _ => h') hT (fun _ _ => hc) (fun _ _ => hd) (fun t h1 h2 _ _ => hp t h1 h2)
    (fun t h1 h2 => ⟨(), by simp, fun _ _ => le_rfl, hl t h1 h2⟩) hL (fun _ _ => h0) () (by simp)

/-- A quantity that is positive before `T` and whose rate is positive at `T` is positive at `T`. -/
theorem arrives_pos {d w : ℝ → ℝ} {T : ℝ} (hT : 0 < T) (hc : ContinuousOn d (Icc 0 T))
    (hd : ∀ t, 0 ≤ t → t < T → HasDerivWithinAt d (w t) (Ici t) t) (hp : ∀ t, 0 ≤ t → t < T → 0 < d t)
    (hw : ContinuousWithinAt w (Icc 0 T) T) (hwT : 0 < w T) : 0 < d T := by
  have hev := hw.eventually (lt_mem_nhds hwT)
  rw [eventually_nhdsWithin_iff, Metric.eventually_nhds_iff] at hev
  obtain ⟨ε, hε, hev⟩ := hev
  obtain ⟨a, ha⟩ : ∃ a, a = max 0 (T - ε / 2) := ⟨_, rfl⟩
  have ha0 : 0 ≤ a := by rw [ha]; exact le_max_left _ _
  have haT : a < T := by rw [ha]; exact max_lt hT (by linarith)
  have hae : T - ε / 2 ≤ a := by rw [ha]; exact le_max_right _ _
  have key := image_le_of_deriv_right_le_deriv_boundary (f := fun _ => d a) (f' := fun _ => 0) (a := a) (b := T) (B := d) (B' := w)
    continuousOn_const (fun _ _ => hasDerivWithinAt_const _ _ _) le_rfl (hc.mono (Icc_subset_Icc_left ha0))
    (fun t ht => hd t (ha0.trans ht.1) ht.2) (fun t ht => (hev (by
      rw [Real.dist_eq, abs_sub_comm, abs_of_nonneg (by linarith [ht.2])]
      linarith [ht.1]) ⟨ha0.trans ht.1, ht.2.le⟩).le)
  exact (hp a ha0 haT).trans_le (key (right_mem_Icc.2 haT.le))

/-- Constraints `H i` (each the least of the functions `H i j`, `j ∈ J i`) that are only regular where the guards `d` are positive. If the
constraints satisfy their barrier conditions while everything is positive, and positive constraints make a guard that has reached zero
rise, then everything stays positive. -/
theorem guarded {ι κ γ : Type} [DecidableEq κ] {I : List ι} {J : ι → Finset κ} {G : List γ} {H H' : ι → κ → ℝ → ℝ} {al : ι → ℝ → ℝ}
    {d w : γ → ℝ → ℝ} {T : ℝ}
    (hdc : ∀ g ∈ G, ContinuousOn (d g) (Ici 0))
    (hdd : ∀ g ∈ G, ∀ t, 0 ≤ t → t < T → (∀ k ∈ G, 0 < d k t) → HasDerivWithinAt (d g) (w g t) (Ici t) t)
    (hwc : ∀ g ∈ G, ContinuousOn (w g) {t | 0 ≤ t ∧ t ≤ T ∧ ∀ k ∈ G, 0 ≤ d k t})
    (hHc : ∀ i ∈ I, ∀ j ∈ J i, ContinuousOn (H i j) {t | 0 ≤ t ∧ t ≤ T ∧ ∀ k ∈ G, 0 ≤ d k t})
    (hHd : ∀ i ∈ I, ∀ j ∈ J i, ∀ t, 0 ≤ t → t < T → (∀ k ∈ G, 0 < d k t) → 0 < H i j t → HasDerivWithinAt (H i j) (H' i j t) (Ici t) t)
    (hbar : ∀ t, 0 ≤ t → t < T → (∀ k ∈ G, 0 < d k t) → (∀ i ∈ I, ∀ j ∈ J i, 0 < H i j t) →
      ∀ i ∈ I, ∃ j ∈ J i, (∀ k ∈ J i, H i j t ≤ H i k t) ∧ -al i (H i j t) ≤ H' i j t)
    (hL : ∀ i ∈ I, ∀ M, ∃ L, ∀ y, 0 < y → y ≤ M → al i y ≤ L * y)
    (hedge : ∀ t, 0 ≤ t → t ≤ T → (∀ k ∈ G, 0 ≤ d k t) → (∀ i ∈ I, ∀ j ∈ J i, 0 < H i j t) → ∀ g ∈ G, d g t = 0 → 0 < w g t)
    (h0 : (∀ k ∈ G, 0 < d k 0) ∧ ∀ i ∈ I, ∀ j ∈ J i, 0 < H i j 0) :
    ∀ t, 0 ≤ t → t ≤ T → (∀ k ∈ G, 0 < d k t) ∧ ∀ i ∈ I, ∀ j ∈ J i, 0 < H i j t := by
  refine fun t ht htT => time_induction (P := fun t => t ≤ T → (∀ k ∈ G, 0 < d k t) ∧ ∀ i ∈ I, ∀ j ∈ J i, 0 < H i j t) (fun _ => h0) ?_ ?_ t ht htT
  · intro t ht hP
    by_cases hlt : t < T
    · obtain ⟨hd, hH⟩ := hP hlt.le
      have e1 : ∀ k ∈ G, ∀ᶠ s in 𝓝[>] t, 0 < d k s := fun k hk =>
        (((hdc k hk t ht).mono (Ioi_subset_Ici (le_refl t) |>.trans (Ici_subset_Ici.2 ht))).eventually (lt_mem_nhds (hd k hk)))
      have e2 : ∀ i ∈ I, ∀ j ∈ J i, ∀ᶠ s in 𝓝[>] t, 0 < H i j s := fun i hi j hj => by
        have hc := (hHd i hi j hj t ht hlt hd (hH i hi j hj)).continuousWithinAt
        exact ((hc.mono Ioi_subset_Ici_self).eventually (lt_mem_nhds (hH i hi j hj)))
      have e1' : ∀ᶠ s in 𝓝[>] t, ∀ k ∈ G, 0 < d k s := by
        clear hP hd hH e2 hdd hwc hHc hHd hbar hedge h0 hdc
        induction G with
        | nil => simp
        | cons k G ih =>
          filter_upwards [e1 k (by simp), ih fun k hk => e1 k (by simp [hk])] with s h1 h2 q hq
          rcases List.mem_cons.1 hq with rfl | hq
          · exact h1
          · exact h2 q hq
      have e2' : ∀ᶠ s in 𝓝[>] t, ∀ i ∈ I, ∀ j ∈ J i, 0 < H i j s := by
        clear hP hd hH e1 e1' hdd hwc hHc hHd hbar hedge h0 hdc hL
        induction I with
        | nil => simp
        | cons k I ih =>
          have := (Filter.eventually_all_finset (J k)).2 (e2 k (by simp))
          filter_upwards [this, ih fun i hi => e2 i (by simp [hi])] with s h1 h2 q hq
          rcases List.mem_cons.1 hq with rfl | hq
          · exact h1
          · exact h2 q hq
      filter_upwards [e1', e2'] with s h1 h2 _
      exact ⟨h1, h2⟩
    · filter_upwards [self_mem_nhdsWithin] with s hs hsT
      have : t < s := hs
      linarith
  · intro S hS hb hST
    have hb' : ∀ t, 0 ≤ t → t < S → (∀ k ∈ G, 0 < d k t) ∧ ∀ i ∈ I, ∀ j ∈ J i, 0 < H i j t :=
      fun t h1 h2 => hb t h1 h2 (h2.le.trans hST)
    have hcl : ∀ g ∈ G, 0 ≤ d g S := by
      intro g hg
      have hc : ContinuousWithinAt (d g) (Ico 0 S) S := (hdc g hg S hS.le).mono fun t ht => ht.1
      have : (𝓝[Ico 0 S] S).NeBot := by
        rw [← mem_closure_iff_nhdsWithin_neBot, closure_Ico hS.ne]
        exact right_mem_Icc.2 hS.le
      exact ge_of_tendsto hc (by filter_upwards [self_mem_nhdsWithin] with t ht using ((hb' t ht.1 ht.2).1 g hg).le)
    have hsub : Icc 0 S ⊆ {t | 0 ≤ t ∧ t ≤ T ∧ ∀ k ∈ G, 0 ≤ d k t} := by
      intro t ht
      refine ⟨ht.1, ht.2.trans hST, fun k hk => ?_⟩
      rcases ht.2.eq_or_lt with h | h
      · rw [h]; exact hcl k hk
      · exact ((hb' t ht.1 h).1 k hk).le
    have hHS : ∀ i ∈ I, ∀ j ∈ J i, 0 < H i j S := by
      intro i hi
      exact least_pos_end (J i) hS.le (fun j hj => (hHc i hi j hj).mono hsub)
        (fun j hj t h1 h2 => hHd i hi j hj t h1 (h2.trans_le hST) (hb' t h1 h2).1 ((hb' t h1 h2).2 i hi j hj))
        (fun t h1 h2 j hj => (hb' t h1 h2).2 i hi j hj)
        (fun t h1 h2 => hbar t h1 (h2.trans_le hST) (hb' t h1 h2).1 (hb' t h1 h2).2 i hi) (hL i hi) (h0.2 i hi)
    refine ⟨fun g hg => ?_, hHS⟩
    rcases (hcl g hg).eq_or_lt with h | h
    · exact arrives_pos hS ((hdc g hg).mono fun t ht => ht.1) (fun t h1 h2 => hdd g hg t h1 (h2.trans_le hST) (hb' t h1 h2).1)
        (fun t h1 h2 => (hb' t h1 h2).1 g hg) ((hwc g hg).mono hsub S (right_mem_Icc.2 hS.le))
        (hedge S hS.le hST hcl hHS g hg h.symm)
    · exact h

/-- The list with the entries of a vector. -/
theorem toVec_ofFn {n : Nat} (y : Fin n → ℝ) : toVec n (List.ofFn y) = y := by
  funext i
  simp [toVec, List.getD_eq_getElem?_getD]

theorem ofFn_toVec {n : Nat} {x : List ℝ} (hx : x.length = n) : List.ofFn (toVec n x) = x := by
  refine List.ext_getElem (by simp [hx]) fun i h1 h2 => ?_
  simp [toVec, List.getD_eq_getElem?_getD, List.getElem?_eq_getElem h2]

theorem dot_toVec {n : Nat} (q w : Fin n → ℝ) : dot (List.ofFn q) (List.ofFn w) = ∑ i, q i * w i := by
  induction n with
  | zero => simp
  | succ n ih => rw [List.ofFn_succ, List.ofFn_succ, dot_cons, Fin.sum_univ_succ, ih]

/-- The list of partial derivatives represents the derivative wherever the function is differentiable. -/
theorem dot_partials {P : Type} {n : Nat} {h : List ℝ → P → ℝ} {p : P} {x v : List ℝ} (hl : x.length = n) (hv : v.length = n)
    (hd : DifferentiableAt ℝ (fun y : Fin n → ℝ => h (List.ofFn y) p) (toVec n x)) :
    dot (partials h x p) v = fderiv ℝ (fun y : Fin n → ℝ => h (List.ofFn y) p) (toVec n x) (toVec n v) := by
  obtain ⟨L, hL⟩ : ∃ L, L = fderiv ℝ (fun y : Fin n → ℝ => h (List.ofFn y) p) (toVec n x) := ⟨_, rfl⟩
  have hF : HasFDerivAt (fun y : Fin n → ℝ => h (List.ofFn y) p) L (toVec n x) := by rw [hL]; exact hd.hasFDerivAt
  rw [← hL]
  have hpart : ∀ i : Fin n, deriv (fun s => h (x.set i s) p) (x.getD i 0) = L (Pi.single i 1) := by
    intro i
    have e : ∀ s, List.ofFn (Function.update (toVec n x) i s) = x.set i s := by
      intro s
      refine List.ext_getElem (by simp [hl]) fun j h1 h2 => ?_
      rw [List.getElem_set]
      simp only [List.getElem_ofFn, Function.update_apply, Fin.ext_iff]
      have hj : j < x.length := by simpa using h2
      by_cases hji : j = i
      · simp [hji]
      · rw [if_neg hji, if_neg (fun e => hji e.symm)]
        simp [toVec, List.getD_eq_getElem?_getD, List.getElem?_eq_getElem hj]
    have hu : HasDerivAt (fun s => Function.update (toVec n x) i s) (Pi.single i 1) (x.getD i 0) := by
      rw [hasDerivAt_pi]
      intro j
      by_cases hj : j = i
      · subst hj
        simp only [Function.update_self, Pi.single_eq_same]
        exact hasDerivAt_id _
      · simpa [Function.update_of_ne hj, Pi.single_eq_of_ne hj] using hasDerivAt_const _ _
    have hF' : HasFDerivAt (fun y : Fin n → ℝ => h (List.ofFn y) p) L (Function.update (toVec n x) i (x.getD i 0)) := by
      have : Function.update (toVec n x) i (x.getD i 0) = toVec n x := Function.update_eq_self i (toVec n x)
      rw [this]
      exact hF
    have := HasFDerivAt.comp_hasDerivAt (x.getD i 0) hF' hu
    have := this.deriv
    simpa only [Function.comp_def, e] using this
  have hsum : L (toVec n v) = ∑ i, toVec n v i * L (Pi.single i 1) := by
    conv_lhs => rw [show toVec n v = ∑ i, toVec n v i • (Pi.single i 1 : Fin n → ℝ) from by
      funext j
      simp [Finset.sum_apply, Pi.single_apply]]
    rw [map_sum]
    simp
  have hp : partials h x p = List.ofFn fun i : Fin n => L (Pi.single i 1) := by
    refine List.ext_getElem (by simp [partials, hl]) fun i h1 h2 => ?_
    have hi : i < n := by simpa using h2
    simp only [partials, List.getElem_map, List.getElem_range, List.getElem_ofFn]
    exact hpart ⟨i, hi⟩
  rw [hp]
  have hv' : v = List.ofFn (toVec n v) := (ofFn_toVec hv).symm
  rw [hsum]
  conv_lhs => rw [hv']
  rw [dot_toVec]
  exact Finset.sum_congr rfl fun i _ => mul_comm _ _

/-- The list of partial derivatives is the gradient wherever the function is differentiable. -/
theorem isGradientOn_partials {P : Type} {D : Set (List ℝ)} {n : Nat} {h : List ℝ → P → ℝ} {p : P}
    (hd : ∀ x ∈ D, x.length = n → DifferentiableAt ℝ (fun y : Fin n → ℝ => h (List.ofFn y) p) (toVec n x)) :
    IsGradientOn D n (fun x => h x p) (fun x => partials h x p) :=
  isGradientOn_of_fderiv (H := fun y : Fin n → ℝ => h (List.ofFn y) p) (L := fun y => fderiv ℝ (fun y : Fin n → ℝ => h (List.ofFn y) p) y)
    (fun x _ hx => by simp only [ofFn_toVec hx]) (fun x hx hl => (hd x hx hl).hasFDerivAt)
    (fun x hx hl v hv => dot_partials hl hv (hd x hx hl))

/-- Along a curve, a function that is differentiable at a point changes there at the rate given by its partial derivatives. -/
theorem partials_along {P : Type} {n : Nat} {h : List ℝ → P → ℝ} {p : P} {x : ℝ → List ℝ} {v : List ℝ} {T : Set ℝ} {t : ℝ} (ht : t ∈ T)
    (hl : ∀ s ∈ T, (x s).length = n) (hv : v.length = n)
    (hx : ∀ i < n, HasDerivWithinAt (fun s => (x s).getD i 0) (v.getD i 0) T t)
    (hd : DifferentiableAt ℝ (fun y : Fin n → ℝ => h (List.ofFn y) p) (toVec n (x t))) :
    HasDerivWithinAt (fun s => h (x s) p) (dot (partials h (x t) p) v) T t := by
  rw [dot_partials (hl t ht) hv hd]
  have h1 : HasDerivWithinAt (fun s => toVec n (x s)) (toVec n v) T t := hasDerivWithinAt_pi.2 fun i => hx i i.2
  have h2 := HasFDerivAt.comp_hasDerivWithinAt (f := fun s => toVec n (x s)) t hd.hasFDerivAt h1
  exact h2.congr (fun s hs => by simp only [Function.comp, ofFn_toVec (hl s hs)]) (by simp only [Function.comp, ofFn_toVec (hl t ht)])

end RTA
