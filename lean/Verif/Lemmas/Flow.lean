import Verif.Spec.Flow
import Verif.Lemmas.LinAlg
import Mathlib.Analysis.Calculus.MeanValue
import Mathlib.Analysis.Calculus.Deriv.Add
import Mathlib.Analysis.Calculus.Deriv.Mul
import Mathlib.Analysis.Calculus.Deriv.Comp
import Mathlib.Analysis.Calculus.Deriv.Prod
import Mathlib.Analysis.Calculus.FDeriv.Pi
import Mathlib.Tactic.Linarith
import Mathlib.Tactic.Positivity

/-!
Scalar comparison arguments and gradients.
-/
namespace RTA
open Set

/-- A function that does not decrease while negative stays non-negative. -/
theorem stays_nonneg {h h' : ℝ → ℝ} {a : ℝ} (hc : ContinuousOn h (Ici a))
    (hd : ∀ t, a ≤ t → HasDerivWithinAt h (h' t) (Ici t) t) (hn : ∀ t, a ≤ t → h t < 0 → 0 ≤ h' t) (h0 : 0 ≤ h a) :
    ∀ t, a ≤ t → 0 ≤ h t := by
  intro t ht
  by_contra hneg
  rw [not_le] at hneg
  obtain ⟨e, he, hlt⟩ : ∃ e : ℝ, 0 < e ∧ e * (1 + (t - a)) < -h t := by
    refine ⟨-h t / (2 * (1 + (t - a))), by apply div_pos <;> linarith, ?_⟩
    have : 0 < 1 + (t - a) := by linarith
    field_simp
    linarith
  have key := image_le_of_deriv_right_lt_deriv_boundary (f := fun s => -h s) (f' := fun s => -h' s) (a := a) (b := t)
    (B := fun s => e * (1 + (s - a))) (B' := fun _ => e)
    ((hc.mono Icc_subset_Ici_self).neg) (fun s hs => (hd s hs.1).neg) (by simp only [sub_self, add_zero, mul_one]; linarith)
    (fun s => by
      have : HasDerivAt (fun s : ℝ => e * (1 + (s - a))) (e * 1) s :=
        (((hasDerivAt_id s).sub_const a).const_add 1).const_mul e
      simpa using this)
    (fun s hs heq => by
      have hpos : 0 < e * (1 + (s - a)) := by
        have := hs.1
        apply mul_pos he; linarith
      have := hn s hs.1 (by linarith)
      linarith)
  have := key (right_mem_Icc.2 ht)
  linarith

/-- A function that grows at least at rate `β` while negative is non-negative from time `-h(a)/β` on. -/
theorem recovers {h h' : ℝ → ℝ} {a β : ℝ} (hβ : 0 < β) (hc : ContinuousOn h (Ici a))
    (hd : ∀ t, a ≤ t → HasDerivWithinAt h (h' t) (Ici t) t) (hn : ∀ t, a ≤ t → h t < 0 → β ≤ h' t) (h0 : h a < 0) :
    ∀ t, a + -h a / β ≤ t → 0 ≤ h t := by
  intro t ht
  have hT : 0 < -h a / β := div_pos (by linarith) hβ
  by_cases hex : ∃ s, a ≤ s ∧ s ≤ a + -h a / β ∧ 0 ≤ h s
  · obtain ⟨s, hs, hst, hs0⟩ := hex
    exact stays_nonneg (hc.mono (Ici_subset_Ici.2 hs)) (fun r hr => hd r (hs.trans hr))
      (fun r hr hneg => hβ.le.trans (hn r (hs.trans hr) hneg)) hs0 t (hst.trans ht)
  · exfalso
    have hneg : ∀ s, a ≤ s → s ≤ a + -h a / β → h s < 0 := by
      intro s h1 h2
      by_contra hc'
      exact hex ⟨s, h1, h2, not_lt.1 hc'⟩
    have hlin : ∀ s, HasDerivAt (fun s : ℝ => -h a - β * (s - a)) (-β) s := by
      intro s
      have : HasDerivAt (fun s : ℝ => -h a - β * (s - a)) (-(β * 1)) s :=
        (((hasDerivAt_id s).sub_const a).const_mul β).const_sub (-h a)
      simpa using this
    have key := image_le_of_deriv_right_le_deriv_boundary (f := fun s => -h s) (f' := fun s => -h' s) (a := a)
      (b := a + -h a / β) (B := fun s => -h a - β * (s - a)) (B' := fun _ => -β)
      ((hc.mono Icc_subset_Ici_self).neg) (fun s hs => (hd s hs.1).neg) (by simp)
      (fun s _ => (hlin s).continuousAt.continuousWithinAt) (fun s _ => (hlin s).hasDerivWithinAt)
      (fun s hs => by have := hn s hs.1 (hneg s hs.1 hs.2.le); linarith)
    have h1 := key (right_mem_Icc.2 (by linarith))
    simp only [add_sub_cancel_left] at h1
    rw [mul_div_cancel₀ _ hβ.ne'] at h1
    have h2 := hneg (a + -h a / β) (by linarith) le_rfl
    linarith

/-! ### Constraint values along trajectories -/

theorem along_cont {D : Set (List ℝ)} {n : Nat} {f : List ℝ → List ℝ} {g : List ℝ → List (List ℝ)} {x u : ℝ → List ℝ}
    (ht : Trajectory D n f g x u) {h : List ℝ → ℝ} {grad : List ℝ → List ℝ} (hg : IsGradientOn D n h grad) :
    ContinuousOn (fun t => h (x t)) (Ici 0) := hg.cont _ x ht.curve ht.cont

theorem along_deriv {D : Set (List ℝ)} {n : Nat} {f : List ℝ → List ℝ} {g : List ℝ → List (List ℝ)} {x u : ℝ → List ℝ}
    (ht : Trajectory D n f g x u) {h : List ℝ → ℝ} {grad : List ℝ → List ℝ} (hg : IsGradientOn D n h grad) {t : ℝ}
    (h0 : 0 ≤ t) : HasDerivWithinAt (fun s => h (x s)) (dot (grad (x t)) (vadd (f (x t)) (matVec (g (x t)) (u t)))) (Ici t) t :=
  hg.deriv (Ici t) x _ t self_mem_Ici (fun s hs => ht.curve s (le_trans h0 hs)) (ht.len t h0) (ht.deriv t h0)

/-! ### Gradients -/

theorem grad_const (D : Set (List ℝ)) (n : Nat) (c : ℝ) : IsGradientOn D n (fun _ => c) (fun _ => zeros n) where
  cont _ _ _ _ := continuousOn_const
  deriv T γ v t _ _ hv _ := by
    have : dot (zeros n) v = 0 := by exact dot_zeros_left _ _
    rw [this]
    exact hasDerivWithinAt_const _ _ _

theorem dot_gradAt (n i : Nat) (hi : i < n) (c : ℝ) (v : List ℝ) (hv : v.length = n) : dot (gradAt n i c) v = c * v.getD i 0 := by
  have e : gradAt n i c = vscale c (eyeRow n i) := by
    simp only [gradAt, eyeRow, vscale, List.map_map]
    refine List.map_congr_left fun j _ => ?_
    simp only [Function.comp]
    split <;> simp
  rw [e, dot_vscale_left, dot_eyeRow n i v hi hv]

theorem grad_coord (D : Set (List ℝ)) {n i : Nat} (hi : i < n) :
    IsGradientOn D n (fun x => stateAt x i) (fun _ => gradAt n i 1) where
  cont _ _ _ h := h i hi
  deriv T γ v t _ _ hv h := by
    rw [dot_gradAt n i hi 1 v hv, one_mul]
    exact h i hi

theorem IsGradientOn.add {D : Set (List ℝ)} {n : Nat} {h k : List ℝ → ℝ} {a b : List ℝ → List ℝ} (ha : IsGradientOn D n h a)
    (hb : IsGradientOn D n k b) (hal : ∀ x ∈ D, x.length = n → (a x).length = n) (hbl : ∀ x ∈ D, x.length = n → (b x).length = n) :
    IsGradientOn D n (fun x => h x + k x) (fun x => vadd (a x) (b x)) where
  cont T γ hγ hc := (ha.cont T γ hγ hc).add (hb.cont T γ hγ hc)
  deriv T γ v t ht hγ hv hd := by
    rw [dot_vadd_left ((hal _ (hγ t ht).1 (hγ t ht).2).trans (hbl _ (hγ t ht).1 (hγ t ht).2).symm)]
    exact (ha.deriv T γ v t ht hγ hv hd).add (hb.deriv T γ v t ht hγ hv hd)

theorem IsGradientOn.comp {D : Set (List ℝ)} {n : Nat} {h : List ℝ → ℝ} {a : List ℝ → List ℝ} (ha : IsGradientOn D n h a)
    {φ φ' : ℝ → ℝ} (hφ : ∀ x ∈ D, x.length = n → HasDerivAt φ (φ' (h x)) (h x)) :
    IsGradientOn D n (fun x => φ (h x)) (fun x => vscale (φ' (h x)) (a x)) where
  cont T γ hγ hc := by
    intro t ht
    exact ContinuousAt.comp_continuousWithinAt (f := fun s => h (γ s)) (hφ _ (hγ t ht).1 (hγ t ht).2).continuousAt
      (ha.cont T γ hγ hc t ht)
  deriv T γ v t ht hγ hv hd := by
    rw [dot_vscale_left]
    exact (hφ _ (hγ t ht).1 (hγ t ht).2).comp_hasDerivWithinAt t (ha.deriv T γ v t ht hγ hv hd)

theorem IsGradientOn.mul {D : Set (List ℝ)} {n : Nat} {h k : List ℝ → ℝ} {a b : List ℝ → List ℝ} (ha : IsGradientOn D n h a)
    (hb : IsGradientOn D n k b) (hal : ∀ x ∈ D, x.length = n → (a x).length = n) (hbl : ∀ x ∈ D, x.length = n → (b x).length = n) :
    IsGradientOn D n (fun x => h x * k x) (fun x => vadd (vscale (k x) (a x)) (vscale (h x) (b x))) where
  cont T γ hγ hc := (ha.cont T γ hγ hc).mul (hb.cont T γ hγ hc)
  deriv T γ v t ht hγ hv hd := by
    rw [dot_vadd_left (by simp only [vscale, List.length_map]; exact (hal _ (hγ t ht).1 (hγ t ht).2).trans (hbl _ (hγ t ht).1 (hγ t ht).2).symm),
      dot_vscale_left, dot_vscale_left]
    have := (ha.deriv T γ v t ht hγ hv hd).mul (hb.deriv T γ v t ht hγ hv hd)
    rw [mul_comm (k (γ t))]
    exact this

theorem IsGradientOn.congr {D : Set (List ℝ)} {n : Nat} {h k : List ℝ → ℝ} {a b : List ℝ → List ℝ} (ha : IsGradientOn D n h a)
    (hk : ∀ x ∈ D, x.length = n → k x = h x) (hb : ∀ x ∈ D, x.length = n → ∀ v, v.length = n → dot (b x) v = dot (a x) v) :
    IsGradientOn D n k b where
  cont T γ hγ hc := (ha.cont T γ hγ hc).congr fun t ht => hk _ (hγ t ht).1 (hγ t ht).2
  deriv T γ v t ht hγ hv hd := by
    rw [hb _ (hγ t ht).1 (hγ t ht).2 v hv]
    exact (ha.deriv T γ v t ht hγ hv hd).congr (fun s hs => hk _ (hγ s hs).1 (hγ s hs).2) (hk _ (hγ t ht).1 (hγ t ht).2)


/-- The vector of the first `n` components. -/
def toVec (n : Nat) (x : List ℝ) : Fin n → ℝ := fun i => x.getD i 0

/-- A function with a Fréchet derivative has a gradient in the sense of `IsGradientOn`. -/
theorem isGradientOn_of_fderiv {D : Set (List ℝ)} {n : Nat} {h : List ℝ → ℝ} {grad : List ℝ → List ℝ} {H : (Fin n → ℝ) → ℝ}
    {L : (Fin n → ℝ) → ((Fin n → ℝ) →L[ℝ] ℝ)} (hH : ∀ x ∈ D, x.length = n → h x = H (toVec n x))
    (hL : ∀ x ∈ D, x.length = n → HasFDerivAt H (L (toVec n x)) (toVec n x))
    (hg : ∀ x ∈ D, x.length = n → ∀ v, v.length = n → dot (grad x) v = L (toVec n x) (toVec n v)) :
    IsGradientOn D n h grad where
  cont T γ hγ hc := by
    intro t ht
    have h1 : ContinuousWithinAt (fun s => H (toVec n (γ s))) T t := by
      refine ContinuousAt.comp_continuousWithinAt (f := fun s => toVec n (γ s)) (hL _ (hγ t ht).1 (hγ t ht).2).continuousAt ?_
      exact continuousWithinAt_pi.2 fun i => hc i i.2 t ht
    exact h1.congr (fun s hs => hH _ (hγ s hs).1 (hγ s hs).2) (hH _ (hγ t ht).1 (hγ t ht).2)
  deriv T γ v t ht hγ hv hd := by
    rw [hg _ (hγ t ht).1 (hγ t ht).2 v hv]
    have h1 : HasDerivWithinAt (fun s => toVec n (γ s)) (toVec n v) T t := hasDerivWithinAt_pi.2 fun i => hd i i.2
    have h2 := HasFDerivAt.comp_hasDerivWithinAt (f := fun s => toVec n (γ s)) t (hL _ (hγ t ht).1 (hγ t ht).2) h1
    exact h2.congr (fun s hs => hH _ (hγ s hs).1 (hγ s hs).2) (hH _ (hγ t ht).1 (hγ t ht).2)

/-- Partial derivatives are the entries of the gradient. -/
theorem partials_eq {P : Type} {n : Nat} {h : List ℝ → P → ℝ} {p : P} {grad : List ℝ → List ℝ}
    (hg : IsGradientOn Set.univ n (fun x => h x p) grad) {x : List ℝ} (hx : x.length = n) (hl : (grad x).length = n) :
    partials h x p = grad x := by
  unfold partials
  refine List.ext_getElem (by simp [hx, hl]) fun i h1 h2 => ?_
  have hi : i < n := by rw [hl] at h2; exact h2
  simp only [List.getElem_map, List.getElem_range]
  have hset : x.set i (x.getD i 0) = x := by
    refine List.ext_getElem (by simp) fun j _ _ => ?_
    rw [List.getElem_set]
    split
    · rename_i e; subst e
      rw [List.getD_eq_getElem?_getD, List.getElem?_eq_getElem (by omega)]; rfl
    · rfl
  have := hg.deriv Set.univ (fun s => x.set i s) (eyeRow n i) (x.getD i 0) (Set.mem_univ _)
    (fun s _ => ⟨Set.mem_univ _, by simp [hx]⟩) (by simp) (fun j hj => by
      have e2 : (eyeRow n i : List ℝ).getD j 0 = if j = i then 1 else 0 := by
        simp [eyeRow, List.getD_eq_getElem?_getD, hj]
      rw [e2]
      by_cases hji : j = i
      · subst hji
        have : (fun s => (x.set j s).getD j 0) = id := by
          funext s
          simp [List.getD_eq_getElem?_getD, hx, hj]
        rw [this, if_pos rfl]
        exact hasDerivWithinAt_id _ _
      · have : (fun s => (x.set i s).getD j 0) = fun _ => x.getD j 0 := by
          funext s
          simp [List.getD_eq_getElem?_getD, List.getElem?_set_ne (fun e => hji e.symm)]
        rw [this, if_neg hji]
        exact hasDerivWithinAt_const _ _ _)
  rw [hset] at this
  rw [(hasDerivWithinAt_univ.1 this).deriv, dot_comm, dot_eyeRow n i _ hi hl, List.getD_eq_getElem?_getD,
    List.getElem?_eq_getElem h2]
  rfl

end RTA
