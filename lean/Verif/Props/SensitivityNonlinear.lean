import Verif.Spec.SensitivityNonlinear
import Verif.Props.Sensitivity
import Mathlib.Analysis.Calculus.Deriv.Comp
import Mathlib.Analysis.Calculus.Deriv.Prod
import Mathlib.Analysis.Calculus.Deriv.Pow
import Mathlib.Analysis.SpecialFunctions.Exp

/-!
C94: how far the sensitivity of the backup trajectory is from the derivative of the predicted state when the closed loop is not
linear.
-/
set_option linter.unusedSectionVars false
namespace RTA
variable {P A : Type}

/-- One Euler step of `y' = F y`. -/
def eulerStep (F : List ℝ → List ℝ) (dt : ℝ) (y : List ℝ) : List ℝ := vadd y (vscale dt (F y))

/-- The linearisation along the Euler trajectory from `x`, with the Jacobian where each step starts. -/
def eulerVariation (F : List ℝ → List ℝ) (J : List ℝ → List (List ℝ)) (dt : ℝ) (x v : List ℝ) : Nat → List ℝ
  | 0 => v
  | k + 1 => vadd (eulerVariation F J dt x v k)
      (vscale dt (matVec (J ((eulerStep F dt)^[k] x)) (eulerVariation F J dt x v k)))

theorem getD_vadd_vscale {n : Nat} {a b : List ℝ} (ha : a.length = n) (hb : b.length = n) (t : ℝ) {i : Nat} (hi : i < n) :
    (vadd a (vscale t b)).getD i 0 = a.getD i 0 + t * b.getD i 0 := by
  have l1 : i < a.length := by omega
  have l2 : i < b.length := by omega
  simp only [List.getD_eq_getElem?_getD, vadd, vscale, List.getElem?_zipWith, List.getElem?_map, List.getElem?_eq_getElem l1,
    List.getElem?_eq_getElem l2, Option.map_some, Option.getD_some]

theorem ofFn_getD {n : Nat} {y : List ℝ} (h : y.length = n) : List.ofFn (fun i : Fin n => y.getD i 0) = y := by
  subst h
  refine List.ext_getElem (by simp) fun i h1 h2 => ?_
  simp [List.getD_eq_getElem?_getD]

theorem eulerStep_length {F : List ℝ → List ℝ} {J : List ℝ → List (List ℝ)} {n : Nat} (hJ : IsJacobian n F J) (dt : ℝ)
    {y : List ℝ} (hy : y.length = n) : (eulerStep F dt y).length = n :=
  vadd_length_eq hy (by rw [vscale_length]; exact (hJ y hy).1)

theorem eulerPath_length {F : List ℝ → List ℝ} {J : List ℝ → List (List ℝ)} {n : Nat} (hJ : IsJacobian n F J) (dt : ℝ)
    {y : List ℝ} (hy : y.length = n) (k : Nat) : ((eulerStep F dt)^[k] y).length = n := by
  induction k with
  | zero => exact hy
  | succ k ih => rw [Function.iterate_succ_apply']; exact eulerStep_length hJ dt ih

theorem eulerVariation_length {F : List ℝ → List ℝ} {J : List ℝ → List (List ℝ)} {n : Nat} (hJ : IsJacobian n F J) (dt : ℝ)
    {x v : List ℝ} (hx : x.length = n) (hv : v.length = n) (k : Nat) : (eulerVariation F J dt x v k).length = n := by
  induction k with
  | zero => exact hv
  | succ k ih =>
    exact vadd_length_eq ih (by rw [vscale_length, matVec_length']; exact (hJ _ (eulerPath_length hJ dt hx k)).2.1)

/-- The chain rule for a curve of lists. -/
theorem jacobian_curve {F : List ℝ → List ℝ} {J : List ℝ → List (List ℝ)} {n : Nat} (hJ : IsJacobian n F J) {c : ℝ → List ℝ}
    (hc : ∀ t, (c t).length = n) {w : List ℝ} (hw : w.length = n)
    (hd : ∀ i < n, HasDerivAt (fun t => (c t).getD i 0) (w.getD i 0) 0) :
    ∀ i < n, HasDerivAt (fun t => (F (c t)).getD i 0) ((matVec (J (c 0)) w).getD i 0) 0 := by
  intro i hi
  obtain ⟨-, -, L, hL, hF⟩ := hJ (c 0) (hc 0)
  have hcurve : HasDerivAt (fun (t : ℝ) (i : Fin n) => (c t).getD i 0) (fun i : Fin n => w.getD i 0) 0 :=
    hasDerivAt_pi.2 fun i => hd i i.2
  have h1 := hF.comp_hasDerivAt (0 : ℝ) hcurve
  have h2 := hasDerivAt_pi.1 h1 ⟨i, hi⟩
  rw [hL, ofFn_getD hw] at h2
  refine h2.congr_of_eventuallyEq (Filter.Eventually.of_forall fun t => ?_)
  simp only [Function.comp_apply]
  rw [ofFn_getD (hc t)]

/-- The derivative of the Euler trajectory with respect to its initial state. -/
theorem eulerPath_deriv {F : List ℝ → List ℝ} {J : List ℝ → List (List ℝ)} {n : Nat} (hJ : IsJacobian n F J) (dt : ℝ)
    {x v : List ℝ} (hx : x.length = n) (hv : v.length = n) (k : Nat) :
    ∀ i < n, HasDerivAt (fun t => ((eulerStep F dt)^[k] (vadd x (vscale t v))).getD i 0) ((eulerVariation F J dt x v k).getD i 0) 0 := by
  have hlen : ∀ t : ℝ, (vadd x (vscale t v)).length = n := fun t => vadd_length_eq hx (by rw [vscale_length]; exact hv)
  have h0 : vadd x (vscale (0 : ℝ) v) = x := by
    refine List.ext_getElem (by simp [vadd, vscale, hx, hv]) fun i h1 h2 => ?_
    simp [vadd, vscale]
  induction k with
  | zero =>
    intro i hi
    have e : (fun t : ℝ => ((eulerStep F dt)^[0] (vadd x (vscale t v))).getD i 0) = fun t => x.getD i 0 + t * v.getD i 0 := by
      funext t
      exact getD_vadd_vscale hx hv t hi
    rw [e]
    have := ((hasDerivAt_id (0 : ℝ)).mul_const (v.getD i 0)).const_add (x.getD i 0)
    simpa [eulerVariation] using this
  | succ k ih =>
    intro i hi
    have hc : ∀ t : ℝ, ((eulerStep F dt)^[k] (vadd x (vscale t v))).length = n := fun t => eulerPath_length hJ dt (hlen t) k
    have hwl := eulerVariation_length hJ dt hx hv k
    have hF := jacobian_curve hJ hc hwl ih i hi
    rw [h0] at hF
    have hsum := (ih i hi).add (hF.const_mul dt)
    have e : (eulerVariation F J dt x v (k + 1)).getD i 0 = (eulerVariation F J dt x v k).getD i 0 +
        dt * (matVec (J ((eulerStep F dt)^[k] x)) (eulerVariation F J dt x v k)).getD i 0 :=
      getD_vadd_vscale hwl (by rw [matVec_length']; exact (hJ _ (eulerPath_length hJ dt hx k)).2.1) dt hi
    rw [e]
    refine hsum.congr_of_eventuallyEq (Filter.Eventually.of_forall fun t => ?_)
    simp only [Function.iterate_succ_apply', Pi.add_apply]
    exact getD_vadd_vscale (hc t) (hJ _ (hc t)).1 dt hi

/-- Without clipping the backup trajectory is the Euler trajectory of the closed loop. -/
theorem backupPath_euler {E : ImplicitEnv ℝ} {s : ImplicitObj ℝ P A} {n : Nat} {dt : ℝ} {F : List ℝ → List ℝ}
    {J : List ℝ → List (List ℝ)} (hl : SmoothLoop E s n dt F J) (x : List ℝ) (k : Nat) (h : ∀ j < k, Unclipped E s x dt j) :
    backupPath E s x dt k = some ((eulerStep F dt)^[k] x, s.ext.extra.ctrl.state) := by
  induction k with
  | zero => rfl
  | succ k ih =>
    have ih := ih fun j hj => h j (by omega)
    obtain ⟨y, z, ub, z', h1, h2, h3⟩ := h k (by omega)
    rw [ih] at h1
    obtain ⟨rfl, rfl⟩ : (eulerStep F dt)^[k] x = y ∧ s.ext.extra.ctrl.state = z := by simpa using h1
    obtain ⟨ub', e⟩ := hl.law ((eulerStep F dt)^[k] x) s.ext.extra.ctrl.state
    rw [e] at h2
    obtain ⟨rfl, rfl⟩ : ub' = ub ∧ s.ext.extra.ctrl.state = z' := by simpa using h2
    have hf := hl.field ((eulerStep F dt)^[k] x) s.ext.extra.ctrl.state
    unfold closedLoopField at hf
    rw [e] at hf
    simp only [backupPath, ih, e, h3, bind, Option.bind, Except.toOption, pure]
    rw [hl.euler, hf, Function.iterate_succ_apply']
    rfl

theorem variation_succ {E : ImplicitEnv ℝ} {s : ImplicitObj ℝ P A} {n : Nat} {dt : ℝ} {F : List ℝ → List ℝ}
    {J : List ℝ → List (List ℝ)} (hl : SmoothLoop E s n dt F J) {x : List ℝ} (v : List ℝ) (k : Nat)
    (h : ∀ j < k + 1, Unclipped E s x dt j) :
    variation E s x dt v (k + 1) = vadd (variation E s x dt v k)
      (vscale dt (matVec (J ((eulerStep F dt)^[k + 1] x)) (variation E s x dt v k))) := by
  have e := backupPath_euler hl x (k + 1) h
  rw [variation, e]
  simp only
  rw [hl.ad]

theorem AbsLe.getD {w : List ℝ} {b : ℝ} (h : AbsLe w b) {i : Nat} (hi : i < w.length) : |w.getD i 0| ≤ b := by
  rw [List.getD_eq_getElem?_getD, List.getElem?_eq_getElem hi]
  exact h _ (List.getElem_mem hi)

theorem absLe_of_getD {w : List ℝ} {b : ℝ} (h : ∀ i < w.length, |w.getD i 0| ≤ b) : AbsLe w b := by
  intro a ha
  obtain ⟨i, hi, rfl⟩ := List.mem_iff_getElem.1 ha
  have := h i hi
  rwa [List.getD_eq_getElem?_getD, List.getElem?_eq_getElem hi] at this

theorem getD_vsub {n : Nat} {a b : List ℝ} (ha : a.length = n) (hb : b.length = n) {i : Nat} (hi : i < n) :
    (vsub a b).getD i 0 = a.getD i 0 - b.getD i 0 := by
  have l1 : i < a.length := by omega
  have l2 : i < b.length := by omega
  simp only [List.getD_eq_getElem?_getD, vsub, List.getElem?_zipWith, List.getElem?_eq_getElem l1,
    List.getElem?_eq_getElem l2, Option.getD_some]

theorem matVec_vsub (M : List (List ℝ)) {a b : List ℝ} (h : a.length = b.length) :
    matVec M (vsub a b) = vsub (matVec M a) (matVec M b) := by
  have hd : ∀ r : List ℝ, dot r (vsub a b) = dot r a - dot r b := by
    intro r
    induction r generalizing a b with
    | nil => simp [dot]
    | cons p r ih =>
      cases a with
      | nil => cases b with
        | nil => simp [dot, vsub]
        | cons q b => simp at h
      | cons q a => cases b with
        | nil => simp at h
        | cons q' b =>
          have := ih (a := a) (b := b) (by simpa using h)
          simp only [vsub, List.zipWith_cons_cons, dot_cons] at this ⊢
          rw [this]
          ring
  induction M with
  | nil => rfl
  | cons r M ih =>
    show dot r (vsub a b) :: matVec M (vsub a b) = (dot r a - dot r b) :: vsub (matVec M a) (matVec M b)
    rw [hd, ih]

/-- **C94, the part that holds.** Let the closed loop be any differentiable `y' = F y`, stepped by Euler's method, with the
backup control unclipped for initial states near `x` on the line through `v`. The predicted state at point `k` is
differentiable with respect to the initial state in direction `v`, and every component of what the module's sensitivity makes
of `v` is within `k dt Δ (1 + dt L)^(k-1) b` of that derivative, where `L` bounds the Jacobians along the trajectory, `Δ` how
much the Jacobian changes in one step, and `b` the components of `v`. What is missing: they are not equal
(`C94_refuted`). -/
theorem C94_error_bound_partial {E : ImplicitEnv ℝ} {s : ImplicitObj ℝ P A} {n : Nat} {dt : ℝ} {F : List ℝ → List ℝ}
    {J : List ℝ → List (List ℝ)} (hl : SmoothLoop E s n dt F J) (hdt : 0 ≤ dt) {x v : List ℝ} (hx : x.length = n)
    (hv : v.length = n) (k : Nat)
    (hun : ∀ᶠ t in nhds (0 : ℝ), ∀ j < k, Unclipped E s (vadd x (vscale t v)) dt j) {L D b : ℝ} (hL : 0 ≤ L)
    (hb : AbsLe v b)
    (hJ : ∀ j ≤ k, ∀ y z, backupPath E s x dt j = some (y, z) → ∀ w c, w.length = n → AbsLe w c → AbsLe (matVec (J y) w) (L * c))
    (hstep : ∀ j < k, ∀ y z y' z', backupPath E s x dt j = some (y, z) → backupPath E s x dt (j + 1) = some (y', z') →
      ∀ w c, w.length = n → AbsLe w c → AbsLe (vsub (matVec (J y') w) (matVec (J y) w)) (D * c)) :
    ∃ w : List ℝ, w.length = n ∧ (∀ i < n, HasDerivAt (fun t => pathComponent E s (vadd x (vscale t v)) dt k i) (w.getD i 0) 0) ∧
      ∀ i < n, |(variation E s x dt v k).getD i 0 - w.getD i 0| ≤ k * (dt * D) * (1 + dt * L) ^ (k - 1) * b := by
  have h0 : vadd x (vscale (0 : ℝ) v) = x := by
    refine List.ext_getElem (by simp [vadd, vscale, hx, hv]) fun i h1 h2 => ?_
    simp [vadd, vscale]
  have hux : ∀ j < k, Unclipped E s x dt j := by
    have := hun.self_of_nhds
    rwa [h0] at this
  have hjac := hl.jacobian
  refine ⟨eulerVariation F J dt x v k, eulerVariation_length hjac dt hx hv k, ?_, ?_⟩
  · intro i hi
    refine (eulerPath_deriv hjac dt hx hv k i hi).congr_of_eventuallyEq ?_
    filter_upwards [hun] with t ht
    unfold pathComponent
    rw [backupPath_euler hl _ k ht]
  · have hb0 : ∀ i < n, 0 ≤ b := fun i hi => (abs_nonneg _).trans (hb.getD (i := i) (by omega))
    -- size of the derivative, and the error, by induction
    have main : ∀ m ≤ k, AbsLe (eulerVariation F J dt x v m) ((1 + dt * L) ^ m * b) ∧ (variation E s x dt v m).length = n ∧
        ∀ i < n, |(variation E s x dt v m).getD i 0 - (eulerVariation F J dt x v m).getD i 0| ≤
          m * (dt * D) * (1 + dt * L) ^ (m - 1) * b := by
      intro m hm
      induction m with
      | zero =>
        refine ⟨by simpa [eulerVariation] using hb, hv, fun i hi => ?_⟩
        simp [variation, eulerVariation]
      | succ m ih =>
        obtain ⟨hW, hVl, hE⟩ := ih (by omega)
        have hWl := eulerVariation_length hjac dt hx hv m
        have pm := backupPath_euler hl x m fun j hj => hux j (by omega)
        have pm1 := backupPath_euler hl x (m + 1) fun j hj => hux j (by omega)
        have jm := (hjac _ (eulerPath_length hjac dt hx m)).2.1
        have jm1 := (hjac _ (eulerPath_length hjac dt hx (m + 1))).2.1
        have hVs := variation_succ hl v m fun j hj => hux j (by omega)
        have hpow : 0 ≤ (1 + dt * L) ^ m := pow_nonneg (by nlinarith [mul_nonneg hdt hL]) m
        have g1 := hJ m (by omega) _ _ pm _ _ hWl hW
        refine ⟨?_, by rw [hVs]; exact vadd_length_eq hVl (by rw [vscale_length, matVec_length']; exact jm1), fun i hi => ?_⟩
        · refine absLe_of_getD fun i hi => ?_
          have hi : i < n := by rw [eulerVariation_length hjac dt hx hv] at hi; exact hi
          have e : (eulerVariation F J dt x v (m + 1)).getD i 0 = (eulerVariation F J dt x v m).getD i 0 +
              dt * (matVec (J ((eulerStep F dt)^[m] x)) (eulerVariation F J dt x v m)).getD i 0 :=
            getD_vadd_vscale hWl (by rw [matVec_length']; exact jm) dt hi
          rw [e]
          have a1 := hW.getD (i := i) (by omega)
          have a2 := g1.getD (i := i) (by rw [matVec_length', jm]; exact hi)
          calc |_ + _| ≤ |_| + |dt * _| := abs_add_le _ _
            _ ≤ (1 + dt * L) ^ m * b + dt * (L * ((1 + dt * L) ^ m * b)) := by
                rw [abs_mul, abs_of_nonneg hdt]
                exact add_le_add a1 (mul_le_mul_of_nonneg_left a2 hdt)
            _ = (1 + dt * L) ^ (m + 1) * b := by ring
        · have e : (eulerVariation F J dt x v (m + 1)).getD i 0 = (eulerVariation F J dt x v m).getD i 0 +
              dt * (matVec (J ((eulerStep F dt)^[m] x)) (eulerVariation F J dt x v m)).getD i 0 :=
            getD_vadd_vscale hWl (by rw [matVec_length']; exact jm) dt hi
          rw [hVs, e, getD_vadd_vscale hVl (by rw [matVec_length']; exact jm1) dt hi]
          -- split the difference
          have hd1 : AbsLe (vsub (variation E s x dt v m) (eulerVariation F J dt x v m)) (m * (dt * D) * (1 + dt * L) ^ (m - 1) * b) := by
            refine absLe_of_getD fun i hi => ?_
            have hi : i < n := by simpa [vsub, hVl, hWl] using hi
            rw [getD_vsub hVl hWl hi]
            exact hE i hi
          have g2 := hJ (m + 1) (by omega) _ _ pm1 _ _ (by simp [vsub, hVl, hWl]) hd1
          have g3 := hstep m (by omega) _ _ _ _ pm pm1 _ _ hWl hW
          rw [matVec_vsub _ (hVl.trans hWl.symm)] at g2
          have l1 : (matVec (J ((eulerStep F dt)^[m + 1] x)) (variation E s x dt v m)).length = n := by rw [matVec_length']; exact jm1
          have l2 : (matVec (J ((eulerStep F dt)^[m + 1] x)) (eulerVariation F J dt x v m)).length = n := by rw [matVec_length']; exact jm1
          have l3 : (matVec (J ((eulerStep F dt)^[m] x)) (eulerVariation F J dt x v m)).length = n := by rw [matVec_length']; exact jm
          have a2 := g2.getD (i := i) (by rw [vsub, List.length_zipWith, l1, l2]; omega)
          have a3 := g3.getD (i := i) (by rw [vsub, List.length_zipWith, l2, l3]; omega)
          rw [getD_vsub l1 l2 hi] at a2
          rw [getD_vsub l2 l3 hi] at a3
          have a1 := hE i hi
          generalize (matVec (J ((eulerStep F dt)^[m + 1] x)) (variation E s x dt v m)).getD i 0 = p at *
          generalize (matVec (J ((eulerStep F dt)^[m + 1] x)) (eulerVariation F J dt x v m)).getD i 0 = q at *
          generalize (matVec (J ((eulerStep F dt)^[m] x)) (eulerVariation F J dt x v m)).getD i 0 = r at *
          generalize (variation E s x dt v m).getD i 0 = p' at *
          generalize (eulerVariation F J dt x v m).getD i 0 = q' at *
          have split : p' + dt * p - (q' + dt * r) = (p' - q') + dt * ((p - q) + (q - r)) := by ring
          rw [split]
          have step1 : |(p' - q') + dt * ((p - q) + (q - r))| ≤ |p' - q'| + dt * (|p - q| + |q - r|) := by
            refine (abs_add_le _ _).trans ?_
            rw [abs_mul, abs_of_nonneg hdt]
            exact add_le_add le_rfl (mul_le_mul_of_nonneg_left (abs_add_le _ _) hdt)
          refine step1.trans ?_
          have step2 : |p' - q'| + dt * (|p - q| + |q - r|) ≤ m * (dt * D) * (1 + dt * L) ^ (m - 1) * b +
              dt * (L * (m * (dt * D) * (1 + dt * L) ^ (m - 1) * b) + D * ((1 + dt * L) ^ m * b)) :=
            add_le_add a1 (mul_le_mul_of_nonneg_left (add_le_add a2 a3) hdt)
          refine step2.trans (le_of_eq ?_)
          have hpm : (m : ℝ) * (1 + dt * L) ^ (m - 1) * (1 + dt * L) = m * (1 + dt * L) ^ m := by
            cases m with
            | zero => simp
            | succ m => rw [Nat.add_sub_cancel, pow_succ]; ring
          rw [Nat.add_sub_cancel]
          push_cast
          have : m * (dt * D) * (1 + dt * L) ^ (m - 1) * b + dt * (L * (m * (dt * D) * (1 + dt * L) ^ (m - 1) * b)) =
              (m * (1 + dt * L) ^ (m - 1) * (1 + dt * L)) * (dt * D) * b := by ring
          rw [mul_add dt, ← add_assoc, this, hpm]
          ring
    exact (main k le_rfl).2.2

/-- **C94, first order.** When the Jacobian moves by at most `C dt` in a step and the point lies within the time `T`, the
sensitivity is within `dt C T exp(L T) b` of the derivative: shorter steps bring it as close as one likes. -/
theorem C94_first_order_partial {E : ImplicitEnv ℝ} {s : ImplicitObj ℝ P A} {n : Nat} {dt : ℝ} {F : List ℝ → List ℝ}
    {J : List ℝ → List (List ℝ)} (hl : SmoothLoop E s n dt F J) (hdt : 0 ≤ dt) {x v : List ℝ} (hx : x.length = n)
    (hv : v.length = n) (k : Nat)
    (hun : ∀ᶠ t in nhds (0 : ℝ), ∀ j < k, Unclipped E s (vadd x (vscale t v)) dt j) {L C T b : ℝ} (hL : 0 ≤ L) (hC : 0 ≤ C)
    (hT : k * dt ≤ T) (hb0 : 0 ≤ b) (hb : AbsLe v b)
    (hJ : ∀ j ≤ k, ∀ y z, backupPath E s x dt j = some (y, z) → ∀ w c, w.length = n → AbsLe w c → AbsLe (matVec (J y) w) (L * c))
    (hstep : ∀ j < k, ∀ y z y' z', backupPath E s x dt j = some (y, z) → backupPath E s x dt (j + 1) = some (y', z') →
      ∀ w c, w.length = n → AbsLe w c → AbsLe (vsub (matVec (J y') w) (matVec (J y) w)) (C * dt * c)) :
    ∃ w : List ℝ, w.length = n ∧ (∀ i < n, HasDerivAt (fun t => pathComponent E s (vadd x (vscale t v)) dt k i) (w.getD i 0) 0) ∧
      ∀ i < n, |(variation E s x dt v k).getD i 0 - w.getD i 0| ≤ dt * (C * T * Real.exp (L * T) * b) := by
  obtain ⟨w, hw, hd, he⟩ := C94_error_bound_partial hl hdt hx hv k hun hL hb hJ hstep
  refine ⟨w, hw, hd, fun i hi => (he i hi).trans ?_⟩
  have hT0 : 0 ≤ T := (mul_nonneg (Nat.cast_nonneg k) hdt).trans hT
  have hdl : 0 ≤ dt * L := mul_nonneg hdt hL
  have p1 : (1 + dt * L) ^ (k - 1) ≤ Real.exp (L * T) := by
    have a1 : (1 + dt * L) ^ (k - 1) ≤ (1 + dt * L) ^ k := pow_le_pow_right₀ (by linarith) (by omega)
    have a2 : (1 + dt * L) ^ k ≤ (Real.exp (dt * L)) ^ k :=
      pow_le_pow_left₀ (by linarith) (by linarith [Real.add_one_le_exp (dt * L)]) k
    have a3 : (Real.exp (dt * L)) ^ k = Real.exp (L * (k * dt)) := by
      rw [← Real.exp_nat_mul]
      congr 1
      ring
    have a4 : Real.exp (L * (k * dt)) ≤ Real.exp (L * T) := Real.exp_le_exp.2 (mul_le_mul_of_nonneg_left hT hL)
    linarith
  have e : (k : ℝ) * (dt * (C * dt)) * (1 + dt * L) ^ (k - 1) * b = dt * (C * (k * dt) * (1 + dt * L) ^ (k - 1) * b) := by ring
  rw [e]
  refine mul_le_mul_of_nonneg_left (mul_le_mul_of_nonneg_right ?_ hb0) hdt
  refine mul_le_mul (mul_le_mul_of_nonneg_left hT hC) p1 (pow_nonneg (by linarith) _) (mul_nonneg hC hT0)

/-! ### A quadratic loop -/

/-- `x' = x² + 0 u`, Euler prediction, and the Jacobian `2 x`. -/
noncomputable def qE : ImplicitEnv ℝ :=
  { ad := fun _ y => [[2 * y.getD 0 0]], f := fun y => [y.getD 0 0 ^ 2], g := fun _ => [[0]]
    pred := fun y dt u => vadd y (vscale dt (vadd [y.getD 0 0 ^ 2] (matVec [[0]] u))) }

theorem q_jacobian : IsJacobian 1 (fun y => [y.getD 0 0 ^ 2]) (fun y => [[2 * y.getD 0 0]]) := by
  intro y hy
  obtain ⟨a, rfl⟩ := List.length_eq_one_iff.1 hy
  refine ⟨rfl, rfl, (2 * a) • ContinuousLinearMap.id ℝ (Fin 1 → ℝ), ?_, ?_⟩
  · intro w i
    obtain rfl : i = 0 := Subsingleton.elim _ _
    simp [matVec, dot_cons]
  · refine hasFDerivAt_pi'' fun i => ?_
    obtain rfl : i = 0 := Subsingleton.elim _ _
    have h0 : HasFDerivAt (fun p : Fin 1 → ℝ => p 0) (ContinuousLinearMap.proj (R := ℝ) (φ := fun _ : Fin 1 => ℝ) 0)
        (fun i : Fin 1 => ([a] : List ℝ).getD i 0) := (ContinuousLinearMap.proj (R := ℝ) (φ := fun _ : Fin 1 => ℝ) 0).hasFDerivAt
    have h1 := (hasDerivAt_pow 2 a).comp_hasFDerivAt_of_eq _ h0 (by simp)
    refine (h1.congr_fderiv ?_).congr_of_eventuallyEq (Filter.Eventually.of_forall fun p => ?_)
    · ext w
      simp
    · simp

theorem q_field (b dt : ℝ) (y : List ℝ) (z) : closedLoopField qE (kObj b) dt z y = [y.getD 0 0 ^ 2] := by
  simp [closedLoopField, kObj, qE, matVec, vadd, dot_cons]

theorem q_smooth (b dt : ℝ) : SmoothLoop qE (kObj b) 1 dt (fun y => [y.getD 0 0 ^ 2]) (fun y => [[2 * y.getD 0 0]]) :=
  ⟨q_field b dt, fun _ _ => ⟨_, rfl⟩, fun _ _ => rfl, q_jacobian, fun _ _ => rfl⟩

theorem q_unclipped : ∀ᶠ t in nhds (0 : ℝ), ∀ j < 1, Unclipped qE (kObj 20) (vadd [1] (vscale t [1])) (1 / 10) j := by
  have : ∀ᶠ t in nhds (0 : ℝ), |t| < 1 := by
    have := Metric.ball_mem_nhds (0 : ℝ) one_pos
    filter_upwards [this] with t ht
    simpa using ht
  filter_upwards [this] with t ht j hj
  obtain rfl : j = 0 := by omega
  obtain ⟨h1, h2⟩ := abs_lt.1 ht
  have e : vadd [1] (vscale t [1]) = [1 + t] := by simp [vadd, vscale]
  rw [e]
  refine ⟨[1 + t], .none, [-10 * (1 + t)], .none, rfl, by simp [kObj, matVec, dot_cons], ?_⟩
  have c : (kObj 20).toBase.clipControl [-10 * (1 + t)] = .ok [min (max (-10 * (1 + t)) (-20)) 20] := rfl
  rw [c, max_eq_left (by linarith), min_eq_left (by linarith)]

theorem q_path : backupPath qE (kObj 20) [1] (1 / 10) 0 = some ([1], .none) ∧
    backupPath qE (kObj 20) [1] (1 / 10) 1 = some ([11 / 10], .none) := by
  refine ⟨rfl, ?_⟩
  have h := backupPath_euler (q_smooth 20 (1 / 10)) [1] 1 (by
    have := q_unclipped.self_of_nhds
    simpa [vadd, vscale] using this)
  rw [h]
  simp only [Function.iterate_one, eulerStep, vadd, vscale, List.getD_cons_zero, List.map_cons, List.map_nil,
    List.zipWith_cons_cons, List.zipWith_nil_right]
  norm_num [kObj]

theorem q_variation : variation qE (kObj 20) [1] (1 / 10) [1] 1 = [61 / 50] := by
  simp only [variation, q_path.2]
  norm_num [qE, vadd, vscale, matVec, dot_cons]

theorem q_deriv : HasDerivAt (fun t => pathComponent qE (kObj 20) (vadd [1] (vscale t [1])) (1 / 10) 1 0) (6 / 5) 0 := by
  have h := eulerPath_deriv q_jacobian (1 / 10) (x := [1]) (v := [1]) rfl rfl 1 0 (by norm_num)
  have e : (eulerVariation (fun y => [y.getD 0 0 ^ 2]) (fun y => [[2 * y.getD 0 0]]) (1 / 10) [1] [1] 1).getD 0 0 = (6 / 5 : ℝ) := by
    simp only [eulerVariation, Function.iterate_zero, id]
    norm_num [vadd, vscale, matVec, dot_cons]
  rw [e] at h
  refine h.congr_of_eventuallyEq ?_
  filter_upwards [q_unclipped] with t ht
  unfold pathComponent
  rw [backupPath_euler (q_smooth 20 (1 / 10)) _ 1 ht]

/-- **C94 fails as stated.** For `x' = x²` from `x = 1` with steps of `1/10` the predicted state after one step moves at rate
`6/5` with the initial state; the module uses `61/50`, because it takes the Jacobian where the step ends. -/
theorem C94_refuted : ∃ (E : ImplicitEnv ℝ) (s : ImplicitObj ℝ Unit Unit) (F : List ℝ → List ℝ) (J : List ℝ → List (List ℝ)),
    SmoothLoop E s 1 (1 / 10) F J ∧
    (∀ᶠ t in nhds (0 : ℝ), ∀ j < 1, Unclipped E s (vadd [1] (vscale t [1])) (1 / 10) j) ∧
    HasDerivAt (fun t => pathComponent E s (vadd [1] (vscale t [1])) (1 / 10) 1 0) (6 / 5) 0 ∧
    variation E s [1] (1 / 10) [1] 1 = [61 / 50] :=
  ⟨qE, kObj 20, _, _, q_smooth 20 (1 / 10), q_unclipped, q_deriv, q_variation⟩

/-- The error bound is attained there: with `L = 11/5`, `Δ = 1/5` and `b = 1` it is `1/50`, which is `61/50 - 6/5`. -/
example : ∃ w : List ℝ, w.length = 1 ∧
    (∀ i < 1, HasDerivAt (fun t => pathComponent qE (kObj 20) (vadd [1] (vscale t [1])) (1 / 10) 1 i) (w.getD i 0) 0) ∧
    ∀ i < 1, |(variation qE (kObj 20) [1] (1 / 10) [1] 1).getD i 0 - w.getD i 0| ≤ 1 / 50 := by
  have h := C94_error_bound_partial (q_smooth 20 (1 / 10)) (by norm_num) (x := [1]) (v := [1]) rfl rfl 1 q_unclipped
    (L := 11 / 5) (D := 1 / 5) (b := 1) (by norm_num) (by intro a ha; simp at ha; subst ha; norm_num) (by
      intro j hj y z hy w c hw hc
      obtain ⟨a, rfl⟩ := List.length_eq_one_iff.1 hw
      have hc : |a| ≤ c := hc a (by simp)
      intro r hr
      rcases (by omega : j = 0 ∨ j = 1) with rfl | rfl
      · rw [q_path.1] at hy
        obtain ⟨rfl, -⟩ : [1] = y ∧ _ := by simpa using hy
        obtain rfl : r = 2 * 1 * a := by simpa [matVec, dot_cons] using hr
        rw [abs_mul, abs_of_nonneg (by norm_num)]
        nlinarith [abs_nonneg a]
      · rw [q_path.2] at hy
        obtain ⟨rfl, -⟩ : [11 / 10] = y ∧ _ := by simpa using hy
        obtain rfl : r = 2 * (11 / 10) * a := by simpa [matVec, dot_cons] using hr
        rw [abs_mul, abs_of_nonneg (by norm_num)]
        nlinarith [abs_nonneg a]) (by
      intro j hj y z y' z' hy hy' w c hw hc
      obtain rfl : j = 0 := by omega
      obtain ⟨a, rfl⟩ := List.length_eq_one_iff.1 hw
      have hc : |a| ≤ c := hc a (by simp)
      rw [q_path.1] at hy
      rw [q_path.2] at hy'
      obtain ⟨rfl, -⟩ : [1] = y ∧ _ := by simpa using hy
      obtain ⟨rfl, -⟩ : [11 / 10] = y' ∧ _ := by simpa using hy'
      intro r hr
      obtain rfl : r = 2 * (11 / 10) * a - 2 * 1 * a := by simpa [matVec, dot_cons, vsub] using hr
      have : 2 * (11 / 10) * a - 2 * 1 * a = 1 / 5 * a := by ring
      rw [this, abs_mul, abs_of_nonneg (by norm_num)]
      nlinarith [abs_nonneg a])
  norm_num at h ⊢
  exact h

end RTA
