import Verif.Spec.Sensitivity
import Verif.Props.Implicit
import Mathlib.Analysis.Calculus.Deriv.Mul
import Mathlib.Analysis.Calculus.Deriv.Add

/-!
C38: the sensitivity of the backup trajectory.
-/
set_option linter.unusedSectionVars false
namespace RTA

section
variable {K : Type} [Field K]

theorem vadd_vadd_comm : ∀ a b c d : List K, vadd (vadd a b) (vadd c d) = vadd (vadd a c) (vadd b d)
  | [], _, _, _ => by simp [vadd]
  | _ :: _, [], c, _ => by simp [vadd]
  | _ :: _, _ :: _, [], _ => by simp [vadd]
  | _ :: _, _ :: _, _ :: _, [] => by simp [vadd]
  | x :: a, y :: b, z :: c, w :: d => by
    have := vadd_vadd_comm a b c d
    simp only [vadd, List.zipWith_cons_cons] at this ⊢
    rw [this]
    congr 1
    ring

theorem vscale_vadd (t : K) : ∀ a b : List K, vscale t (vadd a b) = vadd (vscale t a) (vscale t b)
  | [], _ => by simp [vadd, vscale]
  | _ :: _, [] => by simp [vadd, vscale]
  | x :: a, y :: b => by
    have := vscale_vadd t a b
    simp only [vadd, vscale, List.zipWith_cons_cons, List.map_cons] at this ⊢
    rw [this]
    congr 1
    ring

theorem vscale_vscale_comm (t c : K) (a : List K) : vscale t (vscale c a) = vscale c (vscale t a) := by
  simp only [vscale, List.map_map]
  refine List.map_congr_left fun x _ => ?_
  simp only [Function.comp_apply]
  ring

theorem matVec_vscale (M : List (List K)) (t : K) (v : List K) : matVec M (vscale t v) = vscale t (matVec M v) := by
  unfold matVec
  conv_rhs => rw [vscale, List.map_map]
  refine List.map_congr_left fun r _ => ?_
  exact dot_vscale_right t r v

theorem matVec_length' (M : List (List K)) (v : List K) : (matVec M v).length = M.length := by simp [matVec]

theorem vadd_length_eq {a b : List K} {n : Nat} (ha : a.length = n) (hb : b.length = n) : (vadd a b).length = n := by
  simp [vadd, ha, hb]

end

section
variable {K P A : Type} [Field K] [LinearOrder K]

theorem linear_step {E : ImplicitEnv K} {s : ImplicitObj K P A} {n : Nat} {dt : K} {M B F : List (List K)}
    (hl : LinearLoop E s n dt M B F) {x y : List K} {k : Nat} {z : CState A} (h : backupPath E s x dt k = some (y, z))
    (hc : s.toBase.clipControl (matVec F y) = .ok (matVec F y)) :
    backupPath E s x dt (k + 1) = some (vadd y (vscale dt (vadd (matVec M y) (matVec B (matVec F y)))), z) := by
  simp only [backupPath, h, hl.law, hc, bind, Option.bind, Except.toOption, pure]
  rw [hl.euler, hl.f, hl.g]

theorem linear_variation {E : ImplicitEnv K} {s : ImplicitObj K P A} {n : Nat} {dt : K} {M B F : List (List K)}
    (hl : LinearLoop E s n dt M B F) {x y : List K} {k : Nat} {z : CState A} (v : List K)
    (h : backupPath E s x dt (k + 1) = some (y, z)) (hv : (variation E s x dt v k).length = n) :
    variation E s x dt v (k + 1) = vadd (variation E s x dt v k)
      (vscale dt (vadd (matVec M (variation E s x dt v k)) (matVec B (matVec F (variation E s x dt v k))))) := by
  simp only [variation, h]
  rw [hl.jac y z _ hv]

/-- One step of the closed loop is linear. -/
theorem step_linear {M B F : List (List K)} {n : Nat} (t dt : K) {y w : List K} (hy : y.length = n) (hw : w.length = n) :
    vadd (vadd y (vscale t w)) (vscale dt (vadd (matVec M (vadd y (vscale t w))) (matVec B (matVec F (vadd y (vscale t w)))))) =
      vadd (vadd y (vscale dt (vadd (matVec M y) (matVec B (matVec F y)))))
        (vscale t (vadd w (vscale dt (vadd (matVec M w) (matVec B (matVec F w)))))) := by
  have hl : y.length = (vscale t w).length := by rw [vscale_length, hy, hw]
  have hlF : (matVec F y).length = (matVec F (vscale t w)).length := by simp [matVec]
  rw [matVec_vadd M hl, matVec_vadd F hl, matVec_vadd B hlF, matVec_vscale, matVec_vscale, matVec_vscale]
  rw [vadd_vadd_comm (matVec M y), vscale_vadd dt, vadd_vadd_comm y]
  congr 1
  rw [vscale_vadd t, ← vscale_vadd t, vscale_vscale_comm dt t]

/-- **C38**. Linear dynamics, linear unsaturated stateless backup law, Euler steps: moving the initial state by `t v` moves point
`k` of the backup trajectory by exactly `t` times what the sensitivity used at point `k` makes of `v`. -/
theorem C38_exact_increment {E : ImplicitEnv K} {s : ImplicitObj K P A} {n : Nat} {dt : K} {M B F : List (List K)}
    (hl : LinearLoop E s n dt M B F) {x v : List K} (hx : x.length = n) (hv : v.length = n) (t : K) (k : Nat)
    (h1 : ∀ j < k, Unsaturated E s x dt F j) (h2 : ∀ j < k, Unsaturated E s (vadd x (vscale t v)) dt F j) :
    ∃ y z, backupPath E s x dt k = some (y, z) ∧ y.length = n ∧ (variation E s x dt v k).length = n ∧
      backupPath E s (vadd x (vscale t v)) dt k = some (vadd y (vscale t (variation E s x dt v k)), z) := by
  induction k with
  | zero => exact ⟨x, s.ext.extra.ctrl.state, rfl, hx, hv, rfl⟩
  | succ k ih =>
    obtain ⟨y, z, hy, hyl, hvl, hyv⟩ := ih (fun j hj => h1 j (by omega)) (fun j hj => h2 j (by omega))
    obtain ⟨y1, z1, e1, c1⟩ := h1 k (by omega)
    rw [hy] at e1
    obtain ⟨rfl, rfl⟩ : y = y1 ∧ z = z1 := by simpa using e1
    obtain ⟨y2, z2, e2, c2⟩ := h2 k (by omega)
    rw [hyv] at e2
    simp only [Option.some.injEq, Prod.mk.injEq] at e2
    obtain ⟨rfl, rfl⟩ := e2
    have s1 := linear_step hl hy c1
    have s2 := linear_step hl hyv c2
    have hvar := linear_variation hl v s1 hvl
    have lstep : ∀ w : List K, w.length = n → (vadd w (vscale dt (vadd (matVec M w) (matVec B (matVec F w))))).length = n := by
      intro w hw
      exact vadd_length_eq hw (by
        rw [vscale_length]
        exact vadd_length_eq (by rw [matVec_length', hl.rowsM]) (by rw [matVec_length', hl.rowsB]))
    refine ⟨_, _, s1, lstep y hyl, by rw [hvar]; exact lstep _ hvl, ?_⟩
    rw [s2, hvar, step_linear t dt hyl hvl]

end

section
variable {P A : Type}

/-- Strictly inside the bounds, small changes of the initial state do not saturate the backup law. -/
theorem unsaturated_nearby {E : ImplicitEnv ℝ} {s : ImplicitObj ℝ P A} {n : Nat} {dt : ℝ} {M B F : List (List ℝ)}
    (hl : LinearLoop E s n dt M B F) (hlo : BoundFits F.length s.controlBoundsLow) (hhi : BoundFits F.length s.controlBoundsHigh)
    {x v : List ℝ} (hx : x.length = n) (hv : v.length = n) (k : Nat) (h : ∀ j < k, Interior E s x dt F j) :
    ∀ᶠ t in nhds (0 : ℝ), ∀ j < k, Unsaturated E s (vadd x (vscale t v)) dt F j := by
  have fits : ∀ w : List ℝ, BoundFits (matVec F w).length s.controlBoundsLow ∧ BoundFits (matVec F w).length s.controlBoundsHigh := by
    intro w; rw [matVec_length']; exact ⟨hlo, hhi⟩
  have unsat0 : ∀ j < k, Unsaturated E s x dt F j := by
    intro j hj
    obtain ⟨y, z, hy, hc⟩ := h j hj
    refine ⟨y, z, hy, C05_clip_identity _ _ (fits y).1 (fits y).2 ?_⟩
    intro i c hi
    exact ⟨fun b hb => ((hc i c hi).1 b hb).le, fun b hb => ((hc i c hi).2 b hb).le⟩
  clear hlo hhi
  induction k with
  | zero => exact Filter.Eventually.of_forall fun t j hj => absurd hj (by omega)
  | succ k ih =>
    have ih := ih (fun j hj => h j (by omega)) (fun j hj => unsat0 j (by omega))
    obtain ⟨y, z, hy, hc⟩ := h k (by omega)
    -- the control at point k as a function of t
    have hcont : ∀ᶠ t in nhds (0 : ℝ), ∀ i ∈ Finset.range F.length,
        (∀ b, boundAt s.controlBoundsLow i = some b →
          b ≤ (matVec F y).getD i 0 + t * (matVec F (variation E s x dt v k)).getD i 0) ∧
        (∀ b, boundAt s.controlBoundsHigh i = some b →
          (matVec F y).getD i 0 + t * (matVec F (variation E s x dt v k)).getD i 0 ≤ b) := by
      rw [Filter.eventually_all_finset]
      intro i hi
      have hil : i < (matVec F y).length := by rw [matVec_length']; exact Finset.mem_range.1 hi
      have hci := hc i _ (List.getElem?_eq_getElem hil)
      have hg : (matVec F y).getD i 0 = (matVec F y)[i] := by
        rw [List.getD_eq_getElem?_getD, List.getElem?_eq_getElem hil]; rfl
      rw [hg]
      have hct : Continuous fun t : ℝ => (matVec F y)[i] + t * (matVec F (variation E s x dt v k)).getD i 0 := by fun_prop
      have hlim : Filter.Tendsto (fun t : ℝ => (matVec F y)[i] + t * (matVec F (variation E s x dt v k)).getD i 0) (nhds 0)
          (nhds ((matVec F y)[i])) := by
        have := hct.tendsto 0
        simpa using this
      refine Filter.Eventually.and ?_ ?_
      · rcases hb : boundAt s.controlBoundsLow i with _ | b
        · exact Filter.Eventually.of_forall fun t b hb => by simp at hb
        · have := hlim.eventually (lt_mem_nhds (hci.1 b hb))
          refine this.mono fun t ht b' hb' => ?_
          obtain rfl : b = b' := by simpa using hb'
          exact ht.le
      · rcases hb : boundAt s.controlBoundsHigh i with _ | b
        · exact Filter.Eventually.of_forall fun t b hb => by simp at hb
        · have := hlim.eventually (gt_mem_nhds (hci.2 b hb))
          refine this.mono fun t ht b' hb' => ?_
          obtain rfl : b = b' := by simpa using hb'
          exact ht.le
    filter_upwards [ih, hcont] with t h1 h2 j hj
    rcases Nat.lt_succ_iff_lt_or_eq.1 hj with hj' | rfl
    · exact h1 j hj'
    · obtain ⟨y', z', e1, hyl, hvl, e2⟩ := C38_exact_increment hl hx hv t j (fun i hi => unsat0 i (by omega)) h1
      rw [hy] at e1
      obtain ⟨rfl, rfl⟩ : y = y' ∧ z = z' := by simpa using e1
      refine ⟨_, _, e2, C05_clip_identity _ _ (fits _).1 (fits _).2 ?_⟩
      have hll : y.length = (vscale t (variation E s x dt v j)).length := by rw [vscale_length, hyl, hvl]
      rw [matVec_vadd F hll, matVec_vscale]
      intro i c hi
      have hil : i < F.length := by
        have := (List.getElem?_eq_some_iff.1 hi).1
        simpa [vadd, vscale, matVec] using this
      obtain ⟨b1, b2⟩ := h2 i (Finset.mem_range.2 hil)
      have hce : c = (matVec F y).getD i 0 + t * (matVec F (variation E s x dt v j)).getD i 0 := by
        have l1 : i < (matVec F y).length := by rw [matVec_length']; exact hil
        have l2 : i < (matVec F (variation E s x dt v j)).length := by rw [matVec_length']; exact hil
        rw [List.getD_eq_getElem?_getD, List.getD_eq_getElem?_getD, List.getElem?_eq_getElem l1, List.getElem?_eq_getElem l2]
        simp only [vadd, vscale, List.getElem?_zipWith, List.getElem?_map, List.getElem?_eq_getElem l1, List.getElem?_eq_getElem l2,
          Option.map_some, Option.some.injEq] at hi
        exact hi.symm
      rw [hce]
      exact ⟨b1, b2⟩

/-- **C38, as a derivative.** Over the reals, where the backup control stays strictly inside the bounds along the trajectory: the
derivative of every component of the predicted state at point `k` with respect to the initial state in direction `v` is what
the sensitivity used at point `k` makes of `v`. -/
theorem C38_derivative {E : ImplicitEnv ℝ} {s : ImplicitObj ℝ P A} {n : Nat} {dt : ℝ} {M B F : List (List ℝ)}
    (hl : LinearLoop E s n dt M B F) (hlo : BoundFits F.length s.controlBoundsLow) (hhi : BoundFits F.length s.controlBoundsHigh)
    {x v : List ℝ} (hx : x.length = n) (hv : v.length = n) (k : Nat) (h : ∀ j < k, Interior E s x dt F j) (i : Nat) (hi : i < n) :
    HasDerivAt (fun t => pathComponent E s (vadd x (vscale t v)) dt k i) ((variation E s x dt v k).getD i 0) 0 := by
  have hev := unsaturated_nearby hl hlo hhi hx hv k h
  have h0 : ∀ j < k, Unsaturated E s x dt F j := by
    have := hev.self_of_nhds
    have e : vadd x (vscale 0 v) = x := by
      have hz : vscale (0 : ℝ) v = List.replicate x.length 0 := by
        simp only [vscale, zero_mul, List.map_const', hx, hv]
      rw [hz]
      clear hx h hev this hz
      induction x with
      | nil => rfl
      | cons a x ih => simpa [vadd, List.replicate_succ] using ih
    rwa [e] at this
  obtain ⟨y, z, hy, hyl, hvl, -⟩ := C38_exact_increment hl hx hv 0 k h0 (by
    have := hev.self_of_nhds; exact this)
  have key : (fun t => pathComponent E s (vadd x (vscale t v)) dt k i) =ᶠ[nhds 0]
      fun t => y.getD i 0 + t * (variation E s x dt v k).getD i 0 := by
    filter_upwards [hev] with t ht
    obtain ⟨y', z', e1, -, -, e2⟩ := C38_exact_increment hl hx hv t k h0 ht
    rw [hy] at e1
    obtain ⟨rfl, rfl⟩ : y = y' ∧ z = z' := by simpa using e1
    unfold pathComponent
    rw [e2]
    simp only
    have l1 : i < y.length := by omega
    have l2 : i < (variation E s x dt v k).length := by omega
    simp only [List.getD_eq_getElem?_getD, vadd, vscale, List.getElem?_zipWith, List.getElem?_map, List.getElem?_eq_getElem l1,
      List.getElem?_eq_getElem l2, Option.map_some, Option.getD_some]
  refine HasDerivAt.congr_of_eventuallyEq ?_ key
  have := ((hasDerivAt_id (0 : ℝ)).mul_const ((variation E s x dt v k).getD i 0)).const_add (y.getD i 0)
  simpa using this

end

/-! ### A saturated law, and a concrete unsaturated one -/

/-- `x' = u`, Euler prediction, and the Jacobian of `x ↦ -10 x`. -/
noncomputable def kE : ImplicitEnv ℝ :=
  { ad := fun _ _ => [[-10]], f := fun y => matVec [[0]] y, g := fun _ => [[1]]
    pred := fun y dt u => vadd y (vscale dt (vadd (matVec [[0]] y) (matVec [[1]] u))) }

/-- The module with backup law `-10 x` and bounds `±b`. -/
noncomputable def kObj (b : ℝ) : ImplicitObj ℝ Unit Unit :=
  { toBase := Base.init (some (.scalar b)) (some (.scalar (-b)))
    constraints := [], params := [], constraintEnabled := [], constraintValues := []
    isStaleConstraints := false
    ext := { epsilon := 1 / 10000, controlDim := 1, solverException := true, numSlack := 0
             objWeight := [1], constraintNames := ["u1_min", "u1_max"], actuation := [⟨[1], -b⟩, ⟨[-1], -b⟩]
             direct := [], directParams := [], directEnabled := [], causing := none
             extra := ⟨1, ⟨fun y _ z => some (matVec [[-10]] y, z), .none, .none, .none⟩⟩ } }

theorem k_linear (b : ℝ) : LinearLoop kE (kObj b) 1 (1 / 10) [[0]] [[1]] [[-10]] := by
  refine ⟨rfl, rfl, fun _ => rfl, fun _ => rfl, fun _ _ => rfl, fun _ _ => rfl, ?_⟩
  intro y z v hv
  obtain ⟨a, rfl⟩ := List.length_eq_one_iff.1 hv
  simp [kE, matVec, vadd, dot_cons]

theorem k_interior {b : ℝ} {x : ℝ} (h : |10 * x| < b) : ∀ j < 1, Interior kE (kObj b) [x] (1 / 10) [[-10]] j := by
  intro j hj
  obtain rfl : j = 0 := by omega
  refine ⟨[x], .none, rfl, ?_⟩
  intro i c hc
  obtain ⟨h1, h2⟩ := abs_lt.1 h
  rcases i with _ | i
  · simp only [matVec, List.map_cons, List.map_nil, dot_cons, dot_nil_left, List.getElem?_cons_zero, Option.some.injEq] at hc
    refine ⟨fun b' hb' => ?_, fun b' hb' => ?_⟩
    · obtain rfl : -b = b' := by simpa [kObj, Base.init, boundAt] using hb'
      linarith
    · obtain rfl : b = b' := by simpa [kObj, Base.init, boundAt] using hb'
      linarith
  · simp [matVec] at hc

/-- Within the bounds `±20` the predicted state at point 1 is `0` for every initial state near `1`; the sensitivity says so. -/
example : HasDerivAt (fun t => pathComponent kE (kObj 20) (vadd [1] (vscale t [1])) (1 / 10) 1 0) 0 0 := by
  have h := C38_derivative (k_linear 20) (by exact trivial) (by exact trivial) (x := [1]) (v := [1]) rfl rfl 1
    (k_interior (by norm_num)) 0 (by norm_num)
  have hs : backupPath kE (kObj 20) [1] (1 / 10) 1 = some _ :=
    linear_step (k_linear 20) (k := 0) rfl (C05_clip_identity _ _ trivial trivial (by
      obtain ⟨y, z, hy, hc⟩ := k_interior (b := 20) (x := 1) (by norm_num) 0 (by omega)
      obtain ⟨rfl, rfl⟩ : [1] = y ∧ CState.none = z := by simpa [backupPath, kObj] using hy
      intro i c hi
      exact ⟨fun b hb => ((hc i c hi).1 b hb).le, fun b hb => ((hc i c hi).2 b hb).le⟩))
  have hv := linear_variation (k_linear 20) [1] hs rfl
  have e : (variation kE (kObj 20) [1] (1 / 10) [1] 1).getD 0 0 = 0 := by
    rw [hv]
    simp [variation, matVec, vadd, vscale, dot_cons]
  rwa [e] at h

/-- **Unsaturated is needed**: with bounds `±1` the backup control at `x = 1` is clipped; the predicted state then moves one for
one with the initial state, but the sensitivity the module uses is `0`. -/
theorem C38_saturated_counterexample :
    (∀ t : ℝ, |t| ≤ 1 / 2 → pathComponent kE (kObj 1) (vadd [1] (vscale t [1])) (1 / 10) 1 0 = 9 / 10 + t) ∧
    variation kE (kObj 1) [1] (1 / 10) [1] 1 = [0] := by
  have clip : ∀ c : ℝ, c ≤ -1 → (kObj 1).toBase.clipControl [c] = .ok [-1] := by
    intro c hc
    have e : (kObj 1).toBase.clipControl [c] = .ok [min (max c (-1)) 1] := rfl
    rw [e, max_eq_right hc, min_eq_left (by norm_num)]
  have path : ∀ x : ℝ, 1 / 10 ≤ x → backupPath kE (kObj 1) [x] (1 / 10) 1 = some ([x - 1 / 10], .none) := by
    intro x hx
    have hg : (kObj 1).ext.extra.ctrl.gen [x] (1 / 10) .none = some ([-10 * x], .none) := by
      simp [kObj, matVec, dot_cons]
    have := C36_trajectory kE (kObj 1) [x] [x] (1 / 10) 0 .none rfl _ _ hg _ (clip (-10 * x) (by linarith))
    rw [this]
    simp [kE, vadd, vscale, matVec, dot_cons]
    ring
  constructor
  · intro t ht
    obtain ⟨h1, h2⟩ := abs_le.1 ht
    have e : vadd [1] (vscale t [1]) = [1 + t] := by simp [vadd, vscale]
    unfold pathComponent
    rw [e, path (1 + t) (by linarith)]
    simp only [List.getD_cons_zero]
    ring
  · have h1 := path 1 (by norm_num)
    simp only [variation, h1]
    simp [kE, matVec, vadd, vscale, dot_cons]

end RTA
