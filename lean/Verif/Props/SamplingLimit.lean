import Verif.Props.ExistenceSampled
import Verif.Props.ExistenceScalar
import Verif.Lemmas.SampledODE

/-!
C122: the shorter the interval at which an explicit ASIF module is called, the closer is the motion to that of the loop in which it is called at
all times; the distance up to a given time is at most proportional to the interval, and so is the violation of a constraint.
-/
namespace RTA
open Set
open scoped NNReal
variable {P X : Type}

section
variable {solver : Solver ℝ} {n : Nat} {f : List ℝ → List ℝ} {g : List ℝ → List (List ℝ)} {s : ASIFObj ℝ (List ℝ) P X}
  {des : List ℝ → List ℝ} {dt : ℝ}

/-- In a sampled loop the control is the answer of the module as given for the state at the last call. -/
theorem sampled_control (hs : ExplicitModule solver f g s) (hen : s.enable = true) {κ : List ℝ → List ℝ}
    (hκ : ∀ x, x.length = n → (explicitASIF solver f g s (.array x) dt (des x)).1 = .ok (κ x)) {Δ : ℝ} (hΔ : 0 < Δ) {y v : ℝ → List ℝ}
    {st : ℕ → ASIFObj ℝ (List ℝ) P X} (h : SampledLoop (fun s x => explicitASIF solver f g s (.array x) Δ (des x)) Δ n f g y v st)
    (h0 : st 0 = s) (k : ℕ) {t : ℝ} (h1 : k * Δ ≤ t) (h2 : t < (k + 1) * Δ) : v t = κ (y (k * Δ)) := by
  have hlen : ∀ k : ℕ, (y (k * Δ)).length = n := fun k => (h.motion.curve _ (mul_nonneg (Nat.cast_nonneg k) hΔ.le)).2
  have hrun : ∀ ops, (runE solver f g s ops).enable = true → (runE solver f g s ops).constraints = s.constraints →
      (runE solver f g s ops).ext.direct = s.ext.direct → ∀ x : List ℝ,
      (explicitASIF solver f g (runE solver f g s ops) (.array x) Δ (des x)).1 = (explicitASIF solver f g s (.array x) Δ (des x)).1 :=
    fun ops h1 h2 h3 x => (C12_history_independent hs [] ops hen h1 h2 h3 (.array x) Δ (des x)).1
  have hst : ∀ k, ∃ ops, st k = runE solver f g s ops ∧ (st k).enable = true ∧ (st k).constraints = s.constraints ∧
      (st k).ext.direct = s.ext.direct := by
    intro k
    induction k with
    | zero => rw [h0]; exact ⟨[], rfl, hen, rfl, rfl⟩
    | succ k ih =>
      obtain ⟨ops, e, g1, g2, g3⟩ := ih
      obtain ⟨w, hw, -⟩ := h.control k
      have hm : ExplicitModule solver f g (runE solver f g s ops) := by
        obtain ⟨high, low, all, use, eps, n, exc, direct, extra, s0, ops0, e1, e2, e3, rfl⟩ := hs
        exact ⟨high, low, all, use, eps, n, exc, direct, extra, s0, ops0 ++ ops, e1, e2, e3, by rw [runE_append]⟩
      have hk := hm.kept (.array (y (k * Δ))) Δ (des (y (k * Δ)))
      have hn : st (k + 1) = (explicitASIF solver f g (runE solver f g s ops) (.array (y (k * Δ))) Δ (des (y (k * Δ)))).2 := by
        rw [← e]; exact (congrArg Prod.snd hw).symm
      rw [e] at g1 g2 g3
      refine ⟨ops ++ [.call (.array (y (k * Δ))) Δ (des (y (k * Δ)))], ?_, ?_, ?_, ?_⟩
      · rw [hn, runE_append]; rfl
      · rw [hn, hk.enable]; exact g1
      · rw [hn, hk.constraints]; exact g2
      · rw [hn, hk.direct]; exact g3
  obtain ⟨w, hw, hu⟩ := h.control k
  obtain ⟨ops, e, g1, g2, g3⟩ := hst k
  rw [hu t h1 h2]
  have h3 := congrArg Prod.fst hw
  simp only at h3
  rw [e] at h3 g1 g2 g3
  rw [hrun ops g1 g2 g3] at h3
  have h4 : (explicitASIF solver f g s (.array (y (k * Δ))) Δ (des (y (k * Δ)))).1 = .ok (κ (y (k * Δ))) := hκ _ (hlen k)
  rw [h4] at h3
  exact (Except.ok.inj h3).symm

/-- **C122.** Let the system have a constant input matrix, and let its drift and the answers of the module change at most proportionally to the
state. Then for every initial state and end time there is a constant `C` such that, whatever the interval `Δ ≤ 1` between calls, the motion
of the sampled loop differs from the motion of the loop without sampling by at most `C Δ`. -/
theorem C122_converges (hs : ExplicitModule solver f g s) (hen : s.enable = true) {κ : List ℝ → List ℝ}
    (hκ : ∀ x, x.length = n → (explicitASIF solver f g s (.array x) dt (des x)).1 = .ok (κ x)) {m : Nat}
    (hκl : ∀ x, x.length = n → (κ x).length = m) (hκc : ∀ j < m, LipOn n fun x => (κ x).getD j 0) {G : List (List ℝ)}
    (hg : ∀ x, x.length = n → g x = G) (hGl : G.length = n) (hGr : ∀ r ∈ G, r.length = m) (hfl : ∀ x, x.length = n → (f x).length = n)
    (hf : ∀ i < n, LipOn n fun x => (f x).getD i 0) {T : ℝ} (hT : 0 ≤ T) (x0 : List ℝ) :
    ∃ C, 0 ≤ C ∧ ∀ Δ : ℝ, 0 < Δ → Δ ≤ 1 → ∀ x u y v st, ClosedLoop solver n f g s des dt x u →
      SampledLoop (fun s x => explicitASIF solver f g s (.array x) Δ (des x)) Δ n f g y v st → x 0 = x0 → y 0 = x0 → st 0 = s →
      ∀ t, 0 ≤ t → t ≤ T → ∀ i < n, |(x t).getD i 0 - (y t).getD i 0| ≤ C * Δ := by
  obtain ⟨Kp, hKp⟩ := field_lipschitz hf
  have hq : ∀ i < n, LipOn n fun x => (matVec G (κ x)).getD i 0 := fun i hi => by
    have hrow : (G.getD i []).length = m := by
      have hi' : i < G.length := by rw [hGl]; exact hi
      rw [List.getD_eq_getElem?_getD, List.getElem?_eq_getElem hi', Option.getD_some]
      exact hGr _ (List.getElem_mem hi')
    exact (LipOn.dot hκl hκc hrow).congr fun x _ => getD_matVec _ _ _
  obtain ⟨Kq, hKq⟩ := field_lipschitz (vel := fun x => matVec G (κ x)) hq
  obtain ⟨C, hC, hclose⟩ := sampled_close hKp hKq hT (fun i : Fin n => x0.getD i 0)
  refine ⟨C, hC, fun Δ hΔ hΔ1 x u y v st hx hy hx0 hy0 hst t ht htT i hi => ?_⟩
  have split : ∀ {z w : List ℝ}, z.length = n → ∀ i, (vadd (f z) (matVec (g z) w)).getD i 0 = (f z).getD i 0 + (matVec G w).getD i 0 :=
    fun hz i => by rw [hg _ hz, getD_vadd' (by rw [hfl _ hz, matVec_length, hGl])]
  have h1 := hclose Δ hΔ hΔ1 (fun t => fun i : Fin n => (x t).getD i 0) (fun t => fun i : Fin n => (y t).getD i 0)
    (continuousOn_pi.2 fun i => hx.motion.cont i i.2)
    (fun t ht => hasDerivWithinAt_pi.2 fun i => by
      have hl := (hx.motion.curve t ht).2
      have hu : u t = κ (x t) := by
        have h1 := hx.control t ht
        rw [hκ _ hl] at h1
        exact (Except.ok.inj h1).symm
      have := hx.motion.deriv t ht i i.2
      rw [split hl, hu] at this
      simp only [ofFn_getD_self hl, Pi.add_apply]
      exact this)
    (continuousOn_pi.2 fun i => hy.motion.cont i i.2)
    (fun k t ht => hasDerivWithinAt_pi.2 fun i => by
      have hk0 : 0 ≤ (k : ℝ) * Δ := mul_nonneg (Nat.cast_nonneg k) hΔ.le
      have hl := (hy.motion.curve t (hk0.trans ht.1)).2
      have hlk := (hy.motion.curve _ hk0).2
      have := hy.motion.deriv t (hk0.trans ht.1) i i.2
      rw [split hl, sampled_control hs hen hκ hΔ hy hst k ht.1 ht.2] at this
      simp only [ofFn_getD_self hl, ofFn_getD_self hlk, Pi.add_apply]
      exact this)
    (by simp only [hx0]) (by simp only [hy0]) t ht htT
  have h2 := (dist_le_pi_dist (fun i : Fin n => (x t).getD i 0) (fun i : Fin n => (y t).getD i 0) ⟨i, hi⟩).trans h1
  rwa [Real.dist_eq] at h2

/-- **C122, safety.** If moreover every state has an admissible control, an enabled constraint without slack whose value changes at most
proportionally to the state and that holds at the start is violated in the sampled loop by at most a constant times the interval, up to any given
time. -/
theorem C122_violation (hspec : SolverSpec solver) (hs : ExplicitModule solver f g s) (hen : s.enable = true) (hpos : ScalesPos s.constraints)
    (hadm : ∀ x, x.length = n → ∃ w d, AdmissibleS f g s x w d) {κ : List ℝ → List ℝ}
    (hκ : ∀ x, x.length = n → (explicitASIF solver f g s (.array x) dt (des x)).1 = .ok (κ x)) {m : Nat}
    (hκl : ∀ x, x.length = n → (κ x).length = m) (hκc : ∀ j < m, LipOn n fun x => (κ x).getD j 0) {G : List (List ℝ)}
    (hg : ∀ x, x.length = n → g x = G) (hGl : G.length = n) (hGr : ∀ r ∈ G, r.length = m) (hfl : ∀ x, x.length = n → (f x).length = n)
    (hf : ∀ i < n, LipOn n fun x => (f x).getD i 0) {T : ℝ} (hT : 0 ≤ T) {k : String} {c : Constraint ℝ (List ℝ) P}
    (hmem : (k, c) ∈ s.constraints) (hce : c.enabled = true) (hcs : c.slackPriorityScale = none) {al : ℝ → ℝ} (ha : c.alpha = some al)
    (hneg : ∀ y < 0, strengthening c al y ≤ 0)
    (hgrad : IsGradientOn univ n (fun x => c.computeFn x c.params) (fun x => c.gradFn x c.params)) (hval : LipOn n fun x => c.value x)
    {x0 : List ℝ} (hx0 : x0.length = n) (h0 : 0 ≤ c.value x0) :
    ∃ C, 0 ≤ C ∧ ∀ Δ : ℝ, 0 < Δ → Δ ≤ 1 → ∀ y v st,
      SampledLoop (fun s x => explicitASIF solver f g s (.array x) Δ (des x)) Δ n f g y v st → y 0 = x0 → st 0 = s →
      ∀ t, 0 ≤ t → t ≤ T → -(C * Δ) ≤ c.value (y t) := by
  obtain ⟨C, hC, hclose⟩ := C122_converges hs hen hκ hκl hκc hg hGl hGr hfl hf hT x0
  obtain ⟨L, hL, hv⟩ := hval
  have hlip : ∀ i < n, LipOn n fun x => (vadd (f x) (matVec (g x) (κ x))).getD i 0 := fun i hi => by
    have hrow : (G.getD i []).length = m := by
      have hi' : i < G.length := by rw [hGl]; exact hi
      rw [List.getD_eq_getElem?_getD, List.getElem?_eq_getElem hi', Option.getD_some]
      exact hGr _ (List.getElem_mem hi')
    refine ((hf i hi).add (LipOn.dot hκl hκc hrow)).congr fun x hx => ?_
    rw [hg x hx, getD_vadd' (by rw [hfl x hx, matVec_length, hGl]), getD_matVec]
  obtain ⟨x, u, hx, hx0'⟩ := (C121_exists hκ (fun x hx => by rw [hg x hx]; simp [vadd, hfl x hx, hGl]) hlip).1 x0 hx0
  have hsafe := C121_safe hspec hs hen hpos hadm hx hmem hce hcs ha hneg hgrad (by rw [hx0']; exact h0)
  refine ⟨L * C, by positivity, fun Δ hΔ hΔ1 y v st hy hy0 hst t ht htT => ?_⟩
  have h1 := hv (x t) (y t) (hx.motion.curve t ht).2 (hy.motion.curve t ht).2 (C * Δ) (by positivity)
    (hclose Δ hΔ hΔ1 x u y v st hx hy hx0' hy0 hst t ht htT)
  have h2 := hsafe t ht
  have h3 := le_abs_self (c.value (x t) - c.value (y t))
  linarith [show L * (C * Δ) = L * C * Δ by ring]

end

/-! ### Example -/

/-- The module of the band `[0, 1]` with its bounds: sampled motions converge to the motion without sampling, and violate `0 ≤ x` by at most a
multiple of the interval. -/
example {solver : Solver ℝ} (hspec : SolverSpec solver) {x0 T : ℝ} (hx0 : 0 ≤ x0) (hT : 0 ≤ T) :
    ∃ C, 0 ≤ C ∧ ∀ Δ : ℝ, 0 < Δ → Δ ≤ 1 → ∀ y v st,
      SampledLoop (fun s x => explicitASIF solver bandF (fun _ => [[1]]) s (.array x) Δ [-1 - x.getD 0 0]) Δ 1 bandF (fun _ => [[1]]) y v st →
      y 0 = [x0] → st 0 = bandObj → ∀ t, 0 ≤ t → t ≤ T → -(C * Δ) ≤ bandLow.value (y t) := by
  obtain ⟨k, hk, hl⟩ := band_answer hspec
  have hid : LipOn 1 fun x => x.getD 0 0 := ⟨1, zero_le_one, fun x y _ _ r _ h => by rw [one_mul]; exact h 0 one_pos⟩
  have hns : slackScales bandObj.constraints = [] := rfl
  refine C122_violation hspec (band_module solver) rfl (by intro w hw; rw [hns] at hw; simp at hw) (fun x hx => ?_) (des := fun x => [-1 - x.getD 0 0])
    (κ := fun x => [k x]) hk (m := 1) (fun _ _ => rfl) (fun j hj => ?_) (G := [[1]]) (fun _ _ => rfl) rfl (by simp) (fun _ _ => rfl) (fun i hi => ?_) hT
    (k := "low") (c := bandLow) (by simp [bandObj]) rfl rfl (al := id) rfl (fun y hy => ?_) posC_grad ?_ rfl ?_
  · obtain ⟨y, rfl⟩ := List.length_eq_one_iff.1 hx
    exact ⟨_, _, admissible_iff_zeros.1 (band_admissible y)⟩
  · obtain rfl : j = 0 := by omega
    simpa using hl
  · obtain rfl : i = 0 := by omega
    exact (hid.mul_const (-1)).congr fun x _ => by simp [bandF]
  · simp only [strengthening, if_neg (not_le.2 hy), bandLow, add_zero]
    exact hy.le
  · exact hid.congr fun x _ => by simp [Constraint.value, bandLow, minLimit, Constraint.mk', stateAt]
  · simpa [Constraint.value, bandLow, minLimit, Constraint.mk', stateAt] using hx0

end RTA
