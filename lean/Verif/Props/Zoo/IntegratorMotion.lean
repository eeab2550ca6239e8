import Verif.Props.Zoo.IntegratorMarginImplicit
import Verif.Props.ExistenceImplicit

/-!
C125 and C126 for motions in continuous time: the solutions of the differential equation of the point mass, with the control held between the calls.
-/
namespace RTA
open Set
variable {A : Type}

/-- The point mass under a control that is held over `[a, a + Δ)` moves as `pointExact` says. -/
theorem held_point {x u : ℝ → List ℝ} (h : Trajectory univ 2 pointF (pointG 1) x u) {a Δ w : ℝ} (ha : 0 ≤ a)
    (hu : ∀ t, a ≤ t → t < a + Δ → u t = [w]) (t : ℝ) (ht0 : 0 ≤ t) (ht : t ≤ Δ) : x (a + t) = pointExact 1 (x a) t [w] := by
  have hsub : Icc a (a + Δ) ⊆ Ici 0 := fun s hs => ha.trans hs.1
  have hmem : a + t ∈ Icc a (a + Δ) := ⟨by linarith, by linarith⟩
  have hder : ∀ s ∈ Ico a (a + Δ), HasDerivWithinAt (fun r => (x r).getD 0 0) ((x s).getD 1 0) (Ici s) s ∧
      HasDerivWithinAt (fun r => (x r).getD 1 0) w (Ici s) s := by
    intro s hs
    have hs0 : 0 ≤ s := ha.trans hs.1
    have hl := (h.curve s hs0).2
    have h0 := h.deriv s hs0 0 (by norm_num)
    have h1 := h.deriv s hs0 1 (by norm_num)
    rw [hu s hs.1 hs.2, point_velocity w _ hl] at h0 h1
    exact ⟨h0, h1⟩
  have hv : ∀ s ∈ Icc a (a + Δ), (x s).getD 1 0 = (x a).getD 1 0 + w * (s - a) := by
    intro s hs
    have := constant_of_has_deriv_right_zero (f := fun r => (x r).getD 1 0 - w * (r - a)) (a := a) (b := a + Δ)
      (((h.cont 1 (by norm_num)).mono hsub).sub (by fun_prop)) (fun r hr => by
        have h1 := (hder r hr).2.sub (((hasDerivWithinAt_id r (Ici r)).sub_const a).const_mul w)
        refine h1.congr_deriv ?_
        ring) s hs
    simp only [sub_self, mul_zero, sub_zero] at this
    linarith
  have hp : ∀ s ∈ Icc a (a + Δ), (x s).getD 0 0 = (x a).getD 0 0 + (x a).getD 1 0 * (s - a) + w * (s - a) ^ 2 / 2 := by
    intro s hs
    have := constant_of_has_deriv_right_zero (f := fun r => (x r).getD 0 0 - ((x a).getD 1 0 * (r - a) + w / 2 * (r - a) ^ 2)) (a := a)
      (b := a + Δ) (((h.cont 0 (by norm_num)).mono hsub).sub (by fun_prop)) (fun r hr => by
        have h2 := (hasDerivWithinAt_id r (Ici r)).sub_const a
        have h1 := (hder r hr).1.sub ((h2.const_mul ((x a).getD 1 0)).add ((h2.pow 2).const_mul (w / 2)))
        refine h1.congr_deriv ?_
        rw [hv r ⟨hr.1, hr.2.le⟩]
        simp
        ring) s hs
    simp only [sub_self, mul_zero, sub_zero, ne_eq, OfNat.ofNat_ne_zero, not_false_eq_true, zero_pow, add_zero] at this
    linarith
  have hl := (h.curve (a + t) (add_nonneg ha ht0)).2
  have e0 := hp _ hmem
  have e1 := hv _ hmem
  rw [add_sub_cancel_left] at e0 e1
  generalize x (a + t) = y at hl e0 e1
  obtain ⟨p, q, rfl⟩ := List.length_eq_two.1 hl
  simp only [List.getD_cons_zero, List.getD_cons_succ] at e0 e1
  subst e0 e1
  simp only [pointExact, List.getD_cons_zero, div_one, List.cons.injEq, and_true]
  constructor <;> ring

/-- What the calls along a motion of the sampled loop of a switching module of the example do: a run in the sense of C123. -/
theorem point_run {mon : SimplexObj ℝ (List ℝ) Unit A → List ℝ → ℝ → List ℝ → Except PyErr Bool × SimplexObj ℝ (List ℝ) Unit A} (hm : MonFrame mon)
    {des : List ℝ → ℝ} (hdes : ∀ x, -1 ≤ des x ∧ des x ≤ 1) {Δ : ℝ} (hΔ : 0 < Δ) {x u : ℝ → List ℝ} {st : ℕ → SimplexObj ℝ (List ℝ) Unit A}
    (h : SampledLoop (fun s x => filterControlCB getStateDefault (simplexFilter mon) s (.array x) Δ [des x]) Δ 2 pointF (pointG 1) x u st)
    (hen : (st 0).enable = true) (hhi : (st 0).controlBoundsHigh = some (.scalar 1)) (hlo : (st 0).controlBoundsLow = some (.scalar (-1)))
    (hgen : (st 0).ext.ctrl.gen = dockCtrl.gen) :
    ∃ c : ℕ → List ℝ, (∀ N, NoisyRun (filterControlCB getStateDefault (simplexFilter mon)) (fun x h u x' => x' = pointExact 1 x h u) (fun x e => e = x)
        (fun _ => Δ) (fun n => [des (x (n * Δ))]) N (fun n => x (n * Δ)) (fun n => x (n * Δ)) st c) ∧
      ∀ n : ℕ, ∀ t, 0 ≤ t → t ≤ Δ → x (n * Δ + t) = pointExact 1 (x (n * Δ)) t (c n) := by
  choose c hcall hheld using h.control
  have htriv : ∀ N, NoisyRun (filterControlCB getStateDefault (simplexFilter mon)) (fun _ _ _ _ => True) (fun x e => e = x)
      (fun _ => Δ) (fun n => [des (x (n * Δ))]) N (fun n => x (n * Δ)) (fun n => x (n * Δ)) st c :=
    fun N => ⟨fun _ _ => rfl, fun n _ => hcall n, fun _ _ => trivial⟩
  have hform : ∀ n, ∃ a, c n = [a] := by
    intro n
    rcases noisy_switch hm (htriv (n + 1)) hen n (Nat.lt_succ_self n) with h1 | ⟨z, ub, z', hg, hc⟩
    · rw [dock_clip _ hhi hlo _ (hdes _).1 (hdes _).2] at h1
      exact ⟨_, by simpa using h1.symm⟩
    · rw [hgen] at hg
      obtain rfl : [-1] = ub := (Prod.mk.inj (Option.some.inj hg)).1
      rw [dock_clip _ hhi hlo _ le_rfl (by norm_num)] at hc
      exact ⟨-1, by simpa using hc.symm⟩
  have hmove : ∀ n : ℕ, ∀ t, 0 ≤ t → t ≤ Δ → x (n * Δ + t) = pointExact 1 (x (n * Δ)) t (c n) := by
    intro n t h0 h1
    obtain ⟨a, ha⟩ := hform n
    rw [ha]
    refine held_point h.motion (mul_nonneg (Nat.cast_nonneg n) hΔ.le) (fun s hs1 hs2 => ?_) t h0 h1
    rw [← ha]
    exact hheld n s hs1 (by linarith)
  refine ⟨c, fun N => ⟨fun _ _ => rfl, fun n _ => hcall n, fun n _ => ?_⟩, hmove⟩
  have := hmove n Δ hΔ.le le_rfl
  rw [← this]
  congr 1
  push_cast
  ring

/-- Times are instants plus a part of a step. -/
theorem time_split {Δ : ℝ} (hΔ : 0 < Δ) {t : ℝ} (ht : 0 ≤ t) : ∃ (n : ℕ) (l : ℝ), 0 ≤ l ∧ l ≤ 1 ∧ t = n * Δ + l * Δ := by
  refine ⟨⌊t / Δ⌋₊, t / Δ - ⌊t / Δ⌋₊, sub_nonneg.2 (Nat.floor_le (div_nonneg ht hΔ.le)), ?_, ?_⟩
  · linarith [Nat.lt_floor_add_one (t / Δ)]
  · field_simp
    ring

/-- **C125 in continuous time**. The point mass with the explicit switching module of the one-dimensional docking example, called every `Δ` with its Euler
prediction and a bias of at most `-17/16 Δ²`, the control being held between the calls, for any desired control within the bounds that depends on the
state. Every motion that starts with `-2 x - v² ≥ Δ²/16` keeps `-2 x - v² ≥ 0`, and so the position at or below zero, at all times. -/
theorem C125_motion {des : List ℝ → ℝ} (hdes : ∀ x, -1 ≤ des x ∧ des x ≤ 1) {Δ b latchTime : ℝ} (hΔ : 0 < Δ) (hb : b ≤ -(17 / 16 * Δ ^ 2))
    {x u : ℝ → List ℝ} {st : ℕ → SimplexObj ℝ (List ℝ) Unit A}
    (h : SampledLoop (fun s x => explicitSimplex (pointEuler 1) s (.array x) Δ [des x]) Δ 2 pointF (pointG 1) x u st)
    (hs : st 0 = dockESBiased dockVal b latchTime) (h0 : Δ ^ 2 / 16 ≤ dockVal (x 0)) (t : ℝ) (ht : 0 ≤ t) :
    0 ≤ dockVal (x t) ∧ (x t).getD 0 0 ≤ 0 := by
  obtain ⟨c, hrun, hmove⟩ := point_run (monFrame_explicit (pointEuler 1)) hdes hΔ h (by rw [hs]; rfl) (by rw [hs]; rfl) (by rw [hs]; rfl)
    (by rw [hs]; rfl)
  obtain ⟨n, l, hl0, hl1, rfl⟩ := time_split hΔ ht
  rw [hmove n (l * Δ) (mul_nonneg hl0 hΔ.le) (by nlinarith)]
  exact (C125_dock (pointEuler 1) dockVal _ b latchTime Δ 0 (by rw [add_zero]; exact hb) (by rintro x e a rfl _ _; simp) _ (fun n => hdes _) (n + 1) _ _
    st c hs (hrun (n + 1)) (by simpa using h0)).2 n (Nat.lt_succ_self n) l hl0 hl1

/-- **C126 in continuous time**. The same for the implicit switching module with a bias of at most `-m`: every motion from a state from which braking has
the position at or below `-m` at the instants has its position at or below `Δ²/8 - m` at all times, as long as the velocities at the calls can be braked to
zero within the backup window. -/
theorem C126_motion {des : List ℝ → ℝ} (hdes : ∀ x, -1 ≤ des x ∧ des x ≤ 1) {Δ b latchTime window m : ℝ} (hΔ : 0 < Δ) (hwin : Δ ≤ window)
    (hb : b ≤ -m) {x u : ℝ → List ℝ} {st : ℕ → SimplexObj ℝ (List ℝ) Unit A}
    (h : SampledLoop (fun s x => implicitSimplex (pointEuler 1) s (.array x) Δ [des x]) Δ 2 pointF (pointG 1) x u st)
    (hs : st 0 = dockISBiased (fun x => -x.getD 0 0) b latchTime window) (hvel : ∀ n : ℕ, (x (n * Δ)).getD 1 0 ≤ ⌊window / Δ⌋ * Δ)
    (h0 : BrakesAt m Δ (x 0)) (t : ℝ) (ht : 0 ≤ t) : (x t).getD 0 0 ≤ Δ ^ 2 / 8 - m := by
  obtain ⟨c, hrun, hmove⟩ := point_run (monFrame_implicit (pointEuler 1)) hdes hΔ h (by rw [hs]; rfl) (by rw [hs]; rfl) (by rw [hs]; rfl)
    (by rw [hs]; rfl)
  obtain ⟨n, l, hl0, hl1, rfl⟩ := time_split hΔ ht
  rw [hmove n (l * Δ) (mul_nonneg hl0 hΔ.le) (by nlinarith)]
  exact (C126_dock (pointEuler 1) (fun x => -x.getD 0 0) _ b latchTime window Δ 0 m hΔ hwin (by rw [add_zero]; exact hb)
    (by rintro x e a z k rfl _ _ _; simp) _ (fun n => hdes _) (n + 1) _ _ st c hs (hrun (n + 1)) (fun n _ => hvel n) (by simpa using h0)).2 n
    (Nat.lt_succ_self n) l hl0 hl1

/-- There is such a motion, for every desired control within the bounds: from rest at `-2`, called every second. -/
example (des : List ℝ → ℝ) (hdes : ∀ x, -1 ≤ des x ∧ des x ≤ 1) :
    ∃ x u, ∃ st : ℕ → SimplexObj ℝ (List ℝ) Unit Unit,
      SampledLoop (fun s x => explicitSimplex (pointEuler 1) s (.array x) 1 [des x]) 1 2 pointF (pointG 1) x u st ∧ x 0 = [-2, 0] ∧
      ∀ t, 0 ≤ t → (x t).getD 0 0 ≤ 0 := by
  obtain ⟨x, u, st, h, hx, hs⟩ : ∃ x u st, SampledLoop (fun s x => explicitSimplex (pointEuler 1) s (.array x) 1 [des x]) 1 2 pointF (pointG 1) x u st ∧
      x 0 = [-2, 0] ∧ st 0 = (dockESBiased dockVal (-(17 / 16)) 0 : SimplexObj ℝ (List ℝ) Unit Unit) := by
    refine C121_sampled_simplex (pointEuler 1) ⟨by simp [dockESBiased, dictKeys], rfl, rfl⟩ rfl
      (fun x => [des x]) one_pos (fun v => v.length = 1) (fun x _ => ⟨_, rfl, rfl⟩) (fun x z _ => ⟨_, _, _, rfl, rfl, rfl⟩)
      (fun v _ x _ => by simp [vadd, pointF, pointG, pointA, pointB, matVec]) (fun v hv i hi => ?_) rfl
    obtain ⟨w, rfl⟩ := List.length_eq_one_iff.1 hv
    exact point_velocity_lip w i hi
  exact ⟨x, u, st, h, hx, fun t ht => (C125_motion hdes one_pos (by norm_num) h hs (by rw [hx]; norm_num [dockVal]) t ht).2⟩

/-- And for the implicit module, with a window of five seconds and a bias of -1/8: as long as the velocity at the calls is at most 5. -/
example (des : List ℝ → ℝ) (hdes : ∀ x, -1 ≤ des x ∧ des x ≤ 1) :
    ∃ x u, ∃ st : ℕ → SimplexObj ℝ (List ℝ) Unit Unit,
      SampledLoop (fun s x => implicitSimplex (pointEuler 1) s (.array x) 1 [des x]) 1 2 pointF (pointG 1) x u st ∧ x 0 = [-2, 0] ∧
      ((∀ n : ℕ, (x (n * 1)).getD 1 0 ≤ 5) → ∀ t, 0 ≤ t → (x t).getD 0 0 ≤ 0) := by
  obtain ⟨x, u, st, h, hx, hs⟩ : ∃ x u st, SampledLoop (fun s x => implicitSimplex (pointEuler 1) s (.array x) 1 [des x]) 1 2 pointF (pointG 1) x u st ∧
      x 0 = [-2, 0] ∧ st 0 = (dockISBiased (fun x => -x.getD 0 0) (-(1 / 8)) 0 5 : SimplexObj ℝ (List ℝ) Unit Unit) := by
    refine C121_sampled_implicit (pointEuler 1) ⟨by simp [dockISBiased, dictKeys], rfl, rfl⟩ rfl
      (fun x => [des x]) one_pos (fun v => v.length = 1) (fun x _ => ⟨_, rfl, rfl⟩) (fun _ _ => [-1]) (fun _ _ => .none)
      (fun x z => ⟨[-1], rfl, dock_clip _ rfl rfl _ le_rfl (by norm_num)⟩) (fun _ _ _ => rfl)
      (by intro a h; simp [dockISBiased, dockISObj, dockCtrl] at h) (by intro _ _ _ a h; simp at h)
      (fun v _ x _ => by simp [vadd, pointF, pointG, pointA, pointB, matVec]) (fun v hv i hi => ?_) rfl
    obtain ⟨w, rfl⟩ := List.length_eq_one_iff.1 hv
    exact point_velocity_lip w i hi
  refine ⟨x, u, st, h, hx, fun hvel t ht => ?_⟩
  have := C126_motion (m := 1 / 8) hdes one_pos (by norm_num) (by norm_num) h hs (fun n => (hvel n).trans (by norm_num)) (fun j => by
    rw [hx]
    have := sq_nonneg (j : ℝ)
    simp
    linarith) t ht
  linarith

end RTA
