import Verif.Lemmas.Hold
import Verif.Props.Flow
import Verif.Props.Strict

/-!
C84: the explicit optimisation filter used once per step, its control held until the next call.
-/
namespace RTA
open Set
variable {P X : Type}

/-- The rate of change of the value of a constraint in state `x` under control `u`. -/
noncomputable def Constraint.rate (c : Constraint ℝ (List ℝ) P) (f : List ℝ → List ℝ) (g : List ℝ → List (List ℝ)) (x u : List ℝ) : ℝ :=
  dot (c.gradFn x c.params) (vadd (f x) (matVec (g x) u))

/-- Sample times from 0 on, at most `dt` apart. -/
structure SampleTimes (dt : ℝ) (τ : ℕ → ℝ) : Prop where
  zero : τ 0 = 0
  mono : ∀ k, τ k ≤ τ (k + 1)
  step : ∀ k, τ (k + 1) ≤ τ k + dt

theorem SampleTimes.nonneg {dt : ℝ} {τ : ℕ → ℝ} (h : SampleTimes dt τ) (k : ℕ) : 0 ≤ τ k := by
  induction k with
  | zero => rw [h.zero]
  | succ k ih => exact ih.trans (h.mono k)

theorem barrier_rate {c : Constraint ℝ (List ℝ) P} {f : List ℝ → List ℝ} {g : List ℝ → List (List ℝ)} {x u : List ℝ} {al : ℝ → ℝ}
    (ha : c.alpha = some al) (h : BarrierOK f g c x u 0) : -strengthening c al (c.value x) ≤ c.rate f g x u := by
  obtain ⟨m, hm, hm0⟩ := h
  simp only [barrierValue, ha, Option.map_some, Option.some.injEq] at hm
  unfold Constraint.value Constraint.rate
  linarith

/-- **C84, one hold**. The control of the sample instant `a` satisfies the inequality of the constraint there and is held until `b`, no
more than `dt` later; meanwhile the rate of the constraint drops at most at the rate `L`. Then from a value of at least `-δ`, where
`δ = δ' + L dt²/2`, the value stays at least `-δ`. -/
theorem C84_one_hold {c : Constraint ℝ (List ℝ) P} {D : Set (List ℝ)} {n : Nat} {f : List ℝ → List ℝ}
    {g : List ℝ → List (List ℝ)} {x u : ℝ → List ℝ}
    (hgrad : IsGradientOn D n (fun x => c.computeFn x c.params) (fun x => c.gradFn x c.params))
    (htraj : Trajectory D n f g x u) {al : ℝ → ℝ} (ha : c.alpha = some al) {dt L δ' a b : ℝ} (hL : 0 ≤ L) (ha0 : 0 ≤ a)
    (hab : a ≤ b) (hstep : b ≤ a + dt) (hbar : BarrierOK f g c (x a) (u a) 0)
    (hpos : 0 ≤ c.value (x a) → dt * strengthening c al (c.value (x a)) ≤ c.value (x a))
    (hneg : ∀ y < 0, strengthening c al y ≤ 0) (hδ' : 0 ≤ δ') (hrec : ∀ y < -δ', L * dt / 2 ≤ -strengthening c al y)
    (hrate : ∀ t ∈ Ico a b, c.rate f g (x a) (u a) - L * (t - a) ≤ c.rate f g (x t) (u t))
    (h0 : -(δ' + L * dt ^ 2 / 2) ≤ c.value (x a)) : -(δ' + L * dt ^ 2 / 2) ≤ c.value (x b) := by
  have key := hold_lower (h := fun t => c.value (x t)) (h' := fun t => c.rate f g (x t) (u t)) (r := c.rate f g (x a) (u a)) (L := L) hab
    (((along_cont htraj hgrad).add continuousOn_const).mono (fun t ht => ha0.trans ht.1))
    (fun t ht => (along_deriv htraj hgrad (ha0.trans ht.1)).add_const _) hrate
  have hr := barrier_rate ha hbar
  generalize c.value (x a) = y at *
  generalize c.rate f g (x a) (u a) = r at *
  have hs0 : 0 ≤ b - a := by linarith
  have hs1 : b - a ≤ dt := by linarith
  generalize b - a = s at *
  have h1 := mul_le_mul_of_nonneg_right hr hs0
  have h2 : L * s ^ 2 ≤ L * dt ^ 2 := mul_le_mul_of_nonneg_left (pow_le_pow_left₀ hs0 hs1 2) hL
  rcases le_or_gt 0 y with hy | hy
  · have h3 := hpos hy
    generalize strengthening c al y = S at *
    have h4 : s * S ≤ y := by
      rcases le_or_gt 0 S with hS | hS
      · exact (mul_le_mul_of_nonneg_right hs1 hS).trans h3
      · nlinarith
    nlinarith
  · have h5 := hneg y hy
    rcases le_or_gt (-δ') y with hy' | hy'
    · have : 0 ≤ -strengthening c al y * s := mul_nonneg (by linarith) hs0
      linarith
    · have h6 := mul_le_mul_of_nonneg_right (hrec y hy') hs0
      have h7 : L * s ^ 2 ≤ L * dt * s := by
        rw [pow_two, ← mul_assoc, mul_right_comm]
        exact mul_le_mul_of_nonneg_left hs1 (mul_nonneg hL hs0) |>.trans_eq (by ring)
      linarith

/-- **C84**. A vehicle whose control is recomputed at the sample times and held in between, each time satisfying the inequality of the
constraint: as long as within a hold the rate of the constraint drops at most at the rate `L` (required only where the constraint is closer
than `Y` to its limit; further away it has to last one hold), the constraint is never violated by more than `δ' + L dt²/2`. -/
theorem C84_sampled_barrier {c : Constraint ℝ (List ℝ) P} {D : Set (List ℝ)} {n : Nat} {f : List ℝ → List ℝ}
    {g : List ℝ → List (List ℝ)} {x u : ℝ → List ℝ}
    (hgrad : IsGradientOn D n (fun x => c.computeFn x c.params) (fun x => c.gradFn x c.params))
    (htraj : Trajectory D n f g x u) {al : ℝ → ℝ} (ha : c.alpha = some al) {dt L δ' Y : ℝ} {τ : ℕ → ℝ} (hτ : SampleTimes dt τ) (hL : 0 ≤ L)
    (hpos : ∀ y, 0 ≤ y → y ≤ Y → dt * strengthening c al y ≤ y)
    (hneg : ∀ y < 0, strengthening c al y ≤ 0) (hδ' : 0 ≤ δ') (hrec : ∀ y < -δ', L * dt / 2 ≤ -strengthening c al y) (N : ℕ)
    (hbar : ∀ k < N, -(δ' + L * dt ^ 2 / 2) ≤ c.value (x (τ k)) → BarrierOK f g c (x (τ k)) (u (τ k)) 0)
    (hrate : ∀ k < N, -(δ' + L * dt ^ 2 / 2) ≤ c.value (x (τ k)) → c.value (x (τ k)) ≤ Y →
      ∀ t ∈ Ico (τ k) (τ (k + 1)), c.rate f g (x (τ k)) (u (τ k)) - L * (t - τ k) ≤ c.rate f g (x t) (u t))
    (hfar : ∀ k < N, Y ≤ c.value (x (τ k)) → ∀ t ∈ Icc (τ k) (τ (k + 1)), 0 ≤ c.value (x t))
    (h0 : -(δ' + L * dt ^ 2 / 2) ≤ c.value (x 0)) :
    ∀ k < N, ∀ t ∈ Icc (τ k) (τ (k + 1)), -(δ' + L * dt ^ 2 / 2) ≤ c.value (x t) := by
  have hdt : 0 ≤ dt := by have := hτ.mono 0; have := hτ.step 0; linarith
  have hδ : 0 ≤ δ' + L * dt ^ 2 / 2 := by positivity
  have hold : ∀ k < N, -(δ' + L * dt ^ 2 / 2) ≤ c.value (x (τ k)) → ∀ t ∈ Icc (τ k) (τ (k + 1)), -(δ' + L * dt ^ 2 / 2) ≤ c.value (x t) := by
    intro k hk hv t ht
    rcases le_or_gt Y (c.value (x (τ k))) with hY | hY
    · have := hfar k hk hY t ht
      linarith
    · exact C84_one_hold hgrad htraj ha hL (hτ.nonneg k) ht.1 (by have := hτ.step k; linarith [ht.2]) (hbar k hk hv)
        (fun hy => hpos _ hy hY.le) hneg hδ' hrec (fun r hr => hrate k hk hv hY.le r ⟨hr.1, hr.2.trans_le ht.2⟩) hv
  have samples : ∀ k ≤ N, -(δ' + L * dt ^ 2 / 2) ≤ c.value (x (τ k)) := by
    intro k
    induction k with
    | zero => intro _; rw [hτ.zero]; exact h0
    | succ k ih => intro hk; exact hold k (by omega) (ih (by omega)) _ (right_mem_Icc.2 (hτ.mono k))
  exact fun k hk => hold k hk (samples k hk.le)

/-- The decaying solution of `x' = u` sampled twice a second, with `u = -x` at the samples. -/
example (N : ℕ) : ∀ k < N, ∀ t ∈ Icc ((k : ℝ) / 2) ((k + 1 : ℕ) / 2), 0 ≤ posC.value [Real.exp (-t)] := by
  have hneg : ∀ y : ℝ, y < 0 → strengthening posC id y ≤ 0 := by
    intro y hy
    unfold strengthening
    rw [if_neg (not_le.2 hy)]
    simp only [posC, minLimit, Constraint.mk', id]
    linarith
  have key := C84_sampled_barrier (x := fun t => [Real.exp (-t)]) (u := fun t => [-Real.exp (-t)]) (τ := fun k => (k : ℝ) / 2) (dt := 1 / 2) (L := 0)
    (δ' := 0) (Y := 2) posC_grad (single_trajectory fun t => by simpa using (hasDerivAt_neg t).exp) (al := id) rfl
    ⟨by simp, fun k => by push_cast; linarith, fun k => by push_cast; linarith⟩ le_rfl ?_ hneg le_rfl (fun y hy => by have := hneg y (by linarith); linarith)
    N ?_ ?_ ?_ ?_
  · simpa using key
  · intro y hy _
    unfold strengthening
    rw [if_pos hy]
    simp only [id]
    linarith
  · intro k _ _
    rw [posC_barrier, if_pos (Real.exp_pos _).le]; simp
  · intro k _ _ _ t ht
    have := Real.exp_le_exp.2 (neg_le_neg ht.1)
    simp [Constraint.rate, posC, minLimit, Constraint.mk', gradAt, vadd, matVec, List.range_succ]
    exact ht.1
  · intro k _ hv t ht
    simp [Constraint.value, posC, minLimit, Constraint.mk', stateAt]
    positivity
  · simp [Constraint.value, posC, minLimit, Constraint.mk', stateAt]

end RTA
