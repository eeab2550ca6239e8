import Verif.Props.Disturbance
import Verif.Props.ImplicitFlow
import Verif.Props.ToleranceImplicit
import Verif.Props.Strict

/-!
C101 for implicit ASIF modules: disturbances and errors of the state estimate cost as much as they are large. Since these modules do not use
`bias_negative`, it makes up for nothing.
-/
namespace RTA
open Set
variable {P A : Type}

/-- The true system and the implicit modules that filter for it. At every time the control is what an implicit ASIF module (after whatever history, for
whatever desired control) returns for an estimate `y t` of the state `x t`, and the point looked at first is the state; `W` bounds the disturbance, `L` the
sum of the absolute partial derivatives of the constraint, `E₁` the error the estimate causes in the rate of the constraint and `E₂` the error it causes in
its value. -/
structure RobustLoopI (solver : Solver ℝ) (E : ImplicitEnv ℝ) (k : String) (c : Constraint ℝ (List ℝ) P) (D : Set (List ℝ)) (n : Nat)
    (x y u w : ℝ → List ℝ) (W L E₁ E₂ : ℝ) (A : Type) : Prop where
  grad : IsGradientOn D n (fun x => c.computeFn x c.params) (fun x => c.gradFn x c.params)
  motion : Disturbed D n E.f E.g x u w
  enabled : c.enabled = true
  disturbance : ∀ t, 0 ≤ t → ∀ i, |(w t).getD i 0| ≤ W
  slope : ∀ t, 0 ≤ t → oneNorm (c.gradFn (x t) c.params) ≤ L
  rate : ∀ t, 0 ≤ t → dot (c.gradFn (y t) c.params) (vadd (E.f (y t)) (matVec (E.g (y t)) (u t))) - E₁ ≤
    dot (c.gradFn (x t) c.params) (vadd (E.f (x t)) (matVec (E.g (x t)) (u t)))
  value : ∀ t, 0 ≤ t → c.value (y t) ≤ c.value (x t) + E₂
  filtered : ∀ t, 0 ≤ t → ∃ (s s' : ImplicitObj ℝ P A) (dt : ℝ) (uDes : List ℝ), ImplicitModule solver E s ∧ s.enable = true ∧
    (k, c) ∈ s.constraints ∧ 0 ∈ pointsOf E s (y t) dt c ∧ (s.ext.solverException = true ∨ ∃ w, AdmissibleI E s (y t) dt w) ∧
    E.call solver s (.array (y t)) dt uDes = (.ok (u t), s')

/-- **C101, implicit modules.** If the strengthener makes up for all errors below `E₂ - η`, the value of an enabled constraint never falls below `-η` along
the true trajectory. -/
theorem C101_implicit {W L E₁ E₂ η : ℝ} (hW : 0 ≤ W) {solver : Solver ℝ} (hspec : SolverSpec solver) {E : ImplicitEnv ℝ} {k : String}
    {c : Constraint ℝ (List ℝ) P} {D : Set (List ℝ)} {n : Nat} {x y u w : ℝ → List ℝ} (h : RobustLoopI solver E k c D n x y u w W L E₁ E₂ A)
    {al : ℝ → ℝ} (ha : c.alpha = some al) (hneg : ∀ v < E₂ - η, al v ≤ -(W * L + E₁)) (h0 : -η ≤ c.value (x 0)) :
    ∀ t, 0 ≤ t → -η ≤ c.value (x t) := by
  have key := stays_nonneg (h := fun t => c.value (x t) + η) (a := 0)
    (((disturbed_cont h.motion h.grad).add continuousOn_const).add continuousOn_const)
    (fun t ht => ((disturbed_deriv h.motion h.grad ht).add_const _).add_const _)
    (fun t ht hlt => by
      obtain ⟨s, s', dt, uDes, hs, hens, hmem, hpt, hor, hcall⟩ := h.filtered t ht
      have hadm : ∃ w, AdmissibleI E s (y t) dt w := hor.elim (fun hexc => implicit_strict hspec hs.inv.inv hens hexc hcall) id
      obtain ⟨h1, -⟩ := C36_closest_admissible hspec hs hens (y t) dt uDes (u t) hcall hadm
      have h2 := (C36_point_zero E s (y t) dt c al ha (u t)).1 (h1.barrier (k, c) hmem h.enabled 0 hpt)
      have h3 := hneg (c.value (y t)) (by have := h.value t ht; linarith)
      unfold Constraint.value at h3
      have h4 := dot_disturbed hW (c.gradFn (x t) c.params) ((h.motion.len t ht).trans (h.motion.wlen t ht).symm) (h.disturbance t ht)
      have h5 := mul_le_mul_of_nonneg_left (h.slope t ht) hW
      have h6 := h.rate t ht
      linarith) (by linarith)
  intro t ht
  have := key t ht
  linarith

/-- **C101, implicit modules, linear strengthener.** With slope `a` the value stays above minus the errors over `a`, minus the error of the estimate; a
`bias` of that size makes up for it. -/
theorem C101_implicit_linear {W L E₁ E₂ a : ℝ} (hW : 0 ≤ W) {solver : Solver ℝ} (hspec : SolverSpec solver) {E : ImplicitEnv ℝ} {k : String}
    {c : Constraint ℝ (List ℝ) P} {D : Set (List ℝ)} {n : Nat} {x y u w : ℝ → List ℝ} (h : RobustLoopI solver E k c D n x y u w W L E₁ E₂ A)
    (hap : 0 < a) (ha : c.alpha = some fun v => a * v) (h0 : -(E₂ + (W * L + E₁) / a) ≤ c.value (x 0)) :
    (∀ t, 0 ≤ t → -(E₂ + (W * L + E₁) / a) ≤ c.value (x t)) ∧
      (E₂ + (W * L + E₁) / a ≤ -c.bias → ∀ t, 0 ≤ t → 0 ≤ c.computeFn (x t) c.params) := by
  have key := C101_implicit hW hspec h ha (fun v hv => by
    have h1 : v < -((W * L + E₁) / a) := by linarith
    have h2 := mul_lt_mul_of_pos_left h1 hap
    have h3 : a * -((W * L + E₁) / a) = -(W * L + E₁) := by field_simp
    linarith) h0
  refine ⟨key, fun hb t ht => ?_⟩
  have := key t ht
  unfold Constraint.value at this
  linarith

/-! ### `bias_negative` does not help -/

theorem ib_exact {solver : Solver ℝ} (hspec : SolverSpec solver) (b : ℝ) {x : ℝ} (h0 : -2 ≤ -x) (h1 : -x ≤ 2) :
    (∃ w, AdmissibleI iE (iObj [("c", iCb b)] 2 true) [x] 1 w) ∧
      ∃ s', iE.call solver (iObj [("c", iCb b)] 2 true) (.array [x]) 1 [-2] = (.ok [-x], s') := by
  have hm := i_module solver (cs := [("c", iCb b)]) (by simp [dictKeys]) 2 true
  have hnp := i_numPoints [("c", iCb b)] 2 true
  have hw : ((2 : Nat) : ℝ) = 2 := by norm_num
  rw [hw] at hnp
  have hadm : ∀ v, AdmissibleI iE (iObj [("c", iCb b)] 2 true) [x] 1 v ↔ ∃ u, v = [u] ∧ -2 ≤ u ∧ u ≤ 2 ∧ -x ≤ u := by
    intro v
    have := @i_admissible [("c", iCb b)] 2 true x v
    simp only [hw] at this
    rw [this]
    refine exists_congr fun u => and_congr_right fun _ => and_congr_right fun _ => and_congr_right fun _ => ?_
    simp only [List.mem_singleton, forall_eq, ib_points, PointOK, ib_point, Option.some.injEq, exists_eq_left']
    constructor
    · intro h
      have := h rfl 0 (by simp)
      norm_num at this
      linarith
    · intro h _ k _
      have : (0 : ℝ) ≤ k := by positivity
      linarith
  have hx := (hadm [-x]).2 ⟨-x, rfl, h0, h1, le_rfl⟩
  refine ⟨⟨_, hx⟩, ?_⟩
  obtain ⟨v, hv⟩ := (C36_returns hspec hm rfl [x] 1 (ib_shapes b true x) (by
    intro kc hkc
    simp only [iObj, List.mem_singleton] at hkc
    subst hkc
    rw [hnp, ib_points]; simp) [-2] rfl).1 ⟨_, hx⟩
  obtain ⟨h2, h3, -⟩ := C36_closest_admissible hspec hm rfl [x] 1 [-2] v (Prod.ext hv rfl) ⟨_, hx⟩
  obtain ⟨u, rfl, -, -, hu⟩ := (hadm v).1 h2
  refine ⟨_, Prod.ext ?_ rfl⟩
  rw [hv]
  by_contra hne
  have h4 := h3 [-x] hx (fun e => hne (by rw [e]))
  rw [sqDist_one, sqDist_one] at h4
  nlinarith

theorem ib_grad (b : ℝ) : IsGradientOn univ 1 (fun x => (iCb b).computeFn x (iCb b).params) (fun x => (iCb b).gradFn x (iCb b).params) := by
  refine (grad_coord univ (n := 1) (i := 0) (by decide)).congr (fun x _ hx => ?_) ?_
  · obtain ⟨a, rfl⟩ := List.length_eq_one_iff.1 hx
    simp [iCb, iC, stateAt]
  · intro x _ hx v hv
    obtain ⟨a, rfl⟩ := List.length_eq_one_iff.1 hv
    simp [iCb, iC, gradAt, dot_cons]

/-- **C101, implicit modules, `bias_negative` makes up for nothing.** Whatever `bias_negative` is and whatever exact solver is used, for every `W` in
`(0, 2]` there is a disturbance of size `W` for which a trajectory whose control is the answer of the module at all times starts with the constraint
satisfied and violates it at all later times, and gets as close as one likes to the bound of `C101_implicit_linear`. -/
theorem C101_refuted_implicit {solver : Solver ℝ} (hspec : SolverSpec solver) (b : ℝ) {W : ℝ} (hW : 0 < W) (hW2 : W ≤ 2) : ∃ x u : ℝ → List ℝ,
    RobustLoopI solver iE "c" (iCb b) univ 1 x x u (fun _ => [-W]) W 1 0 0 Unit ∧ (iCb b).value (x 0) = 0 ∧
    (∀ t, 0 < t → (iCb b).value (x t) < 0) ∧ ∀ η, η < W → ∃ t, 0 ≤ t ∧ (iCb b).value (x t) < -η := by
  have hexp : ∀ t : ℝ, HasDerivAt (fun t : ℝ => Real.exp (-t)) (Real.exp (-t) * -1) t := fun t => ((hasDerivAt_id t).neg).exp
  have hle : ∀ t : ℝ, 0 ≤ t → Real.exp (-t) ≤ 1 := fun t ht => Real.exp_le_one_iff.2 (by linarith)
  have hv : ∀ r : ℝ, (iCb b).value [r] = r := fun r => by simp [Constraint.value, iCb, iC]
  refine ⟨fun t => [-W * (1 - Real.exp (-t))], fun t => [-(-W * (1 - Real.exp (-t)))], ⟨ib_grad b, ?_, rfl, ?_, ?_, ?_, ?_, fun t ht => ?_⟩, ?_, fun t ht => ?_,
    fun η hη => ?_⟩
  · exact single_disturbed (x := fun t => -W * (1 - Real.exp (-t))) (u := fun t => -(-W * (1 - Real.exp (-t)))) (w := fun _ => -W) fun t _ =>
      (((hexp t).const_sub 1).const_mul (-W)).congr_deriv (by ring)
  · intro t _ i
    rcases i with _ | i
    · simp [abs_of_pos hW]
    · simpa using hW.le
  · intro t _; simp [iCb, iC, oneNorm]
  · intro t _; simp
  · intro t _; simp
  · have h1 := hle t ht
    have h2 := Real.exp_pos (-t)
    obtain ⟨ha, s', hs'⟩ := ib_exact hspec b (x := -W * (1 - Real.exp (-t))) (by nlinarith) (by nlinarith)
    exact ⟨_, s', 1, [-2], i_module solver (by simp [dictKeys]) 2 true, rfl, by simp [iObj], by rw [ib_points]; simp, Or.inr ha, hs'⟩
  · rw [hv]; simp
  · rw [hv]
    have : Real.exp (-t) < 1 := Real.exp_lt_one_iff.2 (by linarith)
    nlinarith
  · have hr : 0 < (W - η) / W := div_pos (by linarith) hW
    set r := (W - η) / W with hrd
    have hrW : r * W = W - η := by rw [hrd]; field_simp
    refine ⟨1 / r, by positivity, ?_⟩
    rw [hv]
    have h1 : 1 / r + 1 ≤ Real.exp (1 / r) := Real.add_one_le_exp _
    have h3 : Real.exp (-(1 / r)) < r := by
      rw [Real.exp_neg, inv_lt_comm₀ (Real.exp_pos _) hr]
      rw [one_div] at h1 ⊢
      linarith
    nlinarith

/-- C101 (implicit): such trajectories exist, and the bound holds along them. -/
example {solver : Solver ℝ} (hspec : SolverSpec solver) : ∃ x u : ℝ → List ℝ,
    RobustLoopI solver iE "c" (iCb (-1)) univ 1 x x u (fun _ => [-1]) 1 1 0 0 Unit ∧ ∀ t, 0 ≤ t → -1 ≤ (iCb (-1)).value (x t) := by
  obtain ⟨x, u, h, h0, -⟩ := C101_refuted_implicit hspec (-1) one_pos (by norm_num)
  refine ⟨x, u, h, fun t ht => ?_⟩
  have := (C101_implicit_linear (a := 1) zero_le_one hspec h one_pos (by simp [iCb, iC]; rfl) (by rw [h0]; norm_num)).1 t ht
  norm_num at this
  exact this

end RTA
