import Verif.Lemmas.FlowInside
import Verif.Model.HOCBF
import Verif.Props.Constraints
import Verif.Props.ASIF
import Mathlib.Analysis.SpecialFunctions.ExpDeriv

/-!
Continuous time: C31 (forward invariance), C32 (finite time recovery), C35 (higher order barrier functions).
-/
namespace RTA
open Set
variable {P X : Type}

/-- The value of a constraint as the module enforces it. -/
def Constraint.value {S : Type} (c : Constraint ℝ S P) (x : S) : ℝ := c.computeFn x c.params + c.bias

/-! ### C31 -/

/-- **C31**. Along any trajectory of the control affine system whose control satisfies the inequality of the constraint at
every time, the constraint stays satisfied - provided the strengthening term is not positive for negative values, as it is
for class-K strengtheners with the default negative branch (`C31_class_k`). -/
theorem C31_forward_invariance {c : Constraint ℝ (List ℝ) P} {D : Set (List ℝ)} {n : Nat} {f : List ℝ → List ℝ}
    {g : List ℝ → List (List ℝ)} {x u : ℝ → List ℝ}
    (hgrad : IsGradientOn D n (fun x => c.computeFn x c.params) (fun x => c.gradFn x c.params))
    (htraj : Trajectory D n f g x u) {al : ℝ → ℝ} (ha : c.alpha = some al) (hneg : ∀ y < 0, strengthening c al y ≤ 0)
    (hbar : ∀ t, 0 ≤ t → BarrierOK f g c (x t) (u t) 0) (h0 : 0 ≤ c.value (x 0)) : ∀ t, 0 ≤ t → 0 ≤ c.value (x t) := by
  refine stays_nonneg (h := fun t => c.value (x t)) ((along_cont htraj hgrad).add continuousOn_const)
    (fun t ht => (along_deriv htraj hgrad ht).add_const _) ?_ h0
  intro t ht hlt
  obtain ⟨m, hm, hm0⟩ := hbar t ht
  simp only [barrierValue, ha, Option.map_some, Option.some.injEq] at hm
  have := hneg _ hlt
  unfold Constraint.value at this
  linarith

/-- Polynomial class-K strengtheners with the default negative branch and non-positive `bias_negative` qualify. -/
theorem C31_class_k {S : Type} (c : Constraint ℝ S P) (coefs : List ℝ) (hk : ClassKCoefs coefs) (hneg : c.alphaNeg = none)
    (hb : c.biasNegative ≤ 0) : ∀ y < 0, strengthening c (polyAlpha coefs) y ≤ 0 := by
  intro y hy
  unfold strengthening
  rw [if_neg (not_le.2 hy), hneg]
  have := (C33_sign coefs hk y).1 hy
  simp only
  linarith

/-- A constraint without slack, enabled in the module, gets the barrier condition of an admissible control without slack. -/
theorem barrier_of_admissible {K S : Type} [Field K] [LinearOrder K] {f : S → List K} {g : S → List (List K)}
    {s : ASIFObj K S P X} {x : S} {u d : List K} (h : AdmissibleS f g s x u d) {k : String} {c : Constraint K S P}
    (hc : (k, c) ∈ s.constraints) (hen : c.enabled = true) (hns : c.slackPriorityScale = none) : BarrierOK f g c x u 0 := by
  have key : ∀ (cs : Dict (Constraint K S P)) (d : List K), (k, c) ∈ cs → (c, 0) ∈ assignSlack cs d := by
    intro cs
    induction cs with
    | nil => intro d h; simp at h
    | cons q cs ih =>
      intro d h
      obtain ⟨kq, cq⟩ := q
      unfold assignSlack
      rcases List.mem_cons.1 h with h | h
      · simp only [Prod.mk.injEq] at h
        obtain ⟨rfl, rfl⟩ := h
        simp [hns]
      · split
        · exact List.mem_cons_of_mem _ (ih _ h)
        · exact List.mem_cons_of_mem _ (ih _ h)
  exact h.barrier (c, 0) (key _ _ hc) hen

/-- **C31 for the module**. If at every time the control is what an explicit ASIF module containing the constraint returns
for the current state (for whatever desired control, after whatever history of the module) and some control was
admissible, then an enabled constraint without slack stays satisfied. -/
theorem C31_asif_loop {solver : Solver ℝ} (hspec : SolverSpec solver) {k : String} {c : Constraint ℝ (List ℝ) P}
    {D : Set (List ℝ)} {n : Nat} {f : List ℝ → List ℝ} {g : List ℝ → List (List ℝ)} {x u : ℝ → List ℝ}
    (hgrad : IsGradientOn D n (fun x => c.computeFn x c.params) (fun x => c.gradFn x c.params))
    (htraj : Trajectory D n f g x u) {al : ℝ → ℝ} (ha : c.alpha = some al) (hneg : ∀ y < 0, strengthening c al y ≤ 0)
    (hen : c.enabled = true) (hns : c.slackPriorityScale = none)
    (hloop : ∀ t, 0 ≤ t → ∃ (s s' : ASIFObj ℝ (List ℝ) P X) (dt : ℝ) (uDes : List ℝ), ExplicitModule solver f g s ∧
      ScalesPos s.constraints ∧ s.enable = true ∧ (k, c) ∈ s.constraints ∧ (∃ w d, AdmissibleS f g s (x t) w d) ∧
      explicitASIF solver f g s (.array (x t)) dt uDes = (.ok (u t), s'))
    (h0 : 0 ≤ c.value (x 0)) : ∀ t, 0 ≤ t → 0 ≤ c.value (x t) := by
  refine C31_forward_invariance hgrad htraj ha hneg (fun t ht => ?_) h0
  obtain ⟨s, s', dt, uDes, hs, hpos, hens, hmem, hadm, hcall⟩ := hloop t ht
  obtain ⟨-, d, -, had, -⟩ := explicit_solved hspec hs.inv.1 hs.inv.2 hpos hens hcall hadm
  exact barrier_of_admissible had hmem hen hns

/-- On bounded intervals a class-K polynomial strengthener is at most linear. -/
theorem polyAlpha_linear (coefs : List ℝ) (hk : ClassKCoefs coefs) (M : ℝ) : ∃ L, ∀ y, 0 < y → y ≤ M → polyAlpha coefs y ≤ L * y := by
  refine ⟨∑ i ∈ Finset.range coefs.length, coefs.getD i 0 * M ^ (i - 1), fun y hy hyM => ?_⟩
  rw [C33_value, Finset.sum_mul]
  refine Finset.sum_le_sum fun i _ => ?_
  obtain ⟨he, hn⟩ := classK_term hk i
  cases i with
  | zero => rw [he ⟨0, rfl⟩]; simp
  | succ i =>
    rw [Nat.add_sub_cancel, pow_succ, mul_assoc]
    exact mul_le_mul_of_nonneg_left (mul_le_mul_of_nonneg_right (pow_le_pow_left₀ hy.le hyM i) hy.le) hn

/-- **C31 when the program is only known to be solvable inside the safe set, up to a time `T`**. Let at every time before `T` the control
be what the module (after whatever history) returns for the current state, and let some control be admissible whenever all enabled
constraints are strictly positive there. Then a trajectory on which they are positive at the start has all of them positive at time `T`. -/
theorem C31_asif_loop_until {solver : Solver ℝ} (hspec : SolverSpec solver) {cs : List (String × Constraint ℝ (List ℝ) P)}
    {D : Set (List ℝ)} {n : Nat} {f : List ℝ → List ℝ} {g : List ℝ → List (List ℝ)} {x u : ℝ → List ℝ}
    (hgrad : ∀ kc ∈ cs, IsGradientOn D n (fun x => kc.2.computeFn x kc.2.params) (fun x => kc.2.gradFn x kc.2.params))
    (htraj : Trajectory D n f g x u) (coefs : String → List ℝ)
    (ha : ∀ kc ∈ cs, kc.2.alpha = some (polyAlpha (coefs kc.1)) ∧ ClassKCoefs (coefs kc.1))
    (hen : ∀ kc ∈ cs, kc.2.enabled = true) (hns : ∀ kc ∈ cs, kc.2.slackPriorityScale = none)
    {T : ℝ} (hT : 0 ≤ T) (hloop : ∀ t, 0 ≤ t → t < T → ∃ (s s' : ASIFObj ℝ (List ℝ) P X) (dt : ℝ) (uDes : List ℝ), ExplicitModule solver f g s ∧
      ScalesPos s.constraints ∧ s.enable = true ∧ (∀ kc ∈ cs, kc ∈ s.constraints) ∧
      ((∀ kc ∈ cs, 0 < kc.2.value (x t)) → ∃ w d, AdmissibleS f g s (x t) w d) ∧
      explicitASIF solver f g s (.array (x t)) dt uDes = (.ok (u t), s'))
    (h0 : ∀ kc ∈ cs, 0 < kc.2.value (x 0)) : ∀ kc ∈ cs, 0 < kc.2.value (x T) := by
  refine stays_pos_until cs (h := fun kc t => kc.2.value (x t)) (a := fun kc => polyAlpha (coefs kc.1))
    (fun kc hkc => (along_cont htraj (hgrad kc hkc)).add continuousOn_const)
    (fun kc hkc t ht => (along_deriv htraj (hgrad kc hkc) ht).add_const _) hT (fun t ht htT hpos kc hkc => ?_)
    (fun kc hkc M => polyAlpha_linear _ (ha kc hkc).2 M) h0
  obtain ⟨s, s', dt, uDes, hs, hsp, hens, hmem, hadm, hcall⟩ := hloop t ht htT
  obtain ⟨-, d, -, had, -⟩ := explicit_solved hspec hs.inv.1 hs.inv.2 hsp hens hcall (hadm hpos)
  obtain ⟨m, hm, hm0⟩ := barrier_of_admissible had (show (kc.1, kc.2) ∈ s.constraints from hmem kc hkc) (hen kc hkc) (hns kc hkc)
  rw [barrierValue, (ha kc hkc).1] at hm
  simp only [Option.map_some, Option.some.injEq] at hm
  have hv : 0 ≤ kc.2.computeFn (x t) kc.2.params + kc.2.bias := (hpos kc hkc).le
  rw [strengthening, if_pos hv] at hm
  show -polyAlpha (coefs kc.1) (kc.2.computeFn (x t) kc.2.params + kc.2.bias) ≤ _
  linarith

/-- **C31 when the program is only known to be solvable inside the safe set**. Let at every time the control be what the module (after
whatever history) returns for the current state, and let some control be admissible at every state where all enabled
constraints are strictly positive. Then a trajectory on which they are positive at the start keeps all of them positive. -/
theorem C31_asif_loop_inside {solver : Solver ℝ} (hspec : SolverSpec solver) {cs : List (String × Constraint ℝ (List ℝ) P)}
    {D : Set (List ℝ)} {n : Nat} {f : List ℝ → List ℝ} {g : List ℝ → List (List ℝ)} {x u : ℝ → List ℝ}
    (hgrad : ∀ kc ∈ cs, IsGradientOn D n (fun x => kc.2.computeFn x kc.2.params) (fun x => kc.2.gradFn x kc.2.params))
    (htraj : Trajectory D n f g x u) (coefs : String → List ℝ)
    (ha : ∀ kc ∈ cs, kc.2.alpha = some (polyAlpha (coefs kc.1)) ∧ ClassKCoefs (coefs kc.1))
    (hen : ∀ kc ∈ cs, kc.2.enabled = true) (hns : ∀ kc ∈ cs, kc.2.slackPriorityScale = none)
    (hloop : ∀ t, 0 ≤ t → ∃ (s s' : ASIFObj ℝ (List ℝ) P X) (dt : ℝ) (uDes : List ℝ), ExplicitModule solver f g s ∧
      ScalesPos s.constraints ∧ s.enable = true ∧ (∀ kc ∈ cs, kc ∈ s.constraints) ∧
      ((∀ kc ∈ cs, 0 < kc.2.value (x t)) → ∃ w d, AdmissibleS f g s (x t) w d) ∧
      explicitASIF solver f g s (.array (x t)) dt uDes = (.ok (u t), s'))
    (h0 : ∀ kc ∈ cs, 0 < kc.2.value (x 0)) : ∀ t, 0 ≤ t → ∀ kc ∈ cs, 0 < kc.2.value (x t) :=
  fun _ ht => C31_asif_loop_until hspec hgrad htraj coefs ha hen hns ht (fun t h1 _ => hloop t h1) h0

/-! ### C32 -/

/-- **C32**. With the default negative branch, a strengthener not positive below zero and negative `bias_negative`: along any
such trajectory that starts in violation the constraint is satisfied from time `|h(x(0))| / |bias_negative|` on. -/
theorem C32_finite_time_recovery {c : Constraint ℝ (List ℝ) P} {D : Set (List ℝ)} {n : Nat} {f : List ℝ → List ℝ}
    {g : List ℝ → List (List ℝ)} {x u : ℝ → List ℝ}
    (hgrad : IsGradientOn D n (fun x => c.computeFn x c.params) (fun x => c.gradFn x c.params))
    (htraj : Trajectory D n f g x u) {al : ℝ → ℝ} (ha : c.alpha = some al) (hn : c.alphaNeg = none)
    (hal : ∀ y < 0, al y ≤ 0) (hbias : c.biasNegative < 0)
    (hbar : ∀ t, 0 ≤ t → BarrierOK f g c (x t) (u t) 0) (h0 : c.value (x 0) < 0) :
    ∀ t, |c.value (x 0)| / |c.biasNegative| ≤ t → 0 ≤ c.value (x t) := by
  have key := recovers (h := fun t => c.value (x t)) (β := |c.biasNegative|) (a := 0) (abs_pos.2 hbias.ne)
    ((along_cont htraj hgrad).add continuousOn_const) (fun t ht => (along_deriv htraj hgrad ht).add_const _)
    (fun t ht hlt => by
      obtain ⟨m, hm, hm0⟩ := hbar t ht
      simp only [barrierValue, ha, Option.map_some, Option.some.injEq] at hm
      have hs : strengthening c al (c.value (x t)) = 10 * al (c.value (x t)) + c.biasNegative := by
        unfold strengthening; rw [if_neg (not_le.2 hlt), hn]
      unfold Constraint.value at hs hlt
      rw [hs] at hm
      rw [abs_of_neg hbias]
      have := hal _ hlt
      linarith) h0
  intro t ht
  refine key t ?_
  rw [abs_of_neg h0] at ht
  simpa using ht

/-! ### Concrete trajectories -/

/-- Position at least 0, identity strengthener. -/
noncomputable def posC : Constraint ℝ (List ℝ) ℝ := minLimit 0 0 (some id)

theorem posC_grad : IsGradientOn univ 1 (fun x => posC.computeFn x posC.params) (fun x => posC.gradFn x posC.params) := by
  have e : ∀ x : List ℝ, posC.computeFn x posC.params = stateAt x 0 := fun x => by simp [posC, minLimit, Constraint.mk']
  refine (grad_coord univ (n := 1) (i := 0) (by decide)).congr (fun x _ _ => e x) ?_
  intro x _ hx v _
  simp [posC, minLimit, Constraint.mk', hx]

theorem single_trajectory {x u : ℝ → ℝ} (h : ∀ t, HasDerivAt x (u t) t) :
    Trajectory univ 1 (fun _ => [0]) (fun _ => [[1]]) (fun t => [x t]) (fun t => [u t]) where
  curve t _ := ⟨mem_univ _, rfl⟩
  cont i hi := by
    obtain rfl : i = 0 := by omega
    exact fun t _ => (h t).continuousAt.continuousWithinAt
  len t _ := rfl
  deriv t _ i hi := by
    obtain rfl : i = 0 := by omega
    have e : (vadd [(0 : ℝ)] (matVec [[1]] [u t])).getD 0 0 = u t := by simp [vadd, matVec]
    rw [e]
    exact (h t).hasDerivWithinAt

theorem posC_barrier (x u : ℝ) : BarrierOK (fun _ => [0]) (fun _ => [[1]]) posC [x] [u] 0 ↔
    0 ≤ u + if 0 ≤ x then x else 10 * x - 1 / 100 := by
  have e : barrierValue (fun _ => [0]) (fun _ => [[1]]) posC [x] [u] = some (u + if 0 ≤ x then x else 10 * x - 1 / 100) := by
    simp only [barrierValue, posC, minLimit, Constraint.mk', Option.getD_some, Option.map_some, strengthening, stateAt,
      List.getD_cons_zero, sub_zero, add_zero, id, Option.some.injEq]
    have : dot (gradAt 1 0 (1 : ℝ)) (vadd [0] (matVec [[1]] [u])) = u := by simp [gradAt, vadd, matVec, List.range_succ]
    simp only [List.length_singleton]
    rw [this]
    split
    · rfl
    · ring
  unfold BarrierOK
  rw [e]
  simp

/-- C31: the trajectory `exp(-t)` approaches the boundary as fast as allowed. -/
example : ∀ t, 0 ≤ t → 0 ≤ posC.value [Real.exp (-t)] := by
  refine C31_forward_invariance (x := fun t => [Real.exp (-t)]) (u := fun t => [-Real.exp (-t)]) posC_grad
    (single_trajectory fun t => ?_) (al := id) rfl (fun y hy => ?_) (fun t _ => ?_) ?_
  · simpa using (hasDerivAt_neg t).exp
  · unfold strengthening
    rw [if_neg (not_le.2 hy)]
    simp only [posC, minLimit, Constraint.mk', id]
    linarith
  · rw [posC_barrier, if_pos (Real.exp_pos _).le]; simp
  · simp [Constraint.value, posC, minLimit, Constraint.mk', stateAt]

/-- C32: starting at -1, `-1 + 20 t` satisfies the condition; recovered after time 100 at the latest. -/
example : ∀ t : ℝ, |posC.value [-1]| / |posC.biasNegative| ≤ t → 0 ≤ posC.value [-1 + 20 * t] := by
  have key := C32_finite_time_recovery (x := fun t => [-1 + 20 * t]) (u := fun _ => [20]) posC_grad
    (single_trajectory fun t => by simpa using ((hasDerivAt_id t).const_mul 20).const_add (-1)) (al := id) rfl rfl
    (fun y hy => hy.le) (by norm_num [posC, minLimit, Constraint.mk']) (fun t ht => ?_)
    (by norm_num [Constraint.value, posC, minLimit, Constraint.mk', stateAt])
  · simpa using key
  · rw [posC_barrier]
    split <;> linarith

/-! ### C35 -/

section
variable {K S : Type} [Field K]

/-- **C35, value**. For every relative degree of at least 2 the constraint can be built; its value is the last element of the
chain `psi_0 = h`, `psi_(i+1) = grad psi_i . f + alpha(psi_i)`, and logging reports the original constraint. -/
theorem C35_chain (ad : (S → P → K) → S → P → List K) (c : Constraint K S P) (r : Nat) (hr : 2 ≤ r) (f : S → List K)
    (al : K → K) : ∃ (H : Constraint K S P) (psi : Nat → S → P → K) (G : Nat → S → P → List K), hocbf ad c r f al = .ok H ∧ psi 0 = c.compute ∧ G 0 = c.gradFn ∧
      (∀ i, psi (i + 1) = fun x p => dot (G i x p) (f x) + al (psi i x p)) ∧ (∀ i, G (i + 1) = ad (psi (i + 1))) ∧
      H.compute = psi (r - 1) ∧ H.gradFn = ad (psi (r - 1)) ∧ H.phiFn = c.phiFn ∧ H.params = c.params ∧ H.alpha = some al := by
  have hpar : ∀ i, (hocbfChain ad c f al i).params = c.params := by
    intro i
    induction i with
    | zero => rfl
    | succ i ih => exact ih
  refine ⟨_, fun i => (hocbfChain ad c f al i).compute, fun i => (hocbfChain ad c f al i).gradFn, if_neg (by omega), rfl, rfl,
    fun i => ?_, fun i => ?_, ?_, rfl, rfl, hpar _, rfl⟩
  · funext x p
    simp [hocbfChain, hocbfHelper, Constraint.mk', Constraint.compute]
  · have : (hocbfChain ad c f al (i + 1)).compute = (hocbfChain ad c f al (i + 1)).computeFn := by
      funext x p
      simp [hocbfChain, hocbfHelper, Constraint.mk', Constraint.compute]
    simp only [this]
    rfl
  · funext x p
    show (hocbfChain ad c f al (r - 1)).compute x p + 0 = _
    rw [add_zero]

/-- **C35 is violated at relative degree 1** (and 0): the constructor raises `UnboundLocalError`. -/
theorem C35_refuted_degree_one (ad : (S → P → K) → S → P → List K) (c : Constraint K S P) (f : S → List K) (al : K → K) :
    hocbf ad c 1 f al = .error (.unboundLocal "psi") := rfl

end

/-- **C35, protection (relative degree at least 2)**. Let `psi`, `G` be the chain of `C35_chain` with the gradients `G i`
correct, and let the control not act on the elements before the last (that is what relative degree `r` means). If the last
element stays non-negative along a trajectory and all elements are non-negative at the start, then the original constraint
stays non-negative. What is missing from the property: construction fails for degree 1 (`C35_refuted_degree_one`). -/
theorem C35_protects_partial {D : Set (List ℝ)} {n r : Nat} {f : List ℝ → List ℝ} {g : List ℝ → List (List ℝ)} {x u : ℝ → List ℝ}
    (htraj : Trajectory D n f g x u) {psi : Nat → List ℝ → ℝ} {G : Nat → List ℝ → List ℝ} {al : ℝ → ℝ}
    (hchain : ∀ i < r - 1, ∀ y, psi (i + 1) y = dot (G i y) (f y) + al (psi i y)) (hal : ∀ y < 0, al y ≤ 0)
    (hgrad : ∀ i < r - 1, IsGradientOn D n (psi i) (G i))
    (hdeg : ∀ i < r - 1, ∀ t, 0 ≤ t →
      dot (G i (x t)) (vadd (f (x t)) (matVec (g (x t)) (u t))) = dot (G i (x t)) (f (x t)))
    (h0 : ∀ i < r, 0 ≤ psi i (x 0)) (hlast : ∀ t, 0 ≤ t → 0 ≤ psi (r - 1) (x t)) :
    ∀ t, 0 ≤ t → 0 ≤ psi 0 (x t) := by
  have key : ∀ j ≤ r - 1, ∀ t, 0 ≤ t → 0 ≤ psi (r - 1 - j) (x t) := by
    intro j
    induction j with
    | zero => intro _; exact hlast
    | succ j ih =>
      intro hj
      have hi := ih (by omega)
      obtain ⟨i, hie⟩ : ∃ i, i = r - 1 - (j + 1) := ⟨_, rfl⟩
      rw [← hie]
      have hlt : i < r - 1 := by omega
      have e : r - 1 - j = i + 1 := by omega
      rw [e] at hi
      refine stays_nonneg (h := fun t => psi i (x t)) (along_cont htraj (hgrad i hlt)) (fun t ht => along_deriv htraj (hgrad i hlt) ht) ?_
        (h0 i (by omega))
      intro t ht hneg
      have h1 := hi t ht
      rw [hchain i hlt, ← hdeg i hlt t ht] at h1
      have := hal _ hneg
      linarith
  have := key (r - 1) le_rfl
  rwa [Nat.sub_self] at this

/-- The double integrator `x'' = u` with `x >= 0` and identity strengthener has relative degree 2. -/
noncomputable def diC : Constraint ℝ (List ℝ) ℝ := minLimit 0 0 (some id)
noncomputable def diF : List ℝ → List ℝ := fun x => [stateAt x 1, 0]
noncomputable def diG : List ℝ → List (List ℝ) := fun _ => [[0], [1]]

theorem diC_grad : IsGradientOn univ 2 (fun x => diC.compute x diC.params) (fun x => diC.gradFn x diC.params) := by
  have e : ∀ x : List ℝ, diC.compute x diC.params = stateAt x 0 := fun x => by simp [diC, minLimit, Constraint.mk', Constraint.compute]
  refine (grad_coord univ (n := 2) (i := 0) (by decide)).congr (fun x _ _ => e x) ?_
  intro x _ hx v _
  simp [diC, minLimit, Constraint.mk', hx]

/-- For degree 2 and gradients from partial derivatives the hypotheses hold: `psi_1 = v + x`. Along `x = exp(-t)`,
`v = -exp(-t)`, `psi_1` is constantly zero and the position stays non-negative. -/
example : ∃ (H : Constraint ℝ (List ℝ) ℝ) (psi : Nat → List ℝ → ℝ → ℝ) (G : Nat → List ℝ → ℝ → List ℝ),
    hocbf partials diC 2 diF id = .ok H ∧ H.compute = psi 1 ∧ (∀ i, psi (i + 1) = fun x p => dot (G i x p) (diF x) + id (psi i x p)) ∧
    (∀ t : ℝ, 0 ≤ t → psi 1 [Real.exp (-t), -Real.exp (-t)] diC.params = 0) ∧
    ∀ t : ℝ, 0 ≤ t → 0 ≤ psi 0 [Real.exp (-t), -Real.exp (-t)] diC.params := by
  obtain ⟨H, psi, G, hH, h0, hG0, hch, hG, hval, -⟩ := C35_chain partials diC 2 le_rfl diF id
  have d1 : ∀ t : ℝ, HasDerivAt (fun t : ℝ => Real.exp (-t)) (-Real.exp (-t)) t := fun t => by simpa using (hasDerivAt_neg t).exp
  have hp1 : ∀ t : ℝ, psi 1 [Real.exp (-t), -Real.exp (-t)] diC.params = 0 := by
    intro t
    rw [hch 0, h0, hG0]
    simp [diC, minLimit, Constraint.mk', Constraint.compute, diF, stateAt, gradAt, List.range_succ]
  refine ⟨H, psi, G, hH, hval, hch, fun t _ => hp1 t, ?_⟩
  refine C35_protects_partial (D := univ) (n := 2) (r := 2) (f := diF) (g := diG) (x := fun t => [Real.exp (-t), -Real.exp (-t)])
    (u := fun t => [Real.exp (-t)]) (psi := fun i x => psi i x diC.params) (G := fun i x => G i x diC.params) (al := id)
    ⟨fun t _ => ⟨mem_univ _, rfl⟩, ?_, fun t _ => rfl, ?_⟩ (fun i _ y => by rw [hch]) (fun y hy => hy.le) ?_ ?_ ?_ (fun t _ => (hp1 t).ge)
  · intro i hi
    match i with
    | 0 => exact fun t _ => (d1 t).continuousAt.continuousWithinAt
    | 1 => exact fun t _ => (d1 t).neg.continuousAt.continuousWithinAt
  · intro t _ i hi
    match i with
    | 0 =>
      have e : (vadd (diF [Real.exp (-t), -Real.exp (-t)]) (matVec (diG [Real.exp (-t), -Real.exp (-t)]) [Real.exp (-t)])).getD 0 0 = -Real.exp (-t) := by
        simp [diF, diG, vadd, matVec, stateAt]
      rw [e]
      exact (d1 t).hasDerivWithinAt
    | 1 =>
      have e : (vadd (diF [Real.exp (-t), -Real.exp (-t)]) (matVec (diG [Real.exp (-t), -Real.exp (-t)]) [Real.exp (-t)])).getD 1 0 = - -Real.exp (-t) := by
        simp [diF, diG, vadd, matVec, stateAt]
      rw [e]
      exact (d1 t).neg.hasDerivWithinAt
  · intro i hi
    obtain rfl : i = 0 := by omega
    rw [h0, hG0]
    exact diC_grad
  · intro i hi t _
    obtain rfl : i = 0 := by omega
    simp only [hG0]
    simp [diC, minLimit, Constraint.mk', diF, diG, stateAt, gradAt, List.range_succ, vadd, matVec]
  · intro i hi
    match i with
    | 0 => simp only [h0]; simp [diC, minLimit, Constraint.mk', Constraint.compute, stateAt]
    | 1 => exact (hp1 0).ge

end RTA
