import Verif.Lemmas.Strict
import Verif.Props.ImplicitFlow

/-!
C76: modules with `solver_exception=True`. No assumption that the program can be solved is needed: a call that returns has
solved it.
-/
namespace RTA
open Set

section
variable {K S P X A : Type} [Field K] [LinearOrder K] [IsStrictOrderedRing K] [HasSqrt K] [LawfulSqrt K]

/-- **C76, explicit**. Whatever control an enabled explicit module with `solver_exception=True` returns (in any state, after any
history, for any desired control, whatever the shapes of what the user's functions return): it is within the bounds and satisfies, with
some slack values, every condition the module imposes, and no other control and slack values that do cost less. -/
theorem C76_explicit_returned {solver : Solver K} (hspec : SolverSpec solver) {f : S → List K} {g : S → List (List K)}
    {s s' : ASIFObj K S P X} (hs : ExplicitModule solver f g s) (hpos : ScalesPos s.constraints) (hen : s.enable = true)
    (hexc : s.ext.solverException = true) (x : S) (dt : K) (u v : List K)
    (hcall : explicitASIF solver f g s (.array x) dt u = (.ok v, s')) :
    ∃ d, AdmissibleS f g s x v d ∧
      ∀ w e, AdmissibleS f g s x w e → v ++ d ≠ w ++ e → slackCost (qpWeights s) u v d < slackCost (qpWeights s) u w e := by
  have hadm := explicit_strict hspec hs.inv.1 hs.inv.2 hpos hen hexc hcall
  obtain ⟨-, d, -, h1, h2, -⟩ := explicit_solved hspec hs.inv.1 hs.inv.2 hpos hen hcall hadm
  exact ⟨d, h1, h2⟩

/-- **C76, explicit, no slack**. -/
theorem C76_explicit_returned_noslack {solver : Solver K} (hspec : SolverSpec solver) {f : S → List K} {g : S → List (List K)}
    {s s' : ASIFObj K S P X} (hs : ExplicitModule solver f g s) (hns : slackScales s.constraints = []) (hen : s.enable = true)
    (hexc : s.ext.solverException = true) (x : S) (dt : K) (u v : List K)
    (hcall : explicitASIF solver f g s (.array x) dt u = (.ok v, s')) :
    Admissible f g s x v ∧ ∀ w, Admissible f g s x w → w ≠ v → sqDist v u < sqDist w u := by
  have hpos : ScalesPos s.constraints := by intro w hw; rw [hns] at hw; simp at hw
  obtain ⟨w, d, hw⟩ := explicit_strict hspec hs.inv.1 hs.inv.2 hpos hen hexc hcall
  exact C24_closest_admissible hspec hs hns hen x dt u v hcall ⟨w, ((admissibleS_noslack hns).1 hw).2⟩

/-- **C76, implicit**. -/
theorem C76_implicit_returned [FloorRing K] {solver : Solver K} (hspec : SolverSpec solver) {E : ImplicitEnv K}
    {s s' : ImplicitObj K P A} (hs : ImplicitModule solver E s) (hen : s.enable = true) (hexc : s.ext.solverException = true)
    (x : List K) (dt : K) (u v : List K) (hcall : E.call solver s (.array x) dt u = (.ok v, s')) :
    AdmissibleI E s x dt v ∧ ∀ w, AdmissibleI E s x dt w → w ≠ v → sqDist v u < sqDist w u := by
  obtain ⟨h1, h2, -⟩ := C36_closest_admissible hspec hs hen x dt u v hcall (implicit_strict hspec hs.inv.inv hen hexc hcall)
  exact ⟨h1, h2⟩

end

variable {P X A : Type}

/-- **C76, explicit closed loop**. A vehicle that applies at every instant the control some explicit modules with
`solver_exception=True` containing the constraint return - so none of the calls raised - keeps the constraint. -/
theorem C76_explicit_closed_loop {solver : Solver ℝ} (hspec : SolverSpec solver) {k : String} {c : Constraint ℝ (List ℝ) P}
    {D : Set (List ℝ)} {n : Nat} {f : List ℝ → List ℝ} {g : List ℝ → List (List ℝ)} {x u : ℝ → List ℝ}
    (hgrad : IsGradientOn D n (fun x => c.computeFn x c.params) (fun x => c.gradFn x c.params))
    (htraj : Trajectory D n f g x u) {al : ℝ → ℝ} (ha : c.alpha = some al) (hneg : ∀ y < 0, strengthening c al y ≤ 0)
    (hen : c.enabled = true) (hns : c.slackPriorityScale = none)
    (hloop : ∀ t, 0 ≤ t → ∃ (s s' : ASIFObj ℝ (List ℝ) P X) (dt : ℝ) (uDes : List ℝ), ExplicitModule solver f g s ∧
      ScalesPos s.constraints ∧ s.enable = true ∧ s.ext.solverException = true ∧ (k, c) ∈ s.constraints ∧
      explicitASIF solver f g s (.array (x t)) dt uDes = (.ok (u t), s'))
    (h0 : 0 ≤ c.value (x 0)) : ∀ t, 0 ≤ t → 0 ≤ c.value (x t) :=
  C31_asif_loop hspec hgrad htraj ha hneg hen hns (fun t ht => by
    obtain ⟨s, s', dt, uDes, hs, hpos, hens, hexc, hmem, hcall⟩ := hloop t ht
    exact ⟨s, s', dt, uDes, hs, hpos, hens, hmem, explicit_strict hspec hs.inv.1 hs.inv.2 hpos hens hexc hcall, hcall⟩) h0

/-- **C76, implicit closed loop**: the same for implicit modules that look at the current state. -/
theorem C76_implicit_closed_loop {solver : Solver ℝ} (hspec : SolverSpec solver) {E : ImplicitEnv ℝ} {k : String}
    {c : Constraint ℝ (List ℝ) P} {D : Set (List ℝ)} {n : Nat} {x u : ℝ → List ℝ}
    (hgrad : IsGradientOn D n (fun x => c.computeFn x c.params) (fun x => c.gradFn x c.params))
    (htraj : Trajectory D n E.f E.g x u) {al : ℝ → ℝ} (ha : c.alpha = some al) (hneg : ∀ y < 0, al y ≤ 0)
    (hen : c.enabled = true) (hsub : c.subsample = {} ∨ c.subsample.keepFirst = true)
    (hloop : ∀ t, 0 ≤ t → ∃ (s s' : ImplicitObj ℝ P A) (dt : ℝ) (uDes : List ℝ), ImplicitModule solver E s ∧ s.enable = true ∧
      s.ext.solverException = true ∧ (k, c) ∈ s.constraints ∧ E.call solver s (.array (x t)) dt uDes = (.ok (u t), s'))
    (h0 : 0 ≤ c.value (x 0)) : ∀ t, 0 ≤ t → 0 ≤ c.value (x t) :=
  C67_constraint_kept hspec hgrad htraj ha hneg hen (fun t ht => by
    obtain ⟨s, s', dt, uDes, hs, hens, hexc, hmem, hcall⟩ := hloop t ht
    exact ⟨s, s', dt, uDes, hs, hens, hmem, C67_current_state_checked _ _ _ _ _ hsub,
      implicit_strict hspec hs.inv.inv hens hexc hcall, hcall⟩) h0

/-- **C76 needs the flag**: with `solver_exception=False`, the default, a call returns a control that violates the barrier condition although
no control satisfies it. -/
theorem C76_default_returns_inadmissible (solver : Solver ℝ) (hspec : SolverSpec solver) (dt : ℝ) :
    ∃ v s', explicitASIF solver toyF toyG (toyObj none false) (.array (-3)) dt [5] = (.ok v, s') ∧
      ¬ ∃ w, Admissible toyF toyG (toyObj none false) (-3) w := by
  refine ⟨[2], _, Prod.ext (toy_infeasible_call solver hspec dt).2 rfl, ?_⟩
  rintro ⟨w, hw⟩
  exact toy_infeasible false ⟨w, _, admissible_iff_zeros.1 hw⟩

/-- C76: the loop of C67 with `solver_exception=True`. -/
example (solver : Solver ℝ) (hspec : SolverSpec solver) : ∀ t, 0 ≤ t → 0 ≤ (iC 0 {} true none).value [Real.exp (-t)] := by
  refine C76_implicit_closed_loop (A := Unit) hspec (E := iE) (k := "c") (c := iC 0 {} true none) (D := univ) (n := 1) (x := fun t => [Real.exp (-t)])
    (u := fun t => [-Real.exp (-t)]) ?_ (single_trajectory exp_neg_deriv) (al := id) rfl (fun y hy => hy.le) rfl (Or.inl rfl) (fun t ht => ?_) ?_
  · refine (grad_coord univ (n := 1) (i := 0) (by decide)).congr (fun x _ hx => ?_) ?_
    · obtain ⟨a, rfl⟩ := List.length_eq_one_iff.1 hx
      simp [iC, stateAt]
    · intro x _ hx v hv
      obtain ⟨a, rfl⟩ := List.length_eq_one_iff.1 hv
      simp [iC, gradAt, dot_cons]
  · obtain ⟨ha, s', hs'⟩ := i_result_at solver hspec true (exp_neg_mem ht).1 (exp_neg_mem ht).2
    exact ⟨_, s', 1, [-2], i_module solver (by simp [dictKeys]) 2 true, rfl, rfl, by simp [iObj], hs'⟩
  · simp [Constraint.value, iC]

end RTA
