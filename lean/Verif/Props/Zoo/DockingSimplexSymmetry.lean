import Verif.Props.SimplexSymmetry
import Verif.Props.Symmetry
import Verif.Model.Zoo.Docking

/-!
C107 for the docking simplex modules: seen from the opposite side of the target they answer with opposite controls.
-/
namespace RTA
open Real

/-- Opposite signs for all components. -/
def opposite (v : List ℝ) : List ℝ := v.map fun c => -c

theorem dot_opposite (r v : List ℝ) : dot r (opposite v) = -dot r v := by
  induction r generalizing v with
  | nil => simp [dot]
  | cons a r ih =>
    cases v with
    | nil => simp [dot, opposite]
    | cons b v =>
      have := ih v
      simp only [dot, opposite, List.map_cons, List.zipWith_cons_cons, List.foldr_cons] at this ⊢
      rw [this]
      ring

theorem matVec_opposite (M : List (List ℝ)) (v : List ℝ) : matVec M (opposite v) = opposite (matVec M v) := by
  simp only [matVec, opposite, List.map_map]
  refine List.map_congr_left fun r _ => ?_
  exact dot_opposite r v

theorem vadd_opposite (v w : List ℝ) : vadd (opposite v) (opposite w) = opposite (vadd v w) := by
  induction v generalizing w with
  | nil => simp [vadd, opposite]
  | cons a v ih =>
    cases w with
    | nil => simp [vadd, opposite]
    | cons b w =>
      have := ih w
      simp only [vadd, opposite, List.map_cons, List.zipWith_cons_cons, List.cons.injEq] at this ⊢
      exact ⟨by ring, this⟩

theorem stateAt_opposite (x : List ℝ) (i : Nat) : stateAt (opposite x) i = -stateAt x i := by
  unfold stateAt opposite
  rw [List.getD_eq_getElem?_getD, List.getD_eq_getElem?_getD, List.getElem?_map]
  cases x[i]? <;> simp

theorem norm_opposite (x : List ℝ) (a b : Nat) (δ : ℝ) : normWithDelta (pySlice (opposite x) a b) δ = normWithDelta (pySlice x a b) δ := by
  have : ((pySlice (opposite x) a b).map (· ^ 2)) = (pySlice x a b).map (· ^ 2) := by
    unfold pySlice opposite
    rw [← List.map_drop, ← List.map_take, List.map_map]
    refine List.map_congr_left fun c _ => ?_
    simp
  unfold normWithDelta
  rw [this]

theorem lqr_opposite (d : Nat) (G : List (List ℝ)) (x : List ℝ) : lqrControl d G (opposite x) = opposite (lqrControl d G x) := by
  unfold lqrControl
  rw [← matVec_opposite]
  congr 1
  have hz : ∀ k, zeros (K := ℝ) k = opposite (zeros k) := fun k => by simp [zeros, opposite]
  have : ∀ v w : List ℝ, vsub (opposite v) (opposite w) = opposite (vsub v w) := by
    intro v
    induction v with
    | nil => intro w; simp [vsub, opposite]
    | cons a v ih =>
      intro w
      cases w with
      | nil => simp [vsub, opposite]
      | cons b w =>
        have := ih w
        simp only [vsub, opposite, List.map_cons, List.zipWith_cons_cons, List.cons.injEq] at this ⊢
        exact ⟨by ring, this⟩
  rw [← this]
  congr 1
  conv_rhs => rw [opposite, List.map_append]
  have h1 : (opposite x).length = x.length := by simp [opposite]
  rw [h1]
  have h2 : (zeros (K := ℝ) (x.length - d)).map (fun c => -c) = zeros (x.length - d) := (hz _).symm
  rw [h2]
  simp [opposite]

theorem clip_opposite {b : Base ℝ} {U : ℝ} (hU : 0 ≤ U) (hlo : b.controlBoundsLow = some (.scalar (-U)))
    (hhi : b.controlBoundsHigh = some (.scalar U)) (u : List ℝ) : b.clipControl (opposite u) = (b.clipControl u).map opposite := by
  have hop : ∀ v : List ℝ, opposite v = flip (List.replicate v.length (-1)) v := by
    intro v
    induction v with
    | nil => rfl
    | cons a v ih =>
      simp only [opposite, List.map_cons, flip, List.length_cons, List.replicate_succ, List.zipWith_cons_cons, neg_mul, one_mul] at ih ⊢
      rw [ih]
  have h := clip_flip b (sg := List.replicate u.length (-1)) (by simp) (by
      intro i _
      rw [hlo, hhi]
      simp [boundAt]) (by
      rw [hlo, hhi]
      intro i a c ha hc
      simp only [boundAt, Option.some.injEq] at ha hc
      linarith) (u := u) (by simp) (by rw [hlo]; trivial) (by rw [hhi]; trivial)
  rw [hop u, h]
  rcases hc : b.clipControl u with _ | w
  · rfl
  · have hl : w.length = u.length := by
      unfold Base.clipControl at hc
      rw [hlo, hhi] at hc
      obtain ⟨y, hy, hlen, -⟩ := npClip_fits (x := u) (lo := some (.scalar (-U))) (hi := some (.scalar U)) trivial trivial
      simp [hy] at hc
      rw [← hc, hlen]
    simp only [Except.map, Except.ok.injEq]
    rw [hop w, hl]

/-- Predictions that are linear in the state and the control for every step length, as those of the linear docking dynamics. -/
def LinearPrediction (pred : List ℝ → ℝ → List ℝ → List ℝ) : Prop :=
  ∃ (M N : ℝ → List (List ℝ)), ∀ x dt u, pred x dt u = vadd (matVec (M dt) x) (matVec (N dt) u)

theorem LinearPrediction.opposite {pred : List ℝ → ℝ → List ℝ → List ℝ} (h : LinearPrediction pred) (x : List ℝ) (dt : ℝ) (u : List ℝ) :
    pred (opposite x) dt (opposite u) = RTA.opposite (pred x dt u) := by
  obtain ⟨M, N, h⟩ := h
  rw [h, h, matVec_opposite, matVec_opposite, vadd_opposite]

theorem symmetric_docking {A : Type} {pred : List ℝ → ℝ → List ℝ → List ℝ} (hp : LinearPrediction pred) {d : Nat} {G : List (List ℝ)}
    {U : ℝ} (hU : 0 ≤ U) {s : SimplexObj ℝ (List ℝ) DockParams A}
    (hc : ∀ kc ∈ s.constraints, (∃ coefs v0 v1 v0Distance, kc.2 = dockRelVel d coefs v0 v1 v0Distance) ∨ ∃ l i, kc.2 = dockLimit l i)
    (hg : s.ext.ctrl.gen = fun x _ _ => some (lqrControl d G x, .none)) (hlo : s.controlBoundsLow = some (.scalar (-U)))
    (hhi : s.controlBoundsHigh = some (.scalar U)) : Symmetric pred opposite opposite s := by
  have hv : ∀ kc ∈ s.constraints, ∀ x p, kc.2.computeFn (opposite x) p = kc.2.computeFn x p := by
    intro kc hkc x p
    rcases hc kc hkc with ⟨coefs, v0, v1, vd, e⟩ | ⟨l, i, e⟩
    · rw [e]
      simp only [dockRelVel, Constraint.mk', relativeVelocity, norm_opposite]
    · rw [e]
      simp only [dockLimit, Constraint.mk', stateAt_opposite]
      ring
  refine ⟨hp.opposite, hv, ?_, ?_, clip_opposite hU hlo hhi⟩
  · intro kc hkc x p
    have := hv kc hkc x p
    rcases hc kc hkc with ⟨coefs, v0, v1, vd, e⟩ | ⟨l, i, e⟩
    · rw [e] at this ⊢
      exact this
    · rw [e] at this ⊢
      exact this
  · intro x dt z
    rw [hg]
    simp only [lqr_opposite, Option.map_some]

/-- **C107, docking simplex modules in the plane.** Whatever the gains of the backup controller, the latch time and the backup window: the
2-D docking modules, after construction, answer a sequence of calls from the opposite side of the target, with opposite velocities and
opposite desired controls, with the opposite controls. -/
theorem C107_docking_2d_simplex {A : Type} {pred : List ℝ → ℝ → List ℝ → List ℝ} (hp : LinearPrediction pred)
    {n v0 v1Coef v0Distance xLim yLim U latchTime window : ℝ} (hU : 0 ≤ U) {G : List (List ℝ)} {s : SimplexObj ℝ (List ℝ) DockParams A}
    (hs : dock2Simplex n v0 v1Coef v0Distance xLim yLim (some (.scalar U)) (some (.scalar (-U))) G latchTime window = .ok s)
    (cs : List (List ℝ × ℝ × List ℝ)) :
    answers (explicitSimplex pred) s (cs.map fun c => (opposite c.1, c.2.1, opposite c.2.2)) =
        (answers (explicitSimplex pred) s cs).map (Except.map opposite) ∧
      answers (implicitSimplex pred) s (cs.map fun c => (opposite c.1, c.2.1, opposite c.2.2)) =
        (answers (implicitSimplex pred) s cs).map (Except.map opposite) := by
  simp only [dock2Simplex, lqrBackup, BackupController.init, CState.copy, simplexInit, CBObj.init, selectConstraints, Except.ok.injEq] at hs
  have hsym : Symmetric pred opposite opposite s := by
    refine symmetric_docking hp (d := 2) (G := G) hU ?_ ?_ ?_ ?_ <;> subst hs
    · intro kc hkc
      simp only [updateParams, dockConstraints2, List.mem_cons, List.not_mem_nil, or_false] at hkc
      rcases hkc with rfl | rfl | rfl
      · exact .inl ⟨_, _, _, _, rfl⟩
      · exact .inr ⟨_, _, rfl⟩
      · exact .inr ⟨_, _, rfl⟩
    · rfl
    · rfl
    · rfl
  exact ⟨C107_simplex_run hsym (by subst hs; rfl) (by subst hs; rfl) cs, C107_implicit_simplex_run hsym (by subst hs; rfl) (by subst hs; rfl) cs⟩

/-- **C107, docking simplex modules in space**, likewise. -/
theorem C107_docking_3d_simplex {A : Type} {pred : List ℝ → ℝ → List ℝ → List ℝ} (hp : LinearPrediction pred)
    {n v0 v1Coef v0Distance xLim yLim zLim U latchTime window : ℝ} (hU : 0 ≤ U) {G : List (List ℝ)}
    {s : SimplexObj ℝ (List ℝ) DockParams A}
    (hs : dock3Simplex n v0 v1Coef v0Distance xLim yLim zLim (some (.scalar U)) (some (.scalar (-U))) G latchTime window = .ok s)
    (cs : List (List ℝ × ℝ × List ℝ)) :
    answers (explicitSimplex pred) s (cs.map fun c => (opposite c.1, c.2.1, opposite c.2.2)) =
        (answers (explicitSimplex pred) s cs).map (Except.map opposite) ∧
      answers (implicitSimplex pred) s (cs.map fun c => (opposite c.1, c.2.1, opposite c.2.2)) =
        (answers (implicitSimplex pred) s cs).map (Except.map opposite) := by
  simp only [dock3Simplex, lqrBackup, BackupController.init, CState.copy, simplexInit, CBObj.init, selectConstraints, Except.ok.injEq] at hs
  have hsym : Symmetric pred opposite opposite s := by
    refine symmetric_docking hp (d := 3) (G := G) hU ?_ ?_ ?_ ?_ <;> subst hs
    · intro kc hkc
      simp only [updateParams, dockConstraints3, List.mem_cons, List.not_mem_nil, or_false] at hkc
      rcases hkc with rfl | rfl | rfl | rfl
      · exact .inl ⟨_, _, _, _, rfl⟩
      · exact .inr ⟨_, _, rfl⟩
      · exact .inr ⟨_, _, rfl⟩
      · exact .inr ⟨_, _, rfl⟩
    · rfl
    · rfl
    · rfl
  exact ⟨C107_simplex_run hsym (by subst hs; rfl) (by subst hs; rfl) cs, C107_implicit_simplex_run hsym (by subst hs; rfl) (by subst hs; rfl) cs⟩

/-- The hypotheses hold: the module can be built, and the Euler prediction of the docking dynamics, among others, is linear. -/
example : (∃ s, dock2Simplex (A := Unit) 1 1 2 0 10 10 (some (.scalar 1)) (some (.scalar (-1))) [[1, 0, 2, 0], [0, 1, 0, 2]] 1 5 = .ok s) ∧
    LinearPrediction fun x dt u => vadd (matVec [[1, 0, dt, 0], [0, 1, 0, dt], [3 * dt, 0, 1, 2 * dt], [0, 0, -(2 * dt), 1]] x)
      (matVec [[0, 0], [0, 0], [dt / 12, 0], [0, dt / 12]] u) :=
  ⟨⟨_, rfl⟩, _, _, fun _ _ _ => rfl⟩

end RTA
