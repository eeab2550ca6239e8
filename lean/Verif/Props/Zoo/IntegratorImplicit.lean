import Verif.Props.ImplicitFlow
import Verif.Props.Zoo.Integrator

/-!
C68: the implicit optimisation based filter of the one-dimensional integrator.
-/
namespace RTA
open Set
variable {A : Type}

/-- The functions the implicit optimisation module of the one-dimensional integrator works with
(`zoo/integrators/integrator_1d.py:358-362`, `rta/asif.py:922-924`), for Euler prediction (`rk = false`, the default) and exact
prediction (`rk = true`); the Jacobian of the closed loop `y ↦ A y + B (-1)` is `A` (`dockIE_jacobian`). -/
noncomputable def dockIE (rk : Bool) (m : ℝ) : ImplicitEnv ℝ :=
  ⟨fun _ _ => pointA, pointF, pointG m, if rk then pointExact m else pointEuler m⟩

/-- The constructed implicit optimisation module. -/
noncomputable def dockIOObj (epsilon : ℝ) (exc : Bool) (window : ℝ) : ImplicitObj ℝ Unit A :=
  { toBase := Base.init (some (.scalar 1)) (some (.scalar (-1)))
    constraints := [("rel_vel", dockImplicitC)], params := [("rel_vel", ())], constraintEnabled := [("rel_vel", true)], constraintValues := []
    isStaleConstraints := false
    ext := { epsilon := epsilon, controlDim := 1, solverException := exc, numSlack := 0
             objWeight := [1], constraintNames := ["u1_min", "u1_max", "rel_vel"]
             actuation := [⟨[1], -1⟩, ⟨[-1], -1⟩]
             direct := [], directParams := [], directEnabled := [], causing := none, extra := ⟨window, dockCtrl⟩ } }

theorem dockIO_init (epsilon : ℝ) (exc : Bool) (window : ℝ) :
    dockImplicitASIF (A := A) epsilon exc window = .ok (dockIOObj epsilon exc window) := rfl

theorem dockIO_module (solver : Solver ℝ) (rk : Bool) (m epsilon : ℝ) (exc : Bool) (window : ℝ) :
    ImplicitModule solver (dockIE rk m) (dockIOObj (A := A) epsilon exc window) := by
  have e : asifInit (some (.scalar 1)) (some (.scalar (-1))) [("rel_vel", dockImplicitC)] none epsilon 1 exc [] ⟨window, dockCtrl (A := A)⟩ =
      .ok (dockIOObj epsilon exc window) := rfl
  exact ⟨_, _, _, _, _, _, _, _, _, _, .none, _, _, [], by simp [dictKeys], by simp [dictKeys], rfl, e, rfl⟩

/-- What the results below need to know about a module object: it is the constructed module, possibly after calls. -/
structure DockIO (window : ℝ) (s : ImplicitObj ℝ Unit A) : Prop where
  constraints : s.constraints = [("rel_vel", dockImplicitC)]
  enable : s.enable = true
  gen : s.ext.extra.ctrl.gen = fun _ _ _ => some ([-1], .none)
  state : s.ext.extra.ctrl.state = .none
  win : s.ext.extra.backupWindow = window
  low : s.controlBoundsLow = some (.scalar (-1))
  high : s.controlBoundsHigh = some (.scalar 1)
  dim : s.ext.controlDim = 1
  direct : s.ext.direct = []

theorem dockIO_fresh (epsilon : ℝ) (exc : Bool) (window : ℝ) : DockIO window (dockIOObj (A := A) epsilon exc window) :=
  ⟨rfl, rfl, rfl, rfl, rfl, rfl, rfl, rfl, rfl⟩

theorem DockIO.after {solver : Solver ℝ} {E : ImplicitEnv ℝ} {window : ℝ} {s s' : ImplicitObj ℝ Unit A} (h : DockIO window s)
    (hs : ImplicitModule solver E s) {i : InputState (List ℝ)} {dt : ℝ} {u v : List ℝ} (hcall : E.call solver s i dt u = (.ok v, s')) :
    DockIO window s' ∧ s'.ext.solverException = s.ext.solverException := by
  have hb := C67_same_backup hs i dt u v hcall
  have h' : SameAS (RelI (actIdx s)) s (E.call solver s i dt u).2 := by
    refine implicit_after_call hs.inv.inv hs.inv.names i dt u (Or.inl ?_)
    rintro x rfl hen
    obtain ⟨nm, ex, rows, drows, w0, cz, hgen, -⟩ := asif_ok (genFrame_implicit E) hen hcall
    exact ⟨rows, by rw [hgen]⟩
  rw [hcall] at h'
  exact ⟨⟨h'.constraints.trans h.constraints, h'.enable.trans h.enable, hb.gen.trans h.gen, hb.state.trans h.state,
    hb.window.trans h.win, hb.low.trans h.low, hb.high.trans h.high, h'.controlDim.trans h.dim, h'.direct.trans h.direct⟩, h'.exc⟩

theorem DockIO.same {window : ℝ} {s t : ImplicitObj ℝ Unit A} (h : DockIO window s) (k : DockIO window t) : SameBackup s t :=
  ⟨k.gen.trans h.gen.symm, k.state.trans h.state.symm, k.win.trans h.win.symm, k.low.trans h.low.symm, k.high.trans h.high.symm⟩

/-- The closed loop under the backup law is affine with matrix `A`: the Jacobian used is the right one. -/
theorem dockIE_jacobian {window : ℝ} {s : ImplicitObj ℝ Unit A} (h : DockIO window s) (rk : Bool) (m dt : ℝ) (z : CState A) (p v a b : ℝ) :
    closedLoopField (dockIE rk m) s dt z (vadd [p, v] [a, b]) =
      vadd (closedLoopField (dockIE rk m) s dt z [p, v]) (matVec ((dockIE rk m).ad (closedLoopField (dockIE rk m) s dt z) [p, v]) [a, b]) := by
  unfold closedLoopField
  rw [h.gen]
  simp [dockIE, pointF, pointG, pointA, pointB, matVec, vadd, dot_cons]

/-- How far braking pulls point `k` of the predicted trajectory back. -/
noncomputable def brakeOffset (rk : Bool) (m dt : ℝ) (k : Nat) : ℝ := dt ^ 2 / m * ((k * (k - 1) + if rk then (k : ℝ) else 0) / 2)

theorem dockIO_path {window : ℝ} {s : ImplicitObj ℝ Unit A} (h : DockIO window s) (rk : Bool) (m p v dt : ℝ) (k : Nat) :
    backupPath (dockIE rk m) s [p, v] dt k = some ([p + k * dt * v - brakeOffset rk m dt k, v - k * dt / m], .none) := by
  induction k with
  | zero => simp [backupPath, h.state, brakeOffset]
  | succ k ih =>
    have hc : s.toBase.clipControl [-1] = .ok [-1] := dock_clip _ h.high h.low _ (by norm_num) (by norm_num)
    simp only [backupPath, ih, bind, Option.bind, h.gen, hc, Except.toOption, pure, Option.some.injEq, Prod.mk.injEq, and_true]
    unfold brakeOffset dockIE
    cases rk
    · simp only [pointEuler, List.getD_cons_zero, List.getD_cons_succ, List.cons.injEq, and_true, Bool.false_eq_true, if_false]
      push_cast
      constructor <;> ring
    · simp only [pointExact, List.getD_cons_zero, List.getD_cons_succ, List.cons.injEq, and_true, if_true]
      push_cast
      constructor <;> ring

theorem dockIO_variation {window : ℝ} {s : ImplicitObj ℝ Unit A} (h : DockIO window s) (rk : Bool) (m p v dt a b : ℝ) (k : Nat) :
    variation (dockIE rk m) s [p, v] dt [a, b] k = [a + k * dt * b, b] := by
  induction k with
  | zero => simp [variation]
  | succ k ih =>
    unfold variation
    rw [dockIO_path h, ih]
    simp only [dockIE, pointA, matVec, vscale, vadd, List.map_cons, List.map_nil, List.zipWith_cons_cons, List.zipWith_nil_left, dot_cons,
      dot_nil_left, List.cons.injEq, and_true]
    push_cast
    constructor <;> ring

theorem dockIO_value {window : ℝ} {s : ImplicitObj ℝ Unit A} (h : DockIO window s) (rk : Bool) (m p v dt : ℝ) (k : Nat) :
    pathValue (dockIE rk m) s [p, v] dt dockImplicitC k = -(p + k * dt * v - brakeOffset rk m dt k) := by
  unfold pathValue
  rw [dockIO_path h]
  simp [dockImplicitC, Constraint.mk']

theorem dockAlpha (y : ℝ) : polyAlpha [0, 10, 0, 30] y = 10 * y + 30 * y ^ 3 := by
  simp only [polyAlpha, polyLoop]
  ring

theorem dockAlpha_class_k : ClassKCoefs ([0, 10, 0, 30] : List ℝ) := by
  refine ⟨?_, 1, 10, rfl, by norm_num⟩
  intro i c hc
  match i with
  | 0 => simp only [List.getElem?_cons_zero, Option.some.injEq] at hc; subst hc; exact ⟨fun _ => rfl, le_rfl⟩
  | 1 => simp at hc; subst hc; exact ⟨fun h => absurd h (by decide), by norm_num⟩
  | 2 => simp at hc; subst hc; exact ⟨fun _ => rfl, le_rfl⟩
  | 3 => simp at hc; subst hc; exact ⟨fun h => absurd h (by decide), by norm_num⟩
  | n + 4 => simp at hc

theorem dockIO_point {window : ℝ} {s : ImplicitObj ℝ Unit A} (h : DockIO window s) (rk : Bool) (m p v dt u : ℝ) (k : Nat) :
    PointOK (dockIE rk m) s [p, v] dt dockImplicitC [u] k ↔
      v + k * dt * (u / m) ≤ 10 * -(p + k * dt * v - brakeOffset rk m dt k) + 30 * (-(p + k * dt * v - brakeOffset rk m dt k)) ^ 3 := by
  have e : vadd ((dockIE rk m).f [p, v]) (matVec ((dockIE rk m).g [p, v]) [u]) = [v, u / m] := by
    simp [dockIE, pointF, pointG, pointA, pointB, matVec, vadd, dot_cons]
    ring
  have : pointValue (dockIE rk m) s [p, v] dt dockImplicitC [u] k =
      some (-(v + k * dt * (u / m)) + (10 * -(p + k * dt * v - brakeOffset rk m dt k) + 30 * (-(p + k * dt * v - brakeOffset rk m dt k)) ^ 3)) := by
    unfold pointValue
    rw [dockIO_path h, e, dockIO_variation h]
    simp only [dockImplicitC, Constraint.mk', dockAlpha, List.getD_cons_zero, add_zero, dot_cons, dot_nil_left, Option.some.injEq]
    ring
  unfold PointOK
  rw [this]
  simp only [Option.some.injEq, exists_eq_left']
  constructor <;> intro h <;> linarith

theorem dockIO_admissible {window : ℝ} {s : ImplicitObj ℝ Unit A} (h : DockIO window s) (rk : Bool) (m p v dt : ℝ) (w : List ℝ) :
    AdmissibleI (dockIE rk m) s [p, v] dt w ↔ ∃ u, w = [u] ∧ (-1 ≤ u ∧ u ≤ 1) ∧
      ∀ k ∈ pointsOf (dockIE rk m) s [p, v] dt dockImplicitC, v + k * dt * (u / m) ≤
        10 * -(p + k * dt * v - brakeOffset rk m dt k) + 30 * (-(p + k * dt * v - brakeOffset rk m dt k)) ^ 3 := by
  constructor
  · intro ha
    obtain ⟨u, rfl⟩ := List.length_eq_one_iff.1 (show w.length = 1 from ha.len.trans h.dim)
    refine ⟨u, rfl, (dock_within u).1 (by have := ha.bounds; rwa [h.low, h.high] at this), fun k hk => (dockIO_point h rk m p v dt u k).1 ?_⟩
    exact ha.barrier ("rel_vel", dockImplicitC) (by rw [h.constraints]; simp) rfl k hk
  · rintro ⟨u, rfl, h1, h2⟩
    refine ⟨h.dim.symm, by rw [h.low, h.high]; exact (dock_within u).2 h1, ?_, by simp [h.direct]⟩
    intro kc hkc _ k hk
    rw [h.constraints, List.mem_singleton] at hkc
    subst hkc
    exact (dockIO_point h rk m p v dt u k).2 (h2 k hk)

/-- Exactly one point is looked at, and it is one where the predicted position is largest. -/
theorem dockIO_points {window : ℝ} {s : ImplicitObj ℝ Unit A} (h : DockIO window s) (rk : Bool) (m p v dt : ℝ) :
    ∃ j, pointsOf (dockIE rk m) s [p, v] dt dockImplicitC = [j] ∧ j < numPoints s dt ∧
      ∀ i < numPoints s dt, p + i * dt * v - brakeOffset rk m dt i ≤ p + j * dt * v - brakeOffset rk m dt j := by
  obtain ⟨j, hj, hn, hl⟩ := C67_least_checked (dockIE rk m) s [p, v] dt dockImplicitC (Or.inr ⟨1, le_rfl, rfl⟩)
  obtain ⟨-, -, hlen, -⟩ := C37_num_least (dockImplicitC (K := ℝ)).subsample 1 rfl rfl rfl (numPoints s dt) (pathValue (dockIE rk m) s [p, v] dt dockImplicitC)
  have hlen : (pointsOf (dockIE rk m) s [p, v] dt dockImplicitC).length ≤ 1 := by
    show (checkedPoints _ _ _).length ≤ 1
    rw [hlen]
    exact min_le_left _ _
  refine ⟨j, ?_, hn, fun i hi => ?_⟩
  · match hq : pointsOf (dockIE rk m) s [p, v] dt dockImplicitC, hlen with
    | [], _ => rw [hq] at hj; simp at hj
    | [a], _ => rw [hq] at hj; simp at hj; rw [hj]
    | _ :: _ :: _, h => simp at h
  · have := hl i hi
    rw [dockIO_value h, dockIO_value h] at this
    linarith

theorem dockIO_shapes {window : ℝ} {s : ImplicitObj ℝ Unit A} (h : DockIO window s) (rk : Bool) (m p v : ℝ) {dt : ℝ} (hdt : 0 < dt)
    (hw : 0 ≤ window) : ShapesI (dockIE rk m) s [p, v] dt := by
  refine ⟨hdt.ne', ?_, ?_, ?_, ?_, ?_, ?_, ?_, ?_, ?_, by simp [h.direct]⟩
  · rw [h.win]
    unfold pyInt
    rw [if_pos (by positivity)]
    exact Int.floor_nonneg.2 (by positivity)
  · simp [h.constraints, dockImplicitC, Constraint.mk']
  · simp [h.constraints, dockImplicitC, Constraint.mk']
  · simp [h.constraints, dockImplicitC, Constraint.mk']
  · simp [dockIE, pointF, pointA, matVec]
  · simp [dockIE, pointG, pointB]
  · simp [dockIE, pointG, pointB, h.dim]
  · simp [h.state]
  · intro k _
    refine ⟨_, _, dockIO_path h rk m p v dt k, by simp [h.constraints, dockImplicitC, Constraint.mk'], fun _ => ⟨⟨[-1], .none, ?_, ?_⟩, ?_, ?_, ?_⟩⟩
    · rw [h.gen]
    · simp [dockIE, pointG, pointB]
    · simp [dockIE, pointF, pointG, pointA, pointB, matVec]
    · simp [dockIE, pointA]
    · simp [dockIE, pointA]

theorem dockIO_fit {window : ℝ} {s : ImplicitObj ℝ Unit A} (h : DockIO window s) (rk : Bool) (m p v dt : ℝ) :
    ∀ kc ∈ s.constraints, (pointsOf (dockIE rk m) s [p, v] dt kc.2).length ≤ numPoints s dt := by
  intro kc hkc
  rw [h.constraints, List.mem_singleton] at hkc
  subst hkc
  obtain ⟨j, hj, hn, -⟩ := dockIO_points h rk m p v dt
  rw [hj]
  simp only [List.length_singleton]
  omega

/-- Full braking is admissible where the predicted braking trajectory stays on the near side of the dock and comes to rest within the
window. -/
theorem dockIO_feasible {window : ℝ} {s : ImplicitObj ℝ Unit A} (h : DockIO window s) {m p v dt : ℝ} (hm : 0 < m) (hdt : 0 < dt)
    (hsafe : ∀ k < numPoints s dt, p + k * dt * v - brakeOffset false m dt k ≤ 0) (hv : v ≤ (numPoints s dt - 1 : ℕ) * dt / m) :
    AdmissibleI (dockIE false m) s [p, v] dt [-1] := by
  rw [dockIO_admissible h]
  refine ⟨-1, rfl, by norm_num, ?_⟩
  obtain ⟨j, hj, hn, hl⟩ := dockIO_points h false m p v dt
  rw [hj]
  intro k hk
  rw [List.mem_singleton] at hk
  subst hk
  have hs := hsafe k hn
  have hvk : v ≤ k * dt / m := by
    rcases Nat.lt_or_ge (k + 1) (numPoints s dt) with hlt | hge
    · have := hl (k + 1) hlt
      unfold brakeOffset at this
      simp only [Bool.false_eq_true, if_false, Nat.cast_add, Nat.cast_one] at this
      have e : p + (k + 1) * dt * v - dt ^ 2 / m * (((k + 1) * (k + 1 - 1) + 0) / 2) - (p + k * dt * v - dt ^ 2 / m * ((k * (k - 1) + 0) / 2)) =
          dt * (v - k * dt / m) := by
        field_simp
        ring
      have h2 : dt * (v - k * dt / m) ≤ 0 := by linarith
      by_contra hn
      rw [not_le] at hn
      have : 0 < dt * (v - k * dt / m) := mul_pos hdt (by linarith)
      linarith
    · have : numPoints s dt - 1 = k := by omega
      rw [this] at hv
      exact hv
  have e : (k : ℝ) * dt * (-1 / m) = -(k * dt / m) := by ring
  rw [e]
  have h1 : 0 ≤ -(p + k * dt * v - brakeOffset false m dt k) := by linarith
  have h3 : 0 ≤ 30 * (-(p + k * dt * v - brakeOffset false m dt k)) ^ 3 := by positivity
  linarith

/-- **C68, solvability (Euler prediction)**: for the constructed module after whatever calls, mass and step, wherever the predicted
braking trajectory stays on the near side of the dock over the window and comes to rest within it, a call returns the admissible
control closest to the desired one; admissible means within the bounds and satisfying the inequality at the one point looked at.
What is missing from the property: the closed loop is not safe when sampled (`C68_refuted_sampled`). -/
theorem C68_solvable_partial {solver : Solver ℝ} (hspec : SolverSpec solver) {window : ℝ} (hw : 0 ≤ window) {s : ImplicitObj ℝ Unit A}
    (h : DockIO window s) {m p v dt : ℝ} (hs : ImplicitModule solver (dockIE false m) s) (hm : 0 < m) (hdt : 0 < dt)
    (hsafe : ∀ k < numPoints s dt, p + k * dt * v - brakeOffset false m dt k ≤ 0) (hv : v ≤ (numPoints s dt - 1 : ℕ) * dt / m) (u : ℝ) :
    ∃ (w : ℝ) (s' : ImplicitObj ℝ Unit A) (j : ℕ), (dockIE false m).call solver s (.array [p, v]) dt [u] = (.ok [w], s') ∧ DockIO window s' ∧
      (-1 ≤ w ∧ w ≤ 1) ∧ j < numPoints s dt ∧
      (∀ i < numPoints s dt, p + i * dt * v - brakeOffset false m dt i ≤ p + j * dt * v - brakeOffset false m dt j) ∧
      v + j * dt * (w / m) ≤ 10 * -(p + j * dt * v - brakeOffset false m dt j) + 30 * (-(p + j * dt * v - brakeOffset false m dt j)) ^ 3 ∧
      ∀ w', -1 ≤ w' → w' ≤ 1 →
        v + j * dt * (w' / m) ≤ 10 * -(p + j * dt * v - brakeOffset false m dt j) + 30 * (-(p + j * dt * v - brakeOffset false m dt j)) ^ 3 →
        |w - u| ≤ |w' - u| := by
  have hadm : ∃ w, AdmissibleI (dockIE false m) s [p, v] dt w := ⟨_, dockIO_feasible h hm hdt hsafe hv⟩
  obtain ⟨r, hr⟩ := (C36_returns hspec hs h.enable [p, v] dt (dockIO_shapes h false m p v hdt hw) (dockIO_fit h false m p v dt) [u] h.dim.symm).1 hadm
  obtain ⟨s', hs'⟩ : ∃ s', (dockIE false m).call solver s (.array [p, v]) dt [u] = (.ok r, s') := ⟨_, Prod.ext hr rfl⟩
  obtain ⟨ha, hclose, -⟩ := C36_closest_admissible hspec hs h.enable [p, v] dt [u] r hs' hadm
  obtain ⟨j, hj, hn, hl⟩ := dockIO_points h false m p v dt
  obtain ⟨w, rfl, hb, hrow⟩ := (dockIO_admissible h false m p v dt r).1 ha
  refine ⟨w, s', j, hs', (h.after hs hs').1, hb, hn, hl, hrow j (by rw [hj]; simp), fun w' h1 h2 h3 => ?_⟩
  by_cases hne : w' = w
  · rw [hne]
  · have := hclose [w'] ((dockIO_admissible h false m p v dt [w']).2 ⟨w', rfl, ⟨h1, h2⟩, by rw [hj]; simpa using h3⟩) (by simpa using hne)
    have e : ∀ a : ℝ, sqDist [a] [u] = (a - u) ^ 2 := by
      intro a
      simp [sqDist, vsub, sqNorm, dot_cons]
      ring
    rw [e, e] at this
    exact (sq_lt_sq.1 this).le

/-- **C68 is violated** in the loop the filter is used in: one call per step, the returned control held over the step. With mass 1, window
2 (the defaults) and step 1, at position -2 with velocity 1 full braking would stop the vehicle at -1. The filter lets the desired full
thrust through; at the next state no control is admissible, the filter (with the default policy) lets the desired control through again,
and the vehicle passes the dock. This happens for Euler and for exact motion. -/
theorem C68_refuted_sampled {solver : Solver ℝ} (hspec : SolverSpec solver) (epsilon : ℝ) :
    ∃ s1 s2 s3 : ImplicitObj ℝ Unit A,
      (dockIE false 1).call solver (dockIOObj epsilon false 2) (.array [-2, 1]) 1 [1] = (.ok [1], s1) ∧
      pointEuler (1 : ℝ) [-2, 1] 1 [1] = [-1, 2] ∧ pointExact (1 : ℝ) [-2, 1] 1 [1] = [-1 / 2, 2] ∧
      (dockIE false 1).call solver s1 (.array [-1, 2]) 1 [1] = (.ok [1], s2) ∧
      (dockIE false 1).call solver s1 (.array [-1 / 2, 2]) 1 [1] = (.ok [1], s3) ∧
      pointEuler (1 : ℝ) [-1, 2] 1 [1] = [1, 3] ∧ pointExact (1 : ℝ) [-1 / 2, 2] 1 [1] = [2, 3] ∧
      (∀ k : ℕ, ((fun x => pointEuler 1 x 1 [-1])^[k] [-2, (1 : ℝ)]).getD 0 0 ≤ -1) := by
  have hmod := dockIO_module (A := A) solver false 1 epsilon false 2
  have hfresh := dockIO_fresh (A := A) epsilon false 2
  have hnp : ∀ s : ImplicitObj ℝ Unit A, DockIO 2 s → numPoints s 1 = 3 := by
    intro s h
    unfold numPoints
    rw [h.win]
    simp [pyInt]
  have hoff : ∀ k : ℕ, brakeOffset false 1 1 k = k * (k - 1) / 2 := by
    intro k
    simp [brakeOffset]
  -- the first call
  obtain ⟨w, s1, j, hcall, h1, ⟨-, hw1⟩, hj, hl, -, hclose⟩ := C68_solvable_partial hspec (window := 2) (by norm_num) hfresh hmod one_pos
    (dt := 1) one_pos (p := -2) (v := 1) (by
      intro k hk
      rw [hnp _ hfresh] at hk
      rw [hoff]
      interval_cases k <;> norm_num) (by rw [hnp _ hfresh]; norm_num) 1
  have hrow : w = 1 := by
    rw [hnp _ hfresh] at hj
    have := hclose 1 (by norm_num) le_rfl (by
      have := hl 1 (by rw [hnp _ hfresh]; norm_num)
      simp only [hoff] at this ⊢
      interval_cases j
      · norm_num at this
      · norm_num
      · norm_num)
    rw [sub_self, abs_zero] at this
    have := abs_eq_zero.1 (le_antisymm this (abs_nonneg _))
    linarith
  subst hrow
  -- the second call
  have hmod1 : ImplicitModule solver (dockIE false 1) s1 := by
    have e : runI solver (dockIE false 1) (dockIOObj (A := A) epsilon false 2) [.call (.array [-2, 1]) 1 [1]] = s1 := by
      show ((dockIE false 1).call solver (dockIOObj epsilon false 2) (.array [-2, 1]) 1 [1]).2 = s1
      rw [hcall]
    have e0 : asifInit (some (.scalar 1)) (some (.scalar (-1))) [("rel_vel", dockImplicitC)] none epsilon 1 false [] ⟨2, dockCtrl (A := A)⟩ =
        .ok (dockIOObj epsilon false 2) := rfl
    exact ⟨_, _, _, _, _, _, _, _, _, _, .none, _, _, [.call (.array [-2, 1]) 1 [1]], by simp [dictKeys], by simp [dictKeys], rfl, e0, e.symm⟩
  have hret : ∀ q : ℝ, q = -1 ∨ q = -1 / 2 → ((dockIE false 1).call solver s1 (.array [q, 2]) 1 [1]).1 = .ok [1] := by
    intro q hq
    have hno : ¬ ∃ w, AdmissibleI (dockIE false 1) s1 [q, 2] 1 w := by
      rintro ⟨w, hw⟩
      obtain ⟨u, -, ⟨hu, -⟩, hrow⟩ := (dockIO_admissible h1 false 1 q 2 1 w).1 hw
      obtain ⟨j, hj, hn, hl⟩ := dockIO_points h1 false 1 q 2 1
      have := hrow j (by rw [hj]; simp)
      rw [hnp _ h1] at hn hl
      have h2 := hl 2 (by norm_num)
      simp only [hoff] at h2 this
      rcases hq with rfl | rfl
      · interval_cases j
        · norm_num at h2
        · norm_num at h2
        · norm_num at this
          linarith
      · interval_cases j
        · norm_num at h2
        · norm_num at h2
        · norm_num at this
          linarith
    have hret := (C36_returns hspec hmod1 h1.enable [q, 2] 1 (dockIO_shapes h1 false 1 q 2 one_pos (by norm_num))
      (dockIO_fit h1 false 1 q 2 1) [1] h1.dim.symm).2 hno
    rw [(hfresh.after hmod hcall).2, dock_clip _ h1.high h1.low _ (by norm_num) le_rfl] at hret
    exact hret
  refine ⟨s1, _, _, hcall, ?_, ?_, Prod.ext (hret _ (Or.inl rfl)) rfl, Prod.ext (hret _ (Or.inr rfl)) rfl, ?_, ?_, fun k => ?_⟩
  · norm_num [pointEuler]
  · norm_num [pointExact]
  · norm_num [pointEuler]
  · norm_num [pointExact]
  · have key : ∀ k : ℕ, (fun x => pointEuler 1 x 1 [-1])^[k] [-2, (1 : ℝ)] = [-2 + (k : ℝ) - k * (k - 1) / 2, 1 - (k : ℝ)] := by
      intro k
      induction k with
      | zero => norm_num
      | succ k ih =>
        rw [Function.iterate_succ_apply', ih]
        simp only [pointEuler, List.getD_cons_zero, List.getD_cons_succ, List.cons.injEq, and_true]
        push_cast
        constructor <;> ring
    rw [key]
    simp only [List.getD_cons_zero]
    rcases k with _ | _ | k
    · norm_num
    · norm_num
    · push_cast
      nlinarith [Nat.cast_nonneg (α := ℝ) k]

/-- **C68, continuous time (Euler prediction, partial)**: a vehicle driven at every time by the control the filter returns for the current
state (for whatever desired control, after whatever calls), whose predicted braking trajectory starts strictly on the near side of the
dock, and whose velocity never exceeds what braking takes away over the window, never reaches the dock; nor does any of its predicted
braking trajectories. What is missing from the property: the loop is sampled in practice (`C68_refuted_sampled`). -/
theorem C68_continuous_partial {solver : Solver ℝ} (hspec : SolverSpec solver) {window m dt epsilon : ℝ} {exc : Bool} (hm : 0 < m) (hdt : 0 < dt)
    {p v u : ℝ → ℝ} (hp : ∀ t, 0 ≤ t → HasDerivWithinAt p (v t) (Ici t) t) (hv : ∀ t, 0 ≤ t → HasDerivWithinAt v (u t / m) (Ici t) t)
    (hpc : ContinuousOn p (Ici 0)) (hvc : ContinuousOn v (Ici 0))
    (hspeed : ∀ t, 0 ≤ t → v t ≤ (numPoints (dockIOObj (A := A) epsilon exc window) dt - 1 : ℕ) * dt / m)
    (hloop : ∀ t, 0 ≤ t → ∃ (s s' : ImplicitObj ℝ Unit A) (uDes : List ℝ), ImplicitModule solver (dockIE false m) s ∧ DockIO window s ∧
      (dockIE false m).call solver s (.array [p t, v t]) dt uDes = (.ok [u t], s'))
    (h0 : ∀ k < numPoints (dockIOObj (A := A) epsilon exc window) dt, p 0 + k * dt * v 0 - brakeOffset false m dt k < 0) :
    ∀ t, 0 ≤ t → ∀ k < numPoints (dockIOObj (A := A) epsilon exc window) dt, p t + k * dt * v t - brakeOffset false m dt k < 0 := by
  have hf := dockIO_fresh (A := A) epsilon exc window
  have key := C67_backup_kept_inside hspec (E := dockIE false m) (k := "rel_vel") (c := dockImplicitC) (x := fun t => [p t, v t])
    (u := fun t => [u t]) (s0 := dockIOObj (A := A) epsilon exc window) (dt := dt) dockAlpha_class_k rfl rfl
    (fun t _ j _ => by rw [dockIO_path hf]; rfl)
    (fun j _ => by
      simp only [dockIO_value hf]
      exact ((hpc.add (continuousOn_const.mul hvc)).sub continuousOn_const).neg)
    (fun t ht j _ y z hy => by
      have e : vadd ((dockIE false m).f [p t, v t]) (matVec ((dockIE false m).g [p t, v t]) [u t]) = [v t, u t / m] := by
        simp [dockIE, pointF, pointG, pointA, pointB, matVec, vadd, dot_cons]
        ring
      simp only [dockIO_value hf, e, dockIO_variation hf]
      have h := (((hp t ht).add ((hv t ht).const_mul (j * dt))).sub_const (brakeOffset false m dt j)).neg
      simp only [dockImplicitC, Constraint.mk', dot_cons, dot_nil_left]
      refine h.congr_deriv ?_
      ring)
    (fun t ht => by
      obtain ⟨s, s', uDes, hs, hd, hcall⟩ := hloop t ht
      have hsame := hf.same hd
      refine ⟨s, s', uDes, hs, hd.enable, hsame, by rw [hd.constraints]; simp, ?_, fun hpos => ?_, hcall⟩
      · obtain ⟨j, hj, hn, hl⟩ := C67_least_checked (dockIE false m) s [p t, v t] dt dockImplicitC (Or.inr ⟨1, le_rfl, rfl⟩)
        rw [hsame.numPoints] at hn hl
        refine ⟨j, hj, hn, fun i hi => ?_⟩
        have := hl i hi
        rwa [hsame.pathValue, hsame.pathValue] at this
      · refine ⟨_, dockIO_feasible hd hm hdt ?_ ?_⟩
        · intro k hk
          rw [hsame.numPoints] at hk
          have := hpos k hk
          rw [dockIO_value hf] at this
          linarith
        · rw [hsame.numPoints]
          exact hspeed t ht)
    (fun j hj => by
      rw [dockIO_value hf]
      linarith [h0 j hj])
  intro t ht k hk
  have := key t ht k hk
  rw [dockIO_value hf] at this
  linarith

/-- C68, continuous time: with mass 1, step 1 and window 2, a vehicle that asks for `-exp(-t)` and creeps up to -5 satisfies the hypotheses. -/
example (solver : Solver ℝ) (hspec : SolverSpec solver) :
    ∀ t : ℝ, 0 ≤ t → ∀ k < numPoints (dockIOObj (A := Unit) (1 / 10000) true 2) 1, -5 - Real.exp (-t) + k * 1 * Real.exp (-t) - brakeOffset false 1 1 k < 0 := by
  have hnp : ∀ s : ImplicitObj ℝ Unit Unit, DockIO 2 s → numPoints s 1 = 3 := by
    intro s h
    unfold numPoints
    rw [h.win]
    simp [pyInt]
  have hoff : ∀ k : ℕ, brakeOffset false 1 1 k = k * (k - 1) / 2 := by
    intro k
    simp [brakeOffset]
  have hf := dockIO_fresh (A := Unit) (1 / 10000) true 2
  have he : ∀ t : ℝ, 0 ≤ t → 0 < Real.exp (-t) ∧ Real.exp (-t) ≤ 1 := fun t ht => ⟨Real.exp_pos _, Real.exp_le_one_iff.2 (by linarith)⟩
  have hpath : ∀ t : ℝ, 0 ≤ t → ∀ k < 3, -5 - Real.exp (-t) + (k : ℕ) * 1 * Real.exp (-t) - brakeOffset false 1 1 k ≤ -5 := by
    intro t ht k hk
    obtain ⟨h1, h2⟩ := he t ht
    rw [hoff]
    interval_cases k <;> norm_num <;> linarith
  refine C68_continuous_partial hspec (m := 1) (dt := 1) one_pos one_pos (p := fun t => -5 - Real.exp (-t)) (v := fun t => Real.exp (-t))
    (u := fun t => -Real.exp (-t)) (fun t _ => ?_) (fun t _ => ?_) ?_ ?_ (fun t ht => ?_) (fun t ht => ?_) (fun k hk => ?_)
  · refine ((exp_neg_deriv t).const_sub (-5)).hasDerivWithinAt.congr_deriv ?_
    ring
  · refine (exp_neg_deriv t).hasDerivWithinAt.congr_deriv ?_
    ring
  · exact fun t _ => ((exp_neg_deriv t).const_sub (-5)).continuousAt.continuousWithinAt
  · exact fun t _ => (exp_neg_deriv t).continuousAt.continuousWithinAt
  · rw [hnp _ hf]
    have := (he t ht).2
    norm_num
    linarith
  · obtain ⟨w, s', j, hcall, -, -, hj, -, -, hclose⟩ := C68_solvable_partial hspec (window := 2) (by norm_num) hf
      (dockIO_module solver false 1 (1 / 10000) true 2) one_pos one_pos (p := -5 - Real.exp (-t)) (v := Real.exp (-t))
      (fun k hk => (hpath t ht k (by rwa [hnp _ hf] at hk)).trans (by norm_num))
      (by rw [hnp _ hf]; have := (he t ht).2; norm_num; linarith) (-Real.exp (-t))
    rw [hnp _ hf] at hj
    obtain ⟨h1, h2⟩ := he t ht
    have hh := hpath t ht j hj
    have := hclose (-Real.exp (-t)) (by linarith) (by linarith) (by
      have h3 : (0 : ℝ) ≤ 30 * (-(-5 - Real.exp (-t) + j * 1 * Real.exp (-t) - brakeOffset false 1 1 j)) ^ 3 := by
        have : 0 ≤ -(-5 - Real.exp (-t) + j * 1 * Real.exp (-t) - brakeOffset false 1 1 j) := by linarith
        positivity
      have h4 : 0 ≤ (j : ℝ) * Real.exp (-t) := by positivity
      linarith)
    rw [sub_self, abs_zero] at this
    have hw := abs_eq_zero.1 (le_antisymm this (abs_nonneg _))
    have hw : w = -Real.exp (-t) := by linarith
    subst hw
    exact ⟨_, s', _, dockIO_module solver false 1 (1 / 10000) true 2, hf, hcall⟩
  · rw [hnp _ hf] at hk
    have := hpath 0 le_rfl k hk
    linarith

end RTA
