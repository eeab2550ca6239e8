import Verif.Model.Zoo.Integrator
import Verif.Props.ClosedLoop
import Verif.Props.Flow
import Mathlib.Tactic.Linarith
import Mathlib.Tactic.Ring
import Mathlib.Tactic.FieldSimp
import Mathlib.Tactic.IntervalCases
import Mathlib.Analysis.Calculus.Deriv.Pow
import Mathlib.Analysis.Calculus.Deriv.Mul
import Mathlib.Analysis.Calculus.Deriv.Add
import Mathlib.Analysis.SpecialFunctions.Log.Deriv

/-!
C52 and C53: the filters of the one-dimensional integrator.
-/
namespace RTA

section
variable {K A : Type} [Field K] [LinearOrder K] [IsStrictOrderedRing K]

/-- The backup controller as constructed. -/
def dockCtrl : BackupController K (List K) A :=
  { gen := fun _ _ _ => some ([-1], .none), stateInitial := .none, stateSaved := .none, state := .none }

/-- The constructed explicit switching module. -/
def dockESObj (latchTime : K) : SimplexObj K (List K) Unit A :=
  { toBase := Base.init (some (.scalar 1)) (some (.scalar (-1))), constraints := [("rel_vel", dockExplicitC)]
    params := [("rel_vel", ())], constraintEnabled := [("rel_vel", true)], constraintValues := [], isStaleConstraints := false
    ext := { latchTime := latchTime, latchedElapsed := 0, backupWindow := 0, ctrl := dockCtrl } }

/-- The constructed implicit switching module. -/
def dockISObj (latchTime window : K) : SimplexObj K (List K) Unit A :=
  { toBase := Base.init (some (.scalar 1)) (some (.scalar (-1))), constraints := [("rel_vel", dockImplicitC)]
    params := [("rel_vel", ())], constraintEnabled := [("rel_vel", true)], constraintValues := [], isStaleConstraints := false
    ext := { latchTime := latchTime, latchedElapsed := 0, backupWindow := window, ctrl := dockCtrl } }

omit [LinearOrder K] [IsStrictOrderedRing K] in
theorem dockES_init (latchTime : K) : dockExplicitSimplex (A := A) latchTime = .ok (dockESObj latchTime) := rfl
omit [LinearOrder K] [IsStrictOrderedRing K] in
theorem dockIS_init (latchTime window : K) : dockImplicitSimplex (A := A) latchTime window = .ok (dockISObj latchTime window) := rfl

theorem dockES_safe_iff (latchTime : K) (x : List K) :
    SafeAt (dockESObj (A := A) latchTime).constraints x ↔ 0 ≤ -2 * x.getD 0 0 - x.getD 1 0 ^ 2 := by
  simp [SafeAt, dockESObj, dockExplicitC, Constraint.mk']

theorem dockIS_safe_iff (latchTime window : K) (x : List K) :
    SafeAt (dockISObj (A := A) latchTime window).constraints x ↔ x.getD 0 0 ≤ 0 := by
  simp [SafeAt, dockISObj, dockImplicitC, Constraint.mk']

omit [IsStrictOrderedRing K] in
theorem dock_clip (b : Base K) (hh : b.controlBoundsHigh = some (.scalar 1)) (hl : b.controlBoundsLow = some (.scalar (-1))) (a : K) (h1 : -1 ≤ a) (h2 : a ≤ 1) :
    b.clipControl [a] = .ok [a] := by
  unfold Base.clipControl
  rw [hh, hl]
  simp [npClip, Bound.bcast, Bound.toList, bcastTo, h1, h2]

/-- **C53, explicit switching, with exact prediction**: for every sequence of admissible desired controls and step sizes, every
latch time, and every initial state with `-2 x - v² ≥ 0`, no call raises, the constraint stays non-negative and the position
never exceeds zero at the sampling instants. What is missing from the property: the default Euler prediction
(`C53_refuted_euler`), the time between the instants (`C53_refuted_between_samples`). -/
theorem C53_explicit_exact_partial (latchTime : K) (dts : Nat → K) (as : Nat → K) (has : ∀ n, -1 ≤ as n ∧ as n ≤ 1) (x0 : List K)
    (h0 : 0 ≤ -2 * x0.getD 0 0 - x0.getD 1 0 ^ 2) (n : Nat) :
    ∃ x s, closedLoop (explicitSimplex (pointExact 1)) (pointExact 1) dts (fun n => [as n]) x0 (dockESObj (A := A) latchTime) n =
      some (x, s) ∧ 0 ≤ -2 * x.getD 0 0 - x.getD 1 0 ^ 2 ∧ x.getD 0 0 ≤ 0 := by
  have hwf : WF (dockESObj (A := A) latchTime) := ⟨by simp [dockESObj, dictKeys], rfl, rfl⟩
  have hus : ∀ n, (dockESObj (A := A) latchTime).toBase.clipControl [as n] = .ok [as n] :=
    fun n => dock_clip _ rfl rfl _ (has n).1 (has n).2
  have hb : (dockESObj (A := A) latchTime).toBase.clipControl [-1] = .ok [-1] := dock_clip _ rfl rfl _ le_rfl (by linarith)
  obtain ⟨x, s, hx⟩ := C18_explicit_closed_loop_runs (pointExact 1) dts (fun n => [as n]) x0 (dockESObj (A := A) latchTime) hwf rfl hus
    (fun n x z => ⟨[-1], .none, [-1], rfl, hb⟩) n
  have hs := C18_explicit_closed_loop_safe (pointExact 1) dts (fun n => [as n]) x0 (dockESObj (A := A) latchTime) hwf rfl
    ((dockES_safe_iff _ _).2 h0) hus ?_ n x s hx
  · have h := (dockES_safe_iff _ _).1 hs
    refine ⟨x, s, hx, h, ?_⟩
    nlinarith [sq_nonneg (x.getD 1 0)]
  · intro n x z ub z' cb hx hg hc
    simp only [dockESObj, dockCtrl, Option.some.injEq, Prod.mk.injEq] at hg
    obtain ⟨rfl, rfl⟩ := hg
    rw [hb] at hc
    obtain rfl : [-1] = cb := by simpa using hc
    rw [dockES_safe_iff] at hx ⊢
    simp only [pointExact, List.getD_cons_zero, List.getD_cons_succ]
    refine hx.trans (le_of_eq ?_)
    ring

/-- A braking manoeuvre at full speed towards the chief: position -2, velocity 2 (on the boundary of the safe set), desired
acceleration 1: it stops at the chief. -/
example : ((closedLoop (explicitSimplex (pointExact 1)) (pointExact 1) (fun _ => 1) (fun _ => [1]) [-2, 2]
    (dockESObj (A := Unit) (0 : ℚ)) 2).map fun p => p.1) = some [0, 0] := by decide +kernel

/-- **C53 is false for the default Euler prediction**, whatever the step size `dt > 0` and the desired control: from the position
`-dt²/2` with velocity `dt`, which satisfies the constraint, the position after one step is `dt²/2 > 0`. The call
returns normally with the backup control. -/
theorem C53_refuted_euler (latchTime dt a : K) (hdt : 0 < dt) (ha : -1 ≤ a ∧ a ≤ 1) :
    0 ≤ -2 * (-(dt ^ 2 / 2)) - dt ^ 2 ∧
    ∃ x s, closedLoop (explicitSimplex (pointEuler 1)) (pointEuler 1) (fun _ => dt) (fun _ => [a]) [-(dt ^ 2 / 2), dt]
      (dockESObj (A := A) latchTime) 1 = some (x, s) ∧ x.getD 0 0 = dt ^ 2 / 2 ∧ 0 < x.getD 0 0 := by
  have hwf : WF (dockESObj (A := A) latchTime) := ⟨by simp [dockESObj, dictKeys], rfl, rfl⟩
  have hb : (dockESObj (A := A) latchTime).toBase.clipControl [-1] = .ok [-1] := dock_clip _ rfl rfl _ le_rfl (by linarith)
  refine ⟨by ring_nf; exact le_rfl, ?_⟩
  obtain ⟨x, s, hx⟩ := C18_explicit_closed_loop_runs (pointEuler 1) (fun _ => dt) (fun _ => [a]) [-(dt ^ 2 / 2), dt]
    (dockESObj (A := A) latchTime) hwf rfl (fun _ => dock_clip _ rfl rfl _ ha.1 ha.2)
    (fun n x z => ⟨[-1], .none, [-1], rfl, hb⟩) 1
  have hx0 : x.getD 0 0 = dt ^ 2 / 2 := by
    have hx' := hx
    simp only [closedLoop] at hx'
    rcases hf : explicitSimplex (pointEuler 1) (dockESObj (A := A) latchTime) (.array [-(dt ^ 2 / 2), dt]) dt [a] with ⟨_ | c, s'⟩
    · rw [hf] at hx'; simp at hx'
    · rw [hf] at hx'
      simp only [Option.some.injEq, Prod.mk.injEq] at hx'
      rw [← hx'.1]
      simp only [pointEuler, List.getD_cons_zero, List.getD_cons_succ]
      ring
  exact ⟨x, s, hx, hx0, by rw [hx0]; positivity⟩

/-- **C53 is false between the sampling instants**: with exact prediction, from position -0.9 and velocity 1 (safe) the desired
control -1/2 over a step of 4 is accepted, the module does not intervene, and half way through the step the position is 0.1. -/
theorem C53_refuted_between_samples :
    let s : SimplexObj ℚ (List ℚ) Unit Unit := dockESObj 0
    let r := explicitSimplex (pointExact 1) s (.array [-9 / 10, 1]) 4 [-1 / 2]
    0 ≤ -2 * (-9 / 10 : ℚ) - 1 ^ 2 ∧ r.1 = .ok [-1 / 2] ∧ r.2.intervening = false ∧
    pointExact 1 [-9 / 10, 1] 2 [(-1 / 2 : ℚ)] = [1 / 10, 0] := by decide +kernel

/-! ### Implicit switching -/

theorem euler_iter (dt : K) (x : List K) (z : CState A) (k : Nat) :
    ((backupIter (pointEuler 1) dt (fun _ _ => [-1]) (fun _ _ => .none))^[k] (x, z)).1.getD 0 0 =
      x.getD 0 0 + k * dt * x.getD 1 0 - dt ^ 2 * (k * (k - 1) / 2) ∧
    ((backupIter (pointEuler 1) dt (fun _ _ => [-1]) (fun _ _ => .none))^[k] (x, z)).1.getD 1 0 = x.getD 1 0 - k * dt := by
  induction k with
  | zero => simp
  | succ k ih =>
    rw [Function.iterate_succ_apply']
    generalize (backupIter (pointEuler 1) dt (fun _ _ => [-1]) (fun _ _ => CState.none))^[k] (x, z) = p at ih
    obtain ⟨h1, h2⟩ := ih
    constructor
    · simp only [backupIter, pointEuler, List.getD_cons_zero, h1, h2]
      push_cast
      ring
    · simp only [backupIter, pointEuler, List.getD_cons_zero, List.getD_cons_succ, h2]
      push_cast
      ring

theorem exact_iter (dt : K) (x : List K) (z : CState A) (k : Nat) :
    ((backupIter (pointExact 1) dt (fun _ _ => [-1]) (fun _ _ => .none))^[k] (x, z)).1.getD 0 0 =
      x.getD 0 0 + k * dt * x.getD 1 0 - dt ^ 2 * (k ^ 2 / 2) ∧
    ((backupIter (pointExact 1) dt (fun _ _ => [-1]) (fun _ _ => .none))^[k] (x, z)).1.getD 1 0 = x.getD 1 0 - k * dt := by
  induction k with
  | zero => simp
  | succ k ih =>
    rw [Function.iterate_succ_apply']
    generalize (backupIter (pointExact 1) dt (fun _ _ => [-1]) (fun _ _ => CState.none))^[k] (x, z) = p at ih
    obtain ⟨h1, h2⟩ := ih
    constructor
    · simp only [backupIter, pointExact, List.getD_cons_zero, h1, h2]
      push_cast
      ring
    · simp only [backupIter, pointExact, List.getD_cons_zero, List.getD_cons_succ, h2]
      push_cast
      ring

section
variable [FloorRing K]

/-- **C53, implicit switching**, either prediction: for every sequence of admissible desired controls and every latch time, from a state
from which braking keeps the position at or below zero forever, no call raises and the position never exceeds zero — as
long as the velocities met can be braked to zero within the backup window. What is missing from the property: that
condition on the velocities, which the module does not enforce (`C53_refuted_implicit_window`). -/
theorem C53_implicit_partial (pred : List K → K → List K → List K) (hpred : pred = pointEuler 1 ∨ pred = pointExact 1)
    (latchTime window dt : K) (hdt : 0 < dt) (as : Nat → K) (has : ∀ n, -1 ≤ as n ∧ as n ≤ 1)
    (x0 : List K)
    (h0 : ∀ k, ((backupIter pred dt (fun _ _ => [-1]) (fun _ _ => .none))^[k] (x0, CState.none (A := A))).1.getD 0 0 ≤ 0)
    (hvel : ∀ n x s, closedLoop (implicitSimplex pred) pred (fun _ => dt) (fun n => [as n]) x0
      (dockISObj (A := A) latchTime window) n = some (x, s) → x.getD 1 0 ≤ ((pyInt (window / dt)).toNat : K) * dt) (n : Nat) :
    ∃ x s, closedLoop (implicitSimplex pred) pred (fun _ => dt) (fun n => [as n]) x0 (dockISObj (A := A) latchTime window) n =
      some (x, s) ∧ x.getD 0 0 ≤ 0 := by
  have hwf : WF (dockISObj (A := A) latchTime window) := ⟨by simp [dockISObj, dictKeys], rfl, rfl⟩
  have hb : (dockISObj (A := A) latchTime window).toBase.clipControl [-1] = .ok [-1] := dock_clip _ rfl rfl _ le_rfl (by linarith)
  have hmono : ∀ (x : List K) (z : CState A) (k N : Nat), x.getD 1 0 ≤ (N : K) * dt → N ≤ k →
      ((backupIter pred dt (fun _ _ => [-1]) (fun _ _ => .none))^[k + 1] (x, z)).1.getD 0 0 ≤
        ((backupIter pred dt (fun _ _ => [-1]) (fun _ _ => .none))^[k] (x, z)).1.getD 0 0 := by
    intro x z k N hv hN
    have hNk : (N : K) ≤ k := by exact_mod_cast hN
    have hle : dt * x.getD 1 0 ≤ dt * (k * dt) := mul_le_mul_of_nonneg_left (hv.trans (mul_le_mul_of_nonneg_right hNk hdt.le)) hdt.le
    have hsq : 0 < dt ^ 2 := by positivity
    rcases hpred with rfl | rfl
    · rw [(euler_iter dt x z (k + 1)).1, (euler_iter dt x z k).1]
      push_cast
      nlinarith
    · rw [(exact_iter dt x z (k + 1)).1, (exact_iter dt x z k).1]
      push_cast
      nlinarith
  have key := C19_implicit_closed_loop_safe_on (fun x : List K => x.getD 1 0 ≤ ((pyInt (window / dt)).toNat : K) * dt) pred dt
    (fun n => [as n]) x0 (dockISObj (A := A) latchTime window) hwf rfl hdt.ne' (fun _ _ => [-1]) (fun _ _ => .none)
    (fun x z => ⟨[-1], rfl, hb⟩) rfl (fun _ _ _ => rfl) (fun n => dock_clip _ rfl rfl _ (has n).1 (has n).2) ?_ ?_ hvel n
  · obtain ⟨x, s, hx, hs⟩ := key
    exact ⟨x, s, hx, (dockIS_safe_iff _ _ _).1 hs⟩
  · intro x z hv hwin k
    have hwin' : ∀ k ≤ (pyInt (window / dt)).toNat,
        ((backupIter pred dt (fun _ _ => [-1]) (fun _ _ => .none))^[k] (x, z)).1.getD 0 0 ≤ 0 :=
      fun k hk => (dockIS_safe_iff _ _ _).1 (hwin k hk)
    rw [dockIS_safe_iff]
    by_cases hk : k ≤ (pyInt (window / dt)).toNat
    · exact hwin' k hk
    · obtain ⟨j, rfl⟩ := Nat.exists_eq_add_of_lt (not_le.1 hk)
      clear hk
      induction j with
      | zero => exact (hmono x z _ _ hv (by omega)).trans (hwin' _ le_rfl)
      | succ j ih => exact (hmono x z _ _ hv (by omega)).trans ih
  · intro k
    rw [dockIS_safe_iff]
    exact h0 k

end

/-- The hypotheses are met in a run with window 2, step 1/2, from position -5 with velocity 1, always asking for full speed: after
six steps the position is still below zero and the velocities stayed within the four steps of the window. -/
example : ((List.range 7).map fun n => (closedLoop (implicitSimplex (pointEuler 1)) (pointEuler 1) (fun _ => 1 / 2) (fun _ => [1]) [-5, 1]
    (dockISObj (A := Unit) (0 : ℚ) 2) n).map fun p => p.1) =
    [some [-5, 1], some [-9 / 2, 3 / 2], some [-15 / 4, 2], some [-11 / 4, 3 / 2], some [-2, 1], some [-3 / 2, 3 / 2],
      some [-3 / 4, 1]] := by
  decide +kernel

/-- **C53 is false for the implicit switching filter at higher speeds**: with the default window 2, step 1, from position -60 with
velocity 10 and desired control 0. Braking from the start would keep the position below zero forever, yet the filtered
run collides: after 8 steps the position is positive. -/
theorem C53_refuted_implicit_window :
    (∀ k, ((backupIter (pointEuler 1) 1 (fun _ _ => [-1]) (fun _ _ => .none))^[k] ([-60, 10], CState.none (A := Unit))).1.getD 0 0 ≤ (0 : ℚ)) ∧
    ((closedLoop (implicitSimplex (pointEuler 1)) (pointEuler 1) (fun _ => 1) (fun _ => [0]) [-60, 10]
      (dockISObj (A := Unit) (0 : ℚ) 2) 8).map fun p => decide (0 < p.1.getD 0 0)) = some true := by
  constructor
  · intro k
    rw [(euler_iter (1 : ℚ) [-60, 10] CState.none k).1]
    simp only [List.getD_cons_zero, List.getD_cons_succ]
    nlinarith [sq_nonneg ((k : ℚ) - 21 / 2)]
  · decide +kernel

end

/-! ### C52 -/

/-- The constructed explicit optimisation module. -/
noncomputable def dockEOObj (epsilon : ℝ) (exc : Bool) : ASIFObj ℝ (List ℝ) Unit Unit :=
  { toBase := Base.init (some (.scalar 1)) (some (.scalar (-1)))
    constraints := [("rel_vel", dockExplicitC)], params := [("rel_vel", ())], constraintEnabled := [("rel_vel", true)], constraintValues := []
    isStaleConstraints := false
    ext := { epsilon := epsilon, controlDim := 1, solverException := exc, numSlack := 0
             objWeight := [1], constraintNames := ["u1_min", "u1_max", "rel_vel"]
             actuation := [⟨[1], -1⟩, ⟨[-1], -1⟩]
             direct := [], directParams := [], directEnabled := [], causing := none, extra := () } }

theorem dockEO_init (epsilon : ℝ) (exc : Bool) : dockExplicitASIF epsilon exc = .ok (dockEOObj epsilon exc) := rfl

theorem dockEO_module (solver : Solver ℝ) (m epsilon : ℝ) (exc : Bool) :
    ExplicitModule solver pointF (pointG m) (dockEOObj epsilon exc) :=
  ⟨_, _, _, _, _, _, _, _, _, _, [], by simp [dictKeys], by simp [dictKeys], dockEO_init epsilon exc, rfl⟩

theorem dockEO_shapes (m epsilon : ℝ) (exc : Bool) (x : List ℝ) : ShapesOK pointF (pointG m) (dockEOObj epsilon exc) x :=
  ⟨by simp [dockEOObj, dockExplicitC, Constraint.mk'], by simp [dockEOObj, dockExplicitC, Constraint.mk', pointF, pointA, matVec],
    by simp [pointG, pointB, pointF, pointA, matVec], by simp [pointG, pointB, dockEOObj], by simp [dockEOObj]⟩

theorem dockEO_noslack (epsilon : ℝ) (exc : Bool) : slackScales (dockEOObj epsilon exc).constraints = [] := by
  simp [dockEOObj, slackScales, dockExplicitC, Constraint.mk']

theorem dockEO_pos (epsilon : ℝ) (exc : Bool) : ScalesPos (dockEOObj epsilon exc).constraints := by
  intro w hw; rw [dockEO_noslack] at hw; simp at hw

theorem dockEO_barrier (m p v u : ℝ) (h : 0 ≤ -2 * p - v ^ 2) :
    BarrierOK pointF (pointG m) dockExplicitC [p, v] [u] 0 ↔
      0 ≤ -2 * v - 2 * v * (u / m) + ((-2 * p - v ^ 2) + 30 * (-2 * p - v ^ 2) ^ 3) := by
  have e : barrierValue pointF (pointG m) dockExplicitC [p, v] [u] =
      some (-2 * v - 2 * v * (u / m) + ((-2 * p - v ^ 2) + 30 * (-2 * p - v ^ 2) ^ 3)) := by
    simp only [barrierValue, dockExplicitC, Constraint.mk', Option.map_some, strengthening, List.getD_cons_zero, List.getD_cons_succ,
      add_zero, if_pos h, Option.some.injEq, pointF, pointG, pointA, pointB, matVec, vadd, List.map_cons, List.map_nil,
      List.zipWith_cons_cons, List.zipWith_nil_right, dot_cons, dot_nil_left, polyAlpha, polyLoop]
    ring
  unfold BarrierOK
  rw [e]
  simp

theorem dock_within (u : ℝ) : Within (some (.scalar (-1))) (some (.scalar 1)) [u] ↔ -1 ≤ u ∧ u ≤ 1 := by
  constructor
  · intro h
    obtain ⟨h1, h2⟩ := h 0 u rfl
    exact ⟨h1 _ rfl, h2 _ rfl⟩
  · rintro ⟨h1, h2⟩ i v hv
    cases i with
    | zero =>
      simp only [List.getElem?_cons_zero, Option.some.injEq] at hv
      subst hv
      refine ⟨fun b hb => ?_, fun b hb => ?_⟩
      · simp only [boundAt, Option.some.injEq] at hb; linarith
      · simp only [boundAt, Option.some.injEq] at hb; linarith
    | succ i => simp at hv

theorem dockEO_admissible (m epsilon : ℝ) (exc : Bool) (p v : ℝ) (h : 0 ≤ -2 * p - v ^ 2) (w : List ℝ) :
    Admissible pointF (pointG m) (dockEOObj epsilon exc) [p, v] w ↔
      ∃ u, w = [u] ∧ (-1 ≤ u ∧ u ≤ 1) ∧ 0 ≤ -2 * v - 2 * v * (u / m) + ((-2 * p - v ^ 2) + 30 * (-2 * p - v ^ 2) ^ 3) := by
  constructor
  · intro ha
    obtain ⟨u, rfl⟩ := List.length_eq_one_iff.1 (show w.length = 1 from ha.len)
    exact ⟨u, rfl, (dock_within u).1 ha.bounds, (dockEO_barrier m p v u h).1 (ha.barrier ("rel_vel", dockExplicitC) (by simp [dockEOObj]) rfl)⟩
  · rintro ⟨u, rfl, h1, h2⟩
    refine ⟨rfl, (dock_within u).2 h1, ?_, by simp [dockEOObj]⟩
    intro kc hkc _
    simp only [dockEOObj, List.mem_singleton] at hkc
    subst hkc
    exact (dockEO_barrier m p v u h).2 h2

theorem dockEO_feasible {m : ℝ} (hm0 : 0 < m) (hm : m ≤ 1) (epsilon : ℝ) (exc : Bool) {p v : ℝ} (h : 0 ≤ -2 * p - v ^ 2) :
    ∃ w, Admissible pointF (pointG m) (dockEOObj epsilon exc) [p, v] w := by
  have h3 : 0 ≤ 30 * (-2 * p - v ^ 2) ^ 3 := by positivity
  have hinv : 1 ≤ 1 / m := by rw [le_div_iff₀ hm0]; linarith
  rcases le_total 0 v with hv | hv
  · refine ⟨[-1], (dockEO_admissible m epsilon exc p v h _).2 ⟨-1, rfl, by norm_num, ?_⟩⟩
    have : v * 1 ≤ v * (1 / m) := mul_le_mul_of_nonneg_left hinv hv
    have e : (-1 : ℝ) / m = -(1 / m) := by ring
    rw [e]
    nlinarith
  · refine ⟨[0], (dockEO_admissible m epsilon exc p v h _).2 ⟨0, rfl, by norm_num, ?_⟩⟩
    rw [zero_div]
    nlinarith

/-- **C52**. With the default bounds and mass at most 1 (the default is 1), at every state in the safe set full braking is admissible;
hence for every desired control the call returns the admissible control closest to it, whatever the solver. -/
theorem C52_solvable {solver : Solver ℝ} (hspec : SolverSpec solver) {m : ℝ} (hm0 : 0 < m) (hm : m ≤ 1) (epsilon : ℝ) (exc : Bool)
    {p v : ℝ} (h : 0 ≤ -2 * p - v ^ 2) (dt u : ℝ) :
    ∃ (w : ℝ) (s' : ASIFObj ℝ (List ℝ) Unit Unit), explicitASIF solver pointF (pointG m) (dockEOObj epsilon exc) (.array [p, v]) dt [u] = (.ok [w], s') ∧
      -1 ≤ w ∧ w ≤ 1 ∧ 0 ≤ -2 * v - 2 * v * (w / m) + ((-2 * p - v ^ 2) + 30 * (-2 * p - v ^ 2) ^ 3) ∧
      ∀ w', -1 ≤ w' → w' ≤ 1 → 0 ≤ -2 * v - 2 * v * (w' / m) + ((-2 * p - v ^ 2) + 30 * (-2 * p - v ^ 2) ^ 3) →
        |w - u| ≤ |w' - u| := by
  have hadm := dockEO_feasible hm0 hm epsilon exc h
  obtain ⟨w, hw⟩ := id hadm
  obtain ⟨r, hr⟩ := C24_returns hspec (dockEO_module solver m epsilon exc) (dockEO_pos epsilon exc) rfl [p, v] (dockEO_shapes m epsilon exc _)
    dt [u] rfl ⟨w, _, admissible_iff_zeros.1 hw⟩
  have hcall : explicitASIF solver pointF (pointG m) (dockEOObj epsilon exc) (.array [p, v]) dt [u] =
    (.ok r, (explicitASIF solver pointF (pointG m) (dockEOObj epsilon exc) (.array [p, v]) dt [u]).2) := Prod.ext hr rfl
  obtain ⟨hra, hmin⟩ := C24_closest_admissible hspec (dockEO_module solver m epsilon exc) (dockEO_noslack epsilon exc) rfl [p, v] dt [u] r hcall
    hadm
  obtain ⟨a, rfl, ⟨ha1, ha2⟩, hb⟩ := (dockEO_admissible m epsilon exc p v h r).1 hra
  refine ⟨a, _, hcall, ha1, ha2, hb, fun w' h1 h2 h3 => ?_⟩
  by_cases hne : w' = a
  · rw [hne]
  · have := hmin [w'] ((dockEO_admissible m epsilon exc p v h _).2 ⟨w', rfl, ⟨h1, h2⟩, h3⟩) (by simpa using hne)
    simp only [sqDist, vsub, sqNorm, List.zipWith_cons_cons, List.zipWith_nil_right, dot_cons, dot_nil_left, add_zero] at this
    exact sq_le_sq.1 (by nlinarith)

/-- **C52 is false for heavier vehicles**: the constraint does not take the mass into account. At position -1/2 and velocity 1 a vehicle of
any mass above 1 has no admissible control, so the module falls back to the clipped desired control (or raises). -/
theorem C52_refuted_heavy {solver : Solver ℝ} (hspec : SolverSpec solver) {m : ℝ} (hm : 1 < m) (epsilon : ℝ) (dt : ℝ) :
    (0 : ℝ) ≤ -2 * (-1 / 2) - 1 ^ 2 ∧
    (¬ ∃ w, Admissible pointF (pointG m) (dockEOObj epsilon false) [-1 / 2, 1] w) ∧
    (explicitASIF solver pointF (pointG m) (dockEOObj epsilon false) (.array [-1 / 2, 1]) dt [1]).1 = .ok [1] ∧
    (explicitASIF solver pointF (pointG m) (dockEOObj epsilon true) (.array [-1 / 2, 1]) dt [1]).1 = .error .solverError := by
  have h : (0 : ℝ) ≤ -2 * (-1 / 2) - 1 ^ 2 := by norm_num
  have hno : ∀ exc, ¬ ∃ w, Admissible pointF (pointG m) (dockEOObj epsilon exc) [-1 / 2, 1] w := by
    rintro exc ⟨w, hw⟩
    obtain ⟨u, -, ⟨hu, -⟩, hb⟩ := (dockEO_admissible m epsilon exc _ _ h w).1 hw
    have h1 : (-1 : ℝ) < u / m := by
      rw [lt_div_iff₀ (by linarith)]; linarith
    norm_num at hb
    linarith
  have hno' : ∀ exc, ¬ ∃ w d, AdmissibleS pointF (pointG m) (dockEOObj epsilon exc) [-1 / 2, 1] w d := by
    rintro exc ⟨w, d, hw⟩
    exact hno exc ⟨w, ((admissibleS_noslack (dockEO_noslack epsilon exc)).1 hw).2⟩
  refine ⟨h, hno false, ?_, ?_⟩
  · rw [C27_infeasible_policy hspec (dockEO_module solver m epsilon false) (dockEO_pos epsilon false) rfl _ (dockEO_shapes m epsilon false _) dt [1] rfl
      (hno' false)]
    have e : (dockEOObj epsilon false).ext.solverException = false := rfl
    rw [e]
    exact dock_clip (K := ℝ) (dockEOObj epsilon false).toBase rfl rfl 1 (by norm_num) le_rfl
  · rw [C27_infeasible_policy hspec (dockEO_module solver m epsilon true) (dockEO_pos epsilon true) rfl _ (dockEO_shapes m epsilon true _) dt [1] rfl
      (hno' true)]
    rfl

open Set in
theorem dock_gradient : IsGradientOn univ 2 (fun x => (dockExplicitC (K := ℝ)).computeFn x (dockExplicitC (K := ℝ)).params)
    (fun x => (dockExplicitC (K := ℝ)).gradFn x (dockExplicitC (K := ℝ)).params) where
  cont T γ _ hγ := by
    simp only [dockExplicitC, Constraint.mk']
    exact (continuousOn_const.mul (hγ 0 (by decide))).sub ((hγ 1 (by decide)).pow 2)
  deriv T γ v t _ _ hv hd := by
    have h := ((hd 0 (by decide)).const_mul (-2)).sub ((hd 1 (by decide)).pow 2)
    simp only [dockExplicitC, Constraint.mk']
    refine h.congr_deriv ?_
    match v, hv with
    | [a, b], _ =>
      simp only [List.getD_cons_zero, List.getD_cons_succ, dot_cons, dot_nil_left]
      ring

theorem dock_classK : ClassKCoefs ([0, 1, 0, 30] : List ℝ) := by
  refine ⟨?_, 1, 1, rfl, by norm_num⟩
  intro i c hc
  match i with
  | 0 => simp only [List.getElem?_cons_zero, Option.some.injEq] at hc; subst hc; exact ⟨fun _ => rfl, le_rfl⟩
  | 1 => simp at hc; subst hc; exact ⟨fun h => absurd h (by decide), by norm_num⟩
  | 2 => simp at hc; subst hc; exact ⟨fun _ => rfl, le_rfl⟩
  | 3 => simp at hc; subst hc; exact ⟨fun h => absurd h (by decide), by norm_num⟩
  | i + 4 => simp at hc

open Set in
/-- **C60, from the interior of the safe set**: a vehicle of mass at most 1 that at every time applies the control the filter returns for its
current state and some desired control, starting with `-2 x - v² > 0`, keeps `-2 x - v² > 0`; its position stays below zero.
What is missing from the property: starts on the boundary of the safe set (`C60_refuted_boundary`). -/
theorem C60_interior_partial {solver : Solver ℝ} (hspec : SolverSpec solver) {m : ℝ} (hm0 : 0 < m) (hm : m ≤ 1) (epsilon : ℝ) (exc : Bool)
    {x u : ℝ → List ℝ} (htraj : Trajectory univ 2 pointF (pointG m) x u)
    (hloop : ∀ t, 0 ≤ t → ∃ (dt : ℝ) (uDes : List ℝ), (explicitASIF solver pointF (pointG m) (dockEOObj epsilon exc) (.array (x t)) dt uDes).1 = .ok (u t))
    (h0 : 0 < -2 * (x 0).getD 0 0 - (x 0).getD 1 0 ^ 2) (t : ℝ) (ht : 0 ≤ t) :
    0 < -2 * (x t).getD 0 0 - (x t).getD 1 0 ^ 2 ∧ (x t).getD 0 0 < 0 := by
  have hval : ∀ y : List ℝ, (dockExplicitC (K := ℝ)).value y = -2 * y.getD 0 0 - y.getD 1 0 ^ 2 := by
    intro y; simp [Constraint.value, dockExplicitC, Constraint.mk']
  have key := C31_asif_loop_inside (X := Unit) hspec (cs := [("rel_vel", dockExplicitC)]) (x := x) (u := u)
    (by intro kc hkc; rw [List.mem_singleton] at hkc; subst hkc; exact dock_gradient) htraj (fun _ => [0, 1, 0, 30])
    (by intro kc hkc; rw [List.mem_singleton] at hkc; subst hkc; exact ⟨rfl, dock_classK⟩)
    (by intro kc hkc; rw [List.mem_singleton] at hkc; subst hkc; rfl)
    (by intro kc hkc; rw [List.mem_singleton] at hkc; subst hkc; rfl)
    (by
      intro t ht
      obtain ⟨dt, uDes, hc⟩ := hloop t ht
      refine ⟨dockEOObj epsilon exc, _, dt, uDes, dockEO_module solver m epsilon exc, dockEO_pos epsilon exc, rfl, fun kc hkc => hkc, fun hpos => ?_,
        Prod.ext hc rfl⟩
      have hp := hpos ("rel_vel", dockExplicitC) (by simp)
      rw [hval] at hp
      obtain ⟨p, v, e⟩ := List.length_eq_two.1 (htraj.curve t ht).2
      rw [e] at hp ⊢
      obtain ⟨w, hw⟩ := dockEO_feasible hm0 hm epsilon exc (p := p) (v := v) hp.le
      exact ⟨w, _, admissible_iff_zeros.1 hw⟩)
    (by intro kc hkc; rw [List.mem_singleton] at hkc; subst hkc; rw [hval]; exact h0) t ht ("rel_vel", dockExplicitC) (by simp)
  rw [hval] at key
  refine ⟨key, ?_⟩
  nlinarith [sq_nonneg ((x t).getD 1 0)]

theorem dockEO_infeasible (epsilon : ℝ) (exc : Bool) {p v : ℝ} (h : -2 * p - v ^ 2 < 0) (hv : 0 ≤ v) :
    ¬ ∃ w d, AdmissibleS pointF (pointG 1) (dockEOObj epsilon exc) [p, v] w d := by
  rintro ⟨w, d, hw⟩
  obtain ⟨-, ha⟩ := (admissibleS_noslack (dockEO_noslack epsilon exc)).1 hw
  obtain ⟨u, rfl⟩ := List.length_eq_one_iff.1 (show w.length = 1 from ha.len)
  obtain ⟨hu, -⟩ := (dock_within u).1 ha.bounds
  obtain ⟨q, hq, hq0⟩ := ha.barrier ("rel_vel", dockExplicitC) (by simp [dockEOObj]) rfl
  have e : barrierValue pointF (pointG 1) dockExplicitC [p, v] [u] =
      some (-2 * v - 2 * v * u + (10 * ((-2 * p - v ^ 2) + 30 * (-2 * p - v ^ 2) ^ 3) - 1 / 100)) := by
    simp only [barrierValue, dockExplicitC, Constraint.mk', Option.map_some, strengthening, List.getD_cons_zero, List.getD_cons_succ,
      add_zero, if_neg (not_le.2 h), Option.some.injEq, pointF, pointG, pointA, pointB, matVec, vadd, List.map_cons, List.map_nil,
      List.zipWith_cons_cons, List.zipWith_nil_right, dot_cons, dot_nil_left, polyAlpha, polyLoop]
    ring
  simp only [e, Option.some.injEq] at hq
  have h3 : (-2 * p - v ^ 2) ^ 3 < 0 := by
    have : 0 < (-2 * p - v ^ 2) ^ 2 := sq_pos_of_neg h
    nlinarith
  have : 0 ≤ v * (1 + u) := mul_nonneg hv (by linarith)
  linarith

open Set in
/-- **C60 is false on the boundary of the safe set**: there is a trajectory of the unit mass in closed loop with the module — at every time
the control is what the module returns for the current state and desired control — that starts with `-2 x - v² = 0` and
reaches positive positions. Off the safe set no control is admissible and the module passes the desired control on. -/
theorem C60_refuted_boundary {solver : Solver ℝ} (hspec : SolverSpec solver) (epsilon : ℝ) (heps : 0 ≤ epsilon) (dt : ℝ) :
    ∃ x u : ℝ → List ℝ, Trajectory univ 2 pointF (pointG 1) x u ∧
      (∀ t, 0 ≤ t → (explicitASIF solver pointF (pointG 1) (dockEOObj epsilon false) (.array (x t)) dt (u t)).1 = .ok (u t)) ∧
      0 ≤ -2 * (x 0).getD 0 0 - (x 0).getD 1 0 ^ 2 ∧ ∃ t, 0 ≤ t ∧ 0 < (x t).getD 0 0 := by
  have hd1 : ∀ t : ℝ, 0 ≤ t → HasDerivAt (fun s : ℝ => -1 / 2 + Real.log (1 + s)) (1 / (1 + t)) t := by
    intro t ht
    have h1 : HasDerivAt (fun s : ℝ => 1 + s) 1 t := (hasDerivAt_id t).const_add 1
    exact (h1.log (by positivity)).const_add _
  have hd2 : ∀ t : ℝ, 0 ≤ t → HasDerivAt (fun s : ℝ => 1 / (1 + s)) (-(1 / (1 + t) ^ 2)) t := by
    intro t ht
    have h1 : HasDerivAt (fun s : ℝ => 1 + s) 1 t := (hasDerivAt_id t).const_add 1
    have := h1.inv (by positivity)
    simp only [one_div]
    refine this.congr_deriv ?_
    rw [neg_div, one_div]
  have hlog : ∀ t : ℝ, 0 < t → -2 * (-1 / 2 + Real.log (1 + t)) - (1 / (1 + t)) ^ 2 < 0 := by
    intro t ht
    have hpos : 0 < (1 + t)⁻¹ := by positivity
    have hne : (1 + t)⁻¹ ^ 2 ≠ 1 := by
      have : (1 + t)⁻¹ < 1 := inv_lt_one_of_one_lt₀ (by linarith)
      intro h; nlinarith
    have h := Real.log_lt_sub_one_of_pos (pow_pos hpos 2) hne
    rw [Real.log_pow, Real.log_inv] at h
    rw [one_div]
    push_cast at h
    linarith
  refine ⟨fun t => [-1 / 2 + Real.log (1 + t), 1 / (1 + t)], fun t => [-(1 / (1 + t) ^ 2)], ⟨fun t _ => ⟨mem_univ _, rfl⟩, ?_, fun t _ => rfl, ?_⟩,
    ?_, by norm_num, ?_⟩
  · intro i hi t ht
    match i, hi with
    | 0, _ => exact (hd1 t ht).continuousAt.continuousWithinAt
    | 1, _ => exact (hd2 t ht).continuousAt.continuousWithinAt
  · intro t ht i hi
    match i, hi with
    | 0, _ =>
      refine (hd1 t ht).hasDerivWithinAt.congr_deriv ?_
      simp [pointF, pointG, pointA, pointB, matVec, vadd]
    | 1, _ =>
      refine (hd2 t ht).hasDerivWithinAt.congr_deriv ?_
      simp [pointF, pointG, pointA, pointB, matVec, vadd]
  · intro t ht
    have hb1 : -1 ≤ -(1 / (1 + t) ^ 2) := by
      have : 1 / (1 + t) ^ 2 ≤ 1 := by rw [div_le_one (by positivity)]; nlinarith
      linarith
    have hb2 : -(1 / (1 + t) ^ 2) ≤ 1 := by
      have : 0 ≤ 1 / (1 + t) ^ 2 := by positivity
      linarith
    rcases ht.eq_or_lt with rfl | ht
    · refine (C25_no_interference hspec (dockEO_module solver 1 epsilon false) (dockEO_pos epsilon false) heps rfl _
        (dockEO_shapes 1 epsilon false _) dt _ ?_).1
      refine (dockEO_admissible 1 epsilon false _ _ (by norm_num) _).2 ⟨_, rfl, ⟨hb1, hb2⟩, by norm_num⟩
    · rw [C27_infeasible_policy hspec (dockEO_module solver 1 epsilon false) (dockEO_pos epsilon false) rfl _ (dockEO_shapes 1 epsilon false _) dt _ rfl
        (dockEO_infeasible epsilon false (hlog t ht) (by positivity))]
      have e : (dockEOObj epsilon false).ext.solverException = false := rfl
      rw [e]
      exact dock_clip (K := ℝ) (dockEOObj epsilon false).toBase rfl rfl _ hb1 hb2
  · refine ⟨Real.exp 1 - 1, by have := Real.add_one_le_exp (1 : ℝ); linarith, ?_⟩
    simp only [List.getD_cons_zero]
    rw [show (1 : ℝ) + (Real.exp 1 - 1) = Real.exp 1 by ring, Real.log_exp]
    norm_num

end RTA
