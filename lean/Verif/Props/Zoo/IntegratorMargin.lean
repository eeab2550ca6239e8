import Verif.Props.SimplexMargin
import Verif.Props.Zoo.Integrator

/-!
C125: the explicit switching filter of the one-dimensional docking example with its default Euler prediction, on the true point mass.

`C53_explicit_exact_partial` needs the exact prediction and speaks of the sampling instants only; `C53_refuted_between_samples` shows a collision between
them. A bias of `-17/16 dt²` repairs both: the Euler prediction is wrong by at most `dt²` in the constraint, and between two instants the constraint
dips by at most `dt²/16`. Rounding and state estimates are allowed for by a further `η`.
-/
namespace RTA

section
variable {K S P A T : Type}

/-- Along a run of an explicit switching module what was set at construction stays as it is. -/
theorem noisy_frame [AddCommGroup K] [LinearOrder K] {pred : S → K → List K → S} {plant : T → K → List K → T → Prop} {sees : T → S → Prop}
    {dts : Nat → K} {us : Nat → List K} {N : Nat} {y : Nat → T} {e : Nat → S} {s : Nat → SimplexObj K S P A} {c : Nat → List K}
    (hrun : NoisyRun (explicitSimplex pred) plant sees dts us N y e s c) (hwf : WF (s 0)) (hen : (s 0).enable = true) (n : Nat) (hn : n ≤ N) :
    WF (s n) ∧ (s n).enable = true ∧ (s n).constraints = (s 0).constraints ∧
      (s n).controlBoundsHigh = (s 0).controlBoundsHigh ∧ (s n).controlBoundsLow = (s 0).controlBoundsLow ∧
      (s n).ext.ctrl.gen = (s 0).ext.ctrl.gen := by
  induction n with
  | zero => exact ⟨hwf, hen, rfl, rfl, rfl, rfl⟩
  | succ n ih =>
    have hn' : n < N := hn
    obtain ⟨hw, he, hcs, hhi, hlo, hgen⟩ := ih hn'.le
    have hcall := hrun.call n hn'
    have hw' : WF (s (n + 1)) := by
      have := (filterControlCB_frame frame_getStateDefault (frameFilter_simplex (monFrame_explicit pred)) (s n) (.array (e n))
        (dts n) (us n)).2 hw
      unfold explicitSimplex at hcall
      rwa [hcall] at this
    obtain ⟨⟨he', hcs', hhi', hlo'⟩, hd⟩ := simplex_ok (monFrame_explicit pred) he hcall
    have hgen' : (s (n + 1)).ext.ctrl.gen = (s n).ext.ctrl.gen := by
      rcases hd with ⟨_, _, z, _, hext⟩ | ⟨_, b, sm, sv, _, _, ⟨_, z, _, hext⟩ | ⟨_, _, hext⟩⟩ <;> rw [hext]
    exact ⟨hw', he', hcs'.trans hcs, hhi'.trans hhi, hlo'.trans hlo, hgen'.trans hgen⟩

/-- Each control applied along such a run is the desired control or a control of the backup law, clipped. -/
theorem noisy_control [AddCommGroup K] [LinearOrder K] {pred : S → K → List K → S} {plant : T → K → List K → T → Prop} {sees : T → S → Prop}
    {dts : Nat → K} {us : Nat → List K} {N : Nat} {y : Nat → T} {e : Nat → S} {s : Nat → SimplexObj K S P A} {c : Nat → List K}
    (hrun : NoisyRun (explicitSimplex pred) plant sees dts us N y e s c) (hwf : WF (s 0)) (hen : (s 0).enable = true) (n : Nat) (hn : n < N) :
    (s 0).toBase.clipControl (us n) = .ok (c n) ∨
      ∃ z ub z', (s 0).ext.ctrl.gen (e n) (dts n) z = some (ub, z') ∧ (s 0).toBase.clipControl ub = .ok (c n) := by
  obtain ⟨-, he, -, hhi, hlo, hgen⟩ := noisy_frame hrun hwf hen n hn.le
  have hclip : ∀ u, (s n).toBase.clipControl u = (s 0).toBase.clipControl u := by
    intro u; unfold Base.clipControl; rw [hhi, hlo]
  rcases C28_simplex_intervening_truthful (monFrame_explicit pred) (s n) (s (n + 1)) he (e n) (dts n) (us n) (c n) (hrun.call n hn) with
    ⟨-, z, ⟨ub, hg, hc⟩, -⟩ | ⟨-, h, -⟩
  · exact .inr ⟨_, ub, z, by rw [← hgen]; exact hg, by rw [← hclip]; exact hc⟩
  · exact .inl (by rw [← hclip]; exact h)

end

section
variable {K A T : Type} [Field K] [LinearOrder K] [IsStrictOrderedRing K]

/-- The explicit switching module of the example, with a bias, and with a constraint evaluated by the function `comp` (which may round). -/
def dockESBiased (comp : List K → K) (b latchTime : K) : SimplexObj K (List K) Unit A :=
  { dockESObj latchTime with constraints := [("rel_vel", { dockExplicitC with computeFn := fun x _ => comp x, bias := b })] }

/-- The constraint `-2 x - v²` of the example, exactly. -/
def dockVal (x : List K) : K := -2 * x.getD 0 0 - x.getD 1 0 ^ 2

/-- Under constant acceleration the constraint value between two instants is at most `dt²/16` below the straight line between its values there. -/
theorem dock_dip (x : List K) (dt a l : K) (hl0 : 0 ≤ l) (hl1 : l ≤ 1) :
    (1 - l) * dockVal x + l * dockVal (pointExact 1 x dt [a]) - dt ^ 2 / 16 ≤ dockVal (pointExact 1 x (l * dt) [a]) := by
  have e : dockVal (pointExact 1 x (l * dt) [a]) - ((1 - l) * dockVal x + l * dockVal (pointExact 1 x dt [a])) =
      (1 + a) * a * (l * (1 - l)) * dt ^ 2 := by
    simp only [dockVal, pointExact, List.getD_cons_zero, List.getD_cons_succ, div_one]
    ring
  have h1 : -(1 / 4) ≤ (1 + a) * a := by nlinarith [sq_nonneg (2 * a + 1)]
  have h2 : 0 ≤ l * (1 - l) := mul_nonneg hl0 (by linarith)
  have h3 : l * (1 - l) ≤ 1 / 4 := by nlinarith [sq_nonneg (2 * l - 1)]
  have h4 : -(1 / 16) ≤ (1 + a) * a * (l * (1 - l)) := by nlinarith
  have h5 := mul_le_mul_of_nonneg_right h4 (sq_nonneg dt)
  linarith

/-- **C125**. The explicit switching module for the one-dimensional docking example on the true point mass, called every `dt`, with a prediction and a
constraint value that are, taken together, within `η` of the Euler prediction and the constraint (`hη`; `sees` says which estimates may occur with
which states), and a bias of at most `-(17/16 dt² + η)`. From a state with `-2 x - v² ≥ dt²/16`, whatever controls are desired within the bounds and
whatever the latch time, `-2 x - v² ≥ 0` and the position is at most zero at all times: at the instants and between them. -/
theorem C125_dock (pred : List K → K → List K → List K) (comp : List K → K) (sees : List K → List K → Prop) (b latchTime dt η : K)
    (hb : b ≤ -(17 / 16 * dt ^ 2 + η))
    (hη : ∀ x e a, sees x e → -1 ≤ a → a ≤ 1 → comp (pred e dt [a]) ≤ dockVal (pointEuler 1 x dt [a]) + η)
    (as : Nat → K) (has : ∀ n, -1 ≤ as n ∧ as n ≤ 1) (N : Nat) (y e : Nat → List K) (s : Nat → SimplexObj K (List K) Unit A) (c : Nat → List K)
    (hs : s 0 = dockESBiased comp b latchTime)
    (hrun : NoisyRun (explicitSimplex pred) (fun x h u x' => x' = pointExact 1 x h u) sees (fun _ => dt) (fun n => [as n]) N y e s c)
    (h0 : dt ^ 2 / 16 ≤ dockVal (y 0)) :
    (∀ n ≤ N, dt ^ 2 / 16 ≤ dockVal (y n)) ∧
    ∀ n < N, ∀ l, 0 ≤ l → l ≤ 1 →
      0 ≤ dockVal (pointExact 1 (y n) (l * dt) (c n)) ∧ (pointExact 1 (y n) (l * dt) (c n)).getD 0 0 ≤ 0 := by
  have hwf : WF (s 0) := by
    rw [hs]; exact ⟨by simp [dockESBiased, dictKeys], rfl, rfl⟩
  have hen : (s 0).enable = true := by rw [hs]; rfl
  have hclip : ∀ a, -1 ≤ a → a ≤ 1 → (s 0).toBase.clipControl [a] = .ok [a] := by
    intro a h1 h2
    rw [hs]
    exact dock_clip _ rfl rfl a h1 h2
  have hgen : ∀ x z, (s 0).ext.ctrl.gen x dt z = some ([-1], .none) := by
    intro x z; rw [hs]; rfl
  have hneg : (-1 : K) ≤ 1 := by linarith [zero_lt_one' K]
  have hts : ∀ x : List K, TrueSafe (fun _ x => dockVal x - dt ^ 2 / 16) (s 0).constraints x ↔ dt ^ 2 / 16 ≤ dockVal x := by
    intro x
    rw [hs]
    simp [TrueSafe, dockESBiased, dockExplicitC, Constraint.mk']
  have hall : ∀ n ≤ N, dt ^ 2 / 16 ≤ dockVal (y n) := by
    intro n hn
    rw [← hts]
    refine C123_loop pred _ sees (fun _ x => dockVal x - dt ^ 2 / 16) (fun _ => 17 / 16 * dt ^ 2 + η) _ _ N y e s c hrun hwf hen
      (fun n _ => hclip _ (has n).1 (has n).2) ?_ ?_ ?_ ((hts _).2 h0) n hn
    · rw [hs]
      intro kc hkc _
      simp only [dockESBiased, List.mem_singleton] at hkc
      subst hkc
      exact hb
    · rintro n _ x e y' hxe rfl kc hkc _
      rw [hs] at hkc
      simp only [dockESBiased, List.mem_singleton] at hkc
      subst hkc
      have h1 := hη x e (as n) hxe (has n).1 (has n).2
      have h2 : dockVal (pointEuler 1 x dt [as n]) = dockVal (pointExact 1 x dt [as n]) + dt ^ 2 * as n := by
        simp only [dockVal, pointEuler, pointExact, List.getD_cons_zero, List.getD_cons_succ, div_one]
        ring
      have h3 : dt ^ 2 * as n ≤ dt ^ 2 * 1 := mul_le_mul_of_nonneg_left (has n).2 (sq_nonneg dt)
      simp only
      linarith
    · rintro n _ x e y' z ub z' cb hx - hg hc rfl
      rw [hgen] at hg
      simp only [Option.some.injEq, Prod.mk.injEq] at hg
      obtain ⟨rfl, -⟩ := hg
      rw [hclip _ le_rfl hneg] at hc
      obtain rfl : [-1] = cb := by simpa using hc
      rw [hts] at hx ⊢
      refine hx.trans (le_of_eq ?_)
      simp only [dockVal, pointExact, List.getD_cons_zero, List.getD_cons_succ, div_one]
      ring
  refine ⟨hall, fun n hn l hl0 hl1 => ?_⟩
  obtain ⟨a, hca⟩ : ∃ a, c n = [a] := by
    rcases noisy_control hrun hwf hen n hn with h | ⟨z, ub, z', hg, hc⟩
    · rw [hclip _ (has n).1 (has n).2] at h
      exact ⟨as n, by simpa using h.symm⟩
    · rw [hgen] at hg
      simp only [Option.some.injEq, Prod.mk.injEq] at hg
      obtain ⟨rfl, -⟩ := hg
      rw [hclip _ le_rfl hneg] at hc
      exact ⟨-1, by simpa using hc.symm⟩
  have h1 := dock_dip (y n) dt a l hl0 hl1
  have h2 : y (n + 1) = pointExact 1 (y n) dt [a] := by rw [← hca]; exact hrun.move n hn
  rw [← h2] at h1
  have h3 := mul_le_mul_of_nonneg_left (hall n hn.le) (sub_nonneg.2 hl1)
  have h4 := mul_le_mul_of_nonneg_left (hall (n + 1) hn) hl0
  rw [hca]
  have h5 : 0 ≤ dockVal (pointExact 1 (y n) (l * dt) [a]) := by linarith
  refine ⟨h5, ?_⟩
  unfold dockVal at h5
  nlinarith [sq_nonneg ((pointExact 1 (y n) (l * dt) [a]).getD 1 0)]

/-- **C125**, progress: such runs of any length exist from every state, for every prediction and every way of computing the constraint. -/
theorem C125_runs (pred : List K → K → List K → List K) (comp : List K → K) (b latchTime dt : K) (as : Nat → K)
    (has : ∀ n, -1 ≤ as n ∧ as n ≤ 1) (N : Nat) (x0 : List K) :
    ∃ (y : Nat → List K) (s : Nat → SimplexObj K (List K) Unit A) (c : Nat → List K), y 0 = x0 ∧ s 0 = dockESBiased comp b latchTime ∧
      NoisyRun (explicitSimplex pred) (fun x h u x' => x' = pointExact 1 x h u) (fun x e => e = x) (fun _ => dt) (fun n => [as n]) N y y s c := by
  have hneg : (-1 : K) ≤ 1 := by linarith [zero_lt_one' K]
  let S0 : SimplexObj K (List K) Unit A := dockESBiased comp b latchTime
  let ok : Except PyErr (List K) → List K := fun r => match r with | .ok c => c | .error _ => []
  let F : Nat → List K × SimplexObj K (List K) Unit A := fun n => Nat.rec (x0, S0) (fun n p =>
    (pointExact 1 p.1 dt (ok (explicitSimplex pred p.2 (.array p.1) dt [as n]).1), (explicitSimplex pred p.2 (.array p.1) dt [as n]).2)) n
  have key : ∀ n, WF (F n).2 ∧ (F n).2.enable = true ∧ (F n).2.controlBoundsHigh = some (.scalar 1) ∧
      (F n).2.controlBoundsLow = some (.scalar (-1)) ∧ (F n).2.ext.ctrl.gen = S0.ext.ctrl.gen := by
    intro n
    induction n with
    | zero => exact ⟨⟨by simp [F, S0, dockESBiased, dictKeys], rfl, rfl⟩, rfl, rfl, rfl, rfl⟩
    | succ n ih =>
      obtain ⟨hw, he, hh, hl, hg⟩ := ih
      obtain ⟨c, s', hc⟩ := C13_explicit_returns pred (F n).2 hw he (F n).1 dt [as n] [-1] [-1] [as n] .none (by rw [hg]; rfl)
        (dock_clip _ hh hl _ le_rfl hneg) (dock_clip _ hh hl _ (has n).1 (has n).2)
      have hF : (F (n + 1)).2 = s' := by
        show (explicitSimplex pred (F n).2 (.array (F n).1) dt [as n]).2 = s'
        rw [hc]
      rw [hF]
      have hw' : WF s' := by
        have := (filterControlCB_frame frame_getStateDefault (frameFilter_simplex (monFrame_explicit pred)) (F n).2 (.array (F n).1)
          dt [as n]).2 hw
        unfold explicitSimplex at hc
        rwa [hc] at this
      obtain ⟨⟨he', hcs', hhi', hlo'⟩, hd⟩ := simplex_ok (monFrame_explicit pred) he hc
      have hgen' : s'.ext.ctrl.gen = (F n).2.ext.ctrl.gen := by
        rcases hd with ⟨_, _, z, _, hext⟩ | ⟨_, b, sm, sv, _, _, ⟨_, z, _, hext⟩ | ⟨_, _, hext⟩⟩ <;> rw [hext]
      exact ⟨hw', he', hhi'.trans hh, hlo'.trans hl, hgen'.trans hg⟩
  refine ⟨fun n => (F n).1, fun n => (F n).2, fun n => ok (explicitSimplex pred (F n).2 (.array (F n).1) dt [as n]).1, rfl, rfl,
    fun _ _ => rfl, fun n _ => ?_, fun n _ => rfl⟩
  obtain ⟨hw, he, hh, hl, hg⟩ := key n
  obtain ⟨c, s', hc⟩ := C13_explicit_returns pred (F n).2 hw he (F n).1 dt [as n] [-1] [-1] [as n] .none (by rw [hg]; rfl)
    (dock_clip _ hh hl _ le_rfl hneg) (dock_clip _ hh hl _ (has n).1 (has n).2)
  have h1 : (F (n + 1)).2 = (explicitSimplex pred (F n).2 (.array (F n).1) dt [as n]).2 := rfl
  show explicitSimplex pred (F n).2 (.array (F n).1) dt [as n] = (.ok (ok (explicitSimplex pred (F n).2 (.array (F n).1) dt [as n]).1), (F (n + 1)).2)
  rw [h1, hc]

/-- C125 with the default settings otherwise: Euler prediction, exact arithmetic, one step per second, bias -17/16; the vehicle at `-2` at rest, asked to
accelerate for ever. -/
example (N : Nat) (y : Nat → List ℚ) (s : Nat → SimplexObj ℚ (List ℚ) Unit Unit) (c : Nat → List ℚ) (hy : y 0 = [-2, 0])
    (hs : s 0 = dockESBiased dockVal (-(17 / 16)) 0)
    (hrun : NoisyRun (explicitSimplex (pointEuler 1)) (fun x h u x' => x' = pointExact 1 x h u) (fun x e => e = x) (fun _ => 1) (fun _ => [1])
      N y y s c) (n : Nat) (hn : n < N) (l : ℚ) (h0 : 0 ≤ l) (h1 : l ≤ 1) : (pointExact 1 (y n) (l * 1) (c n)).getD 0 0 ≤ 0 :=
  ((C125_dock (pointEuler 1) dockVal _ (-(17 / 16)) 0 1 0 (by norm_num) (by rintro x e a rfl _ _; simp) (fun _ => 1) (fun _ => by norm_num) N y y s c
    hs hrun (by rw [hy]; norm_num [dockVal])).2 n hn l h0 h1).2

/-- **C125 needs the bias.** The module as it is constructed, without bias, with its default Euler prediction, on the true point mass: from rest at `-1/2`,
which is safe by far, the desired acceleration 1 is accepted, and a second later the vehicle is at the chief with velocity 1; the backup control cannot
prevent the collision. -/
theorem C125_refuted_without_bias :
    0 ≤ dockVal ([-1 / 2, 0] : List ℚ) ∧
    (closedLoop (explicitSimplex (pointEuler 1)) (pointExact 1) (fun _ => 1) (fun _ => [1]) [-1 / 2, 0] (dockESObj (A := Unit) (0 : ℚ)) 1).map
      (fun p => (p.1, p.2.intervening)) = some ([0, 1], false) ∧
    (closedLoop (explicitSimplex (pointEuler 1)) (pointExact 1) (fun _ => 1) (fun _ => [1]) [-1 / 2, 0] (dockESObj (A := Unit) (0 : ℚ)) 2).map
      (fun p => (p.1, p.2.intervening)) = some ([1 / 2, 0], true) := by
  refine ⟨by norm_num [dockVal], ?_, ?_⟩ <;> decide +kernel

end

end RTA
