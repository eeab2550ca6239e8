import Verif.Props.Zoo.IntegratorMargin

/-!
C126: the implicit switching filter of the one-dimensional docking example with its default Euler prediction, on the true point mass.
-/
namespace RTA
section
variable {K S P A T : Type}

/-- Each control applied along a run of a switching module is the desired control or a control of the backup law, clipped. -/
theorem noisy_switch [AddCommMonoid K] [LinearOrder K]
    {mon : SimplexObj K S P A → S → K → List K → Except PyErr Bool × SimplexObj K S P A} (hm : MonFrame mon)
    {plant : T → K → List K → T → Prop} {sees : T → S → Prop} {dts : Nat → K} {us : Nat → List K} {N : Nat} {y : Nat → T} {e : Nat → S}
    {s : Nat → SimplexObj K S P A} {c : Nat → List K}
    (hrun : NoisyRun (filterControlCB getStateDefault (simplexFilter mon)) plant sees dts us N y e s c) (hen : (s 0).enable = true) (n : Nat)
    (hn : n < N) :
    (s 0).toBase.clipControl (us n) = .ok (c n) ∨
      ∃ z ub z', (s 0).ext.ctrl.gen (e n) (dts n) z = some (ub, z') ∧ (s 0).toBase.clipControl ub = .ok (c n) := by
  have key : ∀ n ≤ N, (s n).enable = true ∧ (s n).controlBoundsHigh = (s 0).controlBoundsHigh ∧
      (s n).controlBoundsLow = (s 0).controlBoundsLow ∧ (s n).ext.ctrl.gen = (s 0).ext.ctrl.gen := by
    intro n hn
    induction n with
    | zero => exact ⟨hen, rfl, rfl, rfl⟩
    | succ n ih =>
      have hn' : n < N := hn
      obtain ⟨he, hhi, hlo, hgen⟩ := ih hn'.le
      obtain ⟨⟨he', -, hhi', hlo'⟩, hd⟩ := simplex_ok hm he (hrun.call n hn')
      have hgen' : (s (n + 1)).ext.ctrl.gen = (s n).ext.ctrl.gen := by
        rcases hd with ⟨_, _, z, _, hext⟩ | ⟨_, b, sm, sv, _, _, ⟨_, z, _, hext⟩ | ⟨_, _, hext⟩⟩ <;> rw [hext]
      exact ⟨he', hhi'.trans hhi, hlo'.trans hlo, hgen'.trans hgen⟩
  obtain ⟨he, hhi, hlo, hgen⟩ := key n hn.le
  have hclip : ∀ u, (s n).toBase.clipControl u = (s 0).toBase.clipControl u := by
    intro u; unfold Base.clipControl; rw [hhi, hlo]
  rcases C28_simplex_intervening_truthful hm (s n) (s (n + 1)) he (e n) (dts n) (us n) (c n) (hrun.call n hn) with
    ⟨-, z, ⟨ub, hg, hc⟩, -⟩ | ⟨-, h, -⟩
  · exact .inr ⟨_, ub, z, by rw [← hgen]; exact hg, by rw [← hclip]; exact hc⟩
  · exact .inl (by rw [← hclip]; exact h)

end

variable {K A : Type} [Field K] [LinearOrder K] [IsStrictOrderedRing K]

/-- The implicit switching module of the example, with a bias, and with a constraint evaluated by the function `comp` (which may round). -/
def dockISBiased (comp : List K → K) (b latchTime window : K) : SimplexObj K (List K) Unit A :=
  { dockISObj latchTime window with constraints := [("rel_vel", { dockImplicitC with computeFn := fun x _ => comp x, bias := b })] }

/-- Braking with acceleration -1 from now on has the position at or below `-m` at all instants `0`, `dt`, `2 dt`, .... -/
def BrakesAt (m dt : K) (x : List K) : Prop := ∀ j : Nat, x.getD 0 0 + (j * dt) * x.getD 1 0 - (j * dt) ^ 2 / 2 ≤ -m

/-- Between two instants the position is at most `dt²/8` above the straight line between its values there. -/
theorem dock_bulge (x : List K) (dt a l : K) (ha1 : -1 ≤ a) (hl0 : 0 ≤ l) (hl1 : l ≤ 1) :
    (pointExact 1 x (l * dt) [a]).getD 0 0 ≤
      (1 - l) * x.getD 0 0 + l * (pointExact 1 x dt [a]).getD 0 0 + dt ^ 2 / 8 := by
  have e : (pointExact 1 x (l * dt) [a]).getD 0 0 - ((1 - l) * x.getD 0 0 + l * (pointExact 1 x dt [a]).getD 0 0) =
      -a * (l * (1 - l)) * (dt ^ 2 / 2) := by
    simp only [pointExact, List.getD_cons_zero, div_one]
    ring
  have h2 : 0 ≤ l * (1 - l) := mul_nonneg hl0 (by linarith)
  have h3 : l * (1 - l) ≤ 1 / 4 := by nlinarith [sq_nonneg (2 * l - 1)]
  have h4 : -a * (l * (1 - l)) ≤ 1 / 4 := by nlinarith
  have h5 := mul_le_mul_of_nonneg_right h4 (show (0 : K) ≤ dt ^ 2 / 2 by positivity)
  linarith

section
variable [FloorRing K]

/-- **C126**. The implicit switching module for the one-dimensional docking example on the true point mass, called every `dt`, with predictions and
constraint values that are, taken together, within `η` of the Euler predictions and their positions (`hη`), and a bias of at most `-(m + η)`. From a
state from which braking has the position at or below `-m` at the instants, whatever controls are desired within the bounds and whatever the latch time,
the position is at most `-m` at the instants and at most `dt²/8 - m` between them, as long as the velocities met can be braked to zero within the backup
window (`hvel`), which is at least one step long. With `m = dt²/8` there is no collision at any time; with `m = 0` there is none at the instants. -/
theorem C126_dock (pred : List K → K → List K → List K) (comp : List K → K) (sees : List K → List K → Prop) (b latchTime window dt η m : K)
    (hdt : 0 < dt) (hwin : dt ≤ window) (hb : b ≤ -(m + η))
    (hη : ∀ x e a (z : CState A) (k : Nat), sees x e → -1 ≤ a → a ≤ 1 → (k : Int) ≤ ⌊window / dt⌋ →
      comp ((backupIter pred dt (fun _ _ => [-1]) (fun _ _ => .none))^[k] (pred e dt [a], z)).1 ≤
        -((backupIter (pointEuler 1) dt (fun _ _ => [-1]) (fun _ _ => .none))^[k] (pointEuler 1 x dt [a], z)).1.getD 0 0 + η)
    (as : Nat → K) (has : ∀ n, -1 ≤ as n ∧ as n ≤ 1) (N : Nat) (y e : Nat → List K) (s : Nat → SimplexObj K (List K) Unit A) (c : Nat → List K)
    (hs : s 0 = dockISBiased comp b latchTime window)
    (hrun : NoisyRun (implicitSimplex pred) (fun x h u x' => x' = pointExact 1 x h u) sees (fun _ => dt) (fun n => [as n]) N y e s c)
    (hvel : ∀ n ≤ N, (y n).getD 1 0 ≤ (⌊window / dt⌋ : K) * dt) (h0 : BrakesAt m dt (y 0)) :
    (∀ n ≤ N, (y n).getD 0 0 ≤ -m) ∧
    ∀ n < N, ∀ l, 0 ≤ l → l ≤ 1 → (pointExact 1 (y n) (l * dt) (c n)).getD 0 0 ≤ dt ^ 2 / 8 - m := by
  have hwf : WF (s 0) := by
    rw [hs]; exact ⟨by simp [dockISBiased, dictKeys], rfl, rfl⟩
  have hen : (s 0).enable = true := by rw [hs]; rfl
  have hclip : ∀ a, -1 ≤ a → a ≤ 1 → (s 0).toBase.clipControl [a] = .ok [a] := by
    intro a h1 h2
    rw [hs]
    exact dock_clip _ rfl rfl a h1 h2
  have hgen : ∀ x z, (s 0).ext.ctrl.gen x dt z = some ([-1], .none) := by
    intro x z; rw [hs]; rfl
  have hneg : (-1 : K) ≤ 1 := by linarith [zero_lt_one' K]
  have hw0 : (s 0).ext.backupWindow = window := by rw [hs]; rfl
  have hcs : (s 0).constraints = [("rel_vel", { dockImplicitC with computeFn := fun x _ => comp x, bias := b })] := by rw [hs]; rfl
  have hrec : ∀ x : List K, BrakesAt m dt x → x.getD 0 0 ≤ -m := by
    intro x h
    have := h 0
    simpa using this
  have hts : ∀ x : List K, TrueSafe (fun _ x => -x.getD 0 0 - m) (s 0).constraints x ↔ x.getD 0 0 ≤ -m := by
    intro x
    rw [hcs]
    simp only [TrueSafe, List.mem_singleton, forall_eq, dockImplicitC, Constraint.mk', forall_const]
    constructor <;> intro h <;> linarith
  -- the plant, with the velocities known to be met
  have hrun' : NoisyRun (implicitSimplex pred) (fun x h u x' => x' = pointExact 1 x h u ∧ x'.getD 1 0 ≤ (⌊window / dt⌋ : K) * dt) sees (fun _ => dt)
      (fun n => [as n]) N y e s c := ⟨hrun.est, hrun.call, fun n hn => ⟨hrun.move n hn, hvel (n + 1) hn⟩⟩
  have hall : ∀ n ≤ N, (y n).getD 0 0 ≤ -m := by
    intro n hn
    rw [← hts]
    refine C123_implicit_loop pred _ sees (fun _ x => -x.getD 0 0 - m) (fun x _ => BrakesAt m dt x) dt _ N y e s c hrun' hwf hen hdt
      (by rw [hw0]; exact hdt.le.trans hwin) (fun _ _ => [-1]) (fun _ _ => .none) (fun x z => ⟨[-1], hgen x z, hclip _ le_rfl hneg⟩)
      (fun n _ => hclip _ (has n).1 (has n).2) (fun x _ h => (hts x).2 (hrec x h)) ?_ ?_ h0 n hn
    · rintro x e z y' hx - ⟨rfl, -⟩ j
      have := hx (j + 1)
      simp only [pointExact, List.getD_cons_zero, List.getD_cons_succ, div_one]
      refine le_trans (le_of_eq ?_) this
      push_cast
      ring
    · rintro n _ x e z y' hx hxe ⟨rfl, hv⟩ hk j
      have hx0 := hrec x hx
      rw [hw0, hcs] at hk
      have hE : ∀ k : Nat, (k : Int) ≤ ⌊window / dt⌋ →
          x.getD 0 0 + dt * x.getD 1 0 + k * dt * (x.getD 1 0 + dt * as n) - dt ^ 2 * (k * (k - 1) / 2) ≤ -m := by
        intro k hkw
        have h1 := hk k hkw ("rel_vel", { dockImplicitC with computeFn := fun x _ => comp x, bias := b }) (by simp) rfl
        have h2 := hη x e (as n) z k hxe (has n).1 (has n).2 hkw
        rw [(euler_iter dt (pointEuler 1 x dt [as n]) z k).1] at h2
        simp only [pointEuler, List.getD_cons_zero, List.getD_cons_succ, div_one] at h2
        simp only at h1
        linarith
      have hfl : 1 ≤ ⌊window / dt⌋ := by
        rw [Int.le_floor, le_div_iff₀ hdt]
        simpa using hwin
      simp only [pointExact, List.getD_cons_zero, List.getD_cons_succ, div_one] at hv ⊢
      have ha := mul_le_mul_of_nonneg_left (has n).2 (sq_nonneg dt)
      -- the instants within the backup window
      have hin : ∀ k : Nat, 1 ≤ k → (k : Int) ≤ ⌊window / dt⌋ →
          x.getD 0 0 + dt * x.getD 1 0 + dt ^ 2 * as n / 2 + k * dt * (x.getD 1 0 + dt * as n) - (k * dt) ^ 2 / 2 ≤ -m := by
        intro k hk1 hkw
        have h1 := hE k hkw
        have hk2 : (1 : K) ≤ k := by exact_mod_cast hk1
        have h4 := mul_le_mul_of_nonneg_right hk2 (sq_nonneg dt)
        nlinarith
      rcases Nat.eq_zero_or_pos j with rfl | hj
      · have h1 := hE 1 (by simpa using hfl)
        simp only [Nat.cast_zero, Nat.cast_one] at h1 ⊢
        nlinarith
      · by_cases hjw : (j : Int) ≤ ⌊window / dt⌋
        · refine le_trans (le_of_eq ?_) (hin j hj hjw)
          ring
        · obtain ⟨k, hkc⟩ : ∃ k : Nat, (k : Int) = ⌊window / dt⌋ := ⟨_, Int.toNat_of_nonneg (by omega)⟩
          have h1 := hin k (by omega) hkc.le
          rw [← hkc] at hv
          push_cast at hv
          have hjk : (k : K) ≤ j := by
            have : k ≤ j := by omega
            exact_mod_cast this
          have h2 : 0 ≤ ((j : K) - k) * dt := mul_nonneg (sub_nonneg.2 hjk) hdt.le
          have h3 : x.getD 1 0 + dt * as n - (j + k) * dt / 2 ≤ 0 := by nlinarith
          have h4 := mul_nonneg h2 (neg_nonneg.2 h3)
          refine le_trans ?_ h1
          nlinarith
  refine ⟨hall, fun n hn l hl0 hl1 => ?_⟩
  obtain ⟨a, hca, ha1⟩ : ∃ a, c n = [a] ∧ -1 ≤ a := by
    rcases noisy_switch (monFrame_implicit pred) hrun hen n hn with h | ⟨z, ub, z', hg, hc⟩
    · rw [hclip _ (has n).1 (has n).2] at h
      exact ⟨as n, by simpa using h.symm, (has n).1⟩
    · rw [hgen] at hg
      simp only [Option.some.injEq, Prod.mk.injEq] at hg
      obtain ⟨rfl, -⟩ := hg
      rw [hclip _ le_rfl hneg] at hc
      exact ⟨-1, by simpa using hc.symm, le_rfl⟩
  have h1 := dock_bulge (y n) dt a l ha1 hl0 hl1
  have h2 : y (n + 1) = pointExact 1 (y n) dt [a] := by rw [← hca]; exact hrun.move n hn
  rw [← h2] at h1
  have h3 := mul_le_mul_of_nonneg_left (hall n hn.le) (sub_nonneg.2 hl1)
  have h4 := mul_le_mul_of_nonneg_left (hall (n + 1) hn) hl0
  rw [hca]
  linarith

/-- **C126**, progress: such runs of any length exist from every state, for every prediction and every way of computing the constraint. -/
theorem C126_runs (pred : List K → K → List K → List K) (comp : List K → K) (b latchTime window dt : K) (hdt : dt ≠ 0) (as : Nat → K)
    (has : ∀ n, -1 ≤ as n ∧ as n ≤ 1) (N : Nat) (x0 : List K) :
    ∃ (y : Nat → List K) (s : Nat → SimplexObj K (List K) Unit A) (c : Nat → List K), y 0 = x0 ∧ s 0 = dockISBiased comp b latchTime window ∧
      NoisyRun (implicitSimplex pred) (fun x h u x' => x' = pointExact 1 x h u) (fun x e => e = x) (fun _ => dt) (fun n => [as n]) N y y s c := by
  have hneg : (-1 : K) ≤ 1 := by linarith [zero_lt_one' K]
  let S0 : SimplexObj K (List K) Unit A := dockISBiased comp b latchTime window
  let ok : Except PyErr (List K) → List K := fun r => match r with | .ok c => c | .error _ => []
  let F : Nat → List K × SimplexObj K (List K) Unit A := fun n => Nat.rec (x0, S0) (fun n p =>
    (pointExact 1 p.1 dt (ok (implicitSimplex pred p.2 (.array p.1) dt [as n]).1), (implicitSimplex pred p.2 (.array p.1) dt [as n]).2)) n
  have call : ∀ n, WF (F n).2 → (F n).2.enable = true → (F n).2.controlBoundsHigh = some (.scalar 1) →
      (F n).2.controlBoundsLow = some (.scalar (-1)) → (F n).2.ext.ctrl.gen = S0.ext.ctrl.gen → (∀ a, (F n).2.ext.ctrl.state ≠ .unsupported a) →
      ∃ c s', implicitSimplex pred (F n).2 (.array (F n).1) dt [as n] = (.ok c, s') := fun n hw he hh hl hg hz =>
    C14_implicit_returns pred (F n).2 hw he (F n).1 dt hdt [as n] [as n] (fun _ _ => [-1]) (fun _ _ => .none)
      (fun x z => ⟨[-1], by rw [hg]; rfl, dock_clip _ hh hl _ le_rfl hneg⟩) hz (dock_clip _ hh hl _ (has n).1 (has n).2)
  have key : ∀ n, WF (F n).2 ∧ (F n).2.enable = true ∧ (F n).2.controlBoundsHigh = some (.scalar 1) ∧
      (F n).2.controlBoundsLow = some (.scalar (-1)) ∧ (F n).2.ext.ctrl.gen = S0.ext.ctrl.gen ∧ ∀ a, (F n).2.ext.ctrl.state ≠ .unsupported a := by
    intro n
    induction n with
    | zero => exact ⟨⟨by simp [F, S0, dockISBiased, dictKeys], rfl, rfl⟩, rfl, rfl, rfl, rfl, by intro a h; simp [F, S0, dockISBiased, dockISObj, dockCtrl] at h⟩
    | succ n ih =>
      obtain ⟨hw, he, hh, hl, hg, hz⟩ := ih
      obtain ⟨c, s', hc⟩ := call n hw he hh hl hg hz
      have hF : (F (n + 1)).2 = s' := by
        show (implicitSimplex pred (F n).2 (.array (F n).1) dt [as n]).2 = s'
        rw [hc]
      rw [hF]
      have hw' : WF s' := by
        have := (filterControlCB_frame frame_getStateDefault (frameFilter_simplex (monFrame_implicit pred)) (F n).2 (.array (F n).1)
          dt [as n]).2 hw
        unfold implicitSimplex at hc
        rwa [hc] at this
      obtain ⟨⟨he', hcs', hhi', hlo'⟩, hd⟩ := simplex_ok (monFrame_implicit pred) he hc
      have hgen' : s'.ext.ctrl.gen = (F n).2.ext.ctrl.gen := by
        rcases hd with ⟨_, _, z, _, hext⟩ | ⟨_, b, sm, sv, _, _, ⟨_, z, _, hext⟩ | ⟨_, _, hext⟩⟩ <;> rw [hext]
      refine ⟨hw', he', hhi'.trans hh, hlo'.trans hl, hgen'.trans hg, ?_⟩
      have hb : ∀ z, IsBackup (F n).2 (F n).1 dt c z → z = .none := by
        rintro z ⟨ub, hg', -⟩
        rw [hg] at hg'
        exact (Prod.mk.inj (Option.some.inj hg')).2.symm
      rcases hd with ⟨_, _, z, h, hext⟩ | ⟨_, b, sm, sv, _, _, ⟨_, z, h, hext⟩ | ⟨_, _, hext⟩⟩
      · rw [hext, hb z h]; intro a; simp
      · rw [hext, hb z h]; intro a; simp
      · rw [hext]; exact hz
  refine ⟨fun n => (F n).1, fun n => (F n).2, fun n => ok (implicitSimplex pred (F n).2 (.array (F n).1) dt [as n]).1, rfl, rfl,
    fun _ _ => rfl, fun n _ => ?_, fun n _ => rfl⟩
  obtain ⟨hw, he, hh, hl, hg, hz⟩ := key n
  obtain ⟨c, s', hc⟩ := call n hw he hh hl hg hz
  have h1 : (F (n + 1)).2 = (implicitSimplex pred (F n).2 (.array (F n).1) dt [as n]).2 := rfl
  show implicitSimplex pred (F n).2 (.array (F n).1) dt [as n] = (.ok (ok (implicitSimplex pred (F n).2 (.array (F n).1) dt [as n]).1), (F (n + 1)).2)
  rw [h1, hc]

/-- C126 with the default settings otherwise: Euler prediction, exact arithmetic, one step per second, backup window of five seconds, bias -1/8; the
vehicle at `-2` at rest, asked to accelerate for ever. -/
example (N : Nat) (y : Nat → List ℚ) (s : Nat → SimplexObj ℚ (List ℚ) Unit Unit) (c : Nat → List ℚ) (hy : y 0 = [-2, 0])
    (hs : s 0 = dockISBiased (fun x => -x.getD 0 0) (-(1 / 8)) 0 5)
    (hrun : NoisyRun (implicitSimplex (pointEuler 1)) (fun x h u x' => x' = pointExact 1 x h u) (fun x e => e = x) (fun _ => 1) (fun _ => [1])
      N y y s c) (hvel : ∀ n ≤ N, (y n).getD 1 0 ≤ 5) (n : Nat) (hn : n < N) (l : ℚ) (h0 : 0 ≤ l) (h1 : l ≤ 1) :
    (pointExact 1 (y n) (l * 1) (c n)).getD 0 0 ≤ 0 := by
  refine ((C126_dock (pointEuler 1) (fun x => -x.getD 0 0) _ (-(1 / 8)) 0 5 1 0 (1 / 8) one_pos (by norm_num) (by norm_num)
    (by rintro x e a z k rfl _ _ _; simp) (fun _ => 1) (fun _ => by norm_num) N y y s c hs hrun (by simpa using hvel) ?_).2 n hn l h0 h1).trans
    (by norm_num)
  intro j
  have := sq_nonneg (j : ℚ)
  rw [hy]
  simp
  linarith

/-- **C126 needs the bias**, between the instants. The module as it is constructed, without bias, with its default Euler prediction, on the true point
mass: the vehicle at the target, moving away with velocity 1/2, is allowed to accelerate towards the target; a second later it is at the target again with
velocity 1/2, and although the module brakes now, half a second later the vehicle is inside the target. -/
theorem C126_refuted_between :
    BrakesAt 0 1 ([0, -1 / 2] : List ℚ) ∧
    (closedLoop (implicitSimplex (pointEuler 1)) (pointExact 1) (fun _ => 1) (fun _ => [1]) [0, -1 / 2] (dockISObj (A := Unit) (0 : ℚ) 5) 1).map
      (fun p => (p.1, p.2.intervening)) = some ([0, 1 / 2], false) ∧
    (closedLoop (implicitSimplex (pointEuler 1)) (pointExact 1) (fun _ => 1) (fun _ => [1]) [0, -1 / 2] (dockISObj (A := Unit) (0 : ℚ) 5) 2).map
      (fun p => (p.1, p.2.intervening)) = some ([0, -1 / 2], true) ∧
    (pointExact 1 ([0, 1 / 2] : List ℚ) (1 / 2) [-1]).getD 0 0 = 1 / 8 := by
  refine ⟨fun j => ?_, ?_, ?_, ?_⟩
  · have := sq_nonneg (j : ℚ)
    have h : (0 : ℚ) ≤ j := Nat.cast_nonneg j
    simp
    linarith
  · decide +kernel
  · decide +kernel
  · norm_num [pointExact]

end

end RTA
