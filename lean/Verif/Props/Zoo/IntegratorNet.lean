import Verif.Props.Zoo.IntegratorHeld
import Verif.Props.SafetyNet

/-!
C127, the remedy: the explicit optimisation module of the one-dimensional docking example followed, in a cascade, by the explicit switching module of the
same example with the bias of C125.
-/
namespace RTA

section
variable {A M : Type} [HasBase M ℝ]

/-- **C127, behind a net.** A cascade without bounds of its own, whose first stage is anything that answers within the control bounds and whose second is the
explicit switching module with a bias of at most `-17/16 Δ²`, called every `Δ` on the true point mass: from a state with `-2 x - v² ≥ Δ²/16`, whatever is
desired, `-2 x - v² ≥ 0` and the position is at most zero at the calls and between them. -/
theorem C127_net (fA : M → InputState (List ℝ) → ℝ → List ℝ → Except PyErr (List ℝ) × M) (J : M → Prop) {b latchTime Δ : ℝ}
    (hb : b ≤ -(17 / 16 * Δ ^ 2)) (us : Nat → List ℝ)
    (hfirst : ∀ a n x w a', J a → fA a (.array x) Δ (us n) = (.ok w, a') → J a' ∧ ∃ q, w = [q] ∧ -1 ≤ q ∧ q ≤ 1)
    {N : Nat} {y : Nat → List ℝ} {s : Nat → CascadeObj ℝ (M ⊕ SimplexObj ℝ (List ℝ) Unit A)} {c : Nat → List ℝ} {a0 : M} (hJ : J a0)
    (hs : s 0 = cascadeInit none none [.inl a0, .inr (dockESBiased dockVal b latchTime)])
    (hrun : NoisyRun (cascadeFilter (eitherFilter fA (explicitSimplex (pointEuler 1)))) (fun x h u x' => x' = pointExact 1 x h u) (fun x e => e = x)
      (fun _ => Δ) us N y y s c) (h0 : Δ ^ 2 / 16 ≤ dockVal (y 0)) :
    (∀ n ≤ N, Δ ^ 2 / 16 ≤ dockVal (y n)) ∧
    ∀ n < N, ∀ l, 0 ≤ l → l ≤ 1 →
      0 ≤ dockVal (pointExact 1 (y n) (l * Δ) (c n)) ∧ (pointExact 1 (y n) (l * Δ) (c n)).getD 0 0 ≤ 0 := by
  have stage : ∀ n < N, ∀ a t, (s n).rtaList = [.inl a, .inr t] → (s n).enable = true → (s n).controlBoundsHigh = none →
      (s n).controlBoundsLow = none → J a → ∃ q a' t', -1 ≤ q ∧ q ≤ 1 ∧ explicitSimplex (pointEuler 1) t (.array (y n)) Δ [q] = (.ok (c n), t') ∧
        (s (n + 1)).rtaList = [.inl a', .inr t'] ∧ (s (n + 1)).enable = true ∧ (s (n + 1)).controlBoundsHigh = none ∧
        (s (n + 1)).controlBoundsLow = none ∧ J a' := by
    intro n hn a t hl he hh hlo hJa
    obtain ⟨w, a', out, t', hA, hT, hclip, hl', he', hh', hlo', -⟩ := two_stages_ok hl he (hrun.call n hn)
    obtain rfl : out = c n := by
      unfold Base.clipControl at hclip
      simpa [hh, hlo] using hclip
    obtain ⟨hJ', q, rfl, h1, h2⟩ := hfirst a n (y n) w a' hJa hA
    exact ⟨q, a', t', h1, h2, hT, hl', he', hh'.trans hh, hlo'.trans hlo, hJ'⟩
  have inv : ∀ n ≤ N, ∃ a t, (s n).rtaList = [.inl a, .inr t] ∧ (s n).enable = true ∧ (s n).controlBoundsHigh = none ∧
      (s n).controlBoundsLow = none ∧ J a := by
    intro n hn
    induction n with
    | zero => exact ⟨a0, _, by rw [hs]; rfl, by rw [hs]; rfl, by rw [hs]; rfl, by rw [hs]; rfl, hJ⟩
    | succ n ih =>
      obtain ⟨a, t, h1, h2, h3, h4, h5⟩ := ih (Nat.le_of_succ_le hn)
      obtain ⟨q, a', t', -, -, -, k⟩ := stage n hn a t h1 h2 h3 h4 h5
      exact ⟨a', t', k⟩
  let T : Nat → SimplexObj ℝ (List ℝ) Unit A := fun n => match (s n).rtaList with
    | [_, .inr t] => t
    | _ => dockESBiased dockVal b latchTime
  have hT : ∀ n a t, (s n).rtaList = [.inl a, .inr t] → T n = t := by
    intro n a t h
    simp only [T, h]
  have hq : ∀ n, ∃ q : ℝ, (-1 ≤ q ∧ q ≤ 1) ∧ (n < N → explicitSimplex (pointEuler 1) (T n) (.array (y n)) Δ [q] = (.ok (c n), T (n + 1))) := by
    intro n
    by_cases hn : n < N
    · obtain ⟨a, t, h1, h2, h3, h4, h5⟩ := inv n hn.le
      obtain ⟨q, a', t', k1, k2, k3, k4, -⟩ := stage n hn a t h1 h2 h3 h4 h5
      exact ⟨q, ⟨k1, k2⟩, fun _ => by rw [hT n a t h1, hT (n + 1) a' t' k4]; exact k3⟩
    · exact ⟨0, by norm_num, fun h => absurd h hn⟩
  choose q hq1 hq2 using hq
  exact C125_dock (pointEuler 1) dockVal (fun x e => e = x) b latchTime Δ 0 (by rw [add_zero]; exact hb) (by rintro x e a rfl _ _; simp) q hq1 N y y T c
    (hT 0 a0 _ (by rw [hs]; rfl)) ⟨hrun.est, fun n hn => hq2 n hn, hrun.move⟩ h0

end

section
variable {A : Type}

/-- What the optimisation module of the example answers lies within the bounds. -/
theorem DockEB.answer {solver : Solver ℝ} (hspec : SolverSpec solver) {b epsilon : ℝ} {exc : Bool} {s : ASIFObj ℝ (List ℝ) Unit Unit}
    (hs : DockEB solver b epsilon exc s) {x : List ℝ} {dt u : ℝ} {w : List ℝ} (h : (explicitASIF solver pointF (pointG 1) s (.array x) dt [u]).1 = .ok w) :
    ∃ q, w = [q] ∧ -1 ≤ q ∧ q ≤ 1 := by
  by_cases ha : ∃ w, Admissible pointF (pointG 1) s x w
  · obtain ⟨hw, -⟩ := C24_closest_admissible hspec hs.built hs.noslack hs.enabled x dt [u] w (Prod.ext h rfl) ha
    obtain ⟨q, rfl⟩ := List.length_eq_one_iff.1 (hw.len.trans hs.kept.controlDim)
    have hb := hw.bounds
    rw [hs.kept.low, hs.kept.high] at hb
    exact ⟨q, rfl, (dock_within q).1 hb⟩
  · rw [C27_infeasible_policy hspec hs.built hs.pos hs.enabled x (hs.shapes x) dt [u] hs.kept.controlDim.symm (by
      rintro ⟨w, d, hw⟩
      exact ha ⟨w, ((admissibleS_noslack hs.noslack).1 hw).2⟩), hs.kept.exc] at h
    cases exc
    · have hh : s.controlBoundsHigh = some (.scalar 1) := hs.kept.high
      have hl : s.controlBoundsLow = some (.scalar (-1)) := hs.kept.low
      simp only [dockEOBiased, dockEOObj, Bool.false_eq_true, if_false, Base.clipControl, hh, hl] at h
      simp [npClip, Bound.bcast, Bound.toList, bcastTo] at h
      exact ⟨_, h.symm, by norm_num, by norm_num⟩
    · simp [dockEOBiased, dockEOObj] at h

/-- **C127, the optimisation module behind a net**: any bias, strengthened or not, raising or not; desired controls are any numbers. -/
theorem C127_net_dock {solver : Solver ℝ} (hspec : SolverSpec solver) {b b' epsilon latchTime Δ : ℝ} {exc : Bool} (hb : b ≤ -(17 / 16 * Δ ^ 2))
    (as : Nat → ℝ) {N : Nat} {y : Nat → List ℝ} {s : Nat → CascadeObj ℝ (ASIFObj ℝ (List ℝ) Unit Unit ⊕ SimplexObj ℝ (List ℝ) Unit A)} {c : Nat → List ℝ}
    (hs : s 0 = cascadeInit none none [.inl (dockEOBiased b' epsilon exc), .inr (dockESBiased dockVal b latchTime)])
    (hrun : NoisyRun (cascadeFilter (eitherFilter (explicitASIF solver pointF (pointG 1)) (explicitSimplex (pointEuler 1))))
      (fun x h u x' => x' = pointExact 1 x h u) (fun x e => e = x) (fun _ => Δ) (fun n => [as n]) N y y s c) (h0 : Δ ^ 2 / 16 ≤ dockVal (y 0)) :
    (∀ n ≤ N, Δ ^ 2 / 16 ≤ dockVal (y n)) ∧
    ∀ n < N, ∀ l, 0 ≤ l → l ≤ 1 →
      0 ≤ dockVal (pointExact 1 (y n) (l * Δ) (c n)) ∧ (pointExact 1 (y n) (l * Δ) (c n)).getD 0 0 ≤ 0 :=
  C127_net _ (DockEB solver b' epsilon exc) hb _ (fun a n x w a' ha h => ⟨by have := ha.call (.array x) Δ [as n]; rwa [h] at this,
    ha.answer hspec (congrArg Prod.fst h)⟩) ⟨dockEB_module solver b' epsilon exc, KeptBy.refl _⟩ hs hrun h0

/-- Such cascades run: if the optimisation module does not raise, every call returns. -/
theorem C127_net_runs {solver : Solver ℝ} (hspec : SolverSpec solver) (b b' epsilon latchTime Δ : ℝ) (as : Nat → ℝ) (N : Nat) (x0 : List ℝ) :
    ∃ (y : Nat → List ℝ) (s : Nat → CascadeObj ℝ (ASIFObj ℝ (List ℝ) Unit Unit ⊕ SimplexObj ℝ (List ℝ) Unit A)) (c : Nat → List ℝ), y 0 = x0 ∧
      s 0 = cascadeInit none none [.inl (dockEOBiased b' epsilon false), .inr (dockESBiased dockVal b latchTime)] ∧
      NoisyRun (cascadeFilter (eitherFilter (explicitASIF solver pointF (pointG 1)) (explicitSimplex (pointEuler 1))))
        (fun x h u x' => x' = pointExact 1 x h u) (fun x e => e = x) (fun _ => Δ) (fun n => [as n]) N y y s c := by
  let fc : CascadeObj ℝ (ASIFObj ℝ (List ℝ) Unit Unit ⊕ SimplexObj ℝ (List ℝ) Unit A) → InputState (List ℝ) → ℝ → List ℝ → _ :=
    cascadeFilter (eitherFilter (explicitASIF solver pointF (pointG 1)) (explicitSimplex (pointEuler 1)))
  let S0 : CascadeObj ℝ (ASIFObj ℝ (List ℝ) Unit Unit ⊕ SimplexObj ℝ (List ℝ) Unit A) :=
    cascadeInit none none [.inl (dockEOBiased b' epsilon false), .inr (dockESBiased dockVal b latchTime)]
  let ok : Except PyErr (List ℝ) → List ℝ := fun r => match r with | .ok c => c | .error _ => []
  let F : Nat → List ℝ × CascadeObj ℝ (ASIFObj ℝ (List ℝ) Unit Unit ⊕ SimplexObj ℝ (List ℝ) Unit A) := fun n => Nat.rec (x0, S0) (fun n p =>
    (pointExact 1 p.1 Δ (ok (fc p.2 (.array p.1) Δ [as n]).1), (fc p.2 (.array p.1) Δ [as n]).2)) n
  let I : CascadeObj ℝ (ASIFObj ℝ (List ℝ) Unit Unit ⊕ SimplexObj ℝ (List ℝ) Unit A) → Prop := fun s =>
    ∃ a t, s.rtaList = [.inl a, .inr t] ∧ s.enable = true ∧ s.controlBoundsHigh = none ∧ s.controlBoundsLow = none ∧
      DockEB solver b' epsilon false a ∧ WF t ∧ t.enable = true ∧ t.controlBoundsHigh = some (.scalar 1) ∧ t.controlBoundsLow = some (.scalar (-1)) ∧
      t.ext.ctrl.gen = (dockESBiased (A := A) dockVal b latchTime).ext.ctrl.gen
  have step : ∀ s, I s → ∀ x u, ∃ c s', fc s (.array x) Δ [u] = (.ok c, s') ∧ I s' := by
    rintro s ⟨a, t, hl, he, hh, hlo, ha, hw, het, hhi, hlow, hg⟩ x u
    have hA : ∃ w, (explicitASIF solver pointF (pointG 1) a (.array x) Δ [u]).1 = .ok w := by
      by_cases hadm : ∃ w d, AdmissibleS pointF (pointG 1) a x w d
      · exact C24_returns hspec ha.built ha.pos ha.enabled x (ha.shapes x) Δ [u] ha.kept.controlDim.symm hadm
      · rw [C27_infeasible_policy hspec ha.built ha.pos ha.enabled x (ha.shapes x) Δ [u] ha.kept.controlDim.symm hadm, ha.kept.exc]
        have k1 : a.controlBoundsHigh = some (.scalar 1) := ha.kept.high
        have k2 : a.controlBoundsLow = some (.scalar (-1)) := ha.kept.low
        simp [dockEOBiased, dockEOObj, Base.clipControl, k1, k2, npClip, Bound.bcast, Bound.toList, bcastTo]
    obtain ⟨w, hw1⟩ := hA
    obtain ⟨q, rfl, hq1, hq2⟩ := ha.answer hspec hw1
    obtain ⟨out, t', hT⟩ := C13_explicit_returns (pointEuler 1) t hw het x Δ [q] [-1] [-1] [q] .none (by rw [hg]; rfl)
      (dock_clip _ hhi hlow _ le_rfl (by norm_num)) (dock_clip _ hhi hlow _ hq1 hq2)
    have hcall : ∃ s', fc s (.array x) Δ [u] = (.ok out, s') := by
      obtain ⟨a1, hA'⟩ : ∃ a1, explicitASIF solver pointF (pointG 1) a (.array x) Δ [u] = (.ok [q], a1) := ⟨_, Prod.ext hw1 rfl⟩
      simp only [fc]
      unfold cascadeFilter filterControl cascadeCompute
      simp only [modifyBase, HasBase.get, HasBase.set, he, if_true, hl, cascadeLoop, eitherFilter, hA', hT]
      simp [Base.clipControl, hh, hlo]
    obtain ⟨s', hs'⟩ := hcall
    refine ⟨out, s', hs', ?_⟩
    obtain ⟨w, a', out', t'', kA, kT, -, kl, ke, kh, klo, -⟩ := two_stages_ok hl he hs'
    have hA2 : w = [q] := by
      have := congrArg Prod.fst kA
      rw [hw1] at this
      simpa using this.symm
    subst hA2
    rw [hT] at kT
    obtain ⟨-, rfl⟩ := Prod.mk.inj kT
    have hw' : WF t' := by
      have := (filterControlCB_frame frame_getStateDefault (frameFilter_simplex (monFrame_explicit (pointEuler 1))) t (.array x) Δ [q]).2 hw
      unfold explicitSimplex at hT
      rwa [hT] at this
    obtain ⟨⟨het', -, hhi', hlo'⟩, hd⟩ := simplex_ok (monFrame_explicit (pointEuler 1)) het hT
    have hgen' : t'.ext.ctrl.gen = t.ext.ctrl.gen := by
      rcases hd with ⟨_, _, z, _, hext⟩ | ⟨_, b, sm, sv, _, _, ⟨_, z, _, hext⟩ | ⟨_, _, hext⟩⟩ <;> rw [hext]
    exact ⟨a', t', kl, ke, kh.trans hh, klo.trans hlo, by have := ha.call (.array x) Δ [u]; rwa [kA] at this, hw', het', hhi'.trans hhi,
      hlo'.trans hlow, hgen'.trans hg⟩
  have key : ∀ n, I (F n).2 := by
    intro n
    induction n with
    | zero =>
      exact ⟨_, _, rfl, rfl, rfl, rfl, ⟨dockEB_module solver b' epsilon false, KeptBy.refl _⟩, ⟨by simp [dockESBiased, dictKeys], rfl, rfl⟩, rfl, rfl, rfl, rfl⟩
    | succ n ih =>
      obtain ⟨c, s', h1, h2⟩ := step _ ih (F n).1 (as n)
      have e : (F (n + 1)).2 = (fc (F n).2 (.array (F n).1) Δ [as n]).2 := rfl
      rw [e, h1]
      exact h2
  refine ⟨fun n => (F n).1, fun n => (F n).2, fun n => ok (fc (F n).2 (.array (F n).1) Δ [as n]).1, rfl, rfl, fun _ _ => rfl, fun n _ => ?_, fun n _ => rfl⟩
  obtain ⟨c, s', h1, -⟩ := step _ (key n) (F n).1 (as n)
  have e : (F (n + 1)).2 = (fc (F n).2 (.array (F n).1) Δ [as n]).2 := rfl
  show fc (F n).2 (.array (F n).1) Δ [as n] = (.ok (ok (fc (F n).2 (.array (F n).1) Δ [as n]).1), (F (n + 1)).2)
  rw [e, h1]

end

/-- One step per second from rest at `-2`, asked to accelerate for ever: a million steps later the vehicle has not passed the target. -/
example : ∃ (y : Nat → List ℝ) (s : Nat → CascadeObj ℝ (ASIFObj ℝ (List ℝ) Unit Unit ⊕ SimplexObj ℝ (List ℝ) Unit Unit)) (c : Nat → List ℝ), y 0 = [-2, 0] ∧
    NoisyRun (cascadeFilter (eitherFilter (explicitASIF refSolver pointF (pointG 1)) (explicitSimplex (pointEuler 1))))
      (fun x h u x' => x' = pointExact 1 x h u) (fun x e => e = x) (fun _ => 1) (fun _ => [1]) 1000000 y y s c ∧
    ∀ n < 1000000, ∀ l, 0 ≤ l → l ≤ 1 → (pointExact 1 (y n) (l * 1) (c n)).getD 0 0 ≤ 0 := by
  obtain ⟨y, s, c, hy, hs, hrun⟩ := C127_net_runs (A := Unit) refSolver_spec (-(17 / 16)) 0 0 0 1 (fun _ => 1) 1000000 [-2, 0]
  exact ⟨y, s, c, hy, hrun, fun n hn l h0 h1 =>
    ((C127_net_dock refSolver_spec (by norm_num) _ hs hrun (by rw [hy]; norm_num [dockVal])).2 n hn l h0 h1).2⟩

end RTA
