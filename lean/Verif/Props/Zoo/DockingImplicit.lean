import Verif.Props.Zoo.Docking
import Verif.Props.Strict

/-!
C77: the implicit optimisation modules of the docking problems.
-/
namespace RTA
open Set Real
variable {A : Type}

/-- What every constructed 2-D module looks like. -/
theorem dock2I_init {n v0 v1Coef v0Distance xLim yLim window epsilon : ℝ} {high low : Option (Bound ℝ)}
    {gen : List ℝ → ℝ → CState A → Option (List ℝ × CState A)} {z : CState A} {exc : Bool} {s : ImplicitObj ℝ DockParams A}
    (h : dock2Implicit n v0 v1Coef v0Distance xLim yLim high low gen z window epsilon exc = .ok s) :
    s.constraints = dockConstraints2 v0 (v1Coef * n) v0Distance xLim yLim ∧ s.ext.controlDim = 2 ∧ s.ext.direct = [] ∧
      s.enable = true ∧ s.controlBoundsLow = low ∧ s.controlBoundsHigh = high ∧ s.ext.solverException = exc ∧ s.ext.epsilon = epsilon ∧
      s.ext.extra.backupWindow = window ∧ s.ext.extra.ctrl.gen = gen ∧ s.ext.extra.ctrl.state = z := by
  unfold dock2Implicit at h
  rcases hc : BackupController.init gen z with e | c
  · rw [hc] at h; cases h
  · rw [hc] at h
    simp only at h
    unfold asifInit CBObj.init at h
    have e : selectConstraints (dockConstraints2 v0 (v1Coef * n) v0Distance xLim yLim) none = .ok (dockConstraints2 v0 (v1Coef * n) v0Distance xLim yLim) := rfl
    rw [e] at h
    simp only at h
    split at h
    · cases h
    · simp only [Except.ok.injEq] at h
      subst h
      cases z <;> simp only [BackupController.init, CState.copy, Except.ok.injEq, reduceCtorEq] at hc <;> subst hc <;>
        exact ⟨rfl, rfl, rfl, rfl, rfl, rfl, rfl, rfl, rfl, rfl, rfl⟩

/-- What every constructed 3-D module looks like. -/
theorem dock3I_init {n v0 v1Coef v0Distance xLim yLim zLim window epsilon : ℝ} {high low : Option (Bound ℝ)}
    {gen : List ℝ → ℝ → CState A → Option (List ℝ × CState A)} {z : CState A} {exc : Bool} {s : ImplicitObj ℝ DockParams A}
    (h : dock3Implicit n v0 v1Coef v0Distance xLim yLim zLim high low gen z window epsilon exc = .ok s) :
    s.constraints = dockConstraints3 v0 (v1Coef * n) v0Distance xLim yLim zLim ∧ s.ext.controlDim = 3 ∧ s.ext.direct = [] ∧
      s.enable = true ∧ s.controlBoundsLow = low ∧ s.controlBoundsHigh = high ∧ s.ext.solverException = exc ∧ s.ext.epsilon = epsilon ∧
      s.ext.extra.backupWindow = window ∧ s.ext.extra.ctrl.gen = gen ∧ s.ext.extra.ctrl.state = z := by
  unfold dock3Implicit at h
  rcases hc : BackupController.init gen z with e | c
  · rw [hc] at h; cases h
  · rw [hc] at h
    simp only at h
    unfold asifInit CBObj.init at h
    have e : selectConstraints (dockConstraints3 v0 (v1Coef * n) v0Distance xLim yLim zLim) none =
      .ok (dockConstraints3 v0 (v1Coef * n) v0Distance xLim yLim zLim) := rfl
    rw [e] at h
    simp only at h
    split at h
    · cases h
    · simp only [Except.ok.injEq] at h
      subst h
      cases z <;> simp only [BackupController.init, CState.copy, Except.ok.injEq, reduceCtorEq] at hc <;> subst hc <;>
        exact ⟨rfl, rfl, rfl, rfl, rfl, rfl, rfl, rfl, rfl, rfl, rfl⟩

theorem dock2I_module {solver : Solver ℝ} {E : ImplicitEnv ℝ} {n v0 v1Coef v0Distance xLim yLim window epsilon : ℝ} {high low : Option (Bound ℝ)}
    {gen : List ℝ → ℝ → CState A → Option (List ℝ × CState A)} {z : CState A} {exc : Bool} {s : ImplicitObj ℝ DockParams A}
    (h : dock2Implicit n v0 v1Coef v0Distance xLim yLim high low gen z window epsilon exc = .ok s) : ImplicitModule solver E s := by
  unfold dock2Implicit at h
  rcases hc : BackupController.init gen z with e | c
  · rw [hc] at h; cases h
  · rw [hc] at h
    exact ⟨_, _, _, _, _, _, _, _, _, _, _, c, _, [], by simp [dictKeys, dockConstraints2], by simp [dictKeys], hc, h, rfl⟩

theorem dock3I_module {solver : Solver ℝ} {E : ImplicitEnv ℝ} {n v0 v1Coef v0Distance xLim yLim zLim window epsilon : ℝ} {high low : Option (Bound ℝ)}
    {gen : List ℝ → ℝ → CState A → Option (List ℝ × CState A)} {z : CState A} {exc : Bool} {s : ImplicitObj ℝ DockParams A}
    (h : dock3Implicit n v0 v1Coef v0Distance xLim yLim zLim high low gen z window epsilon exc = .ok s) : ImplicitModule solver E s := by
  unfold dock3Implicit at h
  rcases hc : BackupController.init gen z with e | c
  · rw [hc] at h; cases h
  · rw [hc] at h
    exact ⟨_, _, _, _, _, _, _, _, _, _, _, c, _, [], by simp [dictKeys, dockConstraints3], by simp [dictKeys], hc, h, rfl⟩

/-- A constraint with a class-K strengthener and default subsampling is kept by implicit modules that raise or are solvable. -/
theorem implicit_kept {P : Type} {solver : Solver ℝ} (hspec : SolverSpec solver) {E : ImplicitEnv ℝ} {k : String} {c : Constraint ℝ (List ℝ) P}
    {n : Nat} {x u : ℝ → List ℝ} (hgrad : IsGradientOn univ n (fun x => c.computeFn x c.params) (fun x => c.gradFn x c.params))
    (htraj : Trajectory univ n E.f E.g x u) {coefs : List ℝ} (hk : ClassKCoefs coefs) (ha : c.alpha = some (polyAlpha coefs))
    (hen : c.enabled = true) (hsub : c.subsample = {})
    (hloop : ∀ t, 0 ≤ t → ∃ (s s' : ImplicitObj ℝ P A) (dt : ℝ) (uDes : List ℝ), ImplicitModule solver E s ∧ s.enable = true ∧
      (k, c) ∈ s.constraints ∧ (s.ext.solverException = true ∨ ∃ w, AdmissibleI E s (x t) dt w) ∧
      E.call solver s (.array (x t)) dt uDes = (.ok (u t), s'))
    (h0 : 0 ≤ c.value (x 0)) : ∀ t, 0 ≤ t → 0 ≤ c.value (x t) := by
  refine C67_constraint_kept (A := A) (k := k) hspec hgrad htraj ha (fun y hy => ((C33_sign coefs hk y).1 hy).le) hen (fun t ht => ?_) h0
  obtain ⟨s, s', dt, uDes, hs, hens, hmem, hor, hcall⟩ := hloop t ht
  refine ⟨s, s', dt, uDes, hs, hens, hmem, C67_current_state_checked _ _ _ _ _ (Or.inl hsub), ?_, hcall⟩
  rcases hor with hexc | hadm
  · exact implicit_strict hspec hs.inv.inv hens hexc hcall
  · exact hadm

/-- **C77 in the plane**. A vehicle with the dynamics of the 2-D docking problem that at every instant applies the control that an implicit
optimisation module (after any history; with any backup controller, window and integrator) returns for its current state and some desired
control satisfies at all times the documented speed limit `|v| ≤ v0 + v1 (|r| - v0_distance)` and the limits on the velocity components,
if it does so initially with the module's margin and the modules raise when there is no admissible control, or there always is one. -/
theorem C77_closed_loop_2d {solver : Solver ℝ} (hspec : SolverSpec solver) {m n v0 v1 v0Distance xLim yLim : ℝ}
    (hv1 : 0 ≤ v1) (hv1' : v1 ≤ 1 / 32) {E : ImplicitEnv ℝ} (hf : E.f = dockF2 n) (hg : E.g = dockG2 m) {x u : ℝ → List ℝ}
    (htraj : Trajectory univ 4 (dockF2 n) (dockG2 m) x u)
    (hloop : ∀ t, 0 ≤ t → ∃ (s s' : ImplicitObj ℝ DockParams A) (dt : ℝ) (uDes : List ℝ), ImplicitModule solver E s ∧
      s.constraints = dockConstraints2 v0 v1 v0Distance xLim yLim ∧ s.enable = true ∧
      (s.ext.solverException = true ∨ ∃ w, AdmissibleI E s (x t) dt w) ∧ E.call solver s (.array (x t)) dt uDes = (.ok (u t), s'))
    (h0 : Docking2Safe v0 v1 v0Distance xLim yLim (comp (x 0) 0) (comp (x 0) 1) (comp (x 0) 2) (comp (x 0) 3)) :
    ∀ t, 0 ≤ t → √(comp (x t) 2 ^ 2 + comp (x t) 3 ^ 2) ≤ v0 + v1 * (√(comp (x t) 0 ^ 2 + comp (x t) 1 ^ 2) - v0Distance) ∧
      comp (x t) 2 ^ 2 ≤ xLim ^ 2 ∧ comp (x t) 3 ^ 2 ≤ yLim ^ 2 := by
  rw [← hf, ← hg] at htraj
  have hval : ∀ y : List ℝ, y.length = 4 → (dockRelVel 2 dockCoefs2 v0 v1 v0Distance).value y =
      v0 + v1 * (√(comp y 0 ^ 2 + comp y 1 ^ 2 + 1 / 100000) - v0Distance) - √(comp y 2 ^ 2 + comp y 3 ^ 2 + 1 / 100000) - 1 / 10000 := by
    intro y hy
    match y, hy with
    | [a, b, c, d], _ => exact rel_value2 _ _ _ _ _ _ _ _
  have hl : ∀ kc ∈ dockConstraints2 v0 v1 v0Distance xLim yLim, ∀ t, 0 ≤ t → ∃ (s s' : ImplicitObj ℝ DockParams A) (dt : ℝ) (uDes : List ℝ),
      ImplicitModule solver E s ∧ s.enable = true ∧ (kc.1, kc.2) ∈ s.constraints ∧
      (s.ext.solverException = true ∨ ∃ w, AdmissibleI E s (x t) dt w) ∧ E.call solver s (.array (x t)) dt uDes = (.ok (u t), s') := by
    intro kc hkc t ht
    obtain ⟨s, s', dt, uDes, hs, hc, hen, hor, hcall⟩ := hloop t ht
    exact ⟨s, s', dt, uDes, hs, hen, by rw [hc]; exact hkc, hor, hcall⟩
  have h1 := implicit_kept hspec (rel_gradient2 dockCoefs2 v0 v1 v0Distance) htraj dockCoefs2_class_k rfl rfl rfl
    (hl ("rel_vel", dockRelVel 2 dockCoefs2 v0 v1 v0Distance) (by simp [dockConstraints2]))
    (by rw [hval _ (htraj.curve 0 (by simp)).2]; have := h0.rel; linarith)
  have h2 := implicit_kept hspec (limit_gradient (by decide : 2 < 4) xLim) htraj limitAlpha_class_k rfl rfl rfl
    (hl ("x_vel", dockLimit xLim 2) (by simp [dockConstraints2])) (by rw [limit_value]; have := h0.xv; unfold comp at this; linarith)
  have h3 := implicit_kept hspec (limit_gradient (by decide : 3 < 4) yLim) htraj limitAlpha_class_k rfl rfl rfl
    (hl ("y_vel", dockLimit yLim 3) (by simp [dockConstraints2])) (by rw [limit_value]; have := h0.yv; unfold comp at this; linarith)
  intro t ht
  have h1 := h1 t ht
  have h2 := h2 t ht
  have h3 := h3 t ht
  rw [hval _ (htraj.curve t ht).2] at h1
  rw [limit_value] at h2 h3
  refine ⟨C64_documented_limit hv1 hv1' (by positivity) rfl (v0 := v0) (v0Distance := v0Distance)
    (P := comp (x t) 0 ^ 2 + comp (x t) 1 ^ 2) (V := comp (x t) 2 ^ 2 + comp (x t) 3 ^ 2) (by linarith) rfl, ?_, ?_⟩
  · unfold comp; linarith
  · unfold comp; linarith

/-- **C77 in space**. -/
theorem C77_closed_loop_3d {solver : Solver ℝ} (hspec : SolverSpec solver) {m n v0 v1 v0Distance xLim yLim zLim : ℝ}
    (hv1 : 0 ≤ v1) (hv1' : v1 ≤ 1 / 32) {E : ImplicitEnv ℝ} (hf : E.f = dockF3 n) (hg : E.g = dockG3 m) {x u : ℝ → List ℝ}
    (htraj : Trajectory univ 6 (dockF3 n) (dockG3 m) x u)
    (hloop : ∀ t, 0 ≤ t → ∃ (s s' : ImplicitObj ℝ DockParams A) (dt : ℝ) (uDes : List ℝ), ImplicitModule solver E s ∧
      s.constraints = dockConstraints3 v0 v1 v0Distance xLim yLim zLim ∧ s.enable = true ∧
      (s.ext.solverException = true ∨ ∃ w, AdmissibleI E s (x t) dt w) ∧ E.call solver s (.array (x t)) dt uDes = (.ok (u t), s'))
    (h0 : Docking3Safe v0 v1 v0Distance xLim yLim zLim (comp (x 0) 0) (comp (x 0) 1) (comp (x 0) 2) (comp (x 0) 3) (comp (x 0) 4)
      (comp (x 0) 5)) :
    ∀ t, 0 ≤ t → √(comp (x t) 3 ^ 2 + comp (x t) 4 ^ 2 + comp (x t) 5 ^ 2) ≤
        v0 + v1 * (√(comp (x t) 0 ^ 2 + comp (x t) 1 ^ 2 + comp (x t) 2 ^ 2) - v0Distance) ∧
      comp (x t) 3 ^ 2 ≤ xLim ^ 2 ∧ comp (x t) 4 ^ 2 ≤ yLim ^ 2 ∧ comp (x t) 5 ^ 2 ≤ zLim ^ 2 := by
  rw [← hf, ← hg] at htraj
  have hval : ∀ y : List ℝ, y.length = 6 → (dockRelVel 3 dockCoefs3 v0 v1 v0Distance).value y =
      v0 + v1 * (√(comp y 0 ^ 2 + comp y 1 ^ 2 + comp y 2 ^ 2 + 1 / 100000) - v0Distance) -
        √(comp y 3 ^ 2 + comp y 4 ^ 2 + comp y 5 ^ 2 + 1 / 100000) - 1 / 10000 := by
    intro y hy
    match y, hy with
    | [a, b, c, d, e, f], _ => exact rel_value3 _ _ _ _ _ _ _ _ _ _
  have hl : ∀ kc ∈ dockConstraints3 v0 v1 v0Distance xLim yLim zLim, ∀ t, 0 ≤ t →
      ∃ (s s' : ImplicitObj ℝ DockParams A) (dt : ℝ) (uDes : List ℝ), ImplicitModule solver E s ∧ s.enable = true ∧ (kc.1, kc.2) ∈ s.constraints ∧
      (s.ext.solverException = true ∨ ∃ w, AdmissibleI E s (x t) dt w) ∧ E.call solver s (.array (x t)) dt uDes = (.ok (u t), s') := by
    intro kc hkc t ht
    obtain ⟨s, s', dt, uDes, hs, hc, hen, hor, hcall⟩ := hloop t ht
    exact ⟨s, s', dt, uDes, hs, hen, by rw [hc]; exact hkc, hor, hcall⟩
  have h1 := implicit_kept hspec (rel_gradient3 dockCoefs3 v0 v1 v0Distance) htraj dockCoefs3_class_k rfl rfl rfl
    (hl ("rel_vel", dockRelVel 3 dockCoefs3 v0 v1 v0Distance) (by simp [dockConstraints3]))
    (by rw [hval _ (htraj.curve 0 (by simp)).2]; have := h0.rel; linarith)
  have h2 := implicit_kept hspec (limit_gradient (by decide : 3 < 6) xLim) htraj limitAlpha_class_k rfl rfl rfl
    (hl ("x_vel", dockLimit xLim 3) (by simp [dockConstraints3])) (by rw [limit_value]; have := h0.xv; unfold comp at this; linarith)
  have h3 := implicit_kept hspec (limit_gradient (by decide : 4 < 6) yLim) htraj limitAlpha_class_k rfl rfl rfl
    (hl ("y_vel", dockLimit yLim 4) (by simp [dockConstraints3])) (by rw [limit_value]; have := h0.yv; unfold comp at this; linarith)
  have h4 := implicit_kept hspec (limit_gradient (by decide : 5 < 6) zLim) htraj limitAlpha_class_k rfl rfl rfl
    (hl ("z_vel", dockLimit zLim 5) (by simp [dockConstraints3])) (by rw [limit_value]; have := h0.zv; unfold comp at this; linarith)
  intro t ht
  have h1 := h1 t ht
  have h2 := h2 t ht
  have h3 := h3 t ht
  have h4 := h4 t ht
  rw [hval _ (htraj.curve t ht).2] at h1
  rw [limit_value] at h2 h3 h4
  refine ⟨C64_documented_limit hv1 hv1' (by positivity) rfl (v0 := v0) (v0Distance := v0Distance)
    (P := comp (x t) 0 ^ 2 + comp (x t) 1 ^ 2 + comp (x t) 2 ^ 2) (V := comp (x t) 3 ^ 2 + comp (x t) 4 ^ 2 + comp (x t) 5 ^ 2)
    (by linarith) rfl, ?_, ?_, ?_⟩
  · unfold comp; linarith
  · unfold comp; linarith
  · unfold comp; linarith

/-! ### The filter leaves a vehicle at rest alone -/

theorem lqr2_rest (r1 r2 : List ℝ) : lqrControl 2 [r1, r2] [0, 100, 0, 0] = [0, 0] := by
  have h : ∀ r : List ℝ, dot r [0, 0, 0, 0] = 0 := by
    intro r
    have := dot_zeros_right 4 r
    exact this
  have e : vsub ([0, 100, 0, 0] : List ℝ) (([0, 100, 0, 0] : List ℝ).take 2 ++ zeros (([0, 100, 0, 0] : List ℝ).length - 2)) = [0, 0, 0, 0] := by
    simp [vsub, zeros, List.replicate]
  unfold lqrControl
  rw [e]
  simp only [List.map_cons, List.map_nil, matVec, h]

/-- Nothing happens along the backup trajectory of a vehicle at rest if the integrator knows that it stays. -/
theorem rest_path {E : ImplicitEnv ℝ} {s : ImplicitObj ℝ DockParams A} {r1 r2 : List ℝ}
    (hgen : s.ext.extra.ctrl.gen = fun x _ _ => some (lqrControl 2 [r1, r2] x, .none)) (hst : s.ext.extra.ctrl.state = .none)
    (hlo : s.controlBoundsLow = some (.scalar (-1))) (hhi : s.controlBoundsHigh = some (.scalar 1)) {dt : ℝ}
    (hpred : E.pred [0, 100, 0, 0] dt [0, 0] = [0, 100, 0, 0]) (k : Nat) :
    backupPath E s [0, 100, 0, 0] dt k = some ([0, 100, 0, 0], .none) := by
  induction k with
  | zero => rw [backupPath, hst]
  | succ k ih =>
    have hclip : s.toBase.clipControl [0, 0] = .ok [0, 0] := by
      refine C05_clip_identity s.toBase [0, 0] ?_ ?_ ?_
      · rw [hlo]; trivial
      · rw [hhi]; trivial
      · rw [hlo, hhi]; exact within_scalar (by simp)
    rw [C36_trajectory E s _ _ dt k _ ih [0, 0] .none (by rw [hgen]; simp only [lqr2_rest]) [0, 0] hclip, hpred]

theorem rest_variation {E : ImplicitEnv ℝ} {s : ImplicitObj ℝ DockParams A} {r1 r2 : List ℝ}
    (hgen : s.ext.extra.ctrl.gen = fun x _ _ => some (lqrControl 2 [r1, r2] x, .none)) (hst : s.ext.extra.ctrl.state = .none)
    (hlo : s.controlBoundsLow = some (.scalar (-1))) (hhi : s.controlBoundsHigh = some (.scalar 1)) {dt : ℝ}
    (hpred : E.pred [0, 100, 0, 0] dt [0, 0] = [0, 100, 0, 0]) (had : ∀ F y, (E.ad F y).length = 4) (k : Nat) :
    variation E s [0, 100, 0, 0] dt (zeros 4) k = zeros 4 := by
  induction k with
  | zero => rfl
  | succ k ih =>
    unfold variation
    rw [rest_path hgen hst hlo hhi hpred, ih]
    simp only
    have h : ∀ M : List (List ℝ), M.length = 4 → matVec M (zeros 4) = zeros 4 := by
      intro M hM
      match M, hM with
      | [a, b, c, d], _ => simp only [matVec, List.map_cons, List.map_nil, dot_zeros_right]; rfl
    rw [h _ (had _ _)]
    simp [vscale, vadd, zeros, List.replicate]

/-- **C77 is not about nothing**: the default 2-D module with any LQR gains, an integrator under which a vehicle at rest 100 m ahead on the
along-track axis stays where it is, and Jacobians of the right size, asked for no thrust there returns no thrust. -/
theorem C77_rest {solver : Solver ℝ} (hspec : SolverSpec solver) {E : ImplicitEnv ℝ} (hf : E.f = dockF2 (1027 / 1000000))
    (hg : E.g = dockG2 12) (hpred : E.pred [0, 100, 0, 0] 1 [0, 0] = [0, 100, 0, 0])
    (had : ∀ F y, (E.ad F y).length = 4 ∧ ∀ r ∈ E.ad F y, r.length = 4) {r1 r2 : List ℝ} {epsilon : ℝ} {exc : Bool}
    {s : ImplicitObj ℝ DockParams A}
    (h : dock2Implicit (1027 / 1000000) (1 / 5) 2 0 10 10 (some (.scalar 1)) (some (.scalar (-1)))
      (fun x _ _ => some (lqrControl 2 [r1, r2] x, .none)) .none 5 epsilon exc = .ok s) :
    ∃ s', E.call solver s (.array [0, 100, 0, 0]) 1 [0, 0] = (.ok [0, 0], s') := by
  obtain ⟨hc, hdim, hdir, hen, hlo, hhi, -, -, hwin, hgen, hst⟩ := dock2I_init h
  have hmod : ImplicitModule solver E s := dock2I_module h
  have hfield : vadd (E.f [0, 100, 0, 0]) (matVec (E.g [0, 100, 0, 0]) [0, 0]) = zeros 4 := by
    rw [hf, hg, field2_eq]; norm_num [zeros, List.replicate]
  have hsafe : Docking2Safe (1 / 5) (2 * (1027 / 1000000)) 0 10 10 0 100 0 0 := by
    refine ⟨?_, by norm_num, by norm_num⟩
    have h1 : √((0 : ℝ) ^ 2 + 0 ^ 2 + 1 / 100000) ≤ 1 / 100 := by
      rw [sqrt_le_left (by norm_num)]; norm_num
    have h2 := sqrt_nonneg ((0 : ℝ) ^ 2 + 100 ^ 2 + 1 / 100000)
    nlinarith
  have hpath := fun k => rest_path (E := E) hgen hst hlo hhi hpred k
  have hvar := fun k => rest_variation (E := E) hgen hst hlo hhi hpred (fun F y => (had F y).1) k
  have hpt : ∀ (c : Constraint ℝ (List ℝ) DockParams) (coefs : List ℝ) (_ : ClassKCoefs coefs) (_ : c.alpha = some (polyAlpha coefs))
      (_ : 0 ≤ c.value [0, 100, 0, 0]) (k : Nat), PointOK E s [0, 100, 0, 0] 1 c [0, 0] k := by
    intro c coefs hk ha hv k
    refine ⟨polyAlpha coefs (c.value [0, 100, 0, 0]), ?_, ?_⟩
    · unfold pointValue
      rw [hpath k, ha, hfield, hvar k]
      simp only [dot_zeros_right, zero_add]
      rfl
    · rcases hv.lt_or_eq with hv | hv
      · exact ((C33_sign coefs hk _).2 hv).le
      · rw [← hv]; exact (C33_class_k coefs hk).1.ge
  have hadm : AdmissibleI E s [0, 100, 0, 0] 1 [0, 0] := by
    refine ⟨by rw [hdim]; rfl, ?_, ?_, by rw [hdir]; simp⟩
    · rw [hlo, hhi]; exact within_scalar (by simp)
    · intro kc hkc _ k _
      rw [hc] at hkc
      simp only [dockConstraints2, List.mem_cons, List.not_mem_nil, or_false] at hkc
      rcases hkc with rfl | rfl | rfl
      · refine hpt _ _ dockCoefs2_class_k rfl ?_ k
        have := hsafe.rel
        rw [rel_value2]; linarith
      · exact hpt _ _ limitAlpha_class_k rfl (by rw [limit_value]; norm_num) k
      · exact hpt _ _ limitAlpha_class_k rfl (by rw [limit_value]; norm_num) k
  have hsh : ShapesI E s [0, 100, 0, 0] 1 := by
    refine ⟨one_ne_zero, ?_, ?_, ?_, ?_, ?_, ?_, ?_, ?_, ?_, by rw [hdir]; simp⟩
    · rw [hwin]; norm_num [pyInt]
    · rw [hc]; simp [dockConstraints2, dockRelVel, dockLimit, Constraint.mk']
    · rw [hc]; simp [dockConstraints2, dockRelVel, dockLimit, Constraint.mk']
    · rw [hc]; simp [dockConstraints2, dockRelVel, dockLimit, Constraint.mk']
    · rw [hf]; simp [dockF2, cwhA2]
    · rw [hg]; simp [dockG2, cwhB2]
    · rw [hg, hdim]; simp [dockG2, cwhB2]
    · intro z; rw [hst]; simp
    · intro k _
      refine ⟨_, _, hpath k, ?_, fun _ => ⟨⟨[0, 0], .none, by rw [hgen]; simp only [lqr2_rest], by rw [hg]; simp [dockG2, cwhB2]⟩,
        by rw [hf, hg]; simp [dockF2, dockG2, cwhA2, cwhB2], (had _ _).1, (had _ _).2⟩⟩
      rw [hc]; simp [dockConstraints2, dockRelVel, dockLimit, Constraint.mk', relVelGrad2, gradAt]
  have hfit : ∀ kc ∈ s.constraints, (pointsOf E s [0, 100, 0, 0] 1 kc.2).length ≤ numPoints s 1 := by
    intro kc hkc
    have hsub : kc.2.subsample = {} := by
      rw [hc] at hkc
      simp only [dockConstraints2, List.mem_cons, List.not_mem_nil, or_false] at hkc
      rcases hkc with rfl | rfl | rfl <;> rfl
    unfold pointsOf
    rw [hsub, C37_default_every_point, List.length_range]
  obtain ⟨v, hv⟩ := (C36_returns hspec hmod hen _ 1 hsh hfit [0, 0] (by rw [hdim]; rfl)).1 ⟨_, hadm⟩
  have hcall : E.call solver s (.array [0, 100, 0, 0]) 1 [0, 0] = (.ok v, (E.call solver s (.array [0, 100, 0, 0]) 1 [0, 0]).2) := Prod.ext hv rfl
  obtain ⟨-, hmin, -⟩ := C36_closest_admissible hspec hmod hen _ 1 [0, 0] v hcall ⟨_, hadm⟩
  have hr : [0, 0] = v := by
    by_contra hne
    have := hmin _ hadm hne
    have h0 : sqDist ([0, 0] : List ℝ) [0, 0] = 0 := sqDist_self _
    rw [h0] at this
    exact absurd this (not_lt.2 (sqDist_nonneg _ _))
  exact ⟨_, by rw [hcall, hr]⟩

/-- With scalar bounds and the LQR controller construction succeeds, so `C77_rest` and with it the loop of `C77_closed_loop_2d` has instances: the
vehicle that stays at rest. -/
example {solver : Solver ℝ} (hspec : SolverSpec solver) (r1 r2 : List ℝ) : ∀ t : ℝ, 0 ≤ t →
    √((0 : ℝ) ^ 2 + 0 ^ 2) ≤ 1 / 5 + 2 * (1027 / 1000000) * (√((0 : ℝ) ^ 2 + 100 ^ 2) - 0) := by
  obtain ⟨s, h⟩ : ∃ s : ImplicitObj ℝ DockParams Unit, dock2Implicit (1027 / 1000000) (1 / 5) 2 0 10 10 (some (.scalar 1)) (some (.scalar (-1)))
      (fun x _ _ => some (lqrControl 2 [r1, r2] x, .none)) .none 5 0 true = .ok s := ⟨_, rfl⟩
  obtain ⟨hc, -, -, hen, -, -, hexc, -⟩ := dock2I_init h
  have hfield : vadd (dockF2 (1027 / 1000000) [0, 100, 0, 0]) (matVec (dockG2 12 [0, 100, 0, 0]) [0, 0]) = [0, 0, 0, 0] := by
    rw [field2_eq]; norm_num
  have htraj : Trajectory univ 4 (dockF2 (1027 / 1000000)) (dockG2 12) (fun _ => [0, 100, 0, 0]) (fun _ => [0, 0]) := by
    refine ⟨fun _ _ => ⟨mem_univ _, rfl⟩, fun _ _ => continuousOn_const, fun t _ => by rw [hfield]; rfl, fun t _ i hi => ?_⟩
    rw [hfield]
    refine (hasDerivWithinAt_const t (Ici t) _).congr_deriv ?_
    match i, hi with
    | 0, _ => rfl
    | 1, _ => rfl
    | 2, _ => rfl
    | 3, _ => rfl
  let E : ImplicitEnv ℝ := ⟨fun _ _ => cwhA2 (1027 / 1000000), dockF2 (1027 / 1000000), dockG2 12, fun y _ _ => y⟩
  obtain ⟨s', hs'⟩ := C77_rest hspec (E := E) rfl rfl rfl (fun F y => ⟨rfl, by simp [E, cwhA2]⟩) h
  intro t ht
  refine (C77_closed_loop_2d (A := Unit) hspec (by norm_num) (by norm_num) (E := E) rfl rfl htraj (xLim := 10) (yLim := 10)
    (fun t ht => ⟨s, s', 1, [0, 0], dock2I_module h, hc, hen, Or.inl hexc, hs'⟩) ?_ t ht).1
  refine ⟨?_, by norm_num [comp], by norm_num [comp]⟩
  simp only [comp, List.getD_cons_zero, List.getD_cons_succ]
  have h1 : √((0 : ℝ) ^ 2 + 0 ^ 2 + 1 / 100000) ≤ 1 / 100 := by
    rw [sqrt_le_left (by norm_num)]; norm_num
  have h2 := sqrt_nonneg ((0 : ℝ) ^ 2 + 100 ^ 2 + 1 / 100000)
  nlinarith

end RTA
