import Verif.Props.ClosedLoopOn
import Verif.Lemmas.Zoo.DockingStep

/-!
C83: the switching docking modules in closed loop, with the gains of their own backup controllers.
-/
namespace RTA
open Real Matrix
variable {A : Type}

/-- What every constructed 2-D switching module looks like. -/
theorem dock2S_init {n v0 v1Coef v0Distance xLim yLim latchTime window : ℝ} {high low : Option (Bound ℝ)} {G : List (List ℝ)}
    {s : SimplexObj ℝ (List ℝ) DockParams A} (h : dock2Simplex n v0 v1Coef v0Distance xLim yLim high low G latchTime window = .ok s) :
    s.constraints = dockConstraints2 v0 (v1Coef * n) v0Distance xLim yLim ∧ s.enable = true ∧ s.controlBoundsLow = low ∧
      s.controlBoundsHigh = high ∧ s.ext.ctrl.gen = (fun x _ _ => some (lqrControl 2 G x, .none)) ∧ s.ext.ctrl.state = .none ∧ WF s ∧
      s.ext.latchTime = latchTime ∧ s.ext.backupWindow = window ∧ s.ext.latchedElapsed = 0 ∧ s.intervening = false := by
  unfold dock2Simplex lqrBackup BackupController.init at h
  simp only [CState.copy] at h
  unfold simplexInit CBObj.init at h
  have e : selectConstraints (dockConstraints2 v0 (v1Coef * n) v0Distance xLim yLim) none = .ok (dockConstraints2 v0 (v1Coef * n) v0Distance xLim yLim) := rfl
  rw [e] at h
  simp only [Except.ok.injEq] at h
  subst h
  exact ⟨rfl, rfl, rfl, rfl, rfl, rfl, ⟨(by decide : ["rel_vel", "x_vel", "y_vel"].Nodup), rfl, rfl⟩, rfl, rfl, rfl, rfl⟩

/-- What every constructed 3-D switching module looks like. -/
theorem dock3S_init {n v0 v1Coef v0Distance xLim yLim zLim latchTime window : ℝ} {high low : Option (Bound ℝ)} {G : List (List ℝ)}
    {s : SimplexObj ℝ (List ℝ) DockParams A} (h : dock3Simplex n v0 v1Coef v0Distance xLim yLim zLim high low G latchTime window = .ok s) :
    s.constraints = dockConstraints3 v0 (v1Coef * n) v0Distance xLim yLim zLim ∧ s.enable = true ∧ s.controlBoundsLow = low ∧
      s.controlBoundsHigh = high ∧ s.ext.ctrl.gen = (fun x _ _ => some (lqrControl 3 G x, .none)) ∧ s.ext.ctrl.state = .none ∧ WF s ∧
      s.ext.latchTime = latchTime ∧ s.ext.backupWindow = window ∧ s.ext.latchedElapsed = 0 ∧ s.intervening = false := by
  unfold dock3Simplex lqrBackup BackupController.init at h
  simp only [CState.copy] at h
  unfold simplexInit CBObj.init at h
  have e : selectConstraints (dockConstraints3 v0 (v1Coef * n) v0Distance xLim yLim zLim) none =
    .ok (dockConstraints3 v0 (v1Coef * n) v0Distance xLim yLim zLim) := rfl
  rw [e] at h
  simp only [Except.ok.injEq] at h
  subst h
  exact ⟨rfl, rfl, rfl, rfl, rfl, rfl, ⟨(by decide : ["rel_vel", "x_vel", "y_vel", "z_vel"].Nodup), rfl, rfl⟩, rfl, rfl, rfl, rfl⟩

theorem dock2_safe_iff {v0 v1 v0Distance xLim yLim x y a b : ℝ} :
    SafeAt (dockConstraints2 v0 v1 v0Distance xLim yLim) [x, y, a, b] ↔ Docking2Safe v0 v1 v0Distance xLim yLim x y a b := by
  have h1 := rel_value2 dockCoefs2 v0 v1 v0Distance x y a b
  have h2 := limit_value xLim 2 [x, y, a, b]
  have h3 := limit_value yLim 3 [x, y, a, b]
  have hd : SafeAt (dockConstraints2 v0 v1 v0Distance xLim yLim) [x, y, a, b] ↔
      0 ≤ (dockRelVel 2 dockCoefs2 v0 v1 v0Distance).value [x, y, a, b] ∧ 0 ≤ (dockLimit xLim 2).value [x, y, a, b] ∧
        0 ≤ (dockLimit yLim 3).value [x, y, a, b] := by
    constructor
    · intro h
      exact ⟨h ("rel_vel", dockRelVel 2 dockCoefs2 v0 v1 v0Distance) (by unfold dockConstraints2; exact .head _) rfl, h ("x_vel", dockLimit xLim 2) (by unfold dockConstraints2; exact .tail _ (.head _)) rfl,
        h ("y_vel", dockLimit yLim 3) (by unfold dockConstraints2; exact .tail _ (.tail _ (.head _))) rfl⟩
    · rintro ⟨ha, hb, hc⟩ kc hkc _
      simp only [dockConstraints2, List.mem_cons, List.not_mem_nil, or_false] at hkc
      rcases hkc with rfl | rfl | rfl
      · exact ha
      · exact hb
      · exact hc
  rw [hd, h1, h2, h3]
  simp only [List.getD_cons_succ, List.getD_cons_zero]
  constructor
  · rintro ⟨ha, hb, hc⟩; exact ⟨by linarith, by linarith, by linarith⟩
  · rintro ⟨ha, hb, hc⟩; exact ⟨by linarith, by linarith, by linarith⟩

theorem dock3_safe_iff {v0 v1 v0Distance xLim yLim zLim x y z a b c : ℝ} :
    SafeAt (dockConstraints3 v0 v1 v0Distance xLim yLim zLim) [x, y, z, a, b, c] ↔
      Docking3Safe v0 v1 v0Distance xLim yLim zLim x y z a b c := by
  have h1 := rel_value3 dockCoefs3 v0 v1 v0Distance x y z a b c
  have h2 := limit_value xLim 3 [x, y, z, a, b, c]
  have h3 := limit_value yLim 4 [x, y, z, a, b, c]
  have h4 := limit_value zLim 5 [x, y, z, a, b, c]
  have hd : SafeAt (dockConstraints3 v0 v1 v0Distance xLim yLim zLim) [x, y, z, a, b, c] ↔
      0 ≤ (dockRelVel 3 dockCoefs3 v0 v1 v0Distance).value [x, y, z, a, b, c] ∧ 0 ≤ (dockLimit xLim 3).value [x, y, z, a, b, c] ∧
        0 ≤ (dockLimit yLim 4).value [x, y, z, a, b, c] ∧ 0 ≤ (dockLimit zLim 5).value [x, y, z, a, b, c] := by
    constructor
    · intro h
      exact ⟨h ("rel_vel", dockRelVel 3 dockCoefs3 v0 v1 v0Distance) (by unfold dockConstraints3; exact .head _) rfl, h ("x_vel", dockLimit xLim 3) (by unfold dockConstraints3; exact .tail _ (.head _)) rfl,
        h ("y_vel", dockLimit yLim 4) (by unfold dockConstraints3; exact .tail _ (.tail _ (.head _))) rfl, h ("z_vel", dockLimit zLim 5) (by unfold dockConstraints3; exact .tail _ (.tail _ (.tail _ (.head _)))) rfl⟩
    · rintro ⟨ha, hb, hc, hd⟩ kc hkc _
      simp only [dockConstraints3, List.mem_cons, List.not_mem_nil, or_false] at hkc
      rcases hkc with rfl | rfl | rfl | rfl
      · exact ha
      · exact hb
      · exact hc
      · exact hd
  rw [hd, h1, h2, h3, h4]
  simp only [List.getD_cons_succ, List.getD_cons_zero]
  constructor
  · rintro ⟨ha, hb, hc, hd⟩; exact ⟨by linarith, by linarith, by linarith, by linarith⟩
  · rintro ⟨ha, hb, hc, hd⟩; exact ⟨by linarith, by linarith, by linarith, by linarith⟩

/-- Controls with components at most one pass the default bounds. -/
theorem clip_unit (b : Base ℝ) (hh : b.controlBoundsHigh = some (.scalar 1)) (hl : b.controlBoundsLow = some (.scalar (-1))) {u : List ℝ}
    (h : ∀ c ∈ u, |c| ≤ 1) : b.clipControl u = .ok u :=
  C05_clip_identity b u (by rw [hl]; trivial) (by rw [hh]; trivial) (by rw [hh, hl]; exact within_scalar h)

theorem sqrt_scale {k S T : ℝ} (hk : 0 ≤ k) (hT : 0 ≤ T) (h : S ≤ k ^ 2 * T) : √S ≤ k * √T := by
  refine sqrt_le_iff.2 ⟨by positivity, ?_⟩
  rw [mul_pow, sq_sqrt hT]
  exact h

theorem force2_norm {n : ℝ} (hn : 0 ≤ n) (x y a b : ℝ) : ‖(!₂[3 * n ^ 2 * x + 2 * n * b, -2 * n * a] : EuclideanSpace ℝ (Fin 2))‖ ≤
    2 * n * √(a ^ 2 + b ^ 2) + 3 * n ^ 2 * √(x ^ 2 + y ^ 2) := by
  have e : (!₂[3 * n ^ 2 * x + 2 * n * b, -2 * n * a] : EuclideanSpace ℝ (Fin 2)) = !₂[3 * n ^ 2 * x, 0] + !₂[2 * n * b, -2 * n * a] := by
    ext i; fin_cases i <;> simp
  rw [e]
  refine (norm_add_le _ _).trans ?_
  rw [norm_two, norm_two, add_comm]
  refine add_le_add ?_ ?_
  · refine sqrt_scale (by positivity) (by positivity) ?_
    linarith
  · refine sqrt_scale (by positivity) (by positivity) ?_
    have := mul_nonneg (sq_nonneg (3 * n ^ 2)) (sq_nonneg y)
    linarith

theorem force3_norm {n : ℝ} (hn : 0 ≤ n) (x y z a b c : ℝ) :
    ‖(!₂[3 * n ^ 2 * x + 2 * n * b, -2 * n * a, -(n ^ 2) * z] : EuclideanSpace ℝ (Fin 3))‖ ≤
    2 * n * √(a ^ 2 + b ^ 2 + c ^ 2) + 3 * n ^ 2 * √(x ^ 2 + y ^ 2 + z ^ 2) := by
  have e : (!₂[3 * n ^ 2 * x + 2 * n * b, -2 * n * a, -(n ^ 2) * z] : EuclideanSpace ℝ (Fin 3)) =
      !₂[3 * n ^ 2 * x, 0, -(n ^ 2) * z] + !₂[2 * n * b, -2 * n * a, 0] := by
    ext i; fin_cases i <;> simp
  rw [e]
  refine (norm_add_le _ _).trans ?_
  rw [norm_three, norm_three, add_comm]
  refine add_le_add ?_ ?_
  · refine sqrt_scale (by positivity) (by positivity) ?_
    have := mul_nonneg (sq_nonneg (2 * n)) (sq_nonneg c)
    linarith
  · refine sqrt_scale (by positivity) (by positivity) ?_
    have := mul_nonneg (sq_nonneg (3 * n ^ 2)) (sq_nonneg y)
    have := mul_nonneg (sq_nonneg (n ^ 2)) (sq_nonneg z)
    linarith

/-- One step of the backup law in the plane. -/
theorem back_step2 {n v0 v1Coef v0Distance xLim yLim dt : ℝ} (hn : 0 ≤ n) (hn1 : n ≤ 11 / 10000) (hC : 1 ≤ v1Coef) (hC4 : v1Coef ≤ 4)
    (hw : 1 / 20 ≤ v0 - v1Coef * n * v0Distance - 1 / 10000) (hx : 9 / 4 ≤ xLim) (hy : 9 / 4 ≤ yLim) {pred : List ℝ → ℝ → List ℝ → List ℝ}
    (hdt : 0 ≤ dt) (hdt1 : dt ≤ 25) (hpred : NearEuler2 n dt pred) {p11 p12 p21 p22 k11 k12 k22 : ℝ}
    (hk : ∀ a b : ℝ, 39 / 100 * (a ^ 2 + b ^ 2) ≤ a * (k11 * a + k12 * b) + b * (k12 * a + k22 * b) ∧
        a * (k11 * a + k12 * b) + b * (k12 * a + k22 * b) ≤ 44 / 100 * (a ^ 2 + b ^ 2))
    (b : Base ℝ) (hh : b.controlBoundsHigh = some (.scalar 1)) (hl : b.controlBoundsLow = some (.scalar (-1))) {X cb : List ℝ}
    (hgood : Near2 v0 (v1Coef * n) v0Distance X) (hsafe : SafeAt (dockConstraints2 v0 (v1Coef * n) v0Distance xLim yLim) X)
    (hcb : b.clipControl (lqrControl 2 [[p11, p12, k11, k12], [p21, p22, k12, k22]] X) = .ok cb) :
    SafeAt (dockConstraints2 v0 (v1Coef * n) v0Distance xLim yLim) (pred X dt cb) := by
  obtain ⟨x, y, a, b', rfl, hnear⟩ := hgood
  obtain ⟨hrel, -, -⟩ := dock2_safe_iff.1 hsafe
  have hsize := gain2_size hk a b'
  have hV : a ^ 2 + b' ^ 2 ≤ (9 / 4) ^ 2 := by
    have h1 : √(a ^ 2 + b' ^ 2 + 1 / 100000) ≤ 9 / 4 := by linarith
    have := (sqrt_le_iff.1 h1).2
    linarith
  rw [lqr2_eq, clip_unit b hh hl (by
    intro c hc
    simp only [List.mem_cons, List.not_mem_nil, or_false] at hc
    rcases hc with rfl | rfl
    · rw [abs_neg]; exact abs_le_one_iff_mul_self_le_one.2 (by nlinarith [sq_nonneg (k12 * a + k22 * b')])
    · rw [abs_neg]; exact abs_le_one_iff_mul_self_le_one.2 (by nlinarith [sq_nonneg (k11 * a + k12 * b')])), Except.ok.injEq] at hcb
  subst hcb
  obtain ⟨x', y', a', b'', hp, hpos, hvel⟩ := hpred x y a b' (-(k11 * a + k12 * b')) (-(k12 * a + k22 * b')) (by nlinarith)
  rw [hp, dock2_safe_iff]
  have key := step_vec (d := 2) hn hn1 hC hC4 hw hdt hdt1 (r := !₂[x, y]) (v := !₂[a, b']) (r' := !₂[x', y']) (v' := !₂[a', b''])
    (f := !₂[3 * n ^ 2 * x + 2 * n * b', -2 * n * a])
    (tv := !₂[a - dt * (1 / 12 * (k11 * a + k12 * b')), b' - dt * (1 / 12 * (k12 * a + k22 * b'))])
    (by rw [norm_two, norm_two, sq_sqrt (by positivity), sq_sqrt (by positivity)]; linarith)
    (by rw [norm_two, norm_two]; exact shrink2 hdt hdt1 hk a b')
    (by rw [norm_two a b', norm_two x y]; exact force2_norm hn x y a b')
    (by
      have e : (!₂[x', y'] : EuclideanSpace ℝ (Fin 2)) - !₂[x, y] = !₂[x' - x, y' - y] := by ext i; fin_cases i <;> simp
      rw [e, norm_two, norm_two, norm_two]
      exact hpos)
    (by
      have e : (!₂[a', b''] : EuclideanSpace ℝ (Fin 2)) - (!₂[a - dt * (1 / 12 * (k11 * a + k12 * b')), b' - dt * (1 / 12 * (k12 * a + k22 * b'))] +
          dt • !₂[3 * n ^ 2 * x + 2 * n * b', -2 * n * a]) =
          !₂[a' - (a + dt * (3 * n ^ 2 * x + 2 * n * b' + 1 / 12 * -(k11 * a + k12 * b'))), b'' - (b' + dt * (-2 * n * a + 1 / 12 * -(k12 * a + k22 * b')))] := by
        ext i; fin_cases i <;> simp <;> ring
      rw [e, norm_two, norm_two, norm_two]
      exact hvel)
  rw [norm_two, norm_two, norm_two, sq_sqrt (by positivity), sq_sqrt (by positivity), sq_sqrt (by positivity)] at key
  have hlim : √(a' ^ 2 + b'' ^ 2 + 1 / 100000) ≤ 9 / 4 := by linarith [key.2]
  have hlim2 := (sqrt_le_iff.1 hlim).2
  have t1 := sq_nonneg a'
  have t2 := sq_nonneg b''
  have hX := pow_le_pow_left₀ (by norm_num) hx 2
  have hY := pow_le_pow_left₀ (by norm_num) hy 2
  exact ⟨by linarith [key.1], by linarith, by linarith⟩

/-- The law in space. -/
theorem back_step3 {n v0 v1Coef v0Distance xLim yLim zLim dt : ℝ} (hn : 0 ≤ n) (hn1 : n ≤ 11 / 10000) (hC : 1 ≤ v1Coef) (hC4 : v1Coef ≤ 4)
    (hw : 1 / 20 ≤ v0 - v1Coef * n * v0Distance - 1 / 10000) (hx : 9 / 4 ≤ xLim) (hy : 9 / 4 ≤ yLim) (hz : 9 / 4 ≤ zLim)
    {pred : List ℝ → ℝ → List ℝ → List ℝ}
    (hdt : 0 ≤ dt) (hdt1 : dt ≤ 25) (hpred : NearEuler3 n dt pred) {p11 p12 p13 p21 p22 p23 p31 p32 p33 k11 k12 k13 k22 k23 k33 : ℝ}
    (hk : ∀ a b c : ℝ, 39 / 100 * (a ^ 2 + b ^ 2 + c ^ 2) ≤
          a * (k11 * a + k12 * b + k13 * c) + b * (k12 * a + k22 * b + k23 * c) + c * (k13 * a + k23 * b + k33 * c) ∧
        a * (k11 * a + k12 * b + k13 * c) + b * (k12 * a + k22 * b + k23 * c) + c * (k13 * a + k23 * b + k33 * c) ≤
          44 / 100 * (a ^ 2 + b ^ 2 + c ^ 2))
    (b : Base ℝ) (hh : b.controlBoundsHigh = some (.scalar 1)) (hl : b.controlBoundsLow = some (.scalar (-1))) {X cb : List ℝ}
    (hgood : Near3 v0 (v1Coef * n) v0Distance X) (hsafe : SafeAt (dockConstraints3 v0 (v1Coef * n) v0Distance xLim yLim zLim) X)
    (hcb : b.clipControl (lqrControl 3 [[p11, p12, p13, k11, k12, k13], [p21, p22, p23, k12, k22, k23], [p31, p32, p33, k13, k23, k33]] X) = .ok cb) :
    SafeAt (dockConstraints3 v0 (v1Coef * n) v0Distance xLim yLim zLim) (pred X dt cb) := by
  obtain ⟨x, y, z, a, b', c, rfl, hnear⟩ := hgood
  obtain ⟨hrel, -, -, -⟩ := dock3_safe_iff.1 hsafe
  have hsize := gain3_size hk a b' c
  have hV : a ^ 2 + b' ^ 2 + c ^ 2 ≤ (9 / 4) ^ 2 := by
    have h1 : √(a ^ 2 + b' ^ 2 + c ^ 2 + 1 / 100000) ≤ 9 / 4 := by linarith
    have := (sqrt_le_iff.1 h1).2
    linarith
  have s1 := sq_nonneg (k11 * a + k12 * b' + k13 * c)
  have s2 := sq_nonneg (k12 * a + k22 * b' + k23 * c)
  have s3 := sq_nonneg (k13 * a + k23 * b' + k33 * c)
  rw [lqr3_eq, clip_unit b hh hl (by
    intro e he
    simp only [List.mem_cons, List.not_mem_nil, or_false] at he
    rcases he with rfl | rfl | rfl <;> rw [abs_neg] <;> exact abs_le_one_iff_mul_self_le_one.2 (by rw [← pow_two]; linarith)), Except.ok.injEq] at hcb
  subst hcb
  obtain ⟨x', y', z', a', b'', c', hp, hpos, hvel⟩ := hpred x y z a b' c (-(k11 * a + k12 * b' + k13 * c)) (-(k12 * a + k22 * b' + k23 * c))
    (-(k13 * a + k23 * b' + k33 * c)) (by rw [neg_sq, neg_sq, neg_sq]; linarith [sq_nonneg a, sq_nonneg b', sq_nonneg c])
  rw [hp, dock3_safe_iff]
  have key := step_vec (d := 3) hn hn1 hC hC4 hw hdt hdt1 (r := !₂[x, y, z]) (v := !₂[a, b', c]) (r' := !₂[x', y', z']) (v' := !₂[a', b'', c'])
    (f := !₂[3 * n ^ 2 * x + 2 * n * b', -2 * n * a, -(n ^ 2) * z])
    (tv := !₂[a - dt * (1 / 12 * (k11 * a + k12 * b' + k13 * c)), b' - dt * (1 / 12 * (k12 * a + k22 * b' + k23 * c)),
      c - dt * (1 / 12 * (k13 * a + k23 * b' + k33 * c))])
    (by rw [norm_three, norm_three, sq_sqrt (by positivity), sq_sqrt (by positivity)]; linarith)
    (by rw [norm_three, norm_three]; exact shrink3 hdt hdt1 hk a b' c)
    (by rw [norm_three a b' c, norm_three x y z]; exact force3_norm hn x y z a b' c)
    (by
      have e : (!₂[x', y', z'] : EuclideanSpace ℝ (Fin 3)) - !₂[x, y, z] = !₂[x' - x, y' - y, z' - z] := by ext i; fin_cases i <;> simp
      rw [e, norm_three, norm_three, norm_three]
      exact hpos)
    (by
      have e : (!₂[a', b'', c'] : EuclideanSpace ℝ (Fin 3)) - (!₂[a - dt * (1 / 12 * (k11 * a + k12 * b' + k13 * c)),
          b' - dt * (1 / 12 * (k12 * a + k22 * b' + k23 * c)), c - dt * (1 / 12 * (k13 * a + k23 * b' + k33 * c))] +
          dt • !₂[3 * n ^ 2 * x + 2 * n * b', -2 * n * a, -(n ^ 2) * z]) =
          !₂[a' - (a + dt * (3 * n ^ 2 * x + 2 * n * b' + 1 / 12 * -(k11 * a + k12 * b' + k13 * c))),
            b'' - (b' + dt * (-2 * n * a + 1 / 12 * -(k12 * a + k22 * b' + k23 * c))),
            c' - (c + dt * (-(n ^ 2) * z + 1 / 12 * -(k13 * a + k23 * b' + k33 * c)))] := by
        ext i; fin_cases i <;> simp <;> ring
      rw [e, norm_three, norm_three, norm_three]
      exact hvel)
  rw [norm_three, norm_three, norm_three, sq_sqrt (by positivity), sq_sqrt (by positivity), sq_sqrt (by positivity)] at key
  have hlim : √(a' ^ 2 + b'' ^ 2 + c' ^ 2 + 1 / 100000) ≤ 9 / 4 := by linarith [key.2]
  have hlim2 := (sqrt_le_iff.1 hlim).2
  have t1 := sq_nonneg a'
  have t2 := sq_nonneg b''
  have t3 := sq_nonneg c'
  have hX := pow_le_pow_left₀ (by norm_num) hx 2
  have hY := pow_le_pow_left₀ (by norm_num) hy 2
  have hZ := pow_le_pow_left₀ (by norm_num) hz 2
  exact ⟨by linarith [key.1], by linarith, by linarith, by linarith⟩

/-- **C83, explicit switching in the plane.** A 2-D explicit switching docking module for a 12 kg spacecraft with the gains its backup controller
computes, control bounds ±1 and any latch time. The filtered loop runs forever and keeps the enforced speed limit and the limits on the components at
every step, for all admissible desired controls and all step sizes up to 25 s, as long as the spacecraft stays where the speed limit is at most
2.25 m/s and the prediction is close to Euler's. -/
theorem C83_explicit_2d {n v0 v1Coef v0Distance xLim yLim latchTime window : ℝ} (hn : 0 ≤ n) (hn1 : n ≤ 11 / 10000) (hC : 1 ≤ v1Coef)
    (hC4 : v1Coef ≤ 4) (hw : 1 / 20 ≤ v0 - v1Coef * n * v0Distance - 1 / 10000) (hx : 9 / 4 ≤ xLim) (hy : 9 / 4 ≤ yLim)
    {P : Matrix (Fin 4) (Fin 4) ℝ} (hP : IsCARE (toMat (cwhA2 n)) (toMat (cwhB2 12)) (dockQ 4) (dockR 2) P) (hpsd : Psd P)
    {s0 : SimplexObj ℝ (List ℝ) DockParams A}
    (hs : dock2Simplex n v0 v1Coef v0Distance xLim yLim (some (.scalar 1)) (some (.scalar (-1)))
      (matRows (lqrGain (toMat (cwhB2 12)) (dockR 2) P)) latchTime window = .ok s0)
    {pred : List ℝ → ℝ → List ℝ → List ℝ} {dts : Nat → ℝ} (hdt : ∀ k, 0 ≤ dts k ∧ dts k ≤ 25 ∧ NearEuler2 n (dts k) pred)
    {us : Nat → List ℝ} (hus : ∀ k, ∀ c ∈ us k, |c| ≤ 1) {x y a b : ℝ}
    (hsafe : Docking2Safe v0 (v1Coef * n) v0Distance xLim yLim x y a b)
    (hnear : ∀ k X s, closedLoop (explicitSimplex pred) pred dts us [x, y, a, b] s0 k = some (X, s) → Near2 v0 (v1Coef * n) v0Distance X)
    (k : Nat) : ∃ x' y' a' b' s, closedLoop (explicitSimplex pred) pred dts us [x, y, a, b] s0 k = some ([x', y', a', b'], s) ∧
      Docking2Safe v0 (v1Coef * n) v0Distance xLim yLim x' y' a' b' := by
  obtain ⟨p11, p12, p21, p22, k11, k12, k22, hG, hk⟩ := gain2_bounds hn hn1 hP hpsd
  rw [hG] at hs
  obtain ⟨hcs, hen, hl, hh, hgen, hst, hwf, -⟩ := dock2S_init hs
  obtain ⟨X, s, hX, hsX⟩ := C18_explicit_closed_loop_safe_on (Near2 v0 (v1Coef * n) v0Distance) pred dts us [x, y, a, b] s0 hwf hen
    (by rw [hcs]; exact dock2_safe_iff.2 hsafe) (fun k => clip_unit _ hh hl (hus k))
    (fun k X z _ => by
      obtain ⟨c, hc, -⟩ := C05_clip_total s0.toBase (lqrControl 2 [[p11, p12, k11, k12], [p21, p22, k12, k22]] X) (by rw [hl]; trivial)
        (by rw [hh]; trivial)
      exact ⟨_, _, c, by rw [hgen], hc⟩)
    (fun k X z ub z' cb hg hS hgn hc => by
      rw [hgen, Option.some.injEq, Prod.mk.injEq] at hgn
      rw [← hgn.1] at hc
      rw [hcs] at hS ⊢
      exact back_step2 hn hn1 hC hC4 hw hx hy (hdt k).1 (hdt k).2.1 (hdt k).2.2 hk _ hh hl hg hS hc) hnear k
  obtain ⟨x', y', a', b', rfl, -⟩ := hnear k X s hX
  rw [hcs, dock2_safe_iff] at hsX
  exact ⟨x', y', a', b', s, hX, hsX⟩

/-- **C83, explicit switching in space.** -/
theorem C83_explicit_3d {n v0 v1Coef v0Distance xLim yLim zLim latchTime window : ℝ} (hn : 0 ≤ n) (hn1 : n ≤ 11 / 10000) (hC : 1 ≤ v1Coef)
    (hC4 : v1Coef ≤ 4) (hw : 1 / 20 ≤ v0 - v1Coef * n * v0Distance - 1 / 10000) (hx : 9 / 4 ≤ xLim) (hy : 9 / 4 ≤ yLim) (hz : 9 / 4 ≤ zLim)
    {P : Matrix (Fin 6) (Fin 6) ℝ} (hP : IsCARE (toMat (cwhA3 n)) (toMat (cwhB3 12)) (dockQ 6) (dockR 3) P) (hpsd : Psd P)
    {s0 : SimplexObj ℝ (List ℝ) DockParams A}
    (hs : dock3Simplex n v0 v1Coef v0Distance xLim yLim zLim (some (.scalar 1)) (some (.scalar (-1)))
      (matRows (lqrGain (toMat (cwhB3 12)) (dockR 3) P)) latchTime window = .ok s0)
    {pred : List ℝ → ℝ → List ℝ → List ℝ} {dts : Nat → ℝ} (hdt : ∀ k, 0 ≤ dts k ∧ dts k ≤ 25 ∧ NearEuler3 n (dts k) pred)
    {us : Nat → List ℝ} (hus : ∀ k, ∀ c ∈ us k, |c| ≤ 1) {x y z a b c : ℝ}
    (hsafe : Docking3Safe v0 (v1Coef * n) v0Distance xLim yLim zLim x y z a b c)
    (hnear : ∀ k X s, closedLoop (explicitSimplex pred) pred dts us [x, y, z, a, b, c] s0 k = some (X, s) → Near3 v0 (v1Coef * n) v0Distance X)
    (k : Nat) : ∃ x' y' z' a' b' c' s, closedLoop (explicitSimplex pred) pred dts us [x, y, z, a, b, c] s0 k =
        some ([x', y', z', a', b', c'], s) ∧ Docking3Safe v0 (v1Coef * n) v0Distance xLim yLim zLim x' y' z' a' b' c' := by
  obtain ⟨p11, p12, p13, p21, p22, p23, p31, p32, p33, k11, k12, k13, k22, k23, k33, hG, hk⟩ := gain3_bounds hn hn1 hP hpsd
  rw [hG] at hs
  obtain ⟨hcs, hen, hl, hh, hgen, hst, hwf, -⟩ := dock3S_init hs
  obtain ⟨X, s, hX, hsX⟩ := C18_explicit_closed_loop_safe_on (Near3 v0 (v1Coef * n) v0Distance) pred dts us [x, y, z, a, b, c] s0 hwf hen
    (by rw [hcs]; exact dock3_safe_iff.2 hsafe) (fun k => clip_unit _ hh hl (hus k))
    (fun k X z _ => by
      obtain ⟨c, hc, -⟩ := C05_clip_total s0.toBase
        (lqrControl 3 [[p11, p12, p13, k11, k12, k13], [p21, p22, p23, k12, k22, k23], [p31, p32, p33, k13, k23, k33]] X) (by rw [hl]; trivial)
        (by rw [hh]; trivial)
      exact ⟨_, _, c, by rw [hgen], hc⟩)
    (fun k X z ub z' cb hg hS hgn hc => by
      rw [hgen, Option.some.injEq, Prod.mk.injEq] at hgn
      rw [← hgn.1] at hc
      rw [hcs] at hS ⊢
      exact back_step3 hn hn1 hC hC4 hw hx hy hz (hdt k).1 (hdt k).2.1 (hdt k).2.2 hk _ hh hl hg hS hc) hnear k
  obtain ⟨x', y', z', a', b', c', rfl, -⟩ := hnear k X s hX
  rw [hcs, dock3_safe_iff] at hsX
  exact ⟨x', y', z', a', b', c', s, hX, hsX⟩

/-- **C83, implicit switching in the plane**, for any backup window. -/
theorem C83_implicit_2d {n v0 v1Coef v0Distance xLim yLim latchTime window : ℝ} (hn : 0 ≤ n) (hn1 : n ≤ 11 / 10000) (hC : 1 ≤ v1Coef)
    (hC4 : v1Coef ≤ 4) (hw : 1 / 20 ≤ v0 - v1Coef * n * v0Distance - 1 / 10000) (hx : 9 / 4 ≤ xLim) (hy : 9 / 4 ≤ yLim)
    {P : Matrix (Fin 4) (Fin 4) ℝ} (hP : IsCARE (toMat (cwhA2 n)) (toMat (cwhB2 12)) (dockQ 4) (dockR 2) P) (hpsd : Psd P)
    {s0 : SimplexObj ℝ (List ℝ) DockParams A}
    (hs : dock2Simplex n v0 v1Coef v0Distance xLim yLim (some (.scalar 1)) (some (.scalar (-1)))
      (matRows (lqrGain (toMat (cwhB2 12)) (dockR 2) P)) latchTime window = .ok s0)
    {pred : List ℝ → ℝ → List ℝ → List ℝ} {dt : ℝ} (hdt : 0 < dt) (hdt1 : dt ≤ 25) (hpred : NearEuler2 n dt pred)
    {us : Nat → List ℝ} (hus : ∀ k, ∀ c ∈ us k, |c| ≤ 1) {x y a b : ℝ}
    (hsafe : Docking2Safe v0 (v1Coef * n) v0Distance xLim yLim x y a b)
    (hnear : ∀ k X s, closedLoop (implicitSimplex pred) pred (fun _ => dt) us [x, y, a, b] s0 k = some (X, s) →
      Near2 v0 (v1Coef * n) v0Distance X)
    (k : Nat) : ∃ x' y' a' b' s, closedLoop (implicitSimplex pred) pred (fun _ => dt) us [x, y, a, b] s0 k = some ([x', y', a', b'], s) ∧
      Docking2Safe v0 (v1Coef * n) v0Distance xLim yLim x' y' a' b' := by
  obtain ⟨p11, p12, p21, p22, k11, k12, k22, hG, hk⟩ := gain2_bounds hn hn1 hP hpsd
  rw [hG] at hs
  obtain ⟨hcs, hen, hl, hh, hgen, hst, hwf, -⟩ := dock2S_init hs
  have hclip : ∀ X : List ℝ, ∃ c, s0.toBase.clipControl (lqrControl 2 [[p11, p12, k11, k12], [p21, p22, k12, k22]] X) = .ok c := fun X => by
    obtain ⟨c, hc, -⟩ := C05_clip_total s0.toBase (lqrControl 2 [[p11, p12, k11, k12], [p21, p22, k12, k22]] X) (by rw [hl]; trivial)
      (by rw [hh]; trivial)
    exact ⟨c, hc⟩
  choose claw hclaw using hclip
  obtain ⟨X, s, hX, hsX⟩ := C18_implicit_closed_loop_safe_on (Near2 v0 (v1Coef * n) v0Distance) pred dt us [x, y, a, b] s0 hwf hen hdt.ne'
    (by rw [hcs]; exact dock2_safe_iff.2 hsafe) (fun X _ => claw X) (fun _ _ => .none)
    (fun X z => ⟨_, by rw [hgen], hclaw X⟩) (by rw [hst]; rfl) (fun _ _ _ => rfl) (fun k => clip_unit _ hh hl (hus k))
    (fun X z hg hS => by
      rw [hcs] at hS ⊢
      exact back_step2 hn hn1 hC hC4 hw hx hy hdt.le hdt1 hpred hk _ hh hl hg hS (hclaw X)) hnear k
  obtain ⟨x', y', a', b', rfl, -⟩ := hnear k X s hX
  rw [hcs, dock2_safe_iff] at hsX
  exact ⟨x', y', a', b', s, hX, hsX⟩

/-- **C83, implicit switching in space**, for any backup window. -/
theorem C83_implicit_3d {n v0 v1Coef v0Distance xLim yLim zLim latchTime window : ℝ} (hn : 0 ≤ n) (hn1 : n ≤ 11 / 10000) (hC : 1 ≤ v1Coef)
    (hC4 : v1Coef ≤ 4) (hw : 1 / 20 ≤ v0 - v1Coef * n * v0Distance - 1 / 10000) (hx : 9 / 4 ≤ xLim) (hy : 9 / 4 ≤ yLim) (hz : 9 / 4 ≤ zLim)
    {P : Matrix (Fin 6) (Fin 6) ℝ} (hP : IsCARE (toMat (cwhA3 n)) (toMat (cwhB3 12)) (dockQ 6) (dockR 3) P) (hpsd : Psd P)
    {s0 : SimplexObj ℝ (List ℝ) DockParams A}
    (hs : dock3Simplex n v0 v1Coef v0Distance xLim yLim zLim (some (.scalar 1)) (some (.scalar (-1)))
      (matRows (lqrGain (toMat (cwhB3 12)) (dockR 3) P)) latchTime window = .ok s0)
    {pred : List ℝ → ℝ → List ℝ → List ℝ} {dt : ℝ} (hdt : 0 < dt) (hdt1 : dt ≤ 25) (hpred : NearEuler3 n dt pred)
    {us : Nat → List ℝ} (hus : ∀ k, ∀ c ∈ us k, |c| ≤ 1) {x y z a b c : ℝ}
    (hsafe : Docking3Safe v0 (v1Coef * n) v0Distance xLim yLim zLim x y z a b c)
    (hnear : ∀ k X s, closedLoop (implicitSimplex pred) pred (fun _ => dt) us [x, y, z, a, b, c] s0 k = some (X, s) →
      Near3 v0 (v1Coef * n) v0Distance X)
    (k : Nat) : ∃ x' y' z' a' b' c' s, closedLoop (implicitSimplex pred) pred (fun _ => dt) us [x, y, z, a, b, c] s0 k =
        some ([x', y', z', a', b', c'], s) ∧ Docking3Safe v0 (v1Coef * n) v0Distance xLim yLim zLim x' y' z' a' b' c' := by
  obtain ⟨p11, p12, p13, p21, p22, p23, p31, p32, p33, k11, k12, k13, k22, k23, k33, hG, hk⟩ := gain3_bounds hn hn1 hP hpsd
  rw [hG] at hs
  obtain ⟨hcs, hen, hl, hh, hgen, hst, hwf, -⟩ := dock3S_init hs
  have hclip : ∀ X : List ℝ, ∃ c, s0.toBase.clipControl
      (lqrControl 3 [[p11, p12, p13, k11, k12, k13], [p21, p22, p23, k12, k22, k23], [p31, p32, p33, k13, k23, k33]] X) = .ok c := fun X => by
    obtain ⟨c, hc, -⟩ := C05_clip_total s0.toBase
      (lqrControl 3 [[p11, p12, p13, k11, k12, k13], [p21, p22, p23, k12, k22, k23], [p31, p32, p33, k13, k23, k33]] X) (by rw [hl]; trivial)
      (by rw [hh]; trivial)
    exact ⟨c, hc⟩
  choose claw hclaw using hclip
  obtain ⟨X, s, hX, hsX⟩ := C18_implicit_closed_loop_safe_on (Near3 v0 (v1Coef * n) v0Distance) pred dt us [x, y, z, a, b, c] s0 hwf hen hdt.ne'
    (by rw [hcs]; exact dock3_safe_iff.2 hsafe) (fun X _ => claw X) (fun _ _ => .none)
    (fun X z => ⟨_, by rw [hgen], hclaw X⟩) (by rw [hst]; rfl) (fun _ _ _ => rfl) (fun k => clip_unit _ hh hl (hus k))
    (fun X z hg hS => by
      rw [hcs] at hS ⊢
      exact back_step3 hn hn1 hC hC4 hw hx hy hz hdt.le hdt1 hpred hk _ hh hl hg hS (hclaw X)) hnear k
  obtain ⟨x', y', z', a', b', c', rfl, -⟩ := hnear k X s hX
  rw [hcs, dock3_safe_iff] at hsX
  exact ⟨x', y', z', a', b', c', s, hX, hsX⟩

/-! ### The latch time and the backup window -/

theorem clip_scalar (b : Base ℝ) {U : ℝ} (hh : b.controlBoundsHigh = some (.scalar U)) (hl : b.controlBoundsLow = some (.scalar (-U))) (u : List ℝ) :
    b.clipControl u = .ok (u.map fun v => min (max v (-U)) U) := by
  unfold Base.clipControl
  rw [hh, hl, if_pos (by rfl)]
  obtain ⟨y, hy, -, hget⟩ := npClip_fits (lo := some (.scalar (-U))) (hi := some (.scalar U)) (x := u) trivial trivial
  rw [hy]
  congr 1
  apply List.ext_getElem?
  intro i
  rw [hget i, List.getElem?_map]
  rfl

/-- **C83, latching in the plane**. A new module, any calls: it is latched for the next call exactly when the automaton of C16 with the latch
time given to the constructor says so. -/
theorem C83_latch_2d {n v0 v1Coef v0Distance xLim yLim latchTime window : ℝ} {high low : Option (Bound ℝ)} {G : List (List ℝ)}
    {s : SimplexObj ℝ (List ℝ) DockParams A} (hs : dock2Simplex n v0 v1Coef v0Distance xLim yLim high low G latchTime window = .ok s)
    {mon : SimplexObj ℝ (List ℝ) DockParams A → List ℝ → ℝ → List ℝ → Except PyErr Bool × SimplexObj ℝ (List ℝ) DockParams A} (hm : MonFrame mon)
    (ops : List (SOp ℝ (List ℝ))) (hcalls : onlyCalls ops) (s' : SimplexObj ℝ (List ℝ) DockParams A) (es : List (SEvent ℝ (List ℝ)))
    (h : runSimplex mon s ops = some (es, s')) :
    Latched s' ↔ ∃ acc, latchSpec latchTime none es = some acc ∧ acc < latchTime := by
  obtain ⟨-, hen, -, -, -, -, -, hT, -, h0, hf⟩ := dock2S_init hs
  have := C16_latch_history hm ops hcalls s s' hen hf h0 es h
  rwa [hT] at this

/-- **C83, decision in the plane**. The first call of a new implicit module accepts the desired control exactly when the state it leads to and
the states that follow it under the backup law, clipped to the bounds, for the backup window given to the constructor all satisfy the
velocity limits. -/
theorem C83_window_2d {n v0 v1Coef v0Distance xLim yLim latchTime window U : ℝ} {G : List (List ℝ)} {s s' : SimplexObj ℝ (List ℝ) DockParams A}
    (hs : dock2Simplex n v0 v1Coef v0Distance xLim yLim (some (.scalar U)) (some (.scalar (-U))) G latchTime window = .ok s)
    (pred : List ℝ → ℝ → List ℝ → List ℝ) (X : List ℝ) {dt : ℝ} (hdt : 0 < dt) (hwin : 0 ≤ window) (u c : List ℝ)
    (h : implicitSimplex pred s (.array X) dt u = (.ok c, s')) :
    let law : List ℝ → List ℝ := fun Y => (lqrControl 2 G Y).map fun v => min (max v (-U)) U
    (s'.intervening = false ↔ ∀ k : Nat, (k : Int) ≤ ⌊window / dt⌋ →
      SafeAt (dockConstraints2 v0 (v1Coef * n) v0Distance xLim yLim) ((fun Y => pred Y dt (law Y))^[k] (pred X dt u))) ∧
    (s'.intervening = true → c = law X) := by
  intro law
  obtain ⟨hc, hen, hl, hh, hgen, -, hwf, hT, hW, h0, hf⟩ := dock2S_init hs
  have hclip : ∀ Y, s.toBase.clipControl (lqrControl 2 G Y) = .ok (law Y) := fun Y => clip_scalar _ hh hl _
  have hlat : ¬ Latched s := fun hL => by have := hL.1; rw [hf] at this; exact absurd this (by simp)
  obtain ⟨k1, -, k3⟩ := C14_implicit_decision pred s s' hwf hen X dt hdt (by rw [hW]; exact hwin) u c (fun Y _ => law Y) (fun _ _ => .none)
    (fun Y z => ⟨_, by rw [hgen], hclip Y⟩) hlat h
  rw [hW, hc] at k1
  refine ⟨k1.trans ?_, k3⟩
  have e : ∀ k, ((fun xz : List ℝ × CState A => (pred xz.1 dt (law xz.1), (CState.none : CState A)))^[k] (pred X dt u, s.ext.ctrl.state)).1 =
      (fun Y => pred Y dt (law Y))^[k] (pred X dt u) := by
    intro k
    induction k with
    | zero => rfl
    | succ k ih => rw [Function.iterate_succ_apply', Function.iterate_succ_apply', ← ih]
  simp only [e]

/-- **C83, latching in space**. A new module, any calls: it is latched for the next call exactly when the automaton of C16 with the latch
time given to the constructor says so. -/
theorem C83_latch_3d {n v0 v1Coef v0Distance xLim yLim zLim latchTime window : ℝ} {high low : Option (Bound ℝ)} {G : List (List ℝ)}
    {s : SimplexObj ℝ (List ℝ) DockParams A} (hs : dock3Simplex n v0 v1Coef v0Distance xLim yLim zLim high low G latchTime window = .ok s)
    {mon : SimplexObj ℝ (List ℝ) DockParams A → List ℝ → ℝ → List ℝ → Except PyErr Bool × SimplexObj ℝ (List ℝ) DockParams A} (hm : MonFrame mon)
    (ops : List (SOp ℝ (List ℝ))) (hcalls : onlyCalls ops) (s' : SimplexObj ℝ (List ℝ) DockParams A) (es : List (SEvent ℝ (List ℝ)))
    (h : runSimplex mon s ops = some (es, s')) :
    Latched s' ↔ ∃ acc, latchSpec latchTime none es = some acc ∧ acc < latchTime := by
  obtain ⟨-, hen, -, -, -, -, -, hT, -, h0, hf⟩ := dock3S_init hs
  have := C16_latch_history hm ops hcalls s s' hen hf h0 es h
  rwa [hT] at this

/-- **C83, decision in space**. The first call of a new implicit module accepts the desired control exactly when the state it leads to and
the states that follow it under the backup law, clipped to the bounds, for the backup window given to the constructor all satisfy the
velocity limits. -/
theorem C83_window_3d {n v0 v1Coef v0Distance xLim yLim zLim latchTime window U : ℝ} {G : List (List ℝ)} {s s' : SimplexObj ℝ (List ℝ) DockParams A}
    (hs : dock3Simplex n v0 v1Coef v0Distance xLim yLim zLim (some (.scalar U)) (some (.scalar (-U))) G latchTime window = .ok s)
    (pred : List ℝ → ℝ → List ℝ → List ℝ) (X : List ℝ) {dt : ℝ} (hdt : 0 < dt) (hwin : 0 ≤ window) (u c : List ℝ)
    (h : implicitSimplex pred s (.array X) dt u = (.ok c, s')) :
    let law : List ℝ → List ℝ := fun Y => (lqrControl 3 G Y).map fun v => min (max v (-U)) U
    (s'.intervening = false ↔ ∀ k : Nat, (k : Int) ≤ ⌊window / dt⌋ →
      SafeAt (dockConstraints3 v0 (v1Coef * n) v0Distance xLim yLim zLim) ((fun Y => pred Y dt (law Y))^[k] (pred X dt u))) ∧
    (s'.intervening = true → c = law X) := by
  intro law
  obtain ⟨hc, hen, hl, hh, hgen, -, hwf, hT, hW, h0, hf⟩ := dock3S_init hs
  have hclip : ∀ Y, s.toBase.clipControl (lqrControl 3 G Y) = .ok (law Y) := fun Y => clip_scalar _ hh hl _
  have hlat : ¬ Latched s := fun hL => by have := hL.1; rw [hf] at this; exact absurd this (by simp)
  obtain ⟨k1, -, k3⟩ := C14_implicit_decision pred s s' hwf hen X dt hdt (by rw [hW]; exact hwin) u c (fun Y _ => law Y) (fun _ _ => .none)
    (fun Y z => ⟨_, by rw [hgen], hclip Y⟩) hlat h
  rw [hW, hc] at k1
  refine ⟨k1.trans ?_, k3⟩
  have e : ∀ k, ((fun xz : List ℝ × CState A => (pred xz.1 dt (law xz.1), (CState.none : CState A)))^[k] (pred X dt u, s.ext.ctrl.state)).1 =
      (fun Y => pred Y dt (law Y))^[k] (pred X dt u) := by
    intro k
    induction k with
    | zero => rfl
    | succ k ih => rw [Function.iterate_succ_apply', Function.iterate_succ_apply', ← ih]
  simp only [e]

/-- The default implicit module with a window of five seconds, asked to coast: the call returns and the decision looks five steps of the backup
law ahead. -/
example {G : List (List ℝ)} (pred : List ℝ → ℝ → List ℝ → List ℝ) : ∃ s c s', dock2Simplex (A := A) (1027 / 1000000) (1 / 5) 2 0 10 10 (some (.scalar 1))
      (some (.scalar (-1))) G 3 5 = .ok s ∧ implicitSimplex pred s (.array [60, 80, -(1 / 10), -(1 / 10)]) 1 [0, 0] = (.ok c, s') ∧
    (s'.intervening = false ↔ ∀ k : Nat, (k : Int) ≤ 5 → SafeAt (dockConstraints2 (1 / 5) (2 * (1027 / 1000000)) 0 10 10)
      ((fun Y => pred Y 1 ((lqrControl 2 G Y).map fun v => min (max v (-1)) 1))^[k] (pred [60, 80, -(1 / 10), -(1 / 10)] 1 [0, 0]))) := by
  obtain ⟨s, hs⟩ : ∃ s, dock2Simplex (A := A) (1027 / 1000000) (1 / 5) 2 0 10 10 (some (.scalar 1)) (some (.scalar (-1))) G 3 5 = .ok s := ⟨_, rfl⟩
  obtain ⟨hc, hen, hl, hh, hgen, hst, hwf, -⟩ := dock2S_init hs
  obtain ⟨c, s', h⟩ := C14_implicit_returns pred s hwf hen [60, 80, -(1 / 10), -(1 / 10)] 1 one_ne_zero [0, 0] [0, 0]
    (fun Y _ => (lqrControl 2 G Y).map fun v => min (max v (-1)) 1) (fun _ _ => .none) (fun Y z => ⟨_, by rw [hgen], clip_scalar _ hh hl _⟩)
    (by rw [hst]; simp) (clip_unit _ hh hl (by simp))
  refine ⟨s, c, s', hs, h, ?_⟩
  have := (C83_window_2d hs pred _ one_pos (by norm_num) [0, 0] c h).1
  simpa using this

end RTA
