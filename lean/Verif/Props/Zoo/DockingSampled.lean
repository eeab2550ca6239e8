import Verif.Lemmas.Zoo.Hold
import Verif.Props.ClosedLoop
import Verif.Props.Sampled
import Verif.Props.Zoo.Docking
import Verif.Props.Zoo.DockingPredict
import Verif.Lemmas.Zoo.CombinedCall

/-!
C84 for the docking modules: a vehicle that follows the equations of motion exactly, under the default filters called once per step.
-/
namespace RTA
open Set Real

/-! ### Histories -/

/-! ### The strengthening terms -/

theorem dock_alpha2 (y : ℝ) : polyAlpha dockCoefs2 y = 1 / 100 * y + 1 / 10 * y ^ 3 := by
  simp [polyAlpha, polyLoop, dockCoefs2]

theorem dock_alpha3 (y : ℝ) : polyAlpha dockCoefs3 y = 5 / 100 * y + 5 / 1000 * y ^ 3 := by
  simp [polyAlpha, polyLoop, dockCoefs3]

theorem dock_strength_pos {d : Nat} {coefs : List ℝ} {v0 v1 v0Distance y : ℝ} (h : 0 ≤ y) :
    strengthening (dockRelVel d coefs v0 v1 v0Distance) (polyAlpha coefs) y = polyAlpha coefs y := if_pos h

theorem dock_strength_neg {d : Nat} {coefs : List ℝ} {v0 v1 v0Distance y : ℝ} (h : y < 0) :
    strengthening (dockRelVel d coefs v0 v1 v0Distance) (polyAlpha coefs) y = 10 * polyAlpha coefs y + -(1 / 100) := by
  unfold strengthening
  rw [if_neg (not_le.2 h)]
  norm_num [dockRelVel, Constraint.mk']

/-! ### A control that recovers exists where the limit is slightly exceeded -/

/-- Braking hard enough meets the barrier condition of the relative velocity constraint also where that is negative. -/
theorem rel_barrier_violated {d : Nat} {p v u : List ℝ} (hp : p.length = d) (hv : v.length = d) {coefs : List ℝ}
    {v0 v1 v0Distance k β : ℝ} (hv1 : 0 ≤ v1) {f : List ℝ → List ℝ} {g : List ℝ → List (List ℝ)}
    (hx : vadd (f (p ++ v)) (matVec (g (p ++ v)) u) = v ++ vscale (-k) v)
    (hS : -β ≤ strengthening (dockRelVel d coefs v0 v1 v0Distance) (polyAlpha coefs) ((dockRelVel d coefs v0 v1 v0Distance).value (p ++ v)))
    (hk : β + v1 * normWithDelta v (1 / 100000) ≤ k * (sqNorm v / normWithDelta v (1 / 100000))) :
    BarrierOK f g (dockRelVel d coefs v0 v1 v0Distance) (p ++ v) u 0 := by
  refine ⟨_, rfl, ?_⟩
  have hr := rel_rate hp hv v1 (1 / 100000) k
  show 0 ≤ dot (relVelGrad d v1 (1 / 100000) (p ++ v)) (vadd (f (p ++ v)) (matVec (g (p ++ v)) u)) +
    strengthening (dockRelVel d coefs v0 v1 v0Distance) (polyAlpha coefs) ((dockRelVel d coefs v0 v1 v0Distance).value (p ++ v))
  rw [hx, hr]
  have hNp := normWithDelta_pos p (δ := 1 / 100000) (by norm_num)
  have hle := norm_le_normWithDelta (x := p) (δ := 1 / 100000) (by norm_num)
  have hlv := norm_le_normWithDelta (x := v) (δ := 1 / 100000) (by norm_num)
  have hcs := (abs_le.1 (abs_dot_le (hp.trans hv.symm))).1
  have h1 : -normWithDelta v (1 / 100000) ≤ dot p v / normWithDelta p (1 / 100000) := by
    rw [le_div_iff₀ hNp]
    have h2 := mul_le_mul_of_nonneg_right hle (sqrt_nonneg (sqNorm v))
    have h3 := mul_le_mul_of_nonneg_left hlv hNp.le
    linarith
  have := mul_le_mul_of_nonneg_left h1 hv1
  linarith

theorem brake_violated {v1 σ q : ℝ} (hv1 : 0 ≤ v1) (hσ : 19 / 100 ≤ σ) (hq : q = σ ^ 2 - 1 / 100000) :
    11 / 1000 + v1 * σ ≤ (2 * v1 * σ + 12 / 1000) / σ * (q / σ) := by
  have h0 : 0 < σ := by linarith
  rw [div_mul_div_comm, le_div_iff₀ (by positivity)]
  have h1 : 11 / 12 * σ ^ 2 ≤ q := by nlinarith
  have h2 : 0 ≤ 2 * v1 * σ + 12 / 1000 := by positivity
  have h3 := mul_le_mul_of_nonneg_left h1 h2
  have h4 : 0 ≤ v1 * σ * σ ^ 2 := by positivity
  nlinarith

theorem brake_comp_violated {v1 σ c : ℝ} (hv1 : 0 ≤ v1) (hσ : 0 < σ) (hc : |c| ≤ σ) :
    |(2 * v1 * σ + 12 / 1000) / σ * c| ≤ 2 * v1 * σ + 12 / 1000 := by
  rw [abs_mul, abs_of_nonneg (by positivity), div_mul_eq_mul_div, div_le_iff₀ hσ]
  exact mul_le_mul_of_nonneg_left hc (by positivity)

/-- What being near and close to the limit means for the default module in the plane. -/
theorem near2_facts {v0 v0Distance x y a b : ℝ} (hw : 1 / 5 ≤ v0 - 2 * (1027 / 1000000) * v0Distance)
    (hnear : v0 + 2 * (1027 / 1000000) * (√(x ^ 2 + y ^ 2 + 1 / 100000) - v0Distance) - 1 / 10000 ≤ 9 / 4)
    (hv : -(11 / 10000) ≤ (dockRelVel 2 dockCoefs2 v0 (2 * (1027 / 1000000)) v0Distance).value [x, y, a, b]) :
    √(a ^ 2 + b ^ 2 + 1 / 100000) ≤ 226 / 100 ∧ √(x ^ 2 + y ^ 2 + 1 / 100000) ≤ 999 ∧ |x| ≤ 999 ∧ |a| ≤ 226 / 100 ∧ |b| ≤ 226 / 100 := by
  rw [rel_value2] at hv
  have hσ0 := sqrt_nonneg (a ^ 2 + b ^ 2 + 1 / 100000)
  have hρ0 := sqrt_nonneg (x ^ 2 + y ^ 2 + 1 / 100000)
  have hσhi : √(a ^ 2 + b ^ 2 + 1 / 100000) ≤ 226 / 100 := by linarith
  have hρhi : √(x ^ 2 + y ^ 2 + 1 / 100000) ≤ 999 := by linarith
  exact ⟨hσhi, hρhi, (abs_le_sqrt (by nlinarith [sq_nonneg y])).trans hρhi, (abs_le_sqrt (by nlinarith [sq_nonneg b])).trans hσhi,
    (abs_le_sqrt (by nlinarith [sq_nonneg a])).trans hσhi⟩

theorem lim_sq {l c : ℝ} (hl : 5 / 2 ≤ l) (hc : |c| ≤ 226 / 100) : 0 ≤ l ^ 2 - c ^ 2 := by
  have h1 := pow_le_pow_left₀ (by norm_num) hl 2
  have h2 := pow_le_pow_left₀ (abs_nonneg c) hc 2
  rw [sq_abs] at h2
  linarith

/-- The default module in the plane where the smoothed speed exceeds the enforced limit by at most 1.1 mm/s. -/
theorem dock2_recovers {v0 v0Distance xLim yLim : ℝ} (hw : 1 / 5 ≤ v0 - 2 * (1027 / 1000000) * v0Distance) (hxl : 5 / 2 ≤ xLim)
    (hyl : 5 / 2 ≤ yLim) {s : ASIFObj ℝ (List ℝ) DockParams Unit}
    (hc : s.constraints = dockConstraints2 v0 (2 * (1027 / 1000000)) v0Distance xLim yLim) (hdim : s.ext.controlDim = 2) (hdir : s.ext.direct = [])
    (hb : ∀ w : List ℝ, w.length = 2 → (∀ c ∈ w, |c| ≤ 1) → Within s.controlBoundsLow s.controlBoundsHigh w)
    {x y a b : ℝ} (hnear : v0 + 2 * (1027 / 1000000) * (√(x ^ 2 + y ^ 2 + 1 / 100000) - v0Distance) - 1 / 10000 ≤ 9 / 4)
    (hv : -(11 / 10000) ≤ (dockRelVel 2 dockCoefs2 v0 (2 * (1027 / 1000000)) v0Distance).value [x, y, a, b])
    (hneg : (dockRelVel 2 dockCoefs2 v0 (2 * (1027 / 1000000)) v0Distance).value [x, y, a, b] < 0) :
    ∃ w, Admissible (dockF2 (1027 / 1000000)) (dockG2 12) s [x, y, a, b] w := by
  obtain ⟨hσhi, -, hx, ha, hb2⟩ := near2_facts hw hnear hv
  have hS : -(11 / 1000) ≤ strengthening (dockRelVel 2 dockCoefs2 v0 (2 * (1027 / 1000000)) v0Distance) (polyAlpha dockCoefs2)
      ((dockRelVel 2 dockCoefs2 v0 (2 * (1027 / 1000000)) v0Distance).value [x, y, a, b]) := by
    rw [dock_strength_neg hneg, dock_alpha2]
    generalize (dockRelVel 2 dockCoefs2 v0 (2 * (1027 / 1000000)) v0Distance).value [x, y, a, b] = h at *
    have h1 : h ^ 2 ≤ 1 := by nlinarith
    nlinarith
  have hσlo : 19 / 100 ≤ √(a ^ 2 + b ^ 2 + 1 / 100000) := by
    rw [rel_value2] at hneg
    have := sqrt_nonneg (x ^ 2 + y ^ 2 + 1 / 100000)
    linarith
  clear hv hneg hnear hw
  have hσ2 : √(a ^ 2 + b ^ 2 + 1 / 100000) ^ 2 = a ^ 2 + b ^ 2 + 1 / 100000 := sq_sqrt (by positivity)
  have hk := brake_violated (v1 := 2 * (1027 / 1000000)) (q := a ^ 2 + b ^ 2) (by norm_num) hσlo (by linarith)
  have hN : normWithDelta [a, b] (1 / 100000) = √(a ^ 2 + b ^ 2 + 1 / 100000) := norm2d a b
  have hp : 0 < √(a ^ 2 + b ^ 2 + 1 / 100000) := by linarith
  have ka := brake_comp_violated (v1 := 2 * (1027 / 1000000)) (c := a) (by norm_num) hp (abs_le_sqrt (by nlinarith [sq_nonneg b]))
  have kb := brake_comp_violated (v1 := 2 * (1027 / 1000000)) (c := b) (by norm_num) hp (abs_le_sqrt (by nlinarith [sq_nonneg a]))
  have hk0 : 0 ≤ (2 * (2 * (1027 / 1000000)) * √(a ^ 2 + b ^ 2 + 1 / 100000) + 12 / 1000) / √(a ^ 2 + b ^ 2 + 1 / 100000) := by positivity
  generalize (2 * (2 * (1027 / 1000000)) * √(a ^ 2 + b ^ 2 + 1 / 100000) + 12 / 1000) / √(a ^ 2 + b ^ 2 + 1 / 100000) = k at *
  have hx' : vadd (dockF2 (1027 / 1000000) ([x, y] ++ [a, b])) (matVec (dockG2 12 ([x, y] ++ [a, b]))
      [12 * (-(k * a) - (3 * (1027 / 1000000) ^ 2 * x + 2 * (1027 / 1000000) * b)), 12 * (-(k * b) - (-2 * (1027 / 1000000) * a))]) =
      [a, b] ++ vscale (-k) [a, b] := by
    refine (field2_eq _ 12 x y a b _ _ _).trans ?_
    simp only [vscale, List.map_cons, List.map_nil, List.cons_append, List.nil_append, List.cons.injEq, and_true, true_and]
    constructor <;> ring
  have hn1 : |3 * (1027 / 1000000) ^ 2 * x + 2 * (1027 / 1000000) * b| ≤ 8 / 1000 := by
    obtain ⟨h1, h2⟩ := abs_le.1 hx
    obtain ⟨h3, h4⟩ := abs_le.1 hb2
    clear * - h1 h2 h3 h4
    rw [abs_le]; constructor <;> linarith
  have hn2 : |-2 * (1027 / 1000000) * a| ≤ 5 / 1000 := by
    obtain ⟨h1, h2⟩ := abs_le.1 ha
    clear * - h1 h2
    rw [abs_le]; constructor <;> linarith
  refine ⟨[12 * (-(k * a) - (3 * (1027 / 1000000) ^ 2 * x + 2 * (1027 / 1000000) * b)), 12 * (-(k * b) - (-2 * (1027 / 1000000) * a))],
    by rw [hdim]; rfl, hb _ rfl ?_, ?_, by rw [hdir]; simp⟩
  · intro c hcw
    simp only [List.mem_cons, List.not_mem_nil, or_false] at hcw
    rcases hcw with rfl | rfl
    · exact thrust_le (by norm_num) hn1 ka (by linarith)
    · exact thrust_le (by norm_num) hn2 kb (by linarith)
  · intro kc hkc _
    rw [hc] at hkc
    simp only [dockConstraints2, List.mem_cons, List.not_mem_nil, or_false] at hkc
    rcases hkc with rfl | rfl | rfl
    · refine rel_barrier_violated (d := 2) (p := [x, y]) (v := [a, b]) rfl rfl (by norm_num) hx' hS ?_
      have : sqNorm [a, b] = a ^ 2 + b ^ 2 := by simp [sqNorm, dot]; ring
      rw [this, hN]
      exact hk
    · refine limit_barrier (d := 2) (p := [x, y]) (v := [a, b]) rfl rfl (by decide) (by decide) hk0 hx' ?_
      rw [limit_value]
      exact lim_sq hxl ha
    · refine limit_barrier (d := 2) (p := [x, y]) (v := [a, b]) rfl rfl (by decide) (by decide) hk0 hx' ?_
      rw [limit_value]
      exact lim_sq hyl hb2

/-- The default module in the plane finds a control as long as the limit is exceeded by at most 1.1 mm/s. -/
theorem dock2_feasible_violated {v0 v0Distance xLim yLim : ℝ} (hw : 1 / 5 ≤ v0 - 2 * (1027 / 1000000) * v0Distance) (hxl : 5 / 2 ≤ xLim)
    (hyl : 5 / 2 ≤ yLim) {s : ASIFObj ℝ (List ℝ) DockParams Unit}
    (hc : s.constraints = dockConstraints2 v0 (2 * (1027 / 1000000)) v0Distance xLim yLim) (hdim : s.ext.controlDim = 2) (hdir : s.ext.direct = [])
    (hb : ∀ w : List ℝ, w.length = 2 → (∀ c ∈ w, |c| ≤ 1) → Within s.controlBoundsLow s.controlBoundsHigh w)
    {x y a b : ℝ} (hnear : v0 + 2 * (1027 / 1000000) * (√(x ^ 2 + y ^ 2 + 1 / 100000) - v0Distance) - 1 / 10000 ≤ 9 / 4)
    (hv : -(11 / 10000) ≤ (dockRelVel 2 dockCoefs2 v0 (2 * (1027 / 1000000)) v0Distance).value [x, y, a, b]) :
    ∃ w, Admissible (dockF2 (1027 / 1000000)) (dockG2 12) s [x, y, a, b] w := by
  rcases le_or_gt 0 ((dockRelVel 2 dockCoefs2 v0 (2 * (1027 / 1000000)) v0Distance).value [x, y, a, b]) with hpos | hneg
  · obtain ⟨hσhi, -, hx, ha, hb2⟩ := near2_facts hw hnear hv
    rw [rel_value2] at hpos
    have hn : |(1027 / 1000000 : ℝ)| = 1027 / 1000000 := abs_of_pos (by norm_num)
    have l1 := lim_sq hxl ha
    have l2 := lim_sq hyl hb2
    refine dock2_feasible (m := 12) (by norm_num) (by norm_num) hc hdim hdir hb ⟨by linarith, by linarith, by linarith⟩ ?_
    clear * - hn hσhi hx ha hb2
    constructor <;> rw [hn] <;> linarith
  · exact dock2_recovers hw hxl hyl hc hdim hdir hb hnear hv hneg

/-! ### One hold in the plane -/

theorem rel2_relRate (coefs : List ℝ) (n m v0 v1 v0Distance x y a b u1 u2 : ℝ) :
    (dockRelVel 2 coefs v0 v1 v0Distance).rate (dockF2 n) (dockG2 m) [x, y, a, b] [u1, u2] =
      relRate n (1 / m * u1) (1 / m * u2) 0 v1 (1 / 100000) x y 0 a b 0 := by
  show dot (relVelGrad 2 v1 (1 / 100000) [x, y, a, b]) (vadd (dockF2 n [x, y, a, b]) (matVec (dockG2 m [x, y, a, b]) [u1, u2])) = _
  rw [relVelGrad2, field2_eq]
  simp only [dot_cons, dot_nil_left, relRate, zero_pow (two_ne_zero), add_zero]
  ring

/-- During a short hold the position stays in a neighbourhood. -/
theorem hold_region {n c1 c2 c3 α β R : ℝ} {X Y Z A B C : ℝ → ℝ} (hn : 0 ≤ n) (hn1 : n ≤ 11 / 10000)
    (hcc : c1 ^ 2 + c2 ^ 2 + c3 ^ 2 ≤ (3 / 20) ^ 2) (h : DockHold n c1 c2 c3 α β X Y Z A B C) (hβ : β ≤ α + 1 / 8) (hR : R ≤ 1000)
    (hσ : √(A α ^ 2 + B α ^ 2 + C α ^ 2 + 1 / 100000) ≤ 226 / 100) (hρ : √(X α ^ 2 + Y α ^ 2 + Z α ^ 2 + 1 / 100000) ≤ R) :
    ∀ t ∈ Ico α β, |X t| ≤ R + 240 ∧ |Z t| ≤ R + 240 := by
  intro t ht
  have h1 := ht.2
  have key := region_hold hn hn1 (δ := 1 / 100000) (by norm_num) (by norm_num : (0 : ℝ) ≤ 3 / 20) hcc (h.mono ht.2.le) ht.1 (by linarith)
  have hs := sqrt_nonneg (A t ^ 2 + B t ^ 2 + C t ^ 2 + 1 / 100000)
  have hr : √(X t ^ 2 + Y t ^ 2 + Z t ^ 2 + 1 / 100000) ≤ R + 240 := by linarith
  exact ⟨(abs_le_sqrt (by nlinarith [sq_nonneg (Y t), sq_nonneg (Z t)])).trans hr,
    (abs_le_sqrt (by nlinarith [sq_nonneg (Y t), sq_nonneg (X t)])).trans hr⟩

/-- The constants of the default module in the plane. -/
theorem consts2 {dt : ℝ} (hdt : dt ≤ 1 / 8) {w0 : ℝ} (hw0 : 1 / 5 - 1 / 10000 ≤ w0) :
    (169 / 1000 : ℝ) ≤ w0 - (2 * (1027 / 1000000) * (23 / 10) + 121 / 1000) * dt - 121 / 1000 * dt ∧
    2 * (1027 / 1000000) * (121 / 1000 + 2 * (1027 / 1000000) * (23 / 10)) +
      (3 * (1027 / 1000000) ^ 2 * (23 / 10) ^ 2 + 121 / 1000 * (121 / 1000 + 2 * (1027 / 1000000) * (23 / 10))) / (169 / 1000) ≤ (1 / 10 : ℝ) := by
  constructor
  · linarith
  · norm_num

theorem forces2 {x u1 u2 : ℝ} (hx : |x| ≤ 1239) (h1 : |u1| ≤ 1) (h2 : |u2| ≤ 1) :
    (3 * (1027 / 1000000) ^ 2 * x + 1 / 12 * u1) ^ 2 + (1 / 12 * u2) ^ 2 + (-((1027 / 1000000) ^ 2) * 0 + 0) ^ 2 ≤ (121 / 1000 : ℝ) ^ 2 := by
  have e1 : |3 * (1027 / 1000000) ^ 2 * x + 1 / 12 * u1| ≤ 8726 / 100000 := by
    obtain ⟨a1, a2⟩ := abs_le.1 hx
    obtain ⟨b1, b2⟩ := abs_le.1 h1
    rw [abs_le]; constructor <;> linarith
  have e2 : |1 / 12 * u2| ≤ 8334 / 100000 := by
    obtain ⟨a1, a2⟩ := abs_le.1 h2
    rw [abs_le]; constructor <;> linarith
  have q1 := pow_le_pow_left₀ (abs_nonneg _) e1 2
  have q2 := pow_le_pow_left₀ (abs_nonneg _) e2 2
  rw [sq_abs] at q1 q2
  linarith

theorem thrust2_sq {u1 u2 : ℝ} (h1 : |u1| ≤ 1) (h2 : |u2| ≤ 1) : (1 / 12 * u1) ^ 2 + (1 / 12 * u2) ^ 2 + (0 : ℝ) ^ 2 ≤ (3 / 20) ^ 2 := by
  have q1 := pow_le_pow_left₀ (abs_nonneg _) h1 2
  have q2 := pow_le_pow_left₀ (abs_nonneg _) h2 2
  rw [sq_abs] at q1 q2
  linarith

/-- **C84, one hold of the default module in the plane**: from a speed at most `dt²/20` above the enforced limit, under a control that satisfies
the condition the module imposes, the speed stays at most `dt²/20` above the limit throughout the hold. -/
theorem dock2_hold {v0 v0Distance dt : ℝ} (hw : 1 / 5 ≤ v0 - 2 * (1027 / 1000000) * v0Distance) (hdt : dt ≤ 1 / 8) {u1 u2 α β : ℝ} {X Y A B : ℝ → ℝ}
    (h : DockHold (1027 / 1000000) (1 / 12 * u1) (1 / 12 * u2) 0 α β X Y (fun _ => 0) A B (fun _ => 0)) (hαβ : α ≤ β) (hβ : β ≤ α + dt)
    (hu1 : |u1| ≤ 1) (hu2 : |u2| ≤ 1)
    (hnear : v0 + 2 * (1027 / 1000000) * (√(X α ^ 2 + Y α ^ 2 + 1 / 100000) - v0Distance) - 1 / 10000 ≤ 9 / 4)
    (hbar : BarrierOK (dockF2 (1027 / 1000000)) (dockG2 12) (dockRelVel 2 dockCoefs2 v0 (2 * (1027 / 1000000)) v0Distance) [X α, Y α, A α, B α] [u1, u2] 0)
    (h0 : -(dt ^ 2 / 20) ≤ (dockRelVel 2 dockCoefs2 v0 (2 * (1027 / 1000000)) v0Distance).value [X α, Y α, A α, B α]) :
    -(dt ^ 2 / 20) ≤ (dockRelVel 2 dockCoefs2 v0 (2 * (1027 / 1000000)) v0Distance).value [X β, Y β, A β, B β] ∧
      √(X β ^ 2 + Y β ^ 2 + 1 / 100000) ≤ √(X α ^ 2 + Y α ^ 2 + 1 / 100000) + 23 / 10 * (β - α) := by
  have hdt0 : 0 ≤ dt := by linarith
  have hdt2 : dt ^ 2 ≤ 1 / 64 := by nlinarith
  obtain ⟨hσ, hρ, -⟩ := near2_facts (a := A α) (b := B α) hw hnear (by linarith)
  have ez : ∀ p q : ℝ, p ^ 2 + q ^ 2 + (0 : ℝ) ^ 2 + 1 / 100000 = p ^ 2 + q ^ 2 + 1 / 100000 := fun p q => by ring
  have hreg := hold_region (by norm_num) (by norm_num) (thrust2_sq hu1 hu2) h (by linarith) (by norm_num : (999 : ℝ) ≤ 1000)
    (by simp only [ez]; exact hσ) (by simp only [ez]; exact hρ)
  have he : ∀ t ∈ Ico α β, (3 * (1027 / 1000000) ^ 2 * X t + 1 / 12 * u1) ^ 2 + (1 / 12 * u2) ^ 2 + (-((1027 / 1000000) ^ 2) * 0 + 0) ^ 2 ≤ (121 / 1000 : ℝ) ^ 2 :=
    fun t ht => forces2 ((hreg t ht).1.trans (by norm_num)) hu1 hu2
  obtain ⟨k1, k2⟩ := consts2 hdt (w0 := v0 - 2 * (1027 / 1000000) * v0Distance - 1 / 10000) (by linarith)
  have hr := barrier_rate (al := polyAlpha dockCoefs2) rfl hbar
  rw [rel2_relRate] at hr
  constructor
  · have key := dock_hold (n := 1027 / 1000000) (v1 := 2 * (1027 / 1000000)) (δ := 1 / 100000) (E := 121 / 1000) (V := 23 / 10) (w := 169 / 1000)
      (w0 := v0 - 2 * (1027 / 1000000) * v0Distance - 1 / 10000) (L := 1 / 10) (dt := dt) (by norm_num) (by norm_num) (by norm_num) (by norm_num)
      (by norm_num) (by norm_num) (by norm_num) h hαβ hβ he (by simp only [ez]; linarith) k1 k2
      (y := (dockRelVel 2 dockCoefs2 v0 (2 * (1027 / 1000000)) v0Distance).value [X α, Y α, A α, B α])
      (by rw [rel_value2]; simp only [ez]; ring) hr
      (fun hp hle => by
        rw [dock_strength_pos hp, dock_alpha2]
        generalize (dockRelVel 2 dockCoefs2 v0 (2 * (1027 / 1000000)) v0Distance).value [X α, Y α, A α, B α] = q at *
        have q1 : q ≤ 1 := by linarith
        have q2 : q ^ 3 ≤ q := by nlinarith [mul_nonneg hp hp]
        have q3 : 1 / 100 * q + 1 / 10 * q ^ 3 ≤ q := by linarith
        have q4 : 0 ≤ 1 / 100 * q + 1 / 10 * q ^ 3 := by positivity
        nlinarith)
      (fun hn => by
        rw [dock_strength_neg hn, dock_alpha2]
        generalize (dockRelVel 2 dockCoefs2 v0 (2 * (1027 / 1000000)) v0Distance).value [X α, Y α, A α, B α] = q at *
        have q2 : q ^ 3 ≤ 0 := by nlinarith [mul_self_nonneg q]
        linarith)
      (by linarith)
    rw [rel_value2]
    simp only [ez] at key
    linarith
  · have sp : ∀ t ∈ Ico α β, _ := fun t ht => (speed_hold (δ := 1 / 100000) (by norm_num) (by norm_num : (0 : ℝ) ≤ 121 / 1000) (h.mono ht.2.le) ht.1
      (fun r hr => he r ⟨hr.1, hr.2.trans ht.2⟩)).2
    have := dist_hold (δ := 1 / 100000) (V := 23 / 10) (by norm_num) h hαβ (fun t ht => by
      have k := sp t ht
      have := ht.2
      simp only [ez] at k ⊢
      linarith)
    simp only [ez] at this
    exact this

theorem within_abs {u : List ℝ} (h : Within (some (.scalar (-1))) (some (.scalar 1)) u) {i : Nat} {v : ℝ} (hv : u[i]? = some v) : |v| ≤ 1 := by
  have := h i v hv
  rw [abs_le]
  exact ⟨this.1 _ rfl, this.2 _ rfl⟩

/-- An exact solution over `[0, s]` is a hold. -/
theorem exact_hold2 {n s u w : ℝ} {X Y A B : ℝ → ℝ}
    (hd : ∀ t ∈ Icc 0 s, HasDerivWithinAt X (A t) (Icc 0 s) t ∧ HasDerivWithinAt Y (B t) (Icc 0 s) t ∧
      HasDerivWithinAt A (3 * n ^ 2 * X t + 2 * n * B t + 1 / 12 * u) (Icc 0 s) t ∧
      HasDerivWithinAt B (-2 * n * A t + 1 / 12 * w) (Icc 0 s) t) :
    DockHold n (1 / 12 * u) (1 / 12 * w) 0 0 s X Y (fun _ => 0) A B (fun _ => 0) := by
  have mem : ∀ t ∈ Ico 0 s, t ∈ Icc 0 s := fun t ht => ⟨ht.1, ht.2.le⟩
  have up : ∀ {F : ℝ → ℝ} {d t : ℝ}, t ∈ Ico 0 s → HasDerivWithinAt F d (Icc 0 s) t → HasDerivWithinAt F d (Ici t) t := fun ht h =>
    (h.mono (Icc_subset_Icc_left ht.1)).mono_of_mem_nhdsWithin (Icc_mem_nhdsGE ht.2)
  exact ⟨fun t ht => (hd t ht).1.continuousWithinAt, fun t ht => (hd t ht).2.1.continuousWithinAt, continuousOn_const,
    fun t ht => (hd t ht).2.2.1.continuousWithinAt, fun t ht => (hd t ht).2.2.2.continuousWithinAt, continuousOn_const,
    fun t ht => up ht (hd t (mem t ht)).1, fun t ht => up ht (hd t (mem t ht)).2.1, fun t _ => hasDerivWithinAt_const _ _ _,
    fun t ht => up ht (hd t (mem t ht)).2.2.1, fun t ht => up ht (hd t (mem t ht)).2.2.2,
    fun t _ => (hasDerivWithinAt_const _ _ _).congr_deriv (by simp)⟩

/-- The documented speed limit in the plane, exceeded by at most `e`. -/
def SpeedWithin2 (v0 v1 v0Distance e : ℝ) (X : List ℝ) : Prop :=
  ∃ x y a b, X = [x, y, a, b] ∧ √(a ^ 2 + b ^ 2) ≤ v0 + v1 * (√(x ^ 2 + y ^ 2) - v0Distance) + e

theorem within_of_value2 {v0 v1 v0Distance e x y a b : ℝ} (hv1 : 0 ≤ v1) (hv1' : v1 ≤ 1 / 32) {coefs : List ℝ}
    (h : -e ≤ (dockRelVel 2 coefs v0 v1 v0Distance).value [x, y, a, b]) : SpeedWithin2 v0 v1 v0Distance e [x, y, a, b] := by
  rw [rel_value2] at h
  refine ⟨x, y, a, b, rfl, ?_⟩
  exact C64_documented_limit hv1 hv1' (P := x ^ 2 + y ^ 2) (V := a ^ 2 + b ^ 2) (by positivity) rfl (v0 := v0 + e) (v0Distance := v0Distance) (by linarith) (by ring)

/-- **C84 in the plane**. The default 2-D docking module (limits at least 2.5 m/s, bounds ±1) filters once per step of at most `dt ≤ 1/8` s, with any desired
controls, the thrust of a vehicle that follows the equations of motion exactly and holds the thrust in between. Starting within the enforced
limit, close enough that within `N` steps it cannot get to where the limit exceeds 2.25 m/s: every call returns, and at every instant - at
the samples and in between - the documented speed limit is exceeded by at most `dt²/20` m/s. -/
theorem C84_docking_2d {solver : Solver ℝ} (hspec : SolverSpec solver) {v0 v0Distance xLim yLim epsilon dt : ℝ} {exc : Bool}
    (hw : 1 / 5 ≤ v0 - 2 * (1027 / 1000000) * v0Distance) (hxl : 5 / 2 ≤ xLim) (hyl : 5 / 2 ≤ yLim) (hdt : dt ≤ 1 / 8)
    {s0 : ASIFObj ℝ (List ℝ) DockParams Unit}
    (hinit : dock2ASIF (1027 / 1000000) v0 2 v0Distance xLim yLim (some (.scalar 1)) (some (.scalar (-1))) epsilon exc = .ok s0)
    {plant : List ℝ → ℝ → List ℝ → List ℝ} (hplant : ∀ r, 0 ≤ r → r ≤ dt → ExactFlow2 (1027 / 1000000) r plant)
    {dts : Nat → ℝ} (hdts : ∀ k, 0 ≤ dts k ∧ dts k ≤ dt) {us : Nat → List ℝ} (hus : ∀ k, (us k).length = 2) {x y a b : ℝ}
    (h0 : √(a ^ 2 + b ^ 2 + 1 / 100000) + 1 / 10000 ≤ v0 + 2 * (1027 / 1000000) * (√(x ^ 2 + y ^ 2 + 1 / 100000) - v0Distance)) (N : Nat)
    (hN : v0 + 2 * (1027 / 1000000) * (√(x ^ 2 + y ^ 2 + 1 / 100000) + 23 / 10 * dt * N - v0Distance) ≤ 9 / 4) (k : Nat) (hk : k ≤ N) :
    ∃ Xk sk u s', closedLoop (explicitASIF solver (dockF2 (1027 / 1000000)) (dockG2 12)) plant dts us [x, y, a, b] s0 k = some (Xk, sk) ∧
      explicitASIF solver (dockF2 (1027 / 1000000)) (dockG2 12) sk (.array Xk) (dts k) (us k) = (.ok u, s') ∧
      SpeedWithin2 v0 (2 * (1027 / 1000000)) v0Distance (dt ^ 2 / 20) Xk ∧
      ∀ r, 0 ≤ r → r ≤ dts k → SpeedWithin2 v0 (2 * (1027 / 1000000)) v0Distance (dt ^ 2 / 20) (plant Xk r u) := by
  have hdt0 : 0 ≤ dt := (hdts 0).1.trans (hdts 0).2
  have hdt2 : dt ^ 2 ≤ 1 / 64 := by nlinarith
  obtain ⟨hc0, hdim0, hdir0, hen0, hlo0, hhi0, -⟩ := dock2_init hinit
  -- what is true of the state and the module at every sample
  let I : Nat → List ℝ → ASIFObj ℝ (List ℝ) DockParams Unit → Prop := fun k X s =>
    (∃ x' y' a' b', X = [x', y', a', b'] ∧
      -(dt ^ 2 / 20) ≤ (dockRelVel 2 dockCoefs2 v0 (2 * (1027 / 1000000)) v0Distance).value [x', y', a', b'] ∧
      √(x' ^ 2 + y' ^ 2 + 1 / 100000) ≤ √(x ^ 2 + y ^ 2 + 1 / 100000) + 23 / 10 * dt * k) ∧
    ExplicitModule solver (dockF2 (1027 / 1000000)) (dockG2 12) s ∧ s.constraints = dockConstraints2 v0 (2 * (1027 / 1000000)) v0Distance xLim yLim ∧
    s.ext.controlDim = 2 ∧ s.ext.direct = [] ∧ s.enable = true ∧ s.controlBoundsLow = some (.scalar (-1)) ∧ s.controlBoundsHigh = some (.scalar 1)
  -- one step
  have step : ∀ k ≤ N, ∀ X s, I k X s → ∃ u s', explicitASIF solver (dockF2 (1027 / 1000000)) (dockG2 12) s (.array X) (dts k) (us k) = (.ok u, s') ∧
      (∃ x' y' a' b', X = [x', y', a', b'] ∧ -(dt ^ 2 / 20) ≤ (dockRelVel 2 dockCoefs2 v0 (2 * (1027 / 1000000)) v0Distance).value [x', y', a', b']) ∧
      ∀ r, 0 ≤ r → r ≤ dts k → I (k + 1) (plant X r u) s' ∧ ∃ x' y' a' b', plant X r u = [x', y', a', b'] ∧
        -(dt ^ 2 / 20) ≤ (dockRelVel 2 dockCoefs2 v0 (2 * (1027 / 1000000)) v0Distance).value [x', y', a', b'] := by
    rintro k hk X s ⟨⟨x', y', a', b', rfl, hv, hr⟩, hmod, hc, hdim, hdir, hen, hlo, hhi⟩
    have hkN : 23 / 10 * dt * (k : ℝ) ≤ 23 / 10 * dt * N := mul_le_mul_of_nonneg_left (by exact_mod_cast hk) (by positivity)
    have hnear : v0 + 2 * (1027 / 1000000) * (√(x' ^ 2 + y' ^ 2 + 1 / 100000) - v0Distance) - 1 / 10000 ≤ 9 / 4 := by
      linarith
    have hb : ∀ w : List ℝ, w.length = 2 → (∀ c ∈ w, |c| ≤ 1) → Within s.controlBoundsLow s.controlBoundsHigh w := by
      intro w _ hw'; rw [hlo, hhi]; exact within_scalar hw'
    have hadm := dock2_feasible_violated hw hxl hyl hc hdim hdir hb hnear ((show -(11 / 10000) ≤ -(dt ^ 2 / 20) by linarith).trans hv)
    have hns : slackScales s.constraints = [] := by rw [hc]; exact dock2_noslack
    have hpos : ScalesPos s.constraints := by intro w hw'; rw [hns] at hw'; simp at hw'
    obtain ⟨w, hwadm⟩ := id hadm
    obtain ⟨u, hu⟩ := C24_returns hspec hmod hpos hen [x', y', a', b'] (dock2_shapes hc hdim hdir x' y' a' b') (dts k) (us k) ((hus k).trans hdim.symm)
      ⟨w, _, admissible_iff_zeros.1 hwadm⟩
    have hcall : explicitASIF solver (dockF2 (1027 / 1000000)) (dockG2 12) s (.array [x', y', a', b']) (dts k) (us k) =
      (.ok u, (explicitASIF solver (dockF2 (1027 / 1000000)) (dockG2 12) s (.array [x', y', a', b']) (dts k) (us k)).2) := Prod.ext hu rfl
    obtain ⟨hua, -⟩ := C24_closest_admissible hspec hmod hns hen _ (dts k) (us k) u hcall hadm
    refine ⟨u, _, hcall, ⟨x', y', a', b', rfl, hv⟩, fun r hr0 hr1 => ?_⟩
    have hlen := hua.len
    rw [hdim] at hlen
    match u, hlen with
    | [u1, u2], _ =>
      have hbounds := hua.bounds
      rw [hlo, hhi] at hbounds
      have hu1 : |u1| ≤ 1 := within_abs hbounds (i := 0) rfl
      have hu2 : |u2| ≤ 1 := within_abs hbounds (i := 1) rfl
      have hbar := hua.barrier ("rel_vel", dockRelVel 2 dockCoefs2 v0 (2 * (1027 / 1000000)) v0Distance)
        (by rw [hc]; unfold dockConstraints2; exact .head _) rfl
      obtain ⟨X', Y', A', B', rfl, rfl, rfl, rfl, hp, hd⟩ := hplant r hr0 (hr1.trans (hdts k).2) x' y' a' b' u1 u2
      obtain ⟨g1, g2⟩ := dock2_hold hw hdt (exact_hold2 hd) hr0 (by linarith [(hdts k).2]) hu1 hu2 hnear hbar hv
      have hsame := explicit_after_call solver (dockF2 (1027 / 1000000)) (dockG2 12) (directWF_of_inv hmod.inv.1) (.array [X' 0, Y' 0, A' 0, B' 0]) (dts k) (us k)
      refine ⟨⟨⟨X' r, Y' r, A' r, B' r, hp, g1, ?_⟩, hmod.call _ _ _, hsame.constraints.trans hc, hsame.controlDim.trans hdim, hsame.direct.trans hdir,
        hsame.enable.trans hen, hsame.low.trans hlo, hsame.high.trans hhi⟩, X' r, Y' r, A' r, B' r, hp, g1⟩
      have : 23 / 10 * (r - 0) ≤ 23 / 10 * dt := by linarith [(hdts k).2]
      push_cast
      linarith
  -- the loop
  have loop : ∀ k ≤ N, ∃ X s, closedLoop (explicitASIF solver (dockF2 (1027 / 1000000)) (dockG2 12)) plant dts us [x, y, a, b] s0 k = some (X, s) ∧ I k X s := by
    intro k
    induction k with
    | zero =>
      intro _
      refine ⟨_, _, rfl, ⟨x, y, a, b, rfl, ?_, by simp⟩, dock2_module hinit, hc0, hdim0, hdir0, hen0, hlo0, hhi0⟩
      rw [rel_value2]
      have : 0 ≤ dt ^ 2 / 20 := by positivity
      linarith
    | succ k ih =>
      intro hk
      obtain ⟨X, s, hX, hI⟩ := ih (by omega)
      obtain ⟨u, s', hcall, -, hnext⟩ := step k (by omega) X s hI
      exact ⟨plant X (dts k) u, s', by simp only [closedLoop, hX, hcall], (hnext _ (hdts k).1 le_rfl).1⟩
  obtain ⟨X, s, hX, hI⟩ := loop k hk
  obtain ⟨u, s', hcall, ⟨x', y', a', b', rfl, hv⟩, hnext⟩ := step k hk X s hI
  refine ⟨_, s, u, s', hX, hcall, within_of_value2 (by norm_num) (by norm_num) hv, fun r hr0 hr1 => ?_⟩
  obtain ⟨-, x'', y'', a'', b'', hp, hv'⟩ := hnext r hr0 hr1
  rw [hp]
  exact within_of_value2 (by norm_num) (by norm_num) hv'

/-! ### The same in space -/

/-- What being near and close to the limit means for the default module in space. -/
theorem near3_facts {v0 v0Distance x y z a b c : ℝ} (hw : 1 / 5 ≤ v0 - 4 * (1027 / 1000000) * v0Distance)
    (hnear : v0 + 4 * (1027 / 1000000) * (√(x ^ 2 + y ^ 2 + z ^ 2 + 1 / 100000) - v0Distance) - 1 / 10000 ≤ 9 / 4)
    (hv : -(11 / 10000) ≤ (dockRelVel 3 dockCoefs3 v0 (4 * (1027 / 1000000)) v0Distance).value [x, y, z, a, b, c]) :
    √(a ^ 2 + b ^ 2 + c ^ 2 + 1 / 100000) ≤ 226 / 100 ∧ √(x ^ 2 + y ^ 2 + z ^ 2 + 1 / 100000) ≤ 500 ∧ |x| ≤ 500 ∧ |z| ≤ 500 ∧ |a| ≤ 226 / 100 ∧ |b| ≤ 226 / 100 ∧ |c| ≤ 226 / 100 := by
  rw [rel_value3] at hv
  have hσ0 := sqrt_nonneg (a ^ 2 + b ^ 2 + c ^ 2 + 1 / 100000)
  have hρ0 := sqrt_nonneg (x ^ 2 + y ^ 2 + z ^ 2 + 1 / 100000)
  have hσhi : √(a ^ 2 + b ^ 2 + c ^ 2 + 1 / 100000) ≤ 226 / 100 := by linarith
  have hρhi : √(x ^ 2 + y ^ 2 + z ^ 2 + 1 / 100000) ≤ 500 := by linarith
  exact ⟨hσhi, hρhi, (abs_le_sqrt (by nlinarith [sq_nonneg y, sq_nonneg z])).trans hρhi, (abs_le_sqrt (by nlinarith [sq_nonneg y, sq_nonneg x])).trans hρhi,
    (abs_le_sqrt (by nlinarith [sq_nonneg b, sq_nonneg c])).trans hσhi, (abs_le_sqrt (by nlinarith [sq_nonneg a, sq_nonneg c])).trans hσhi,
    (abs_le_sqrt (by nlinarith [sq_nonneg a, sq_nonneg b])).trans hσhi⟩

/-- The default module in space where the smoothed speed exceeds the enforced limit by at most 1.1 mm/s. -/
theorem dock3_recovers {v0 v0Distance xLim yLim zLim : ℝ} (hw : 1 / 5 ≤ v0 - 4 * (1027 / 1000000) * v0Distance) (hxl : 5 / 2 ≤ xLim)
    (hyl : 5 / 2 ≤ yLim) (hzl : 5 / 2 ≤ zLim) {s : ASIFObj ℝ (List ℝ) DockParams Unit}
    (hc : s.constraints = dockConstraints3 v0 (4 * (1027 / 1000000)) v0Distance xLim yLim zLim) (hdim : s.ext.controlDim = 3) (hdir : s.ext.direct = [])
    (hb : ∀ w : List ℝ, w.length = 3 → (∀ c ∈ w, |c| ≤ 1) → Within s.controlBoundsLow s.controlBoundsHigh w)
    {x y z a b c : ℝ} (hnear : v0 + 4 * (1027 / 1000000) * (√(x ^ 2 + y ^ 2 + z ^ 2 + 1 / 100000) - v0Distance) - 1 / 10000 ≤ 9 / 4)
    (hv : -(11 / 10000) ≤ (dockRelVel 3 dockCoefs3 v0 (4 * (1027 / 1000000)) v0Distance).value [x, y, z, a, b, c])
    (hneg : (dockRelVel 3 dockCoefs3 v0 (4 * (1027 / 1000000)) v0Distance).value [x, y, z, a, b, c] < 0) :
    ∃ w, Admissible (dockF3 (1027 / 1000000)) (dockG3 12) s [x, y, z, a, b, c] w := by
  obtain ⟨hσhi, -, hx, hz, ha, hb2, hc2⟩ := near3_facts hw hnear hv
  have hS : -(11 / 1000) ≤ strengthening (dockRelVel 3 dockCoefs3 v0 (4 * (1027 / 1000000)) v0Distance) (polyAlpha dockCoefs3)
      ((dockRelVel 3 dockCoefs3 v0 (4 * (1027 / 1000000)) v0Distance).value [x, y, z, a, b, c]) := by
    rw [dock_strength_neg hneg, dock_alpha3]
    generalize (dockRelVel 3 dockCoefs3 v0 (4 * (1027 / 1000000)) v0Distance).value [x, y, z, a, b, c] = h at *
    have h1 : h ^ 2 ≤ 1 := by nlinarith
    nlinarith
  have hσlo : 19 / 100 ≤ √(a ^ 2 + b ^ 2 + c ^ 2 + 1 / 100000) := by
    rw [rel_value3] at hneg
    have := sqrt_nonneg (x ^ 2 + y ^ 2 + z ^ 2 + 1 / 100000)
    linarith
  clear hv hneg hnear hw
  have hσ2 : √(a ^ 2 + b ^ 2 + c ^ 2 + 1 / 100000) ^ 2 = a ^ 2 + b ^ 2 + c ^ 2 + 1 / 100000 := sq_sqrt (by positivity)
  have hk := brake_violated (v1 := 4 * (1027 / 1000000)) (q := a ^ 2 + b ^ 2 + c ^ 2) (by norm_num) hσlo (by linarith)
  have hN : normWithDelta [a, b, c] (1 / 100000) = √(a ^ 2 + b ^ 2 + c ^ 2 + 1 / 100000) := norm3d a b c
  have hp : 0 < √(a ^ 2 + b ^ 2 + c ^ 2 + 1 / 100000) := by linarith
  have ka := brake_comp_violated (v1 := 4 * (1027 / 1000000)) (c := a) (by norm_num) hp (abs_le_sqrt (by nlinarith [sq_nonneg b, sq_nonneg c]))
  have kb := brake_comp_violated (v1 := 4 * (1027 / 1000000)) (c := b) (by norm_num) hp (abs_le_sqrt (by nlinarith [sq_nonneg a, sq_nonneg c]))
  have kc := brake_comp_violated (v1 := 4 * (1027 / 1000000)) (c := c) (by norm_num) hp (abs_le_sqrt (by nlinarith [sq_nonneg a, sq_nonneg b]))
  have hk0 : 0 ≤ (2 * (4 * (1027 / 1000000)) * √(a ^ 2 + b ^ 2 + c ^ 2 + 1 / 100000) + 12 / 1000) / √(a ^ 2 + b ^ 2 + c ^ 2 + 1 / 100000) := by positivity
  generalize (2 * (4 * (1027 / 1000000)) * √(a ^ 2 + b ^ 2 + c ^ 2 + 1 / 100000) + 12 / 1000) / √(a ^ 2 + b ^ 2 + c ^ 2 + 1 / 100000) = k at *
  have hx' : vadd (dockF3 (1027 / 1000000) ([x, y, z] ++ [a, b, c])) (matVec (dockG3 12 ([x, y, z] ++ [a, b, c]))
      [12 * (-(k * a) - (3 * (1027 / 1000000) ^ 2 * x + 2 * (1027 / 1000000) * b)), 12 * (-(k * b) - (-2 * (1027 / 1000000) * a)), 12 * (-(k * c) - (-((1027 / 1000000) ^ 2) * z))]) =
      [a, b, c] ++ vscale (-k) [a, b, c] := by
    refine (field3_eq _ 12 x y z a b c _ _ _ _).trans ?_
    simp only [vscale, List.map_cons, List.map_nil, List.cons_append, List.nil_append, List.cons.injEq, and_true, true_and]
    refine ⟨?_, ?_, ?_⟩ <;> ring
  have hn1 : |3 * (1027 / 1000000) ^ 2 * x + 2 * (1027 / 1000000) * b| ≤ 8 / 1000 := by
    obtain ⟨h1, h2⟩ := abs_le.1 hx
    obtain ⟨h3, h4⟩ := abs_le.1 hb2
    clear * - h1 h2 h3 h4
    rw [abs_le]; constructor <;> linarith
  have hn2 : |-2 * (1027 / 1000000) * a| ≤ 5 / 1000 := by
    obtain ⟨h1, h2⟩ := abs_le.1 ha
    clear * - h1 h2
    rw [abs_le]; constructor <;> linarith
  have hn3 : |-((1027 / 1000000) ^ 2) * z| ≤ 5 / 1000 := by
    obtain ⟨h1, h2⟩ := abs_le.1 hz
    clear * - h1 h2
    rw [abs_le]; constructor <;> linarith
  refine ⟨[12 * (-(k * a) - (3 * (1027 / 1000000) ^ 2 * x + 2 * (1027 / 1000000) * b)), 12 * (-(k * b) - (-2 * (1027 / 1000000) * a)), 12 * (-(k * c) - (-((1027 / 1000000) ^ 2) * z))],
    by rw [hdim]; rfl, hb _ rfl ?_, ?_, by rw [hdir]; simp⟩
  · intro e hcw
    simp only [List.mem_cons, List.not_mem_nil, or_false] at hcw
    rcases hcw with rfl | rfl | rfl
    · exact thrust_le (by norm_num) hn1 ka (by linarith)
    · exact thrust_le (by norm_num) hn2 kb (by linarith)
    · exact thrust_le (by norm_num) hn3 kc (by linarith)
  · intro q hkc _
    rw [hc] at hkc
    simp only [dockConstraints3, List.mem_cons, List.not_mem_nil, or_false] at hkc
    rcases hkc with rfl | rfl | rfl | rfl
    · refine rel_barrier_violated (d := 3) (p := [x, y, z]) (v := [a, b, c]) rfl rfl (by norm_num) hx' hS ?_
      have : sqNorm [a, b, c] = a ^ 2 + b ^ 2 + c ^ 2 := by simp [sqNorm, dot]; ring
      rw [this, hN]
      exact hk
    · refine limit_barrier (d := 3) (p := [x, y, z]) (v := [a, b, c]) rfl rfl (by decide) (by decide) hk0 hx' ?_
      rw [limit_value]
      exact lim_sq hxl ha
    · refine limit_barrier (d := 3) (p := [x, y, z]) (v := [a, b, c]) rfl rfl (by decide) (by decide) hk0 hx' ?_
      rw [limit_value]
      exact lim_sq hyl hb2
    · refine limit_barrier (d := 3) (p := [x, y, z]) (v := [a, b, c]) rfl rfl (by decide) (by decide) hk0 hx' ?_
      rw [limit_value]
      exact lim_sq hzl hc2

/-- The default module in space finds a control as long as the limit is exceeded by at most 1.1 mm/s. -/
theorem dock3_feasible_violated {v0 v0Distance xLim yLim zLim : ℝ} (hw : 1 / 5 ≤ v0 - 4 * (1027 / 1000000) * v0Distance) (hxl : 5 / 2 ≤ xLim)
    (hyl : 5 / 2 ≤ yLim) (hzl : 5 / 2 ≤ zLim) {s : ASIFObj ℝ (List ℝ) DockParams Unit}
    (hc : s.constraints = dockConstraints3 v0 (4 * (1027 / 1000000)) v0Distance xLim yLim zLim) (hdim : s.ext.controlDim = 3) (hdir : s.ext.direct = [])
    (hb : ∀ w : List ℝ, w.length = 3 → (∀ c ∈ w, |c| ≤ 1) → Within s.controlBoundsLow s.controlBoundsHigh w)
    {x y z a b c : ℝ} (hnear : v0 + 4 * (1027 / 1000000) * (√(x ^ 2 + y ^ 2 + z ^ 2 + 1 / 100000) - v0Distance) - 1 / 10000 ≤ 9 / 4)
    (hv : -(11 / 10000) ≤ (dockRelVel 3 dockCoefs3 v0 (4 * (1027 / 1000000)) v0Distance).value [x, y, z, a, b, c]) :
    ∃ w, Admissible (dockF3 (1027 / 1000000)) (dockG3 12) s [x, y, z, a, b, c] w := by
  rcases le_or_gt 0 ((dockRelVel 3 dockCoefs3 v0 (4 * (1027 / 1000000)) v0Distance).value [x, y, z, a, b, c]) with hpos | hneg
  · obtain ⟨hσhi, -, hx, hz, ha, hb2, hc2⟩ := near3_facts hw hnear hv
    rw [rel_value3] at hpos
    have hn : |(1027 / 1000000 : ℝ)| = 1027 / 1000000 := abs_of_pos (by norm_num)
    have l1 := lim_sq hxl ha
    have l2 := lim_sq hyl hb2
    have l3 := lim_sq hzl hc2
    refine dock3_feasible (m := 12) (by norm_num) (by norm_num) hc hdim hdir hb ⟨by linarith, by linarith, by linarith, by linarith⟩ ?_
    clear * - hn hσhi hx hz ha hb2
    constructor <;> (try rw [hn]) <;> linarith
  · exact dock3_recovers hw hxl hyl hzl hc hdim hdir hb hnear hv hneg

theorem rel3_relRate (coefs : List ℝ) (n m v0 v1 v0Distance x y z a b c u1 u2 u3 : ℝ) :
    (dockRelVel 3 coefs v0 v1 v0Distance).rate (dockF3 n) (dockG3 m) [x, y, z, a, b, c] [u1, u2, u3] =
      relRate n (1 / m * u1) (1 / m * u2) (1 / m * u3) v1 (1 / 100000) x y z a b c := by
  show dot (relVelGrad 3 v1 (1 / 100000) [x, y, z, a, b, c]) (vadd (dockF3 n [x, y, z, a, b, c]) (matVec (dockG3 m [x, y, z, a, b, c]) [u1, u2, u3])) = _
  rw [relVelGrad3, field3_eq]
  simp only [dot_cons, dot_nil_left, relRate]
  ring

/-- The constants of the default module in space. -/
theorem consts3 {dt : ℝ} (hdt : dt ≤ 1 / 8) {w0 : ℝ} (hw0 : 1 / 5 - 1 / 10000 ≤ w0) :
    (1619 / 10000 : ℝ) ≤ w0 - (4 * (1027 / 1000000) * (23 / 10) + 147 / 1000) * dt - 147 / 1000 * dt ∧
    4 * (1027 / 1000000) * (147 / 1000 + 2 * (1027 / 1000000) * (23 / 10)) +
      (3 * (1027 / 1000000) ^ 2 * (23 / 10) ^ 2 + 147 / 1000 * (147 / 1000 + 2 * (1027 / 1000000) * (23 / 10))) / (1619 / 10000) ≤ (7 / 50 : ℝ) := by
  constructor
  · linarith
  · norm_num

theorem forces3 {x z u1 u2 u3 : ℝ} (hx : |x| ≤ 740) (hz : |z| ≤ 740) (h1 : |u1| ≤ 1) (h2 : |u2| ≤ 1) (h3 : |u3| ≤ 1) :
    (3 * (1027 / 1000000) ^ 2 * x + 1 / 12 * u1) ^ 2 + (1 / 12 * u2) ^ 2 + (-((1027 / 1000000) ^ 2) * z + 1 / 12 * u3) ^ 2 ≤ (147 / 1000 : ℝ) ^ 2 := by
  have e1 : |3 * (1027 / 1000000) ^ 2 * x + 1 / 12 * u1| ≤ 8568 / 100000 := by
    obtain ⟨a1, a2⟩ := abs_le.1 hx
    obtain ⟨b1, b2⟩ := abs_le.1 h1
    rw [abs_le]; constructor <;> linarith
  have e2 : |1 / 12 * u2| ≤ 8334 / 100000 := by
    obtain ⟨a1, a2⟩ := abs_le.1 h2
    rw [abs_le]; constructor <;> linarith
  have e3 : |-((1027 / 1000000) ^ 2) * z + 1 / 12 * u3| ≤ 8412 / 100000 := by
    obtain ⟨a1, a2⟩ := abs_le.1 hz
    obtain ⟨b1, b2⟩ := abs_le.1 h3
    rw [abs_le]; constructor <;> linarith
  have q1 := pow_le_pow_left₀ (abs_nonneg _) e1 2
  have q2 := pow_le_pow_left₀ (abs_nonneg _) e2 2
  have q3 := pow_le_pow_left₀ (abs_nonneg _) e3 2
  rw [sq_abs] at q1 q2 q3
  linarith

theorem thrust3_sq {u1 u2 u3 : ℝ} (h1 : |u1| ≤ 1) (h2 : |u2| ≤ 1) (h3 : |u3| ≤ 1) :
    (1 / 12 * u1) ^ 2 + (1 / 12 * u2) ^ 2 + (1 / 12 * u3) ^ 2 ≤ (3 / 20) ^ 2 := by
  have q1 := pow_le_pow_left₀ (abs_nonneg _) h1 2
  have q2 := pow_le_pow_left₀ (abs_nonneg _) h2 2
  have q3 := pow_le_pow_left₀ (abs_nonneg _) h3 2
  rw [sq_abs] at q1 q2 q3
  linarith

/-! ### One hold in space -/

/-- **C84, one hold of the default module in space**: from a speed at most `7 dt²/100` above the enforced limit, under a control that satisfies
the condition the module imposes, the speed stays at most `7 dt²/100` above the limit throughout the hold. -/
theorem dock3_hold {v0 v0Distance dt : ℝ} (hw : 1 / 5 ≤ v0 - 4 * (1027 / 1000000) * v0Distance) (hdt : dt ≤ 1 / 8) {u1 u2 u3 α β : ℝ} {X Y Z A B C : ℝ → ℝ}
    (h : DockHold (1027 / 1000000) (1 / 12 * u1) (1 / 12 * u2) (1 / 12 * u3) α β X Y Z A B C) (hαβ : α ≤ β) (hβ : β ≤ α + dt)
    (hu1 : |u1| ≤ 1) (hu2 : |u2| ≤ 1) (hu3 : |u3| ≤ 1)
    (hnear : v0 + 4 * (1027 / 1000000) * (√(X α ^ 2 + Y α ^ 2 + Z α ^ 2 + 1 / 100000) - v0Distance) - 1 / 10000 ≤ 9 / 4)
    (hbar : BarrierOK (dockF3 (1027 / 1000000)) (dockG3 12) (dockRelVel 3 dockCoefs3 v0 (4 * (1027 / 1000000)) v0Distance) [X α, Y α, Z α, A α, B α, C α] [u1, u2, u3] 0)
    (h0 : -(7 * dt ^ 2 / 100) ≤ (dockRelVel 3 dockCoefs3 v0 (4 * (1027 / 1000000)) v0Distance).value [X α, Y α, Z α, A α, B α, C α]) :
    -(7 * dt ^ 2 / 100) ≤ (dockRelVel 3 dockCoefs3 v0 (4 * (1027 / 1000000)) v0Distance).value [X β, Y β, Z β, A β, B β, C β] ∧
      √(X β ^ 2 + Y β ^ 2 + Z β ^ 2 + 1 / 100000) ≤ √(X α ^ 2 + Y α ^ 2 + Z α ^ 2 + 1 / 100000) + 23 / 10 * (β - α) := by
  have hdt0 : 0 ≤ dt := by linarith
  have hdt2 : dt ^ 2 ≤ 1 / 64 := by nlinarith
  obtain ⟨hσ, hρ, -⟩ := near3_facts (a := A α) (b := B α) (c := C α) hw hnear (by linarith)
  have hreg := hold_region (by norm_num) (by norm_num) (thrust3_sq hu1 hu2 hu3) h (by linarith) (by norm_num : (500 : ℝ) ≤ 1000)
    hσ hρ
  have he : ∀ t ∈ Ico α β, (3 * (1027 / 1000000) ^ 2 * X t + 1 / 12 * u1) ^ 2 + (1 / 12 * u2) ^ 2 + (-((1027 / 1000000) ^ 2) * Z t + 1 / 12 * u3) ^ 2 ≤ (147 / 1000 : ℝ) ^ 2 :=
    fun t ht => forces3 ((hreg t ht).1.trans (by norm_num)) ((hreg t ht).2.trans (by norm_num)) hu1 hu2 hu3
  obtain ⟨k1, k2⟩ := consts3 hdt (w0 := v0 - 4 * (1027 / 1000000) * v0Distance - 1 / 10000) (by linarith)
  have hr := barrier_rate (al := polyAlpha dockCoefs3) rfl hbar
  rw [rel3_relRate] at hr
  constructor
  · have key := dock_hold (n := 1027 / 1000000) (v1 := 4 * (1027 / 1000000)) (δ := 1 / 100000) (E := 147 / 1000) (V := 23 / 10) (w := 1619 / 10000)
      (w0 := v0 - 4 * (1027 / 1000000) * v0Distance - 1 / 10000) (L := 7 / 50) (dt := dt) (by norm_num) (by norm_num) (by norm_num) (by norm_num)
      (by norm_num) (by norm_num) (by norm_num) h hαβ hβ he (by linarith) k1 k2
      (y := (dockRelVel 3 dockCoefs3 v0 (4 * (1027 / 1000000)) v0Distance).value [X α, Y α, Z α, A α, B α, C α])
      (by rw [rel_value3]; ring) hr
      (fun hp hle => by
        rw [dock_strength_pos hp, dock_alpha3]
        generalize (dockRelVel 3 dockCoefs3 v0 (4 * (1027 / 1000000)) v0Distance).value [X α, Y α, Z α, A α, B α, C α] = q at *
        have q1 : q ≤ 1 := by linarith
        have q2 : q ^ 3 ≤ q := by nlinarith [mul_nonneg hp hp]
        have q3 : 5 / 100 * q + 5 / 1000 * q ^ 3 ≤ q := by linarith
        have q4 : 0 ≤ 5 / 100 * q + 5 / 1000 * q ^ 3 := by positivity
        nlinarith)
      (fun hn => by
        rw [dock_strength_neg hn, dock_alpha3]
        generalize (dockRelVel 3 dockCoefs3 v0 (4 * (1027 / 1000000)) v0Distance).value [X α, Y α, Z α, A α, B α, C α] = q at *
        have q2 : q ^ 3 ≤ 0 := by nlinarith [mul_self_nonneg q]
        linarith)
      (by linarith)
    rw [rel_value3]
    linarith
  · have sp : ∀ t ∈ Ico α β, _ := fun t ht => (speed_hold (δ := 1 / 100000) (by norm_num) (by norm_num : (0 : ℝ) ≤ 147 / 1000) (h.mono ht.2.le) ht.1
      (fun r hr => he r ⟨hr.1, hr.2.trans ht.2⟩)).2
    have := dist_hold (δ := 1 / 100000) (V := 23 / 10) (by norm_num) h hαβ (fun t ht => by
      have k := sp t ht
      have := ht.2
      linarith)
    exact this

/-- An exact solution over `[0, s]` is a hold. -/
theorem exact_hold3 {n s u w o : ℝ} {X Y Z A B C : ℝ → ℝ}
    (hd : ∀ t ∈ Icc 0 s, HasDerivWithinAt X (A t) (Icc 0 s) t ∧ HasDerivWithinAt Y (B t) (Icc 0 s) t ∧
      HasDerivWithinAt Z (C t) (Icc 0 s) t ∧ HasDerivWithinAt A (3 * n ^ 2 * X t + 2 * n * B t + 1 / 12 * u) (Icc 0 s) t ∧
      HasDerivWithinAt B (-2 * n * A t + 1 / 12 * w) (Icc 0 s) t ∧ HasDerivWithinAt C (-(n ^ 2) * Z t + 1 / 12 * o) (Icc 0 s) t) :
    DockHold n (1 / 12 * u) (1 / 12 * w) (1 / 12 * o) 0 s X Y Z A B C := by
  have mem : ∀ t ∈ Ico 0 s, t ∈ Icc 0 s := fun t ht => ⟨ht.1, ht.2.le⟩
  have up : ∀ {F : ℝ → ℝ} {d t : ℝ}, t ∈ Ico 0 s → HasDerivWithinAt F d (Icc 0 s) t → HasDerivWithinAt F d (Ici t) t := fun ht h =>
    (h.mono (Icc_subset_Icc_left ht.1)).mono_of_mem_nhdsWithin (Icc_mem_nhdsGE ht.2)
  exact ⟨fun t ht => (hd t ht).1.continuousWithinAt, fun t ht => (hd t ht).2.1.continuousWithinAt, fun t ht => (hd t ht).2.2.1.continuousWithinAt,
    fun t ht => (hd t ht).2.2.2.1.continuousWithinAt, fun t ht => (hd t ht).2.2.2.2.1.continuousWithinAt,
    fun t ht => (hd t ht).2.2.2.2.2.continuousWithinAt,
    fun t ht => up ht (hd t (mem t ht)).1, fun t ht => up ht (hd t (mem t ht)).2.1, fun t ht => up ht (hd t (mem t ht)).2.2.1,
    fun t ht => up ht (hd t (mem t ht)).2.2.2.1, fun t ht => up ht (hd t (mem t ht)).2.2.2.2.1,
    fun t ht => up ht (hd t (mem t ht)).2.2.2.2.2⟩

/-- The documented speed limit in space, exceeded by at most `e`. -/
def SpeedWithin3 (v0 v1 v0Distance e : ℝ) (X : List ℝ) : Prop :=
  ∃ x y z a b c, X = [x, y, z, a, b, c] ∧ √(a ^ 2 + b ^ 2 + c ^ 2) ≤ v0 + v1 * (√(x ^ 2 + y ^ 2 + z ^ 2) - v0Distance) + e

theorem within_of_value3 {v0 v1 v0Distance e x y z a b c : ℝ} (hv1 : 0 ≤ v1) (hv1' : v1 ≤ 1 / 32) {coefs : List ℝ}
    (h : -e ≤ (dockRelVel 3 coefs v0 v1 v0Distance).value [x, y, z, a, b, c]) : SpeedWithin3 v0 v1 v0Distance e [x, y, z, a, b, c] := by
  rw [rel_value3] at h
  refine ⟨x, y, z, a, b, c, rfl, ?_⟩
  exact C64_documented_limit hv1 hv1' (P := x ^ 2 + y ^ 2 + z ^ 2) (V := a ^ 2 + b ^ 2 + c ^ 2) (by positivity) rfl (v0 := v0 + e) (v0Distance := v0Distance) (by linarith) (by ring)

/-- **C84 in space**. The default 3-D docking module (limits at least 2.5 m/s, bounds ±1) filters once per step of at most `dt ≤ 1/8` s, with any desired
controls, the thrust of a vehicle that follows the equations of motion exactly and holds the thrust in between. Starting within the enforced
limit, close enough that within `N` steps it cannot get to where the limit exceeds 2.25 m/s: every call returns, and at every instant - at
the samples and in between - the documented speed limit is exceeded by at most `7 dt²/100` m/s. -/
theorem C84_docking_3d {solver : Solver ℝ} (hspec : SolverSpec solver) {v0 v0Distance xLim yLim zLim epsilon dt : ℝ} {exc : Bool}
    (hw : 1 / 5 ≤ v0 - 4 * (1027 / 1000000) * v0Distance) (hxl : 5 / 2 ≤ xLim) (hyl : 5 / 2 ≤ yLim) (hzl : 5 / 2 ≤ zLim) (hdt : dt ≤ 1 / 8)
    {s0 : ASIFObj ℝ (List ℝ) DockParams Unit}
    (hinit : dock3ASIF (1027 / 1000000) v0 4 v0Distance xLim yLim zLim (some (.scalar 1)) (some (.scalar (-1))) epsilon exc = .ok s0)
    {plant : List ℝ → ℝ → List ℝ → List ℝ} (hplant : ∀ r, 0 ≤ r → r ≤ dt → ExactFlow3 (1027 / 1000000) r plant)
    {dts : Nat → ℝ} (hdts : ∀ k, 0 ≤ dts k ∧ dts k ≤ dt) {us : Nat → List ℝ} (hus : ∀ k, (us k).length = 3) {x y z a b c : ℝ}
    (h0 : √(a ^ 2 + b ^ 2 + c ^ 2 + 1 / 100000) + 1 / 10000 ≤ v0 + 4 * (1027 / 1000000) * (√(x ^ 2 + y ^ 2 + z ^ 2 + 1 / 100000) - v0Distance)) (N : Nat)
    (hN : v0 + 4 * (1027 / 1000000) * (√(x ^ 2 + y ^ 2 + z ^ 2 + 1 / 100000) + 23 / 10 * dt * N - v0Distance) ≤ 9 / 4) (k : Nat) (hk : k ≤ N) :
    ∃ Xk sk u s', closedLoop (explicitASIF solver (dockF3 (1027 / 1000000)) (dockG3 12)) plant dts us [x, y, z, a, b, c] s0 k = some (Xk, sk) ∧
      explicitASIF solver (dockF3 (1027 / 1000000)) (dockG3 12) sk (.array Xk) (dts k) (us k) = (.ok u, s') ∧
      SpeedWithin3 v0 (4 * (1027 / 1000000)) v0Distance (7 * dt ^ 2 / 100) Xk ∧
      ∀ r, 0 ≤ r → r ≤ dts k → SpeedWithin3 v0 (4 * (1027 / 1000000)) v0Distance (7 * dt ^ 2 / 100) (plant Xk r u) := by
  have hdt0 : 0 ≤ dt := (hdts 0).1.trans (hdts 0).2
  have hdt2 : dt ^ 2 ≤ 1 / 64 := by nlinarith
  obtain ⟨hc0, hdim0, hdir0, hen0, hlo0, hhi0, -⟩ := dock3_init hinit
  -- what is true of the state and the module at every sample
  let I : Nat → List ℝ → ASIFObj ℝ (List ℝ) DockParams Unit → Prop := fun k X s =>
    (∃ x' y' z' a' b' c', X = [x', y', z', a', b', c'] ∧
      -(7 * dt ^ 2 / 100) ≤ (dockRelVel 3 dockCoefs3 v0 (4 * (1027 / 1000000)) v0Distance).value [x', y', z', a', b', c'] ∧
      √(x' ^ 2 + y' ^ 2 + z' ^ 2 + 1 / 100000) ≤ √(x ^ 2 + y ^ 2 + z ^ 2 + 1 / 100000) + 23 / 10 * dt * k) ∧
    ExplicitModule solver (dockF3 (1027 / 1000000)) (dockG3 12) s ∧ s.constraints = dockConstraints3 v0 (4 * (1027 / 1000000)) v0Distance xLim yLim zLim ∧
    s.ext.controlDim = 3 ∧ s.ext.direct = [] ∧ s.enable = true ∧ s.controlBoundsLow = some (.scalar (-1)) ∧ s.controlBoundsHigh = some (.scalar 1)
  -- one step
  have step : ∀ k ≤ N, ∀ X s, I k X s → ∃ u s', explicitASIF solver (dockF3 (1027 / 1000000)) (dockG3 12) s (.array X) (dts k) (us k) = (.ok u, s') ∧
      (∃ x' y' z' a' b' c', X = [x', y', z', a', b', c'] ∧ -(7 * dt ^ 2 / 100) ≤ (dockRelVel 3 dockCoefs3 v0 (4 * (1027 / 1000000)) v0Distance).value [x', y', z', a', b', c']) ∧
      ∀ r, 0 ≤ r → r ≤ dts k → I (k + 1) (plant X r u) s' ∧ ∃ x' y' z' a' b' c', plant X r u = [x', y', z', a', b', c'] ∧
        -(7 * dt ^ 2 / 100) ≤ (dockRelVel 3 dockCoefs3 v0 (4 * (1027 / 1000000)) v0Distance).value [x', y', z', a', b', c'] := by
    rintro k hk X s ⟨⟨x', y', z', a', b', c', rfl, hv, hr⟩, hmod, hc, hdim, hdir, hen, hlo, hhi⟩
    have hkN : 23 / 10 * dt * (k : ℝ) ≤ 23 / 10 * dt * N := mul_le_mul_of_nonneg_left (by exact_mod_cast hk) (by positivity)
    have hnear : v0 + 4 * (1027 / 1000000) * (√(x' ^ 2 + y' ^ 2 + z' ^ 2 + 1 / 100000) - v0Distance) - 1 / 10000 ≤ 9 / 4 := by
      linarith
    have hb : ∀ w : List ℝ, w.length = 3 → (∀ c ∈ w, |c| ≤ 1) → Within s.controlBoundsLow s.controlBoundsHigh w := by
      intro w _ hw'; rw [hlo, hhi]; exact within_scalar hw'
    have hadm := dock3_feasible_violated hw hxl hyl hzl hc hdim hdir hb hnear ((show -(11 / 10000) ≤ -(7 * dt ^ 2 / 100) by linarith).trans hv)
    have hns : slackScales s.constraints = [] := by rw [hc]; exact dock3_noslack
    have hpos : ScalesPos s.constraints := by intro w hw'; rw [hns] at hw'; simp at hw'
    obtain ⟨w, hwadm⟩ := id hadm
    obtain ⟨u, hu⟩ := C24_returns hspec hmod hpos hen [x', y', z', a', b', c'] (dock3_shapes hc hdim hdir x' y' z' a' b' c') (dts k) (us k) ((hus k).trans hdim.symm)
      ⟨w, _, admissible_iff_zeros.1 hwadm⟩
    have hcall : explicitASIF solver (dockF3 (1027 / 1000000)) (dockG3 12) s (.array [x', y', z', a', b', c']) (dts k) (us k) =
      (.ok u, (explicitASIF solver (dockF3 (1027 / 1000000)) (dockG3 12) s (.array [x', y', z', a', b', c']) (dts k) (us k)).2) := Prod.ext hu rfl
    obtain ⟨hua, -⟩ := C24_closest_admissible hspec hmod hns hen _ (dts k) (us k) u hcall hadm
    refine ⟨u, _, hcall, ⟨x', y', z', a', b', c', rfl, hv⟩, fun r hr0 hr1 => ?_⟩
    have hlen := hua.len
    rw [hdim] at hlen
    match u, hlen with
    | [u1, u2, u3], _ =>
      have hbounds := hua.bounds
      rw [hlo, hhi] at hbounds
      have hu1 : |u1| ≤ 1 := within_abs hbounds (i := 0) rfl
      have hu2 : |u2| ≤ 1 := within_abs hbounds (i := 1) rfl
      have hu3 : |u3| ≤ 1 := within_abs hbounds (i := 2) rfl
      have hbar := hua.barrier ("rel_vel", dockRelVel 3 dockCoefs3 v0 (4 * (1027 / 1000000)) v0Distance)
        (by rw [hc]; unfold dockConstraints3; exact .head _) rfl
      obtain ⟨X', Y', Z', A', B', C', rfl, rfl, rfl, rfl, rfl, rfl, hp, hd⟩ := hplant r hr0 (hr1.trans (hdts k).2) x' y' z' a' b' c' u1 u2 u3
      obtain ⟨g1, g2⟩ := dock3_hold hw hdt (exact_hold3 hd) hr0 (by linarith [(hdts k).2]) hu1 hu2 hu3 hnear hbar hv
      have hsame := explicit_after_call solver (dockF3 (1027 / 1000000)) (dockG3 12) (directWF_of_inv hmod.inv.1) (.array [X' 0, Y' 0, Z' 0, A' 0, B' 0, C' 0]) (dts k) (us k)
      refine ⟨⟨⟨X' r, Y' r, Z' r, A' r, B' r, C' r, hp, g1, ?_⟩, hmod.call _ _ _, hsame.constraints.trans hc, hsame.controlDim.trans hdim, hsame.direct.trans hdir,
        hsame.enable.trans hen, hsame.low.trans hlo, hsame.high.trans hhi⟩, X' r, Y' r, Z' r, A' r, B' r, C' r, hp, g1⟩
      have : 23 / 10 * (r - 0) ≤ 23 / 10 * dt := by linarith [(hdts k).2]
      push_cast
      linarith
  -- the loop
  have loop : ∀ k ≤ N, ∃ X s, closedLoop (explicitASIF solver (dockF3 (1027 / 1000000)) (dockG3 12)) plant dts us [x, y, z, a, b, c] s0 k = some (X, s) ∧ I k X s := by
    intro k
    induction k with
    | zero =>
      intro _
      refine ⟨_, _, rfl, ⟨x, y, z, a, b, c, rfl, ?_, by simp⟩, dock3_module hinit, hc0, hdim0, hdir0, hen0, hlo0, hhi0⟩
      rw [rel_value3]
      have : 0 ≤ 7 * dt ^ 2 / 100 := by positivity
      linarith
    | succ k ih =>
      intro hk
      obtain ⟨X, s, hX, hI⟩ := ih (by omega)
      obtain ⟨u, s', hcall, -, hnext⟩ := step k (by omega) X s hI
      exact ⟨plant X (dts k) u, s', by simp only [closedLoop, hX, hcall], (hnext _ (hdts k).1 le_rfl).1⟩
  obtain ⟨X, s, hX, hI⟩ := loop k hk
  obtain ⟨u, s', hcall, ⟨x', y', z', a', b', c', rfl, hv⟩, hnext⟩ := step k hk X s hI
  refine ⟨_, s, u, s', hX, hcall, within_of_value3 (by norm_num) (by norm_num) hv, fun r hr0 hr1 => ?_⟩
  obtain ⟨-, x'', y'', z'', a'', b'', c'', hp, hv'⟩ := hnext r hr0 hr1
  rw [hp]
  exact within_of_value3 (by norm_num) (by norm_num) hv'

end RTA
