import Verif.Props.Existence

/-!
C121 for scalar controls: any number of constraints and user supplied inequalities, with or without control bounds.
-/
namespace RTA
open Set

variable {P X : Type}

theorem LipOn.uniform {ι : Type} {n : Nat} {φ : ι → List ℝ → ℝ} (b : ι → ℝ) :
    ∀ l : List ι, (∀ i ∈ l, LipOn n (φ i)) → ∃ L, 0 ≤ L ∧ ∀ i ∈ l, b i ≠ 0 → ∀ x y : List ℝ, x.length = n → y.length = n → ∀ r, 0 ≤ r →
      (∀ j < n, |x.getD j 0 - y.getD j 0| ≤ r) → |φ i x - φ i y| ≤ L * r * |b i|
  | [], _ => ⟨0, le_rfl, fun i hi => by simp at hi⟩
  | i :: l, h => by
    obtain ⟨L, hL, hl⟩ := LipOn.uniform b l fun j hj => h j (List.mem_cons_of_mem _ hj)
    obtain ⟨M, hM, hi⟩ := h i List.mem_cons_self
    have hMb : 0 ≤ M / |b i| := div_nonneg hM (abs_nonneg _)
    refine ⟨L + M / |b i|, by positivity, fun j hj hb x y hx hy r hr hd => ?_⟩
    rcases List.mem_cons.1 hj with rfl | hj
    · have hp : 0 < |b j| := abs_pos.2 hb
      have e : (L + M / |b j|) * r * |b j| = L * r * |b j| + M * r := by field_simp
      have := hi x y hx hy r hr hd
      have h0 : 0 ≤ L * r * |b j| := by positivity
      rw [e]
      linarith
    · have h1 := hl j hj hb x y hx hy r hr hd
      have h0 : 0 ≤ M / |b i| * r * |b j| := by positivity
      have e : (L + M / |b i|) * r * |b j| = L * r * |b j| + M / |b i| * r * |b j| := by ring
      rw [e]
      linarith

/-- Of two closest points of sets of which each contains what lies between the two, moved by `δ`, the upper one is not much above. -/
theorem closest_shift {A B : ℝ → Prop} {δ p q a b : ℝ} (hδ : 0 ≤ δ) (hA : A p) (hB : B q)
    (hBmid : ∀ v, p + δ ≤ v → v ≤ q → B v) (hAmid : ∀ v, p ≤ v → v ≤ q - δ → A v)
    (hp : ∀ v, A v → v ≠ p → (p - a) ^ 2 < (v - a) ^ 2) (hq : ∀ v, B v → v ≠ q → (q - b) ^ 2 < (v - b) ^ 2) :
    q - p ≤ δ + |a - b| := by
  by_contra hlt
  push Not at hlt
  have h0 := abs_nonneg (a - b)
  by_cases h1 : b < q
  · have hv : max (p + δ) b < q := max_lt (by linarith) h1
    have := hq _ (hBmid _ (le_max_left _ _) hv.le) hv.ne
    have h2 := le_max_right (p + δ) b
    nlinarith
  · by_cases h2 : p < a
    · have hv : p < min (q - δ) a := lt_min (by linarith) h2
      have := hp _ (hAmid _ hv.le (min_le_left _ _)) hv.ne'
      have h3 := min_le_right (q - δ) a
      nlinarith
    · have := neg_abs_le (a - b)
      linarith

theorem sqDist_scalar (a b : ℝ) : sqDist [a] [b] = (a - b) ^ 2 := by simp [sqDist, sqNorm, vsub, dot]; ring

section
variable {n : Nat} {f : List ℝ → List ℝ} {g : List ℝ → List (List ℝ)} {s : ASIFObj ℝ (List ℝ) P X}

/-- For every condition in one state there is one with the same coefficient in the other, and it says almost the same. -/
theorem scalarConds_lip (hb : ∀ kc ∈ s.constraints, kc.2.enabled = true → ∃ b : ℝ, ∀ x : List ℝ, x.length = n → (influence g kc.2 x 1).getD 0 0 = b)
    (hd : ∀ kc ∈ s.constraints, kc.2.enabled = true → ∀ al, kc.2.alpha = some al → LipOn n fun x => drift f kc.2 al x)
    (hal : ∀ kc ∈ s.constraints, kc.2.alpha.isSome = true)
    (hw : ∀ kc ∈ s.ext.direct, kc.2.enabled = true → ∃ b : ℝ, ∀ x : List ℝ, x.length = n → (kc.2.ineqWeight x kc.2.params).getD 0 0 = b)
    (hc : ∀ kc ∈ s.ext.direct, kc.2.enabled = true → LipOn n fun x => kc.2.ineqConstant x kc.2.params) :
    ∃ L, 0 ≤ L ∧ ∀ x y : List ℝ, x.length = n → y.length = n → ∀ r, 0 ≤ r → (∀ j < n, |x.getD j 0 - y.getD j 0| ≤ r) →
      ∀ q ∈ scalarConds f g s y, ∃ q' ∈ scalarConds f g s x, q'.1 = q.1 ∧ (q.1 ≠ 0 → |q.2 - q'.2| ≤ L * r * |q.1|) := by
  obtain ⟨L1, hL1, h1⟩ := LipOn.uniform (n := n) (φ := fun kc x => drift f kc.2 (kc.2.alpha.getD fun _ => 0) x)
    (fun kc => (influence g kc.2 (zeros n) 1).getD 0 0) (s.constraints.filter fun kc => kc.2.enabled) fun kc hkc => by
      obtain ⟨hm, he⟩ := List.mem_filter.1 hkc
      obtain ⟨al, ha⟩ := Option.isSome_iff_exists.1 (hal kc hm)
      have := hd kc hm he al ha
      rw [ha]
      exact this
  obtain ⟨L2, hL2, h2⟩ := LipOn.uniform (n := n) (φ := fun kc x => kc.2.ineqConstant x kc.2.params)
    (fun kc => (kc.2.ineqWeight (zeros n) kc.2.params).getD 0 0) (s.ext.direct.filter fun kc => kc.2.enabled) fun kc hkc => by
      obtain ⟨hm, he⟩ := List.mem_filter.1 hkc
      exact hc kc hm he
  have z : (zeros n : List ℝ).length = n := by simp
  refine ⟨L1 + L2, by positivity, fun x y hx hy r hr hxy q hq => ?_⟩
  have hyx : ∀ j < n, |y.getD j 0 - x.getD j 0| ≤ r := fun j hj => by rw [abs_sub_comm]; exact hxy j hj
  rcases List.mem_append.1 hq with hq | hq
  · obtain ⟨kc, hkc, rfl⟩ := List.mem_map.1 hq
    obtain ⟨hm, he⟩ := List.mem_filter.1 hkc
    obtain ⟨b, hb'⟩ := hb kc hm he
    refine ⟨_, List.mem_append_left _ (List.mem_map_of_mem hkc), by simp only [hb' x hx, hb' y hy], fun hne => ?_⟩
    simp only [hb' y hy] at hne ⊢
    have := h1 kc hkc (by simp only [hb' _ z]; exact hne) y x hy hx r hr hyx
    simp only [hb' _ z] at this
    have h0 : 0 ≤ L2 * r * |b| := by positivity
    have e : (L1 + L2) * r * |b| = L1 * r * |b| + L2 * r * |b| := by ring
    rw [e]
    linarith
  · obtain ⟨kc, hkc, rfl⟩ := List.mem_map.1 hq
    obtain ⟨hm, he⟩ := List.mem_filter.1 hkc
    obtain ⟨b, hb'⟩ := hw kc hm he
    refine ⟨_, List.mem_append_right _ (List.mem_map_of_mem hkc), by simp only [hb' x hx, hb' y hy], fun hne => ?_⟩
    simp only [hb' y hy] at hne ⊢
    have := h2 kc hkc (by simp only [hb' _ z]; exact hne) x y hx hy r hr hxy
    simp only [hb' _ z] at this
    have h0 : 0 ≤ L1 * r * |b| := by positivity
    have e : (L1 + L2) * r * |b| = L1 * r * |b| + L2 * r * |b| := by ring
    have e' : -kc.2.ineqConstant y kc.2.params - -kc.2.ineqConstant x kc.2.params =
        kc.2.ineqConstant x kc.2.params - kc.2.ineqConstant y kc.2.params := by ring
    rw [e, e']
    linarith

/-- The answer of a module with a scalar control changes at most proportionally to the state, under the hypotheses of
`C121_scalar_partial`. -/
theorem scalar_answer_lip {solver : Solver ℝ} (hspec : SolverSpec solver) (hs : ExplicitModule solver f g s) (hen : s.enable = true)
    (hdim : s.ext.controlDim = 1) (hns : slackScales s.constraints = [])
    (hsh : ∀ x, x.length = n → ShapesOK f g s x) (hadm : ∀ x, x.length = n → ∃ w, Admissible f g s x w)
    (hb : ∀ kc ∈ s.constraints, kc.2.enabled = true → ∃ b : ℝ, ∀ x : List ℝ, x.length = n → (influence g kc.2 x 1).getD 0 0 = b)
    (hd : ∀ kc ∈ s.constraints, kc.2.enabled = true → ∀ al, kc.2.alpha = some al → LipOn n fun x => drift f kc.2 al x)
    (hw : ∀ kc ∈ s.ext.direct, kc.2.enabled = true → ∃ b : ℝ, ∀ x : List ℝ, x.length = n → (kc.2.ineqWeight x kc.2.params).getD 0 0 = b)
    (hc : ∀ kc ∈ s.ext.direct, kc.2.enabled = true → LipOn n fun x => kc.2.ineqConstant x kc.2.params) {des : List ℝ → ℝ}
    (hdes : LipOn n des) (dt : ℝ) :
    ∃ k : List ℝ → ℝ, (∀ x, x.length = n → (explicitASIF solver f g s (.array x) dt [des x]).1 = .ok [k x]) ∧ LipOn n k := by
  have hpos : ScalesPos s.constraints := by intro w hw; rw [hns] at hw; simp at hw
  have z : (zeros n : List ℝ).length = n := by simp
  have hsol : ∀ x : List ℝ, ∃ k : ℝ, x.length = n → (explicitASIF solver f g s (.array x) dt [des x]).1 = .ok [k] ∧ Admissible f g s x [k] ∧
      ∀ v, Admissible f g s x [v] → v ≠ k → (k - des x) ^ 2 < (v - des x) ^ 2 := fun x => by
    by_cases hx : x.length = n
    · obtain ⟨w, hw⟩ := hadm x hx
      obtain ⟨v, hv⟩ := C24_returns hspec hs hpos hen x (hsh x hx) dt [des x] (by rw [hdim]; rfl) ⟨_, _, admissible_iff_zeros.1 hw⟩
      obtain ⟨h1, h2⟩ := C24_closest_admissible hspec hs hns hen x dt [des x] v (Prod.ext hv rfl) ⟨w, hw⟩
      have hl := h1.len
      rw [hdim] at hl
      obtain ⟨k, rfl⟩ := List.length_eq_one_iff.1 hl
      refine ⟨k, fun _ => ⟨hv, h1, fun v hv hne => ?_⟩⟩
      have := h2 [v] hv (by simpa using hne)
      rwa [sqDist_scalar, sqDist_scalar] at this
    · exact ⟨0, fun h => absurd h hx⟩
  choose k hk using hsol
  obtain ⟨L, hL, hlip⟩ := scalarConds_lip hb hd (hsh _ z).alpha hw hc
  obtain ⟨M, hM, hdl⟩ := hdes
  have hmid : ∀ x y : List ℝ, x.length = n → y.length = n → ∀ r, 0 ≤ r → (∀ j < n, |x.getD j 0 - y.getD j 0| ≤ r) →
      k y - k x ≤ L * r + |des x - des y| := fun x y hx hy r hr hxy => by
    have hyx : ∀ j < n, |y.getD j 0 - x.getD j 0| ≤ r := fun j hj => by rw [abs_sub_comm]; exact hxy j hj
    obtain ⟨-, hax, hcx⟩ := hk x hx
    obtain ⟨-, hay, hcy⟩ := hk y hy
    obtain ⟨hwx, hqx⟩ := (scalar_admissible (hsh x hx) hdim _).1 hax
    obtain ⟨hwy, hqy⟩ := (scalar_admissible (hsh y hy) hdim _).1 hay
    have h0 : 0 ≤ L * r := by positivity
    have hin : ∀ v, k x ≤ v → v ≤ k y → WithinAt s.controlBoundsLow s.controlBoundsHigh 0 v := fun v h1 h2 =>
      ⟨fun b hb => (hwx.1 b hb).trans h1, fun b hb => h2.trans (hwy.2 b hb)⟩
    refine closest_shift h0 hax hay (fun v h1 h2 => ?_) (fun v h1 h2 => ?_) hcx hcy
    · refine (scalar_admissible (hsh y hy) hdim v).2 ⟨hin v (by linarith) h2, fun q hq => ?_⟩
      obtain ⟨q', hq', e, hle⟩ := hlip x y hx hy r hr hxy q hq
      have hx' := hqx q' hq'
      have hy' := hqy q hq
      rw [e] at hx'
      rcases lt_trichotomy q.1 0 with hs' | hs' | hs'
      · nlinarith
      · rw [hs', zero_mul] at hy' ⊢; exact hy'
      · have h3 := hle hs'.ne'
        rw [abs_of_pos hs'] at h3
        have h4 := neg_abs_le (q.2 - q'.2)
        have h5 : q.1 * (k x + L * r) ≤ q.1 * v := mul_le_mul_of_nonneg_left h1 hs'.le
        linarith
    · refine (scalar_admissible (hsh x hx) hdim v).2 ⟨hin v h1 (by linarith), fun q hq => ?_⟩
      obtain ⟨q', hq', e, hle⟩ := hlip y x hy hx r hr hyx q hq
      have hx' := hqx q hq
      have hy' := hqy q' hq'
      rw [e] at hy'
      rcases lt_trichotomy q.1 0 with hs' | hs' | hs'
      · have h3 := hle hs'.ne
        rw [abs_of_neg hs'] at h3
        have h4 := neg_abs_le (q.2 - q'.2)
        have h5 : q.1 * (k y - L * r) ≤ q.1 * v := mul_le_mul_of_nonpos_left h2 hs'.le
        linarith
      · rw [hs', zero_mul] at hx' ⊢; exact hx'
      · nlinarith
  exact ⟨k, fun x hx => (hk x hx).1, L + M, by positivity, fun x y hx hy r hr hxy => by
    have hyx : ∀ j < n, |y.getD j 0 - x.getD j 0| ≤ r := fun j hj => by rw [abs_sub_comm]; exact hxy j hj
    have h1 := hmid x y hx hy r hr hxy
    have h2 := hmid y x hy hx r hr hyx
    have h3 := hdl x y hx hy r hr hxy
    rw [abs_sub_comm (des y)] at h2
    rw [abs_le]
    constructor <;> linarith⟩

/-- **C121 for scalar controls**: a module with a scalar control, any number of constraints without slack and of user supplied inequalities,
with or without bounds, for a system with constant input matrix. If the control enters every condition with a constant coefficient, the rest of
every condition, drift and desired control change at most proportionally to the state, and every state has an admissible control, the closed
loop has a motion from every state, it is the only one, and motions move apart at most exponentially. -/
theorem C121_scalar_partial {solver : Solver ℝ} (hspec : SolverSpec solver) (hs : ExplicitModule solver f g s) (hen : s.enable = true)
    (hdim : s.ext.controlDim = 1) (hns : slackScales s.constraints = [])
    (hsh : ∀ x, x.length = n → ShapesOK f g s x) (hadm : ∀ x, x.length = n → ∃ w, Admissible f g s x w)
    {G : List (List ℝ)} (hg : ∀ x, x.length = n → g x = G)
    (hb : ∀ kc ∈ s.constraints, kc.2.enabled = true → ∃ b : ℝ, ∀ x : List ℝ, x.length = n → (influence g kc.2 x 1).getD 0 0 = b)
    (hd : ∀ kc ∈ s.constraints, kc.2.enabled = true → ∀ al, kc.2.alpha = some al → LipOn n fun x => drift f kc.2 al x)
    (hw : ∀ kc ∈ s.ext.direct, kc.2.enabled = true → ∃ b : ℝ, ∀ x : List ℝ, x.length = n → (kc.2.ineqWeight x kc.2.params).getD 0 0 = b)
    (hc : ∀ kc ∈ s.ext.direct, kc.2.enabled = true → LipOn n fun x => kc.2.ineqConstant x kc.2.params)
    (hfl : ∀ x, x.length = n → (f x).length = n) (hf : ∀ i < n, LipOn n fun x => (f x).getD i 0) {des : List ℝ → ℝ}
    (hdes : LipOn n des) (dt : ℝ) :
    (∀ x0 : List ℝ, x0.length = n → ∃ x u, ClosedLoop solver n f g s (fun x => [des x]) dt x u ∧ x 0 = x0 ∧
      ∀ y v, ClosedLoop solver n f g s (fun x => [des x]) dt y v → y 0 = x0 → ∀ t, 0 ≤ t → y t = x t ∧ v t = u t) ∧
    ∃ L, 0 ≤ L ∧ ∀ x u y v, ClosedLoop solver n f g s (fun x => [des x]) dt x u → ClosedLoop solver n f g s (fun x => [des x]) dt y v →
      ∀ r, 0 ≤ r → (∀ i < n, |(x 0).getD i 0 - (y 0).getD i 0| ≤ r) →
      ∀ t, 0 ≤ t → ∀ i < n, |(x t).getD i 0 - (y t).getD i 0| ≤ r * Real.exp (L * t) := by
  have z : (zeros n : List ℝ).length = n := by simp
  obtain ⟨k, hk, hklip⟩ := scalar_answer_lip hspec hs hen hdim hns hsh hadm hb hd hw hc hdes dt
  have hGl : G.length = n := by rw [← hg _ z, (hsh _ z).input, hfl _ z]
  have hκ : ∀ x, x.length = n → (explicitASIF solver f g s (.array x) dt ((fun x => [des x]) x)).1 = .ok ((fun x => [k x]) x) :=
    hk
  have hlen : ∀ x, x.length = n → (vadd (f x) (matVec (g x) ((fun x => [k x]) x))).length = n := fun x hx => by
    rw [hg x hx]; simp [vadd, hfl x hx, hGl]
  have hvel : ∀ i < n, LipOn n fun x => (vadd (f x) (matVec (g x) ((fun x => [k x]) x))).getD i 0 := fun i hi => by
    have hrow : (G.getD i []).length = 1 := by
      have hi' : i < G.length := by rw [hGl]; exact hi
      rw [List.getD_eq_getElem?_getD, List.getElem?_eq_getElem hi', Option.getD_some, ← hdim]
      refine (hsh _ z).cols _ ?_
      rw [hg _ z]
      exact List.getElem_mem hi'
    refine ((hf i hi).add (LipOn.dot (F := fun x => [k x]) (m := 1) (fun _ _ => rfl) (fun j hj => ?_) hrow)).congr fun x hx => ?_
    · obtain rfl : j = 0 := by omega
      simpa using hklip
    · rw [hg x hx, getD_vadd' (by rw [hfl x hx, matVec_length, hGl]), getD_matVec]
  have key := C121_exists hκ hlen hvel
  refine ⟨fun x0 hx0 => ?_, key.2⟩
  obtain ⟨x, u, h, h0⟩ := key.1 x0 hx0
  exact ⟨x, u, h, h0, fun y v hy hy0 t ht => C121_unique hκ hlen hvel hy h (by rw [hy0, h0]) ht⟩

/-- **C121 and safety**: motions of a closed loop in which some control is admissible everywhere never leave the safe set of an enabled
constraint without slack that has a gradient and whose strengthening term is not positive below zero. -/
theorem C121_safe {solver : Solver ℝ} (hspec : SolverSpec solver) (hs : ExplicitModule solver f g s) (hen : s.enable = true)
    (hpos : ScalesPos s.constraints) (hadm : ∀ x, x.length = n → ∃ w d, AdmissibleS f g s x w d) {des : List ℝ → List ℝ} {dt : ℝ}
    {x u : ℝ → List ℝ} (h : ClosedLoop solver n f g s des dt x u) {k : String} {c : Constraint ℝ (List ℝ) P} (hmem : (k, c) ∈ s.constraints)
    (hce : c.enabled = true) (hcs : c.slackPriorityScale = none) {al : ℝ → ℝ} (ha : c.alpha = some al) (hneg : ∀ y < 0, strengthening c al y ≤ 0)
    (hgrad : IsGradientOn univ n (fun x => c.computeFn x c.params) (fun x => c.gradFn x c.params)) (h0 : 0 ≤ c.value (x 0)) :
    ∀ t, 0 ≤ t → 0 ≤ c.value (x t) :=
  C31_asif_loop hspec hgrad h.motion ha hneg hce hcs (fun t ht => ⟨s, _, dt, des (x t), hs, hpos, hen, hmem,
    hadm (x t) (h.motion.curve t ht).2, Prod.ext (h.control t ht) rfl⟩) h0

end

/-! ### Example: two constraints and bounds -/

/-- `0 ≤ x` and `x ≤ 1`, with the identity as strengthener on both sides. -/
noncomputable def bandLow : Constraint ℝ (List ℝ) ℝ := { minLimit 0 0 (some id) with alphaNeg := some id, biasNegative := 0 }
@[inherit_doc bandLow] noncomputable def bandHigh : Constraint ℝ (List ℝ) ℝ := { maxLimit 1 0 (some id) with alphaNeg := some id, biasNegative := 0 }

/-- The module with these constraints and the bounds `±2`. -/
noncomputable def bandObj : ASIFObj ℝ (List ℝ) ℝ Unit :=
  { toBase := Base.init (some (.scalar 2)) (some (.scalar (-2)))
    constraints := [("low", bandLow), ("high", bandHigh)], params := [("low", 0), ("high", 1)]
    constraintEnabled := [("low", true), ("high", true)], constraintValues := [], isStaleConstraints := false
    ext := { epsilon := 1 / 100, controlDim := 1, solverException := false, numSlack := 0, objWeight := [1]
             constraintNames := ["u1_min", "u1_max", "low", "high"], actuation := [⟨[1], -2⟩, ⟨[-1], -2⟩]
             direct := [], directParams := [], directEnabled := [], causing := none, extra := () } }

/-- The system `x' = u - x`. -/
def bandF (x : List ℝ) : List ℝ := [-x.getD 0 0]

theorem band_module (solver : Solver ℝ) : ExplicitModule solver bandF (fun _ => [[1]]) bandObj :=
  ⟨some (.scalar 2), some (.scalar (-2)), [("low", bandLow), ("high", bandHigh)], none, 1 / 100, 1, false, [], (), bandObj, [], by simp [dictKeys],
    by simp [dictKeys], rfl, rfl⟩

theorem band_low_drift (y : ℝ) : drift bandF bandLow id [y] = 0 ∧ (influence (fun _ => [[1]]) bandLow [y] 1).getD 0 0 = 1 := by
  constructor
  · have : strengthening bandLow id y = y := by simp [strengthening, bandLow]
    simp only [drift, bandF, bandLow, minLimit, Constraint.mk', stateAt] at this ⊢
    simp [gradAt, List.range_succ, strengthening]
  · simp [influence, bandLow, minLimit, Constraint.mk', gradAt, List.range_succ]

theorem band_high_drift (y : ℝ) : drift bandF bandHigh id [y] = 1 ∧ (influence (fun _ => [[1]]) bandHigh [y] 1).getD 0 0 = -1 := by
  constructor
  · simp [drift, bandF, bandHigh, maxLimit, Constraint.mk', stateAt, gradAt, List.range_succ, strengthening]
  · simp [influence, bandHigh, maxLimit, Constraint.mk', gradAt, List.range_succ]

theorem band_shapes (y : ℝ) : ShapesOK bandF (fun _ => [[1]]) bandObj [y] :=
  ⟨by simp [bandObj, bandLow, bandHigh, minLimit, maxLimit, Constraint.mk'],
    by simp [bandObj, bandF, bandLow, bandHigh, minLimit, maxLimit, Constraint.mk', gradAt], rfl, by simp [bandObj], by simp [bandObj]⟩

theorem band_admissible (y : ℝ) : Admissible bandF (fun _ => [[1]]) bandObj [y] [0] := by
  refine (scalar_admissible (band_shapes y) rfl 0).2 ⟨⟨fun b hb => ?_, fun b hb => ?_⟩, fun q hq => ?_⟩
  · simp [bandObj, Base.init, boundAt] at hb; linarith
  · simp [bandObj, Base.init, boundAt] at hb; linarith
  · have e : scalarConds bandF (fun _ => [[1]]) bandObj [y] = [(1, 0), (-1, 1)] := by
      have a1 := band_low_drift y
      have a2 := band_high_drift y
      have b1 : bandLow.enabled = true := rfl
      have b2 : bandHigh.enabled = true := rfl
      have c1 : (bandLow.alpha.getD fun _ => 0) = id := rfl
      have c2 : (bandHigh.alpha.getD fun _ => 0) = id := rfl
      simp only [scalarConds, bandObj, List.filter_cons, List.filter_nil, b1, b2, if_true, List.map_cons, List.map_nil, List.append_nil, c1, c2,
        a1.1, a1.2, a2.1, a2.2]
    rw [e] at hq
    simp only [List.mem_cons, List.not_mem_nil, or_false] at hq
    rcases hq with rfl | rfl <;> norm_num

/-- The answers of this module to a desired control that pulls outward change at most proportionally to the state. -/
theorem band_answer {solver : Solver ℝ} (hspec : SolverSpec solver) : ∃ k : List ℝ → ℝ, (∀ x, x.length = 1 →
    (explicitASIF solver bandF (fun _ => [[1]]) bandObj (.array x) 1 [-1 - x.getD 0 0]).1 = .ok [k x]) ∧ LipOn 1 k := by
  have hid : LipOn 1 fun x => x.getD 0 0 := ⟨1, zero_le_one, fun x y _ _ r _ h => by rw [one_mul]; exact h 0 one_pos⟩
  have one : ∀ {x : List ℝ}, x.length = 1 → ∃ y, x = [y] := fun hx => List.length_eq_one_iff.1 hx
  exact scalar_answer_lip hspec (n := 1) (band_module solver) rfl rfl rfl
    (fun x hx => by obtain ⟨y, rfl⟩ := one hx; exact band_shapes y)
    (fun x hx => by obtain ⟨y, rfl⟩ := one hx; exact ⟨_, band_admissible y⟩)
    (fun kc hkc _ => by
      simp only [bandObj, List.mem_cons, List.not_mem_nil, or_false] at hkc
      rcases hkc with rfl | rfl
      · exact ⟨1, fun x hx => by obtain ⟨y, rfl⟩ := one hx; exact (band_low_drift y).2⟩
      · exact ⟨-1, fun x hx => by obtain ⟨y, rfl⟩ := one hx; exact (band_high_drift y).2⟩)
    (fun kc hkc _ al hal => by
      simp only [bandObj, List.mem_cons, List.not_mem_nil, or_false] at hkc
      rcases hkc with rfl | rfl
      · obtain rfl : id = al := Option.some.inj hal
        exact (LipOn.const 1 0).congr fun x hx => by obtain ⟨y, rfl⟩ := one hx; exact (band_low_drift y).1
      · obtain rfl : id = al := Option.some.inj hal
        exact (LipOn.const 1 1).congr fun x hx => by obtain ⟨y, rfl⟩ := one hx; exact (band_high_drift y).1)
    (fun kc hkc => by simp [bandObj] at hkc) (fun kc hkc => by simp [bandObj] at hkc)
    (des := fun x => -1 - x.getD 0 0) (((LipOn.const 1 (-1)).add (hid.mul_const (-1))).congr fun x _ => by ring) 1

/-- From every state in `[0, 1]` the closed loop with a desired control that pulls outward has exactly one motion, and its state never becomes
negative. -/
example {solver : Solver ℝ} (hspec : SolverSpec solver) (x0 : ℝ) (hx0 : 0 ≤ x0) :
    ∃ x u, ClosedLoop solver 1 bandF (fun _ => [[1]]) bandObj (fun x => [-1 - x.getD 0 0]) 1 x u ∧ x 0 = [x0] ∧
      ∀ t, 0 ≤ t → 0 ≤ bandLow.value (x t) := by
  have hid : LipOn 1 fun x => x.getD 0 0 := ⟨1, zero_le_one, fun x y _ _ r _ h => by rw [one_mul]; exact h 0 one_pos⟩
  have one : ∀ {x : List ℝ}, x.length = 1 → ∃ y, x = [y] := fun hx => List.length_eq_one_iff.1 hx
  have hadm : ∀ x : List ℝ, x.length = 1 → ∃ w, Admissible bandF (fun _ => [[1]]) bandObj x w := fun x hx => by
    obtain ⟨y, rfl⟩ := one hx
    exact ⟨_, band_admissible y⟩
  have hns : slackScales bandObj.constraints = [] := rfl
  obtain ⟨x, u, h, h0, -⟩ := (C121_scalar_partial hspec (n := 1) (band_module solver) rfl rfl hns
    (fun x hx => by obtain ⟨y, rfl⟩ := one hx; exact band_shapes y) hadm (G := [[1]]) (fun _ _ => rfl)
    (fun kc hkc _ => by
      simp only [bandObj, List.mem_cons, List.not_mem_nil, or_false] at hkc
      rcases hkc with rfl | rfl
      · exact ⟨1, fun x hx => by obtain ⟨y, rfl⟩ := one hx; exact (band_low_drift y).2⟩
      · exact ⟨-1, fun x hx => by obtain ⟨y, rfl⟩ := one hx; exact (band_high_drift y).2⟩)
    (fun kc hkc _ al hal => by
      simp only [bandObj, List.mem_cons, List.not_mem_nil, or_false] at hkc
      rcases hkc with rfl | rfl
      · obtain rfl : id = al := Option.some.inj hal
        exact (LipOn.const 1 0).congr fun x hx => by obtain ⟨y, rfl⟩ := one hx; exact (band_low_drift y).1
      · obtain rfl : id = al := Option.some.inj hal
        exact (LipOn.const 1 1).congr fun x hx => by obtain ⟨y, rfl⟩ := one hx; exact (band_high_drift y).1)
    (fun kc hkc => by simp [bandObj] at hkc) (fun kc hkc => by simp [bandObj] at hkc) (fun _ _ => rfl)
    (fun i hi => by
      obtain rfl : i = 0 := by omega
      exact (hid.mul_const (-1)).congr fun x _ => by simp [bandF])
    (des := fun x => -1 - x.getD 0 0) (((LipOn.const 1 (-1)).add (hid.mul_const (-1))).congr fun x _ => by ring) 1).1 [x0] rfl
  refine ⟨x, u, h, h0, C121_safe hspec (band_module solver) rfl (by intro w hw; rw [hns] at hw; simp at hw) (fun x hx => ?_) h
    (k := "low") (c := bandLow) (by simp [bandObj]) rfl rfl (al := id) rfl (fun y hy => ?_) posC_grad ?_⟩
  · obtain ⟨w, hw⟩ := hadm x hx
    exact ⟨_, _, admissible_iff_zeros.1 hw⟩
  · simp only [strengthening, if_neg (not_le.2 hy), bandLow, add_zero]
    exact hy.le
  · rw [h0]
    simpa [Constraint.value, bandLow, minLimit, Constraint.mk', stateAt] using hx0

end RTA
