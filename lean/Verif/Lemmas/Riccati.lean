import Verif.Model.Zoo.Riccati
import Mathlib.LinearAlgebra.FiniteDimensional.Basic
import Mathlib.LinearAlgebra.Matrix.DotProduct
import Mathlib.Topology.Instances.Matrix
import Mathlib.Topology.MetricSpace.ProperSpace
import Mathlib.Topology.Order.MonotoneConvergence
import Mathlib.Analysis.Matrix.Order
import Mathlib.Tactic.Abel

/-!
Riccati equations: positive semidefinite solutions exist when some gain is stabilising, and there is at most one. The existence proof is
Kleinman's iteration; Lyapunov equations are handled through the extreme values of a Rayleigh quotient.
-/
namespace RTA
open Matrix Set Filter Topology

variable {k l : Nat}

/-- Nonnegative quadratic form. -/
def Psd (X : Matrix (Fin k) (Fin k) ℝ) : Prop := ∀ x : Fin k → ℝ, 0 ≤ x ⬝ᵥ X *ᵥ x

/-- Positive quadratic form. -/
def Pd (X : Matrix (Fin k) (Fin k) ℝ) : Prop := ∀ x : Fin k → ℝ, x ≠ 0 → 0 < x ⬝ᵥ X *ᵥ x

theorem Pd.psd {X : Matrix (Fin k) (Fin k) ℝ} (h : Pd X) : Psd X := fun x => by
  rcases eq_or_ne x 0 with rfl | hx
  · simp
  · exact (h x hx).le

theorem sym_dot {X : Matrix (Fin k) (Fin k) ℝ} (hs : Xᵀ = X) (x y : Fin k → ℝ) : x ⬝ᵥ X *ᵥ y = (X *ᵥ x) ⬝ᵥ y := by
  rw [dotProduct_mulVec, ← mulVec_transpose, hs]

theorem psd_zero {X : Matrix (Fin k) (Fin k) ℝ} (hs : Xᵀ = X) (h : Psd X) {x : Fin k → ℝ} (hx : x ⬝ᵥ X *ᵥ x = 0) : X *ᵥ x = 0 := by
  have hsd : X.PosSemidef := by
    refine Matrix.PosSemidef.of_dotProduct_mulVec_nonneg ?_ (fun x => by simpa using h x)
    rw [Matrix.IsHermitian, conjTranspose_eq_transpose_of_trivial]; exact hs
  exact (hsd.dotProduct_mulVec_zero_iff x).1 (by simpa using hx)

theorem dot_self_pos {x : Fin k → ℝ} (hx : x ≠ 0) : 0 < x ⬝ᵥ x :=
  lt_of_le_of_ne (Finset.sum_nonneg fun _ _ => mul_self_nonneg _) fun h => hx (dotProduct_self_eq_zero.1 h.symm)

theorem form_cont (X : Matrix (Fin k) (Fin k) ℝ) : Continuous fun x : Fin k → ℝ => x ⬝ᵥ X *ᵥ x := by
  unfold dotProduct mulVec dotProduct; fun_prop

/-- The least value of the quotient of two quadratic forms is attained. -/
theorem rayleigh (hk : 0 < k) {S X : Matrix (Fin k) (Fin k) ℝ} (hS : Pd S) :
    ∃ (z : Fin k → ℝ) (c : ℝ), z ≠ 0 ∧ z ⬝ᵥ X *ᵥ z = c * (z ⬝ᵥ S *ᵥ z) ∧ ∀ x, c * (x ⬝ᵥ S *ᵥ x) ≤ x ⬝ᵥ X *ᵥ x := by
  have hcomp : IsCompact (Metric.sphere (0 : Fin k → ℝ) 1) := isCompact_sphere _ _
  have hne : (Metric.sphere (0 : Fin k → ℝ) 1).Nonempty := ⟨fun _ => 1, by
    have : Nonempty (Fin k) := ⟨⟨0, hk⟩⟩
    rw [mem_sphere_zero_iff_norm, pi_norm_const]; norm_num⟩
  have hnz : ∀ x ∈ Metric.sphere (0 : Fin k → ℝ) 1, x ≠ 0 := by rintro _ h rfl; simp at h
  obtain ⟨z, hz, hmin⟩ := hcomp.exists_isMinOn hne
    (f := fun x => (x ⬝ᵥ X *ᵥ x) / (x ⬝ᵥ S *ᵥ x)) ((form_cont X).continuousOn.div (form_cont S).continuousOn fun x hx => (hS x (hnz x hx)).ne')
  refine ⟨z, (z ⬝ᵥ X *ᵥ z) / (z ⬝ᵥ S *ᵥ z), hnz z hz, (div_mul_cancel₀ _ (hS z (hnz z hz)).ne').symm, fun x => ?_⟩
  rcases eq_or_ne x 0 with rfl | hx
  · simp
  have hn : 0 < ‖x‖ := norm_pos_iff.2 hx
  have hy : ‖x‖⁻¹ • x ∈ Metric.sphere (0 : Fin k → ℝ) 1 := by
    rw [mem_sphere_zero_iff_norm, norm_smul, norm_inv, norm_norm, inv_mul_cancel₀ hn.ne']
  have h1 := hmin hy
  simp only [mem_ofPred_eq, mulVec_smul, dotProduct_smul, smul_dotProduct, smul_eq_mul] at h1
  rw [← mul_assoc, ← mul_assoc, mul_div_mul_left _ _ (by positivity : ‖x‖⁻¹ * ‖x‖⁻¹ ≠ 0), le_div_iff₀ (hS x hx)] at h1
  exact h1

theorem form_sym {M X : Matrix (Fin k) (Fin k) ℝ} (hs : Xᵀ = X) (x : Fin k → ℝ) :
    x ⬝ᵥ (Mᵀ * X + X * M) *ᵥ x = 2 * ((X *ᵥ x) ⬝ᵥ M *ᵥ x) := by
  rw [add_mulVec, dotProduct_add, ← mulVec_mulVec, ← mulVec_mulVec, sym_dot hs, dotProduct_mulVec, ← mulVec_transpose, transpose_transpose,
    dotProduct_comm]
  ring

/-- Solutions of Lyapunov equations have the sign of the right-hand side. -/
theorem lyap_psd {M S X W N : Matrix (Fin k) (Fin k) ℝ} (hSs : Sᵀ = S) (hS : Pd S) (hM : Mᵀ * S + S * M = -W) (hW : Pd W) (hXs : Xᵀ = X)
    (hX : Mᵀ * X + X * M = -N) (hN : Psd N) : Psd X := by
  rcases Nat.eq_zero_or_pos k with rfl | hk
  · intro x; simp [dotProduct]
  obtain ⟨z, c, hz, he, hle⟩ := rayleigh hk (X := X) hS
  have hzero : (X - c • S) *ᵥ z = 0 := by
    refine psd_zero (by simp [hXs, hSs]) (fun x => ?_) ?_
    · have := hle x
      simp only [sub_mulVec, smul_mulVec, dotProduct_sub, dotProduct_smul, smul_eq_mul]
      linarith
    · simp only [sub_mulVec, smul_mulVec, dotProduct_sub, dotProduct_smul, smul_eq_mul]
      linarith
  have hXz : X *ᵥ z = c • S *ᵥ z := by
    rw [sub_mulVec, smul_mulVec, sub_eq_zero] at hzero; exact hzero
  have h1 := form_sym (M := M) hXs z
  have h2 := form_sym (M := M) hSs z
  rw [hX, neg_mulVec, dotProduct_neg, hXz, smul_dotProduct, smul_eq_mul] at h1
  rw [hM, neg_mulVec, dotProduct_neg] at h2
  have h3 := hN z
  have h4 := hW z hz
  have hc : 0 ≤ c := by
    by_contra hneg
    rw [not_le] at hneg
    have : c * (z ⬝ᵥ W *ᵥ z) < 0 := mul_neg_of_neg_of_pos hneg h4
    nlinarith
  intro x
  exact (mul_nonneg hc (hS.psd x)).trans (hle x)

/-- Symmetric matrices. -/
def symSub (k : Nat) : Submodule ℝ (Matrix (Fin k) (Fin k) ℝ) where
  carrier := {X | Xᵀ = X}
  add_mem' {a b} ha hb := by
    have ha : aᵀ = a := ha
    have hb : bᵀ = b := hb
    show (a + b)ᵀ = a + b
    rw [transpose_add, ha, hb]
  zero_mem' := transpose_zero
  smul_mem' c a ha := by
    have ha : aᵀ = a := ha
    show (c • a)ᵀ = c • a
    rw [transpose_smul, ha]

theorem sym_zero {X : Matrix (Fin k) (Fin k) ℝ} (hs : Xᵀ = X) (h1 : Psd X) (h2 : Psd (-X)) : X = 0 := by
  have h0 : ∀ x : Fin k → ℝ, X *ᵥ x = 0 := fun x => psd_zero hs h1 (le_antisymm (by
    have := h2 x
    rw [neg_mulVec, dotProduct_neg] at this
    linarith) (h1 x))
  ext i j
  have := congrFun (h0 (Pi.single j 1)) i
  rw [mulVec_single_one] at this
  exact this

/-- Lyapunov equations are solvable. -/
theorem lyap_exists {M S W : Matrix (Fin k) (Fin k) ℝ} (hSs : Sᵀ = S) (hS : Pd S) (hM : Mᵀ * S + S * M = -W) (hW : Pd W)
    {N : Matrix (Fin k) (Fin k) ℝ} (hN : Nᵀ = N) : ∃ X, Xᵀ = X ∧ Mᵀ * X + X * M = -N := by
  let L : symSub k →ₗ[ℝ] symSub k :=
    { toFun := fun X => ⟨Mᵀ * X.1 + X.1 * M, by
        have : X.1ᵀ = X.1 := X.2
        show (Mᵀ * X.1 + X.1 * M)ᵀ = _
        rw [transpose_add, transpose_mul, transpose_mul, transpose_transpose, this, add_comm]⟩
      map_add' := fun X Y => Subtype.ext (by
        show Mᵀ * (X.1 + Y.1) + (X.1 + Y.1) * M = (Mᵀ * X.1 + X.1 * M) + (Mᵀ * Y.1 + Y.1 * M)
        rw [Matrix.mul_add, Matrix.add_mul]; abel)
      map_smul' := fun c X => Subtype.ext (by
        show Mᵀ * (c • X.1) + (c • X.1) * M = c • (Mᵀ * X.1 + X.1 * M)
        rw [Matrix.mul_smul, Matrix.smul_mul, smul_add]) }
  have hinj : Function.Injective L := by
    rw [injective_iff_map_eq_zero]
    rintro ⟨X, hX⟩ h
    have hX' : Xᵀ = X := hX
    have h' : Mᵀ * X + X * M = 0 := congrArg Subtype.val h
    have hz : Psd (0 : Matrix (Fin k) (Fin k) ℝ) := fun x => by simp
    refine Subtype.ext (sym_zero hX' (lyap_psd hSs hS hM hW hX' (by rw [h', neg_zero]) hz) ?_)
    refine lyap_psd hSs hS hM hW (by rw [transpose_neg, hX']) ?_ hz
    rw [Matrix.mul_neg, Matrix.neg_mul, ← neg_add, h']
  obtain ⟨X, hX⟩ := (LinearMap.injective_iff_surjective.1 hinj) ⟨-N, show (-N)ᵀ = -N by rw [transpose_neg, hN]⟩
  exact ⟨X.1, X.2, congrArg Subtype.val hX⟩

theorem lyap_pd {M S X W N : Matrix (Fin k) (Fin k) ℝ} (hSs : Sᵀ = S) (hS : Pd S) (hM : Mᵀ * S + S * M = -W) (hW : Pd W) (hXs : Xᵀ = X)
    (hX : Mᵀ * X + X * M = -N) (hN : Pd N) : Pd X := by
  have hp := lyap_psd hSs hS hM hW hXs hX hN.psd
  intro x hx
  refine lt_of_le_of_ne (hp x) fun h => ?_
  have h1 := form_sym (M := M) hXs x
  rw [psd_zero hXs hp h.symm, hX, neg_mulVec, dotProduct_neg, zero_dotProduct] at h1
  have := hN x hx
  linarith

theorem psd_congr {R : Matrix (Fin l) (Fin l) ℝ} (hR : Psd R) (K : Matrix (Fin l) (Fin k) ℝ) : Psd (Kᵀ * R * K) := fun x => by
  have := hR (K *ᵥ x)
  rwa [← mulVec_mulVec, ← mulVec_mulVec, dotProduct_mulVec, ← mulVec_transpose, transpose_transpose]

theorem Psd.add {X Y : Matrix (Fin k) (Fin k) ℝ} (hX : Psd X) (hY : Psd Y) : Psd (X + Y) := fun x => by
  rw [add_mulVec, dotProduct_add]; exact add_nonneg (hX x) (hY x)

theorem Pd.add {X Y : Matrix (Fin k) (Fin k) ℝ} (hX : Pd X) (hY : Psd Y) : Pd (X + Y) := fun x hx => by
  rw [add_mulVec, dotProduct_add]; exact add_pos_of_pos_of_nonneg (hX x hx) (hY x)

section
variable {A Q : Matrix (Fin k) (Fin k) ℝ} {B : Matrix (Fin k) (Fin l) ℝ} {R : Matrix (Fin l) (Fin l) ℝ}

/-- `P` is the cost of the gain `K`. -/
structure CostOf (A : Matrix (Fin k) (Fin k) ℝ) (B : Matrix (Fin k) (Fin l) ℝ) (Q : Matrix (Fin k) (Fin k) ℝ) (R : Matrix (Fin l) (Fin l) ℝ)
    (K : Matrix (Fin l) (Fin k) ℝ) (P : Matrix (Fin k) (Fin k) ℝ) : Prop where
  sym : Pᵀ = P
  eq : (A - B * K)ᵀ * P + P * (A - B * K) = -(Q + Kᵀ * R * K)
  pos : Pd P

theorem gain_eq (hRi : R * R⁻¹ = 1) (P : Matrix (Fin k) (Fin k) ℝ) : Bᵀ * P = R * lqrGain B R P := by
  rw [lqrGain, ← Matrix.mul_assoc, hRi, Matrix.one_mul]

theorem gain_eq' (hRs : Rᵀ = R) (hRi : R * R⁻¹ = 1) {P : Matrix (Fin k) (Fin k) ℝ} (hP : Pᵀ = P) : P * B = (lqrGain B R P)ᵀ * R := by
  have := congrArg Matrix.transpose (gain_eq (B := B) hRi P)
  rwa [transpose_mul, transpose_mul, transpose_transpose, hP, hRs] at this

theorem closed_form (hRs : Rᵀ = R) (hRi : R * R⁻¹ = 1) {P : Matrix (Fin k) (Fin k) ℝ} (hP : Pᵀ = P) (K : Matrix (Fin l) (Fin k) ℝ) :
    (A - B * K)ᵀ * P + P * (A - B * K) = Aᵀ * P + P * A - (Kᵀ * R * lqrGain B R P + (lqrGain B R P)ᵀ * R * K) := by
  rw [transpose_sub, transpose_mul, Matrix.sub_mul, Matrix.mul_sub, Matrix.mul_assoc Kᵀ, gain_eq hRi, ← Matrix.mul_assoc, ← Matrix.mul_assoc,
    gain_eq' hRs hRi hP]
  abel

theorem square_form (K L : Matrix (Fin l) (Fin k) ℝ) :
    (K - L)ᵀ * R * (K - L) = Kᵀ * R * K + Lᵀ * R * L - (Kᵀ * R * L + Lᵀ * R * K) := by
  simp only [transpose_sub, Matrix.sub_mul, Matrix.mul_sub]
  abel

theorem CostOf.next_eq (hRs : Rᵀ = R) (hRi : R * R⁻¹ = 1) {K : Matrix (Fin l) (Fin k) ℝ} {P : Matrix (Fin k) (Fin k) ℝ} (h : CostOf A B Q R K P) :
    (A - B * lqrGain B R P)ᵀ * P + P * (A - B * lqrGain B R P) =
      -(Q + (lqrGain B R P)ᵀ * R * lqrGain B R P + (K - lqrGain B R P)ᵀ * R * (K - lqrGain B R P)) := by
  have h1 := h.eq
  rw [closed_form hRs hRi h.sym] at h1 ⊢
  rw [square_form]
  rw [sub_eq_iff_eq_add] at h1
  rw [h1]
  abel

theorem CostOf.next (hQs : Qᵀ = Q) (hQ : Pd Q) (hRs : Rᵀ = R) (hR : Psd R) (hRi : R * R⁻¹ = 1) {K : Matrix (Fin l) (Fin k) ℝ}
    {P : Matrix (Fin k) (Fin k) ℝ} (h : CostOf A B Q R K P) : ∃ P', CostOf A B Q R (lqrGain B R P) P' ∧ Psd (P - P') := by
  have he := h.next_eq hRs hRi
  generalize hL : lqrGain B R P = L at *
  have hW : Pd (Q + Lᵀ * R * L + (K - L)ᵀ * R * (K - L)) := (hQ.add (psd_congr hR _)).add (psd_congr hR _)
  have hN : Pd (Q + Lᵀ * R * L) := hQ.add (psd_congr hR _)
  obtain ⟨P', hs, hP'⟩ := lyap_exists h.sym h.pos he hW (N := Q + Lᵀ * R * L) (by
    simp only [transpose_add, transpose_mul, transpose_transpose, hQs, hRs, Matrix.mul_assoc])
  refine ⟨P', ⟨hs, hP', lyap_pd h.sym h.pos he hW hs hP' hN⟩, ?_⟩
  refine lyap_psd (N := (K - L)ᵀ * R * (K - L)) h.sym h.pos he hW (by rw [transpose_sub, h.sym, hs]) ?_ (psd_congr hR _)
  have : ∀ M : Matrix (Fin k) (Fin k) ℝ, Mᵀ * (P - P') + (P - P') * M = (Mᵀ * P + P * M) - (Mᵀ * P' + P' * M) := fun M => by
    rw [Matrix.mul_sub, Matrix.sub_mul]; abel
  rw [this, he, hP']
  abel

/-- Decreasing sequences of nonnegative symmetric matrices converge. -/
theorem mono_limit {P : ℕ → Matrix (Fin k) (Fin k) ℝ} (hs : ∀ i, (P i)ᵀ = P i) (hp : ∀ i, Psd (P i)) (hd : ∀ i, Psd (P i - P (i + 1))) :
    ∃ X, Tendsto P atTop (𝓝 X) := by
  have hf : ∀ x : Fin k → ℝ, ∃ c, Tendsto (fun i => x ⬝ᵥ P i *ᵥ x) atTop (𝓝 c) := by
    intro x
    have ha : Antitone fun i => x ⬝ᵥ P i *ᵥ x := antitone_nat_of_succ_le fun i => by
      have := hd i x
      rw [sub_mulVec, dotProduct_sub] at this
      linarith
    exact ⟨_, tendsto_atTop_ciInf ha ⟨0, by rintro _ ⟨i, rfl⟩; exact hp i x⟩⟩
  choose c hc using hf
  refine ⟨fun i j => (c (Pi.single i 1 + Pi.single j 1) - c (Pi.single i 1) - c (Pi.single j 1)) / 2, ?_⟩
  refine tendsto_pi_nhds.2 fun i => tendsto_pi_nhds.2 fun j => ?_
  have he : ∀ q, P q i j = ((Pi.single i 1 + Pi.single j 1) ⬝ᵥ P q *ᵥ (Pi.single i 1 + Pi.single j 1) -
      Pi.single i 1 ⬝ᵥ P q *ᵥ Pi.single i 1 - Pi.single j 1 ⬝ᵥ P q *ᵥ Pi.single j 1) / 2 := by
    intro q
    have : P q j i = P q i j := congrFun (congrFun (hs q) i) j
    simp only [mulVec_add, mulVec_single_one, add_dotProduct, dotProduct_add, single_one_dotProduct, col_apply, this]
    ring
  simp only [he]
  exact (((hc _).sub (hc _)).sub (hc _)).div_const 2

/-- **Existence.** If some gain has a cost, the Riccati equation has a positive definite solution. -/
theorem care_exists (hQs : Qᵀ = Q) (hQ : Pd Q) (hRs : Rᵀ = R) (hR : Psd R) (hRi : R * R⁻¹ = 1) {K : Matrix (Fin l) (Fin k) ℝ}
    {P : Matrix (Fin k) (Fin k) ℝ} (h : CostOf A B Q R K P) : ∃ X, IsCARE A B Q R X ∧ Psd X := by
  have hnext : ∀ q : {q : Matrix (Fin l) (Fin k) ℝ × Matrix (Fin k) (Fin k) ℝ // CostOf A B Q R q.1 q.2},
      ∃ q' : {q : Matrix (Fin l) (Fin k) ℝ × Matrix (Fin k) (Fin k) ℝ // CostOf A B Q R q.1 q.2},
        q'.1.1 = lqrGain B R q.1.2 ∧ Psd (q.1.2 - q'.1.2) := by
    rintro ⟨⟨K, P⟩, hq⟩
    obtain ⟨P', h1, h2⟩ := hq.next hQs hQ hRs hR hRi
    exact ⟨⟨⟨_, P'⟩, h1⟩, rfl, h2⟩
  choose f hf1 hf2 using hnext
  let s : ℕ → {q : Matrix (Fin l) (Fin k) ℝ × Matrix (Fin k) (Fin k) ℝ // CostOf A B Q R q.1 q.2} := fun i => f^[i] ⟨⟨K, P⟩, h⟩
  have hs : ∀ i, s (i + 1) = f (s i) := fun i => Function.iterate_succ_apply' f i _
  have hsym : ∀ i, ((s i).1.2)ᵀ = (s i).1.2 := fun i => (s i).2.sym
  obtain ⟨X, hX⟩ := mono_limit (P := fun i => (s i).1.2) hsym (fun i => (s i).2.pos.psd) (fun i => by
    show Psd ((s i).1.2 - (s (i + 1)).1.2); rw [hs]; exact hf2 _)
  have hXs : Xᵀ = X := by
    have h1 : Tendsto (fun i => ((s i).1.2)ᵀ) atTop (𝓝 Xᵀ) := ((continuous_id.matrix_transpose).tendsto X).comp hX
    simp only [hsym] at h1
    exact tendsto_nhds_unique h1 hX
  have hX1 : Tendsto (fun i => (s (i + 1)).1.2) atTop (𝓝 X) := hX.comp (tendsto_add_atTop_nat 1)
  have hgc : Continuous fun Y : Matrix (Fin k) (Fin k) ℝ => lqrGain B R Y := by
    unfold lqrGain
    exact continuous_const.matrix_mul (continuous_const.matrix_mul continuous_id)
  have hg : Tendsto (fun i => lqrGain B R (s i).1.2) atTop (𝓝 (lqrGain B R X)) := (hgc.tendsto X).comp hX
  have heq : ∀ i, (A - B * lqrGain B R (s i).1.2)ᵀ * (s (i + 1)).1.2 + (s (i + 1)).1.2 * (A - B * lqrGain B R (s i).1.2) =
      -(Q + (lqrGain B R (s i).1.2)ᵀ * R * lqrGain B R (s i).1.2) := by
    intro i
    have h1 := (s (i + 1)).2.eq
    have h2 : (s (i + 1)).1.1 = lqrGain B R (s i).1.2 := by rw [hs]; exact hf1 _
    rw [h2] at h1
    exact h1
  have hlim : (A - B * lqrGain B R X)ᵀ * X + X * (A - B * lqrGain B R X) = -(Q + (lqrGain B R X)ᵀ * R * lqrGain B R X) := by
    have c1 : Continuous fun p : Matrix (Fin k) (Fin k) ℝ × Matrix (Fin l) (Fin k) ℝ => (A - B * p.2)ᵀ * p.1 + p.1 * (A - B * p.2) :=
      ((continuous_const.sub (continuous_const.matrix_mul continuous_snd)).matrix_transpose.matrix_mul continuous_fst).add
        (continuous_fst.matrix_mul (continuous_const.sub (continuous_const.matrix_mul continuous_snd)))
    have c2 : Continuous fun L : Matrix (Fin l) (Fin k) ℝ => -(Q + Lᵀ * R * L) :=
      (continuous_const.add ((continuous_id.matrix_transpose.matrix_mul continuous_const).matrix_mul continuous_id)).neg
    have t1 := (c1.tendsto (X, lqrGain B R X)).comp (hX1.prodMk_nhds hg)
    have t2 := (c2.tendsto (lqrGain B R X)).comp hg
    refine tendsto_nhds_unique (t1.congr fun i => ?_) t2
    exact heq i
  refine ⟨X, ⟨hXs, ?_⟩, fun x => ?_⟩
  · rw [closed_form hRs hRi hXs] at hlim
    have e : X * B * R⁻¹ * Bᵀ * X = (lqrGain B R X)ᵀ * R * lqrGain B R X := by
      rw [gain_eq' hRs hRi hXs, Matrix.mul_assoc _ R R⁻¹, hRi, Matrix.mul_one, Matrix.mul_assoc, gain_eq hRi, ← Matrix.mul_assoc]
    rw [e, sub_eq_iff_eq_add.1 hlim]
    abel
  · have : Tendsto (fun i => x ⬝ᵥ (s i).1.2 *ᵥ x) atTop (𝓝 (x ⬝ᵥ X *ᵥ x)) := by
      have hc : Continuous fun Y : Matrix (Fin k) (Fin k) ℝ => x ⬝ᵥ Y *ᵥ x := by
        unfold dotProduct mulVec dotProduct; fun_prop
      exact (hc.tendsto X).comp hX
    exact ge_of_tendsto' this fun i => (s i).2.pos.psd x

/-- A positive semidefinite solution is the cost of its own gain. -/
theorem care_cost (hQ : Pd Q) (hRs : Rᵀ = R) (hRi : R * R⁻¹ = 1) {P : Matrix (Fin k) (Fin k) ℝ} (hP : IsCARE A B Q R P) (hpsd : Psd P) :
    CostOf A B Q R (lqrGain B R P) P := by
  have e : P * B * R⁻¹ * Bᵀ * P = (lqrGain B R P)ᵀ * R * lqrGain B R P := by
    rw [gain_eq' hRs hRi hP.1, Matrix.mul_assoc _ R R⁻¹, hRi, Matrix.mul_one, Matrix.mul_assoc, gain_eq hRi, ← Matrix.mul_assoc]
  have h2 := hP.2
  rw [e] at h2
  refine ⟨hP.1, ?_, fun x hx => lt_of_le_of_ne (hpsd x) fun h => ?_⟩
  · rw [closed_form hRs hRi hP.1]
    have : Aᵀ * P + P * A = (lqrGain B R P)ᵀ * R * lqrGain B R P - Q := by
      rw [add_eq_zero_iff_eq_neg, sub_eq_iff_eq_add] at h2
      rw [h2]; abel
    rw [this]; abel
  · have h0 : P *ᵥ x = 0 := psd_zero hP.1 hpsd h.symm
    have := congrArg (fun M => x ⬝ᵥ M *ᵥ x) hP.2
    simp only [add_mulVec, sub_mulVec, dotProduct_add, ← mulVec_mulVec, zero_mulVec, dotProduct_zero, sym_dot hP.1, h0, mulVec_zero,
      zero_dotProduct, zero_add, sub_zero] at this
    exact (hQ x hx).ne' this

/-- **Uniqueness.** There is at most one positive semidefinite solution. -/
theorem care_unique (hQ : Pd Q) (hRs : Rᵀ = R) (hR : Psd R) (hRi : R * R⁻¹ = 1) {P P' : Matrix (Fin k) (Fin k) ℝ}
    (hP : IsCARE A B Q R P) (hpsd : Psd P) (hP' : IsCARE A B Q R P') (hpsd' : Psd P') : P = P' := by
  have key : ∀ {P P' : Matrix (Fin k) (Fin k) ℝ}, CostOf A B Q R (lqrGain B R P) P → CostOf A B Q R (lqrGain B R P') P' → Psd (P - P') := by
    intro P P' h h'
    have hW : Pd (Q + (lqrGain B R P)ᵀ * R * lqrGain B R P) := hQ.add (psd_congr hR _)
    refine lyap_psd (N := ((lqrGain B R P) - lqrGain B R P')ᵀ * R * ((lqrGain B R P) - lqrGain B R P')) h.sym h.pos h.eq hW
      (by rw [transpose_sub, h.sym, h'.sym]) ?_ (psd_congr hR _)
    have e : ∀ M : Matrix (Fin k) (Fin k) ℝ, Mᵀ * (P - P') + (P - P') * M = (Mᵀ * P + P * M) - (Mᵀ * P' + P' * M) := fun M => by
      rw [Matrix.mul_sub, Matrix.sub_mul]; abel
    have h2 := h'.eq
    rw [closed_form hRs hRi h'.sym, sub_eq_iff_eq_add] at h2
    rw [e, h.eq, closed_form hRs hRi h'.sym, h2, square_form]
    abel
  have h1 := key (care_cost hQ hRs hRi hP hpsd) (care_cost hQ hRs hRi hP' hpsd')
  have h2 := key (care_cost hQ hRs hRi hP' hpsd') (care_cost hQ hRs hRi hP hpsd)
  exact sub_eq_zero.1 (sym_zero (by rw [transpose_sub, hP.1, hP'.1]) h1 (by rwa [neg_sub]))
/-- A gain whose closed loop has a Lyapunov function has a cost. -/
theorem cost_exists (hQs : Qᵀ = Q) (hQ : Pd Q) (hRs : Rᵀ = R) (hR : Psd R) {K : Matrix (Fin l) (Fin k) ℝ} {S W : Matrix (Fin k) (Fin k) ℝ}
    (hSs : Sᵀ = S) (hS : Pd S) (hM : (A - B * K)ᵀ * S + S * (A - B * K) = -W) (hW : Pd W) : ∃ P, CostOf A B Q R K P := by
  obtain ⟨P, hs, hP⟩ := lyap_exists hSs hS hM hW (N := Q + Kᵀ * R * K) (by
    simp only [transpose_add, transpose_mul, transpose_transpose, hQs, hRs, Matrix.mul_assoc])
  exact ⟨P, hs, hP, lyap_pd hSs hS hM hW hs hP (hQ.add (psd_congr hR _))⟩

/-- The Riccati operator through the gain. -/
theorem ric_eq (hRs : Rᵀ = R) (hRi : R * R⁻¹ = 1) {P : Matrix (Fin k) (Fin k) ℝ} (hP : Pᵀ = P) :
    Aᵀ * P + P * A - P * B * R⁻¹ * Bᵀ * P + Q = Aᵀ * P + P * A - (lqrGain B R P)ᵀ * R * lqrGain B R P + Q := by
  rw [gain_eq' hRs hRi hP, Matrix.mul_assoc _ R R⁻¹, hRi, Matrix.mul_one, Matrix.mul_assoc _ Bᵀ P, gain_eq hRi, ← Matrix.mul_assoc]

/-- Where the Riccati operator is positive, the solution lies above. -/
theorem care_above (hQ : Pd Q) (hRs : Rᵀ = R) (hR : Psd R) (hRi : R * R⁻¹ = 1) {P X : Matrix (Fin k) (Fin k) ℝ}
    (hP : IsCARE A B Q R P) (hpsd : Psd P) (hX : Xᵀ = X) (hric : Psd (Aᵀ * X + X * A - X * B * R⁻¹ * Bᵀ * X + Q)) : Psd (P - X) := by
  have h := care_cost hQ hRs hRi hP hpsd
  rw [ric_eq hRs hRi hX] at hric
  refine lyap_psd (N := (Aᵀ * X + X * A - (lqrGain B R X)ᵀ * R * lqrGain B R X + Q) +
    (lqrGain B R P - lqrGain B R X)ᵀ * R * (lqrGain B R P - lqrGain B R X)) h.sym h.pos h.eq (hQ.add (psd_congr hR _))
    (by rw [transpose_sub, h.sym, hX]) ?_ (hric.add (psd_congr hR _))
  have e : ∀ M : Matrix (Fin k) (Fin k) ℝ, Mᵀ * (P - X) + (P - X) * M = (Mᵀ * P + P * M) - (Mᵀ * X + X * M) := fun M => by
    rw [Matrix.mul_sub, Matrix.sub_mul]; abel
  rw [e, h.eq, closed_form hRs hRi hX, square_form]
  abel

/-- Where it is negative, the solution lies below. -/
theorem care_below (hQ : Pd Q) (hRs : Rᵀ = R) (hR : Psd R) (hRi : R * R⁻¹ = 1) {P X : Matrix (Fin k) (Fin k) ℝ}
    (hP : IsCARE A B Q R P) (hX : Xᵀ = X) (hXp : Pd X) (hric : Psd (-(Aᵀ * X + X * A - X * B * R⁻¹ * Bᵀ * X + Q))) : Psd (X - P) := by
  have h2 := hP.2
  rw [ric_eq hRs hRi hP.1] at h2
  rw [ric_eq hRs hRi hX] at hric
  have hM : (A - B * lqrGain B R X)ᵀ * X + X * (A - B * lqrGain B R X) = -((Q + (lqrGain B R X)ᵀ * R * lqrGain B R X) +
      -(Aᵀ * X + X * A - (lqrGain B R X)ᵀ * R * lqrGain B R X + Q)) := by
    rw [closed_form hRs hRi hX]; abel
  refine lyap_psd (N := -(Aᵀ * X + X * A - (lqrGain B R X)ᵀ * R * lqrGain B R X + Q) +
    (lqrGain B R X - lqrGain B R P)ᵀ * R * (lqrGain B R X - lqrGain B R P)) hX hXp hM ((hQ.add (psd_congr hR _)).add hric)
    (by rw [transpose_sub, hP.1, hX]) ?_ (hric.add (psd_congr hR _))
  have e : ∀ M : Matrix (Fin k) (Fin k) ℝ, Mᵀ * (X - P) + (X - P) * M = (Mᵀ * X + X * M) - (Mᵀ * P + P * M) := fun M => by
    rw [Matrix.mul_sub, Matrix.sub_mul]; abel
  have h3 : Aᵀ * P + P * A = (lqrGain B R P)ᵀ * R * lqrGain B R P - Q := by
    rw [add_eq_zero_iff_eq_neg, sub_eq_iff_eq_add] at h2
    rw [h2]; abel
  rw [e, hM, closed_form hRs hRi hP.1, h3, square_form]
  abel

/-- A nonnegative symmetric matrix below `c` shortens vectors by `c`. -/
theorem psd_shorten {T : Matrix (Fin k) (Fin k) ℝ} {c : ℝ} (hs : Tᵀ = T) (hc : 0 ≤ c) (h0 : Psd T) (h1 : Psd (c • 1 - T)) (x : Fin k → ℝ) :
    (T *ᵥ x) ⬝ᵥ (T *ᵥ x) ≤ c ^ 2 * (x ⬝ᵥ x) := by
  have hle : ∀ y : Fin k → ℝ, y ⬝ᵥ T *ᵥ y ≤ c * (y ⬝ᵥ y) := fun y => by
    have := h1 y
    rw [sub_mulVec, smul_mulVec, one_mulVec, dotProduct_sub, dotProduct_smul, smul_eq_mul] at this
    linarith
  have h2 := h0 (c • x - T *ᵥ x)
  simp only [mulVec_sub, mulVec_smul, dotProduct_sub, sub_dotProduct, smul_dotProduct, dotProduct_smul, smul_eq_mul] at h2
  rw [sym_dot hs x (T *ᵥ x), dotProduct_comm (T *ᵥ x) (T *ᵥ x)] at h2
  have h3 := hle (T *ᵥ x)
  rcases hc.eq_or_lt with rfl | hc
  · have h4 : T *ᵥ x = 0 := psd_zero hs h0 (le_antisymm (by simpa using hle x) (h0 x))
    rw [h4]; simp
  · have h5 : c * ((T *ᵥ x) ⬝ᵥ (T *ᵥ x)) ≤ c * (c * (x ⬝ᵥ T *ᵥ x)) := by nlinarith
    have h6 := le_of_mul_le_mul_left h5 hc
    have h7 := mul_le_mul_of_nonneg_left (hle x) hc.le
    calc _ ≤ c * (x ⬝ᵥ T *ᵥ x) := h6
      _ ≤ c * (c * (x ⬝ᵥ x)) := h7
      _ = _ := by ring
end

end RTA
