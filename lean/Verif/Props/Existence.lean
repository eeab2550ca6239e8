import Verif.Lemmas.GlobalODE
import Verif.Lemmas.ASIFContinuity
import Verif.Props.ClosedForm
import Verif.Props.Flow
import Verif.Props.Tolerance

/-!
C121: the closed loop of system and explicit ASIF module has exactly one motion from every state, and motions from close states stay close
for bounded time. The theorems on trajectories under a filter thus speak about something that exists.
-/
namespace RTA
open Set
open scoped NNReal
variable {P X : Type}

/-- A quantity changes at most proportionally to the state. -/
def LipOn (n : Nat) (φ : List ℝ → ℝ) : Prop :=
  ∃ L, 0 ≤ L ∧ ∀ x y : List ℝ, x.length = n → y.length = n → ∀ r, 0 ≤ r → (∀ i < n, |x.getD i 0 - y.getD i 0| ≤ r) → |φ x - φ y| ≤ L * r

/-- Motion `x` with control `u`, where the control at all times is what the module returns for the state and the desired control at this
state. -/
structure ClosedLoop (solver : Solver ℝ) (n : Nat) (f : List ℝ → List ℝ) (g : List ℝ → List (List ℝ)) (s : ASIFObj ℝ (List ℝ) P X)
    (des : List ℝ → List ℝ) (dt : ℝ) (x u : ℝ → List ℝ) : Prop where
  motion : Trajectory univ n f g x u
  control : ∀ t, 0 ≤ t → (explicitASIF solver f g s (.array (x t)) dt (des (x t))).1 = .ok (u t)

theorem ofFn_getD_self {n : Nat} {x : List ℝ} (hx : x.length = n) : List.ofFn (fun i : Fin n => x.getD i 0) = x := by
  subst hx
  refine List.ext_getElem (by simp) fun i h1 h2 => ?_
  simp [List.getD_eq_getElem?_getD]

theorem getD_ofFn {n : Nat} (v : Fin n → ℝ) (i : Fin n) : (List.ofFn v).getD i 0 = v i := by
  simp [List.getD_eq_getElem?_getD]

/-- The velocity as a vector field. -/
theorem field_lipschitz {n : Nat} {vel : List ℝ → List ℝ} (h : ∀ i < n, LipOn n fun x => (vel x).getD i 0) :
    ∃ K : ℝ≥0, LipschitzWith K fun v : Fin n → ℝ => fun i : Fin n => (vel (List.ofFn v)).getD i 0 := by
  choose L hL0 hL using h
  let M : ℝ≥0 := ∑ i : Fin n, ⟨L i i.2, hL0 i i.2⟩
  refine ⟨M, LipschitzWith.of_dist_le_mul fun v w => ?_⟩
  refine (dist_pi_le_iff (by positivity)).2 fun i => ?_
  rw [Real.dist_eq]
  refine (hL i i.2 (List.ofFn v) (List.ofFn w) (by simp) (by simp) (dist v w) dist_nonneg fun j hj => ?_).trans ?_
  · have := dist_le_pi_dist v w ⟨j, hj⟩
    rw [Real.dist_eq] at this
    rw [getD_ofFn v ⟨j, hj⟩, getD_ofFn w ⟨j, hj⟩]
    exact this
  · refine mul_le_mul_of_nonneg_right ?_ dist_nonneg
    have h1 : (⟨L i i.2, hL0 i i.2⟩ : ℝ≥0) ≤ M :=
      Finset.single_le_sum (f := fun i : Fin n => (⟨L i i.2, hL0 i i.2⟩ : ℝ≥0)) (fun _ _ => zero_le) (Finset.mem_univ i)
    exact_mod_cast h1

section
variable {solver : Solver ℝ} {n : Nat} {f : List ℝ → List ℝ} {g : List ℝ → List (List ℝ)} {s : ASIFObj ℝ (List ℝ) P X}
  {des : List ℝ → List ℝ} {dt : ℝ}

/-- A motion of the closed loop solves the differential equation of the field. -/
theorem ClosedLoop.solves {κ : List ℝ → List ℝ}
    (hκ : ∀ x, x.length = n → (explicitASIF solver f g s (.array x) dt (des x)).1 = .ok (κ x)) {x u : ℝ → List ℝ}
    (h : ClosedLoop solver n f g s des dt x u) :
    ContinuousOn (fun t => fun i : Fin n => (x t).getD i 0) (Ici 0) ∧ ∀ t, 0 ≤ t →
      HasDerivWithinAt (fun t => fun i : Fin n => (x t).getD i 0)
        (fun i : Fin n => (vadd (f (List.ofFn fun i : Fin n => (x t).getD i 0))
          (matVec (g (List.ofFn fun i : Fin n => (x t).getD i 0)) (κ (List.ofFn fun i : Fin n => (x t).getD i 0)))).getD i 0) (Ici t) t := by
  refine ⟨continuousOn_pi.2 fun i => h.motion.cont i i.2, fun t ht => hasDerivWithinAt_pi.2 fun i => ?_⟩
  have hl := (h.motion.curve t ht).2
  have hu : u t = κ (x t) := by
    have h1 := h.control t ht
    rw [hκ _ hl] at h1
    simpa using h1.symm
  rw [ofFn_getD_self hl, ← hu]
  exact h.motion.deriv t ht i i.2

/-- **C121, general form**: if the module has an answer in every state and the velocity that results from it changes at most
proportionally to the state, there is exactly one motion of the closed loop from every state, and two motions move apart at most
exponentially. -/
theorem C121_exists {κ : List ℝ → List ℝ} (hκ : ∀ x, x.length = n → (explicitASIF solver f g s (.array x) dt (des x)).1 = .ok (κ x))
    (hlen : ∀ x, x.length = n → (vadd (f x) (matVec (g x) (κ x))).length = n)
    (hlip : ∀ i < n, LipOn n fun x => (vadd (f x) (matVec (g x) (κ x))).getD i 0) :
    (∀ x0 : List ℝ, x0.length = n → ∃ x u, ClosedLoop solver n f g s des dt x u ∧ x 0 = x0) ∧
    ∃ L, 0 ≤ L ∧ ∀ x u y v, ClosedLoop solver n f g s des dt x u → ClosedLoop solver n f g s des dt y v → ∀ r, 0 ≤ r →
      (∀ i < n, |(x 0).getD i 0 - (y 0).getD i 0| ≤ r) → ∀ t, 0 ≤ t → ∀ i < n, |(x t).getD i 0 - (y t).getD i 0| ≤ r * Real.exp (L * t) := by
  obtain ⟨K, hK⟩ := field_lipschitz hlip
  constructor
  · intro x0 hx0
    obtain ⟨α, h0, hc, hd⟩ := ode_global hK (fun i : Fin n => x0.getD i 0)
    refine ⟨fun t => List.ofFn (α t), fun t => κ (List.ofFn (α t)), ⟨⟨fun t _ => ⟨mem_univ _, by simp⟩, fun i hi => ?_, fun t _ => ?_,
      fun t ht i hi => ?_⟩, fun t _ => hκ _ (by simp)⟩, ?_⟩
    · have := continuousOn_pi.1 hc ⟨i, hi⟩
      exact this.congr fun t _ => getD_ofFn (α t) ⟨i, hi⟩
    · exact hlen _ (by simp)
    · have := hasDerivWithinAt_pi.1 (hd t ht) ⟨i, hi⟩
      exact this.congr (fun t _ => getD_ofFn (α t) ⟨i, hi⟩) (getD_ofFn (α t) ⟨i, hi⟩)
    · show List.ofFn (α 0) = x0
      rw [h0, ofFn_getD_self hx0]
  · refine ⟨K, K.2, fun x u y v hx hy r hr hr0 t ht i hi => ?_⟩
    have h1 := hx.solves hκ
    have h2 := hy.solves hκ
    have h3 := ode_dependence hK h1.1 h1.2 h2.1 h2.2 ht
    have h4 : dist (fun i : Fin n => (x 0).getD i 0) (fun i : Fin n => (y 0).getD i 0) ≤ r :=
      (dist_pi_le_iff hr).2 fun i => by rw [Real.dist_eq]; exact hr0 i i.2
    have h5 := (dist_le_pi_dist (fun i : Fin n => (x t).getD i 0) (fun i : Fin n => (y t).getD i 0) ⟨i, hi⟩).trans
      (h3.trans (mul_le_mul_of_nonneg_right h4 (Real.exp_pos _).le))
    rwa [Real.dist_eq] at h5
/-- **C121, uniqueness**: under the same hypotheses two motions of the closed loop from the same state are the same. -/
theorem C121_unique {κ : List ℝ → List ℝ} (hκ : ∀ x, x.length = n → (explicitASIF solver f g s (.array x) dt (des x)).1 = .ok (κ x))
    (hlen : ∀ x, x.length = n → (vadd (f x) (matVec (g x) (κ x))).length = n)
    (hlip : ∀ i < n, LipOn n fun x => (vadd (f x) (matVec (g x) (κ x))).getD i 0) {x u y v : ℝ → List ℝ}
    (hx : ClosedLoop solver n f g s des dt x u) (hy : ClosedLoop solver n f g s des dt y v) (h0 : x 0 = y 0) {t : ℝ} (ht : 0 ≤ t) :
    x t = y t ∧ u t = v t := by
  obtain ⟨L, -, h⟩ := (C121_exists hκ hlen hlip).2
  have h1 := h x u y v hx hy 0 le_rfl (fun i _ => by rw [h0]; simp) t ht
  have hxl := (hx.motion.curve t ht).2
  have hyl := (hy.motion.curve t ht).2
  have e : x t = y t := by
    rw [← ofFn_getD_self hxl, ← ofFn_getD_self hyl]
    congr 1
    funext i
    have := h1 i i.2
    rw [zero_mul] at this
    exact sub_eq_zero.1 (abs_nonpos_iff.1 this)
  refine ⟨e, ?_⟩
  have h2 := hx.control t ht
  have h3 := hy.control t ht
  rw [e, h3] at h2
  simpa using h2.symm
end

/-! ### Affine constraints -/

theorem LipOn.const (n : Nat) (c : ℝ) : LipOn n fun _ => c := ⟨0, le_rfl, fun _ _ _ _ _ _ _ => by simp⟩

theorem LipOn.add {n : Nat} {φ ψ : List ℝ → ℝ} (hφ : LipOn n φ) (hψ : LipOn n ψ) : LipOn n fun x => φ x + ψ x := by
  obtain ⟨L, hL, h1⟩ := hφ
  obtain ⟨M, hM, h2⟩ := hψ
  refine ⟨L + M, by positivity, fun x y hx hy r hr h => ?_⟩
  have e : φ x + ψ x - (φ y + ψ y) = (φ x - φ y) + (ψ x - ψ y) := by ring
  rw [e]
  have := abs_add_le (φ x - φ y) (ψ x - ψ y)
  linarith [h1 x y hx hy r hr h, h2 x y hx hy r hr h]

/-- A function with a Lipschitz constant, applied to such a quantity. -/
theorem LipOn.comp {n : Nat} {φ : List ℝ → ℝ} (hφ : LipOn n φ) {q : ℝ → ℝ} {M : ℝ} (hq : ∀ a b, |q a - q b| ≤ M * |a - b|) :
    LipOn n fun x => q (φ x) := by
  obtain ⟨L, hL, h1⟩ := hφ
  have hM : 0 ≤ M := by
    have := (abs_nonneg _).trans (hq 1 0)
    simpa using this
  refine ⟨M * L, by positivity, fun x y hx hy r hr h => (hq _ _).trans ?_⟩
  rw [mul_assoc]
  exact mul_le_mul_of_nonneg_left (h1 x y hx hy r hr h) hM

theorem LipOn.mul_const {n : Nat} {φ : List ℝ → ℝ} (hφ : LipOn n φ) (c : ℝ) : LipOn n fun x => φ x * c :=
  hφ.comp (q := fun a => a * c) (M := |c|) fun a b => by rw [← sub_mul, abs_mul, mul_comm]

theorem LipOn.min_zero {n : Nat} {φ : List ℝ → ℝ} (hφ : LipOn n φ) : LipOn n fun x => min 0 (φ x) :=
  hφ.comp (q := fun a => min 0 a) (M := 1) fun a b => by
    have := abs_min_sub_min_le_max (0 : ℝ) a 0 b
    simpa using this

theorem LipOn.congr {n : Nat} {φ ψ : List ℝ → ℝ} (hφ : LipOn n φ) (h : ∀ x, x.length = n → ψ x = φ x) : LipOn n ψ := by
  obtain ⟨L, hL, h1⟩ := hφ
  exact ⟨L, hL, fun x y hx hy r hr hd => by rw [h x hx, h y hy]; exact h1 x y hx hy r hr hd⟩

theorem LipOn.dot {n m : Nat} {F : List ℝ → List ℝ} (hlen : ∀ x, x.length = n → (F x).length = m)
    (hF : ∀ j < m, LipOn n fun x => (F x).getD j 0) {a : List ℝ} (ha : a.length = m) : LipOn n fun x => RTA.dot a (F x) := by
  have key : ∀ k ≤ m, LipOn n fun x => ∑ j ∈ Finset.range k, a.getD j 0 * (F x).getD j 0 := by
    intro k
    induction k with
    | zero => intro _; simpa using LipOn.const n 0
    | succ k ih =>
      intro hk
      simp only [Finset.sum_range_succ]
      refine (ih (by omega)).add ?_
      simpa only [mul_comm] using (hF k (by omega)).mul_const (a.getD k 0)
  exact (key m le_rfl).congr fun x hx => dot_eq_sum ha (hlen x hx)

theorem project_getD {a w : List ℝ} (h : a.length = w.length) (d : ℝ) (j : Nat) :
    (project a d w).getD j 0 = w.getD j 0 + min 0 (d + dot a w) * (-(a.getD j 0) / sqNorm a) := by
  unfold project
  split
  · next h0 => rw [min_eq_left h0]; ring
  · next h0 =>
    rw [min_eq_right (not_le.1 h0).le]
    by_cases hj : j < w.length
    · have hj' : j < a.length := by omega
      simp only [List.getD_eq_getElem?_getD, vsub, vscale, List.getElem?_zipWith, List.getElem?_map, List.getElem?_eq_getElem hj,
        List.getElem?_eq_getElem hj', Option.map_some, Option.getD_some]
      ring
    · have hj' : ¬ j < a.length := by omega
      simp [List.getD_eq_getElem?_getD, vsub, vscale, List.getElem?_zipWith, List.getElem?_eq_none (not_lt.1 hj),
        List.getElem?_eq_none (not_lt.1 hj')]

/-- The strengthening term of a constraint with a linear strengthener, a linear or no separate one for negative values and no
`bias_negative` changes at most proportionally to the value. -/
theorem C121_strengthening {S : Type} (c : Constraint ℝ S P) (k kn : ℝ) (hn : (c.alphaNeg = some fun h => kn * h) ∨ c.alphaNeg = none)
    (hb : c.biasNegative = 0) : ∃ M, ∀ p q, |strengthening c (fun h => k * h) p - strengthening c (fun h => k * h) q| ≤ M * |p - q| := by
  obtain ⟨kn, e⟩ : ∃ kn, ∀ p, strengthening c (fun h => k * h) p = if 0 ≤ p then k * p else kn * p := by
    rcases hn with hn | hn
    · exact ⟨kn, fun p => by simp [strengthening, hn, hb]⟩
    · exact ⟨10 * k, fun p => by simp [strengthening, hn, hb, mul_assoc]⟩
  have e' : ∀ p, strengthening c (fun h => k * h) p = k * max 0 p + kn * min 0 p := fun p => by
    rw [e]
    split
    · next h => rw [max_eq_right h, min_eq_left h]; ring
    · next h => rw [max_eq_left (not_le.1 h).le, min_eq_right (not_le.1 h).le]; ring
  refine ⟨|k| + |kn|, fun p q => ?_⟩
  rw [e', e']
  have h1 := abs_max_sub_max_le_max (0 : ℝ) p 0 q
  have h2 := abs_min_sub_min_le_max (0 : ℝ) p 0 q
  simp only [sub_self, abs_zero, abs_nonneg, sup_of_le_right] at h1 h2
  have e2 : k * max 0 p + kn * min 0 p - (k * max 0 q + kn * min 0 q) = k * (max 0 p - max 0 q) + kn * (min 0 p - min 0 q) := by ring
  rw [e2]
  refine (abs_add_le _ _).trans ?_
  rw [abs_mul, abs_mul, add_mul]
  exact add_le_add (mul_le_mul_of_nonneg_left h1 (abs_nonneg _)) (mul_le_mul_of_nonneg_left h2 (abs_nonneg _))

/-- **C121 for affine constraints**: let a module without control bounds have one constraint whose gradient is constant and which the
control can influence, for a system with constant input matrix. If drift, desired control, constraint value and strengthening term change
at most proportionally to their arguments, the closed loop has a motion from every state, it is the only one, and motions move apart at
most exponentially. -/
theorem C121_affine_partial {solver : Solver ℝ} (hspec : SolverSpec solver) {n : Nat} {f : List ℝ → List ℝ} {g : List ℝ → List (List ℝ)}
    {s : ASIFObj ℝ (List ℝ) P X} (hs : ExplicitModule solver f g s) (hen : s.enable = true) {c : Constraint ℝ (List ℝ) P} {al : ℝ → ℝ}
    (hone : OneCondition s c al) (hlo : s.controlBoundsLow = none) (hhi : s.controlBoundsHigh = none)
    (hsh : ∀ x, x.length = n → ShapesOK f g s x) {a : List ℝ} (hgrad : ∀ x, x.length = n → c.gradFn x c.params = a)
    {G : List (List ℝ)} (hg : ∀ x, x.length = n → g x = G)
    (hinf : ∀ x, x.length = n → sqNorm (influence g c x s.ext.controlDim) ≠ 0)
    (hfl : ∀ x, x.length = n → (f x).length = n) (hf : ∀ i < n, LipOn n fun x => (f x).getD i 0) {des : List ℝ → List ℝ}
    (hdl : ∀ x, x.length = n → (des x).length = s.ext.controlDim) (hd : ∀ j < s.ext.controlDim, LipOn n fun x => (des x).getD j 0)
    (hval : LipOn n fun x => c.computeFn x c.params + c.bias) {M : ℝ}
    (hal : ∀ p q, |strengthening c al p - strengthening c al q| ≤ M * |p - q|) (dt : ℝ) :
    (∀ x0 : List ℝ, x0.length = n → ∃ x u, ClosedLoop solver n f g s des dt x u ∧ x 0 = x0 ∧
      ∀ y v, ClosedLoop solver n f g s des dt y v → y 0 = x0 → ∀ t, 0 ≤ t → y t = x t ∧ v t = u t) ∧
    ∃ L, 0 ≤ L ∧ ∀ x u y v, ClosedLoop solver n f g s des dt x u → ClosedLoop solver n f g s des dt y v → ∀ r, 0 ≤ r →
      (∀ i < n, |(x 0).getD i 0 - (y 0).getD i 0| ≤ r) → ∀ t, 0 ≤ t → ∀ i < n, |(x t).getD i 0 - (y t).getD i 0| ≤ r * Real.exp (L * t) := by
  set b := (List.range s.ext.controlDim).map fun i => dot a (G.map fun r => r.getD i 0) with hb
  have hbl : b.length = s.ext.controlDim := by rw [hb]; simp
  have hib : ∀ x, x.length = n → influence g c x s.ext.controlDim = b := fun x hx => by rw [influence, hgrad x hx, hg x hx]
  have hGl : ∀ x : List ℝ, x.length = n → G.length = n := fun x hx => by rw [← hg x hx, (hsh x hx).input, hfl x hx]
  obtain ⟨k0, hk0⟩ := hone.mem
  have hal' : ∀ x : List ℝ, x.length = n → a.length = n := fun x hx => by
    have := (hsh x hx).grad _ hk0
    rw [hgrad x hx, hfl x hx] at this
    exact this
  let κ : List ℝ → List ℝ := fun x => project b (drift f c al x) (des x)
  have hκ : ∀ x, x.length = n → (explicitASIF solver f g s (.array x) dt (des x)).1 = .ok (κ x) := fun x hx => by
    have := (C106_projection hspec hs hen (hsh x hx) hone hlo hhi dt (hdl x hx)).1 (hinf x hx)
    rw [this, hib x hx]
  have hκl : ∀ x, x.length = n → (κ x).length = s.ext.controlDim := fun x hx => by
    simp only [κ, project]
    split
    · exact hdl x hx
    · simp [vsub, hdl x hx, hbl]
  have z : (zeros n : List ℝ).length = n := by simp
  have hdrift : LipOn n fun x => drift f c al x := by
    refine ((LipOn.dot hfl hf (hal' _ z)).add (hval.comp hal)).congr fun x hx => ?_
    rw [drift, hgrad x hx]
  have hκc : ∀ j < s.ext.controlDim, LipOn n fun x => (κ x).getD j 0 := fun j hj => by
    refine ((hd j hj).add (((hdrift.add (LipOn.dot hdl hd hbl)).min_zero).mul_const (-(b.getD j 0) / sqNorm b))).congr fun x hx => ?_
    exact project_getD (by rw [hbl, hdl x hx]) _ j
  have hlen : ∀ x, x.length = n → (vadd (f x) (matVec (g x) (κ x))).length = n := fun x hx => by
    rw [hg x hx]; simp [vadd, hfl x hx, hGl x hx]
  have hlip : ∀ i < n, LipOn n fun x => (vadd (f x) (matVec (g x) (κ x))).getD i 0 := fun i hi => by
    have hrow : (G.getD i []).length = s.ext.controlDim := by
      have hi' : i < G.length := by rw [hGl _ z]; exact hi
      rw [List.getD_eq_getElem?_getD, List.getElem?_eq_getElem hi', Option.getD_some]
      refine (hsh _ z).cols _ ?_
      rw [hg _ z]
      exact List.getElem_mem hi'
    refine ((hf i hi).add (LipOn.dot hκl hκc hrow)).congr fun x hx => ?_
    rw [hg x hx, getD_vadd' (by rw [hfl x hx, matVec_length, hGl x hx]), getD_matVec]
  have key := C121_exists hκ hlen hlip
  refine ⟨fun x0 hx0 => ?_, key.2⟩
  obtain ⟨x, u, h, h0⟩ := key.1 x0 hx0
  exact ⟨x, u, h, h0, fun y v hy hy0 t ht => C121_unique hκ hlen hlip hy h (by rw [hy0, h0]) ht⟩

/-! ### Example -/

/-- The system `x' = u` with constraint `0 ≤ x`, slope 2 and a desired control that pulls to `-1`. -/
example {solver : Solver ℝ} (hspec : SolverSpec solver) (x0 : ℝ) :
    ∃ x u, ClosedLoop solver 1 (fun _ => [0]) (fun _ => [[1]]) (lineObj (fun h => 2 * h) 0) (fun x => [-1 - x.getD 0 0]) 1 x u ∧
      x 0 = [x0] := by
  have hid : LipOn 1 fun x => x.getD 0 0 := ⟨1, zero_le_one, fun x y _ _ r _ h => by rw [one_mul]; exact h 0 one_pos⟩
  obtain ⟨M, hM⟩ := C121_strengthening (lineC (fun h => 2 * h) 0) 2 0 (Or.inr rfl) rfl
  have hg1 : ∀ x : List ℝ, x.length = 1 → (lineC (fun h => 2 * h) 0).gradFn x (lineC (fun h => 2 * h) 0).params = [1] := fun x hx => by
    simp [lineC, posC, minLimit, Constraint.mk', gradAt, hx, List.range_succ]
  have hone : OneCondition (lineObj (fun h => 2 * h) 0) (lineC (fun h => 2 * h) 0) (fun h => 2 * h) :=
    ⟨⟨"c", by simp [lineObj]⟩, rfl, rfl, by simp [lineObj], by simp [lineObj], rfl⟩
  obtain ⟨x, u, h, h0, -⟩ := (C121_affine_partial hspec (line_module solver (fun h => 2 * h) 0) rfl hone rfl rfl (n := 1) (a := [1]) (G := [[1]])
    (fun x hx => by obtain ⟨y, rfl⟩ := List.length_eq_one_iff.1 hx; exact line_shapes _ 0 y) hg1 (fun _ _ => rfl)
    (fun x hx => by simp [influence, hg1 x hx, lineObj, sqNorm, dot, List.range_succ]) (fun _ _ => rfl)
    (fun i _ => LipOn.const 1 _) (des := fun x => [-1 - x.getD 0 0]) (fun _ _ => rfl)
    (fun j hj => by
      obtain rfl : j = 0 := by have : j < 1 := hj; omega
      refine ((LipOn.const 1 (-1)).add (hid.mul_const (-1))).congr fun x _ => ?_
      simp [sub_eq_add_neg])
    (hid.congr fun x hx => by
      obtain ⟨y, rfl⟩ := List.length_eq_one_iff.1 hx
      simp [lineC, posC, minLimit, Constraint.mk', stateAt]) hM 1).1 [x0] rfl
  exact ⟨x, u, h, h0⟩

end RTA
