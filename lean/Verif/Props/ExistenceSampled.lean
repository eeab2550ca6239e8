import Verif.Props.Existence
import Verif.Props.ASIFHistory
import Verif.Props.ClosedLoop
import Verif.Lemmas.Zoo.CombinedCall

/-!
C121 for filters that are called at fixed intervals, their control being held in between: the closed loop has exactly one motion, whatever
the filter, as long as its calls return.
-/
namespace RTA
open Set
open scoped NNReal
variable {σ P X A : Type}

/-- Motion `x` with control `u`, where the filter is called every `Δ` with the state at this time, and the control it returns is held
until the next call. The filter may keep a state of its own. -/
structure SampledLoop (call : σ → List ℝ → Except PyErr (List ℝ) × σ) (Δ : ℝ) (n : Nat) (f : List ℝ → List ℝ) (g : List ℝ → List (List ℝ))
    (x u : ℝ → List ℝ) (st : ℕ → σ) : Prop where
  motion : Trajectory univ n f g x u
  control : ∀ k : ℕ, ∃ v, call (st k) (x (k * Δ)) = (.ok v, st (k + 1)) ∧ ∀ t, k * Δ ≤ t → t < (k + 1) * Δ → u t = v

section
variable {call : σ → List ℝ → Except PyErr (List ℝ) × σ} {Δ : ℝ} {n : Nat} {f : List ℝ → List ℝ} {g : List ℝ → List (List ℝ)}

/-- **C121, sampled, existence**: let every call of the filter return, for every state of the system and every state of the filter that can
occur, a control from a set `U`, and let the velocity under each constant control from `U` change at most proportionally to the state.
Then the sampled closed loop has a motion from every state, for all times. -/
theorem C121_sampled_exists (hΔ : 0 < Δ) (I : σ → Prop) (U : List ℝ → Prop)
    (hcall : ∀ s x, I s → x.length = n → ∃ v s', call s x = (.ok v, s') ∧ U v ∧ I s')
    (hlen : ∀ v, U v → ∀ x, x.length = n → (vadd (f x) (matVec (g x) v)).length = n)
    (hlip : ∀ v, U v → ∀ i < n, LipOn n fun x => (vadd (f x) (matVec (g x) v)).getD i 0) {s0 : σ} (hs0 : I s0) {x0 : List ℝ}
    (hx0 : x0.length = n) : ∃ x u st, SampledLoop call Δ n f g x u st ∧ x 0 = x0 ∧ st 0 = s0 := by
  choose v s' hv hU hI using hcall
  -- the solution from `y` under control `w`
  have hsol : ∀ (w : List ℝ), U w → ∀ y : Fin n → ℝ, ∃ α : ℝ → Fin n → ℝ, α 0 = y ∧ ContinuousOn α (Ici 0) ∧ ∀ t, 0 ≤ t →
      HasDerivWithinAt α (fun i : Fin n => (vadd (f (List.ofFn (α t))) (matVec (g (List.ofFn (α t))) w)).getD i 0) (Ici t) t := by
    intro w hw y
    obtain ⟨K, hK⟩ := field_lipschitz (hlip w hw)
    exact ode_global hK y
  choose sol h0 hc hd using hsol
  have hl : ∀ y : Fin n → ℝ, (List.ofFn y).length = n := fun y => by simp
  -- states at the calls
  let next : {s // I s} × (Fin n → ℝ) → {s // I s} × (Fin n → ℝ) := fun p =>
    (⟨s' p.1.1 (List.ofFn p.2) p.1.2 (hl _), hI _ _ _ _⟩, sol (v p.1.1 (List.ofFn p.2) p.1.2 (hl _)) (hU _ _ _ _) p.2 Δ)
  let q : ℕ → {s // I s} × (Fin n → ℝ) := fun k => Nat.rec (⟨s0, hs0⟩, fun i : Fin n => x0.getD i 0) (fun _ => next) k
  let w : ℕ → List ℝ := fun k => v (q k).1.1 (List.ofFn (q k).2) (q k).1.2 (hl _)
  have hw : ∀ k, U (w k) := fun k => hU _ _ _ _
  let φ : ℕ → ℝ → Fin n → ℝ := fun k => sol (w k) (hw k) (q k).2
  obtain ⟨α, hα, hαφ, hαd⟩ := ode_join hΔ (F := fun k y => fun i : Fin n => (vadd (f (List.ofFn y)) (matVec (g (List.ofFn y)) (w k))).getD i 0)
    (φ := φ) (fun k => (hc _ _ _).mono Icc_subset_Ici_self) (fun k t ht => hd _ _ _ t ht.1) (fun k => h0 _ _ _)
  have hstart : ∀ k : ℕ, α (k * Δ) = (q k).2 := fun k => by
    rw [hαφ k (k * Δ) ⟨le_rfl, by linarith⟩, sub_self]
    exact h0 _ _ _
  have hfl : ∀ (k : ℕ) (t : ℝ), k * Δ ≤ t → t < (k + 1) * Δ → ⌊t / Δ⌋₊ = k := by
    intro k t h1 h2
    have h3 : (k : ℝ) ≤ t / Δ := (le_div_iff₀ hΔ).2 h1
    exact (Nat.floor_eq_iff ((Nat.cast_nonneg k).trans h3)).2 ⟨h3, (div_lt_iff₀ hΔ).2 h2⟩
  have hin : ∀ t, 0 ≤ t → t ∈ Ico (⌊t / Δ⌋₊ * Δ) ((⌊t / Δ⌋₊ + 1) * Δ) := fun t ht =>
    ⟨(le_div_iff₀ hΔ).1 (Nat.floor_le (div_nonneg ht hΔ.le)), (div_lt_iff₀ hΔ).1 (Nat.lt_floor_add_one (t / Δ))⟩
  refine ⟨fun t => List.ofFn (α t), fun t => w ⌊t / Δ⌋₊, fun k => (q k).1.1, ⟨⟨fun t _ => ⟨mem_univ _, hl _⟩, fun i hi => ?_,
    fun t _ => hlen _ (hw _) _ (hl _), fun t ht i hi => ?_⟩, fun k => ⟨w k, ?_, fun t h1 h2 => ?_⟩⟩, ?_, rfl⟩
  · exact (continuousOn_pi.1 hα ⟨i, hi⟩).congr fun t _ => getD_ofFn (α t) ⟨i, hi⟩
  · have := hasDerivWithinAt_pi.1 (hαd _ t (hin t ht)) ⟨i, hi⟩
    exact this.congr (fun t _ => getD_ofFn (α t) ⟨i, hi⟩) (getD_ofFn (α t) ⟨i, hi⟩)
  · simp only [hstart]
    exact hv _ _ _ _
  · simp only [hfl k t h1 h2]
  · have := hstart 0
    simp only [Nat.cast_zero, zero_mul] at this
    simp only [this]
    exact ofFn_getD_self hx0

/-- **C121, sampled, uniqueness**: two motions of the sampled closed loop from the same states of system and filter are the same, and so
are controls and states of the filter. -/
theorem C121_sampled_unique (hΔ : 0 < Δ) {x u y v : ℝ → List ℝ} {st st' : ℕ → σ} (hx : SampledLoop call Δ n f g x u st)
    (hy : SampledLoop call Δ n f g y v st') (hlip : ∀ t, 0 ≤ t → ∀ i < n, LipOn n fun z => (vadd (f z) (matVec (g z) (u t))).getD i 0)
    (h0 : x 0 = y 0) (hs : st 0 = st' 0) : (∀ t, 0 ≤ t → x t = y t ∧ u t = v t) ∧ ∀ k, st k = st' k := by
  have hxl : ∀ t, 0 ≤ t → (x t).length = n := fun t ht => (hx.motion.curve t ht).2
  have hyl : ∀ t, 0 ≤ t → (y t).length = n := fun t ht => (hy.motion.curve t ht).2
  have hk0 : ∀ k : ℕ, 0 ≤ (k : ℝ) * Δ := fun k => mul_nonneg (Nat.cast_nonneg k) hΔ.le
  have step : ∀ k : ℕ, x (k * Δ) = y (k * Δ) → st k = st' k → st (k + 1) = st' (k + 1) ∧
      ∀ t ∈ Icc (k * Δ) ((k + 1) * Δ), x t = y t ∧ (t < (k + 1) * Δ → u t = v t) := by
    intro k e1 e2
    obtain ⟨w, hw, hu⟩ := hx.control k
    obtain ⟨w', hw', hv⟩ := hy.control k
    rw [e1, e2, hw'] at hw
    simp only [Prod.mk.injEq, Except.ok.injEq] at hw
    obtain ⟨rfl, e3⟩ := hw
    refine ⟨e3.symm, fun t ht => ⟨?_, fun h => by rw [hu t ht.1 h, hv t ht.1 h]⟩⟩
    have hlt : (k : ℝ) * Δ < (k + 1) * Δ := by linarith
    have huk := hu _ le_rfl hlt
    obtain ⟨K, hK⟩ := field_lipschitz (hlip _ (hk0 k))
    rw [huk] at hK
    have hsol : ∀ {z c : ℝ → List ℝ}, Trajectory univ n f g z c → (∀ t, k * Δ ≤ t → t < (k + 1) * Δ → c t = w') →
        ContinuousOn (fun t => fun i : Fin n => (z t).getD i 0) (Icc (k * Δ) ((k + 1) * Δ)) ∧ ∀ t ∈ Ico (k * Δ) ((k + 1) * Δ),
          HasDerivWithinAt (fun t => fun i : Fin n => (z t).getD i 0)
            (fun i : Fin n => (vadd (f (List.ofFn fun i : Fin n => (z t).getD i 0))
              (matVec (g (List.ofFn fun i : Fin n => (z t).getD i 0)) w')).getD i 0) (Ici t) t := by
      intro z c hz hcw
      refine ⟨continuousOn_pi.2 fun i => (hz.cont i i.2).mono fun s hs => (hk0 k).trans hs.1, fun s hs => hasDerivWithinAt_pi.2 fun i => ?_⟩
      have h1 := hz.deriv s ((hk0 k).trans hs.1) i i.2
      rw [hcw s hs.1 hs.2] at h1
      rw [ofFn_getD_self (hz.curve s ((hk0 k).trans hs.1)).2]
      exact h1
    have hX := hsol hx.motion hu
    have hY := hsol hy.motion hv
    have h5 := dist_le_of_trajectories_ODE (v := fun _ => fun z : Fin n → ℝ => fun i : Fin n =>
      (vadd (f (List.ofFn z)) (matVec (g (List.ofFn z)) w')).getD i 0) (fun _ => hK) hX.1 hX.2 hY.1 hY.2 le_rfl t ht
    rw [e1, dist_self, zero_mul] at h5
    have h6 := dist_le_zero.1 h5
    have ht0 := (hk0 k).trans ht.1
    rw [← ofFn_getD_self (hxl t ht0), ← ofFn_getD_self (hyl t ht0), h6]
  have all : ∀ k : ℕ, x (k * Δ) = y (k * Δ) ∧ st k = st' k := by
    intro k
    induction k with
    | zero => simpa using ⟨h0, hs⟩
    | succ k ih =>
      obtain ⟨h1, h2⟩ := step k ih.1 ih.2
      refine ⟨?_, h1⟩
      push_cast
      exact (h2 _ ⟨by linarith, le_rfl⟩).1
  refine ⟨fun t ht => ?_, fun k => (all k).2⟩
  have h1 := (le_div_iff₀ hΔ).1 (Nat.floor_le (div_nonneg ht hΔ.le))
  have h2 := (div_lt_iff₀ hΔ).1 (Nat.lt_floor_add_one (t / Δ))
  obtain ⟨h3, h4⟩ := (step ⌊t / Δ⌋₊ (all _).1 (all _).2).2 t ⟨h1, h2.le⟩
  exact ⟨h3, h4 h2⟩
end

/-- **C121 for sampled explicit ASIF modules**: if the module as given returns a control from `U` in every state, it has exactly one
motion in the sampled closed loop from every state, with any constraints and bounds. -/
theorem C121_sampled_asif {solver : Solver ℝ} {n : Nat} {f : List ℝ → List ℝ} {g : List ℝ → List (List ℝ)}
    {s : ASIFObj ℝ (List ℝ) P X} (hs : ExplicitModule solver f g s) (hen : s.enable = true) (des : List ℝ → List ℝ) {Δ : ℝ} (hΔ : 0 < Δ)
    (U : List ℝ → Prop) (hans : ∀ x, x.length = n → ∃ v, (explicitASIF solver f g s (.array x) Δ (des x)).1 = .ok v ∧ U v)
    (hlen : ∀ v, U v → ∀ x, x.length = n → (vadd (f x) (matVec (g x) v)).length = n)
    (hlip : ∀ v, U v → ∀ i < n, LipOn n fun x => (vadd (f x) (matVec (g x) v)).getD i 0) {x0 : List ℝ} (hx0 : x0.length = n) :
    ∃ x u st, SampledLoop (fun s x => explicitASIF solver f g s (.array x) Δ (des x)) Δ n f g x u st ∧ x 0 = x0 ∧ st 0 = s ∧
      (∀ t, 0 ≤ t → U (u t)) ∧
      ∀ y v st', SampledLoop (fun s x => explicitASIF solver f g s (.array x) Δ (des x)) Δ n f g y v st' → y 0 = x0 → st' 0 = s →
        ∀ t, 0 ≤ t → y t = x t ∧ v t = u t := by
  have hrun : ∀ ops, (runE solver f g s ops).enable = true → (runE solver f g s ops).constraints = s.constraints →
      (runE solver f g s ops).ext.direct = s.ext.direct → ∀ x : List ℝ,
      (explicitASIF solver f g (runE solver f g s ops) (.array x) Δ (des x)).1 = (explicitASIF solver f g s (.array x) Δ (des x)).1 :=
    fun ops h1 h2 h3 x => (C12_history_independent hs [] ops hen h1 h2 h3 (.array x) Δ (des x)).1
  have hcall : ∀ (t : ASIFObj ℝ (List ℝ) P X) (x : List ℝ), (∃ ops, t = runE solver f g s ops ∧ t.enable = true ∧
      t.constraints = s.constraints ∧ t.ext.direct = s.ext.direct) → x.length = n →
      ∃ v t', explicitASIF solver f g t (.array x) Δ (des x) = (.ok v, t') ∧ U v ∧ ∃ ops, t' = runE solver f g s ops ∧ t'.enable = true ∧
      t'.constraints = s.constraints ∧ t'.ext.direct = s.ext.direct := by
    rintro t x ⟨ops, rfl, h1, h2, h3⟩ hx
    obtain ⟨v, hv, hU⟩ := hans x hx
    have hm : ExplicitModule solver f g (runE solver f g s ops) := by
      obtain ⟨high, low, all, use, eps, n, exc, direct, extra, s0, ops0, e1, e2, e3, rfl⟩ := hs
      exact ⟨high, low, all, use, eps, n, exc, direct, extra, s0, ops0 ++ ops, e1, e2, e3, by rw [runE_append]⟩
    have hk := hm.kept (.array x) Δ (des x)
    refine ⟨v, _, Prod.ext ((hrun ops h1 h2 h3 x).trans hv) rfl, hU, ops ++ [.call (.array x) Δ (des x)], ?_, ?_, ?_, ?_⟩
    · rw [runE_append]; rfl
    · rw [hk.enable]; exact h1
    · rw [hk.constraints]; exact h2
    · rw [hk.direct]; exact h3
  obtain ⟨x, u, st, h, e1, e2⟩ := C121_sampled_exists (call := fun s x => explicitASIF solver f g s (.array x) Δ (des x)) hΔ
    (fun t => ∃ ops, t = runE solver f g s ops ∧ t.enable = true ∧ t.constraints = s.constraints ∧ t.ext.direct = s.ext.direct) U hcall hlen
    hlip (s0 := s) ⟨[], rfl, hen, rfl, rfl⟩ hx0
  have hst : ∀ k, ∃ ops, st k = runE solver f g s ops ∧ (st k).enable = true ∧ (st k).constraints = s.constraints ∧
      (st k).ext.direct = s.ext.direct := by
    intro k
    induction k with
    | zero => rw [e2]; exact ⟨[], rfl, hen, rfl, rfl⟩
    | succ k ih =>
      obtain ⟨v, hv, -⟩ := h.control k
      obtain ⟨v', t', hv', -, hI⟩ := hcall (st k) (x (k * Δ)) ih (h.motion.curve _ (mul_nonneg (Nat.cast_nonneg k) hΔ.le)).2
      rw [hv'] at hv
      simp only [Prod.mk.injEq] at hv
      rw [← hv.2]
      exact hI
  have hU : ∀ t, 0 ≤ t → U (u t) := by
    intro t ht
    have h1 := (le_div_iff₀ hΔ).1 (Nat.floor_le (div_nonneg ht hΔ.le))
    have h2 := (div_lt_iff₀ hΔ).1 (Nat.lt_floor_add_one (t / Δ))
    obtain ⟨v, hv, hu⟩ := h.control ⌊t / Δ⌋₊
    obtain ⟨v', t', hv', hU, -⟩ := hcall _ (x (⌊t / Δ⌋₊ * Δ)) (hst ⌊t / Δ⌋₊) (h.motion.curve _ (mul_nonneg (Nat.cast_nonneg _) hΔ.le)).2
    rw [hv'] at hv
    simp only [Prod.mk.injEq, Except.ok.injEq] at hv
    rw [hu t h1 h2, ← hv.1]
    exact hU
  refine ⟨x, u, st, h, e1, e2, hU, fun y v st' hy hy0 hst' t ht => ?_⟩
  have := (C121_sampled_unique hΔ h hy (fun t ht => hlip _ (hU t ht)) (by rw [e1, hy0]) (by rw [e2, hst'])).1 t ht
  exact ⟨this.1.symm, this.2.symm⟩

/-- **C121 for the 1-D docking module** without `solver_exception`: every sampled closed loop with it has exactly one motion from every
state, safe or not, for every desired control law. -/
theorem C121_sampled_docking {solver : Solver ℝ} (hspec : SolverSpec solver) (m epsilon : ℝ) (des : List ℝ → ℝ) {Δ : ℝ} (hΔ : 0 < Δ)
    (p0 v0 : ℝ) :
    ∃ x u st, SampledLoop (fun s x => explicitASIF solver pointF (pointG m) s (.array x) Δ [des x]) Δ 2 pointF (pointG m) x u st ∧
      x 0 = [p0, v0] ∧ st 0 = dockEOObj epsilon false ∧ (∀ t, 0 ≤ t → (u t).length = 1) ∧
      ∀ y v st', SampledLoop (fun s x => explicitASIF solver pointF (pointG m) s (.array x) Δ [des x]) Δ 2 pointF (pointG m) y v st' →
        y 0 = [p0, v0] → st' 0 = dockEOObj epsilon false → ∀ t, 0 ≤ t → y t = x t ∧ v t = u t := by
  refine C121_sampled_asif (dockEO_module solver m epsilon false) rfl (fun x => [des x]) hΔ (fun v => v.length = 1) (fun x _ => ?_)
    (fun v _ x _ => by simp [vadd, pointF, pointG, pointA, pointB, matVec]) (fun v hv i hi => ?_) rfl
  · by_cases hadm : ∃ w, Admissible pointF (pointG m) (dockEOObj epsilon false) x w
    · obtain ⟨w, hw⟩ := hadm
      obtain ⟨v, hv⟩ := C24_returns hspec (dockEO_module solver m epsilon false) (dockEO_pos epsilon false) rfl x (dockEO_shapes m epsilon false x)
        Δ [des x] rfl ⟨_, _, admissible_iff_zeros.1 hw⟩
      exact ⟨v, hv, (C24_closest_admissible hspec (dockEO_module solver m epsilon false) (dockEO_noslack epsilon false) rfl x Δ [des x] v
        (Prod.ext hv rfl) ⟨w, hw⟩).1.len⟩
    · have := C27_infeasible_policy hspec (dockEO_module solver m epsilon false) (dockEO_pos epsilon false) rfl x
        (dockEO_shapes m epsilon false x) Δ [des x] rfl (by
          rintro ⟨w, d, h⟩
          have hd : d = [] := List.length_eq_zero_iff.1 (by rw [h.slen, dockEO_noslack]; rfl)
          subst hd
          exact hadm ⟨w, admissible_iff_zeros.2 (by rw [dockEO_noslack]; exact h)⟩)
      refine ⟨_, this, rfl⟩
  · obtain ⟨w, rfl⟩ := List.length_eq_one_iff.1 hv
    have hid : LipOn 2 fun x => x.getD 1 0 := ⟨1, zero_le_one, fun x y _ _ r _ h => by rw [one_mul]; exact h 1 (by norm_num)⟩
    have key : ∀ x : List ℝ, x.length = 2 →
        vadd (pointF x) (matVec (pointG m x) [w]) = [x.getD 1 0, w / m] := fun x hx => by
      obtain ⟨a, b, rfl⟩ := List.length_eq_two.1 hx
      simp [vadd, pointF, pointG, pointA, pointB, matVec, dot]
      ring
    interval_cases i
    · exact hid.congr fun x hx => by rw [key x hx]; rfl
    · exact (LipOn.const 2 (w / m)).congr fun x hx => by rw [key x hx]; rfl

/-- **C121 for sampled explicit switching filters**: if the backup law produces a control in every state and of every controller state, and
the bounds accept it and the desired control, the sampled closed loop has a motion from every state. What the filter predicts, how it is
latched and whether the motion is safe do not matter. (It is the only one by `C121_sampled_unique`.) -/
theorem C121_sampled_simplex (pred : List ℝ → ℝ → List ℝ → List ℝ) {s0 : SimplexObj ℝ (List ℝ) P A} (hwf : WF s0) (hen : s0.enable = true)
    {n : Nat} {f : List ℝ → List ℝ} {g : List ℝ → List (List ℝ)} (des : List ℝ → List ℝ) {Δ : ℝ} (hΔ : 0 < Δ) (U : List ℝ → Prop)
    (hdes : ∀ x, x.length = n → ∃ v, s0.toBase.clipControl (des x) = .ok v ∧ U v)
    (hlaw : ∀ x z, x.length = n → ∃ ub z' cb, s0.ext.ctrl.gen x Δ z = some (ub, z') ∧ s0.toBase.clipControl ub = .ok cb ∧ U cb)
    (hlen : ∀ v, U v → ∀ x, x.length = n → (vadd (f x) (matVec (g x) v)).length = n)
    (hlip : ∀ v, U v → ∀ i < n, LipOn n fun x => (vadd (f x) (matVec (g x) v)).getD i 0) {x0 : List ℝ} (hx0 : x0.length = n) :
    ∃ x u st, SampledLoop (fun s x => explicitSimplex pred s (.array x) Δ (des x)) Δ n f g x u st ∧ x 0 = x0 ∧ st 0 = s0 := by
  refine C121_sampled_exists hΔ (fun s : SimplexObj ℝ (List ℝ) P A => WF s ∧ s.enable = true ∧ s.controlBoundsHigh = s0.controlBoundsHigh ∧
    s.controlBoundsLow = s0.controlBoundsLow ∧ s.ext.ctrl.gen = s0.ext.ctrl.gen) U ?_ hlen hlip ⟨hwf, hen, rfl, rfl, rfl⟩ hx0
  rintro s x ⟨hw, he, hhi, hlo, hgen⟩ hx
  have hclip : ∀ u, s.toBase.clipControl u = s0.toBase.clipControl u := by
    intro u; unfold Base.clipControl; rw [hhi, hlo]
  obtain ⟨ub, z', cb, hg, hc, hUb⟩ := hlaw x s.ext.ctrl.state hx
  obtain ⟨cu, hcu, hUu⟩ := hdes x hx
  obtain ⟨c, s', hcall⟩ := simplex_total (monFrame_explicit pred) (x := x) (dt := Δ) (u := des x) he (by
      intro _
      obtain ⟨b, hb, _⟩ := constraintViolation_fresh (cachesFresh_unlatch (cachesFresh_prep hw x (des x))) [pred x Δ (des x)]
      exact ⟨b, _, by unfold explicitMonitor; rw [hb]⟩)
    (by rw [hgen]; exact hg) (by rw [hclip]; exact hc) (by rw [hclip]; exact hcu)
  have hw' : WF s' := by
    have := (filterControlCB_frame frame_getStateDefault (frameFilter_simplex (monFrame_explicit pred)) s (.array x) Δ (des x)).2 hw
    rwa [hcall] at this
  obtain ⟨⟨he', hcs', hhi', hlo'⟩, hd⟩ := simplex_ok (monFrame_explicit pred) he hcall
  have hgen' : s'.ext.ctrl.gen = s.ext.ctrl.gen := by
    rcases hd with ⟨_, _, z, _, hext⟩ | ⟨_, b, sm, sv, _, _, ⟨_, z, _, hext⟩ | ⟨_, _, hext⟩⟩ <;> rw [hext]
  refine ⟨c, s', hcall, ?_, hw', he', hhi'.trans hhi, hlo'.trans hlo, hgen'.trans hgen⟩
  have hb : ∀ w z, s.ext.ctrl.gen x Δ s.ext.ctrl.state = some (w, z) → s.toBase.clipControl w = .ok c → U c := by
    intro w z hwz hcw
    rw [hgen, hg] at hwz
    simp only [Option.some.injEq, Prod.mk.injEq] at hwz
    rw [hclip, ← hwz.1, hc] at hcw
    simp only [Except.ok.injEq] at hcw
    rw [← hcw]
    exact hUb
  rcases hd with ⟨_, _, z, ⟨w, h1, h2⟩, _⟩ | ⟨_, b, sm, sv, _, _, ⟨_, z, ⟨w, h1, h2⟩, _⟩ | ⟨_, h2, _⟩⟩
  · exact hb w z h1 h2
  · exact hb w z h1 h2
  · rw [hclip, hcu] at h2
    simp only [Except.ok.injEq] at h2
    rw [← h2]
    exact hUu

/-- The 1-D docking switching filter, called every second. -/
example (pred : List ℝ → ℝ → List ℝ → List ℝ) (des : List ℝ → ℝ) :
    ∃ x u st, SampledLoop (fun s x => explicitSimplex pred s (.array x) 1 [des x]) 1 2 pointF (pointG 1) x u st ∧ x 0 = [-1, 1] ∧
      st 0 = (dockESObj 0 : SimplexObj ℝ (List ℝ) Unit Unit) := by
  refine C121_sampled_simplex pred ⟨by simp [dictKeys, dockESObj], by simp [dictKeys, dockESObj], by simp [dictKeys, dockESObj]⟩ rfl
    (fun x => [des x]) one_pos (fun v => v.length = 1) (fun x _ => ⟨_, rfl, rfl⟩) (fun x z _ => ⟨_, _, _, rfl, rfl, rfl⟩)
    (fun v _ x _ => by simp [vadd, pointF, pointG, pointA, pointB, matVec]) (fun v hv i hi => ?_) rfl
  obtain ⟨w, rfl⟩ := List.length_eq_one_iff.1 hv
  have key : ∀ x : List ℝ, x.length = 2 → vadd (pointF x) (matVec (pointG 1 x) [w]) = [x.getD 1 0, w] := fun x hx => by
    obtain ⟨a, b, rfl⟩ := List.length_eq_two.1 hx
    simp [vadd, pointF, pointG, pointA, pointB, matVec, dot]
  interval_cases i
  · have hid : LipOn 2 fun x => x.getD 1 0 := ⟨1, zero_le_one, fun x y _ _ r _ h => by rw [one_mul]; exact h 1 (by norm_num)⟩
    exact hid.congr fun x hx => by rw [key x hx]; rfl
  · exact (LipOn.const 2 w).congr fun x hx => by rw [key x hx]; rfl

end RTA
