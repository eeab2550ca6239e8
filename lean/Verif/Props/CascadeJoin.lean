import Verif.Spec.CascadeJoin
import Verif.Props.Cascade
import Verif.Props.Continuity

/-!
C114: cascading modules amounts to one module with all their constraints.

As stated this is false: with two control inputs a later stage can undo what an earlier one ensured, in either order, although a control
satisfying both exists (`C114_refuted`). It holds for modules with one control input (`C114_single_input_partial`), and whenever the
later stages leave alone what the earlier ones return (`C114_untouched_partial`).
-/
set_option linter.unusedSectionVars false
namespace RTA
variable {K S P X : Type}

section
variable [Field K] [LinearOrder K] [IsStrictOrderedRing K]

theorem joins_admissible {f : S → List K} {g : S → List (List K)} {c : ASIFObj K S P X} {ms : List (ASIFObj K S P X)} (h : Joins c ms)
    (x : S) (w : List K) : Admissible f g c x w ↔ ∀ m ∈ ms, Admissible f g m x w := by
  constructor
  · intro ha m hm
    refine ⟨by rw [h.dim m hm]; exact ha.len, by rw [h.low m hm, h.high m hm]; exact ha.bounds, fun kc hkc hen => ?_,
      fun kc hkc hen => ?_⟩
    · obtain ⟨k, hk⟩ := (h.constraints kc.2).2 ⟨m, hm, kc.1, hkc⟩
      exact ha.barrier (k, kc.2) hk hen
    · obtain ⟨k, hk⟩ := (h.direct kc.2).2 ⟨m, hm, kc.1, hkc⟩
      exact ha.direct (k, kc.2) hk hen
  · intro ha
    obtain ⟨m0, hm0⟩ := List.exists_mem_of_ne_nil _ h.some
    have h0 := ha m0 hm0
    refine ⟨by rw [← h.dim m0 hm0]; exact h0.len, by rw [← h.low m0 hm0, ← h.high m0 hm0]; exact h0.bounds, fun kc hkc hen => ?_,
      fun kc hkc hen => ?_⟩
    · obtain ⟨m, hm, k, hk⟩ := (h.constraints kc.2).1 ⟨kc.1, hkc⟩
      exact (ha m hm).barrier (k, kc.2) hk hen
    · obtain ⟨m, hm, k, hk⟩ := (h.direct kc.2).1 ⟨kc.1, hkc⟩
      exact (ha m hm).direct (k, kc.2) hk hen

/-- `v` lies between `u` and `w`. -/
def Between (u v w : K) : Prop := (u ≤ v ∧ v ≤ w) ∨ (w ≤ v ∧ v ≤ u)

theorem admissible_between {f : S → List K} {g : S → List (List K)} {m : ASIFObj K S P X} {x : S} {a b v : K}
    (ha : Admissible f g m x [a]) (hb : Admissible f g m x [b]) (h : Between a v b) : Admissible f g m x [v] := by
  by_cases hab : a = b
  · subst hab
    have : v = a := by rcases h with ⟨h1, h2⟩ | ⟨h1, h2⟩ <;> exact le_antisymm (by assumption) (by assumption)
    rw [this]; exact ha
  · have hne : b - a ≠ 0 := sub_ne_zero.2 (Ne.symm hab)
    have e : v = a + (v - a) / (b - a) * (b - a) := by rw [div_mul_cancel₀ _ hne]; ring
    have h0 : 0 ≤ (v - a) / (b - a) := by
      rcases h with ⟨h1, h2⟩ | ⟨h1, h2⟩
      · exact div_nonneg (by linarith) (by linarith)
      · exact div_nonneg_of_nonpos (by linarith) (by linarith)
    have h1 : (v - a) / (b - a) ≤ 1 := by
      rcases h with ⟨h1, h2⟩ | ⟨h1, h2⟩
      · exact div_le_one_of_le₀ (by linarith) (by linarith)
      · rw [← neg_div_neg_eq]
        exact div_le_one_of_le₀ (by linarith) (by linarith)
    have := admissibleS_mix h0 h1 (admissible_iff_zeros.1 ha) (admissible_iff_zeros.1 hb)
    have e2 : mix ((v - a) / (b - a)) [a] [b] = [v] := by simp [mix]; rw [← e]
    have e3 : ∀ n, mix ((v - a) / (b - a)) (zeros n : List K) (zeros n) = zeros n := by
      intro n
      induction n with
      | zero => rfl
      | succ n ih =>
        simp only [zeros, List.replicate_succ, mix, List.zipWith_cons_cons] at ih ⊢
        rw [ih]
        simp
    rw [e2, e3] at this
    exact admissible_iff_zeros.2 this

theorem between_of_closest {A : K → Prop} (hconv : ∀ a b v, A a → A b → Between a v b → A v) {u v w : K} (hv : A v) (hw : A w)
    (hmin : ∀ w, A w → w ≠ v → (v - u) ^ 2 < (w - u) ^ 2) : Between u v w := by
  by_contra hn
  unfold Between at hn
  push Not at hn
  obtain ⟨h1, h2⟩ := hn
  by_cases hu : A u
  · have : v = u := by
      by_contra hne
      have := hmin u hu (Ne.symm hne)
      nlinarith [sq_nonneg (v - u)]
    subst this
    rcases le_total v w with h | h
    · exact absurd (h1 le_rfl) (not_lt.2 h)
    · exact absurd (h2 h) (lt_irrefl _)
  · rcases le_total u v with h | h
    · have hwv := h1 h
      rcases le_total u w with h' | h'
      · have := hmin w hw hwv.ne
        nlinarith
      · exact hu (hconv w v u hw hv (.inl ⟨h', h⟩))
    · have hwv : v < w := by
        by_contra hc
        exact absurd (h2 (not_lt.1 hc)) (not_lt.2 h)
      rcases le_total w u with h' | h'
      · have := hmin w hw hwv.ne'
        nlinarith
      · exact hu (hconv v w u hv hw (.inl ⟨h, h'⟩))

variable [HasSqrt K] [LawfulSqrt K]

theorem stage_answer {solver : Solver K} (hspec : SolverSpec solver) {f : S → List K} {g : S → List (List K)} {m : ASIFObj K S P X}
    (hm : ExplicitModule solver f g m) (hns : slackScales m.constraints = []) (hen : m.enable = true) {x : S} (hsh : ShapesOK f g m x)
    (hdim : m.ext.controlDim = 1) (dt u : K) (hadm : ∃ w, Admissible f g m x w) :
    ∃ v, (explicitASIF solver f g m (.array x) dt [u]).1 = .ok [v] ∧ Admissible f g m x [v] ∧
      ∀ w, Admissible f g m x [w] → w ≠ v → (v - u) ^ 2 < (w - u) ^ 2 := by
  have hpos : ScalesPos m.constraints := by intro w hw; rw [hns] at hw; simp at hw
  obtain ⟨w0, hw0⟩ := hadm
  obtain ⟨v, hv⟩ := C24_returns hspec hm hpos hen x hsh dt [u] (by rw [hdim]; rfl) ⟨_, _, admissible_iff_zeros.1 hw0⟩
  obtain ⟨h1, h2⟩ := C24_closest_admissible hspec hm hns hen x dt [u] v (Prod.ext hv rfl) ⟨w0, hw0⟩
  obtain ⟨q, rfl⟩ := List.length_eq_one_iff.1 (h1.len.trans hdim)
  refine ⟨q, hv, h1, fun w hw hne => ?_⟩
  have := h2 [w] hw (by simpa using hne)
  simpa [sqDist, sqNorm, vsub, dot, sq] using this

theorem loop_single {solver : Solver K} (hspec : SolverSpec solver) {f : S → List K} {g : S → List (List K)} {x : S} (dt : K)
    (ms : List (ASIFObj K S P X))
    (hms : ∀ m ∈ ms, ExplicitModule solver f g m ∧ slackScales m.constraints = [] ∧ m.enable = true ∧ ShapesOK f g m x ∧
      m.ext.controlDim = 1) (hadm : ∃ w, ∀ m ∈ ms, Admissible f g m x [w]) (flag : Bool) (u : K) :
    ∃ v, (cascadeLoop (explicitASIF solver f g) (.array x) dt ms flag [u]).1 = .ok [v] ∧ (∀ m ∈ ms, Admissible f g m x [v]) ∧
      ∀ w, (∀ m ∈ ms, Admissible f g m x [w]) → Between u v w := by
  induction ms generalizing flag u with
  | nil => exact ⟨u, rfl, by simp, fun w _ => by rcases le_total u w with h | h; exacts [.inl ⟨le_rfl, h⟩, .inr ⟨h, le_rfl⟩]⟩
  | cons m ms ih =>
    obtain ⟨w0, hw0⟩ := hadm
    obtain ⟨h1, h2, h3, h4, h5⟩ := hms m (by simp)
    obtain ⟨v1, hv1, ha1, hmin⟩ := stage_answer hspec h1 h2 h3 h4 h5 dt u ⟨_, hw0 m (by simp)⟩
    have hb1 : ∀ w, Admissible f g m x [w] → Between u v1 w := fun w hw =>
      between_of_closest (A := fun q => Admissible f g m x [q]) (fun a b v ha hb h => admissible_between ha hb h) ha1 hw hmin
    rcases hc : explicitASIF solver f g m (.array x) dt [u] with ⟨r, m'⟩
    rw [hc] at hv1
    simp only at hv1
    subst hv1
    simp only [cascadeLoop, hc]
    obtain ⟨v, hv, hav, hbv⟩ := ih (fun m hm => hms m (List.mem_cons_of_mem _ hm))
      ⟨w0, fun m hm => hw0 m (List.mem_cons_of_mem _ hm)⟩ (if (HasBase.get m' : Base K).intervening then true else flag) v1
    have hbw : ∀ w, (∀ m' ∈ m :: ms, Admissible f g m' x [w]) → Between u v w := by
      intro w hw
      have a1 := hb1 w (hw m (by simp))
      have a2 := hbv w fun m hm => hw m (List.mem_cons_of_mem _ hm)
      unfold Between at *
      rcases a1 with ⟨p, q⟩ | ⟨p, q⟩ <;> rcases a2 with ⟨p', q'⟩ | ⟨p', q'⟩
      · exact .inl ⟨p.trans p', q'⟩
      · exact .inl ⟨p.trans (q.trans p'), (q'.trans q)⟩
      · exact .inr ⟨p.trans p', (q'.trans p).trans q⟩
      · exact .inr ⟨p', q'.trans q⟩
    refine ⟨v, hv, ?_, hbw⟩
    intro m'' hm''
    rcases List.mem_cons.1 hm'' with rfl | h
    · exact admissible_between ha1 (hw0 _ (by simp)) (hbv w0 fun m hm => hw0 m (List.mem_cons_of_mem _ hm))
    · exact hav _ h

/-- **C114, one control input.** A cascade of explicit modules without slack that control one input answers, in every state where some
control satisfies the conditions of all stages, exactly what one module with all their constraints answers, in whatever order the stages
are listed. -/
theorem C114_single_input_partial {solver : Solver K} (hspec : SolverSpec solver) {f : S → List K} {g : S → List (List K)}
    {s : CascadeObj K (ASIFObj K S P X)} {c : ASIFObj K S P X} (hs : s.enable = true) (hl : s.controlBoundsLow = none)
    (hh : s.controlBoundsHigh = none) (hj : Joins c s.rtaList) {x : S}
    (hms : ∀ m ∈ s.rtaList, ExplicitModule solver f g m ∧ slackScales m.constraints = [] ∧ m.enable = true ∧ ShapesOK f g m x)
    (hc : ExplicitModule solver f g c) (hcn : slackScales c.constraints = []) (hce : c.enable = true) (hsh : ShapesOK f g c x)
    (hdim : c.ext.controlDim = 1) (hadm : ∃ w, Admissible f g c x w) (dt u : K) :
    ∃ v, (cascadeFilter (explicitASIF solver f g) s (.array x) dt [u]).1 = .ok [v] ∧
      (explicitASIF solver f g c (.array x) dt [u]).1 = .ok [v] ∧ Admissible f g c x [v] := by
  obtain ⟨w0, hw0⟩ := hadm
  obtain ⟨q0, rfl⟩ := List.length_eq_one_iff.1 (hw0.len.trans hdim)
  obtain ⟨v, hv, hav, hbv⟩ := loop_single hspec dt s.rtaList
    (fun m hm => ⟨(hms m hm).1, (hms m hm).2.1, (hms m hm).2.2.1, (hms m hm).2.2.2, (hj.dim m hm).trans hdim⟩)
    ⟨q0, (joins_admissible hj x _).1 hw0⟩ false u
  obtain ⟨v', hv', hav', hmin⟩ := stage_answer hspec hc hcn hce hsh hdim dt u ⟨_, hw0⟩
  have hvc := (joins_admissible hj x [v]).2 hav
  have hb := hbv v' ((joins_admissible hj x _).1 hav')
  have heq : v = v' := by
    by_contra hne
    have := hmin v hvc hne
    rcases hb with ⟨h1, h2⟩ | ⟨h1, h2⟩ <;> nlinarith
  subst heq
  refine ⟨v, ?_, hv', hvc⟩
  unfold cascadeFilter filterControl cascadeCompute
  simp only [modifyBase, HasBase.get, HasBase.set, hs, if_true]
  rcases hr : cascadeLoop (explicitASIF solver f g) (.array x) dt s.rtaList false [u] with ⟨r, fl, ms'⟩
  rw [hr] at hv
  simp only at hv
  subst hv
  simp [Base.clipControl, hl, hh]

/-- **C114, stages that do not object.** With any number of inputs: if what the first stage returns satisfies the conditions of the others,
the cascade returns it, and so does the one module with all constraints. -/
theorem C114_untouched_partial {solver : Solver K} (hspec : SolverSpec solver) {f : S → List K} {g : S → List (List K)}
    {s : CascadeObj K (ASIFObj K S P X)} {c m0 : ASIFObj K S P X} {rest : List (ASIFObj K S P X)} (hs : s.enable = true)
    (hl : s.controlBoundsLow = none) (hh : s.controlBoundsHigh = none) (hst : s.rtaList = m0 :: rest) (hj : Joins c s.rtaList) {x : S}
    (hms : ∀ m ∈ s.rtaList, ExplicitModule solver f g m ∧ slackScales m.constraints = [] ∧ m.enable = true ∧ ShapesOK f g m x ∧
      0 ≤ m.ext.epsilon)
    (hc : ExplicitModule solver f g c) (hcn : slackScales c.constraints = []) (hce : c.enable = true) (hsh : ShapesOK f g c x) (dt : K)
    {u v : List K} (hadm0 : ∃ w, Admissible f g m0 x w) (h0 : (explicitASIF solver f g m0 (.array x) dt u).1 = .ok v)
    (hrest : ∀ m ∈ rest, Admissible f g m x v) :
    (cascadeFilter (explicitASIF solver f g) s (.array x) dt u).1 = .ok v ∧
      (explicitASIF solver f g c (.array x) dt u).1 = .ok v ∧ Admissible f g c x v := by
  obtain ⟨k1, k2, k3, k4, -⟩ := hms m0 (by rw [hst]; simp)
  obtain ⟨hv, hmin⟩ := C24_closest_admissible hspec k1 k2 k3 x dt u v (Prod.ext h0 rfl) hadm0
  have hpos : ∀ {m : ASIFObj K S P X}, slackScales m.constraints = [] → ScalesPos m.constraints := fun h w hw => by
    rw [h] at hw; simp at hw
  have hu : u.length = m0.ext.controlDim := by
    obtain ⟨w0, hw0⟩ := hadm0
    exact (explicit_solved hspec k1.inv.1 k1.inv.2 (hpos k2) k3
      (show explicitASIF solver f g m0 (.array x) dt u = (.ok v, (explicitASIF solver f g m0 (.array x) dt u).2) from Prod.ext h0 rfl)
      ⟨_, _, admissible_iff_zeros.1 hw0⟩).1
  have hvc : Admissible f g c x v := (joins_admissible hj x v).2 (by
    rw [hst]
    intro m hm
    rcases List.mem_cons.1 hm with rfl | h
    · exact hv
    · exact hrest m h)
  refine ⟨?_, ?_, hvc⟩
  · have hloop : ∀ (ms : List (ASIFObj K S P X)), (∀ m ∈ ms, ExplicitModule solver f g m ∧ slackScales m.constraints = [] ∧
        m.enable = true ∧ ShapesOK f g m x ∧ 0 ≤ m.ext.epsilon) → (∀ m ∈ ms, Admissible f g m x v) → ∀ flag,
        (cascadeLoop (explicitASIF solver f g) (.array x) dt ms flag v).1 = .ok v := by
      intro ms
      induction ms with
      | nil => intros; rfl
      | cons m ms ih =>
        intro h1 h2 flag
        obtain ⟨a1, a2, a3, a4, a5⟩ := h1 m (by simp)
        have := (C25_no_interference hspec a1 (hpos a2) a5 a3 x a4 dt v (h2 m (by simp))).1
        rcases hcall : explicitASIF solver f g m (.array x) dt v with ⟨r, m'⟩
        rw [hcall] at this
        simp only at this
        subst this
        simp only [cascadeLoop, hcall]
        exact ih (fun m hm => h1 m (List.mem_cons_of_mem _ hm)) (fun m hm => h2 m (List.mem_cons_of_mem _ hm)) _
    have hl1 : (cascadeLoop (explicitASIF solver f g) (.array x) dt s.rtaList false u).1 = .ok v := by
      rw [hst]
      rcases hcall : explicitASIF solver f g m0 (.array x) dt u with ⟨r, m'⟩
      rw [hcall] at h0
      simp only at h0
      subst h0
      simp only [cascadeLoop, hcall]
      exact hloop rest (fun m hm => hms m (by rw [hst]; exact List.mem_cons_of_mem _ hm)) hrest _
    unfold cascadeFilter filterControl cascadeCompute
    simp only [modifyBase, HasBase.get, HasBase.set, hs, if_true]
    rcases hr : cascadeLoop (explicitASIF solver f g) (.array x) dt s.rtaList false u with ⟨r, fl, ms'⟩
    rw [hr] at hl1
    simp only at hl1
    subst hl1
    simp [Base.clipControl, hl, hh]
  · obtain ⟨v', hv'⟩ := C24_returns hspec hc (hpos hcn) hce x hsh dt u (hu.trans (hj.dim m0 (by rw [hst]; simp)))
      ⟨_, _, admissible_iff_zeros.1 hvc⟩
    obtain ⟨b1, b2⟩ := C24_closest_admissible hspec hc hcn hce x dt u v' (Prod.ext hv' rfl) ⟨v, hvc⟩
    rw [hv']
    by_cases he : v' = v
    · rw [he]
    · have l1 := hmin v' ((joins_admissible hj x v').1 b1 m0 (by rw [hst]; simp)) he
      have l2 := b2 v hvc (Ne.symm he)
      exact absurd (l1.trans l2) (lt_irrefl _)

end

/-! ### Concrete modules: two inputs, `dx/dt = u` in the plane, no bounds -/

noncomputable def planeF : ℝ × ℝ → List ℝ := fun _ => [0, 0]
noncomputable def planeG : ℝ × ℝ → List (List ℝ) := fun _ => [[1, 0], [0, 1]]

/-- `a x + b y ≥ 0`, strengthener `y ↦ y`. -/
noncomputable def planeC (a b : ℝ) : Constraint ℝ (ℝ × ℝ) Unit :=
  { computeFn := fun x _ => a * x.1 + b * x.2, phiFn := fun x _ => a * x.1 + b * x.2, gradFn := fun _ _ => [a, b], alpha := some id
    alphaNeg := some id, bias := 0, biasNegative := 0, slackPriorityScale := none, params := (), enabled := true, subsample := {} }

noncomputable def planeObj (cs : Dict (Constraint ℝ (ℝ × ℝ) Unit)) : ASIFObj ℝ (ℝ × ℝ) Unit Unit :=
  { toBase := Base.init none none
    constraints := cs, params := cs.foldl (fun d kc => dictSet d kc.1 kc.2.params) []
    constraintEnabled := cs.foldl (fun d kc => dictSet d kc.1 kc.2.enabled) [], constraintValues := []
    isStaleConstraints := false
    ext := { epsilon := 1 / 10000, controlDim := 2, solverException := true, numSlack := (slackWeights cs).length
             objWeight := [1, 1] ++ slackWeights cs, constraintNames := [] ++ (dictKeys cs ++ [])
             actuation := [], direct := [], directParams := [], directEnabled := [], causing := none, extra := () } }

theorem plane_init (cs : Dict (Constraint ℝ (ℝ × ℝ) Unit)) :
    asifInit none none cs none (1 / 10000) 2 true [] () = .ok (planeObj cs) := rfl

theorem plane_module (solver : Solver ℝ) {cs : Dict (Constraint ℝ (ℝ × ℝ) Unit)} (hcs : (dictKeys cs).Nodup) :
    ExplicitModule solver planeF planeG (planeObj cs) :=
  ⟨_, _, _, _, _, _, _, _, _, _, [], hcs, by simp [dictKeys], plane_init cs, rfl⟩

/-- Every constraint is one of those above. -/
def PlaneOnly (cs : Dict (Constraint ℝ (ℝ × ℝ) Unit)) : Prop := ∀ kc ∈ cs, ∃ a b, kc.2 = planeC a b

theorem plane_shapes {cs : Dict (Constraint ℝ (ℝ × ℝ) Unit)} (hcs : PlaneOnly cs) (x : ℝ × ℝ) : ShapesOK planeF planeG (planeObj cs) x := by
  refine ⟨fun kc hkc => ?_, fun kc hkc => ?_, rfl, by simp [planeG, planeObj], by simp [planeObj]⟩
  · obtain ⟨a, b, e⟩ := hcs kc hkc; rw [e]; rfl
  · obtain ⟨a, b, e⟩ := hcs kc hkc; rw [e]; rfl

theorem plane_noslack {cs : Dict (Constraint ℝ (ℝ × ℝ) Unit)} (hcs : PlaneOnly cs) : slackScales (planeObj cs).constraints = [] :=
  scales_nil_of_noslack fun kc hkc => by obtain ⟨a, b, e⟩ := hcs kc hkc; rw [e]; rfl

/-- Admissible controls in the origin. -/
theorem plane_admissible {cs : Dict (Constraint ℝ (ℝ × ℝ) Unit)} (hcs : PlaneOnly cs) (w : List ℝ) :
    Admissible planeF planeG (planeObj cs) (0, 0) w ↔
      ∃ p q, w = [p, q] ∧ ∀ kc ∈ cs, ∀ a b, kc.2 = planeC a b → 0 ≤ a * p + b * q := by
  have hb : ∀ a b p q : ℝ, BarrierOK planeF planeG (planeC a b) (0, 0) [p, q] 0 ↔ 0 ≤ a * p + b * q := by
    intro a b p q
    have e : barrierValue planeF planeG (planeC a b) (0, 0) [p, q] = some (a * p + b * q) := by
      simp [barrierValue, strengthening, planeC, planeF, planeG, matVec, vadd, dot]
    unfold BarrierOK
    rw [e]
    simp
  constructor
  · intro h
    obtain ⟨p, q, rfl⟩ := List.length_eq_two.1 h.len
    refine ⟨p, q, rfl, fun kc hkc a b e => ?_⟩
    have := h.barrier kc hkc (by rw [e]; rfl)
    rw [e] at this
    exact (hb a b p q).1 this
  · rintro ⟨p, q, rfl, h⟩
    refine ⟨rfl, fun _ _ _ => ⟨fun _ h => by simp [planeObj, Base.init, boundAt] at h, fun _ h => by simp [planeObj, Base.init, boundAt] at h⟩,
      fun kc hkc _ => ?_, by simp [planeObj]⟩
    obtain ⟨a, b, e⟩ := hcs kc hkc
    rw [e]
    exact (hb a b p q).2 (h kc hkc a b e)

theorem plane_answer {solver : Solver ℝ} (hspec : SolverSpec solver) {cs : Dict (Constraint ℝ (ℝ × ℝ) Unit)} (hk : (dictKeys cs).Nodup)
    (hcs : PlaneOnly cs) (dt r1 r2 p q : ℝ) (hadm : Admissible planeF planeG (planeObj cs) (0, 0) [p, q])
    (hmin : ∀ p' q', Admissible planeF planeG (planeObj cs) (0, 0) [p', q'] →
      (p - r1) ^ 2 + (q - r2) ^ 2 ≤ (p' - r1) ^ 2 + (q' - r2) ^ 2) :
    (explicitASIF solver planeF planeG (planeObj cs) (.array (0, 0)) dt [r1, r2]).1 = .ok [p, q] := by
  have hsq : ∀ a b c d : ℝ, sqDist [a, b] [c, d] = (a - c) ^ 2 + (b - d) ^ 2 := fun a b c d => by
    simp [sqDist, sqNorm, vsub, dot]; ring
  refine answer_of_closest hspec (plane_module solver hk) (plane_noslack hcs) rfl (plane_shapes hcs _) dt rfl hadm ?_
  intro v hv
  obtain ⟨p', q', rfl, -⟩ := (plane_admissible hcs v).1 hv
  rw [hsq, hsq]
  exact hmin p' q' hv

noncomputable def stageA : ASIFObj ℝ (ℝ × ℝ) Unit Unit := planeObj [("a", planeC 1 0)]
noncomputable def stageB : ASIFObj ℝ (ℝ × ℝ) Unit Unit := planeObj [("b", planeC (-1) (-1))]
noncomputable def stageAB : ASIFObj ℝ (ℝ × ℝ) Unit Unit := planeObj [("a", planeC 1 0), ("b", planeC (-1) (-1))]

theorem planeC_inj {a b c d : ℝ} (h : planeC a b = planeC c d) : a = c ∧ b = d := by
  have := congrArg (fun k : Constraint ℝ (ℝ × ℝ) Unit => k.gradFn (0, 0) ()) h
  simpa [planeC] using this

theorem only_A : PlaneOnly [("a", planeC 1 0)] := by intro kc h; simp only [List.mem_singleton] at h; subst h; exact ⟨_, _, rfl⟩
theorem only_B : PlaneOnly [("b", planeC (-1) (-1))] := by intro kc h; simp only [List.mem_singleton] at h; subst h; exact ⟨_, _, rfl⟩
theorem only_AB : PlaneOnly [("a", planeC 1 0), ("b", planeC (-1) (-1))] := by
  intro kc h
  simp only [List.mem_cons, List.not_mem_nil, or_false] at h
  rcases h with rfl | rfl <;> exact ⟨_, _, rfl⟩

theorem adm_A (p q : ℝ) : Admissible planeF planeG stageA (0, 0) [p, q] ↔ 0 ≤ p := by
  rw [stageA, plane_admissible only_A]
  constructor
  · rintro ⟨p', q', e, h⟩
    have := h ("a", planeC 1 0) (by simp) 1 0 rfl
    simp only [List.cons.injEq, and_true] at e
    obtain ⟨rfl, rfl⟩ := e
    linarith
  · intro h
    refine ⟨p, q, rfl, fun kc hkc a b e => ?_⟩
    simp only [List.mem_singleton] at hkc
    subst hkc
    obtain ⟨rfl, rfl⟩ := planeC_inj e
    linarith

theorem adm_B (p q : ℝ) : Admissible planeF planeG stageB (0, 0) [p, q] ↔ p + q ≤ 0 := by
  rw [stageB, plane_admissible only_B]
  constructor
  · rintro ⟨p', q', e, h⟩
    have := h ("b", planeC (-1) (-1)) (by simp) (-1) (-1) rfl
    simp only [List.cons.injEq, and_true] at e
    obtain ⟨rfl, rfl⟩ := e
    linarith
  · intro h
    refine ⟨p, q, rfl, fun kc hkc a b e => ?_⟩
    simp only [List.mem_singleton] at hkc
    subst hkc
    obtain ⟨rfl, rfl⟩ := planeC_inj e
    linarith

theorem joins_AB : Joins stageAB [stageA, stageB] := by
  refine ⟨by simp, ?_, ?_, ?_, ?_, ?_⟩
  · intro m hm; simp only [List.mem_cons, List.not_mem_nil, or_false] at hm; rcases hm with rfl | rfl <;> rfl
  · intro m hm; simp only [List.mem_cons, List.not_mem_nil, or_false] at hm; rcases hm with rfl | rfl <;> rfl
  · intro m hm; simp only [List.mem_cons, List.not_mem_nil, or_false] at hm; rcases hm with rfl | rfl <;> rfl
  · intro d
    simp [stageAB, stageA, stageB, planeObj, exists_or]
  · intro d
    simp [stageAB, stageA, stageB, planeObj]

/-- The cascade of two such modules feeds the answer of the first to the second. -/
theorem plane_cascade {solver : Solver ℝ} {m1 m2 : ASIFObj ℝ (ℝ × ℝ) Unit Unit} {x : ℝ × ℝ} {dt : ℝ} {u v w : List ℝ}
    (h1 : (explicitASIF solver planeF planeG m1 (.array x) dt u).1 = .ok v)
    (h2 : (explicitASIF solver planeF planeG m2 (.array x) dt v).1 = .ok w) :
    (cascadeFilter (explicitASIF solver planeF planeG) (cascadeInit none none [m1, m2]) (.array x) dt u).1 = .ok w := by
  rcases e1 : explicitASIF solver planeF planeG m1 (.array x) dt u with ⟨r1, m1'⟩
  rcases e2 : explicitASIF solver planeF planeG m2 (.array x) dt v with ⟨r2, m2'⟩
  rw [e1] at h1
  rw [e2] at h2
  simp only at h1 h2
  subst h1 h2
  simp [cascadeFilter, filterControl, cascadeCompute, cascadeInit, Base.init, modifyBase, HasBase.get, HasBase.set, cascadeLoop, e1, e2,
    Base.clipControl]

/-- **C114 is violated by cascades with two inputs.** `dx/dt = u` in the plane, constraints `x ≥ 0` and `x + y ≤ 0`, state the origin,
desired control `(-1, 1)`. One module with both constraints answers `(0, 0)`. The cascade with `x ≥ 0` first answers `(-1/2, 1/2)`, which
leads out of `x ≥ 0`, the cascade with `x + y ≤ 0` first answers `(0, 1)`, which leads out of `x + y ≤ 0`; no stage raises although each has
`solver_exception` set. -/
theorem C114_refuted (solver : Solver ℝ) (hspec : SolverSpec solver) (dt : ℝ) :
    Joins stageAB [stageA, stageB] ∧
    (explicitASIF solver planeF planeG stageAB (.array (0, 0)) dt [-1, 1]).1 = .ok [0, 0] ∧
    (cascadeFilter (explicitASIF solver planeF planeG) (cascadeInit none none [stageA, stageB]) (.array (0, 0)) dt [-1, 1]).1 =
      .ok [-(1 / 2), 1 / 2] ∧ ¬ Admissible planeF planeG stageA (0, 0) [-(1 / 2), 1 / 2] ∧
    (cascadeFilter (explicitASIF solver planeF planeG) (cascadeInit none none [stageB, stageA]) (.array (0, 0)) dt [-1, 1]).1 =
      .ok [0, 1] ∧ ¬ Admissible planeF planeG stageB (0, 0) [0, 1] := by
  have hA := fun r1 r2 p q h1 h2 => plane_answer hspec (cs := [("a", planeC 1 0)]) (by simp [dictKeys]) only_A dt r1 r2 p q h1 h2
  have hB := fun r1 r2 p q h1 h2 => plane_answer hspec (cs := [("b", planeC (-1) (-1))]) (by simp [dictKeys]) only_B dt r1 r2 p q h1 h2
  refine ⟨joins_AB, ?_, plane_cascade (v := [0, 1]) ?_ ?_, ?_, plane_cascade (v := [-1, 1]) ?_ ?_, ?_⟩
  · have hiff : ∀ p q : ℝ, Admissible planeF planeG stageAB (0, 0) [p, q] ↔ 0 ≤ p ∧ p + q ≤ 0 := by
      intro p q
      rw [joins_admissible joins_AB]
      simp [adm_A, adm_B]
    refine plane_answer hspec (by simp [dictKeys]) only_AB dt _ _ 0 0 ((hiff 0 0).2 (by norm_num)) fun p q h => ?_
    obtain ⟨h1, h2⟩ := (hiff p q).1 h
    nlinarith [sq_nonneg (p + q), sq_nonneg (p - q)]
  · refine hA _ _ _ _ ((adm_A _ _).2 le_rfl) fun p q h => ?_
    have := (adm_A p q).1 h
    nlinarith [sq_nonneg (q - 1)]
  · refine hB _ _ _ _ ((adm_B _ _).2 (by norm_num)) fun p q h => ?_
    have := (adm_B p q).1 h
    nlinarith [sq_nonneg (p - q + 1), sq_nonneg (p + q)]
  · rw [adm_A]; norm_num
  · refine hB _ _ _ _ ((adm_B _ _).2 (by norm_num)) fun p q h => ?_
    nlinarith [sq_nonneg (q - 1), sq_nonneg (p + 1)]
  · refine hA _ _ _ _ ((adm_A _ _).2 le_rfl) fun p q h => ?_
    have := (adm_A p q).1 h
    nlinarith [sq_nonneg (q - 1)]
  · rw [adm_B]; norm_num

/-- The hypotheses of `C114_untouched_partial` are met there by the desired control `(-1, -1)`, answered by `(0, -1)`. -/
example (solver : Solver ℝ) (hspec : SolverSpec solver) (dt : ℝ) :
    (cascadeFilter (explicitASIF solver planeF planeG) (cascadeInit none none [stageA, stageB]) (.array (0, 0)) dt [-1, -1]).1 = .ok [0, -1] ∧
    (explicitASIF solver planeF planeG stageAB (.array (0, 0)) dt [-1, -1]).1 = .ok [0, -1] ∧
      Admissible planeF planeG stageAB (0, 0) [0, -1] := by
  refine C114_untouched_partial hspec (m0 := stageA) (rest := [stageB]) rfl rfl rfl rfl joins_AB ?_
    (plane_module solver (by simp [dictKeys])) (plane_noslack only_AB) rfl (plane_shapes only_AB _) dt
    ⟨[0, 0], (adm_A 0 0).2 le_rfl⟩ ?_ ?_
  · intro m hm
    have hm : m = stageA ∨ m = stageB := by simpa [cascadeInit] using hm
    rcases hm with rfl | rfl
    · exact ⟨plane_module solver (by simp [dictKeys]), plane_noslack only_A, rfl, plane_shapes only_A _, by norm_num [stageA, planeObj]⟩
    · exact ⟨plane_module solver (by simp [dictKeys]), plane_noslack only_B, rfl, plane_shapes only_B _, by norm_num [stageB, planeObj]⟩
  · refine plane_answer hspec (by simp [dictKeys]) only_A dt _ _ _ _ ((adm_A _ _).2 le_rfl) fun p q h => ?_
    have := (adm_A p q).1 h
    nlinarith [sq_nonneg (q + 1)]
  · intro m hm
    simp only [List.mem_singleton] at hm
    subst hm
    exact (adm_B 0 (-1)).2 (by norm_num)

/-- The hypotheses of `C114_single_input_partial` are met by two modules for `x ≥ 1` and `x ≤ 3` at `x = 2`. -/
example (solver : Solver ℝ) (hspec : SolverSpec solver) (dt u : ℝ) :
    ∃ v, (cascadeFilter (explicitASIF solver toyF toyG)
        (cascadeInit none none [oObj [("a", oC 1 (-1) none)] true, oObj [("b", oC (-1) 3 none)] true]) (.array 2) dt [u]).1 = .ok [v] ∧
      (explicitASIF solver toyF toyG (oObj [("a", oC 1 (-1) none), ("b", oC (-1) 3 none)] true) (.array 2) dt [u]).1 = .ok [v] ∧
      Admissible toyF toyG (oObj [("a", oC 1 (-1) none), ("b", oC (-1) 3 none)] true) 2 [v] := by
  have o1 : ∀ kc ∈ [("a", oC 1 (-1) none)], ∃ a b w, kc.2 = oC a b w := by
    intro kc h; simp only [List.mem_singleton] at h; subst h; exact ⟨_, _, _, rfl⟩
  have o2 : ∀ kc ∈ [("b", oC (-1) 3 none)], ∃ a b w, kc.2 = oC a b w := by
    intro kc h; simp only [List.mem_singleton] at h; subst h; exact ⟨_, _, _, rfl⟩
  have o3 : ∀ kc ∈ [("a", oC 1 (-1) none), ("b", oC (-1) 3 none)], ∃ a b w, kc.2 = oC a b w := by
    intro kc h
    simp only [List.mem_cons, List.not_mem_nil, or_false] at h
    rcases h with rfl | rfl <;> exact ⟨_, _, _, rfl⟩
  refine C114_single_input_partial hspec rfl rfl rfl ⟨by simp [cascadeInit], ?_, ?_, ?_, ?_, ?_⟩ ?_
    (o_module solver (by simp [dictKeys]) true) (by simp [oObj, slackScales, oC]) rfl (o_shapes o3 true 2) rfl
    ⟨[0], rfl, o_within _ _ _, ?_, by simp [oObj]⟩ dt u
  · intro m hm; simp only [cascadeInit, List.mem_cons, List.not_mem_nil, or_false] at hm; rcases hm with rfl | rfl <;> rfl
  · intro m hm; simp only [cascadeInit, List.mem_cons, List.not_mem_nil, or_false] at hm; rcases hm with rfl | rfl <;> rfl
  · intro m hm; simp only [cascadeInit, List.mem_cons, List.not_mem_nil, or_false] at hm; rcases hm with rfl | rfl <;> rfl
  · intro d; simp [cascadeInit, oObj, exists_or]
  · intro d; simp [cascadeInit, oObj]
  · intro m hm
    simp only [cascadeInit, List.mem_cons, List.not_mem_nil, or_false] at hm
    rcases hm with rfl | rfl
    · exact ⟨o_module solver (by simp [dictKeys]) true, by simp [oObj, slackScales, oC], rfl, o_shapes o1 true 2⟩
    · exact ⟨o_module solver (by simp [dictKeys]) true, by simp [oObj, slackScales, oC], rfl, o_shapes o2 true 2⟩
  · intro kc hkc _
    simp only [oObj, List.mem_cons, List.not_mem_nil, or_false] at hkc
    rcases hkc with rfl | rfl
    · exact (o_barrier _ _ _ _ _ _).2 (by norm_num)
    · exact (o_barrier _ _ _ _ _ _).2 (by norm_num)

end RTA
