import Verif.Props.Symmetry
import Verif.Lemmas.ASIFConvex

/-!
C108: units of measurement.
-/
set_option linter.unusedSectionVars false
namespace RTA
variable {K S P X S' P' X' : Type}

section
variable [Field K] [LinearOrder K] [IsStrictOrderedRing K]

theorem RescaledLinear.barrier {k a : K} (hk : 0 < k) {m : Nat} {J : List K → List K} {f : S → List K} {g : S → List (List K)} {x : S}
    {f' : S' → List K} {g' : S' → List (List K)} {y : S'} {c : Constraint K S P} {c' : Constraint K S' P'}
    (h : RescaledLinear k a m J c x c' y) {w : List K} (hf : f' y = J (f x)) (hg : matVec (g' y) w = J (matVec (g x) w))
    (hadd : J (vadd (f x) (matVec (g x) w)) = vadd (J (f x)) (J (matVec (g x) w))) (hl : (vadd (f x) (matVec (g x) w)).length = m) :
    BarrierOK f' g' c' y w 0 ↔ BarrierOK f g c x w 0 := by
  have hst : strengthening c' (polyAlpha [0, a]) (k * (c.computeFn x c.params + c.bias)) =
      k * strengthening c (polyAlpha [0, a]) (c.computeFn x c.params + c.bias) := by
    have hp : ∀ v : K, polyAlpha [0, a] v = a * v := fun v => by simp [polyAlpha, polyLoop]
    generalize c.computeFn x c.params + c.bias = v
    unfold strengthening
    rw [h.alphaNeg, h.alphaNeg', h.biasNegative]
    simp only [hp, mul_nonneg_iff_of_pos_left hk]
    split <;> ring
  unfold BarrierOK barrierValue
  rw [h.alpha, h.alpha', hf, hg, ← hadd, h.grad _ hl, h.value]
  simp only [Option.map_some, Option.some.injEq, exists_eq_left', hst, ← mul_add]
  exact mul_nonneg_iff_of_pos_left hk

variable [HasSqrt K] [LawfulSqrt K]

/-- Explicit modules without slack that allow the same controls give the same answers. -/
theorem same_admissible_same_answer {solver solver' : Solver K} (hspec : SolverSpec solver) (hspec' : SolverSpec solver') {f : S → List K}
    {g : S → List (List K)} {s : ASIFObj K S P X} {x : S} {f' : S' → List K} {g' : S' → List (List K)} {t : ASIFObj K S' P' X'} {y : S'}
    (hs : ExplicitModule solver f g s) (ht : ExplicitModule solver' f' g' t) (hens : s.enable = true) (hent : t.enable = true)
    (hns : slackScales s.constraints = []) (hnt : slackScales t.constraints = []) (hsh : ShapesOK f g s x) (hsh' : ShapesOK f' g' t y)
    (hdim : t.ext.controlDim = s.ext.controlDim) (hlo : t.controlBoundsLow = s.controlBoundsLow)
    (hhi : t.controlBoundsHigh = s.controlBoundsHigh) (hexc : t.ext.solverException = s.ext.solverException)
    (hadm : ∀ w, Admissible f' g' t y w ↔ Admissible f g s x w) (dt dt' : K) {u : List K} (hu : u.length = s.ext.controlDim) :
    (explicitASIF solver' f' g' t (.array y) dt' u).1 = (explicitASIF solver f g s (.array x) dt u).1 := by
  have hp : ScalesPos s.constraints := by intro w hw; rw [hns] at hw; simp at hw
  have hp' : ScalesPos t.constraints := by intro w hw; rw [hnt] at hw; simp at hw
  have S1 := explicit_total hspec hs.inv.1 hs.inv.2 hp hsh dt hu hens
  have T1 := explicit_total hspec' ht.inv.1 ht.inv.2 hp' hsh' dt' (hu.trans hdim.symm) hent
  by_cases ha : ∃ w, Admissible f g s x w
  · have ha' : ∃ w, Admissible f' g' t y w := by simpa only [hadm] using ha
    obtain ⟨w, hw⟩ := ha
    obtain ⟨v, hv⟩ := S1.1 ⟨w, _, admissible_iff_zeros.1 hw⟩
    obtain ⟨v', hv'⟩ := T1.1 ⟨w, _, admissible_iff_zeros.1 ((hadm w).2 hw)⟩
    obtain ⟨h1, h2⟩ := C24_closest_admissible hspec hs hns hens x dt u v (Prod.ext hv rfl) ⟨w, hw⟩
    obtain ⟨h3, h4⟩ := C24_closest_admissible hspec' ht hnt hent y dt' u v' (Prod.ext hv' rfl) ha'
    rw [hv, hv']
    by_contra hne
    have hvv : v ≠ v' := fun e => hne (by rw [e])
    exact absurd (h2 v' ((hadm _).1 h3) hvv.symm) (not_lt.2 (h4 v ((hadm _).2 h1) hvv).le)
  · rw [S1.2 (by rintro ⟨w, d, hw⟩; exact ha ⟨w, ((admissibleS_noslack hns).1 hw).2⟩),
      T1.2 (by rintro ⟨w, d, hw⟩; exact ha ⟨w, (hadm w).1 ((admissibleS_noslack hnt).1 hw).2⟩), hexc, clipControl_congr s.toBase hlo hhi]

/-- **C108, the part that holds.** A module written in other units, of the state or of the constraint values, gives the same answers if its
constraints have linear strengtheners and `bias_negative` is converted as well. What is missing: strengtheners that are not linear, among
them the default of the shipped state limits (`C108_refuted`). -/
theorem C108_linear_partial {solver solver' : Solver K} (hspec : SolverSpec solver) (hspec' : SolverSpec solver') {f : S → List K}
    {g : S → List (List K)} {s : ASIFObj K S P X} {x : S} {f' : S' → List K} {g' : S' → List (List K)} {t : ASIFObj K S' P' X'} {y : S'}
    (hs : ExplicitModule solver f g s) (ht : ExplicitModule solver' f' g' t) (hens : s.enable = true) (hent : t.enable = true)
    (hsh : ShapesOK f g s x) (hsh' : ShapesOK f' g' t y)
    (hdim : t.ext.controlDim = s.ext.controlDim) (hlo : t.controlBoundsLow = s.controlBoundsLow)
    (hhi : t.controlBoundsHigh = s.controlBoundsHigh) (hexc : t.ext.solverException = s.ext.solverException)
    (hds : s.ext.direct = []) (hdt : t.ext.direct = []) {J : List K → List K}
    (hJ : ∀ v w, v.length = (f x).length → w.length = (f x).length → J (vadd v w) = vadd (J v) (J w)) (hf : f' y = J (f x))
    (hg : ∀ w, w.length = s.ext.controlDim → matVec (g' y) w = J (matVec (g x) w))
    (hc : List.Forall₂ (fun kc kd => ∃ k a, 0 < k ∧ RescaledLinear k a (f x).length J kc.2 x kd.2 y) s.constraints t.constraints)
    (dt dt' : K) {u : List K} (hu : u.length = s.ext.controlDim) :
    (explicitASIF solver' f' g' t (.array y) dt' u).1 = (explicitASIF solver f g s (.array x) dt u).1 := by
  have hslack : slackScales s.constraints = [] ∧ slackScales t.constraints = [] := by
    generalize s.constraints = cs at hc
    generalize t.constraints = cs' at hc
    induction hc with
    | nil => exact ⟨rfl, rfl⟩
    | @cons a b l l' h0 _ ih =>
      obtain ⟨k, al, -, h0⟩ := h0
      unfold slackScales at ih ⊢
      rw [List.filterMap_cons, List.filterMap_cons, h0.slack, h0.slack']
      exact ih
  have hbar : ∀ w : List K, w.length = s.ext.controlDim → ∀ (cs : Dict (Constraint K S P)) (cs' : Dict (Constraint K S' P')),
      List.Forall₂ (fun kc kd => ∃ k a, 0 < k ∧ RescaledLinear k a (f x).length J kc.2 x kd.2 y) cs cs' →
      ((∀ kc ∈ cs', kc.2.enabled = true → BarrierOK f' g' kc.2 y w 0) ↔ ∀ kc ∈ cs, kc.2.enabled = true → BarrierOK f g kc.2 x w 0) := by
    intro w hw cs cs' hcs
    have hm : (matVec (g x) w).length = (f x).length := by rw [← hsh.input]; simp [matVec]
    have hl : (vadd (f x) (matVec (g x) w)).length = (f x).length := by simp [vadd, hm]
    induction hcs with
    | nil => simp
    | @cons a b l l' h0 _ ih =>
      obtain ⟨k, al, hk, h0⟩ := h0
      simp only [List.forall_mem_cons]
      refine and_congr ?_ ih
      rw [h0.enabled]
      exact imp_congr_right fun _ => h0.barrier hk hf (hg w hw) (hJ _ _ rfl hm) hl
  refine same_admissible_same_answer hspec hspec' hs ht hens hent hslack.1 hslack.2 hsh hsh' hdim hlo hhi hexc (fun w => ?_) dt dt' hu
  constructor
  · intro h
    have hw := h.len.trans hdim
    exact ⟨hw, by rw [← hlo, ← hhi]; exact h.bounds, (hbar w hw _ _ hc).1 h.barrier, by rw [hds]; simp⟩
  · intro h
    exact ⟨h.len.trans hdim.symm, by rw [hlo, hhi]; exact h.bounds, (hbar w h.len _ _ hc).2 h.barrier, by rw [hdt]; simp⟩

end

/-! ### A position limit in other units -/

/-- A module with the shipped constraint `ConstraintMinStateLimit` on a position, limit 0, with default strengthener. -/
noncomputable def posObj (exc : Bool) : ASIFObj ℝ (List ℝ) ℝ Unit :=
  { toBase := Base.init (some (.scalar 2)) (some (.scalar (-2)))
    constraints := [("pos", minLimit 0 0 none)], params := [("pos", 0)], constraintEnabled := [("pos", true)], constraintValues := []
    isStaleConstraints := false
    ext := { epsilon := 1 / 10000, controlDim := 1, solverException := exc, numSlack := 0, objWeight := [1]
             constraintNames := ["u1_min", "u1_max", "pos"], actuation := [⟨[1], -2⟩, ⟨[-1], -2⟩]
             direct := [], directParams := [], directEnabled := [], causing := none, extra := () } }

theorem pos_init (exc : Bool) :
    asifInit (some (.scalar 2)) (some (.scalar (-2))) [("pos", minLimit 0 0 none)] none (1 / 10000) 1 exc [] () = .ok (posObj exc) := rfl

/-- The velocity is the control, in units of `1/k` length units. -/
noncomputable def posG (k : ℝ) : List ℝ → List (List ℝ) := fun _ => [[k]]
noncomputable def posF : List ℝ → List ℝ := fun _ => [0]

theorem pos_module (solver : Solver ℝ) (k : ℝ) (exc : Bool) : ExplicitModule solver posF (posG k) (posObj exc) :=
  ⟨_, _, _, _, _, _, _, _, _, _, [], by simp [dictKeys], by simp [dictKeys], pos_init exc, rfl⟩

theorem pos_shapes (k : ℝ) (exc : Bool) (p : ℝ) : ShapesOK posF (posG k) (posObj exc) [p] :=
  ⟨by simp [posObj, minLimit, Constraint.mk'], by simp [posObj, minLimit, Constraint.mk', posF, gradAt], rfl, by simp [posG, posObj],
    by simp [posObj]⟩

theorem pos_admissible (k : ℝ) (exc : Bool) {p : ℝ} (hp : 0 ≤ p) (w : List ℝ) :
    Admissible posF (posG k) (posObj exc) [p] w ↔ ∃ u, w = [u] ∧ (-2 ≤ u ∧ u ≤ 2) ∧ 0 ≤ k * u + (5 / 10000 * p + 1 / 1000 * p ^ 3) := by
  have hb : ∀ u, BarrierOK posF (posG k) (minLimit 0 0 none) [p] [u] 0 ↔ 0 ≤ k * u + (5 / 10000 * p + 1 / 1000 * p ^ 3) := by
    intro u
    have e : barrierValue posF (posG k) (minLimit 0 0 none) [p] [u] = some (k * u + (5 / 10000 * p + 1 / 1000 * p ^ 3)) := by
      simp only [barrierValue, minLimit, Constraint.mk', Option.map_some, Option.getD_none, strengthening, stateAt, List.getD_cons_zero, sub_zero,
        add_zero, if_pos hp, Option.some.injEq]
      simp [posF, posG, matVec, vadd, gradAt, limitAlpha, polyAlpha, polyLoop]
    unfold BarrierOK
    rw [e]; simp
  have hin : ∀ u : ℝ, Within (posObj exc).controlBoundsLow (posObj exc).controlBoundsHigh [u] ↔ -2 ≤ u ∧ u ≤ 2 := toy_within none exc
  constructor
  · intro h
    obtain ⟨u, rfl⟩ := List.length_eq_one_iff.1 (show w.length = 1 from h.len)
    exact ⟨u, rfl, (hin u).1 h.bounds, (hb u).1 (h.barrier ("pos", minLimit 0 0 none) (by simp [posObj]) rfl)⟩
  · rintro ⟨u, rfl, h1, h2⟩
    refine ⟨rfl, (hin u).2 h1, ?_, by simp [posObj]⟩
    intro kc hkc _
    simp only [posObj, List.mem_singleton] at hkc
    subst hkc
    exact (hb u).2 h2

/-- The answer to full speed towards the limit. -/
theorem pos_answer {solver : Solver ℝ} (hspec : SolverSpec solver) {k : ℝ} (hk : 0 < k) (exc : Bool) {p : ℝ} (hp : 0 ≤ p)
    (hsmall : 5 / 10000 * p + 1 / 1000 * p ^ 3 ≤ 2 * k) (dt : ℝ) :
    (explicitASIF solver posF (posG k) (posObj exc) (.array [p]) dt [-2]).1 = .ok [-(5 / 10000 * p + 1 / 1000 * p ^ 3) / k] := by
  set a := 5 / 10000 * p + 1 / 1000 * p ^ 3 with ha
  have ha0 : 0 ≤ a := by positivity
  have hns : slackScales (posObj exc).constraints = [] := by simp [posObj, slackScales, minLimit, Constraint.mk']
  have hpos : ScalesPos (posObj exc).constraints := by intro w hw; rw [hns] at hw; simp at hw
  have hq : Admissible posF (posG k) (posObj exc) [p] [-a / k] := by
    refine (pos_admissible k exc hp _).2 ⟨_, rfl, ⟨?_, ?_⟩, ?_⟩
    · rw [le_div_iff₀ hk]; linarith
    · rw [div_le_iff₀ hk]; linarith
    · rw [mul_div_cancel₀ _ hk.ne', ← ha]; linarith
  obtain ⟨v, hv⟩ := C24_returns hspec (pos_module solver k exc) hpos rfl [p] (pos_shapes k exc p) dt [-2] rfl ⟨_, _, admissible_iff_zeros.1 hq⟩
  obtain ⟨h1, h2⟩ := C24_closest_admissible hspec (pos_module solver k exc) hns rfl [p] dt [-2] v (Prod.ext hv rfl) ⟨_, hq⟩
  rw [hv]
  by_contra hne
  have h3 := h2 _ hq (fun e => hne (by rw [e]))
  obtain ⟨r, rfl, ⟨h4, -⟩, h5⟩ := (pos_admissible k exc hp v).1 h1
  rw [← ha] at h5
  have h6 : -a / k ≤ r := by rw [div_le_iff₀ hk]; linarith
  have h7 : -2 ≤ -a / k := by rw [le_div_iff₀ hk]; linarith
  rw [sqDist_cons, sqDist_cons] at h3
  nlinarith

/-- **C108 is false**: one metre from a position limit with the default strengthener, the filter allows an approach at 0.0015 m/s if
positions are in metres, and at 0.1005 m/s, 67 times as fast, if the same positions are in decimetres. -/
theorem C108_refuted {solver : Solver ℝ} (hspec : SolverSpec solver) (exc : Bool) (dt : ℝ) :
    (explicitASIF solver posF (posG 1) (posObj exc) (.array [1]) dt [-2]).1 = .ok [-(15 / 10000)] ∧
      (explicitASIF solver posF (posG 10) (posObj exc) (.array [10]) dt [-2]).1 = .ok [-(1005 / 10000)] := by
  constructor
  · rw [pos_answer hspec one_pos exc zero_le_one (by norm_num)]; norm_num
  · rw [pos_answer hspec (by norm_num) exc (by norm_num) (by norm_num)]; norm_num

/-- The two modules of `C108_refuted` are one module in two units: all other hypotheses of `C108_linear_partial` hold. -/
example : posF [10] = (posF [1]).map (fun c => 10 * c) ∧ (∀ w : ℝ, matVec (posG 10 [10]) [w] = (matVec (posG 1 [1]) [w]).map fun c => 10 * c) ∧
    (minLimit (K := ℝ) 0 0 none).computeFn [10] 0 = 10 * (minLimit (K := ℝ) 0 0 none).computeFn [1] 0 ∧
    ∀ v : ℝ, dot ((minLimit (K := ℝ) 0 0 none).gradFn [10] 0) ([v].map fun c => 10 * c) = 10 * dot ((minLimit (K := ℝ) 0 0 none).gradFn [1] 0) [v] := by
  refine ⟨by simp [posF], fun w => by simp [posG, matVec], by simp [minLimit, Constraint.mk', stateAt], fun v => ?_⟩
  simp [minLimit, Constraint.mk', gradAt]

/-- The toy constraint, written with the polynomial strengthener of slope 1, and in units ten times smaller. -/
noncomputable def linC (k : ℝ) : Constraint ℝ ℝ Unit :=
  { toyC none with computeFn := fun x _ => k * x, phiFn := fun x _ => k * x, gradFn := fun _ _ => [k], alpha := some (polyAlpha [0, 1])
                   biasNegative := -(k / 100) }

noncomputable def linObj (k : ℝ) (exc : Bool) : ASIFObj ℝ ℝ Unit Unit := { toyObj none exc with constraints := [("c", linC k)] }

theorem lin_init (k : ℝ) (exc : Bool) :
    asifInit (some (.scalar 2)) (some (.scalar (-2))) [("c", linC k)] none (1 / 10000) 1 exc [] () = .ok (linObj k exc) := rfl

theorem lin_module (solver : Solver ℝ) (k : ℝ) (exc : Bool) : ExplicitModule solver toyF toyG (linObj k exc) :=
  ⟨_, _, _, _, _, _, _, _, _, _, [], by simp [dictKeys], by simp [dictKeys], lin_init k exc, rfl⟩

example {solver : Solver ℝ} (hspec : SolverSpec solver) {k : ℝ} (hk : 0 < k) (exc : Bool) (x u : ℝ) :
    (explicitASIF solver toyF toyG (linObj k exc) (.array x) 1 [u]).1 = (explicitASIF solver toyF toyG (linObj 1 exc) (.array x) 1 [u]).1 := by
  have hsh : ∀ k, ShapesOK toyF toyG (linObj k exc) x := fun k =>
    ⟨by simp [linObj, linC], by simp [linObj, linC, toyF], rfl, by simp [toyG, linObj, toyObj], by simp [linObj, toyObj]⟩
  refine C108_linear_partial hspec hspec (lin_module solver 1 exc) (lin_module solver k exc) rfl rfl (hsh 1) (hsh k) rfl rfl rfl rfl rfl rfl
    (J := id) (fun _ _ _ _ => rfl) rfl (fun _ _ => rfl) ?_ 1 1 rfl
  refine List.Forall₂.cons ⟨k, 1, hk, rfl, rfl, rfl, rfl, rfl, rfl, rfl, ?_, ?_, fun v hv => ?_⟩ List.Forall₂.nil
  · simp only [linC]; ring
  · simp [linC, toyC]
  · obtain ⟨a, rfl⟩ := List.length_eq_one_iff.1 (hv.trans rfl)
    simp [linC]

end RTA
