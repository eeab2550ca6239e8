import Verif.Lemmas.Rounding
import Verif.Props.Disturbance

/-!
C103: rounding errors cost explicit ASIF modules as much as they are large, and nothing where `bias_negative` and `bias` make up for
them.
-/
namespace RTA
open Set
variable {S P X : Type} {rd : ℝ → ℝ} {q : ℝ}

/-! ### One call -/

theorem clip_within_fl (b : Base (Fl rd)) (u c : List (Fl rd)) (hcons : BoundsConsistent b.controlBoundsLow b.controlBoundsHigh)
    (h : b.clipControl u = .ok c) : Within b.controlBoundsLow b.controlBoundsHigh c := by
  have hc : filterControl (σ := Base (Fl rd)) (I := Unit) (fun s _ _ u => (.ok u, s)) { b with enable := true } () (0 : Fl rd) u =
      (.ok c, { b with enable := true, controlDesired := some u, controlActual := some c }) := by
    unfold filterControl
    simp only [modifyBase, HasBase.get, HasBase.set, id, if_true]
    have e : ({ b with enable := true, controlDesired := some u } : Base (Fl rd)).clipControl u = .ok c := by
      rw [← h]; rfl
    rw [e]
  exact C01_filtered_control_within (σ := Base (Fl rd)) (I := Unit) (fun s _ _ u => (.ok u, s)) (fun _ _ _ _ => ⟨rfl, rfl⟩)
    { b with enable := true } () (0 : Fl rd) u c _ rfl hcons hc

/-- What the solver of a successful call was given and returned. -/
theorem rounded_call {ε υ μ : ℝ} (hυ : 0 ≤ υ) (hμ : 0 ≤ μ) (hrd : RoundsBy υ μ rd) {solver : Solver (Fl rd)}
    (hspec : RoundedSolver ε solver) {f : S → List (Fl rd)} {g : S → List (List (Fl rd))} {s s' : ASIFObj (Fl rd) S P X}
    (hs : ExplicitModule solver f g s) (hen : s.enable = true) {x : S} {dt : Fl rd} {u v : List (Fl rd)}
    (hcall : explicitASIF solver f g s (.array x) dt u = (.ok v, s'))
    (hsol : s.ext.solverException = true ∨ ∃ w, RoundedMargin ε υ μ f g s x w) :
    ∃ (z : List (Fl rd)) (bar drows : List (Row (Fl rd))), z.length = s.ext.controlDim + s.ext.numSlack ∧
      explicitRows f g (aprep s x u).params (aprep s x u).constraintEnabled s.ext.controlDim s.ext.numSlack x 0 s.constraints = .ok bar ∧
      directRows (aprep s x u).ext.directParams (aprep s x u).ext.directEnabled s.ext.controlDim s.ext.numSlack x s.ext.direct =
        .ok drows ∧
      (∀ r ∈ s.ext.actuation ++ bar ++ drows, r.b.val - ε ≤ dot (vals r.w) (vals z)) ∧
      s.toBase.clipControl (z.take s.ext.controlDim) = .ok v := by
  obtain ⟨hinv, -⟩ := hs.inv
  obtain ⟨nm, ex, rows, drows, w0, cz, hgen, hdir, hout, hclip, -⟩ := asif_ok (genFrame_explicit f g) hen hcall
  obtain ⟨-, bar, hbar, rfl⟩ := explicitGenRows_ok hgen
  have hGl : s.ext.objWeight.length = s.ext.controlDim + s.ext.numSlack := by
    rw [hinv.weight, List.length_append, List.length_replicate, slackWeights_length, ← hinv.slack]
  cases hout with
  | infeasible hq hx =>
    rcases hsol with hsol | ⟨w, hw⟩
    · rw [hx] at hsol; simp at hsol
    · obtain ⟨hqs, -, hrw⟩ := quadprogSolve_dims (Or.inr hq)
      have hcf := cachesFresh_aprep hinv.wf x u
      have hdf := directFresh_aprep hinv x u
      refine absurd ⟨w ++ zeros s.ext.numSlack, ?_, fun r hr => ?_⟩ (hspec.failed _ _ _ _ hrw (hqs.symm.trans hq) rfl)
      · rw [List.length_append, hGl, hw.len, zeros_length]
      · rcases List.mem_append.1 hr with hr | hr
        · rcases List.mem_append.1 hr with hr | hr
          · left
            obtain ⟨names, hact⟩ := hinv.act
            have := (actuation_by (η := -ε) (actuation_real hact) (d := zeros s.ext.numSlack) hw.len).2 hw.bounds (realRow r)
              (List.mem_map_of_mem hr)
            rw [sub_neg_eq_add] at this
            exact this
          · rcases explicitRows_all _ hcf.params hcf.enabled 0 hbar r hr with h0 | ⟨q, c, hqc, hce, h1, h2, h3, a, t, ha, rfl⟩
            · exact .inr h0
            · left
              obtain ⟨al, hal, hm⟩ := hw.barrier _ hqc hce
              have hn := row_near hυ hμ hrd (alphaTerm_computed hal ha) h1 h2 h3 (z := w) hw.len
              simp only
              rw [dot_vals_append_zeros _ _ (by simp [vecMat, hw.len]; rfl)]
              have e : (aprep s x u).ext.controlDim = s.ext.controlDim := rfl
              rw [e] at hn ⊢
              have := (abs_le.1 hn).1
              linarith
        · rcases directRows_all _ hdf.1 hdf.2 hdir r hr with h0 | ⟨kc, hkc, hke, hl, rfl⟩
          · exact .inr h0
          · left
            simp only
            rw [dot_vals_append_zeros _ _ (by rw [hl, hw.len])]
            exact hw.direct kc hkc hke
  | @solved z iact l hq hcause =>
    obtain ⟨hqs, -, hrw⟩ := quadprogSolve_dims (Or.inl ⟨_, _, hq⟩)
    obtain ⟨hzl, hrows⟩ := hspec.solved _ _ _ _ _ hrw (hqs.symm.trans hq)
    exact ⟨z, bar, drows, hzl.trans hGl, hbar, hdir, hrows, hclip⟩

/-- **C103, conditions.** If every operation rounds, the returned control is within its bounds, and there is a control `z` that differs
from it by at most the tolerance `ε` of the solver such that the returned control meets the barrier condition of every enabled
constraint without slack up to `ε (1 + authority)` and the rounding error at `z`. -/
theorem C103_conditions {ε υ μ : ℝ} (hε : 0 ≤ ε) (hυ : 0 ≤ υ) (hμ : 0 ≤ μ) (hrd : RoundsBy υ μ rd) {solver : Solver (Fl rd)}
    (hspec : RoundedSolver ε solver) {f : S → List (Fl rd)} {g : S → List (List (Fl rd))} {s s' : ASIFObj (Fl rd) S P X}
    (hs : ExplicitModule solver f g s) (hcons : BoundsConsistent s.controlBoundsLow s.controlBoundsHigh) (hen : s.enable = true) {x : S}
    {dt : Fl rd} {u v : List (Fl rd)} (hcall : explicitASIF solver f g s (.array x) dt u = (.ok v, s'))
    (hsol : s.ext.solverException = true ∨ ∃ w, RoundedMargin ε υ μ f g s x w) :
    Within s.controlBoundsLow s.controlBoundsHigh v ∧ ∃ z : List ℝ, z.length = (vals v).length ∧
      (∀ i, |(vals v).getD i 0 - z.getD i 0| ≤ ε) ∧
      ∀ kc ∈ s.constraints, kc.2.enabled = true → kc.2.slackPriorityScale = none → ∀ al, kc.2.alpha = some al →
        -(ε * (1 + computedAuthority g s.ext.controlDim kc.2 x) + rowError υ μ f g s.ext.controlDim kc.2 al x z) ≤
          computedRate f g kc.2 x (vals v) + computedTerm kc.2 al (kc.2.compute x kc.2.params) := by
  obtain ⟨z, bar, drows, hzl, hbar, hdir, hrows, hclip⟩ := rounded_call hυ hμ hrd hspec hs hen hcall hsol
  obtain ⟨hinv, -⟩ := hs.inv
  have hcf := cachesFresh_aprep hinv.wf x u
  obtain ⟨names, hact⟩ := hinv.act
  obtain ⟨fl', fh'⟩ := boundFits_of_act (actuation_real hact)
  have fl := boundFits_real fl'
  have fh := boundFits_real fh'
  have hwl : (z.take s.ext.controlDim).length = s.ext.controlDim := by rw [List.length_take]; omega
  have hz : vals z = vals (z.take s.ext.controlDim) ++ vals (z.drop s.ext.controlDim) := by
    unfold vals; rw [← List.map_append, List.take_append_drop]
  have hwb : WithinBy ε (s.controlBoundsLow.map realBound) (s.controlBoundsHigh.map realBound) (vals (z.take s.ext.controlDim)) := by
    refine (actuation_by (η := ε) (actuation_real hact) (d := vals (z.drop s.ext.controlDim)) (by rw [vals_length, hwl])).1 fun r hr => ?_
    obtain ⟨r', hr', rfl⟩ := List.mem_map.1 hr
    rw [← hz]
    exact hrows r' (by simp [hr'])
  obtain ⟨hvl, hnear⟩ := clipControl_real hε (by rw [hwl]; exact fl) (by rw [hwl]; exact fh) hwb hclip
  refine ⟨clip_within_fl s.toBase _ v hcons hclip, vals (z.take s.ext.controlDim), hvl.symm, hnear, fun kc hkc hke hks al hal => ?_⟩
  obtain ⟨h1, h2, h3, a, ha, hmem⟩ := explicitRows_mem _ hcf.params hcf.enabled 0 hbar hkc hke hks
  have hr := hrows _ (by simp only [List.mem_append]; exact .inl (.inr hmem))
  simp only at hr
  have e0 : dot (vals (vecMat (kc.2.gradFn x kc.2.params) (g x) s.ext.controlDim ++ zeros s.ext.numSlack)) (vals z) =
      dot (vals (vecMat (kc.2.gradFn x kc.2.params) (g x) s.ext.controlDim)) (vals (z.take s.ext.controlDim)) := by
    have : vals (vecMat (kc.2.gradFn x kc.2.params) (g x) s.ext.controlDim ++ zeros s.ext.numSlack) =
        vals (vecMat (kc.2.gradFn x kc.2.params) (g x) s.ext.controlDim) ++ (zeros s.ext.numSlack : List ℝ) := by
      unfold vals zeros; rw [List.map_append, List.map_replicate]; rfl
    rw [this, hz, dot_append (by rw [vals_length, vals_length, hwl]; simp [vecMat]), dot_zeros_left, add_zero]
  have hn := row_near hυ hμ hrd (alphaTerm_computed hal ha) h1 h2 h3 (z := vals (z.take s.ext.controlDim))
    (by rw [vals_length, hwl])
  have hd := dot_near_le hε (vecMat (vals (kc.2.gradFn x kc.2.params)) ((g x).map vals) s.ext.controlDim) hvl hnear
  have hcols : ∀ r ∈ (g x).map vals, r.length = s.ext.controlDim := by
    intro r hr
    obtain ⟨r', hr', rfl⟩ := List.mem_map.1 hr
    rw [vals_length, h3 r' hr']
  have hgl : (vals (kc.2.gradFn x kc.2.params)).length = ((g x).map vals).length := by simp [vals, h1]
  have em : ∀ w : List ℝ, w.length = s.ext.controlDim → computedRate f g kc.2 x w =
      dot (vals (kc.2.gradFn x kc.2.params)) (vals (f x)) +
        dot (vecMat (vals (kc.2.gradFn x kc.2.params)) ((g x).map vals) s.ext.controlDim) w := by
    intro w hw
    unfold computedRate
    rw [dot_vadd_right (by rw [matVec_length]; simp [vals, ← h1, h2]), dot_vecMat _ _ _ _ hcols hgl hw]
  rw [em _ (by rw [hvl, vals_length, hwl])]
  rw [em _ (by rw [vals_length, hwl])] at hn
  rw [e0] at hr
  have := (abs_le.1 hn).2
  unfold computedAuthority
  linarith

/-! ### Trajectories -/

/-- A system and the module that filters for it with rounded arithmetic. `h` is the true constraint function (with its bias) and `f`, `g`
the true dynamics, disturbed by `w`; `c`, `fc` and `gc` are what the computer evaluates. At every time the control is what an explicit
ASIF module (after whatever history, for whatever desired control) returns. `R` bounds the tolerance of the solver and the rounding
errors in the inequality, `E₁` and `E₂` the errors of the evaluated functions in the rate and in the value of the constraint. -/
structure RoundedLoop (solver : Solver (Fl rd)) (k : String) (c : Constraint (Fl rd) (List ℝ) P) (al : Fl rd → Fl rd) (D : Set (List ℝ))
    (n : Nat) (h : List ℝ → ℝ) (grad f : List ℝ → List ℝ) (g : List ℝ → List (List ℝ)) (fc : List ℝ → List (Fl rd))
    (gc : List ℝ → List (List (Fl rd))) (x u w : ℝ → List ℝ) (ε υ μ R E₁ E₂ : ℝ) (X : Type) : Prop where
  isGrad : IsGradientOn D n h grad
  motion : Disturbed D n f g x u w
  enabled : c.enabled = true
  noSlack : c.slackPriorityScale = none
  alpha : c.alpha = some al
  rate : ∀ t, 0 ≤ t → computedRate fc gc c (x t) (u t) - E₁ ≤
    dot (grad (x t)) (vadd (vadd (f (x t)) (matVec (g (x t)) (u t))) (w t))
  value : ∀ t, 0 ≤ t → (c.compute (x t) c.params).val ≤ h (x t) + E₂
  filtered : ∀ t, 0 ≤ t → ∃ (s s' : ASIFObj (Fl rd) (List ℝ) P X) (dt : Fl rd) (uDes v : List (Fl rd)),
    ExplicitModule solver fc gc s ∧ BoundsConsistent s.controlBoundsLow s.controlBoundsHigh ∧ s.enable = true ∧ (k, c) ∈ s.constraints ∧
    (s.ext.solverException = true ∨ ∃ y, RoundedMargin ε υ μ fc gc s (x t) y) ∧
    (∀ z : List ℝ, z.length = (u t).length → (∀ i, |(u t).getD i 0 - z.getD i 0| ≤ ε) →
      ε * (1 + computedAuthority gc s.ext.controlDim c (x t)) + rowError υ μ fc gc s.ext.controlDim c al (x t) z ≤ R) ∧
    vals v = u t ∧ explicitASIF solver fc gc s (.array (x t)) dt uDes = (.ok v, s')

/-- While the value is below `-η`, its rate is at least `κ`. -/
theorem rounded_rate {ε υ μ R E₁ E₂ η κ : ℝ} (hε : 0 ≤ ε) (hυ : 0 ≤ υ) (hμ : 0 ≤ μ) (hrd : RoundsBy υ μ rd) {solver : Solver (Fl rd)}
    (hspec : RoundedSolver ε solver) {k : String} {c : Constraint (Fl rd) (List ℝ) P} {al : Fl rd → Fl rd} {D : Set (List ℝ)} {n : Nat}
    {h : List ℝ → ℝ} {grad f : List ℝ → List ℝ} {g : List ℝ → List (List ℝ)} {fc : List ℝ → List (Fl rd)}
    {gc : List ℝ → List (List (Fl rd))} {x u w : ℝ → List ℝ}
    (hl : RoundedLoop solver k c al D n h grad f g fc gc x u w ε υ μ R E₁ E₂ X)
    (hneg : ∀ y : Fl rd, y.val < E₂ - η → computedTerm c al y ≤ -(R + E₁ + κ)) {t : ℝ} (ht : 0 ≤ t) (hlt : h (x t) < -η) :
    κ ≤ dot (grad (x t)) (vadd (vadd (f (x t)) (matVec (g (x t)) (u t))) (w t)) := by
  obtain ⟨s, s', dt, uDes, v, hs, hcons, hen, hmem, hsol, hR, hv, hcall⟩ := hl.filtered t ht
  obtain ⟨-, z, hzl, hz, hbar⟩ := C103_conditions hε hυ hμ hrd hspec hs hcons hen hcall hsol
  have h1 := hbar (k, c) hmem hl.enabled hl.noSlack al hl.alpha
  rw [hv] at hzl hz h1
  have h2 := hR z hzl hz
  have h3 := hneg (c.compute (x t) c.params) (by have := hl.value t ht; linarith)
  have h4 := hl.rate t ht
  simp only at h1
  linarith

/-- **C103, loop.** If the strengthening term that is computed for values below `E₂ - η` makes up for all errors, the value of the
constraint never falls below `-η`. -/
theorem C103_loop {ε υ μ R E₁ E₂ η : ℝ} (hε : 0 ≤ ε) (hυ : 0 ≤ υ) (hμ : 0 ≤ μ) (hrd : RoundsBy υ μ rd) {solver : Solver (Fl rd)}
    (hspec : RoundedSolver ε solver) {k : String} {c : Constraint (Fl rd) (List ℝ) P} {al : Fl rd → Fl rd} {D : Set (List ℝ)} {n : Nat}
    {h : List ℝ → ℝ} {grad f : List ℝ → List ℝ} {g : List ℝ → List (List ℝ)} {fc : List ℝ → List (Fl rd)}
    {gc : List ℝ → List (List (Fl rd))} {x u w : ℝ → List ℝ}
    (hl : RoundedLoop solver k c al D n h grad f g fc gc x u w ε υ μ R E₁ E₂ X)
    (hneg : ∀ y : Fl rd, y.val < E₂ - η → computedTerm c al y ≤ -(R + E₁)) (h0 : -η ≤ h (x 0)) : ∀ t, 0 ≤ t → -η ≤ h (x t) := by
  have key := stays_nonneg (h := fun t => h (x t) + η) (a := 0)
    ((disturbed_cont hl.motion hl.isGrad).add continuousOn_const)
    (fun t ht => (disturbed_deriv hl.motion hl.isGrad ht).add_const _)
    (fun t ht hlt => rounded_rate hε hυ hμ hrd hspec hl (κ := 0) (by simpa using hneg) ht (by linarith)) (by linarith)
  intro t ht
  have := key t ht
  linarith

/-- **C103, recovery.** If it makes up for them with `κ > 0` to spare, a trajectory that starts at `h < -η` is back at `-η` after
`(-η - h) / κ` and stays there. -/
theorem C103_recovery {ε υ μ R E₁ E₂ η κ : ℝ} (hε : 0 ≤ ε) (hυ : 0 ≤ υ) (hμ : 0 ≤ μ) (hκ : 0 < κ) (hrd : RoundsBy υ μ rd)
    {solver : Solver (Fl rd)} (hspec : RoundedSolver ε solver) {k : String} {c : Constraint (Fl rd) (List ℝ) P} {al : Fl rd → Fl rd}
    {D : Set (List ℝ)} {n : Nat} {h : List ℝ → ℝ} {grad f : List ℝ → List ℝ} {g : List ℝ → List (List ℝ)} {fc : List ℝ → List (Fl rd)}
    {gc : List ℝ → List (List (Fl rd))} {x u w : ℝ → List ℝ}
    (hl : RoundedLoop solver k c al D n h grad f g fc gc x u w ε υ μ R E₁ E₂ X)
    (hneg : ∀ y : Fl rd, y.val < E₂ - η → computedTerm c al y ≤ -(R + E₁ + κ)) (h0 : h (x 0) < -η) :
    ∀ t, (-η - h (x 0)) / κ ≤ t → -η ≤ h (x t) := by
  have key := recovers (h := fun t => h (x t) + η) (a := 0) hκ
    ((disturbed_cont hl.motion hl.isGrad).add continuousOn_const)
    (fun t ht => (disturbed_deriv hl.motion hl.isGrad ht).add_const _)
    (fun t ht hlt => rounded_rate hε hυ hμ hrd hspec hl hneg ht (by linarith)) (by linarith)
  intro t ht
  have := key t (by rw [zero_add]; convert ht using 2; ring)
  linarith

/-- **C103, `bias_negative` and `bias`.** Let rounding be monotone and exact at zero (as every IEEE mode is), and let the evaluated
strengthener not be positive below zero, with the default negative branch. Then errors that are together at most the rounded
`-bias_negative` cost only the error `E₂` of the value, and nothing if the true value includes a bias of `-E₂`. -/
theorem C103_bias {ε υ μ R E₁ E₂ b : ℝ} (hε : 0 ≤ ε) (hυ : 0 ≤ υ) (hμ : 0 ≤ μ) (hrd : RoundsBy υ μ rd) (hmono : Monotone rd)
    (hrd0 : rd 0 = 0) {solver : Solver (Fl rd)} (hspec : RoundedSolver ε solver) {k : String} {c : Constraint (Fl rd) (List ℝ) P}
    {al : Fl rd → Fl rd} {D : Set (List ℝ)} {n : Nat} {h : List ℝ → ℝ} {grad f : List ℝ → List ℝ} {g : List ℝ → List (List ℝ)}
    {fc : List ℝ → List (Fl rd)} {gc : List ℝ → List (List (Fl rd))} {x u w : ℝ → List ℝ}
    (hl : RoundedLoop solver k c al D n h grad f g fc gc x u w ε υ μ R E₁ E₂ X) (hal : ∀ y, y < 0 → al y ≤ 0) (hnb : c.alphaNeg = none)
    (hb : rd c.biasNegative.val ≤ -(R + E₁)) (h0 : -E₂ ≤ h (x 0)) :
    (∀ t, 0 ≤ t → -E₂ ≤ h (x t)) ∧ (b ≤ -E₂ → ∀ t, 0 ≤ t → 0 ≤ h (x t) - b) := by
  have key := C103_loop hε hυ hμ hrd hspec hl (η := E₂) (fun y hy => ?_) h0
  · exact ⟨key, fun hbb t ht => by have := key t ht; linarith⟩
  · rw [sub_self] at hy
    have hy0 : y < 0 := hy
    unfold computedTerm
    rw [if_pos hy0, hnb]
    refine le_trans ?_ hb
    simp only
    rw [val_add, val_mul]
    refine hmono ?_
    have h1 : (al y).val ≤ 0 := hal y hy0
    have h10 : ((10 : Fl rd)).val = 10 := rfl
    have h2 := hmono (show (al y).val * (10 : Fl rd).val ≤ 0 by rw [h10]; linarith)
    rw [hrd0] at h2
    linarith

/-- **C103, single precision.** For states of dimension at most 12, single precision arithmetic and terms of size at most 8000, rounding
the inequality costs less than the default `bias_negative` of `-0.01`: at most `0.008`. -/
theorem C103_single {f : S → List (Fl rd)} {g : S → List (List (Fl rd))} {n : Nat} {c : Constraint (Fl rd) S P} {al : Fl rd → Fl rd} {x : S}
    {z : List ℝ} (hN : (f x).length ≤ 12) (hsize : rowSize f g n c al x z ≤ 8000) (hz : oneNorm z ≤ 10 ^ 20) :
    rowError (1 / 2 ^ 24) (1 / 2 ^ 126) f g n c al x z ≤ 8 / 1000 := by
  unfold rowError
  have hg : gam (1 / 2 ^ 24) ((f x).length + 2) ≤ 9 / 10 ^ 7 := by
    have h1 : gam (1 / 2 ^ 24) ((f x).length + 2) ≤ gam (1 / 2 ^ 24) 14 := by
      unfold gam
      have := pow_le_pow_right₀ (a := (1 + 1 / 2 ^ 24 : ℝ)) (by norm_num) (show (f x).length + 2 ≤ 14 by omega)
      linarith
    refine h1.trans ?_
    unfold gam
    norm_num
  have hp : (1 + 1 / 2 ^ 24 : ℝ) ^ ((f x).length + 2) ≤ 2 := by
    unfold gam at hg
    have : (9 / 10 ^ 7 : ℝ) ≤ 1 := by norm_num
    linarith
  have hm : ((f x).length : ℝ) ≤ 12 := by exact_mod_cast hN
  have hm0 : (0 : ℝ) ≤ ((f x).length : ℝ) := Nat.cast_nonneg _
  have hp0 : 0 ≤ (1 + 1 / 2 ^ 24 : ℝ) ^ ((f x).length + 2) := by positivity
  have hg0 : 0 ≤ gam (1 / 2 ^ 24) ((f x).length + 2) := gam_nonneg (by norm_num) _
  have hz0 := oneNorm_nonneg z
  have a1 : gam (1 / 2 ^ 24) ((f x).length + 2) * rowSize f g n c al x z ≤ 9 / 10 ^ 7 * 8000 :=
    (mul_le_mul_of_nonneg_left hsize hg0).trans (mul_le_mul_of_nonneg_right hg (by norm_num))
  have a2 : (2 * ((f x).length : ℝ) + 1) * (1 / 2 ^ 126) * (1 + 1 / 2 ^ 24) ^ ((f x).length + 2) * (1 + oneNorm z) ≤
      25 * (1 / 2 ^ 126) * 2 * (1 + 10 ^ 20) := by
    gcongr
    linarith
  have a3 : (25 * (1 / 2 ^ 126) * 2 * (1 + 10 ^ 20) : ℝ) ≤ 1 / 10 ^ 4 := by norm_num
  have a4 : (9 / 10 ^ 7 * 8000 : ℝ) ≤ 72 / 10 ^ 4 := by norm_num
  linarith

/-! ### Without `bias_negative` -/

/-- Rounding to the nearest multiple of `q`. -/
noncomputable def gridRound (q x : ℝ) : ℝ := q * round (x / q)

theorem gridRound_by {q : ℝ} (hq : 0 < q) : RoundsBy 0 (q / 2) (gridRound q) := by
  intro x
  unfold gridRound
  have h := abs_sub_round (x / q)
  have e : q * (round (x / q) : ℝ) - x = -(q * (x / q - round (x / q))) := by
    have : q * (x / q) = x := by field_simp
    rw [mul_sub, this]; ring
  rw [e, abs_neg, abs_mul, abs_of_pos hq]
  have := mul_le_mul_of_nonneg_left h hq.le
  linarith

theorem gridRound_mono {q : ℝ} (hq : 0 < q) : Monotone (gridRound q) := by
  intro x y h
  unfold gridRound
  refine mul_le_mul_of_nonneg_left ?_ hq.le
  rw [round_eq, round_eq]
  exact_mod_cast Int.floor_le_floor (by have := div_le_div_of_nonneg_right h hq.le; linarith)

theorem gridRound_small {q x : ℝ} (hq : 0 < q) (h1 : -(q / 2) ≤ x) (h2 : x < q / 2) : gridRound q x = 0 := by
  unfold gridRound
  have : round (x / q) = 0 := by
    rw [round_eq_zero_iff, mem_Ico]
    constructor
    · rw [le_div_iff₀ hq]; linarith
    · rw [div_lt_iff₀ hq]; linarith
  rw [this]
  simp

open Classical in
/-- A solver that returns the desired control if it meets all inequalities, and otherwise any point that does. -/
noncomputable def pickSolver : Solver (Fl rd) := fun G a rows =>
  if a.length = G.length ∧ ∀ r ∈ rows, r.b.val ≤ dot (vals r.w) (vals a) then .solved a []
  else if h : ∃ z : List (Fl rd), z.length = G.length ∧ ∀ r ∈ rows, r.b.val ≤ dot (vals r.w) (vals z) then .solved h.choose []
  else .valueError inconsistentMsg

theorem pickSolver_spec {ε : ℝ} (hε : 0 ≤ ε) : RoundedSolver ε (pickSolver (rd := rd)) where
  solved G a rows z iact hr h := by
    unfold pickSolver at h
    split at h
    · rename_i h1
      simp only [QPResult.solved.injEq] at h
      obtain ⟨rfl, -⟩ := h
      exact ⟨h1.1, fun r hr' => by have := h1.2 r hr'; linarith⟩
    · split at h
      · rename_i h2
        simp only [QPResult.solved.injEq] at h
        obtain ⟨rfl, -⟩ := h
        exact ⟨h2.choose_spec.1, fun r hr' => by have := h2.choose_spec.2 r hr'; linarith⟩
      · simp at h
  failed G a rows msg hr h hm := by
    unfold pickSolver at h
    split at h
    · simp at h
    · split at h
      · simp at h
      · rename_i h2
        rintro ⟨y, hy, hyr⟩
        refine h2 ⟨y.map fun t => ⟨t⟩, by simp [hy], fun r hr' => ?_⟩
        have e : vals (y.map fun t => (⟨t⟩ : Fl rd)) = y := by simp [vals, Function.comp_def]
        rw [e]
        rcases hyr r hr' with h3 | ⟨h3, h4⟩
        · linarith
        · rw [h3, dot_allzero]
          intro a ha
          obtain ⟨a', ha', rfl⟩ := List.mem_map.1 ha
          exact h4 a' ha'

/-- The condition that the state is not negative, evaluated in arithmetic that rounds to multiples of `q`. -/
noncomputable def gridC (q bn : ℝ) : Constraint (Fl (gridRound q)) (List ℝ) Unit :=
  { computeFn := fun x _ => ⟨gridRound q (x.getD 0 0)⟩, phiFn := fun x _ => ⟨gridRound q (x.getD 0 0)⟩, gradFn := fun _ _ => [1]
    alpha := some id, alphaNeg := none, bias := 0, biasNegative := ⟨bn⟩, slackPriorityScale := none, params := (), enabled := true
    subsample := {} }

/-- The true motion without control, `dx/dt = -(x + q/4)`. -/
noncomputable def gridF (q : ℝ) (x : List ℝ) : List ℝ := [-(x.getD 0 0 + q / 4)]

/-- The same, as it is evaluated. -/
noncomputable def gridFc (q : ℝ) (x : List ℝ) : List (Fl (gridRound q)) := (gridF q x).map fun a => ⟨gridRound q a⟩

/-- An explicit ASIF module with one constraint. -/
noncomputable def oneObj (c : Constraint (Fl rd) (List ℝ) Unit) : ASIFObj (Fl rd) (List ℝ) Unit Unit :=
  { toBase := Base.init none none
    constraints := [("c", c)], params := [("c", c.params)], constraintEnabled := [("c", true)]
    constraintValues := [], isStaleConstraints := false
    ext := { epsilon := ⟨1 / 100⟩, controlDim := 1, solverException := true, numSlack := 0, objWeight := [1]
             constraintNames := ["c"], actuation := [], direct := [], directParams := [], directEnabled := [], causing := none
             extra := () } }

theorem one_module (solver : Solver (Fl rd)) (fc : List ℝ → List (Fl rd)) (gc : List ℝ → List (List (Fl rd)))
    {c : Constraint (Fl rd) (List ℝ) Unit} (hs : c.slackPriorityScale = none) (hce : c.enabled = true) :
    ExplicitModule solver fc gc (oneObj c) := by
  obtain ⟨a1, a2, a3, a4, a5, a6, a7, a8, a9, a10, a11⟩ := c
  simp only at hs hce
  subst hs hce
  exact ⟨none, none, [("c", _)], none, ⟨1 / 100⟩, 1, true, [], (), oneObj _, [], by simp [dictKeys], by simp [dictKeys], rfl, rfl⟩

theorem grid_zero {q : ℝ} (hq : 0 < q) : gridRound q 0 = 0 := gridRound_small hq (by linarith) (by linarith)

/-- What the module computes in states between `-q/4` and 0 is 0. -/
theorem grid_value {q : ℝ} (hq : 0 < q) (bn : ℝ) {x : ℝ} (h1 : -(q / 4) ≤ x) (h2 : x ≤ 0) :
    (gridC q bn).compute [x] () = 0 ∧ gridFc q [x] = [0] := by
  have e1 : gridRound q x = 0 := gridRound_small hq (by linarith) (by linarith)
  have e2 : gridRound q (-(x + q / 4)) = 0 := gridRound_small hq (by linarith) (by linarith)
  constructor
  · refine Fl.ext ?_
    unfold Constraint.compute
    rw [val_add]
    simp only [gridC, List.getD_cons_zero, e1, val_zero, add_zero, grid_zero hq]
  · simp only [gridFc, gridF, List.getD_cons_zero, List.map_cons, List.map_nil, e2]
    rfl

/-- An explicit ASIF module with one constraint and one control accepts a control that meets the computed inequality. -/
theorem one_call {c : Constraint (Fl rd) (List ℝ) Unit} {fc : List ℝ → List (Fl rd)} {x : List ℝ} {p a u : Fl rd}
    (hgr : ∀ y, c.gradFn y () = [1]) (hs : c.slackPriorityScale = none) (hce : c.enabled = true) (hf : fc x = [p])
    (ha : alphaTerm c (c.compute x ()) = .ok a) (hle : (-(dot [1] [p]) - a).val ≤ dot (vals (vecMat [(1 : Fl rd)] [[1]] 1)) [u.val]) :
    ∃ s', explicitASIF pickSolver fc (fun _ => [[1]]) (oneObj c) (.array x) 1 [u] = (.ok [u], s') := by
  have hrows : explicitRows fc (fun _ => [[1]]) [("c", ())] [("c", true)] 1 0 x 0 [("c", c)] =
      .ok [⟨vecMat [1] [[1]] 1, -(dot [1] [p]) - a⟩] := by
    unfold explicitRows
    simp [dictGet, hf, ha, hgr, hs, explicitRows, zeros]
  have hsol : quadprogSolve pickSolver [1] [u] [⟨vecMat [1] [[1]] 1, -(dot [1] [p]) - a⟩] = .solved [u] [] := by
    unfold quadprogSolve pickSolver
    rw [if_pos (by simp [vecMat]), if_pos]
    refine ⟨rfl, fun r hr => ?_⟩
    rw [List.mem_singleton.1 hr]
    exact hle
  have hen : (aprep (oneObj c) x [u]).constraintEnabled = [("c", true)] := by
    rw [← hce]; rfl
  have hgen : explicitGenRows fc (fun _ => [[1]]) (aprep (oneObj c) x [u]) x 1 =
      (.ok [⟨vecMat [1] [[1]] 1, -(dot [1] [p]) - a⟩], aprep (oneObj c) x [u]) := by
    unfold explicitGenRows
    have e : explicitRows fc (fun _ => [[1]]) (aprep (oneObj c) x [u]).params (aprep (oneObj c) x [u]).constraintEnabled
        (aprep (oneObj c) x [u]).ext.controlDim (aprep (oneObj c) x [u]).ext.numSlack x 0 (aprep (oneObj c) x [u]).constraints =
      .ok [⟨vecMat [1] [[1]] 1, -(dot [1] [p]) - a⟩] := by rw [hen]; exact hrows
    rw [e]
    rfl
  have hopt : optimize pickSolver (aprep (oneObj c) x [u]) [u] ([⟨vecMat [1] [[1]] 1, -(dot [1] [p]) - a⟩] ++ []) =
      (.ok [u], (aprep (oneObj c) x [u]).setExt { (aprep (oneObj c) x [u]).ext with causing := some [] }) := by
    unfold optimize
    have e : quadprogSolve pickSolver (aprep (oneObj c) x [u]).ext.objWeight
        ([u] ++ zeros (aprep (oneObj c) x [u]).ext.numSlack) ([⟨vecMat [1] [[1]] 1, -(dot [1] [p]) - a⟩] ++ []) = .solved [u] [] := hsol
    simp only [e]
    rfl
  unfold explicitASIF
  rw [call_eq _ rfl]
  unfold asifFilter
  have eap : updateDirectParams (prep (oneObj c) x [u]) = aprep (oneObj c) x [u] := rfl
  have ed : directRows (aprep (oneObj c) x [u]).ext.directParams (aprep (oneObj c) x [u]).ext.directEnabled
      (aprep (oneObj c) x [u]).ext.controlDim (aprep (oneObj c) x [u]).ext.numSlack x
      (aprep (oneObj c) x [u]).ext.direct = .ok [] := rfl
  simp only [eap, hgen, ed, hopt]
  exact ⟨_, rfl⟩

/-- In those states the module returns the desired control 0. -/
theorem grid_call {q : ℝ} (hq : 0 < q) (bn : ℝ) {x : ℝ} (h1 : -(q / 4) ≤ x) (h2 : x ≤ 0) :
    ∃ s', explicitASIF pickSolver (gridFc q) (fun _ => [[1]]) (oneObj (gridC q bn)) (.array [x]) 1 [0] = (.ok [0], s') := by
  obtain ⟨hv, hf⟩ := grid_value hq bn h1 h2
  have hz : gridRound q 0 = 0 := grid_zero hq
  refine one_call (a := 0) (fun _ => rfl) rfl rfl hf ?_ ?_
  · rw [hv]
    unfold alphaTerm Constraint.alphaAt Constraint.alphaNegAt
    simp only [gridC, lt_irrefl, if_false, id]
  · have e : dot [1] [0] = (1 : Fl (gridRound q)) * 0 + 0 := rfl
    rw [e, val_sub, val_neg, val_add, val_mul, val_zero, mul_zero, hz, add_zero, hz, neg_zero, sub_zero, hz]
    simp [vals, vecMat, dot, List.range_succ]

/-- The motion of the example under control 0. -/
noncomputable def gridX (q t : ℝ) : ℝ := -(q / 4) * (1 - Real.exp (-t))

theorem gridX_range {q : ℝ} (hq : 0 < q) {t : ℝ} (ht : 0 ≤ t) : -(q / 4) ≤ gridX q t ∧ gridX q t ≤ 0 ∧ (0 < t → gridX q t < 0) := by
  unfold gridX
  have h1 : Real.exp (-t) ≤ 1 := Real.exp_le_one_iff.2 (by linarith)
  have h2 := Real.exp_pos (-t)
  refine ⟨by nlinarith, by nlinarith, fun h => ?_⟩
  have h3 : Real.exp (-t) < 1 := by
    have := Real.exp_lt_exp.2 (show -t < 0 by linarith)
    rwa [Real.exp_zero] at this
  nlinarith

theorem grid_deriv (q t : ℝ) : HasDerivAt (gridX q) (-(gridX q t + q / 4)) t := by
  have h := ((hasDerivAt_id t).neg).exp
  refine ((h.const_sub 1).const_mul (-(q / 4))).congr_deriv ?_
  unfold gridX
  have e : (-id : ℝ → ℝ) t = -t := rfl
  rw [e]
  ring

/-- The example as a system with a module that filters for it. -/
theorem grid_loop {q : ℝ} (hq : 0 < q) (bn : ℝ) :
    RoundedLoop pickSolver "c" (gridC q bn) id univ 1 (fun x => stateAt x 0) (fun _ => gradAt 1 0 1) (gridF q) (fun _ => [[1]]) (gridFc q)
      (fun _ => [[1]]) (fun t => [gridX q t]) (fun _ => [0]) (fun _ => [0]) 0 0 (q / 2) (3 * q / 2) (q / 4) (q / 2) Unit where
  isGrad := grad_coord univ (by decide)
  motion :=
    { curve := fun t _ => ⟨mem_univ _, rfl⟩
      cont := fun i hi => by
        obtain rfl : i = 0 := by omega
        exact fun t _ => (grid_deriv q t).continuousAt.continuousWithinAt
      len := fun t _ => rfl
      wlen := fun t _ => rfl
      deriv := fun t _ i hi => by
        obtain rfl : i = 0 := by omega
        have e : (vadd (gridF q [gridX q t]) (matVec [[1]] [0])).getD 0 0 + ([0] : List ℝ).getD 0 0 = -(gridX q t + q / 4) := by
          simp [vadd, matVec, gridF]
        rw [e]
        exact (grid_deriv q t).hasDerivWithinAt }
  enabled := rfl
  noSlack := rfl
  alpha := rfl
  rate t ht := by
    obtain ⟨h1, h2, -⟩ := gridX_range hq ht
    obtain ⟨-, hf⟩ := grid_value hq bn h1 h2
    have e1 : computedRate (gridFc q) (fun _ => [[1]]) (gridC q bn) [gridX q t] [0] = 0 := by
      unfold computedRate
      rw [hf]
      simp [vals, gridC, vadd, matVec, dot, val_zero, val_one]
    have e2 : dot (gradAt 1 0 (1 : ℝ)) (vadd (vadd (gridF q [gridX q t]) (matVec [[1]] [0])) [0]) = -(gridX q t + q / 4) := by
      simp [gradAt, vadd, matVec, gridF, dot, List.range_succ]
    rw [e1, e2]
    linarith
  value t ht := by
    obtain ⟨h1, h2, -⟩ := gridX_range hq ht
    obtain ⟨hv, -⟩ := grid_value hq bn h1 h2
    have e : ((gridC q bn).compute [gridX q t] (gridC q bn).params).val = 0 := by
      have : (gridC q bn).params = () := rfl
      rw [this, hv, val_zero]
    rw [e]
    simp only [stateAt, List.getD_cons_zero]
    linarith
  filtered t ht := by
    obtain ⟨h1, h2, -⟩ := gridX_range hq ht
    obtain ⟨s', hcall⟩ := grid_call hq bn h1 h2
    refine ⟨oneObj (gridC q bn), s', 1, [0], [0], one_module _ _ _ rfl rfl, ?_, rfl, by simp [oneObj], .inl rfl, fun z hz hzn => ?_, rfl, hcall⟩
    · intro i l h hl
      simp [oneObj, Base.init, boundAt] at hl
    · obtain ⟨a, rfl⟩ := List.length_eq_one_iff.1 (show z.length = 1 from hz)
      have ha : a = 0 := by
        have := hzn 0
        simp only [List.getD_cons_zero, zero_sub, abs_neg] at this
        exact abs_eq_zero.1 (le_antisymm this (abs_nonneg _))
      subst ha
      obtain ⟨-, hf⟩ := grid_value hq bn h1 h2
      unfold rowError
      rw [hf]
      simp [gam, oneNorm]
      linarith

/-- **C103, the bias is needed.** However fine the arithmetic is and whatever `bias_negative` is, there are a system and a module whose
constraint, gradient and dynamics are evaluated as exactly as the arithmetic allows, and whose solver is exact, such that a trajectory
starts with the constraint satisfied, its control is at all times what the module returns, and it violates the constraint at all later
times: the value rounds to zero. -/
theorem C103_bias_needed {q : ℝ} (hq : 0 < q) (bn : ℝ) : ∃ (c : Constraint (Fl (gridRound q)) (List ℝ) Unit)
    (f : List ℝ → List ℝ) (x : ℝ → List ℝ), c.biasNegative.val = bn ∧ RoundsBy 0 (q / 2) (gridRound q) ∧
    (∀ y, (c.computeFn y c.params).val = gridRound q (stateAt y 0)) ∧
    RoundedLoop pickSolver "c" c id univ 1 (fun x => stateAt x 0) (fun _ => gradAt 1 0 1) f (fun _ => [[1]])
      (fun y => (f y).map fun a => ⟨gridRound q a⟩) (fun _ => [[1]]) x (fun _ => [0]) (fun _ => [0]) 0 0 (q / 2) (3 * q / 2) (q / 4)
      (q / 2) Unit ∧
    stateAt (x 0) 0 = 0 ∧ ∀ t, 0 < t → stateAt (x t) 0 < 0 :=
  ⟨gridC q bn, gridF q, fun t => [gridX q t], rfl, gridRound_by hq, fun _ => rfl, grid_loop hq bn, by simp [stateAt, gridX],
    fun t ht => by simpa [stateAt] using (gridX_range hq ht.le).2.2 ht⟩

/-- In the example with `bias_negative = -2 q`, `C103_bias` applies and says that the value stays above `-q/2`. -/
example : ∀ t, 0 ≤ t → -(1 / 2) ≤ stateAt [gridX 1 t] 0 := by
  have h := (C103_bias (b := -(1 / 2)) le_rfl le_rfl (by norm_num) (gridRound_by (q := 1) one_pos) (gridRound_mono one_pos)
    (grid_zero one_pos) (pickSolver_spec le_rfl) (grid_loop one_pos (-2)) (fun y hy => hy.le) rfl ?_
    (by simp [stateAt, gridX])).1
  · exact h
  · have : gridRound 1 (-2) = -2 := by
      have e : round (-2 : ℝ) = -2 := by exact_mod_cast round_intCast (α := ℝ) (-2)
      simp [gridRound, e]
    have e : (gridC 1 (-2)).biasNegative.val = -2 := rfl
    rw [e, this]
    norm_num

/-- Single precision at a state of dimension 1 whose inequality has terms of size 1. -/
example : rowError (rd := gridRound 1) (1 / 2 ^ 24) (1 / 2 ^ 126) (fun _ => [0]) (fun _ => [[1]]) 1 (gridC 1 0) id ([0] : List ℝ) [1] ≤
    8 / 1000 := by
  refine C103_single (by simp) ?_ (by norm_num [oneNorm])
  have hv := (grid_value one_pos 0 (x := 0) (by norm_num) le_rfl).1
  have e : (gridC 1 0).params = () := rfl
  unfold rowSize computedTerm
  rw [e, hv, if_neg (lt_irrefl _)]
  simp [vals, gridC, absDot, dot, List.range_succ, val_one, val_zero]

/-- In the example the returned control 0 meets the condition up to the error of the row, `3 q / 2`. -/
example {q : ℝ} (hq : 0 < q) : -(3 * q / 2) ≤ computedRate (gridFc q) (fun _ => [[1]]) (gridC q 0) [0] [0] +
    computedTerm (gridC q 0) id ((gridC q 0).compute [0] ()) := by
  obtain ⟨s', hcall⟩ := grid_call hq 0 (x := 0) (by linarith) le_rfl
  obtain ⟨-, z, hzl, hz, h⟩ := C103_conditions le_rfl le_rfl (by positivity) (gridRound_by hq) (pickSolver_spec le_rfl)
    (one_module _ _ _ rfl rfl) (by intro i l h hl; simp [oneObj, Base.init, boundAt] at hl) rfl hcall (.inl rfl)
  have h1 := h ("c", gridC q 0) (by simp [oneObj]) rfl rfl id rfl
  obtain ⟨a, rfl⟩ := List.length_eq_one_iff.1 (show z.length = 1 from hzl)
  have ha : a = 0 := by
    have := hz 0
    simp only [vals, List.map_cons, List.getD_cons_zero, val_zero, zero_sub, abs_neg] at this
    exact abs_eq_zero.1 (le_antisymm this (abs_nonneg _))
  subst ha
  obtain ⟨-, hf⟩ := grid_value hq 0 (x := 0) (by linarith) le_rfl
  have e : 0 * (1 + computedAuthority (fun _ => [[1]]) 1 (gridC q 0) [0]) +
      rowError 0 (q / 2) (gridFc q) (fun _ => [[1]]) 1 (gridC q 0) id ([0] : List ℝ) [0] = 3 * q / 2 := by
    unfold rowError
    rw [hf]
    simp [gam, oneNorm]
    ring
  have h2 := h1
  simp only at h2
  have e3 : (oneObj (gridC q 0)).ext.controlDim = 1 := rfl
  rw [e3, e] at h2
  exact h2

/-- Exact arithmetic, the same constraint and `bias_negative = -5`. -/
noncomputable def exactC : Constraint (Fl id) (List ℝ) Unit :=
  { computeFn := fun x _ => ⟨x.getD 0 0⟩, phiFn := fun x _ => ⟨x.getD 0 0⟩, gradFn := fun _ _ => [1], alpha := some id, alphaNeg := none
    bias := 0, biasNegative := ⟨-5⟩, slackPriorityScale := none, params := (), enabled := true, subsample := {} }

theorem exact_term (y : Fl id) : computedTerm exactC id y = if y.val < 0 then y.val * 10 - 5 else y.val := by
  unfold computedTerm
  by_cases h : y < 0
  · rw [if_pos h, if_pos (show y.val < 0 from h)]
    show y.val * 10 + -5 = _
    ring
  · rw [if_neg h, if_neg (show ¬ y.val < 0 from h)]
    rfl

theorem exact_alpha (y : Fl id) : alphaTerm exactC y = .ok ⟨computedTerm exactC id y⟩ := by
  unfold alphaTerm computedTerm Constraint.alphaAt Constraint.alphaNegAt
  simp only [exactC]
  by_cases h : y < 0
  · rw [if_pos h, if_pos h]
  · rw [if_neg h, if_neg h]

/-- A trajectory that starts at `-1` with the desired control 20, which the module accepts. -/
theorem exact_loop : RoundedLoop pickSolver "c" exactC id univ 1 (fun x => stateAt x 0) (fun _ => gradAt 1 0 1) (fun _ => [0])
    (fun _ => [[1]]) (fun _ => [0]) (fun _ => [[1]]) (fun t => [-1 + 20 * t]) (fun _ => [20]) (fun _ => [0]) 0 0 0 0 0 0 Unit where
  isGrad := grad_coord univ (by decide)
  motion := single_disturbed fun t _ => by
    simpa using ((hasDerivAt_id t).const_mul (20 : ℝ)).const_add (-1)
  enabled := rfl
  noSlack := rfl
  alpha := rfl
  rate t ht := by
    simp [computedRate, vals, exactC, vadd, matVec, dot, val_zero, val_one, gradAt, List.range_succ]
  value t ht := by
    have e : (exactC.compute [-1 + 20 * t] exactC.params).val = -1 + 20 * t + 0 := rfl
    rw [e]
    simp [stateAt]
  filtered t ht := by
    obtain ⟨s', hcall⟩ := one_call (c := exactC) (fc := fun _ => [0]) (x := [-1 + 20 * t]) (p := 0) (u := ⟨20⟩) (fun _ => rfl) rfl rfl
      rfl (exact_alpha _) (by
        have e : dot [1] [0] = (1 : Fl id) * 0 + 0 := rfl
        have ew : vecMat [1] [[1]] 1 = [(1 : Fl id) * 1 + 0] := rfl
        have ev : (exactC.compute [-1 + 20 * t] ()).val = -1 + 20 * t := by
          show (-1 + 20 * t) + 0 = _
          ring
        rw [e, ew, exact_term, ev]
        simp only [val_sub, val_neg, val_add, val_mul, val_zero, val_one, id, vals, List.map_cons, List.map_nil]
        simp only [dot]
        split <;> simp <;> linarith)
    refine ⟨oneObj exactC, s', 1, [⟨20⟩], [⟨20⟩], one_module _ _ _ rfl rfl, ?_, rfl, by simp [oneObj], .inl rfl, fun z hz hzn => ?_, rfl, hcall⟩
    · intro i l h hl
      simp [oneObj, Base.init, boundAt] at hl
    · unfold rowError
      simp [gam]

/-- It has recovered by time `1/5` at the latest (`κ = 5`). -/
example : ∀ t, (1 : ℝ) / 5 ≤ t → (0 : ℝ) ≤ stateAt [-1 + 20 * t] 0 := by
  have h := C103_recovery (η := 0) (κ := 5) le_rfl le_rfl le_rfl (by norm_num) (show RoundsBy 0 0 id by intro x; simp)
    (pickSolver_spec le_rfl) exact_loop (fun y hy => ?_) (by simp [stateAt])
  · intro t ht
    have := h t (by simp only [stateAt]; norm_num; linarith)
    simpa using this
  · rw [exact_term, if_pos (by linarith)]
    linarith

/-- By `C103_loop` it never falls below `-1`. -/
example : ∀ t, 0 ≤ t → -(1 : ℝ) ≤ stateAt [-1 + 20 * t] 0 := by
  have h := C103_loop (η := 1) le_rfl le_rfl le_rfl (show RoundsBy 0 0 id by intro x; simp)
    (pickSolver_spec le_rfl) exact_loop (fun y hy => ?_) (by simp [stateAt])
  · exact h
  · rw [exact_term, if_pos (by linarith)]
    linarith

end RTA
