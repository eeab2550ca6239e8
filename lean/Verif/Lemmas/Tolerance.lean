import Verif.Spec.Tolerance
import Verif.Lemmas.ASIFConvex
import Verif.Lemmas.ASIFCall

/-!
Helper lemmas for C98: inequalities that hold up to a tolerance, and what clipping does to them.
-/
set_option linter.unusedSectionVars false
namespace RTA
variable {K S P X : Type} [Field K] [LinearOrder K] [IsStrictOrderedRing K]

/-! ### Bounds -/

omit [IsStrictOrderedRing K] in
theorem withinBy_iff {η : K} {lo hi : Option (Bound K)} {u : List K} :
    WithinBy η lo hi u ↔ (∀ i, i < u.length → ∀ b, boundAt lo i = some b → b - η ≤ u.getD i 0) ∧
      (∀ i, i < u.length → ∀ b, boundAt hi i = some b → u.getD i 0 ≤ b + η) := by
  unfold WithinBy
  have key : ∀ i, i < u.length → u[i]? = some (u.getD i 0) := by
    intro i hi; simp [List.getD_eq_getElem?_getD, hi]
  constructor
  · intro h
    exact ⟨fun i hi => (h i _ (key i hi)).1, fun i hi => (h i _ (key i hi)).2⟩
  · rintro ⟨h1, h2⟩ i v hv
    have hi : i < u.length := by
      by_contra hc
      rw [List.getElem?_eq_none (by omega)] at hv
      simp at hv
    rw [key i hi] at hv
    simp only [Option.some.injEq] at hv
    subst hv
    exact ⟨h1 i hi, h2 i hi⟩

theorem actuation_by {η : K} {lo hi : Option (Bound K)} {n k : Nat} {rows : List (Row K)} {names : List String}
    (h : actuationMats lo hi n k = .ok (rows, names)) {u d : List K} (hu : u.length = n) :
    (∀ r ∈ rows, r.b - η ≤ dot r.w (u ++ d)) ↔ WithinBy η lo hi u := by
  rw [withinBy_iff, hu]
  have low : ∀ {b : Bound K} {l : List K}, lowerBoundVec b n = .ok l →
      ((∀ r ∈ lowRows l n k, r.b - η ≤ dot r.w (u ++ d)) ↔ ∀ i, i < n → ∀ c, boundAt (some b) i = some c → c - η ≤ u.getD i 0) := by
    intro b l hl
    unfold lowRows
    simp only [List.mem_map, List.mem_range, forall_exists_index, and_imp, forall_apply_eq_imp_iff₂]
    refine forall₂_congr fun i hi => ?_
    rw [dot_append (by simp [hu]), dot_zeros_left, dot_eyeRow n i u hi hu, add_zero, (lowerBoundVec_spec hl).2 i hi]
    simp
  have high : ∀ {b : Bound K} {l : List K}, lowerBoundVec b n = .ok l →
      ((∀ r ∈ highRows l n k, r.b - η ≤ dot r.w (u ++ d)) ↔ ∀ i, i < n → ∀ c, boundAt (some b) i = some c → u.getD i 0 ≤ c + η) := by
    intro b l hl
    unfold highRows
    simp only [List.mem_map, List.mem_range, forall_exists_index, and_imp, forall_apply_eq_imp_iff₂]
    refine forall₂_congr fun i hi => ?_
    rw [dot_append (by simp [hu]), dot_zeros_left, dot_neg_left, dot_eyeRow n i u hi hu, add_zero, (lowerBoundVec_spec hl).2 i hi]
    simp only [Option.some.injEq, forall_eq']
    constructor <;> intro h <;> linarith
  unfold actuationMats at h
  cases lo with
  | none =>
    cases hi with
    | none =>
      simp only [Except.ok.injEq, Prod.mk.injEq] at h
      obtain ⟨rfl, rfl⟩ := h
      simp [boundAt]
    | some b =>
      simp only at h
      rcases hl : lowerBoundVec b n with e | l
      · simp [hl] at h
      · simp only [hl, Except.ok.injEq, Prod.mk.injEq, List.nil_append] at h
        obtain ⟨rfl, rfl⟩ := h
        rw [high hl]
        simp [boundAt]
  | some b =>
    rcases hl : lowerBoundVec b n with e | l
    · simp [hl] at h
    · cases hi with
      | none =>
        simp only [hl, Except.ok.injEq, Prod.mk.injEq] at h
        obtain ⟨rfl, rfl⟩ := h
        rw [low hl]
        simp [boundAt]
      | some b' =>
        rcases hl' : lowerBoundVec b' n with e | l'
        · simp [hl, hl'] at h
        · simp only [hl, hl', Except.ok.injEq, Prod.mk.injEq] at h
          obtain ⟨rfl, rfl⟩ := h
          simp only [List.mem_append, or_imp, forall_and]
          rw [low hl, high hl']

/-! ### Rows -/

theorem rows_to_by {η : K} {f : S → List K} {g : S → List (List K)} {x : S} {u d : List K} {rows : List (Row K)}
    {as : List (Constraint K S P × K)} (h : List.Forall₂ (RepBarrier f g x u d) rows as)
    (hr : ∀ r ∈ rows, r.b - η ≤ dot r.w (u ++ d)) :
    ∀ cd ∈ as, cd.1.enabled = true → ∃ m, barrierValue f g cd.1 x u = some m ∧ cd.2 - η ≤ m := by
  induction h with
  | nil => simp
  | @cons r cd rows as hab _ ih =>
    intro cd' hcd hen
    rcases List.mem_cons.1 hcd with rfl | hcd
    · unfold RepBarrier at hab
      rw [if_pos hen] at hab
      refine ⟨_, hab, ?_⟩
      have := hr r (by simp)
      unfold margin
      linarith
    · exact ih (fun r hr' => hr r (by simp [hr'])) cd' hcd hen

theorem by_to_rows {η : K} {f : S → List K} {g : S → List (List K)} {x : S} {u d : List K} {rows : List (Row K)}
    {as : List (Constraint K S P × K)} (h : List.Forall₂ (RepBarrier f g x u d) rows as)
    (ha : ∀ cd ∈ as, cd.1.enabled = true → ∃ m, barrierValue f g cd.1 x u = some m ∧ cd.2 - η ≤ m) :
    ∀ r ∈ rows, r.b - η ≤ dot r.w (u ++ d) ∨ ZeroRow r := by
  induction h with
  | nil => simp
  | @cons r cd rows as hab _ ih =>
    intro r' hr
    rcases List.mem_cons.1 hr with rfl | hr
    · unfold RepBarrier at hab
      by_cases hen : cd.1.enabled = true
      · rw [if_pos hen] at hab
        obtain ⟨m, hm, hle⟩ := ha cd (by simp) hen
        rw [hab, Option.some.injEq] at hm
        unfold margin at hm
        left; linarith
      · rw [if_neg hen] at hab
        exact Or.inr hab
    · exact ih (fun cd hcd => ha cd (by simp [hcd])) r' hr

theorem drows_to_by {η : K} {x : S} {u d : List K} {rows : List (Row K)} {ds : Dict (DirectConstraint K S P)}
    (h : List.Forall₂ (RepDirect x u d) rows ds) (hr : ∀ r ∈ rows, r.b - η ≤ dot r.w (u ++ d)) :
    ∀ kc ∈ ds, kc.2.enabled = true → kc.2.ineqConstant x kc.2.params - η ≤ dot (kc.2.ineqWeight x kc.2.params) u := by
  induction h with
  | nil => simp
  | @cons r kc rows ds hab _ ih =>
    intro kc' hkc hen
    rcases List.mem_cons.1 hkc with rfl | hkc
    · unfold RepDirect at hab
      rw [if_pos hen] at hab
      have := hr r (by simp)
      unfold margin at hab
      linarith
    · exact ih (fun r hr' => hr r (by simp [hr'])) kc' hkc hen

theorem by_to_drows {η : K} {x : S} {u d : List K} {rows : List (Row K)} {ds : Dict (DirectConstraint K S P)}
    (h : List.Forall₂ (RepDirect x u d) rows ds)
    (ha : ∀ kc ∈ ds, kc.2.enabled = true → kc.2.ineqConstant x kc.2.params - η ≤ dot (kc.2.ineqWeight x kc.2.params) u) :
    ∀ r ∈ rows, r.b - η ≤ dot r.w (u ++ d) ∨ ZeroRow r := by
  induction h with
  | nil => simp
  | @cons r kc rows ds hab _ ih =>
    intro r' hr
    rcases List.mem_cons.1 hr with rfl | hr
    · unfold RepDirect at hab
      by_cases hen : kc.2.enabled = true
      · rw [if_pos hen] at hab
        have := ha kc (by simp) hen
        unfold margin at hab
        left; linarith
      · rw [if_neg hen] at hab
        exact Or.inr hab
    · exact ih (fun kc hkc => ha kc (by simp [hkc])) r' hr

section
variable [HasSqrt K]

/-- The rows of an explicit module, up to `η`, mean its conditions up to `η`. -/
theorem explicit_by {f : S → List K} {g : S → List (List K)} {s : ASIFObj K S P X} (hinv : ASIFInv s)
    (hnames : ExplicitNames s) {x : S} {dt : K} {u0 : List K} {s1 : ASIFObj K S P X} {rows drows : List (Row K)}
    (hr : explicitGenRows f g (aprep s x u0) x dt = (.ok rows, s1))
    (hd : directRows (aprep s x u0).ext.directParams (aprep s x u0).ext.directEnabled s.ext.controlDim s.ext.numSlack x
      s.ext.direct = .ok drows) (η : K) {u d : List K} (hu : u.length = s.ext.controlDim) (hd' : d.length = s.ext.numSlack) :
    ((∀ r ∈ rows ++ drows, r.b - η ≤ dot r.w (u ++ d)) → AdmissibleBy η f g s x u d) ∧
    (AdmissibleBy η f g s x u d → ∀ r ∈ rows ++ drows, r.b - η ≤ dot r.w (u ++ d) ∨ (r.b = 0 ∧ ∀ w ∈ r.w, w = 0)) := by
  obtain ⟨-, bar, hbar, rfl⟩ := explicitGenRows_ok hr
  obtain ⟨names, hact, -⟩ := hnames
  have hcf := cachesFresh_aprep hinv.wf x u0
  have hdf := directFresh_aprep hinv x u0
  have e1 : (aprep s x u0).ext.controlDim = s.ext.controlDim := rfl
  have e2 : (aprep s x u0).ext.numSlack = s.ext.numSlack := rfl
  have e3 : (aprep s x u0).constraints = s.constraints := rfl
  have e4 : (aprep s x u0).ext.actuation = s.ext.actuation := rfl
  rw [e1, e2, e3] at hbar
  rw [e4]
  have hcp := hcf.params
  have hce := hcf.enabled
  rw [e3] at hcp hce
  obtain ⟨-, brep⟩ := explicitRows_spec s.constraints hcp hce 0 (by rw [hinv.slack]; omega) hbar
  obtain ⟨-, drep⟩ := directRows_spec s.ext.direct hdf.1 hdf.2 hd
  have b := brep u d hu hd'
  rw [List.drop_zero] at b
  have dr := drep u d hu hd'
  constructor
  · intro h
    exact ⟨hu, hd'.trans hinv.slack, (actuation_by hact hu).1 fun r hr => h r (by simp [hr]),
      rows_to_by b fun r hr => h r (by simp [hr]), drows_to_by dr fun r hr => h r (by simp [hr])⟩
  · intro h r hr
    rcases List.mem_append.1 hr with hr | hr
    · rcases List.mem_append.1 hr with hr | hr
      · exact Or.inl ((actuation_by hact hu).2 h.bounds r hr)
      · exact by_to_rows b h.barrier r hr
    · exact by_to_drows dr h.direct r hr

end

/-! ### Clipping -/

theorem clip1_near {η : K} (hη : 0 ≤ η) {lo hi : Option K} {a : K} (h1 : ∀ b, lo = some b → b - η ≤ a)
    (h2 : ∀ b, hi = some b → a ≤ b + η) : |clip1 lo hi a - a| ≤ η := by
  unfold clip1
  rw [abs_le]
  cases lo with
  | none =>
    cases hi with
    | none => simp only; constructor <;> linarith
    | some b =>
      have := h2 b rfl
      simp only
      constructor
      · rcases min_choice a b with h | h <;> rw [h] <;> linarith
      · linarith [min_le_left a b]
  | some c =>
    have k1 := h1 c rfl
    have m1 : max a c ≤ a + η := max_le (by linarith) (by linarith)
    have m2 := le_max_left a c
    cases hi with
    | none => simp only; constructor <;> linarith
    | some b =>
      have k2 := h2 b rfl
      simp only
      constructor
      · rcases min_choice (max a c) b with h | h <;> rw [h] <;> linarith
      · linarith [min_le_left (max a c) b]

/-- Clipping a control that respects the bounds up to `η` moves every component by at most `η`. -/
theorem clip_near {η : K} (hη : 0 ≤ η) {lo hi : Option (Bound K)} {w v : List K} (hlo : BoundFits w.length lo)
    (hhi : BoundFits w.length hi) (hw : WithinBy η lo hi w) (h : npClip lo hi w = .ok v) :
    v.length = w.length ∧ ∀ i, |v.getD i 0 - w.getD i 0| ≤ η := by
  obtain ⟨y, hy, hl, hyi⟩ := npClip_fits hlo hhi
  rw [h] at hy
  simp only [Except.ok.injEq] at hy
  subst hy
  refine ⟨hl, fun i => ?_⟩
  by_cases hi' : i < w.length
  · have hw' : w[i]? = some (w.getD i 0) := by simp [List.getD_eq_getElem?_getD, hi']
    have hv : v.getD i 0 = clip1 (boundAt lo i) (boundAt hi i) (w.getD i 0) := by
      have := hyi i
      rw [hw', Option.map_some] at this
      rw [List.getD_eq_getElem?_getD, this]
      rfl
    rw [hv]
    obtain ⟨a, b⟩ := hw i _ hw'
    exact clip1_near hη a b
  · have e1 : w.getD i 0 = 0 := by simp [List.getD_eq_getElem?_getD, hi']
    have e2 : v.getD i 0 = 0 := by simp [List.getD_eq_getElem?_getD, hl, hi']
    rw [e1, e2]
    simpa using hη

theorem oneNorm_nonneg (l : List K) : 0 ≤ oneNorm l := by
  induction l with
  | nil => simp [oneNorm]
  | cons a l ih =>
    have e : oneNorm (a :: l) = |a| + oneNorm l := by simp [oneNorm]
    rw [e]
    exact add_nonneg (abs_nonneg a) ih

theorem dot_near_le {η : K} (hη : 0 ≤ η) (r : List K) {v w : List K} (hl : v.length = w.length)
    (h : ∀ i, |v.getD i 0 - w.getD i 0| ≤ η) : dot r w - η * oneNorm r ≤ dot r v := by
  induction r generalizing v w with
  | nil => simp [oneNorm, dot]
  | cons p r ih =>
    cases v with
    | nil =>
      cases w with
      | nil =>
        have := oneNorm_nonneg (p :: r)
        simp only [dot_nil_right]
        nlinarith
      | cons b w => simp at hl
    | cons a v =>
      cases w with
      | nil => simp at hl
      | cons b w =>
        have h0 : |a - b| ≤ η := h 0
        have := ih (v := v) (w := w) (by simpa using hl) fun i => h (i + 1)
        rw [dot_cons, dot_cons]
        have e : oneNorm (p :: r) = |p| + oneNorm r := by simp [oneNorm]
        rw [e]
        have h1 : -(|p| * η) ≤ p * (a - b) := by
          have := mul_le_mul_of_nonneg_left h0 (abs_nonneg p)
          rw [← abs_mul] at this
          linarith [neg_abs_le (p * (a - b))]
        nlinarith

/-- The barrier condition loses at most `η` times the authority when every component of the control moves by at most `η`. -/
theorem barrierValue_near {η : K} (hη : 0 ≤ η) {f : S → List K} {g : S → List (List K)} {c : Constraint K S P} {x : S} {n : Nat}
    (hin : (g x).length = (f x).length) (hg : (c.gradFn x c.params).length = (f x).length) (hc : ∀ r ∈ g x, r.length = n)
    {v w : List K} (hv : v.length = n) (hw : w.length = n) (h : ∀ i, |v.getD i 0 - w.getD i 0| ≤ η) {m : K}
    (hm : barrierValue f g c x w = some m) : ∃ m', barrierValue f g c x v = some m' ∧ m - η * authority g n c x ≤ m' := by
  unfold barrierValue at hm ⊢
  cases ha : c.alpha with
  | none => rw [ha] at hm; simp at hm
  | some al =>
    rw [ha, Option.map_some, Option.some.injEq] at hm
    refine ⟨_, rfl, ?_⟩
    have lw : (f x).length = (matVec (g x) w).length := by rw [matVec_length, hin]
    have lv : (f x).length = (matVec (g x) v).length := by rw [matVec_length, hin]
    have e1 := dot_vadd_right (v := c.gradFn x c.params) lw
    have e2 := dot_vadd_right (v := c.gradFn x c.params) lv
    have e3 : dot (vecMat (c.gradFn x c.params) (g x) n) w = dot (c.gradFn x c.params) (matVec (g x) w) :=
      dot_vecMat _ _ _ _ hc (hg.trans hin.symm) hw
    have e4 : dot (vecMat (c.gradFn x c.params) (g x) n) v = dot (c.gradFn x c.params) (matVec (g x) v) :=
      dot_vecMat _ _ _ _ hc (hg.trans hin.symm) hv
    have := dot_near_le hη (vecMat (c.gradFn x c.params) (g x) n) (hv.trans hw.symm) h
    unfold authority
    rw [← hm, e1, e2]
    linarith

/-! ### Calls -/

section
variable [HasSqrt K]

/-- A successful call with a solver with tolerances. -/
theorem tol_solved [LawfulSqrt K] {ε δ : K} {solver : Solver K} (hspec : SolverTol ε δ solver) {f : S → List K}
    {g : S → List (List K)} {s s' : ASIFObj K S P X} (hinv : ASIFInv s) (hnames : ExplicitNames s)
    (hpos : ScalesPos s.constraints) {x : S} {dt : K} {u v : List K} (hen : s.enable = true)
    (h : explicitASIF solver f g s (.array x) dt u = (.ok v, s'))
    (hsol : s.ext.solverException = true ∨ ∃ w d, AdmissibleBy (-ε) f g s x w d) :
    u.length = s.ext.controlDim ∧ ∃ w d, AdmissibleBy ε f g s x w d ∧ s.toBase.clipControl w = .ok v ∧
      (∀ w' e, AdmissibleS f g s x w' e → slackCost (qpWeights s) u w d ≤ slackCost (qpWeights s) u w' e + 2 * δ) ∧
      s'.intervening = asifMonitor s.ext.epsilon u w := by
  obtain ⟨nm, ex, rows, drows, w0, cz, hgen, hdir, hout, hclip, hs'⟩ := asif_ok (genFrame_explicit f g) hen h
  have hG := objWeight_pos hinv hpos
  have hGl := objWeight_length hinv
  cases hout with
  | infeasible hq hx =>
    rcases hsol with hsol | ⟨wa, da, hwa⟩
    · rw [hx] at hsol; simp at hsol
    · obtain ⟨hqs, hal, hrw⟩ := quadprogSolve_dims (Or.inr hq)
      have hda := hwa.slen.trans hinv.slack.symm
      refine absurd ⟨wa ++ da, ?_, fun r hr => ?_⟩ (hspec.failed _ _ _ _ hG hal hrw (hqs.symm.trans hq)).2
      · rw [List.length_append, hGl, hwa.len, hda]
      · have := (explicit_by hinv hnames hgen hdir (-ε) hwa.len hda).2 hwa r hr
        rwa [sub_neg_eq_add] at this
  | @solved z iact l hq hcause =>
    obtain ⟨hqs, hal, hrw⟩ := quadprogSolve_dims (Or.inl ⟨_, _, hq⟩)
    obtain ⟨hzl', hrows, hmin, -⟩ := hspec.solved _ _ _ _ _ hG hal hrw (hqs.symm.trans hq)
    have hul : u.length = s.ext.controlDim := by
      rw [hGl, List.length_append, zeros_length] at hal; omega
    have hzl : z.length = s.ext.controlDim + s.ext.numSlack := hzl'.trans hGl
    have hvl : (z.take s.ext.controlDim).length = s.ext.controlDim := by rw [List.length_take]; omega
    have hdl : (z.drop s.ext.controlDim).length = s.ext.numSlack := by rw [List.length_drop]; omega
    have hz : z.take s.ext.controlDim ++ z.drop s.ext.controlDim = z := List.take_append_drop _ _
    refine ⟨hul, _, z.drop s.ext.controlDim, (explicit_by hinv hnames hgen hdir ε hvl hdl).1 ?_, hclip, ?_, ?_⟩
    · rw [hz]; exact hrows
    · intro w' e hwe
      have hfe := (explicit_feasible hinv hnames hgen hdir hwe.len (hwe.slen.trans hinv.slack.symm)).2 hwe
      have := hmin _ hfe
      have c1 := qpObj_eq_cost hinv (d := z.drop s.ext.controlDim) hul hvl
      rw [hz] at c1
      rw [c1, qpObj_eq_cost hinv hul hwe.len] at this
      linarith
    · rw [hs']; rfl


/-- With such a solver a call returns whenever some control meets the conditions with margin `ε`, or the module does not raise on
failure. -/
theorem tol_total [LawfulSqrt K] {ε δ : K} {solver : Solver K} (hspec : SolverTol ε δ solver) {f : S → List K}
    {g : S → List (List K)} {s : ASIFObj K S P X} (hinv : ASIFInv s) (hnames : ExplicitNames s)
    (hpos : ScalesPos s.constraints) {x : S} (hsh : ShapesOK f g s x) (dt : K) {u : List K}
    (hu : u.length = s.ext.controlDim) (hen : s.enable = true)
    (hsol : s.ext.solverException = false ∨ ∃ w d, AdmissibleBy (-ε) f g s x w d) :
    ∃ v, (explicitASIF solver f g s (.array x) dt u).1 = .ok v := by
  have hcf := cachesFresh_aprep hinv.wf x u
  have hdf := directFresh_aprep hinv x u
  obtain ⟨bar, hbar⟩ := explicitRows_total (n := s.ext.controlDim) (k := s.ext.numSlack) s.constraints hcf.params hcf.enabled
    hsh.alpha hsh.grad hsh.input hsh.cols 0
  obtain ⟨drows, hdr⟩ := directRows_total (n := s.ext.controlDim) (k := s.ext.numSlack) s.ext.direct hdf.1 hdf.2 hsh.direct
  have hgen : explicitGenRows f g (aprep s x u) x dt = (.ok (s.ext.actuation ++ bar), aprep s x u) := by
    unfold explicitGenRows
    have e : explicitRows f g (aprep s x u).params (aprep s x u).constraintEnabled (aprep s x u).ext.controlDim
      (aprep s x u).ext.numSlack x 0 (aprep s x u).constraints = .ok bar := hbar
    rw [e]
    rfl
  obtain ⟨hl, hwid, -⟩ := explicit_rep hinv hnames hgen hdr
  have hG := objWeight_pos hinv hpos
  have hGl := objWeight_length hinv
  have hal : (u ++ zeros s.ext.numSlack).length = s.ext.objWeight.length := by
    rw [List.length_append, zeros_length, hGl, hu]
  have hrw : ∀ r ∈ s.ext.actuation ++ bar ++ drows, r.w.length = s.ext.objWeight.length := by
    rw [hGl]; exact hwid
  have hqs : quadprogSolve solver s.ext.objWeight (u ++ zeros s.ext.numSlack) (s.ext.actuation ++ bar ++ drows) =
      solver s.ext.objWeight (u ++ zeros s.ext.numSlack) (s.ext.actuation ++ bar ++ drows) := by
    unfold quadprogSolve
    rw [if_pos ⟨hal, hrw⟩]
  obtain ⟨names, hact⟩ := hinv.act
  obtain ⟨fl, fh⟩ := boundFits_of_act hact
  have hfilter : asifFilter solver (explicitGenRows f g) (prep s x u) x dt u =
      match optimize solver (aprep s x u) u (s.ext.actuation ++ bar ++ drows) with
      | (.error e, s1) => (.error e, s1)
      | (.ok actual, s1) => (.ok actual, { s1 with intervening := asifMonitor s1.ext.epsilon u actual }) := by
    unfold asifFilter
    have e : updateDirectParams (prep s x u) = aprep s x u := rfl
    simp only [e, hgen]
    have e2 : directRows (aprep s x u).ext.directParams (aprep s x u).ext.directEnabled (aprep s x u).ext.controlDim
        (aprep s x u).ext.numSlack x (aprep s x u).ext.direct = .ok drows := hdr
    simp only [e2]
    rcases optimize solver (aprep s x u) u (s.ext.actuation ++ bar ++ drows) with ⟨_ | c, s1⟩ <;> rfl
  have ecall : explicitASIF solver f g s (.array x) dt u =
      match asifFilter solver (explicitGenRows f g) (prep s x u) x dt u with
      | (.error e, s1) => (.error e, s1)
      | (.ok c, s1) =>
        match s1.toBase.clipControl c with
        | .error e => (.error e, withActual s1 c)
        | .ok c' => (.ok c', withActual s1 c') := by
    unfold explicitASIF
    rw [call_eq _ hen]
    rcases asifFilter solver (explicitGenRows f g) (prep s x u) x dt u with ⟨_ | c, s1⟩
    · rfl
    · simp only
      rcases s1.toBase.clipControl c with _ | c' <;> rfl
  have w1 : (aprep s x u).ext.objWeight = s.ext.objWeight := rfl
  have w2 : (aprep s x u).ext.numSlack = s.ext.numSlack := rfl
  have w3 : (aprep s x u).ext.controlDim = s.ext.controlDim := rfl
  have w4 : (aprep s x u).ext.constraintNames = s.ext.constraintNames := rfl
  have w5 : (aprep s x u).ext.solverException = s.ext.solverException := rfl
  rcases hq : solver s.ext.objWeight (u ++ zeros s.ext.numSlack) (s.ext.actuation ++ bar ++ drows) with ⟨z, iact⟩ | msg
  · obtain ⟨hzl, -, -, hrowat⟩ := hspec.solved _ _ _ _ _ hG hal hrw hq
    have hir : ∀ i ∈ iact, 1 ≤ i ∧ (i - 1).toNat < s.ext.constraintNames.length := by
      intro i hi
      obtain ⟨r, hr⟩ := Option.isSome_iff_exists.1 (hrowat i hi)
      obtain ⟨h1, h2, -⟩ := rowAt_some hr
      rw [hl]
      exact ⟨h1, h2⟩
    obtain ⟨l, hlp, -, -⟩ := causingLoop_spec s.ext.constraintNames iact hir [] List.nodup_nil
    have hvl : (z.take s.ext.controlDim).length = s.ext.controlDim := by rw [List.length_take]; omega
    obtain ⟨c, hc, -⟩ := C05_clip_total s.toBase (z.take s.ext.controlDim) (by rw [hvl]; exact fl) (by rw [hvl]; exact fh)
    have hopt : optimize solver (aprep s x u) u (s.ext.actuation ++ bar ++ drows) =
        (.ok (z.take s.ext.controlDim), (aprep s x u).setExt { (aprep s x u).ext with causing := some l }) := by
      unfold optimize
      simp only [w1, w2, w3, w4, hqs, hq, hlp]
    refine ⟨c, ?_⟩
    rw [ecall, hfilter, hopt]
    simp only
    rw [clipControl_congr s.toBase, hc]
    · rfl
    · rfl
  · obtain ⟨rfl, hno⟩ := hspec.failed _ _ _ _ hG hal hrw hq
    rcases hsol with hx | ⟨wa, da, hwa⟩
    · have ht := zeros_append_take (k := s.ext.numSlack) hu
      have hopt : optimize solver (aprep s x u) u (s.ext.actuation ++ bar ++ drows) = (.ok u, aprep s x u) := by
        unfold optimize
        simp only [w1, w2, w3, w5, hqs, hq, hx, ht]
        simp
      obtain ⟨c, hc, -⟩ := C05_clip_total s.toBase u (by rw [hu]; exact fl) (by rw [hu]; exact fh)
      refine ⟨c, ?_⟩
      rw [ecall, hfilter, hopt]
      simp only
      rw [clipControl_congr s.toBase, hc]
      · rfl
      · rfl
    · have hda := hwa.slen.trans hinv.slack.symm
      refine absurd ⟨wa ++ da, ?_, fun r hr => ?_⟩ hno
      · rw [List.length_append, hGl, hwa.len, hda]
      · have := (explicit_by hinv hnames hgen hdr (-ε) hwa.len hda).2 hwa r hr
        rwa [sub_neg_eq_add] at this

/-- The relaxed version of a correct solver finds the best control among those that meet the conditions up to `ε`. -/
theorem relaxed_solved [LawfulSqrt K] {ε : K} (hε : 0 ≤ ε) {solver : Solver K} (hspec : SolverSpec solver) {f : S → List K}
    {g : S → List (List K)} {s s' : ASIFObj K S P X} (hinv : ASIFInv s) (hnames : ExplicitNames s)
    (hpos : ScalesPos s.constraints) {x : S} {dt : K} {u v : List K} (hen : s.enable = true)
    (h : explicitASIF (relaxedSolver ε solver) f g s (.array x) dt u = (.ok v, s')) (hsol : ∃ w d, AdmissibleBy ε f g s x w d) :
    ∃ w d, AdmissibleBy ε f g s x w d ∧ s.toBase.clipControl w = .ok v ∧
      ∀ w' e, AdmissibleBy ε f g s x w' e → slackCost (qpWeights s) u w d ≤ slackCost (qpWeights s) u w' e := by
  obtain ⟨nm, ex, rows, drows, w0, cz, hgen, hdir, hout, hclip, -⟩ := asif_ok (genFrame_explicit f g) hen h
  have hG := objWeight_pos hinv hpos
  have hGl := objWeight_length hinv
  have tofe : ∀ {w' e : List K}, AdmissibleBy ε f g s x w' e →
      Feasible s.ext.objWeight.length ((rows ++ drows).map fun r => (⟨r.w, r.b - ε⟩ : Row K)) (w' ++ e) := by
    intro w' e hwe
    have hda := hwe.slen.trans hinv.slack.symm
    refine ⟨by rw [List.length_append, hGl, hwe.len, hda], fun r hr => ?_⟩
    obtain ⟨q, hq, rfl⟩ := List.mem_map.1 hr
    show q.b - ε ≤ dot q.w (w' ++ e)
    rcases (explicit_by hinv hnames hgen hdir ε hwe.len hda).2 hwe q hq with h1 | h1
    · exact h1
    · have : q.b ≤ dot q.w (w' ++ e) := zeroRow_holds h1 _
      linarith
  have hmap : (∀ r ∈ rows ++ drows, r.w.length = s.ext.objWeight.length) →
      ∀ r ∈ (rows ++ drows).map fun r => (⟨r.w, r.b - ε⟩ : Row K), r.w.length = s.ext.objWeight.length := by
    intro h r hr
    obtain ⟨q, hq, rfl⟩ := List.mem_map.1 hr
    exact h q hq
  cases hout with
  | infeasible hq hx =>
    obtain ⟨hqs, hal, hrw⟩ := quadprogSolve_dims (Or.inr hq)
    have hrw' := hmap hrw
    obtain ⟨wa, da, hwa⟩ := hsol
    exact absurd ⟨_, tofe hwa⟩ (hspec.failed _ _ _ _ hG hal hrw' (hqs.symm.trans hq)).2
  | @solved z iact l hq hcause =>
    obtain ⟨hqs, hal, hrw⟩ := quadprogSolve_dims (Or.inl ⟨_, _, hq⟩)
    have hrw' := hmap hrw
    obtain ⟨hf, hmin, -⟩ := hspec.solved _ _ _ _ _ hG hal hrw' (hqs.symm.trans hq)
    have hul : u.length = s.ext.controlDim := by
      rw [hGl, List.length_append, zeros_length] at hal; omega
    have hzl : z.length = s.ext.controlDim + s.ext.numSlack := hf.1.trans hGl
    have hvl : (z.take s.ext.controlDim).length = s.ext.controlDim := by rw [List.length_take]; omega
    have hdl : (z.drop s.ext.controlDim).length = s.ext.numSlack := by rw [List.length_drop]; omega
    have hz : z.take s.ext.controlDim ++ z.drop s.ext.controlDim = z := List.take_append_drop _ _
    refine ⟨_, z.drop s.ext.controlDim, (explicit_by hinv hnames hgen hdir ε hvl hdl).1 ?_, hclip, ?_⟩
    · rw [hz]
      exact fun r hr => hf.2 _ (List.mem_map_of_mem hr)
    · intro w' e hwe
      have := hmin _ (tofe hwe)
      have c1 := qpObj_eq_cost hinv (d := z.drop s.ext.controlDim) hul hvl
      rw [hz] at c1
      rw [c1, qpObj_eq_cost hinv hul hwe.len] at this
      linarith

/-! ### Mixing -/

theorem mix_by {t η η' a b p q : K} (h0 : 0 ≤ t) (h1 : t ≤ 1) (hp : a - η ≤ p) (hq : b - η' ≤ q) :
    a + t * (b - a) - (η + t * (η' - η)) ≤ p + t * (q - p) := by
  nlinarith [mul_nonneg h0 (sub_nonneg.2 hq), mul_nonneg (sub_nonneg.2 h1) (sub_nonneg.2 hp)]

/-- Mixtures meet the conditions up to the mixture of the tolerances. -/
theorem admissibleBy_mix {f : S → List K} {g : S → List (List K)} {s : ASIFObj K S P X} {x : S} {t η η' : K} (h0 : 0 ≤ t)
    (h1 : t ≤ 1) {a b d e : List K} (ha : AdmissibleBy η f g s x a d) (hb : AdmissibleBy η' f g s x b e) :
    AdmissibleBy (η + t * (η' - η)) f g s x (mix t a b) (mix t d e) := by
  have hl := ha.len.trans hb.len.symm
  refine ⟨by simp [ha.len, hb.len], by simp [ha.slen, hb.slen], ?_, ?_, ?_⟩
  · intro i v hv
    unfold mix at hv
    rw [List.getElem?_zipWith] at hv
    rcases hp : a[i]? with _ | p
    · rw [hp] at hv; simp at hv
    · rcases hq : b[i]? with _ | q
      · rw [hp, hq] at hv; simp at hv
      · rw [hp, hq] at hv
        simp only [Option.some.injEq] at hv
        subst hv
        obtain ⟨l1, r1⟩ := ha.bounds i p hp
        obtain ⟨l2, r2⟩ := hb.bounds i q hq
        refine ⟨fun m hm => ?_, fun m hm => ?_⟩
        · have := mix_by h0 h1 (l1 m hm) (l2 m hm)
          linarith
        · have := mix_by (a := -m) (b := -m) (p := -p) (q := -q) (η := η) (η' := η') h0 h1 (by linarith [r1 m hm])
            (by linarith [r2 m hm])
          linarith
  · intro cd hcd hen
    obtain ⟨p, q, hp, hq, hpq⟩ := assignSlack_mix t s.constraints (ha.slen.trans hb.slen.symm) cd hcd
    obtain ⟨m, hm, hdm⟩ := ha.barrier _ hp hen
    obtain ⟨n, hn, hen'⟩ := hb.barrier _ hq hen
    unfold barrierValue at *
    cases hal : cd.1.alpha with
    | none => rw [hal] at hm; simp at hm
    | some al =>
      rw [hal] at hm hn
      simp only [Option.map_some, Option.some.injEq] at hm hn ⊢
      refine ⟨_, rfl, ?_⟩
      rw [flow_mix f g x t hl, dot_mix t _ (flow_length f g x a b)]
      have := mix_by h0 h1 hdm hen'
      rw [← hm, ← hn] at this
      linarith
  · intro kc hkc hen
    have := mix_by h0 h1 (ha.direct kc hkc hen) (hb.direct kc hkc hen)
    rw [dot_mix t _ hl]
    linarith

omit [IsStrictOrderedRing K] [HasSqrt K] in
theorem admissibleBy_zero {f : S → List K} {g : S → List (List K)} {s : ASIFObj K S P X} {x : S} {u d : List K} :
    AdmissibleBy 0 f g s x u d ↔ AdmissibleS f g s x u d := by
  constructor
  · rintro ⟨h1, h2, h3, h4, h5⟩
    refine ⟨h1, h2, fun i v hv => ?_, fun cd hcd hen => ?_, fun kc hkc hen => ?_⟩
    · have := h3 i v hv
      simpa [WithinAt] using this
    · obtain ⟨m, hm, hle⟩ := h4 cd hcd hen
      exact ⟨m, hm, by simpa using hle⟩
    · have := h5 kc hkc hen
      rw [sub_zero] at this
      exact this
  · rintro ⟨h1, h2, h3, h4, h5⟩
    refine ⟨h1, h2, fun i v hv => ?_, fun cd hcd hen => ?_, fun kc hkc hen => ?_⟩
    · have := h3 i v hv
      simpa [WithinAt] using this
    · obtain ⟨m, hm, hle⟩ := h4 cd hcd hen
      exact ⟨m, hm, by simpa using hle⟩
    · have := h5 kc hkc hen
      rw [sub_zero]
      exact this

theorem admissibleBy_mono {f : S → List K} {g : S → List (List K)} {s : ASIFObj K S P X} {x : S} {u d : List K} {η η' : K}
    (h : η ≤ η') (ha : AdmissibleBy η f g s x u d) : AdmissibleBy η' f g s x u d := by
  refine ⟨ha.len, ha.slen, fun i v hv => ⟨fun b hb => ?_, fun b hb => ?_⟩, fun cd hcd hen => ?_, fun kc hkc hen => ?_⟩
  · have := (ha.bounds i v hv).1 b hb
    linarith
  · have := (ha.bounds i v hv).2 b hb
    linarith
  · obtain ⟨m, hm, hle⟩ := ha.barrier cd hcd hen
    exact ⟨m, hm, by linarith⟩
  · have := ha.direct kc hkc hen
    linarith

/-! ### Clipping in the module -/

theorem clipControl_near {η : K} (hη : 0 ≤ η) {b : Base K} {w v : List K} (hlo : BoundFits w.length b.controlBoundsLow)
    (hhi : BoundFits w.length b.controlBoundsHigh) (hw : WithinBy η b.controlBoundsLow b.controlBoundsHigh w)
    (h : b.clipControl w = .ok v) : v.length = w.length ∧ ∀ i, |v.getD i 0 - w.getD i 0| ≤ η := by
  unfold Base.clipControl at h
  by_cases hb : (b.controlBoundsLow.isSome || b.controlBoundsHigh.isSome) = true
  · rw [if_pos hb] at h
    exact clip_near hη hlo hhi hw h
  · rw [if_neg hb] at h
    simp only [Except.ok.injEq] at h
    subst h
    exact ⟨rfl, fun i => by simpa using hη⟩

omit [LinearOrder K] [IsStrictOrderedRing K] [HasSqrt K] in
theorem assignSlack_of {cs : Dict (Constraint K S P)} {d : List K} {cd : Constraint K S P × K} (h : cd ∈ assignSlack cs d) :
    ∃ k, (k, cd.1) ∈ cs := by
  induction cs generalizing d with
  | nil => simp [assignSlack] at h
  | cons q cs ih =>
    obtain ⟨kq, cq⟩ := q
    unfold assignSlack at h
    split at h
    · rcases List.mem_cons.1 h with rfl | h
      · exact ⟨kq, by simp⟩
      · obtain ⟨k, hk⟩ := ih h
        exact ⟨k, by simp [hk]⟩
    · rcases List.mem_cons.1 h with rfl | h
      · exact ⟨kq, by simp⟩
      · obtain ⟨k, hk⟩ := ih h
        exact ⟨k, by simp [hk]⟩

omit [LinearOrder K] [IsStrictOrderedRing K] [HasSqrt K] in
theorem assignSlack_zero {cs : Dict (Constraint K S P)} (d : List K) {k : String} {c : Constraint K S P} (h : (k, c) ∈ cs)
    (hns : c.slackPriorityScale = none) : (c, 0) ∈ assignSlack cs d := by
  induction cs generalizing d with
  | nil => simp at h
  | cons q cs ih =>
    obtain ⟨kq, cq⟩ := q
    unfold assignSlack
    rcases List.mem_cons.1 h with h | h
    · simp only [Prod.mk.injEq] at h
      obtain ⟨rfl, rfl⟩ := h
      simp [hns]
    · split
      · exact List.mem_cons_of_mem _ (ih _ h)
      · exact List.mem_cons_of_mem _ (ih _ h)

end

end RTA
