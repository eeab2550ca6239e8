import Verif.Spec.ToleranceMore
import Verif.Lemmas.ImplicitCall
import Verif.Lemmas.Tolerance
import Mathlib.Data.List.GetD

/-!
Helper lemmas for C102: implicit modules with solvers that have tolerances.
-/
set_option linter.unusedSectionVars false
namespace RTA
variable {K P A : Type} [Field K] [LinearOrder K] [IsStrictOrderedRing K] [FloorRing K] [HasSqrt K]

/-- A row per point looked at: its margin is the point's condition. -/
theorem points_to_by {η : K} {E : ImplicitEnv K} {s : ImplicitObj K P A} {x : List K} {dt : K} {u : List K}
    (hu : u.length = s.ext.controlDim) {rss : List (List (Row K))} {cs : Dict (Constraint K (List K) P)}
    (h : List.Forall₂ (RepPoints E s x dt (numPoints s dt) s.ext.controlDim) rss cs) :
    ((∀ r ∈ rss.flatten, r.b - η ≤ dot r.w u) →
      ∀ kc ∈ cs, kc.2.enabled = true → ∀ k ∈ pointsOf E s x dt kc.2, ∃ m, pointValue E s x dt kc.2 u k = some m ∧ -η ≤ m) ∧
    ((∀ kc ∈ cs, kc.2.enabled = true → ∀ k ∈ pointsOf E s x dt kc.2, ∃ m, pointValue E s x dt kc.2 u k = some m ∧ -η ≤ m) →
      ∀ r ∈ rss.flatten, r.b - η ≤ dot r.w u ∨ ZeroRow r) := by
  induction h with
  | nil => simp
  | @cons rs kc rss cs hrs _ ih =>
    have h1 : ∀ {l : List Nat} {rs : List (Row K)}, List.Forall₂ (fun r k => r.w.length = s.ext.controlDim ∧
        (kc.2.enabled = false → ZeroRow r) ∧ (kc.2.enabled = true → ∀ u : List K, u.length = s.ext.controlDim →
          pointValue E s x dt kc.2 u k = some (margin r u))) rs l →
        ((∀ r ∈ rs, r.b - η ≤ dot r.w u) → kc.2.enabled = true → ∀ k ∈ l, ∃ m, pointValue E s x dt kc.2 u k = some m ∧ -η ≤ m) ∧
        ((kc.2.enabled = true → ∀ k ∈ l, ∃ m, pointValue E s x dt kc.2 u k = some m ∧ -η ≤ m) →
          ∀ r ∈ rs, r.b - η ≤ dot r.w u ∨ ZeroRow r) := by
      intro l rs hF
      induction hF with
      | nil => simp
      | @cons r k rs l hr _ ih =>
        refine ⟨fun hall hen k' hk' => ?_, fun hall r' hr' => ?_⟩
        · rcases List.mem_cons.1 hk' with rfl | hk'
          · refine ⟨_, hr.2.2 hen u hu, ?_⟩
            have := hall r (by simp)
            unfold margin
            linarith
          · exact ih.1 (fun r hr => hall r (by simp [hr])) hen k' hk'
        · rcases List.mem_cons.1 hr' with rfl | hr'
          · cases hen : kc.2.enabled with
            | false => exact Or.inr (hr.2.1 hen)
            | true =>
              obtain ⟨m, hm, hle⟩ := hall hen k (by simp)
              rw [hr.2.2 hen u hu, Option.some.injEq] at hm
              unfold margin at hm
              left; linarith
          · exact ih.2 (fun hen k hk => hall hen k (by simp [hk])) r' hr'
    have h2 := h1 hrs
    refine ⟨fun hall kc' hkc => ?_, fun hall r hr => ?_⟩
    · rcases List.mem_cons.1 hkc with rfl | hkc
      · exact h2.1 fun r hr => hall r (by simp [hr])
      · exact ih.1 (fun r hr => hall r (by rw [List.flatten_cons]; exact List.mem_append_right _ hr)) kc' hkc
    · rw [List.flatten_cons] at hr
      rcases List.mem_append.1 hr with hr | hr
      · exact h2.2 (hall kc (by simp)) r hr
      · exact ih.2 (fun kc hkc => hall kc (by simp [hkc])) r hr

/-- The rows of an implicit module, up to `η`, mean its conditions up to `η`. -/
theorem implicit_by {E : ImplicitEnv K} {s : ImplicitObj K P A} (hinv : ASIFInv s) {x : List K} {dt : K} {u0 : List K}
    {s1 : ImplicitObj K P A} {rows drows : List (Row K)}
    (hr : implicitGenRows E.ad E.f E.g E.pred (aprep s x u0) x dt = (.ok rows, s1))
    (hd : directRows (aprep s x u0).ext.directParams (aprep s x u0).ext.directEnabled s.ext.controlDim s.ext.numSlack x
      s.ext.direct = .ok drows) (η : K) {u : List K} (hu : u.length = s.ext.controlDim) :
    ((∀ r ∈ rows ++ drows, r.b - η ≤ dot r.w u) → AdmissibleIBy η E s x dt u) ∧
    (AdmissibleIBy η E s x dt u → ∀ r ∈ rows ++ drows, r.b - η ≤ dot r.w u ∨ (r.b = 0 ∧ ∀ w ∈ r.w, w = 0)) := by
  obtain ⟨h1, ⟨rss, rfl, h2⟩, -⟩ := implicitGen_ok (cachesFresh_aprep hinv.wf x u0) hr
  have hns : s.ext.numSlack = 0 := by
    by_cases hc : s.constraints = []
    · rw [hinv.slack, hc]; rfl
    · exact h1 hc
  obtain ⟨names, hact⟩ := hinv.act
  have hdf := directFresh_aprep hinv x u0
  have e4 : (aprep s x u0).ext.actuation = s.ext.actuation := rfl
  rw [e4]
  obtain ⟨-, drep⟩ := directRows_spec s.ext.direct hdf.1 hdf.2 hd
  have dr := drep u [] hu (by rw [hns]; rfl)
  have h3 : List.Forall₂ (RepPoints E s x dt (numPoints s dt) s.ext.controlDim) rss s.constraints := by
    refine List.Forall₂.imp ?_ h2
    intro rs kc hr
    exact repPoints_same (samePath_aprep s x u0) hr
  have pt := points_to_by (η := η) hu h3
  have ac := actuation_by (η := η) (d := []) hact hu
  rw [List.append_nil] at ac
  constructor
  · intro h
    refine ⟨hu, ac.1 fun r hr => h r (by simp [hr]), pt.1 fun r hr => h r ?_, drows_to_by (d := []) dr fun r hr => ?_⟩
    · exact List.mem_append_left _ (List.mem_append_right _ hr)
    · rw [List.append_nil]; exact h r (by simp [hr])
  · intro h r hr
    rcases List.mem_append.1 hr with hr | hr
    · rcases List.mem_append.1 hr with hr | hr
      · exact Or.inl (ac.2 h.bounds r hr)
      · exact pt.2 h.barrier r hr
    · have := by_to_drows dr h.direct r hr
      rwa [List.append_nil] at this

/-! ### The influence of the control -/

theorem oneNorm_range {n : Nat} : ∀ {r : List K}, r.length = n → oneNorm r = ((List.range n).map fun i => |r.getD i 0|).sum := by
  intro r hr
  have : r = (List.range n).map fun i => r.getD i 0 := by
    refine List.ext_getElem (by simp [hr]) fun i h1 h2 => ?_
    simp [List.getD_eq_getElem?_getD, h1]
  conv_lhs => rw [this]
  unfold oneNorm
  rw [List.map_map]
  rfl

theorem dot_zeros_right' (r : List K) (n : Nat) : dot r (zeros n) = 0 := by
  induction r generalizing n with
  | nil => simp
  | cons a r ih =>
    cases n with
    | zero => simp [zeros]
    | succ n =>
      have : zeros (K := K) (n + 1) = 0 :: zeros n := rfl
      rw [this, dot_cons, ih]
      ring

theorem dot_eyeRow_right {n : Nat} {r : List K} (hr : r.length = n) {i : Nat} (hi : i < n) : dot r (eyeRow n i) = r.getD i 0 := by
  subst hr
  induction r generalizing i with
  | nil => simp at hi
  | cons a r ih =>
    have e : eyeRow (K := K) (r.length + 1) i = (if 0 = i then 1 else 0) :: (List.range r.length).map fun j => if j + 1 = i then 1 else 0 := by
      simp [eyeRow, List.range_succ_eq_map, List.map_map, Function.comp_def]
    rw [List.length_cons, e, dot_cons]
    cases i with
    | zero =>
      have : (List.range r.length).map (fun j => if j + 1 = 0 then (1 : K) else 0) = zeros r.length := by
        simp [zeros]
      rw [this, dot_zeros_right']
      simp
    | succ i =>
      have : (List.range r.length).map (fun j => if j + 1 = i + 1 then (1 : K) else 0) = eyeRow r.length i := by
        simp [eyeRow]
      rw [this, ih (by simpa using hi)]
      simp

theorem pointAuthority_eq {E : ImplicitEnv K} {s : ImplicitObj K P A} {x : List K} {dt : K} {c : Constraint K (List K) P} {k : Nat}
    {r : Row K} (hl : r.w.length = s.ext.controlDim)
    (h : ∀ u : List K, u.length = s.ext.controlDim → pointValue E s x dt c u k = some (margin r u)) :
    pointAuthority E s x dt c k = oneNorm r.w := by
  rw [oneNorm_range hl]
  unfold pointAuthority
  congr 1
  refine List.map_congr_left fun i hi => ?_
  rw [h _ (by simp [eyeRow]), h _ (by simp)]
  simp only [Option.getD_some, margin, dot_zeros_right', dot_eyeRow_right hl (List.mem_range.1 hi)]
  congr 1
  ring

/-- The condition at a point loses at most `η` times the control's influence when every component moves by at most `η`. -/
theorem pointValue_near {η : K} (hη : 0 ≤ η) {E : ImplicitEnv K} {s : ImplicitObj K P A} {x : List K} {dt : K}
    {c : Constraint K (List K) P} {k : Nat} {r : Row K} (hl : r.w.length = s.ext.controlDim)
    (h : ∀ u : List K, u.length = s.ext.controlDim → pointValue E s x dt c u k = some (margin r u)) {v w : List K}
    (hv : v.length = s.ext.controlDim) (hw : w.length = s.ext.controlDim) (hnear : ∀ i, |v.getD i 0 - w.getD i 0| ≤ η) {m : K}
    (hm : pointValue E s x dt c w k = some m) :
    ∃ m', pointValue E s x dt c v k = some m' ∧ m - η * pointAuthority E s x dt c k ≤ m' := by
  refine ⟨_, h v hv, ?_⟩
  rw [h w hw, Option.some.injEq] at hm
  rw [pointAuthority_eq hl h, ← hm]
  have := dot_near_le hη r.w (hv.trans hw.symm) hnear
  unfold margin
  linarith

/-- The rows that a returning call generated. -/
theorem implicit_point_row {E : ImplicitEnv K} {s : ImplicitObj K P A} (hinv : ASIFInv s) {x : List K} {dt : K} {u0 : List K}
    {s1 : ImplicitObj K P A} {rows : List (Row K)}
    (hr : implicitGenRows E.ad E.f E.g E.pred (aprep s x u0) x dt = (.ok rows, s1)) {kc : String × Constraint K (List K) P}
    (hkc : kc ∈ s.constraints) (hen : kc.2.enabled = true) {k : Nat} (hk : k ∈ pointsOf E s x dt kc.2) :
    ∃ r : Row K, r.w.length = s.ext.controlDim ∧
      ∀ u : List K, u.length = s.ext.controlDim → pointValue E s x dt kc.2 u k = some (margin r u) := by
  obtain ⟨-, ⟨rss, rfl, h2⟩, -⟩ := implicitGen_ok (cachesFresh_aprep hinv.wf x u0) hr
  have h3 : List.Forall₂ (RepPoints E s x dt (numPoints s dt) s.ext.controlDim) rss s.constraints := by
    refine List.Forall₂.imp ?_ h2
    intro rs kc hr
    exact repPoints_same (samePath_aprep s x u0) hr
  have mem : ∀ {R : List (Row K) → String × Constraint K (List K) P → Prop} {rss cs}, List.Forall₂ R rss cs → kc ∈ cs →
      ∃ rs, R rs kc := by
    intro R rss cs h
    induction h with
    | nil => simp
    | @cons a b l m hab _ ih =>
      intro hm
      rcases List.mem_cons.1 hm with rfl | hm
      · exact ⟨a, hab⟩
      · exact ih hm
  obtain ⟨rs, hrs⟩ := mem h3 hkc
  have mem2 : ∀ {R : Row K → Nat → Prop} {rs l}, List.Forall₂ R rs l → k ∈ l → ∃ r, R r k := by
    intro R rs l h
    induction h with
    | nil => simp
    | @cons a b l m hab _ ih =>
      intro hm
      rcases List.mem_cons.1 hm with rfl | hm
      · exact ⟨a, hab⟩
      · exact ih hm
  obtain ⟨r, h1, -, h3⟩ := mem2 hrs hk
  exact ⟨r, h1, h3 hen⟩

/-! ### Calls -/

/-- A returning call with a solver with tolerances. -/
theorem implicit_tol [LawfulSqrt K] {ε δ : K} {solver : Solver K} (hspec : SolverTol ε δ solver) {E : ImplicitEnv K}
    {s s' : ImplicitObj K P A} (hinv : ASIFInv s) {x : List K} {dt : K} {u v : List K} (hen : s.enable = true)
    (h : E.call solver s (.array x) dt u = (.ok v, s'))
    (hsol : s.ext.solverException = true ∨ ∃ w, AdmissibleIBy (-ε) E s x dt w) :
    u.length = s.ext.controlDim ∧ ∃ w, AdmissibleIBy ε E s x dt w ∧ s.toBase.clipControl w = .ok v ∧
      (∀ w', AdmissibleI E s x dt w' → sqDist w u ≤ sqDist w' u + 2 * δ) ∧ s'.intervening = asifMonitor s.ext.epsilon u w := by
  obtain ⟨nm, ex, rows, drows, w0, cz, hgen, hdir, hout, hclip, hs'⟩ := asif_ok (genFrame_implicit E) hen h
  obtain ⟨names, hact⟩ := hinv.act
  obtain ⟨hns, -, hwid, -⟩ := implicit_rep hinv hact hgen hdir
  have hpos := scalesPos_of_noSlack hinv hns
  have hG := objWeight_pos hinv hpos
  have hGl := objWeight_length hinv
  rw [hns, Nat.add_zero] at hGl
  cases hout with
  | infeasible hq hx =>
    rcases hsol with hsol | ⟨wa, hwa⟩
    · rw [hx] at hsol; simp at hsol
    · obtain ⟨hqs, hal, hrw⟩ := quadprogSolve_dims (Or.inr hq)
      refine absurd ⟨wa, by rw [hGl, hwa.len], fun r hr => ?_⟩ (hspec.failed _ _ _ _ hG hal hrw (hqs.symm.trans hq)).2
      have := (implicit_by hinv hgen hdir (-ε) hwa.len).2 hwa r hr
      rwa [sub_neg_eq_add] at this
  | @solved z iact l hq hcause =>
    obtain ⟨hqs, hal, hrw⟩ := quadprogSolve_dims (Or.inl ⟨_, _, hq⟩)
    obtain ⟨hzl', hrows, hmin, -⟩ := hspec.solved _ _ _ _ _ hG hal hrw (hqs.symm.trans hq)
    have hul : u.length = s.ext.controlDim := by
      rw [hGl, List.length_append, zeros_length, hns] at hal; omega
    have hzl : z.length = s.ext.controlDim := hzl'.trans hGl
    have hzt : z.take s.ext.controlDim = z := List.take_of_length_le hzl.le
    rw [hzt] at hclip hs'
    refine ⟨hul, z, (implicit_by hinv hgen hdir ε hzl).1 hrows, hclip, fun w' hw' => ?_, by rw [hs']; rfl⟩
    have := hmin _ ((implicit_feasible hinv hgen hdir hw'.len).2 hw')
    rw [qpObj_eq_dist hinv hns hul hzl, qpObj_eq_dist hinv hns hul hw'.len] at this
    linarith

/-- With a relaxing solver the answer is the clipped control closest to the desired one that meets the conditions up to `ε`. -/
theorem implicit_relaxed [LawfulSqrt K] {ε : K} (hε : 0 ≤ ε) {solver : Solver K} (hspec : SolverSpec solver) {E : ImplicitEnv K}
    {s s' : ImplicitObj K P A} (hinv : ASIFInv s) {x : List K} {dt : K} {u v : List K} (hen : s.enable = true)
    (h : E.call (relaxedSolver ε solver) s (.array x) dt u = (.ok v, s')) (hsol : ∃ w, AdmissibleIBy ε E s x dt w) :
    ∃ w, AdmissibleIBy ε E s x dt w ∧ s.toBase.clipControl w = .ok v ∧
      ∀ w', AdmissibleIBy ε E s x dt w' → sqDist w u ≤ sqDist w' u := by
  obtain ⟨nm, ex, rows, drows, w0, cz, hgen, hdir, hout, hclip, -⟩ := asif_ok (genFrame_implicit E) hen h
  obtain ⟨names, hact⟩ := hinv.act
  obtain ⟨hns, -, hwid, -⟩ := implicit_rep hinv hact hgen hdir
  have hpos := scalesPos_of_noSlack hinv hns
  have hG := objWeight_pos hinv hpos
  have hGl := objWeight_length hinv
  rw [hns, Nat.add_zero] at hGl
  have tofe : ∀ {w' : List K}, AdmissibleIBy ε E s x dt w' →
      Feasible s.ext.objWeight.length ((rows ++ drows).map fun r => (⟨r.w, r.b - ε⟩ : Row K)) w' := by
    intro w' hwe
    refine ⟨by rw [hGl, hwe.len], fun r hr => ?_⟩
    obtain ⟨q, hq, rfl⟩ := List.mem_map.1 hr
    show q.b - ε ≤ dot q.w w'
    rcases (implicit_by hinv hgen hdir ε hwe.len).2 hwe q hq with h1 | h1
    · exact h1
    · have : q.b ≤ dot q.w w' := zeroRow_holds h1 _
      linarith
  have hmap : (∀ r ∈ rows ++ drows, r.w.length = s.ext.objWeight.length) →
      ∀ r ∈ (rows ++ drows).map fun r => (⟨r.w, r.b - ε⟩ : Row K), r.w.length = s.ext.objWeight.length := by
    intro h r hr
    obtain ⟨q, hq, rfl⟩ := List.mem_map.1 hr
    exact h q hq
  cases hout with
  | infeasible hq hx =>
    obtain ⟨hqs, hal, hrw⟩ := quadprogSolve_dims (Or.inr hq)
    obtain ⟨wa, hwa⟩ := hsol
    exact absurd ⟨_, tofe hwa⟩ (hspec.failed _ _ _ _ hG hal (hmap hrw) (hqs.symm.trans hq)).2
  | @solved z iact l hq hcause =>
    obtain ⟨hqs, hal, hrw⟩ := quadprogSolve_dims (Or.inl ⟨_, _, hq⟩)
    obtain ⟨hf, hmin, -⟩ := hspec.solved _ _ _ _ _ hG hal (hmap hrw) (hqs.symm.trans hq)
    have hul : u.length = s.ext.controlDim := by
      rw [hGl, List.length_append, zeros_length, hns] at hal; omega
    have hzl : z.length = s.ext.controlDim := hf.1.trans hGl
    have hzt : z.take s.ext.controlDim = z := List.take_of_length_le hzl.le
    rw [hzt] at hclip
    refine ⟨z, (implicit_by hinv hgen hdir ε hzl).1 fun r hr => hf.2 _ (List.mem_map_of_mem hr), hclip, fun w' hw' => ?_⟩
    have := hmin _ (tofe hw')
    rw [qpObj_eq_dist hinv hns hul hzl, qpObj_eq_dist hinv hns hul hw'.len] at this
    linarith

/-- With fitting shapes and a solver with tolerances a call answers if some control meets the conditions with margin `ε` or the module
does not raise on failure. -/
theorem implicit_tol_total [LawfulSqrt K] {ε δ : K} {solver : Solver K} (hspec : SolverTol ε δ solver) {E : ImplicitEnv K}
    {s : ImplicitObj K P A} (hinv : ASIFInv s) (hnames : ImplicitNames s) {x : List K} {dt : K} (hsh : ShapesI E s x dt)
    (hfit : ∀ kc ∈ s.constraints, (pointsOf E s x dt kc.2).length ≤ numPoints s dt) {u : List K}
    (hu : u.length = s.ext.controlDim) (hen : s.enable = true)
    (hsol : s.ext.solverException = false ∨ ∃ w, AdmissibleIBy (-ε) E s x dt w) :
    ∃ v, (E.call solver s (.array x) dt u).1 = .ok v := by
  obtain ⟨rows, hgen⟩ := implicitGen_total hinv hsh u
  have hdf := directFresh_aprep hinv x u
  obtain ⟨drows, hdr⟩ := directRows_total (n := s.ext.controlDim) (k := s.ext.numSlack) s.ext.direct hdf.1 hdf.2 hsh.direct
  have hns := numSlack_zero hinv hsh.noSlack
  obtain ⟨names, hact, hnm⟩ := implicitNames_length hnames (numPoints s dt)
  obtain ⟨-, hl, hwid, -⟩ := implicit_rep hinv hact hgen hdr
  have hpos := scalesPos_of_noSlack hinv hns
  have hG := objWeight_pos hinv hpos
  have hGl := objWeight_length hinv
  have hal : (u ++ zeros s.ext.numSlack).length = s.ext.objWeight.length := by
    rw [List.length_append, zeros_length, hGl, hu]
  have hrw : ∀ r ∈ rows ++ drows, r.w.length = s.ext.objWeight.length := by
    rw [hGl, hns]; exact hwid
  have hqs : quadprogSolve solver s.ext.objWeight (u ++ zeros s.ext.numSlack) (rows ++ drows) =
      solver s.ext.objWeight (u ++ zeros s.ext.numSlack) (rows ++ drows) := by
    unfold quadprogSolve
    rw [if_pos ⟨hal, hrw⟩]
  obtain ⟨fl, fh⟩ := boundFits_of_act hact
  have hrun := asif_run (solver := solver) hen hgen hdr
  have hcall : (E.call solver s (.array x) dt u).1 =
    (filterControlCB getStateDefault (asifFilter solver (implicitGenRows E.ad E.f E.g E.pred)) s (.array x) dt u).1 := rfl
  rw [hcall, hrun, hqs]
  have hnl : (alignedNames E s x dt names).length ≤ (implicitNames s (numPoints s dt)).length := by
    rw [hnm]
    unfold alignedNames
    simp only [List.length_append, List.length_flatMap, List.length_replicate]
    have : (s.constraints.map fun kc => (pointsOf E s x dt kc.2).length).sum ≤
        (s.constraints.map fun _ => numPoints s dt).sum := sum_map_le hfit
    omega
  rcases hq : solver s.ext.objWeight (u ++ zeros s.ext.numSlack) (rows ++ drows) with ⟨z, iact⟩ | msg
  · obtain ⟨hzl, -, -, hrow⟩ := hspec.solved _ _ _ _ _ hG hal hrw hq
    have hir : ∀ i ∈ iact, 1 ≤ i ∧ (i - 1).toNat < (implicitNames s (numPoints s dt)).length := by
      intro i hi
      obtain ⟨r, hr⟩ := Option.isSome_iff_exists.1 (hrow i hi)
      obtain ⟨h1, h2, -⟩ := rowAt_some hr
      exact ⟨h1, by omega⟩
    obtain ⟨l, hlp, -, -⟩ := causingLoop_spec _ iact hir [] List.nodup_nil
    have hvl : (z.take s.ext.controlDim).length = s.ext.controlDim := by
      rw [List.length_take]; omega
    obtain ⟨c, hc, -⟩ := C05_clip_total s.toBase (z.take s.ext.controlDim) (by rw [hvl]; exact fl) (by rw [hvl]; exact fh)
    exact ⟨c, by simp only [hlp, hc]⟩
  · obtain ⟨rfl, hno⟩ := hspec.failed _ _ _ _ hG hal hrw hq
    rcases hsol with hexc | ⟨w, hw⟩
    · obtain ⟨c, hc, -⟩ := C05_clip_total s.toBase u (by rw [hu]; exact fl) (by rw [hu]; exact fh)
      refine ⟨c, ?_⟩
      simp only [if_true, hexc, Bool.false_eq_true, if_false]
      rw [zeros_append_take hu, hc]
    · refine absurd ⟨w, by rw [hGl, hns, hw.len]; rfl, fun r hr => ?_⟩ hno
      have := (implicit_by hinv hgen hdr (-ε) hw.len).2 hw r hr
      rwa [sub_neg_eq_add] at this

end RTA
