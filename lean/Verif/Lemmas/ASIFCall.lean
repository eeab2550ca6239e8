import Verif.Lemmas.ASIF

/-!
Calls of an explicit optimisation module in terms of the specification.
-/
set_option linter.unusedSectionVars false
namespace RTA
variable {K S P X : Type}

/-- The names collected from the active rows. -/
theorem causingLoop_spec (names : List String) (iact : List Int)
    (hr : ∀ i ∈ iact, 1 ≤ i ∧ (i - 1).toNat < names.length) (acc : List String) (hacc : acc.Nodup) :
    ∃ l, causingLoop names iact acc = (.ok (), l) ∧ l.Nodup ∧
      ∀ q, q ∈ l ↔ q ∈ acc ∨ ∃ i ∈ iact, names[(i - 1).toNat]? = some q := by
  induction iact generalizing acc with
  | nil => exact ⟨acc, rfl, hacc, by simp⟩
  | cons i is ih =>
    obtain ⟨h1, h2⟩ := hr i (by simp)
    have hget : pyGet names (i - 1) = some names[(i - 1).toNat] := by
      unfold pyGet
      rw [if_pos (by omega), List.getElem?_eq_getElem h2]
    unfold causingLoop
    rw [hget]
    simp only
    have hacc' : (if names[(i - 1).toNat] ∈ acc then acc else acc ++ [names[(i - 1).toNat]]).Nodup := by
      split
      · exact hacc
      · rename_i hn
        rw [List.nodup_append]
        refine ⟨hacc, by simp, ?_⟩
        intro a ha b hb
        simp only [List.mem_singleton] at hb
        subst hb
        exact fun hab => hn (hab ▸ ha)
    obtain ⟨l, hl, hn, hm⟩ := ih (fun i hi => hr i (by simp [hi])) _ hacc'
    refine ⟨l, hl, hn, fun q => ?_⟩
    rw [hm]
    simp only [List.mem_cons, exists_eq_or_imp, List.getElem?_eq_getElem h2, Option.some.injEq]
    split
    · rename_i hmem
      constructor
      · rintro (h | h)
        · exact Or.inl h
        · exact Or.inr (Or.inr h)
      · rintro (h | rfl | h)
        · exact Or.inl h
        · exact Or.inl hmem
        · exact Or.inr h
    · rw [List.mem_append, List.mem_singleton]
      constructor
      · rintro ((h | h) | h)
        · exact Or.inl h
        · exact Or.inr (Or.inl h.symm)
        · exact Or.inr (Or.inr h)
      · rintro (h | h | h)
        · exact Or.inl (Or.inl h)
        · exact Or.inl (Or.inr h.symm)
        · exact Or.inr h

theorem rowAt_some {rows : List (Row K)} {i : Int} {r : Row K} (h : rowAt rows i = some r) :
    1 ≤ i ∧ (i - 1).toNat < rows.length ∧ rows[(i - 1).toNat]? = some r := by
  unfold rowAt at h
  split at h
  · rename_i h1
    refine ⟨h1, ?_, h⟩
    by_contra hc
    rw [List.getElem?_eq_none (by omega)] at h
    simp at h
  · simp at h

theorem forall₂_getElem? {α β : Type} {R : α → β → Prop} {l : List α} {m : List β} (h : List.Forall₂ R l m) {i : Nat} {a : α}
    (ha : l[i]? = some a) : ∃ b, m[i]? = some b ∧ R a b := by
  induction h generalizing i with
  | nil => simp at ha
  | cons hab _ ih =>
    cases i with
    | zero => simp only [List.getElem?_cons_zero, Option.some.injEq] at ha; subst ha; exact ⟨_, rfl, hab⟩
    | succ i => simp only [List.getElem?_cons_succ] at ha ⊢; exact ih ha

section explicit
variable [Field K] [LinearOrder K] [IsStrictOrderedRing K] [HasSqrt K]

/-- Weights of the slack variables in the quadratic program: the square roots of the priority scales. -/
def qpWeights (s : ASIFObj K S P X) : List K := (slackScales s.constraints).map HasSqrt.sqrt

theorem qpObj_eq_cost {s : ASIFObj K S P X} (hinv : ASIFInv s) {u v d : List K} (hu : u.length = s.ext.controlDim)
    (hv : v.length = s.ext.controlDim) :
    qpObj s.ext.objWeight (u ++ zeros s.ext.numSlack) (v ++ d) = (slackCost (qpWeights s) u v d - sqNorm u) / 2 := by
  have e : s.ext.numSlack = (qpWeights s).length := by unfold qpWeights; rw [List.length_map, hinv.slack]
  rw [hinv.weight, slackWeights_eq, ← hu, e]
  exact qpObj_slackCost (hv.trans hu.symm)

/-- A successful call on a problem that has an admissible control. -/
theorem explicit_solved [LawfulSqrt K] {solver : Solver K} (hspec : SolverSpec solver) {f : S → List K}
    {g : S → List (List K)} {s s' : ASIFObj K S P X} (hinv : ASIFInv s) (hnames : ExplicitNames s)
    (hpos : ScalesPos s.constraints) {x : S} {dt : K} {u v : List K} (hen : s.enable = true)
    (h : explicitASIF solver f g s (.array x) dt u = (.ok v, s')) (hadm : ∃ w d, AdmissibleS f g s x w d) :
    u.length = s.ext.controlDim ∧ ∃ d l, AdmissibleS f g s x v d ∧
      (∀ w e, AdmissibleS f g s x w e → v ++ d ≠ w ++ e → slackCost (qpWeights s) u v d < slackCost (qpWeights s) u w e) ∧
      s'.intervening = asifMonitor s.ext.epsilon u v ∧ s'.ext.causing = some l ∧ l.Nodup ∧
      (∀ q ∈ l, ∃ c ∈ explicitConds f g s x v d, c.label = q ∧ c.tight) ∧
      (∀ w e, w.length = s.ext.controlDim → e.length = s.ext.numSlack →
        (∀ c ∈ explicitConds f g s x w e, c.label ∈ l → c.holds) →
        slackCost (qpWeights s) u v d ≤ slackCost (qpWeights s) u w e) := by
  obtain ⟨nm, ex, rows, drows, w0, cz, hgen, hdir, hout, hclip, hs'⟩ := asif_ok (genFrame_explicit f g) hen h
  obtain ⟨hl, hwid, hrep⟩ := explicit_rep hinv hnames hgen hdir
  have hG := objWeight_pos hinv hpos
  have hGl := objWeight_length hinv
  have hnm : nm = s.ext.constraintNames := by
    have := (explicitGenRows_ok hgen).1
    exact congrArg (fun t : ASIFObj K S P X => t.ext.constraintNames) this
  obtain ⟨wa, da, hwa⟩ := hadm
  have hfa := (explicit_feasible hinv hnames hgen hdir hwa.len (hwa.slen.trans hinv.slack.symm)).2 hwa
  cases hout with
  | infeasible hq hx =>
    obtain ⟨hqs, hal, hrw⟩ := quadprogSolve_dims (Or.inr hq)
    exact absurd ⟨_, hfa⟩ (hspec.failed _ _ _ _ hG hal hrw (hqs.symm.trans hq)).2
  | @solved z iact l hq hcause =>
    obtain ⟨hqs, hal, hrw⟩ := quadprogSolve_dims (Or.inl ⟨_, _, hq⟩)
    obtain ⟨hfz, hmin, hnd, htight, hsuff⟩ := hspec.solved _ _ _ _ _ hG hal hrw (hqs.symm.trans hq)
    have hul : u.length = s.ext.controlDim := by
      rw [hGl, List.length_append, zeros_length] at hal; omega
    have hzl : z.length = s.ext.controlDim + s.ext.numSlack := hfz.1.trans hGl
    have hvl : (z.take s.ext.controlDim).length = s.ext.controlDim := by rw [List.length_take]; omega
    have hdl : (z.drop s.ext.controlDim).length = s.ext.numSlack := by rw [List.length_drop]; omega
    have hz : z.take s.ext.controlDim ++ z.drop s.ext.controlDim = z := List.take_append_drop _ _
    have hav : AdmissibleS f g s x (z.take s.ext.controlDim) (z.drop s.ext.controlDim) := by
      refine (explicit_feasible hinv hnames hgen hdir hvl hdl).1 ?_
      rw [hz]; exact hfz
    obtain ⟨names, hact⟩ := hinv.act
    obtain ⟨fl, fh⟩ := boundFits_of_act hact
    have hcv : v = z.take s.ext.controlDim := by
      have := C05_clip_identity s.toBase (z.take s.ext.controlDim) (by rw [hvl]; exact fl) (by rw [hvl]; exact fh) hav.bounds
      rw [this] at hclip
      exact (Except.ok.inj hclip).symm
    subst hcv
    have cost : ∀ w e : List K, w.length = s.ext.controlDim →
        qpObj s.ext.objWeight (u ++ zeros s.ext.numSlack) (w ++ e) = (slackCost (qpWeights s) u w e - sqNorm u) / 2 :=
      fun w e hw => qpObj_eq_cost hinv hul hw
    have cz := cost _ (z.drop s.ext.controlDim) hvl
    rw [hz] at cz
    have hir : ∀ i ∈ iact, 1 ≤ i ∧ (i - 1).toNat < nm.length := by
      intro i hi
      obtain ⟨r, hr, -, -⟩ := htight i hi
      obtain ⟨h1, h2, -⟩ := rowAt_some hr
      rw [hnm, hl]
      exact ⟨h1, h2⟩
    obtain ⟨l', hl', hnod, hmem⟩ := causingLoop_spec nm iact hir [] List.nodup_nil
    rw [hcause] at hl'
    simp only [Prod.mk.injEq, true_and] at hl'
    subst hl'
    refine ⟨hul, z.drop s.ext.controlDim, l, hav, ?_, ?_, ?_, hnod, ?_, ?_⟩
    · intro w e hwe hne
      have hfe := (explicit_feasible hinv hnames hgen hdir hwe.len (hwe.slen.trans hinv.slack.symm)).2 hwe
      have := qp_unique hG hfz hmin hfe (by rw [← hz]; exact hne)
      rw [cz, cost w e hwe.len] at this
      linarith
    · rw [hs']; rfl
    · rw [hs']; rfl
    · intro q hq'
      obtain ⟨i, hi, hiq⟩ := ((hmem q).1 hq').resolve_left (by simp)
      obtain ⟨r, hr, ht, hnz⟩ := htight i hi
      obtain ⟨h1, h2, hr'⟩ := rowAt_some hr
      have hzip : (s.ext.constraintNames.zip (rows ++ drows))[(i - 1).toNat]? = some (q, r) := by
        rw [List.getElem?_zip_eq_some]
        rw [hnm] at hiq
        exact ⟨hiq, hr'⟩
      obtain ⟨c, hc, hrepc⟩ := forall₂_getElem? (hrep _ _ hvl hdl) hzip
      refine ⟨c, List.mem_of_getElem? hc, hrepc.1.symm, hrepc.2.2 hnz ?_⟩
      rw [hz]; exact ht
    · intro w e hw he hall
      have hle : (w ++ e).length = s.ext.objWeight.length := by rw [List.length_append, hw, he, hGl]
      have := hsuff (w ++ e) hle ?_
      · rw [cz, cost w e hw] at this
        linarith
      · intro i hi r hr
        obtain ⟨h1, h2, hr'⟩ := rowAt_some hr
        have hi2 : (i - 1).toNat < s.ext.constraintNames.length := by rw [hl]; exact h2
        have hzip : (s.ext.constraintNames.zip (rows ++ drows))[(i - 1).toNat]? =
            some (s.ext.constraintNames[(i - 1).toNat], r) := by
          rw [List.getElem?_zip_eq_some]
          exact ⟨List.getElem?_eq_getElem hi2, hr'⟩
        obtain ⟨c, hc, hrepc⟩ := forall₂_getElem? (hrep w e hw he) hzip
        refine hrepc.2.1.2 (hall c (List.mem_of_getElem? hc) ?_)
        rw [← hrepc.1]
        refine (hmem _).2 (Or.inr ⟨i, hi, ?_⟩)
        rw [hnm]
        exact List.getElem?_eq_getElem hi2

/-! ### Calls return -/

theorem explicitRows_total {f : S → List K} {g : S → List (List K)} {params : Dict P} {en : Dict Bool} {n k : Nat} {x : S}
    (cs : Dict (Constraint K S P)) (hp : ∀ kc ∈ cs, dictGet params kc.1 = some kc.2.params)
    (he : ∀ kc ∈ cs, dictGet en kc.1 = some kc.2.enabled) (ha : ∀ kc ∈ cs, kc.2.alpha.isSome = true)
    (hg : ∀ kc ∈ cs, (kc.2.gradFn x kc.2.params).length = (f x).length) (hi : (g x).length = (f x).length)
    (hc : ∀ r ∈ g x, r.length = n) (sc : Nat) : ∃ rows, explicitRows f g params en n k x sc cs = .ok rows := by
  induction cs generalizing sc with
  | nil => exact ⟨[], rfl⟩
  | cons kc cs ih =>
    obtain ⟨q, c⟩ := kc
    have hpq := hp (q, c) (by simp)
    have heq := he (q, c) (by simp)
    have haq := ha (q, c) (by simp)
    have hgq := hg (q, c) (by simp)
    simp only at hpq heq haq hgq
    obtain ⟨rs, hrs⟩ := ih (fun kc h => hp kc (by simp [h])) (fun kc h => he kc (by simp [h])) (fun kc h => ha kc (by simp [h]))
      (fun kc h => hg kc (by simp [h])) (if c.slackPriorityScale.isSome then sc + 1 else sc)
    obtain ⟨al, hal⟩ := Option.isSome_iff_exists.1 haq
    have hat : ∃ a, alphaTerm c (c.compute x c.params) = .ok a := by
      unfold alphaTerm Constraint.alphaAt Constraint.alphaNegAt
      rw [hal]
      rcases c.alphaNeg with _ | an
      · exact ⟨_, rfl⟩
      · exact ⟨_, rfl⟩
    obtain ⟨a, hat⟩ := hat
    have hsh : ¬ ((c.gradFn x c.params).length ≠ (g x).length ∨ (c.gradFn x c.params).length ≠ (f x).length ∨
        ∃ r ∈ g x, r.length ≠ n) := by
      simp only [not_or, ne_eq, not_not, not_exists, not_and]
      exact ⟨hgq.trans hi.symm, hgq, hc⟩
    unfold explicitRows
    simp only [hpq, heq, if_neg hsh, hat, hrs]
    exact ⟨_, rfl⟩

theorem directRows_total {params : Dict P} {en : Dict Bool} {n k : Nat} {x : S} (ds : Dict (DirectConstraint K S P))
    (hp : ∀ kc ∈ ds, dictGet params kc.1 = some kc.2.params) (he : ∀ kc ∈ ds, dictGet en kc.1 = some kc.2.enabled)
    (hl : ∀ kc ∈ ds, (kc.2.ineqWeight x kc.2.params).length = n) : ∃ rows, directRows params en n k x ds = .ok rows := by
  induction ds with
  | nil => exact ⟨[], rfl⟩
  | cons kc ds ih =>
    obtain ⟨q, c⟩ := kc
    have hpq := hp (q, c) (by simp)
    have heq := he (q, c) (by simp)
    have hlq := hl (q, c) (by simp)
    simp only at hpq heq hlq
    obtain ⟨rs, hrs⟩ := ih (fun kc h => hp kc (by simp [h])) (fun kc h => he kc (by simp [h])) (fun kc h => hl kc (by simp [h]))
    unfold directRows
    simp only [hpq, heq, hlq, hrs]
    exact ⟨_, if_neg (by simp)⟩

theorem zeros_append_take {u : List K} {n k : Nat} (hu : u.length = n) : (u ++ zeros k).take n = u := by
  rw [List.take_append_of_le_length (by omega), List.take_of_length_le (by omega)]

/-- With fitting shapes a call answers: a control if some control is admissible, the configured policy otherwise. -/
theorem explicit_total [LawfulSqrt K] {solver : Solver K} (hspec : SolverSpec solver) {f : S → List K}
    {g : S → List (List K)} {s : ASIFObj K S P X} (hinv : ASIFInv s) (hnames : ExplicitNames s)
    (hpos : ScalesPos s.constraints) {x : S} (hsh : ShapesOK f g s x) (dt : K) {u : List K}
    (hu : u.length = s.ext.controlDim) (hen : s.enable = true) :
    ((∃ w d, AdmissibleS f g s x w d) → ∃ v, (explicitASIF solver f g s (.array x) dt u).1 = .ok v) ∧
    ((¬ ∃ w d, AdmissibleS f g s x w d) → (explicitASIF solver f g s (.array x) dt u).1 =
      if s.ext.solverException then .error .solverError else s.toBase.clipControl u) := by
  have hcf := cachesFresh_aprep hinv.wf x u
  have hdf := directFresh_aprep hinv x u
  obtain ⟨bar, hbar⟩ := explicitRows_total (n := s.ext.controlDim) (k := s.ext.numSlack) s.constraints hcf.params hcf.enabled
    hsh.alpha hsh.grad hsh.input hsh.cols 0
  obtain ⟨drows, hdr⟩ := directRows_total (n := s.ext.controlDim) (k := s.ext.numSlack) s.ext.direct hdf.1 hdf.2 hsh.direct
  have hgen : explicitGenRows f g (aprep s x u) x dt = (.ok (s.ext.actuation ++ bar), aprep s x u) := by
    unfold explicitGenRows
    have e : explicitRows f g (aprep s x u).params (aprep s x u).constraintEnabled (aprep s x u).ext.controlDim
      (aprep s x u).ext.numSlack x 0 (aprep s x u).constraints = .ok bar := hbar
    rw [e]
    rfl
  obtain ⟨hl, hwid, hrep⟩ := explicit_rep hinv hnames hgen hdr
  have hG := objWeight_pos hinv hpos
  have hGl := objWeight_length hinv
  have hal : (u ++ zeros s.ext.numSlack).length = s.ext.objWeight.length := by
    rw [List.length_append, zeros_length, hGl, hu]
  have hrw : ∀ r ∈ s.ext.actuation ++ bar ++ drows, r.w.length = s.ext.objWeight.length := by
    rw [hGl]; exact hwid
  have hqs : quadprogSolve solver s.ext.objWeight (u ++ zeros s.ext.numSlack) (s.ext.actuation ++ bar ++ drows) =
      solver s.ext.objWeight (u ++ zeros s.ext.numSlack) (s.ext.actuation ++ bar ++ drows) := by
    unfold quadprogSolve
    rw [if_pos ⟨hal, hrw⟩]
  obtain ⟨names, hact⟩ := hinv.act
  obtain ⟨fl, fh⟩ := boundFits_of_act hact
  have hfilter : asifFilter solver (explicitGenRows f g) (prep s x u) x dt u =
      match optimize solver (aprep s x u) u (s.ext.actuation ++ bar ++ drows) with
      | (.error e, s1) => (.error e, s1)
      | (.ok actual, s1) => (.ok actual, { s1 with intervening := asifMonitor s1.ext.epsilon u actual }) := by
    unfold asifFilter
    have e : updateDirectParams (prep s x u) = aprep s x u := rfl
    simp only [e, hgen]
    have e2 : directRows (aprep s x u).ext.directParams (aprep s x u).ext.directEnabled (aprep s x u).ext.controlDim
        (aprep s x u).ext.numSlack x (aprep s x u).ext.direct = .ok drows := hdr
    simp only [e2]
    rcases optimize solver (aprep s x u) u (s.ext.actuation ++ bar ++ drows) with ⟨_ | c, s1⟩ <;> rfl
  have ecall : explicitASIF solver f g s (.array x) dt u =
      match asifFilter solver (explicitGenRows f g) (prep s x u) x dt u with
      | (.error e, s1) => (.error e, s1)
      | (.ok c, s1) =>
        match s1.toBase.clipControl c with
        | .error e => (.error e, withActual s1 c)
        | .ok c' => (.ok c', withActual s1 c') := by
    unfold explicitASIF
    rw [call_eq _ hen]
    rcases asifFilter solver (explicitGenRows f g) (prep s x u) x dt u with ⟨_ | c, s1⟩
    · rfl
    · simp only
      rcases s1.toBase.clipControl c with _ | c' <;> rfl
  have w1 : (aprep s x u).ext.objWeight = s.ext.objWeight := rfl
  have w2 : (aprep s x u).ext.numSlack = s.ext.numSlack := rfl
  have w3 : (aprep s x u).ext.controlDim = s.ext.controlDim := rfl
  have w4 : (aprep s x u).ext.constraintNames = s.ext.constraintNames := rfl
  have w5 : (aprep s x u).ext.solverException = s.ext.solverException := rfl
  constructor
  · rintro ⟨w, d, hw⟩
    have hfa := (explicit_feasible hinv hnames hgen hdr hw.len (hw.slen.trans hinv.slack.symm)).2 hw
    rcases hq : solver s.ext.objWeight (u ++ zeros s.ext.numSlack) (s.ext.actuation ++ bar ++ drows) with ⟨z, iact⟩ | msg
    · obtain ⟨hfz, -, -, htight, -⟩ := hspec.solved _ _ _ _ _ hG hal hrw hq
      have hir : ∀ i ∈ iact, 1 ≤ i ∧ (i - 1).toNat < s.ext.constraintNames.length := by
        intro i hi
        obtain ⟨r, hr, -, -⟩ := htight i hi
        obtain ⟨h1, h2, -⟩ := rowAt_some hr
        rw [hl]
        exact ⟨h1, h2⟩
      obtain ⟨l, hlp, -, -⟩ := causingLoop_spec s.ext.constraintNames iact hir [] List.nodup_nil
      have hvl : (z.take s.ext.controlDim).length = s.ext.controlDim := by
        have := hfz.1
        rw [List.length_take]; omega
      obtain ⟨c, hc, -⟩ := C05_clip_total s.toBase (z.take s.ext.controlDim) (by rw [hvl]; exact fl) (by rw [hvl]; exact fh)
      have hopt : optimize solver (aprep s x u) u (s.ext.actuation ++ bar ++ drows) =
          (.ok (z.take s.ext.controlDim), (aprep s x u).setExt { (aprep s x u).ext with causing := some l }) := by
        unfold optimize
        simp only [w1, w2, w3, w4, hqs, hq, hlp]
      refine ⟨c, ?_⟩
      rw [ecall, hfilter, hopt]
      simp only
      rw [clipControl_congr s.toBase, hc]
      · rfl
      · rfl
    · exact absurd ⟨_, hfa⟩ (hspec.failed _ _ _ _ hG hal hrw hq).2
  · intro hno
    have hnf : ¬ ∃ z, Feasible s.ext.objWeight.length (s.ext.actuation ++ bar ++ drows) z := by
      rintro ⟨z, hz⟩
      have hzl := hz.1.trans hGl
      have hvl : (z.take s.ext.controlDim).length = s.ext.controlDim := by rw [List.length_take]; omega
      have hdl : (z.drop s.ext.controlDim).length = s.ext.numSlack := by rw [List.length_drop]; omega
      refine hno ⟨_, _, (explicit_feasible hinv hnames hgen hdr hvl hdl).1 ?_⟩
      rw [List.take_append_drop]; exact hz
    rcases hq : solver s.ext.objWeight (u ++ zeros s.ext.numSlack) (s.ext.actuation ++ bar ++ drows) with ⟨z, iact⟩ | msg
    · exact absurd ⟨z, (hspec.solved _ _ _ _ _ hG hal hrw hq).1⟩ hnf
    · obtain ⟨rfl, -⟩ := hspec.failed _ _ _ _ hG hal hrw hq
      have ht := zeros_append_take (k := s.ext.numSlack) hu
      by_cases hx : s.ext.solverException = true
      · have hopt : optimize solver (aprep s x u) u (s.ext.actuation ++ bar ++ drows) = (.error .solverError, aprep s x u) := by
          unfold optimize
          simp only [w1, w2, w3, w5, hqs, hq, hx]
          simp
        rw [ecall, hfilter, hopt, if_pos hx]
      · have hopt : optimize solver (aprep s x u) u (s.ext.actuation ++ bar ++ drows) = (.ok u, aprep s x u) := by
          unfold optimize
          simp only [w1, w2, w3, w5, hqs, hq, hx, ht]
          simp
        obtain ⟨c, hc, -⟩ := C05_clip_total s.toBase u (by rw [hu]; exact fl) (by rw [hu]; exact fh)
        rw [ecall, hfilter, hopt, if_neg hx]
        simp only
        rw [clipControl_congr s.toBase, hc]
        · rfl
        · rfl

end explicit

end RTA
