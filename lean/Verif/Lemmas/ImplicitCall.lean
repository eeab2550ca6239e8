import Verif.Lemmas.Implicit

/-!
Calls of an implicit optimisation module in terms of the specification.
-/
set_option linter.unusedSectionVars false
namespace RTA
variable {K P A : Type}

/-- The first names of an implicit module are those of the actuation rows. -/
def ImplicitNames [Zero K] [One K] [Neg K] (s : ImplicitObj K P A) : Prop :=
  ∃ names, actuationMats s.controlBoundsLow s.controlBoundsHigh s.ext.controlDim s.ext.numSlack =
    .ok (s.ext.actuation, names) ∧ s.ext.constraintNames.take names.length = names

theorem actuation_names_length [Zero K] [One K] [Neg K] {lo hi : Option (Bound K)} {n k : Nat} {rows : List (Row K)} {names : List String}
    (h : actuationMats lo hi n k = .ok (rows, names)) :
    names.length = (if lo.isSome then n else 0) + (if hi.isSome then n else 0) := by
  unfold actuationMats at h
  cases lo with
  | none =>
    cases hi with
    | none => simp only [Except.ok.injEq, Prod.mk.injEq] at h; rw [← h.2]; rfl
    | some b =>
      simp only at h
      rcases hl : lowerBoundVec b n with e | l
      · simp [hl] at h
      · simp only [hl, Except.ok.injEq, Prod.mk.injEq] at h
        rw [← h.2]; simp [actuationNames]
  | some b =>
    rcases hl : lowerBoundVec b n with e | l
    · simp [hl] at h
    · cases hi with
      | none => simp only [hl, Except.ok.injEq, Prod.mk.injEq] at h; rw [← h.2]; simp [actuationNames]
      | some b' =>
        rcases hl' : lowerBoundVec b' n with e | l'
        · simp [hl, hl'] at h
        · simp only [hl, hl', Except.ok.injEq, Prod.mk.injEq] at h
          rw [← h.2]; simp [actuationNames]

section
variable [Field K] [LinearOrder K] [IsStrictOrderedRing K] [FloorRing K] [HasSqrt K]

/-- The controller after a successful call. -/
def savedCtrl (c : BackupController K (List K) A) : BackupController K (List K) A := { c with stateSaved := c.state }

theorem genFrame_implicit (E : ImplicitEnv K) :
    GenFrame (implicitGenRows (K := K) (P := P) (A := A) E.ad E.f E.g E.pred) := by
  intro s x dt
  unfold implicitGenRows
  rcases backupSteps s.ext.extra.backupWindow dt with e | m
  · exact ⟨s.ext.constraintNames, s.ext.extra, rfl⟩
  · simp only
    by_cases hm : m < 0
    · rw [if_pos hm]; exact ⟨s.ext.constraintNames, s.ext.extra, rfl⟩
    · rw [if_neg hm]
      obtain ⟨z, sv, hfr⟩ := sensIntegrate_frame E s x dt (m.toNat + 1)
      rcases hi : sensIntegrate E.ad E.f E.g E.pred s x dt (m.toNat + 1) with ⟨e | tr, s1⟩
      · rw [hi] at hfr
        simp only at hfr ⊢
        exact ⟨s.ext.constraintNames, { s.ext.extra with ctrl := { s.ext.extra.ctrl with state := z, stateSaved := sv } }, hfr⟩
      · rw [hi] at hfr
        simp only at hfr ⊢
        rcases implicitRows E.f E.g s1.params s1.constraintEnabled s1.ext.controlDim s1.ext.numSlack x tr 0 s1.constraints with e | rows
        · exact ⟨s.ext.constraintNames, { s.ext.extra with ctrl := { s.ext.extra.ctrl with state := z, stateSaved := sv } }, hfr⟩
        · exact ⟨implicitNames s1 (m.toNat + 1),
            { s.ext.extra with ctrl := { s.ext.extra.ctrl with state := z, stateSaved := sv } }, by simp only [hfr]; rfl⟩

theorem backupSteps_ok {w dt : K} {m : Int} (h : backupSteps w dt = .ok m) : dt ≠ 0 ∧ m = pyInt (w / dt) := by
  unfold backupSteps at h
  split at h
  · simp at h
  · rename_i hd
    simp only [Except.ok.injEq] at h
    exact ⟨hd, h.symm⟩

/-- Successful row generation. -/
theorem implicitGen_ok {E : ImplicitEnv K} {t t1 : ImplicitObj K P A} (hcf : CachesFresh t) {x : List K} {dt : K}
    {rows : List (Row K)} (h : implicitGenRows E.ad E.f E.g E.pred t x dt = (.ok rows, t1)) :
    (t.constraints ≠ [] → t.ext.numSlack = 0) ∧
    (∃ rss, rows = t.ext.actuation ++ rss.flatten ∧
      List.Forall₂ (RepPoints E t x dt (numPoints t dt) t.ext.controlDim) rss t.constraints) ∧
    t1 = withNames t (implicitNames t (numPoints t dt)) { t.ext.extra with ctrl := savedCtrl t.ext.extra.ctrl } := by
  unfold implicitGenRows at h
  rcases hb : backupSteps t.ext.extra.backupWindow dt with e | m
  · rw [hb] at h; simp at h
  · rw [hb] at h
    simp only at h
    obtain ⟨hdt, hmeq⟩ := backupSteps_ok hb
    by_cases hm : m < 0
    · rw [if_pos hm] at h; simp at h
    · rw [if_neg hm] at h
      have hnp : m.toNat + 1 = numPoints t dt := by unfold numPoints; rw [hmeq]
      rcases hi : sensIntegrate E.ad E.f E.g E.pred t x dt (m.toNat + 1) with ⟨e | tr, s1⟩
      · rw [hi] at h; simp at h
      · rw [hi] at h
        simp only at h
        obtain ⟨hlen, htr, hs1⟩ := sensIntegrate_ok hi
        subst hs1
        rcases hr : implicitRows E.f E.g (setBackup t { t.ext.extra.ctrl with stateSaved := t.ext.extra.ctrl.state }).params
            (setBackup t { t.ext.extra.ctrl with stateSaved := t.ext.extra.ctrl.state }).constraintEnabled
            (setBackup t { t.ext.extra.ctrl with stateSaved := t.ext.extra.ctrl.state }).ext.controlDim
            (setBackup t { t.ext.extra.ctrl with stateSaved := t.ext.extra.ctrl.state }).ext.numSlack x tr 0
            (setBackup t { t.ext.extra.ctrl with stateSaved := t.ext.extra.ctrl.state }).constraints with e | rs
        · rw [hr] at h; simp at h
        · rw [hr] at h
          simp only [Prod.mk.injEq, Except.ok.injEq] at h
          obtain ⟨rfl, rfl⟩ := h
          have hne : tr ≠ [] := by rintro rfl; simp at hlen
          obtain ⟨h1, rss, h2, h3⟩ := implicitRows_ok (E := E) (s := t) hne htr
            (fun kc h => hcf.params kc h) (fun kc h => hcf.enabled kc h) hr
          rw [hlen, hnp] at h3
          refine ⟨h1, ⟨rss, by rw [h2]; rfl, h3⟩, ?_⟩
          rw [hnp]
          rfl

theorem samePath_aprep (s : ImplicitObj K P A) (x u : List K) : SamePath s (aprep s x u) := ⟨rfl, rfl, rfl, rfl⟩

theorem repPoints_same {s t : ImplicitObj K P A} (h : SamePath s t) {E : ImplicitEnv K} {x : List K} {dt : K} {n m : Nat}
    {rs : List (Row K)} {kc : String × Constraint K (List K) P} (hr : RepPoints E t x dt n m rs kc) :
    RepPoints E s x dt n m rs kc := by
  unfold RepPoints at hr ⊢
  rw [pathValue_same h] at hr
  refine hr.imp ?_
  rintro r k ⟨a, b, c⟩
  exact ⟨a, b, fun hen u hu => by rw [← pointValue_same h]; exact c hen u hu⟩

/-- Names that fit the rows one by one. -/
def alignedNames (E : ImplicitEnv K) (s : ImplicitObj K P A) (x : List K) (dt : K) (names : List String) : List String :=
  names ++ ((s.constraints.flatMap fun kc => List.replicate (pointsOf E s x dt kc.2).length kc.1) ++ dictKeys s.ext.direct)

theorem point_rep {E : ImplicitEnv K} {s : ImplicitObj K P A} {x : List K} {dt : K} {u : List K} {m : Nat} (hu : u.length = m)
    {c : String × Constraint K (List K) P} {rs : List (Row K)} {ks : List Nat}
    (h : List.Forall₂ (fun r k => r.w.length = m ∧ (c.2.enabled = false → ZeroRow r) ∧
      (c.2.enabled = true → ∀ u : List K, u.length = m → pointValue E s x dt c.2 u k = some (margin r u))) rs ks) :
    List.Forall₂ (RepCond u []) ((List.replicate ks.length c.1).zip rs)
      (ks.map fun k => ⟨c.1, c.2.enabled = true → PointOK E s x dt c.2 u k,
          c.2.enabled = true ∧ pointValue E s x dt c.2 u k = some 0⟩) := by
  induction h with
  | nil => simp
  | @cons r k rs ks hr _ ih =>
    simp only [List.length_cons, List.replicate_succ, List.zip_cons_cons, List.map_cons]
    refine .cons ⟨rfl, ?_, ?_⟩ ih
    · simp only [List.append_nil]
      rcases hen : c.2.enabled with _ | _
      · simp [zeroRow_holds (hr.2.1 hen)]
      · rw [rowHolds_margin]
        simp [PointOK, hr.2.2 hen u hu]
    · simp only [List.append_nil]
      intro hz ht
      rcases hen : c.2.enabled with _ | _
      · obtain ⟨w, hw, hne⟩ := hz
        exact absurd ((hr.2.1 hen).2 w hw) hne
      · refine ⟨rfl, ?_⟩
        rw [hr.2.2 hen u hu, margin, ht, sub_self]

/-- The rows handed to the solver by an implicit module represent its conditions. -/
theorem implicit_rep {E : ImplicitEnv K} {s : ImplicitObj K P A} (hinv : ASIFInv s) {x : List K} {dt : K} {u0 : List K}
    {s1 : ImplicitObj K P A} {rows drows : List (Row K)} {names : List String}
    (hact : actuationMats s.controlBoundsLow s.controlBoundsHigh s.ext.controlDim s.ext.numSlack = .ok (s.ext.actuation, names))
    (hr : implicitGenRows E.ad E.f E.g E.pred (aprep s x u0) x dt = (.ok rows, s1))
    (hd : directRows (aprep s x u0).ext.directParams (aprep s x u0).ext.directEnabled s.ext.controlDim s.ext.numSlack x
      s.ext.direct = .ok drows) :
    s.ext.numSlack = 0 ∧ (alignedNames E s x dt names).length = (rows ++ drows).length ∧
    (∀ r ∈ rows ++ drows, r.w.length = s.ext.controlDim) ∧
    ∀ u : List K, u.length = s.ext.controlDim →
      List.Forall₂ (RepCond u []) ((alignedNames E s x dt names).zip (rows ++ drows)) (implicitConds E s x dt u) := by
  obtain ⟨h1, ⟨rss, rfl, h2⟩, -⟩ := implicitGen_ok (cachesFresh_aprep hinv.wf x u0) hr
  have hns : s.ext.numSlack = 0 := by
    by_cases hc : s.constraints = []
    · rw [hinv.slack, hc]; rfl
    · exact h1 hc
  have hdf := directFresh_aprep hinv x u0
  have e4 : (aprep s x u0).ext.actuation = s.ext.actuation := rfl
  rw [e4]
  obtain ⟨dw, drep⟩ := directRows_spec s.ext.direct hdf.1 hdf.2 hd
  obtain ⟨aw, alen⟩ := actuation_width hact
  rw [hns] at aw dw drep
  have dlen : drows.length = (dictKeys s.ext.direct).length := by
    have := (drep (zeros s.ext.controlDim) [] (by simp) rfl).length_eq
    rw [this]; simp [dictKeys]
  have h3 : List.Forall₂ (RepPoints E s x dt (numPoints s dt) s.ext.controlDim) rss s.constraints := by
    refine List.Forall₂.imp ?_ h2
    intro rs kc hr
    exact repPoints_same (samePath_aprep s x u0) hr
  have hbar : ∀ {rss : List (List (Row K))} {cs : Dict (Constraint K (List K) P)},
      List.Forall₂ (RepPoints E s x dt (numPoints s dt) s.ext.controlDim) rss cs →
      (cs.flatMap fun kc => List.replicate (pointsOf E s x dt kc.2).length kc.1).length = rss.flatten.length ∧
      (∀ r ∈ rss.flatten, r.w.length = s.ext.controlDim) ∧
      ∀ u : List K, u.length = s.ext.controlDim →
        List.Forall₂ (RepCond u []) ((cs.flatMap fun kc => List.replicate (pointsOf E s x dt kc.2).length kc.1).zip rss.flatten)
          (cs.flatMap fun kc => (pointsOf E s x dt kc.2).map fun k =>
            ⟨kc.1, kc.2.enabled = true → PointOK E s x dt kc.2 u k,
              kc.2.enabled = true ∧ pointValue E s x dt kc.2 u k = some 0⟩) := by
    intro rss cs hF
    induction hF with
    | nil => simp
    | @cons rs kc rss cs hrs _ ih =>
      obtain ⟨i1, i2, i3⟩ := ih
      have hle : rs.length = (pointsOf E s x dt kc.2).length := hrs.length_eq
      refine ⟨by simp [i1, hle], ?_, ?_⟩
      · intro r hr
        rw [List.flatten_cons] at hr
        rcases List.mem_append.1 hr with hr | hr
        · obtain ⟨i, hi, rfl⟩ := List.getElem_of_mem hr
          obtain ⟨k, -, hk⟩ := forall₂_getElem? hrs (List.getElem?_eq_getElem hi)
          exact hk.1
        · exact i2 r hr
      · intro u hu
        simp only [List.flatMap_cons, List.flatten_cons]
        exact forall₂_zip_append (by simp [hle]) (point_rep hu hrs) (i3 u hu)
  obtain ⟨b1, b2, b3⟩ := hbar h3
  refine ⟨hns, ?_, ?_, ?_⟩
  · unfold alignedNames
    simp only [List.length_append, b1, dlen]
    omega
  · intro r hr
    rcases List.mem_append.1 hr with hr | hr
    · rcases List.mem_append.1 hr with hr | hr
      · exact aw r hr
      · exact b2 r hr
    · exact dw r hr
  · intro u hu
    unfold alignedNames implicitConds
    rw [List.append_assoc s.ext.actuation]
    exact forall₂_zip_append alen.symm (actuation_rep hact hu)
      (forall₂_zip_append b1 (b3 u hu) (direct_rep (drep u [] hu rfl)))

theorem implicitConds_all {E : ImplicitEnv K} {s : ImplicitObj K P A} {x : List K} {dt : K} {u : List K}
    (hu : u.length = s.ext.controlDim) : (∀ c ∈ implicitConds E s x dt u, c.holds) ↔ AdmissibleI E s x dt u := by
  have h1 : (∀ c ∈ lowConds s.controlBoundsLow s.ext.controlDim u, c.holds) ↔
      ∀ i, i < u.length → ∀ b, boundAt s.controlBoundsLow i = some b → b ≤ u.getD i 0 := by
    unfold lowConds
    rcases s.controlBoundsLow with _ | b
    · simp [boundAt]
    · simp [hu]
  have h2 : (∀ c ∈ highConds s.controlBoundsHigh s.ext.controlDim u, c.holds) ↔
      ∀ i, i < u.length → ∀ b, boundAt s.controlBoundsHigh i = some b → u.getD i 0 ≤ b := by
    unfold highConds
    rcases s.controlBoundsHigh with _ | b
    · simp [boundAt]
    · simp [hu]
  have h4 : (∀ c ∈ directConds s.ext.direct x u, c.holds) ↔
      ∀ kc ∈ s.ext.direct, kc.2.enabled = true → DirectOK kc.2 x u := by
    unfold directConds
    rw [List.forall_mem_map]
  unfold implicitConds
  simp only [List.mem_append, or_imp, forall_and]
  rw [h1, h2, h4, ← within_iff]
  constructor
  · rintro ⟨a, b, c⟩
    refine ⟨hu, a, ?_, c⟩
    intro kc hkc hen k hk
    exact b _ (List.mem_flatMap.2 ⟨kc, hkc, List.mem_map.2 ⟨k, hk, rfl⟩⟩) hen
  · intro h
    refine ⟨h.bounds, ?_, h.direct⟩
    intro c hc
    obtain ⟨kc, hkc, hc⟩ := List.mem_flatMap.1 hc
    obtain ⟨k, hk, rfl⟩ := List.mem_map.1 hc
    exact fun hen => h.barrier kc hkc hen k hk

theorem implicit_feasible {E : ImplicitEnv K} {s : ImplicitObj K P A} (hinv : ASIFInv s) {x : List K} {dt : K} {u0 : List K}
    {s1 : ImplicitObj K P A} {rows drows : List (Row K)}
    (hr : implicitGenRows E.ad E.f E.g E.pred (aprep s x u0) x dt = (.ok rows, s1))
    (hd : directRows (aprep s x u0).ext.directParams (aprep s x u0).ext.directEnabled s.ext.controlDim s.ext.numSlack x
      s.ext.direct = .ok drows) {u : List K} (hu : u.length = s.ext.controlDim) :
    Feasible s.ext.objWeight.length (rows ++ drows) u ↔ AdmissibleI E s x dt u := by
  obtain ⟨names, hact⟩ := hinv.act
  obtain ⟨hns, hl, -, hrep⟩ := implicit_rep hinv hact hr hd
  rw [← implicitConds_all hu, ← forall₂_zip_holds hl (hrep u hu)]
  unfold Feasible
  have : u.length = s.ext.objWeight.length := by rw [objWeight_length hinv, hns, hu]; rfl
  simp [this]

theorem scalesPos_of_noSlack {s : ImplicitObj K P A} (hinv : ASIFInv s) (h : s.ext.numSlack = 0) : ScalesPos s.constraints := by
  intro w hw
  have := hinv.slack
  rw [h] at this
  rw [List.length_eq_zero_iff.1 this.symm] at hw
  simp at hw

theorem qpObj_eq_dist {s : ImplicitObj K P A} (hinv : ASIFInv s) (hns : s.ext.numSlack = 0) {u v : List K}
    (hu : u.length = s.ext.controlDim) (hv : v.length = s.ext.controlDim) :
    qpObj s.ext.objWeight (u ++ zeros s.ext.numSlack) v = (sqDist v u - sqNorm u) / 2 := by
  have := qpObj_eq_cost hinv (u := u) (v := v) (d := []) hu hv
  rw [List.append_nil] at this
  rw [this]
  have e : qpWeights s = [] := by
    unfold qpWeights
    have := hinv.slack
    rw [hns] at this
    rw [List.length_eq_zero_iff.1 this.symm]; rfl
  unfold slackCost
  rw [e]
  simp [sqDist, vsub_comm_sq]

/-- A successful call on a problem that has an admissible control. -/
theorem implicit_solved [LawfulSqrt K] {solver : Solver K} (hspec : SolverSpec solver) {E : ImplicitEnv K}
    {s s' : ImplicitObj K P A} (hinv : ASIFInv s) {x : List K} {dt : K} {u v : List K} (hen : s.enable = true)
    (h : E.call solver s (.array x) dt u = (.ok v, s')) (hadm : ∃ w, AdmissibleI E s x dt w) :
    u.length = s.ext.controlDim ∧ s.ext.numSlack = 0 ∧ AdmissibleI E s x dt v ∧
      (∀ w, AdmissibleI E s x dt w → w ≠ v → sqDist v u < sqDist w u) ∧
      s'.intervening = asifMonitor s.ext.epsilon u v ∧
      s'.ext.extra = { s.ext.extra with ctrl := savedCtrl s.ext.extra.ctrl } ∧
      s'.ext.constraintNames = implicitNames s (numPoints s dt) ∧
      ∀ names, actuationMats s.controlBoundsLow s.controlBoundsHigh s.ext.controlDim s.ext.numSlack =
          .ok (s.ext.actuation, names) → implicitNames s (numPoints s dt) = alignedNames E s x dt names →
        ∃ l, s'.ext.causing = some l ∧ l.Nodup ∧
          (∀ q ∈ l, ∃ c ∈ implicitConds E s x dt v, c.label = q ∧ c.tight) ∧
          (∀ w, w.length = s.ext.controlDim → (∀ c ∈ implicitConds E s x dt w, c.label ∈ l → c.holds) →
            sqDist v u ≤ sqDist w u) := by
  obtain ⟨nm, ex, rows, drows, w0, cz, hgen, hdir, hout, hclip, hs'⟩ := asif_ok (genFrame_implicit E) hen h
  obtain ⟨names, hact⟩ := hinv.act
  obtain ⟨hns, hl, hwid, hrep⟩ := implicit_rep hinv hact hgen hdir
  have hpos := scalesPos_of_noSlack hinv hns
  have hG := objWeight_pos hinv hpos
  have hGl := objWeight_length hinv
  rw [hns, Nat.add_zero] at hGl
  obtain ⟨-, -, hw1⟩ := implicitGen_ok (cachesFresh_aprep hinv.wf x u) hgen
  have hnm : nm = implicitNames s (numPoints s dt) :=
    congrArg (fun t : ImplicitObj K P A => t.ext.constraintNames) hw1
  have hex : ex = { s.ext.extra with ctrl := savedCtrl s.ext.extra.ctrl } :=
    congrArg (fun t : ImplicitObj K P A => t.ext.extra) hw1
  obtain ⟨wa, hwa⟩ := hadm
  have hfa := (implicit_feasible hinv hgen hdir hwa.len).2 hwa
  cases hout with
  | infeasible hq hx =>
    obtain ⟨hqs, hal, hrw⟩ := quadprogSolve_dims (Or.inr hq)
    exact absurd ⟨_, hfa⟩ (hspec.failed _ _ _ _ hG hal hrw (hqs.symm.trans hq)).2
  | @solved z iact l hq hcause =>
    obtain ⟨hqs, hal, hrw⟩ := quadprogSolve_dims (Or.inl ⟨_, _, hq⟩)
    obtain ⟨hfz, hmin, hnd, htight, hsuff⟩ := hspec.solved _ _ _ _ _ hG hal hrw (hqs.symm.trans hq)
    have hul : u.length = s.ext.controlDim := by
      rw [hGl, List.length_append, zeros_length, hns] at hal; omega
    have hzl : z.length = s.ext.controlDim := hfz.1.trans hGl
    have hzt : z.take s.ext.controlDim = z := List.take_of_length_le hzl.le
    rw [hzt] at hclip hs'
    have hav : AdmissibleI E s x dt z := (implicit_feasible hinv hgen hdir hzl).1 hfz
    obtain ⟨fl, fh⟩ := boundFits_of_act hact
    have hcv : v = z := by
      have := C05_clip_identity s.toBase z (by rw [hzl]; exact fl) (by rw [hzl]; exact fh) hav.bounds
      rw [this] at hclip
      exact (Except.ok.inj hclip).symm
    subst hcv
    have cost : ∀ w : List K, w.length = s.ext.controlDim →
        qpObj s.ext.objWeight (u ++ zeros s.ext.numSlack) w = (sqDist w u - sqNorm u) / 2 :=
      fun w hw => qpObj_eq_dist hinv hns hul hw
    refine ⟨hul, hns, hav, ?_, by rw [hs']; rfl, by rw [hs']; exact hex, by rw [hs']; exact hnm, ?_⟩
    · intro w hw hne
      have := qp_unique hG hfz hmin ((implicit_feasible hinv hgen hdir hw.len).2 hw) (Ne.symm hne)
      rw [cost v hzl, cost w hw.len] at this
      linarith
    · intro names' hact' hal'
      have hn : names' = names := by
        rw [hact'] at hact
        simp only [Except.ok.injEq, Prod.mk.injEq] at hact
        exact hact.2
      subst hn
      rw [← hnm] at hal'
      subst hal'
      have hir : ∀ i ∈ iact, 1 ≤ i ∧ (i - 1).toNat < (alignedNames E s x dt names').length := by
        intro i hi
        obtain ⟨r, hr, -, -⟩ := htight i hi
        obtain ⟨h1, h2, -⟩ := rowAt_some hr
        rw [hl]
        exact ⟨h1, h2⟩
      obtain ⟨l', hl', hnod, hmem⟩ := causingLoop_spec _ iact hir [] List.nodup_nil
      rw [hcause] at hl'
      simp only [Prod.mk.injEq, true_and] at hl'
      subst hl'
      refine ⟨l, by rw [hs']; rfl, hnod, ?_, ?_⟩
      · intro q hq'
        obtain ⟨i, hi, hiq⟩ := ((hmem q).1 hq').resolve_left (by simp)
        obtain ⟨r, hr, ht, hnz⟩ := htight i hi
        obtain ⟨h1, h2, hr'⟩ := rowAt_some hr
        have hzip : ((alignedNames E s x dt names').zip (rows ++ drows))[(i - 1).toNat]? = some (q, r) := by
          rw [List.getElem?_zip_eq_some]
          exact ⟨hiq, hr'⟩
        obtain ⟨c, hc, hrepc⟩ := forall₂_getElem? (hrep _ hzl) hzip
        refine ⟨c, List.mem_of_getElem? hc, hrepc.1.symm, hrepc.2.2 hnz ?_⟩
        rw [List.append_nil]; exact ht
      · intro w hw hall
        have hle : w.length = s.ext.objWeight.length := by rw [hw, hGl]
        have := hsuff w hle ?_
        · rw [cost v hzl, cost w hw] at this
          linarith
        · intro i hi r hr
          obtain ⟨h1, h2, hr'⟩ := rowAt_some hr
          have hi2 : (i - 1).toNat < (alignedNames E s x dt names').length := by rw [hl]; exact h2
          have hzip : ((alignedNames E s x dt names').zip (rows ++ drows))[(i - 1).toNat]? =
              some ((alignedNames E s x dt names')[(i - 1).toNat], r) := by
            rw [List.getElem?_zip_eq_some]
            exact ⟨List.getElem?_eq_getElem hi2, hr'⟩
          obtain ⟨c, hc, hrepc⟩ := forall₂_getElem? (hrep w hw) hzip
          have hh := hrepc.2.1
          rw [List.append_nil] at hh
          refine hh.2 (hall c (List.mem_of_getElem? hc) ?_)
          rw [← hrepc.1]
          refine (hmem _).2 (Or.inr ⟨i, hi, ?_⟩)
          exact List.getElem?_eq_getElem hi2

/-! ### Calls return -/

/-- The result of an enabled call once the rows are there. -/
theorem asif_run {S X : Type} {solver : Solver K} {gen : ASIFObj K S P X → S → K → Except PyErr (List (Row K)) × ASIFObj K S P X}
    {s : ASIFObj K S P X} {x : S} {dt : K} {u : List K} {rows drows : List (Row K)} {nm : List String} {ex : X}
    (hen : s.enable = true) (hgen : gen (aprep s x u) x dt = (.ok rows, withNames (aprep s x u) nm ex))
    (hdir : directRows (aprep s x u).ext.directParams (aprep s x u).ext.directEnabled s.ext.controlDim s.ext.numSlack x
      s.ext.direct = .ok drows) :
    (filterControlCB getStateDefault (asifFilter solver gen) s (.array x) dt u).1 =
      match quadprogSolve solver s.ext.objWeight (u ++ zeros s.ext.numSlack) (rows ++ drows) with
      | .solved z iact =>
        match (causingLoop nm iact []).1 with
        | .error e => .error e
        | .ok () => s.toBase.clipControl (z.take s.ext.controlDim)
      | .valueError msg =>
        if msg = inconsistentMsg then
          if s.ext.solverException then .error .solverError
          else s.toBase.clipControl ((u ++ zeros s.ext.numSlack).take s.ext.controlDim)
        else .error (.valueError msg) := by
  rw [call_eq _ hen]
  unfold asifFilter
  have e0 : updateDirectParams (prep s x u) = aprep s x u := rfl
  simp only [e0, hgen]
  have ed : directRows (withNames (aprep s x u) nm ex).ext.directParams (withNames (aprep s x u) nm ex).ext.directEnabled
      (withNames (aprep s x u) nm ex).ext.controlDim (withNames (aprep s x u) nm ex).ext.numSlack x
      (withNames (aprep s x u) nm ex).ext.direct = .ok drows := hdir
  simp only [ed]
  unfold optimize
  have w1 : (withNames (aprep s x u) nm ex).ext.objWeight = s.ext.objWeight := rfl
  have w2 : (withNames (aprep s x u) nm ex).ext.numSlack = s.ext.numSlack := rfl
  have w3 : (withNames (aprep s x u) nm ex).ext.controlDim = s.ext.controlDim := rfl
  have w4 : (withNames (aprep s x u) nm ex).ext.constraintNames = nm := rfl
  have w5 : (withNames (aprep s x u) nm ex).ext.solverException = s.ext.solverException := rfl
  simp only [w1, w2, w3, w4, w5]
  have hcl : ∀ (b : Base K) w, b.controlBoundsLow = s.controlBoundsLow → b.controlBoundsHigh = s.controlBoundsHigh →
      b.clipControl w = s.toBase.clipControl w := fun b w h1 h2 => clipControl_congr s.toBase h1 h2
  rcases quadprogSolve solver s.ext.objWeight (u ++ zeros s.ext.numSlack) (rows ++ drows) with ⟨z, iact⟩ | msg
  · simp only
    rcases causingLoop nm iact [] with ⟨e | _, l⟩
    · rfl
    · simp only
      rw [hcl]
      · rcases s.toBase.clipControl (z.take s.ext.controlDim) with e | c <;> rfl
      · rfl
      · rfl
  · simp only
    by_cases hm : msg = inconsistentMsg
    · rw [if_pos hm, if_pos hm]
      by_cases hx : s.ext.solverException = true
      · rw [if_neg (by simp [hx]), if_pos hx]
      · rw [if_pos hx, if_neg hx]
        simp only
        rw [hcl]
        · rcases hc : s.toBase.clipControl ((u ++ zeros s.ext.numSlack).take s.ext.controlDim) with e | c
          · erw [hc]
          · erw [hc]
        · rfl
        · rfl
    · rw [if_neg hm, if_neg hm]

/-- The reported constraints after an enabled call that solved its problem. -/
theorem asif_run_causing {S X : Type} {solver : Solver K}
    {gen : ASIFObj K S P X → S → K → Except PyErr (List (Row K)) × ASIFObj K S P X}
    {s : ASIFObj K S P X} {x : S} {dt : K} {u : List K} {rows drows : List (Row K)} {nm : List String} {ex : X}
    (hen : s.enable = true) (hgen : gen (aprep s x u) x dt = (.ok rows, withNames (aprep s x u) nm ex))
    (hdir : directRows (aprep s x u).ext.directParams (aprep s x u).ext.directEnabled s.ext.controlDim s.ext.numSlack x
      s.ext.direct = .ok drows) {z : List K} {iact : List Int}
    (hq : quadprogSolve solver s.ext.objWeight (u ++ zeros s.ext.numSlack) (rows ++ drows) = .solved z iact) :
    (filterControlCB getStateDefault (asifFilter solver gen) s (.array x) dt u).2.ext.causing = some (causingLoop nm iact []).2 := by
  rw [call_eq _ hen]
  unfold asifFilter
  have e0 : updateDirectParams (prep s x u) = aprep s x u := rfl
  simp only [e0, hgen]
  have ed : directRows (withNames (aprep s x u) nm ex).ext.directParams (withNames (aprep s x u) nm ex).ext.directEnabled
      (withNames (aprep s x u) nm ex).ext.controlDim (withNames (aprep s x u) nm ex).ext.numSlack x
      (withNames (aprep s x u) nm ex).ext.direct = .ok drows := hdir
  simp only [ed]
  unfold optimize
  have w1 : (withNames (aprep s x u) nm ex).ext.objWeight = s.ext.objWeight := rfl
  have w2 : (withNames (aprep s x u) nm ex).ext.numSlack = s.ext.numSlack := rfl
  have w4 : (withNames (aprep s x u) nm ex).ext.constraintNames = nm := rfl
  simp only [w1, w2, w4, hq]
  rcases causingLoop nm iact [] with ⟨e | _, l⟩
  · rfl
  · simp only
    split <;> rfl

theorem sensLoop_total {E : ImplicitEnv K} {s0 : ImplicitObj K P A} {x0 : List K} {dt : K} (m : Nat) :
    ∀ {s : ImplicitObj K P A} {x : List K} {S : List (List K)} {acc : List (List K × List (List K))} {k : Nat}
      {z : CState A}, s = withCS s0 z → backupPath E s0 x0 dt k = some (x, z) →
      (∀ j, k < j → j ≤ k + m → ∃ y z, backupPath E s0 x0 dt j = some (y, z) ∧
        (∃ ub z', s0.ext.extra.ctrl.gen y dt z = some (ub, z') ∧ ∀ r ∈ E.g y, r.length = ub.length) ∧
        (E.g y).length = (E.f y).length ∧ (E.ad (closedLoopField E s0 dt z) y).length = x0.length ∧
        ∀ r ∈ E.ad (closedLoopField E s0 dt z) y, r.length = x0.length) →
      ∃ tr s', sensLoop E.ad E.f E.g E.pred x0.length dt m s x S acc = (.ok tr, s') := by
  induction m with
  | zero => intro s x S acc k z _ _ _; exact ⟨acc, s, rfl⟩
  | succ m ih =>
    intro s x S acc k z hs hp hall
    obtain ⟨y, z1, hp1, ⟨ub1, z1', hg1, hc1⟩, hgf, hj1, hj2⟩ := hall (k + 1) (by omega) (by omega)
    have hp1' := hp1
    simp only [backupPath, hp, bind, Option.bind] at hp1
    rcases hg : s0.ext.extra.ctrl.gen x dt z with _ | ⟨ub, z2⟩
    · rw [hg] at hp1; simp at hp1
    · rw [hg] at hp1
      simp only at hp1
      rcases hc : s0.toBase.clipControl ub with e | u
      · rw [hc] at hp1; simp [Except.toOption] at hp1
      · rw [hc] at hp1
        simp only [Except.toOption, pure, Option.some.injEq, Prod.mk.injEq] at hp1
        obtain ⟨rfl, rfl⟩ := hp1
        have hb : implicitBackupControl s x dt = (.ok u, withCS s0 z2) := by
          subst hs
          unfold implicitBackupControl BackupController.generateControl
          have e1 : (withCS s0 z).ext.extra.ctrl.gen x dt (withCS s0 z).ext.extra.ctrl.state = some (ub, z2) := hg
          rw [e1]
          simp only [Prod.mk.injEq]
          exact ⟨hc, rfl⟩
        have hJ : backupJacobian E.ad E.f E.g s0.ext.extra.ctrl.gen x0.length dt z2 (E.pred x dt u) =
            .ok (E.ad (closedLoopField E s0 dt z2) (E.pred x dt u)) := by
          unfold backupJacobian
          rw [hg1]
          simp only
          rw [backupTransition_eq, if_neg]
          simp only [not_or, not_exists, not_and, ne_eq, not_not]
          exact ⟨hgf, hc1, hj1, hj2⟩
        unfold sensLoop
        rw [hb]
        have eg : (withCS s0 z2).ext.extra.ctrl.gen = s0.ext.extra.ctrl.gen := rfl
        have ez : (withCS s0 z2).ext.extra.ctrl.state = z2 := rfl
        simp only [eg, ez, hJ]
        exact ih rfl hp1' fun j h1 h2 => hall j (by omega) (by omega)

theorem copy_supported {z : CState A} (h : ∀ a, z ≠ .unsupported a) : z.copy = .ok z := by
  cases z <;> first | rfl | exact absurd rfl (h _)

theorem sensIntegrate_total {E : ImplicitEnv K} {s : ImplicitObj K P A} {x : List K} {dt : K} (h : ShapesI E s x dt) :
    ∃ tr s', sensIntegrate E.ad E.f E.g E.pred s x dt (numPoints s dt) = (.ok tr, s') := by
  unfold sensIntegrate BackupController.save
  rw [copy_supported h.ctrl]
  simp only
  obtain ⟨s1, hs1⟩ : ∃ s1, s1 = setBackup s { s.ext.extra.ctrl with stateSaved := s.ext.extra.ctrl.state } := ⟨_, rfl⟩
  rw [← hs1]
  have hsame : SamePath s s1 := by rw [hs1]; exact ⟨rfl, rfl, rfl, rfl⟩
  obtain ⟨tr, s2, hl⟩ := sensLoop_total (E := E) (s0 := s1) (x0 := x) (dt := dt) (numPoints s dt - 1) (s := s1) (x := x)
    (S := eyeMat x.length) (acc := [(x, eyeMat x.length)]) (k := 0) (z := s1.ext.extra.ctrl.state) rfl rfl (by
      intro j h1 h2
      obtain ⟨y, z, hp, -, hr⟩ := h.path j (by unfold numPoints at h2 ⊢; omega)
      obtain ⟨⟨ub, z', hg, hc⟩, a, b, c⟩ := hr h1
      refine ⟨y, z, by rw [backupPath_same hsame]; exact hp, ⟨ub, z', by rw [hsame.gen]; exact hg, hc⟩, a, ?_⟩
      rw [closedLoopField_same hsame]
      exact ⟨b, c⟩)
  rw [hl]
  exact ⟨_, _, rfl⟩

theorem implicitRows_total {E : ImplicitEnv K} {params : Dict P} {en : Dict Bool} {m : Nat}
    {x : List K} {tr : List (List K × List (List K))} (hf : (E.f x).length = x.length) (hg : (E.g x).length = x.length)
    (hgc : ∀ r ∈ E.g x, r.length = m) :
    ∀ {cs : Dict (Constraint K (List K) P)} (sc : Nat),
      (∀ kc ∈ cs, dictGet params kc.1 = some kc.2.params) → (∀ kc ∈ cs, dictGet en kc.1 = some kc.2.enabled) →
      (∀ kc ∈ cs, kc.2.alpha.isSome = true ∧ kc.2.subsample.skipLength ≠ 0 ∧
        ∀ pt ∈ tr, (kc.2.gradFn pt.1 kc.2.params).length = x.length) →
      ∃ rows, implicitRows E.f E.g params en m 0 x tr sc cs = .ok rows
  | [], sc, _, _, _ => ⟨[], rfl⟩
  | (q, c) :: cs, sc, hp, he, ha => by
    have hpq := hp (q, c) (by simp)
    have heq := he (q, c) (by simp)
    obtain ⟨hal, hsk, hgr⟩ := ha (q, c) (by simp)
    simp only at hpq heq hal hsk hgr
    obtain ⟨al, hal⟩ := Option.isSome_iff_exists.1 hal
    obtain ⟨pts, hpts⟩ := pointRows_total (f := E.f) (g := E.g) (c := c) (p := c.params) (m := m) (x0 := x) (tr := tr) (by
      intro pt hpt
      unfold invarianceRow
      simp only
      rw [if_neg (by
        simp only [not_or, not_exists, not_and, ne_eq, not_not]
        exact ⟨hgr pt hpt, hf, hg, hgc⟩)]
      simp only [Constraint.alphaAt, hal]
      exact ⟨_, rfl⟩)
    obtain ⟨rest, hrest⟩ := implicitRows_total (E := E) (params := params) (en := en) (tr := tr) hf hg hgc (cs := cs)
      (if c.slackPriorityScale.isSome then sc + 1 else sc)
      (fun kc h => hp kc (by simp [h])) (fun kc h => he kc (by simp [h])) (fun kc h => ha kc (by simp [h]))
    unfold implicitRows
    simp only [hpq, heq, hpts]
    obtain ⟨rs, hrs⟩ := subsampleOne_total hsk (pts.map fun pt =>
          (⟨⟨(if c.enabled then pt.row.w else zeros m) ++
              (if c.slackPriorityScale.isSome then (zeros 0).set sc (-1) else zeros 0),
            if c.enabled then pt.row.b else 0⟩, pt.val⟩ : Point K))
    rw [hrs]
    simp only [hrest]
    exact ⟨_, by rw [if_neg (by simp)]⟩

theorem numSlack_zero {s : ImplicitObj K P A} (hinv : ASIFInv s) (h : ∀ kc ∈ s.constraints, kc.2.slackPriorityScale = none) :
    s.ext.numSlack = 0 := by
  rw [hinv.slack, List.length_eq_zero_iff]
  unfold slackScales
  rw [List.filterMap_eq_nil_iff]
  exact h

theorem implicitGen_total {E : ImplicitEnv K} {s : ImplicitObj K P A} (hinv : ASIFInv s) {x : List K} {dt : K}
    (h : ShapesI E s x dt) (u : List K) :
    ∃ rows, implicitGenRows E.ad E.f E.g E.pred (aprep s x u) x dt =
      (.ok rows, withNames (aprep s x u) (implicitNames s (numPoints s dt))
        { s.ext.extra with ctrl := savedCtrl s.ext.extra.ctrl }) := by
  have hns := numSlack_zero hinv h.noSlack
  have h' : ShapesI E (aprep s x u) x dt := by
    refine ⟨h.step, h.window, h.alpha, h.noSlack, h.skip, h.f0, h.g0, h.g0cols, h.ctrl, ?_, h.direct⟩
    intro k hk
    obtain ⟨y, z, a, b, c⟩ := h.path k hk
    refine ⟨y, z, by rw [backupPath_same (samePath_aprep s x u)]; exact a, b, fun hk => ?_⟩
    rw [closedLoopField_same (samePath_aprep s x u)]
    exact c hk
  have hcf := cachesFresh_aprep hinv.wf x u
  obtain ⟨tr, s1, hi⟩ := sensIntegrate_total h'
  have hnp : numPoints (aprep s x u) dt = (pyInt (s.ext.extra.backupWindow / dt)).toNat + 1 := rfl
  rw [hnp] at hi
  obtain ⟨hlen, htr, rfl⟩ := sensIntegrate_ok hi
  obtain ⟨rows, hrows⟩ := implicitRows_total (E := E) (params := (aprep s x u).params) (en := (aprep s x u).constraintEnabled)
    (m := s.ext.controlDim) (tr := tr) h.f0 h.g0 h.g0cols (cs := s.constraints) 0 hcf.params hcf.enabled (by
      intro kc hkc
      refine ⟨h.alpha kc hkc, h.skip kc hkc, ?_⟩
      intro pt hpt
      obtain ⟨k, hk, rfl⟩ := List.getElem_of_mem hpt
      obtain ⟨⟨z, hz⟩, -, -⟩ := htr k _ (List.getElem?_eq_getElem hk)
      obtain ⟨y, z', a, b, -⟩ := h'.path k (by rw [hnp, ← hlen]; exact hk)
      rw [a] at hz
      simp only [Option.some.injEq, Prod.mk.injEq] at hz
      rw [← hz.1]
      exact b kc hkc)
  refine ⟨s.ext.actuation ++ rows, ?_⟩
  unfold implicitGenRows
  have hb : backupSteps (aprep s x u).ext.extra.backupWindow dt = .ok (pyInt (s.ext.extra.backupWindow / dt)) := by
    unfold backupSteps
    rw [if_neg h.step]
    rfl
  rw [hb]
  simp only
  rw [if_neg (by have := h.window; omega), hi]
  simp only
  obtain ⟨t, ht⟩ : ∃ t, t = setBackup (aprep s x u) { (aprep s x u).ext.extra.ctrl with
    stateSaved := (aprep s x u).ext.extra.ctrl.state } := ⟨_, rfl⟩
  have e : implicitRows E.f E.g t.params t.constraintEnabled t.ext.controlDim t.ext.numSlack x tr 0 t.constraints = .ok rows := by
    subst ht
    have : (setBackup (aprep s x u) { (aprep s x u).ext.extra.ctrl with
      stateSaved := (aprep s x u).ext.extra.ctrl.state }).ext.numSlack = 0 := hns
    rw [this]
    exact hrows
  rw [← ht, e]
  subst ht
  rfl

theorem implicitNames_length {s : ImplicitObj K P A} (hn : ImplicitNames s) (N : Nat) :
    ∃ names, actuationMats s.controlBoundsLow s.controlBoundsHigh s.ext.controlDim s.ext.numSlack = .ok (s.ext.actuation, names) ∧
      implicitNames s N = names ++ (s.constraints.flatMap (fun kc => List.replicate N kc.1) ++ dictKeys s.ext.direct) := by
  obtain ⟨names, hact, ht⟩ := hn
  refine ⟨names, hact, ?_⟩
  unfold implicitNames
  rw [← actuation_names_length hact]
  simp only [ht]

theorem sum_map_le {T : Type} {f g : T → Nat} : ∀ {l : List T}, (∀ a ∈ l, f a ≤ g a) → (l.map f).sum ≤ (l.map g).sum
  | [], _ => by simp
  | a :: l, h => by
    have h1 := h a (by simp)
    have h2 := sum_map_le (l := l) fun b hb => h b (by simp [hb])
    simp only [List.map_cons, List.sum_cons]
    omega

/-- With fitting shapes a call answers: a control if some control is admissible, the configured policy otherwise. -/
theorem implicit_total [LawfulSqrt K] {solver : Solver K} (hspec : SolverSpec solver) {E : ImplicitEnv K}
    {s : ImplicitObj K P A} (hinv : ASIFInv s) (hnames : ImplicitNames s) {x : List K} {dt : K} (hsh : ShapesI E s x dt)
    (hfit : ∀ kc ∈ s.constraints, (pointsOf E s x dt kc.2).length ≤ numPoints s dt) {u : List K}
    (hu : u.length = s.ext.controlDim) (hen : s.enable = true) :
    ((∃ w, AdmissibleI E s x dt w) → ∃ v, (E.call solver s (.array x) dt u).1 = .ok v) ∧
    ((¬ ∃ w, AdmissibleI E s x dt w) → (E.call solver s (.array x) dt u).1 =
      if s.ext.solverException then .error .solverError else s.toBase.clipControl u) := by
  obtain ⟨rows, hgen⟩ := implicitGen_total hinv hsh u
  have hdf := directFresh_aprep hinv x u
  obtain ⟨drows, hdr⟩ := directRows_total (n := s.ext.controlDim) (k := s.ext.numSlack) s.ext.direct hdf.1 hdf.2 hsh.direct
  have hns := numSlack_zero hinv hsh.noSlack
  obtain ⟨names, hact, hnm⟩ := implicitNames_length hnames (numPoints s dt)
  obtain ⟨-, hl, hwid, hrep⟩ := implicit_rep hinv hact hgen hdr
  have hpos := scalesPos_of_noSlack hinv hns
  have hG := objWeight_pos hinv hpos
  have hGl := objWeight_length hinv
  have hal : (u ++ zeros s.ext.numSlack).length = s.ext.objWeight.length := by
    rw [List.length_append, zeros_length, hGl, hu]
  have hrw : ∀ r ∈ rows ++ drows, r.w.length = s.ext.objWeight.length := by
    rw [hGl, hns]; exact hwid
  have hqs : quadprogSolve solver s.ext.objWeight (u ++ zeros s.ext.numSlack) (rows ++ drows) =
      solver s.ext.objWeight (u ++ zeros s.ext.numSlack) (rows ++ drows) := by
    unfold quadprogSolve
    rw [if_pos ⟨hal, hrw⟩]
  obtain ⟨fl, fh⟩ := boundFits_of_act hact
  have hrun := asif_run (solver := solver) hen hgen hdr
  have hcall : (E.call solver s (.array x) dt u).1 =
    (filterControlCB getStateDefault (asifFilter solver (implicitGenRows E.ad E.f E.g E.pred)) s (.array x) dt u).1 := rfl
  rw [hcall, hrun, hqs]
  have hnl : (alignedNames E s x dt names).length ≤ (implicitNames s (numPoints s dt)).length := by
    rw [hnm]
    unfold alignedNames
    simp only [List.length_append, List.length_flatMap, List.length_replicate]
    have : (s.constraints.map fun kc => (pointsOf E s x dt kc.2).length).sum ≤
        (s.constraints.map fun _ => numPoints s dt).sum := sum_map_le hfit
    omega
  constructor
  · rintro ⟨w, hw⟩
    have hfa := (implicit_feasible hinv hgen hdr hw.len).2 hw
    rcases hq : solver s.ext.objWeight (u ++ zeros s.ext.numSlack) (rows ++ drows) with ⟨z, iact⟩ | msg
    · obtain ⟨hfz, -, -, htight, -⟩ := hspec.solved _ _ _ _ _ hG hal hrw hq
      have hir : ∀ i ∈ iact, 1 ≤ i ∧ (i - 1).toNat < (implicitNames s (numPoints s dt)).length := by
        intro i hi
        obtain ⟨r, hr, -, -⟩ := htight i hi
        obtain ⟨h1, h2, -⟩ := rowAt_some hr
        exact ⟨h1, by omega⟩
      obtain ⟨l, hlp, -, -⟩ := causingLoop_spec _ iact hir [] List.nodup_nil
      have hvl : (z.take s.ext.controlDim).length = s.ext.controlDim := by
        have := hfz.1
        rw [List.length_take]; omega
      obtain ⟨c, hc, -⟩ := C05_clip_total s.toBase (z.take s.ext.controlDim) (by rw [hvl]; exact fl) (by rw [hvl]; exact fh)
      exact ⟨c, by simp only [hlp, hc]⟩
    · exact absurd ⟨_, hfa⟩ (hspec.failed _ _ _ _ hG hal hrw hq).2
  · intro hno
    have hnf : ¬ ∃ z, Feasible s.ext.objWeight.length (rows ++ drows) z := by
      rintro ⟨z, hz⟩
      have hzl : z.length = s.ext.controlDim := by have := hz.1.trans hGl; omega
      exact hno ⟨_, (implicit_feasible hinv hgen hdr hzl).1 hz⟩
    rcases hq : solver s.ext.objWeight (u ++ zeros s.ext.numSlack) (rows ++ drows) with ⟨z, iact⟩ | msg
    · exact absurd ⟨z, (hspec.solved _ _ _ _ _ hG hal hrw hq).1⟩ hnf
    · obtain ⟨rfl, -⟩ := hspec.failed _ _ _ _ hG hal hrw hq
      simp only [if_true]
      rw [zeros_append_take hu]

/-- What a call does when some control is admissible, and which rows the solver reports as active. -/
theorem implicit_active [LawfulSqrt K] {solver : Solver K} (hspec : SolverSpec solver) {E : ImplicitEnv K}
    {s : ImplicitObj K P A} (hinv : ASIFInv s) {x : List K} {dt : K} (hsh : ShapesI E s x dt) {u : List K}
    (hu : u.length = s.ext.controlDim) (hen : s.enable = true) (hadm : ∃ w, AdmissibleI E s x dt w) :
    ∃ z iact, AdmissibleI E s x dt z ∧ (∀ w, AdmissibleI E s x dt w → w ≠ z → sqDist z u < sqDist w u) ∧ iact.Nodup ∧
      (∀ i ∈ iact, 1 ≤ i ∧ ∃ c, (implicitConds E s x dt z)[(i - 1).toNat]? = some c ∧ c.tight) ∧
      (∀ w, w.length = s.ext.controlDim → (∀ i ∈ iact, ∀ c, (implicitConds E s x dt w)[(i - 1).toNat]? = some c → c.holds) →
        sqDist z u ≤ sqDist w u) ∧
      (E.call solver s (.array x) dt u).1 =
        (match (causingLoop (implicitNames s (numPoints s dt)) iact []).1 with
          | .error e => .error e
          | .ok () => .ok z) ∧
      (E.call solver s (.array x) dt u).2.ext.causing = some (causingLoop (implicitNames s (numPoints s dt)) iact []).2 := by
  obtain ⟨rows, hgen⟩ := implicitGen_total hinv hsh u
  have hdf := directFresh_aprep hinv x u
  obtain ⟨drows, hdr⟩ := directRows_total (n := s.ext.controlDim) (k := s.ext.numSlack) s.ext.direct hdf.1 hdf.2 hsh.direct
  have hns := numSlack_zero hinv hsh.noSlack
  obtain ⟨names, hact⟩ := hinv.act
  obtain ⟨-, hl, hwid, hrep⟩ := implicit_rep hinv hact hgen hdr
  have hpos := scalesPos_of_noSlack hinv hns
  have hG := objWeight_pos hinv hpos
  have hGl := objWeight_length hinv
  have hal : (u ++ zeros s.ext.numSlack).length = s.ext.objWeight.length := by
    rw [List.length_append, zeros_length, hGl, hu]
  have hrw : ∀ r ∈ rows ++ drows, r.w.length = s.ext.objWeight.length := by
    rw [hGl, hns]; exact hwid
  have hqs : quadprogSolve solver s.ext.objWeight (u ++ zeros s.ext.numSlack) (rows ++ drows) =
      solver s.ext.objWeight (u ++ zeros s.ext.numSlack) (rows ++ drows) := by
    unfold quadprogSolve
    rw [if_pos ⟨hal, hrw⟩]
  obtain ⟨fl, fh⟩ := boundFits_of_act hact
  have hrun := asif_run (solver := solver) hen hgen hdr
  have hrunc := @asif_run_causing K P _ _ _ _ _ _ _ solver _ s x dt u rows drows _ _ hen hgen hdr
  rw [hqs] at hrun hrunc
  obtain ⟨w0, hw0⟩ := hadm
  have hfa := (implicit_feasible hinv hgen hdr hw0.len).2 hw0
  rcases hq : solver s.ext.objWeight (u ++ zeros s.ext.numSlack) (rows ++ drows) with ⟨z, iact⟩ | msg
  · obtain ⟨hfz, hmin, hnd, htight, hsuff⟩ := hspec.solved _ _ _ _ _ hG hal hrw hq
    have hzl : z.length = s.ext.controlDim := by have := hfz.1.trans hGl; omega
    have hav : AdmissibleI E s x dt z := (implicit_feasible hinv hgen hdr hzl).1 hfz
    have hclip : s.toBase.clipControl (z.take s.ext.controlDim) = .ok z := by
      rw [List.take_of_length_le hzl.le]
      exact C05_clip_identity s.toBase z (by rw [hzl]; exact fl) (by rw [hzl]; exact fh) hav.bounds
    have cost : ∀ w : List K, w.length = s.ext.controlDim →
        qpObj s.ext.objWeight (u ++ zeros s.ext.numSlack) w = (sqDist w u - sqNorm u) / 2 :=
      fun w hw => qpObj_eq_dist hinv hns hu hw
    rw [hq] at hrun
    simp only [hclip] at hrun
    refine ⟨z, iact, hav, ?_, hnd, ?_, ?_, hrun, hrunc hq⟩
    · intro w hw hne
      have := qp_unique hG hfz hmin ((implicit_feasible hinv hgen hdr hw.len).2 hw) (Ne.symm hne)
      rw [cost z hzl, cost w hw.len] at this
      linarith
    · intro i hi
      obtain ⟨r, hr, ht, hnz⟩ := htight i hi
      obtain ⟨h1, h2, hr'⟩ := rowAt_some hr
      have hi2 : (i - 1).toNat < (alignedNames E s x dt names).length := by rw [hl]; exact h2
      have hzip : ((alignedNames E s x dt names).zip (rows ++ drows))[(i - 1).toNat]? =
          some ((alignedNames E s x dt names)[(i - 1).toNat], r) := by
        rw [List.getElem?_zip_eq_some]
        exact ⟨List.getElem?_eq_getElem hi2, hr'⟩
      obtain ⟨c, hc, hrepc⟩ := forall₂_getElem? (hrep _ hzl) hzip
      refine ⟨h1, c, hc, hrepc.2.2 hnz ?_⟩
      rw [List.append_nil]; exact ht
    · intro w hw hall
      have hle : w.length = s.ext.objWeight.length := by rw [hw, hGl, hns]; rfl
      have := hsuff w hle ?_
      · rw [cost z hzl, cost w hw] at this
        linarith
      · intro i hi r hr
        obtain ⟨h1, h2, hr'⟩ := rowAt_some hr
        have hi2 : (i - 1).toNat < (alignedNames E s x dt names).length := by rw [hl]; exact h2
        have hzip : ((alignedNames E s x dt names).zip (rows ++ drows))[(i - 1).toNat]? =
            some ((alignedNames E s x dt names)[(i - 1).toNat], r) := by
          rw [List.getElem?_zip_eq_some]
          exact ⟨List.getElem?_eq_getElem hi2, hr'⟩
        obtain ⟨c, hc, hrepc⟩ := forall₂_getElem? (hrep w hw) hzip
        have hh := hrepc.2.1
        rw [List.append_nil] at hh
        exact hh.2 (hall i hi c hc)
  · exact absurd ⟨_, hfa⟩ (hspec.failed _ _ _ _ hG hal hrw hq).2

end

end RTA
