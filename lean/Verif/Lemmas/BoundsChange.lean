import Verif.Spec.BoundsChange
import Verif.Lemmas.ASIFCall
import Verif.Lemmas.Discrete

/-! A call after the bounds were changed, for modules whose filtering does not read the bounds. -/
set_option linter.unusedSectionVars false
namespace RTA
variable {K S P X E : Type}

/-- The filtering part of the module neither reads nor changes the bounds. -/
def IgnoresBounds (filter : CBObj K S P E → S → K → List K → Except PyErr (List K) × CBObj K S P E) : Prop :=
  ∀ s hi lo x dt u, filter (s.withBounds hi lo) x dt u = ((filter s x dt u).1, ((filter s x dt u).2).withBounds hi lo)

theorem prep_withBounds (s : CBObj K S P E) (hi lo : Option (Bound K)) (x : S) (u : List K) :
    prep (s.withBounds hi lo) x u = (prep s x u).withBounds hi lo := rfl

section
variable [Add K] [Mul K] [Sub K] [Zero K] [HasSqrt K] [LinearOrder K]

theorem clipTo_eq (b : Base K) (u : List K) : b.clipControl u = clipTo b.controlBoundsHigh b.controlBoundsLow u := rfl

theorem clipTo_none (u : List K) : clipTo (none : Option (Bound K)) none u = .ok u := by
  simp [clipTo, Base.init, Base.clipControl]

/-- A call with other bounds clips the same control differently. -/
theorem call_withBounds {filter : CBObj K S P E → S → K → List K → Except PyErr (List K) × CBObj K S P E}
    (hf : IgnoresBounds filter) {s : CBObj K S P E} (hen : s.enable = true) (hi lo : Option (Bound K)) (x : S) (dt : K)
    (u : List K) :
    (filterControlCB getStateDefault filter (s.withBounds hi lo) (.array x) dt u).1 =
      match (filter (prep s x u) x dt u).1 with
      | .error e => .error e
      | .ok w => clipTo hi lo w := by
  rw [call_eq filter (s := s.withBounds hi lo) hen, prep_withBounds, hf]
  rcases filter (prep s x u) x dt u with ⟨_ | w, s1⟩
  · rfl
  · simp only
    have : (s1.withBounds hi lo).toBase.clipControl w = clipTo hi lo w := rfl
    rw [this]
    rcases clipTo hi lo w with _ | c <;> rfl

theorem call_withBounds_self {filter : CBObj K S P E → S → K → List K → Except PyErr (List K) × CBObj K S P E}
    (hf : IgnoresBounds filter) {s : CBObj K S P E} (hen : s.enable = true) (x : S) (dt : K) (u : List K) :
    (filterControlCB getStateDefault filter s (.array x) dt u).1 =
      match (filter (prep s x u) x dt u).1 with
      | .error e => .error e
      | .ok w => clipTo s.controlBoundsHigh s.controlBoundsLow w :=
  call_withBounds hf (s := s) hen s.controlBoundsHigh s.controlBoundsLow x dt u

end

section
variable [Field K] [LinearOrder K] [IsStrictOrderedRing K] [HasSqrt K]

theorem ignores_asif (solver : Solver K) (f : S → List K) (g : S → List (List K)) :
    IgnoresBounds (asifFilter (P := P) (X := X) solver (explicitGenRows f g)) := by
  intro s hi lo x dt u
  unfold asifFilter
  have e : updateDirectParams (s.withBounds hi lo) = (updateDirectParams s).withBounds hi lo := rfl
  simp only [e]
  obtain ⟨t, ht⟩ : ∃ t, t = updateDirectParams s := ⟨_, rfl⟩
  rw [← ht]
  have hg : explicitGenRows f g (t.withBounds hi lo) x dt =
      ((explicitGenRows f g t x dt).1, ((explicitGenRows f g t x dt).2).withBounds hi lo) := by
    unfold explicitGenRows
    have e : explicitRows f g (t.withBounds hi lo).params (t.withBounds hi lo).constraintEnabled (t.withBounds hi lo).ext.controlDim
        (t.withBounds hi lo).ext.numSlack x 0 (t.withBounds hi lo).constraints =
      explicitRows f g t.params t.constraintEnabled t.ext.controlDim t.ext.numSlack x 0 t.constraints := rfl
    rw [e]
    cases explicitRows f g t.params t.constraintEnabled t.ext.controlDim t.ext.numSlack x 0 t.constraints <;> rfl
  rw [hg]
  rcases explicitGenRows f g t x dt with ⟨_ | rows, r⟩
  · rfl
  · simp only
    have e : directRows (CBObj.withBounds r hi lo).ext.directParams (CBObj.withBounds r hi lo).ext.directEnabled
        (CBObj.withBounds r hi lo).ext.controlDim (CBObj.withBounds r hi lo).ext.numSlack x (CBObj.withBounds r hi lo).ext.direct =
      directRows r.ext.directParams r.ext.directEnabled r.ext.controlDim r.ext.numSlack x r.ext.direct := rfl
    rw [e]
    rcases directRows r.ext.directParams r.ext.directEnabled r.ext.controlDim r.ext.numSlack x r.ext.direct with _ | drows
    · rfl
    · simp only
      have ho : optimize solver (CBObj.withBounds r hi lo) u (rows ++ drows) =
          ((optimize solver r u (rows ++ drows)).1, ((optimize solver r u (rows ++ drows)).2).withBounds hi lo) := by
        have e : ∀ (q : QPResult K), quadprogSolve solver (CBObj.withBounds r hi lo).ext.objWeight
            (u ++ zeros (CBObj.withBounds r hi lo).ext.numSlack) (rows ++ drows) = q ↔
            quadprogSolve solver r.ext.objWeight (u ++ zeros r.ext.numSlack) (rows ++ drows) = q := fun _ => Iff.rfl
        unfold optimize
        rcases hq : quadprogSolve solver r.ext.objWeight (u ++ zeros r.ext.numSlack) (rows ++ drows) with ⟨z, iact⟩ | msg
        · simp only [(e _).2 hq, hq]
          have ec : causingLoop (CBObj.withBounds r hi lo).ext.constraintNames iact [] = causingLoop r.ext.constraintNames iact [] := rfl
          rw [ec]
          rcases causingLoop r.ext.constraintNames iact [] with ⟨_ | _, l⟩ <;> rfl
        · simp only [(e _).2 hq, hq]
          by_cases hm : msg = inconsistentMsg
          · simp only [hm, if_true]
            by_cases hx : r.ext.solverException = true
            · have hx' : (CBObj.withBounds r hi lo).ext.solverException = true := hx
              simp [hx, hx']
            · have hx' : ¬ (CBObj.withBounds r hi lo).ext.solverException = true := hx
              simp [hx, hx']; rfl
          · simp [hm]
      rw [ho]
      rcases optimize solver r u (rows ++ drows) with ⟨_ | a, q⟩ <;> rfl

theorem ignores_disc (solver : NLPSolver K) (next : S → K → List K → S) :
    IgnoresBounds (discFilter (P := P) solver next) := by
  intro s hi lo x dt u
  unfold discFilter
  have e1 : (s.withBounds hi lo).ext = s.ext := rfl
  have e2 : (s.withBounds hi lo).constraints = s.constraints := rfl
  have e3 : (s.withBounds hi lo).params = s.params := rfl
  have e4 : (s.withBounds hi lo).constraintEnabled = s.constraintEnabled := rfl
  simp only [e1, e2, e3, e4]
  rcases scalarBound s.ext.optLow with _ | l
  · rfl
  rcases scalarBound s.ext.optHigh with _ | h
  · rfl
  simp only
  by_cases hl : (u ++ zeros s.ext.numSlack).length ≠ s.ext.controlDim + s.ext.numSlack
  · rw [if_pos hl, if_pos hl]
  · rw [if_neg hl, if_neg hl]
    rcases hfs : enabledCbfs next s.ext.controlDim x dt 0 (s.constraints.map (·.2)) (s.params.map (·.2))
        (s.constraintEnabled.map (·.2)) with _ | fs
    · simp only [hfs]
    · simp only [hfs]
      obtain ⟨res, hres⟩ : ∃ res, res = solver (discObj s.ext.objWeight (u ++ zeros s.ext.numSlack)) (u ++ zeros s.ext.numSlack) fs
          (List.replicate s.ext.controlDim (l, h) ++ List.replicate s.ext.numSlack (none, none)) := ⟨_, rfl⟩
      rw [← hres]
      by_cases hq : ¬ res.success = true ∧ s.ext.solverException = true
      · rw [if_pos hq, if_pos hq]
      · rw [if_neg hq, if_neg hq]; rfl

/-- What a discrete module computes before clipping respects the bounds of its construction. -/
theorem disc_raw {solver : NLPSolver K} (hsound : NLPSound solver) {next : S → K → List K → S} {s t : DiscObj K S P} {x : S}
    {dt : K} {u w : List K} (hexc : s.ext.solverException = true) (h : discFilter solver next s x dt u = (.ok w, t)) :
    Within s.ext.optLow s.ext.optHigh w ∧ BoundFits w.length s.ext.optLow ∧ BoundFits w.length s.ext.optHigh := by
  unfold discFilter at h
  rcases hlo : scalarBound s.ext.optLow with e | lo
  · simp [hlo] at h
  rcases hhi : scalarBound s.ext.optHigh with e | hi
  · simp [hlo, hhi] at h
  simp only [hlo, hhi] at h
  by_cases hl : (u ++ zeros s.ext.numSlack).length ≠ s.ext.controlDim + s.ext.numSlack
  · rw [if_pos hl] at h; simp at h
  rw [if_neg hl] at h
  rcases hfs : enabledCbfs next s.ext.controlDim x dt 0 (s.constraints.map (·.2)) (s.params.map (·.2))
      (s.constraintEnabled.map (·.2)) with e | fs
  · simp [hfs] at h
  simp only [hfs] at h
  obtain ⟨res, hres⟩ : ∃ res, res = solver (discObj s.ext.objWeight (u ++ zeros s.ext.numSlack)) (u ++ zeros s.ext.numSlack) fs
      (List.replicate s.ext.controlDim (lo, hi) ++ List.replicate s.ext.numSlack (none, none)) := ⟨_, rfl⟩
  rw [← hres] at h
  by_cases hq : ¬ res.success = true ∧ s.ext.solverException = true
  · rw [if_pos hq] at h; simp at h
  rw [if_neg hq] at h
  simp only [Prod.mk.injEq, Except.ok.injEq] at h
  obtain ⟨rfl, -⟩ := h
  have hs : res.success = true := by
    by_contra hc
    exact hq ⟨hc, hexc⟩
  have hx0 : (u ++ zeros s.ext.numSlack).length = (List.replicate s.ext.controlDim (lo, hi) ++
      List.replicate s.ext.numSlack ((none, none) : Option K × Option K)).length := by simpa using hl
  have hf := hsound _ _ fs _ hx0 (by rw [← hres]; exact hs)
  rw [← hres] at hf
  have hlen : res.x.length = s.ext.controlDim + s.ext.numSlack := by rw [hf.len]; simp
  have htl : (res.x.take s.ext.controlDim).length = s.ext.controlDim := by rw [List.length_take, hlen]; omega
  have hz : res.x.take s.ext.controlDim ++ res.x.drop s.ext.controlDim = res.x := List.take_append_drop _ _
  have hfit : ∀ (b : Option (Bound K)) r n, scalarBound b = .ok r → BoundFits n b := by
    intro b r n hb
    rcases b with _ | ⟨b⟩ | ⟨j, l⟩
    · trivial
    · trivial
    · rcases l with _ | ⟨a, _ | ⟨a', l⟩⟩ <;> simp [scalarBound, BoundFits] at hb ⊢
  exact ⟨(bounds_spec hlo hhi (d := res.x.drop s.ext.controlDim) htl).1 (by rw [hz]; exact ⟨hf.low, hf.high⟩), hfit _ _ _ hlo,
    hfit _ _ _ hhi⟩

/-- What an explicit module computes before clipping is what it returns, when some control is admissible. -/
theorem asif_raw [LawfulSqrt K] {solver : Solver K} (hspec : SolverSpec solver) {f : S → List K} {g : S → List (List K)}
    {s s' : ASIFObj K S P X} (hinv : ASIFInv s) (hnames : ExplicitNames s) (hpos : ScalesPos s.constraints) {x : S} {dt : K}
    {u v : List K} (hen : s.enable = true) (h : explicitASIF solver f g s (.array x) dt u = (.ok v, s'))
    (hadm : ∃ w d, AdmissibleS f g s x w d) :
    (asifFilter solver (explicitGenRows f g) (prep s x u) x dt u).1 = .ok v := by
  have h1 := call_withBounds_self (ignores_asif (P := P) (X := X) solver f g) hen x dt u
  have h0 := call_withBounds (ignores_asif (P := P) (X := X) solver f g) hen none none x dt u
  have hv : (filterControlCB getStateDefault (asifFilter solver (explicitGenRows f g)) s (.array x) dt u).1 = .ok v :=
    congrArg Prod.fst h
  rw [hv] at h1
  rcases hw : (asifFilter solver (explicitGenRows f g) (prep s x u) x dt u).1 with e | w
  · rw [hw] at h1; simp at h1
  · rw [hw] at h0 h1
    simp only [clipTo_none] at h0 h1
    obtain ⟨nm, ex, rows, drows, w0, cz, hgen, hdir, hout, hclip, -⟩ := asif_ok (genFrame_explicit f g)
      (s := s.withBounds none none) (s' := (filterControlCB getStateDefault (asifFilter solver (explicitGenRows f g))
        (s.withBounds none none) (.array x) dt u).2) (x := x) (dt := dt) (u := u) (v := w) hen (Prod.ext h0 rfl)
    have e0 : w0 = w := by
      have : (s.withBounds none none).toBase.clipControl w0 = .ok w0 := clipTo_none w0
      rw [this] at hclip
      exact Except.ok.inj hclip
    subst e0
    have hgen' : ∃ nm' ex', explicitGenRows f g (aprep s x u) x dt = (.ok rows, withNames (aprep s x u) nm' ex') := by
      have e : ∀ t : ASIFObj K S P X, (explicitGenRows f g (t.withBounds none none) x dt).1 = (explicitGenRows f g t x dt).1 := by
        intro t
        unfold explicitGenRows
        change (match explicitRows f g t.params t.constraintEnabled t.ext.controlDim t.ext.numSlack x 0 t.constraints with
          | .error e => ((.error e : Except PyErr (List (Row K))), t.withBounds none none)
          | .ok rows => (.ok (t.ext.actuation ++ rows), t.withBounds none none)).1 = _
        cases explicitRows f g t.params t.constraintEnabled t.ext.controlDim t.ext.numSlack x 0 t.constraints <;> rfl
      have h2 := congrArg Prod.fst hgen
      have h3 : (explicitGenRows f g (aprep s x u) x dt).1 = .ok rows := (e (aprep s x u)).symm.trans h2
      obtain ⟨nm', ex', h4⟩ := genFrame_explicit (P := P) (X := X) f g (aprep s x u) x dt
      exact ⟨nm', ex', Prod.ext h3 h4⟩
    obtain ⟨nm', ex', hgen'⟩ := hgen'
    have hdir' : directRows (aprep s x u).ext.directParams (aprep s x u).ext.directEnabled s.ext.controlDim s.ext.numSlack x
        s.ext.direct = .ok drows := hdir
    have hG := objWeight_pos hinv hpos
    have hGl := objWeight_length hinv
    obtain ⟨wa, da, hwa⟩ := hadm
    have hfa := (explicit_feasible hinv hnames hgen' hdir' hwa.len (hwa.slen.trans hinv.slack.symm)).2 hwa
    cases hout with
    | infeasible hq hx =>
      obtain ⟨hqs, hal, hrw⟩ := quadprogSolve_dims (Or.inr hq)
      exact absurd ⟨_, hfa⟩ (hspec.failed _ _ _ _ hG hal hrw (hqs.symm.trans hq)).2
    | @solved z iact l hq hcause =>
      obtain ⟨hqs, hal, hrw⟩ := quadprogSolve_dims (Or.inl ⟨_, _, hq⟩)
      obtain ⟨hfz, -⟩ := hspec.solved _ _ _ _ _ hG hal hrw (hqs.symm.trans hq)
      have hzl : z.length = s.ext.controlDim + s.ext.numSlack := hfz.1.trans hGl
      have hvl : (z.take s.ext.controlDim).length = s.ext.controlDim := by rw [List.length_take]; omega
      have hdl : (z.drop s.ext.controlDim).length = s.ext.numSlack := by rw [List.length_drop]; omega
      have hz : z.take s.ext.controlDim ++ z.drop s.ext.controlDim = z := List.take_append_drop _ _
      have hav : AdmissibleS f g s x (z.take s.ext.controlDim) (z.drop s.ext.controlDim) := by
        refine (explicit_feasible hinv hnames hgen' hdir' hvl hdl).1 ?_
        rw [hz]; exact hfz
      obtain ⟨names, hact⟩ := hinv.act
      obtain ⟨fl, fh⟩ := boundFits_of_act hact
      have hc := C05_clip_identity s.toBase (z.take s.ext.controlDim) (by rw [hvl]; exact fl) (by rw [hvl]; exact fh) hav.bounds
      have h1' : clipTo s.controlBoundsHigh s.controlBoundsLow (z.take s.ext.controlDim) = .ok v := h1.symm
      exact hc.symm.trans h1'

end

end RTA
