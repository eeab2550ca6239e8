import Verif.Lemmas.ASIF

/-!
What a call of an optimisation module depends on and what it leaves behind.
-/
set_option linter.unusedSectionVars false
namespace RTA
variable {K S P X : Type}

/-- The object with other values for the attributes a call does not read (or reads only through `R`-invisible parts). -/
def blur (s : ASIFObj K S P X) (iv : Bool) (ca : Option (List K)) (cz : Option (List String)) (nm : List String) (ex : X) :
    ASIFObj K S P X :=
  { s with toBase := { s.toBase with intervening := iv, controlActual := ca }
           ext := { s.ext with causing := cz, constraintNames := nm, extra := ex } }

/-- Row generation depends on names and subclass attributes only up to `R`, not at all on the flag, the last control and
the last active constraints; when it succeeds the names are the same. -/
def GenCongOn (D : ASIFObj K S P X → Prop) (R : List String × X → List String × X → Prop)
    (gen : ASIFObj K S P X → S → K → Except PyErr (List (Row K)) × ASIFObj K S P X) : Prop :=
  ∀ s iv ca cz nm ex x dt, D s → R (s.ext.constraintNames, s.ext.extra) (nm, ex) →
    (gen (blur s iv ca cz nm ex) x dt).1 = (gen s x dt).1 ∧
    ∃ nm' ex', R ((gen s x dt).2.ext.constraintNames, (gen s x dt).2.ext.extra) (nm', ex') ∧
      (∀ rows, (gen s x dt).1 = .ok rows → nm' = (gen s x dt).2.ext.constraintNames) ∧
      (gen (blur s iv ca cz nm ex) x dt).2 = blur (gen s x dt).2 iv ca cz nm' ex'

/-- The same for all objects. -/
def GenCong (R : List String × X → List String × X → Prop)
    (gen : ASIFObj K S P X → S → K → Except PyErr (List (Row K)) × ASIFObj K S P X) : Prop := GenCongOn (fun _ => True) R gen

/-- Two optimisation modules that agree on everything a call can depend on. -/
structure SameAS (R : List String × X → List String × X → Prop) (s t : ASIFObj K S P X) : Prop where
  low : t.controlBoundsLow = s.controlBoundsLow
  high : t.controlBoundsHigh = s.controlBoundsHigh
  enable : t.enable = s.enable
  constraints : t.constraints = s.constraints
  wfs : WF s
  wft : WF t
  epsilon : t.ext.epsilon = s.ext.epsilon
  controlDim : t.ext.controlDim = s.ext.controlDim
  exc : t.ext.solverException = s.ext.solverException
  slack : t.ext.numSlack = s.ext.numSlack
  weight : t.ext.objWeight = s.ext.objWeight
  act : t.ext.actuation = s.ext.actuation
  direct : t.ext.direct = s.ext.direct
  dn : (dictKeys s.ext.direct).Nodup
  dps : dictKeys s.ext.directParams = dictKeys s.ext.direct
  des : dictKeys s.ext.directEnabled = dictKeys s.ext.direct
  dpt : dictKeys t.ext.directParams = dictKeys t.ext.direct
  det : dictKeys t.ext.directEnabled = dictKeys t.ext.direct
  rel : R (s.ext.constraintNames, s.ext.extra) (t.ext.constraintNames, t.ext.extra)

theorem aprep_eq {s : ASIFObj K S P X} (hw : WF s) (hn : (dictKeys s.ext.direct).Nodup)
    (hp : dictKeys s.ext.directParams = dictKeys s.ext.direct) (he : dictKeys s.ext.directEnabled = dictKeys s.ext.direct)
    (x : S) (u : List K) :
    aprep s x u =
      { toBase := { s.toBase with controlDesired := some u }, constraints := s.constraints
        params := cacheParams s.constraints, constraintEnabled := cacheEnabled s.constraints
        constraintValues := s.constraints.map fun kc => (kc.1, kc.2.phiFn x kc.2.params)
        isStaleConstraints := true
        ext := { s.ext with directParams := s.ext.direct.map fun kc => (kc.1, kc.2.params)
                            directEnabled := s.ext.direct.map fun kc => (kc.1, kc.2.enabled) } } := by
  unfold aprep
  have e : (prep s x u).ext = s.ext := rfl
  rw [updateDirectParams_eq (by rw [e]; exact hn) (by rw [e]; exact hp) (by rw [e]; exact he)]
  unfold prep
  rw [updateParams_eq (wf_withDesired hw u)]
  rfl

theorem sameAS_aprep {R : List String × X → List String × X → Prop} {s t : ASIFObj K S P X} (h : SameAS R s t) (x : S)
    (u : List K) : aprep t x u = blur (aprep s x u) t.intervening t.controlActual t.ext.causing t.ext.constraintNames t.ext.extra := by
  rw [aprep_eq h.wfs h.dn h.dps h.des, aprep_eq h.wft (by rw [h.direct]; exact h.dn) h.dpt h.det]
  obtain ⟨⟨thi, tlo, ten, tiv, tcd, tca⟩, tc, tp, te, tv, ts, tx⟩ := t
  obtain ⟨teps, tn, texc, tns, tw, tnm, tact, td, tdp, tde, tcz, tex⟩ := tx
  obtain ⟨h1, h2, h3, h4, h5, h6, h7, h8, h9, h10, h11, h12, h13, h14, h15, h16, h17, h18, h19⟩ := h
  simp only at h1 h2 h3 h4 h7 h8 h9 h10 h11 h12 h13
  subst h1 h2 h3 h4 h7 h8 h9 h10 h11 h12 h13
  rfl

section
variable [Add K] [Mul K] [Sub K] [Zero K] [HasSqrt K] [LinearOrder K]

/-- The optimisation part of `_filter_control`, after the direct caches have been refreshed. -/
def asifCore (solver : Solver K) (gen : ASIFObj K S P X → S → K → Except PyErr (List (Row K)) × ASIFObj K S P X)
    (self : ASIFObj K S P X) (x : S) (dt : K) (u : List K) : Except PyErr (List K) × ASIFObj K S P X :=
  match gen self x dt with
  | (.error e, self) => (.error e, self)
  | (.ok rows, self) =>
    match directRows self.ext.directParams self.ext.directEnabled self.ext.controlDim self.ext.numSlack x self.ext.direct with
    | .error e => (.error e, self)
    | .ok drows =>
      match optimize solver self u (rows ++ drows) with
      | (.error e, self) => (.error e, self)
      | (.ok actual, self) =>
        (.ok actual, { self with intervening := asifMonitor self.ext.epsilon u actual })

theorem asifFilter_core (solver : Solver K)
    (gen : ASIFObj K S P X → S → K → Except PyErr (List (Row K)) × ASIFObj K S P X) (s : ASIFObj K S P X) (x : S) (dt : K)
    (u w : List K) : asifFilter solver gen (prep s x w) x dt u = asifCore solver gen (aprep s x w) x dt u := by
  unfold asifFilter asifCore
  have e : updateDirectParams (prep s x w) = aprep s x w := rfl
  simp only [e]
  rcases gen (aprep s x w) x dt with ⟨_ | rows, s1⟩
  · rfl
  · simp only
    rcases directRows s1.ext.directParams s1.ext.directEnabled s1.ext.controlDim s1.ext.numSlack x s1.ext.direct with _ | dr
    · rfl
    · simp only
      rcases optimize solver s1 u (rows ++ dr) with ⟨_ | a, s2⟩ <;> rfl

theorem optimize_blur (solver : Solver K) (s : ASIFObj K S P X) (iv : Bool) (ca : Option (List K)) (cz : Option (List String))
    (ex : X) (u : List K) (rows : List (Row K)) :
    (optimize solver (blur s iv ca cz s.ext.constraintNames ex) u rows).1 = (optimize solver s u rows).1 ∧
    ∃ cz', (optimize solver (blur s iv ca cz s.ext.constraintNames ex) u rows).2 =
      blur (optimize solver s u rows).2 iv ca cz' s.ext.constraintNames ex ∧
      (optimize solver s u rows).2 = s.setExt { s.ext with causing := (optimize solver s u rows).2.ext.causing } := by
  unfold optimize
  have e1 : (blur s iv ca cz s.ext.constraintNames ex).ext.numSlack = s.ext.numSlack := rfl
  have e2 : (blur s iv ca cz s.ext.constraintNames ex).ext.objWeight = s.ext.objWeight := rfl
  have e3 : (blur s iv ca cz s.ext.constraintNames ex).ext.constraintNames = s.ext.constraintNames := rfl
  have e4 : (blur s iv ca cz s.ext.constraintNames ex).ext.controlDim = s.ext.controlDim := rfl
  have e5 : (blur s iv ca cz s.ext.constraintNames ex).ext.solverException = s.ext.solverException := rfl
  simp only [e1, e2, e3, e4, e5]
  rcases quadprogSolve solver s.ext.objWeight (u ++ zeros s.ext.numSlack) rows with ⟨z, iact⟩ | msg
  · simp only
    rcases causingLoop s.ext.constraintNames iact [] with ⟨_ | _, l⟩
    · exact ⟨rfl, some l, rfl, rfl⟩
    · exact ⟨rfl, some l, rfl, rfl⟩
  · simp only
    split
    · split
      · exact ⟨rfl, cz, rfl, rfl⟩
      · exact ⟨rfl, cz, rfl, rfl⟩
    · exact ⟨rfl, cz, rfl, rfl⟩

/-- The core on a blurred object. -/
theorem core_blur {D : ASIFObj K S P X → Prop} {R : List String × X → List String × X → Prop}
    {gen : ASIFObj K S P X → S → K → Except PyErr (List (Row K)) × ASIFObj K S P X} (hg : GenCongOn D R gen) (hf : GenFrame gen)
    (solver : Solver K) (s : ASIFObj K S P X) (iv : Bool) (ca : Option (List K)) (cz : Option (List String))
    (nm : List String) (ex : X) (x : S) (dt : K) (u : List K) (hD : D s)
    (hR : R (s.ext.constraintNames, s.ext.extra) (nm, ex)) :
    (asifCore solver gen (blur s iv ca cz nm ex) x dt u).1 = (asifCore solver gen s x dt u).1 ∧
    ∃ iv' cz' nm' ex', (asifCore solver gen (blur s iv ca cz nm ex) x dt u).2 =
        blur (asifCore solver gen s x dt u).2 iv' ca cz' nm' ex' ∧
      R ((asifCore solver gen s x dt u).2.ext.constraintNames, (asifCore solver gen s x dt u).2.ext.extra) (nm', ex') ∧
      (∀ v, (asifCore solver gen s x dt u).1 = .ok v → iv' = (asifCore solver gen s x dt u).2.intervening) ∧
      (∀ e, (asifCore solver gen s x dt u).1 = .error e → iv' = iv ∧ (asifCore solver gen s x dt u).2.intervening = s.intervening) ∧
      (∃ nmf exf czf ivf, (asifCore solver gen s x dt u).2 = blur s ivf s.controlActual czf nmf exf) := by
  obtain ⟨h1, nm', ex', hR', hnm, h2⟩ := hg s iv ca cz nm ex x dt hD hR
  obtain ⟨nf, ef, hfr⟩ := hf s x dt
  unfold asifCore
  rcases hs : gen s x dt with ⟨e | rows, s1⟩
  · rcases hb : gen (blur s iv ca cz nm ex) x dt with ⟨e' | rows', t1⟩
    · rw [hs, hb] at h1 h2
      rw [hs] at hR' hfr
      simp only [Except.error.injEq] at h1 h2 hR' hfr ⊢
      refine ⟨h1, iv, cz, nm', ex', h2, hR', by simp, fun _ _ => ⟨rfl, ?_⟩, ?_⟩
      · rw [hfr]; rfl
      · rw [hfr]; exact ⟨nf, ef, s.ext.causing, s.intervening, rfl⟩
    · rw [hs, hb] at h1; simp at h1
  · rcases hb : gen (blur s iv ca cz nm ex) x dt with ⟨e' | rows', t1⟩
    · rw [hs, hb] at h1; simp at h1
    · rw [hs, hb] at h1 h2
      rw [hs] at hR' hfr hnm
      simp only [Except.ok.injEq] at h1 h2 hR' hfr hnm ⊢
      subst h1
      have hnm := hnm rows' rfl
      subst hnm
      subst h2
      have e1 : (blur s1 iv ca cz s1.ext.constraintNames ex').ext.directParams = s1.ext.directParams := rfl
      have e2 : (blur s1 iv ca cz s1.ext.constraintNames ex').ext.directEnabled = s1.ext.directEnabled := rfl
      have e3 : (blur s1 iv ca cz s1.ext.constraintNames ex').ext.controlDim = s1.ext.controlDim := rfl
      have e4 : (blur s1 iv ca cz s1.ext.constraintNames ex').ext.numSlack = s1.ext.numSlack := rfl
      have e5 : (blur s1 iv ca cz s1.ext.constraintNames ex').ext.direct = s1.ext.direct := rfl
      rw [e1, e2, e3, e4, e5]
      rcases directRows s1.ext.directParams s1.ext.directEnabled s1.ext.controlDim s1.ext.numSlack x s1.ext.direct with er | dr
      · simp only
        refine ⟨trivial, iv, cz, s1.ext.constraintNames, ex', rfl, hR', by simp, fun _ _ => ⟨rfl, ?_⟩, ?_⟩
        · rw [hfr]; rfl
        · rw [hfr]; exact ⟨nf, ef, s.ext.causing, s.intervening, rfl⟩
      · simp only
        obtain ⟨o1, cz', o2, o3⟩ := optimize_blur solver s1 iv ca cz ex' u (rows' ++ dr)
        rcases ho : optimize solver s1 u (rows' ++ dr) with ⟨er | a, s2⟩
        · rcases hob : optimize solver (blur s1 iv ca cz s1.ext.constraintNames ex') u (rows' ++ dr) with ⟨er' | a', t2⟩
          · rw [ho, hob] at o1 o2
            rw [ho] at o3
            simp only [Except.error.injEq] at o1 o2 o3 ⊢
            refine ⟨o1, iv, cz', s1.ext.constraintNames, ex', o2, ?_, by simp, fun _ _ => ⟨rfl, ?_⟩, ?_⟩
            · rw [o3]; exact hR'
            · rw [o3, hfr]; rfl
            · rw [o3, hfr]; exact ⟨nf, ef, s2.ext.causing, s.intervening, rfl⟩
          · rw [ho, hob] at o1; simp at o1
        · rcases hob : optimize solver (blur s1 iv ca cz s1.ext.constraintNames ex') u (rows' ++ dr) with ⟨er' | a', t2⟩
          · rw [ho, hob] at o1; simp at o1
          · rw [ho, hob] at o1 o2
            rw [ho] at o3
            simp only [Except.ok.injEq] at o1 o2 o3 ⊢
            subst o1 o2
            refine ⟨rfl, asifMonitor s2.ext.epsilon u a', cz', s1.ext.constraintNames, ex', rfl, ?_, fun _ _ => rfl,
              by simp, ?_⟩
            · show R (s2.ext.constraintNames, s2.ext.extra) _
              rw [o3]; exact hR'
            · rw [o3, hfr]
              exact ⟨nf, ef, s2.ext.causing, _, rfl⟩

/-- A call on objects that agree on what matters: the same result; the same `intervening` and reported control when it
returns; and the objects still agree. The second half says what a call changes. -/
theorem sameAS_call_on {D : ASIFObj K S P X → Prop} {R : List String × X → List String × X → Prop}
    {gen : ASIFObj K S P X → S → K → Except PyErr (List (Row K)) × ASIFObj K S P X} (hg : GenCongOn D R gen) (hf : GenFrame gen)
    (solver : Solver K) {s t : ASIFObj K S P X} (h : SameAS R s t) (i : InputState S) (dt : K) (u : List K)
    (hD : ∀ x, D (aprep s x u)) :
    (filterControlCB getStateDefault (asifFilter solver gen) t i dt u).1 =
      (filterControlCB getStateDefault (asifFilter solver gen) s i dt u).1 ∧
    SameAS R (filterControlCB getStateDefault (asifFilter solver gen) s i dt u).2
      (filterControlCB getStateDefault (asifFilter solver gen) t i dt u).2 ∧
    (s.enable = true → ∀ v, (filterControlCB getStateDefault (asifFilter solver gen) s i dt u).1 = .ok v →
      (filterControlCB getStateDefault (asifFilter solver gen) t i dt u).2.intervening =
        (filterControlCB getStateDefault (asifFilter solver gen) s i dt u).2.intervening) ∧
    (t.toBase = s.toBase → (filterControlCB getStateDefault (asifFilter solver gen) t i dt u).2.toBase =
        (filterControlCB getStateDefault (asifFilter solver gen) s i dt u).2.toBase) := by
  by_cases hen : s.enable = true
  · have hen' : t.enable = true := by rw [h.enable]; exact hen
    cases i with
    | notArray =>
      rw [filterControlCB_enabled hen, filterControlCB_enabled hen']
      simp only [computeFilteredControl, getStateDefault]
      refine ⟨trivial, ?_, by simp, ?_⟩
      · have ws := wf_updateParams (wf_withDesired h.wfs u)
        have wt := wf_updateParams (wf_withDesired h.wft u)
        exact ⟨h.low, h.high, h.enable, h.constraints, ws, wt, h.epsilon, h.controlDim, h.exc, h.slack, h.weight, h.act, h.direct,
          h.dn, h.dps, h.des, h.dpt, h.det, h.rel⟩
      · intro hb
        show ({ t.toBase with controlDesired := some u } : Base K) = { s.toBase with controlDesired := some u }
        rw [hb]
    | array x =>
      rw [call_eq _ hen, call_eq _ hen', asifFilter_core, asifFilter_core, sameAS_aprep h]
      have hR : R ((aprep s x u).ext.constraintNames, (aprep s x u).ext.extra) (t.ext.constraintNames, t.ext.extra) := h.rel
      obtain ⟨c1, iv', cz', nm', ex', c2, hR', hok, her, nmf, exf, czf, ivf, hfr⟩ :=
        core_blur hg hf solver (aprep s x u) t.intervening t.controlActual t.ext.causing t.ext.constraintNames t.ext.extra x dt u (hD x) hR
      have hap := aprep_eq h.wfs h.dn h.dps h.des x u
      -- any object of this shape agrees with its blurred version
      have agree : ∀ (r : ASIFObj K S P X) (iv : Bool) (ca ca' : Option (List K)) (cz : Option (List String)),
          (∃ nmf exf czf ivf caf, r = blur (aprep s x u) ivf caf czf nmf exf) →
          R (r.ext.constraintNames, r.ext.extra) (nm', ex') → SameAS R r (blur r iv ca cz nm' ex') := by
        rintro r iv ca ca' cz ⟨nmf, exf, czf, ivf, caf, rfl⟩ hr
        have w : WF (aprep s x u) := by rw [hap]; exact ⟨h.wfs.nodup, dictKeys_map _ _, dictKeys_map _ _⟩
        have d1 : dictKeys (aprep s x u).ext.directParams = dictKeys (aprep s x u).ext.direct := by rw [hap]; exact dictKeys_map _ _
        have d2 : dictKeys (aprep s x u).ext.directEnabled = dictKeys (aprep s x u).ext.direct := by rw [hap]; exact dictKeys_map _ _
        exact ⟨rfl, rfl, rfl, rfl, ⟨w.nodup, w.params, w.enabled⟩, ⟨w.nodup, w.params, w.enabled⟩, rfl, rfl, rfl, rfl, rfl,
          rfl, rfl, h.dn, d1, d2, d1, d2, hr⟩
      rcases hs : asifCore solver gen (aprep s x u) x dt u with ⟨e | c, s1⟩
      · rcases hb : asifCore solver gen (blur (aprep s x u) t.intervening t.controlActual t.ext.causing t.ext.constraintNames
            t.ext.extra) x dt u with ⟨e' | c', t1⟩
        · rw [hs, hb] at c1 c2
          rw [hs] at hR' her hfr
          simp only [Except.error.injEq] at c1 c2 hR' her hfr ⊢
          obtain ⟨hi1, hi2⟩ := her e rfl
          subst c1 c2
          refine ⟨rfl, agree _ _ _ t.controlActual _ ⟨nmf, exf, czf, ivf, _, hfr⟩ hR', by simp, ?_⟩
          intro hb'
          rw [hi1]
          show ({ s1.toBase with intervening := t.intervening, controlActual := t.controlActual } : Base K) = s1.toBase
          have e1 : s1.intervening = t.intervening := by rw [hi2]; show s.toBase.intervening = _; rw [← hb']
          have e2 : s1.controlActual = t.controlActual := by rw [hfr]; show s.toBase.controlActual = _; rw [← hb']
          rw [← e1, ← e2]
        · rw [hs, hb] at c1; simp at c1
      · rcases hb : asifCore solver gen (blur (aprep s x u) t.intervening t.controlActual t.ext.causing t.ext.constraintNames
            t.ext.extra) x dt u with ⟨e' | c', t1⟩
        · rw [hs, hb] at c1; simp at c1
        · rw [hs, hb] at c1 c2
          rw [hs] at hR' hok hfr
          simp only [Except.ok.injEq] at c1 c2 hR' hok hfr ⊢
          have hok' := hok c rfl
          clear hok her
          subst c1 c2 hok'
          have e1 : (blur s1 s1.intervening t.controlActual cz' nm' ex').toBase.clipControl c' = s1.toBase.clipControl c' := rfl
          rw [e1]
          have hw : ∀ q, withActual (blur s1 s1.intervening t.controlActual cz' nm' ex') q =
              blur (withActual s1 q) s1.intervening (some q) cz' nm' ex' := fun _ => rfl
          have hsh : ∀ q, ∃ nmf exf czf ivf caf, withActual s1 q = blur (aprep s x u) ivf caf czf nmf exf :=
            fun q => ⟨nmf, exf, czf, ivf, some q, by rw [hfr]; rfl⟩
          rcases s1.toBase.clipControl c' with er | cl
          · refine ⟨rfl, ?_, by simp, fun _ => rfl⟩
            simp only [hw]
            exact agree _ _ _ t.controlActual _ (hsh c') hR'
          · refine ⟨rfl, ?_, fun _ _ _ => rfl, fun _ => rfl⟩
            simp only [hw]
            exact agree _ _ _ t.controlActual _ (hsh cl) hR'
  · have hen : s.enable = false := by simpa using hen
    have hen' : t.enable = false := by rw [h.enable]; exact hen
    rw [filterControlCB_disabled hen, filterControlCB_disabled hen']
    refine ⟨rfl, ?_, by simp [hen], ?_⟩
    · exact ⟨h.low, h.high, h.enable, h.constraints, ⟨h.wfs.nodup, h.wfs.params, h.wfs.enabled⟩,
        ⟨h.wft.nodup, h.wft.params, h.wft.enabled⟩, h.epsilon, h.controlDim, h.exc, h.slack, h.weight, h.act, h.direct,
        h.dn, h.dps, h.des, h.dpt, h.det, h.rel⟩
    · intro hb
      simp only [withActual, withDesired, hb]

/-- The same for row generation that behaves well on all objects. -/
theorem sameAS_call {R : List String × X → List String × X → Prop}
    {gen : ASIFObj K S P X → S → K → Except PyErr (List (Row K)) × ASIFObj K S P X} (hg : GenCong R gen) (hf : GenFrame gen)
    (solver : Solver K) {s t : ASIFObj K S P X} (h : SameAS R s t) (i : InputState S) (dt : K) (u : List K) :
    (filterControlCB getStateDefault (asifFilter solver gen) t i dt u).1 =
      (filterControlCB getStateDefault (asifFilter solver gen) s i dt u).1 ∧
    SameAS R (filterControlCB getStateDefault (asifFilter solver gen) s i dt u).2
      (filterControlCB getStateDefault (asifFilter solver gen) t i dt u).2 ∧
    (s.enable = true → ∀ v, (filterControlCB getStateDefault (asifFilter solver gen) s i dt u).1 = .ok v →
      (filterControlCB getStateDefault (asifFilter solver gen) t i dt u).2.intervening =
        (filterControlCB getStateDefault (asifFilter solver gen) s i dt u).2.intervening) ∧
    (t.toBase = s.toBase → (filterControlCB getStateDefault (asifFilter solver gen) t i dt u).2.toBase =
        (filterControlCB getStateDefault (asifFilter solver gen) s i dt u).2.toBase) :=
  sameAS_call_on hg hf solver h i dt u fun _ => trivial

/-- What the optimisation part changes. -/
theorem core_frame {gen : ASIFObj K S P X → S → K → Except PyErr (List (Row K)) × ASIFObj K S P X} (hf : GenFrame gen)
    (solver : Solver K) (s : ASIFObj K S P X) (x : S) (dt : K) (u : List K) :
    ∃ iv cz, (asifCore solver gen s x dt u).2 =
      blur s iv s.controlActual cz (gen s x dt).2.ext.constraintNames (gen s x dt).2.ext.extra := by
  obtain ⟨nf, ef, hfr⟩ := hf s x dt
  unfold asifCore
  rcases hs : gen s x dt with ⟨e | rows, s1⟩
  · rw [hs] at hfr
    simp only at hfr ⊢
    exact ⟨s.intervening, s.ext.causing, by rw [hfr]; rfl⟩
  · rw [hs] at hfr
    simp only at hfr ⊢
    rcases directRows s1.ext.directParams s1.ext.directEnabled s1.ext.controlDim s1.ext.numSlack x s1.ext.direct with er | dr
    · exact ⟨s.intervening, s.ext.causing, by rw [hfr]; rfl⟩
    · simp only
      obtain ⟨-, -, -, o3⟩ := optimize_blur solver s1 s1.intervening s1.controlActual s1.ext.causing s1.ext.extra u (rows ++ dr)
      rcases ho : optimize solver s1 u (rows ++ dr) with ⟨er | a, s2⟩
      · rw [ho] at o3
        simp only at o3 ⊢
        exact ⟨s.intervening, s2.ext.causing, by rw [o3, hfr]; rfl⟩
      · rw [ho] at o3
        simp only at o3 ⊢
        exact ⟨asifMonitor s2.ext.epsilon u a, s2.ext.causing, by rw [o3, hfr]; rfl⟩

/-- What an enabled call on an array changes. -/
theorem call_frame {gen : ASIFObj K S P X → S → K → Except PyErr (List (Row K)) × ASIFObj K S P X} (hf : GenFrame gen)
    (solver : Solver K) {s : ASIFObj K S P X} (hen : s.enable = true) (x : S) (dt : K) (u : List K) :
    ∃ iv ca cz, (filterControlCB getStateDefault (asifFilter solver gen) s (.array x) dt u).2 =
      blur (aprep s x u) iv ca cz (gen (aprep s x u) x dt).2.ext.constraintNames (gen (aprep s x u) x dt).2.ext.extra := by
  rw [call_eq _ hen, asifFilter_core]
  obtain ⟨iv, cz, h⟩ := core_frame hf solver (aprep s x u) x dt u
  rcases hc : asifCore solver gen (aprep s x u) x dt u with ⟨e | c, s1⟩
  · rw [hc] at h
    exact ⟨iv, _, cz, h⟩
  · rw [hc] at h
    simp only at h ⊢
    rcases s1.toBase.clipControl c with er | c'
    · exact ⟨iv, some c, cz, by rw [h]; rfl⟩
    · exact ⟨iv, some c', cz, by rw [h]; rfl⟩

end

/-- The part of the object a call may depend on, apart from its caches, which must be in order. -/
structure DirectWF (s : ASIFObj K S P X) : Prop where
  wf : WF s
  dn : (dictKeys s.ext.direct).Nodup
  dp : dictKeys s.ext.directParams = dictKeys s.ext.direct
  de : dictKeys s.ext.directEnabled = dictKeys s.ext.direct

theorem sameAS_blur_aprep {R : List String × X → List String × X → Prop} {s : ASIFObj K S P X} (h : DirectWF s) (x : S)
    (u : List K) (iv : Bool) (ca : Option (List K)) (cz : Option (List String)) (nm : List String) (ex : X)
    (hR : R (s.ext.constraintNames, s.ext.extra) (nm, ex)) : SameAS R s (blur (aprep s x u) iv ca cz nm ex) := by
  rw [aprep_eq h.wf h.dn h.dp h.de]
  exact ⟨rfl, rfl, rfl, rfl, h.wf, ⟨h.wf.nodup, dictKeys_map _ _, dictKeys_map _ _⟩, rfl, rfl, rfl, rfl, rfl, rfl, rfl, h.dn, h.dp,
    h.de, dictKeys_map _ _, dictKeys_map _ _, hR⟩

/-- A call leaves behind an object that agrees with the one before on all that matters, provided the subclass attributes
are restored. -/
theorem sameAS_after_call [Add K] [Mul K] [Sub K] [Zero K] [HasSqrt K] [LinearOrder K]
    {R : List String × X → List String × X → Prop} (hrefl : ∀ a, R a a)
    {gen : ASIFObj K S P X → S → K → Except PyErr (List (Row K)) × ASIFObj K S P X} (hf : GenFrame gen)
    (solver : Solver K) {s : ASIFObj K S P X} (h : DirectWF s) (i : InputState S) (dt : K) (u : List K)
    (hR : ∀ x, i = .array x → s.enable = true → R (s.ext.constraintNames, s.ext.extra)
      ((gen (aprep s x u) x dt).2.ext.constraintNames, (gen (aprep s x u) x dt).2.ext.extra)) :
    SameAS R s (filterControlCB getStateDefault (asifFilter solver gen) s i dt u).2 := by
  by_cases hen : s.enable = true
  · cases i with
    | notArray =>
      rw [filterControlCB_enabled hen]
      simp only [computeFilteredControl, getStateDefault]
      exact ⟨rfl, rfl, rfl, rfl, h.wf, wf_updateParams (wf_withDesired h.wf u), rfl, rfl, rfl, rfl, rfl, rfl, rfl, h.dn, h.dp, h.de,
        h.dp, h.de, hrefl _⟩
    | array x =>
      obtain ⟨iv, ca, cz, hc⟩ := call_frame hf solver hen x dt u
      rw [hc]
      exact sameAS_blur_aprep h x u iv ca cz _ _ (hR x rfl hen)
  · have hen : s.enable = false := by simpa using hen
    rw [filterControlCB_disabled hen]
    exact ⟨rfl, rfl, rfl, rfl, h.wf, ⟨h.wf.nodup, h.wf.params, h.wf.enabled⟩, rfl, rfl, rfl, rfl, rfl, rfl, rfl, h.dn, h.dp, h.de,
      h.dp, h.de, hrefl _⟩

theorem SameAS.left {R : List String × X → List String × X → Prop} {s t : ASIFObj K S P X} (h : SameAS R s t) : DirectWF s :=
  ⟨h.wfs, h.dn, h.dps, h.des⟩

theorem SameAS.right {R : List String × X → List String × X → Prop} {s t : ASIFObj K S P X} (h : SameAS R s t) : DirectWF t :=
  ⟨h.wft, by rw [h.direct]; exact h.dn, h.dpt, h.det⟩

/-- The invariant is kept by everything that agrees on what matters. -/
theorem asifInv_same [Zero K] [One K] [Neg K] [HasSqrt K] {R : List String × X → List String × X → Prop}
    {s t : ASIFObj K S P X} (h : SameAS R s t) (hi : ASIFInv s) : ASIFInv t := by
  refine ⟨h.wft, h.right.dn, h.dpt, h.det, ?_, ?_, ?_⟩
  · rw [h.slack, h.constraints]; exact hi.slack
  · rw [h.weight, h.controlDim, h.constraints]; exact hi.weight
  · rw [h.low, h.high, h.controlDim, h.slack, h.act]; exact hi.act

theorem directWF_of_inv [Zero K] [One K] [Neg K] [HasSqrt K] {s : ASIFObj K S P X} (hi : ASIFInv s) : DirectWF s :=
  ⟨hi.wf, hi.dnodup, hi.dparams, hi.denabled⟩

section explicit
variable [Add K] [Mul K] [Neg K] [Sub K] [Zero K] [One K] [OfNat K 10] [HasSqrt K] [LinearOrder K]

theorem genCong_explicit (f : S → List K) (g : S → List (List K)) :
    GenCong (K := K) (S := S) (P := P) (X := X) Eq (explicitGenRows f g) := by
  rintro s iv ca cz nm ex x dt - h
  simp only [Prod.mk.injEq] at h
  obtain ⟨rfl, rfl⟩ := h
  unfold explicitGenRows
  have e : explicitRows f g (blur s iv ca cz s.ext.constraintNames s.ext.extra).params
      (blur s iv ca cz s.ext.constraintNames s.ext.extra).constraintEnabled
      (blur s iv ca cz s.ext.constraintNames s.ext.extra).ext.controlDim
      (blur s iv ca cz s.ext.constraintNames s.ext.extra).ext.numSlack x 0
      (blur s iv ca cz s.ext.constraintNames s.ext.extra).constraints =
      explicitRows f g s.params s.constraintEnabled s.ext.controlDim s.ext.numSlack x 0 s.constraints := rfl
  rw [e]
  rcases explicitRows f g s.params s.constraintEnabled s.ext.controlDim s.ext.numSlack x 0 s.constraints with er | rows
  · exact ⟨rfl, _, _, rfl, by simp, rfl⟩
  · exact ⟨rfl, _, _, rfl, fun _ _ => rfl, rfl⟩

theorem explicitGen_same (f : S → List K) (g : S → List (List K)) (s : ASIFObj K S P X) (x : S) (dt : K) :
    (explicitGenRows f g s x dt).2 = s := by
  unfold explicitGenRows
  split <;> rfl

end explicit

end RTA
