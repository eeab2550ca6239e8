import Verif.Props.Order
import Verif.Props.Constraints
import Verif.Props.Discrete
import Verif.Spec.Caution

/-!
Lower biases, weaker strengtheners and narrower bounds never make a module interfere less (C109).
-/
set_option linter.unusedSectionVars false
namespace RTA

section
variable {K S P X A : Type} [Field K] [LinearOrder K] [IsStrictOrderedRing K]

theorem MoreCautious.strengthening {d c : Constraint K S P} (h : MoreCautious d c) {al' : K → K} (ha : d.alpha = some al') (x : S) :
    ∃ al, c.alpha = some al ∧ RTA.strengthening d al' (d.computeFn x d.params + d.bias) ≤
      RTA.strengthening c al (c.computeFn x c.params + c.bias) := by
  obtain ⟨al, e, hle, hmono, h0, hneg, hnegmono, hsign⟩ := h.alpha al' ha
  refine ⟨al, e, ?_⟩
  rw [h.value, h.params]
  have hb : c.computeFn x c.params + d.bias ≤ c.computeFn x c.params + c.bias := by have := h.bias; linarith
  generalize c.computeFn x c.params + d.bias = p at hb
  generalize c.computeFn x c.params + c.bias = q at hb
  have hd : ∀ p : K, RTA.strengthening d al' p = if 0 ≤ p then al' p else negStrength d al' p + d.biasNegative := fun _ => rfl
  have hc : ∀ p : K, RTA.strengthening c al p = if 0 ≤ p then al p else negStrength c al p + c.biasNegative := fun _ => rfl
  have hbn := h.biasNegative
  have hbn0 := h.biasNegative_nonpos
  rw [hd, hc]
  split_ifs with h1 h2 h2
  · exact (hle p).trans (hmono hb)
  · exact absurd (h1.trans hb) h2
  · have h1 := not_le.1 h1
    have a1 := hneg p h1
    have a2 := hsign p h1
    have a3 : al 0 ≤ al q := hmono h2
    linarith
  · have h1 := not_le.1 h1
    have h2 := not_le.1 h2
    have a1 := hneg p h1
    have a2 := hnegmono p q hb h2
    linarith

theorem admissible_cautious {f : S → List K} {g : S → List (List K)} {s t : ASIFObj K S P X}
    (hb : ∀ w, Within t.controlBoundsLow t.controlBoundsHigh w → Within s.controlBoundsLow s.controlBoundsHigh w)
    (hdim : t.ext.controlDim = s.ext.controlDim) (hcs : CoversCautiously t.constraints s.constraints)
    (hds : CoversDirect t.ext.direct s.ext.direct) {x : S} {w : List K} (h : Admissible f g t x w) : Admissible f g s x w := by
  refine ⟨h.len.trans hdim, hb w h.bounds, fun kc hkc hen => ?_, fun kc hkc hen => ?_⟩
  · obtain ⟨kd, hkd, e⟩ := hcs kc hkc hen
    obtain ⟨m, hm, h0⟩ := h.barrier kd hkd (e.enabled hen)
    unfold barrierValue at hm
    rw [Option.map_eq_some_iff] at hm
    obtain ⟨al', ha, rfl⟩ := hm
    obtain ⟨al, hal, hle⟩ := e.strengthening ha x
    refine ⟨_, by unfold barrierValue; rw [hal]; rfl, ?_⟩
    have hgr : kd.2.gradFn x kd.2.params = kc.2.gradFn x kc.2.params := by rw [e.grad, e.params]
    rw [hgr] at h0
    simp only
    linarith
  · obtain ⟨kd, hkd, e⟩ := hds kc hkc hen
    have := h.direct kd hkd (by rw [e]; exact hen)
    rwa [e] at this

theorem safeAt_cautious {ds cs : Dict (Constraint K S P)} (h : CoversCautiously ds cs) {x : S} (hx : SafeAt ds x) : SafeAt cs x := by
  intro kc hkc hen
  obtain ⟨kd, hkd, e⟩ := h kc hkc hen
  have := hx kd hkd (e.enabled hen)
  rw [e.value, e.params] at this
  have hb := e.bias
  linarith

/-- Lowering the bias of a constraint with an increasing strengthener that has the sign of its argument makes it more cautious. -/
theorem lowerBias_cautious {c : Constraint K S P} {al : K → K} (ha : c.alpha = some al) (hm : Monotone al) (h0 : al 0 = 0)
    (hn : ∀ an, c.alphaNeg = some an → Monotone an ∧ an 0 = 0) (hbn : c.biasNegative ≤ 0) {b : K} (hb : b ≤ c.bias) :
    MoreCautious (c.lowerBias b) c := by
  have hneg : ∀ h h', h ≤ h' → h' ≤ 0 → negStrength c al h ≤ negStrength c al h' ∧ negStrength c al h' ≤ 0 := by
    intro h h' hh h0'
    unfold negStrength
    rcases hc : c.alphaNeg with _ | an
    · have a1 := hm hh
      have a2 := hm h0'
      simp only
      constructor <;> linarith
    · have a1 := (hn an hc).1 hh
      have a2 := (hn an hc).1 h0'
      have a3 := (hn an hc).2
      simp only
      exact ⟨a1, by linarith⟩
  refine ⟨rfl, rfl, rfl, id, hb, fun al' ha' => ?_, le_refl _, hbn⟩
  have e : al' = al := by
    have : c.alpha = some al' := ha'
    rw [ha] at this
    exact (Option.some.inj this).symm
  subst e
  exact ⟨al', ha, fun _ => le_refl _, hm, h0.ge, fun _ _ => le_refl _, fun h h' hh hh' => (hneg h h' hh hh'.le).1,
    fun h hh => (hneg h h (le_refl _) hh.le).2⟩

/-- In particular for the strengtheners the constraints are shipped with. -/
theorem lowerBias_poly {c : Constraint K S P} {coefs : List K} (ha : c.alpha = some (polyAlpha coefs)) (hk : ClassKCoefs coefs)
    (hn : c.alphaNeg = none) (hbn : c.biasNegative ≤ 0) {b : K} (hb : b ≤ c.bias) : MoreCautious (c.lowerBias b) c := by
  obtain ⟨h0, -, hm⟩ := C33_class_k coefs hk
  exact lowerBias_cautious ha (StrictMono.monotone fun x y => hm x y) h0 (by simp [hn]) hbn hb

section asif
variable [HasSqrt K] [LawfulSqrt K]

/-- **C109, explicit ASIF modules.** Let `t` be set up at least as cautiously as `s`: for every enabled constraint one with a smaller or
equal bias and strengthener, bounds at least as narrow, the same inequalities; neither with slack. Whenever `t` has an admissible control
and answers `w`, so does `s`, with an answer at least as close to the desired control, and if `t` does not change the desired control,
neither does `s`. -/
theorem C109_explicit {solver : Solver K} (hspec : SolverSpec solver) {f : S → List K} {g : S → List (List K)}
    {s t : ASIFObj K S P X} (hs : ExplicitModule solver f g s) (ht : ExplicitModule solver f g t) (hens : s.enable = true)
    (hent : t.enable = true) (hnss : ∀ kc ∈ s.constraints, kc.2.slackPriorityScale = none)
    (hnst : ∀ kc ∈ t.constraints, kc.2.slackPriorityScale = none)
    (hb : ∀ w, Within t.controlBoundsLow t.controlBoundsHigh w → Within s.controlBoundsLow s.controlBoundsHigh w)
    (hdim : t.ext.controlDim = s.ext.controlDim) (hcs : CoversCautiously t.constraints s.constraints)
    (hds : CoversDirect t.ext.direct s.ext.direct) (x : S) (hsh : ShapesOK f g s x) (dt dt' : K) (u w : List K)
    (hadm : ∃ w, Admissible f g t x w) (h : (explicitASIF solver f g t (.array x) dt' u).1 = .ok w) :
    ∃ v, (explicitASIF solver f g s (.array x) dt u).1 = .ok v ∧ sqDist v u ≤ sqDist w u ∧ (w = u → v = u) := by
  obtain ⟨w0, hw0⟩ := hadm
  have hpt := scalesPos_of_noslack' hnst
  have hps := scalesPos_of_noslack' hnss
  obtain ⟨hu, e, -, hw, -⟩ := explicit_solved hspec ht.inv.1 ht.inv.2 hpt hent
    (show explicitASIF solver f g t (.array x) dt' u = (.ok w, (explicitASIF solver f g t (.array x) dt' u).2) from Prod.ext h rfl)
    ⟨_, _, admissible_iff_zeros.1 hw0⟩
  have hws := admissible_cautious hb hdim hcs hds ((admissibleS_noslack (scales_nil_of_noslack hnst)).1 hw).2
  have hex : ∃ w d, AdmissibleS f g s x w d := ⟨_, _, admissible_iff_zeros.1 hws⟩
  obtain ⟨v, hv⟩ := (explicit_total hspec hs.inv.1 hs.inv.2 hps hsh dt (hu.trans hdim) hens).1 hex
  obtain ⟨-, d, -, hav, hmin, -⟩ := explicit_solved hspec hs.inv.1 hs.inv.2 hps hens
    (show explicitASIF solver f g s (.array x) dt u = (.ok v, (explicitASIF solver f g s (.array x) dt u).2) from Prod.ext hv rfl) hex
  have hq : qpWeights s = [] := by unfold qpWeights; rw [scales_nil_of_noslack hnss]; rfl
  have hcmp : w ≠ v → sqDist v u < sqDist w u := fun hvw => by
    have := hmin w _ (admissible_iff_zeros.1 hws) (fun e => hvw (List.append_inj_left e (hav.len.trans hws.len.symm)).symm)
    rwa [hq, slackCost_nil, slackCost_nil] at this
  refine ⟨v, hv, ?_, ?_⟩
  · by_cases hvw : w = v
    · rw [hvw]
    · exact (hcmp hvw).le
  · rintro rfl
    by_contra hne
    have := hcmp fun h => hne h.symm
    rw [sqDist_self] at this
    exact absurd this (not_lt.2 (sqDist_nonneg _ _))

/-- **C109, discrete ASIF modules.** The same for modules that check the next state, when the solver finds global minima and both calls
succeed. -/
theorem C109_discrete {solver : NLPSolver K} (hsound : NLPSound solver) (hglob : NLPGlobal solver) {next : S → K → List K → S}
    {s t s' t' : DiscObj K S P} (hs : DiscInv s) (ht : DiscInv t) (hens : s.enable = true) (hent : t.enable = true)
    (hexs : s.ext.solverException = true) (hext : t.ext.solverException = true)
    (hnss : ∀ kc ∈ s.constraints, kc.2.slackPriorityScale = none) (hnst : ∀ kc ∈ t.constraints, kc.2.slackPriorityScale = none)
    (hb : ∀ w, Within t.controlBoundsLow t.controlBoundsHigh w → Within s.controlBoundsLow s.controlBoundsHigh w)
    (hdim : t.ext.controlDim = s.ext.controlDim) (hcs : CoversCautiously t.constraints s.constraints) {x : S} {dt : K} (hdt : 0 < dt)
    {u v w : List K} (h1 : discreteASIF solver next s (.array x) dt u = (.ok v, s'))
    (h2 : discreteASIF solver next t (.array x) dt u = (.ok w, t')) : sqDist v u ≤ sqDist w u := by
  obtain ⟨d, had, hmin⟩ := C40_closest_admissible hsound hglob hs (scalesPos_of_noslack' hnss) hens hdt hexs h1
  obtain ⟨e, hat, -⟩ := C40_closest_admissible hsound hglob ht (scalesPos_of_noslack' hnst) hent hdt hext h2
  have key : ∀ {cs : Dict (Constraint K S P)}, (∀ kc ∈ cs, kc.2.slackPriorityScale = none) → ∀ d, assignSlack cs d = cs.map fun kc => (kc.2, 0) := by
    intro cs hcs d
    induction cs with
    | nil => rfl
    | cons kc cs ih =>
      obtain ⟨k, c⟩ := kc
      have hk : c.slackPriorityScale = none := hcs (k, c) (List.mem_cons_self ..)
      simp only [assignSlack, hk, List.map_cons, ih fun kc hkc => hcs kc (List.mem_cons_of_mem _ hkc)]
      rfl
  have hw : AdmissibleDS next s x dt w [] := by
    refine ⟨hat.len.trans hdim, by simp [scales_nil_of_noslack hnss], hb w hat.bounds, fun cd hcd hen => ?_⟩
    rw [key hnss] at hcd
    obtain ⟨kc, hkc, rfl⟩ := List.mem_map.1 hcd
    obtain ⟨kd, hkd, m⟩ := hcs kc hkc hen
    obtain ⟨al', ha, hle⟩ := hat.barrier (kd.2, 0) (by rw [key hnst]; exact List.mem_map.2 ⟨kd, hkd, rfl⟩) (m.enabled hen)
    obtain ⟨al, hal, hla, hmono, -⟩ := m.alpha al' ha
    refine ⟨al, hal, ?_⟩
    unfold hval at hle ⊢
    rw [m.value, m.params] at hle
    have hbias := m.bias
    have h3 : al' (kc.2.computeFn x kc.2.params + kd.2.bias) ≤ al (kc.2.computeFn x kc.2.params + kc.2.bias) :=
      (hla _).trans (hmono (by linarith))
    have h4 := mul_le_mul_of_nonneg_left h3 hdt.le
    linarith
  have := hmin w [] hw
  rwa [scales_nil_of_noslack hnss, slackCost_nil, slackCost_nil] at this

end asif

/-- **C109, explicit simplex modules.** If the more cautious module accepts the desired control, so does the other, provided no latch is
engaged. -/
theorem C109_simplex (pred : S → K → List K → S) {s t s' t' : SimplexObj K S P A} (hs : WF s) (ht : WF t) (hens : s.enable = true)
    (hent : t.enable = true) (hls : ¬ Latched s) (hlt : ¬ Latched t) (hcs : CoversCautiously t.constraints s.constraints) {x : S} {dt : K}
    {u c d : List K} (h1 : explicitSimplex pred s (.array x) dt u = (.ok c, s')) (h2 : explicitSimplex pred t (.array x) dt u = (.ok d, t'))
    (hi : t'.intervening = false) : s'.intervening = false ∧ s.toBase.clipControl u = .ok c := by
  obtain ⟨a1, a2, -⟩ := C13_explicit_decision pred s s' hs hens x dt u c hls h1
  obtain ⟨b1, -, -⟩ := C13_explicit_decision pred t t' ht hent x dt u d hlt h2
  have := safeAt_cautious hcs (b1.1 hi)
  exact ⟨a1.2 this, a2 this⟩

end
end RTA
