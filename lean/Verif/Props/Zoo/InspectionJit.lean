import Verif.Lemmas.PadJit
import Verif.Lemmas.Zoo.SunRate
import Verif.Props.ASIF
import Verif.Props.Zoo.InspectionDiscreteRefuted

/-!
C91: the inspection module with compiled methods (the default) and the rate of the sun.
-/
namespace RTA

section
variable {K S P X Sig : Type} [DecidableEq Sig] [Add K] [Mul K] [Neg K] [Sub K] [Zero K] [One K] [OfNat K 10] [Max K] [Min K]
  [HasSqrt K] [LT K] [DecidableLT K]

/-- **C91**: a compiled module whose `_get_state` overwrites the attribute that its dynamics read. If the first call is answered and
the completed states of all calls have one signature, then all answers are those of a module in which the attribute has, throughout,
the value it had in the first call. -/
theorem C91_first_state (solver : Solver K) (sig : S → K → Dict P → Dict Bool → Sig)
    (sigD : List (Row K) → S → Dict P → Dict Bool → Sig) (pad : S → S) (upd : X → S → X) (f : X → S → List K)
    (g : X → S → List (List K)) (opts : Dict Bool) (ho : (dictGet opts "generate_barrier_constraint_mats").getD true = true)
    (s : ASIFObj K S P X) (hen : s.enable = true) (x : S) (dt : K) (u v : List K) (l : List (S × K × List K)) (q : Sig)
    (hq : ∀ c ∈ (x, dt, u) :: l, ∀ p e, sig (pad c.1) c.2.1 p e = q)
    (h : (padASIFJ solver sig sigD pad upd f g (ASIFJ.compose true opts s) (.array x) dt u).1 = .ok v) :
    answers (padASIFJ solver sig sigD pad upd f g) (ASIFJ.compose true opts s) ((x, dt, u) :: l) =
      answers (explicitASIF solver (f (upd s.ext.extra x)) (g (upd s.ext.extra x))) s
        (((x, dt, u) :: l).map fun c => (pad c.1, c.2.1, c.2.2)) := by
  let w : X := upd s.ext.extra x
  let J : ASIFJ Sig K S P X := ASIFJ.compose true opts (withExtra w s)
  have hj : J.jit.barrierJit = true := by
    show jitOption true opts "generate_barrier_constraint_mats" true = true
    simp [jitOption, ho]
  have h0 : padASIFJ solver sig sigD pad upd f g (ASIFJ.compose true opts s) (.array x) dt u =
      explicitASIFJ solver sig sigD f g J (.array (pad x)) dt u :=
    padASIFJ_eq solver sig sigD pad upd f g _ hen x dt u
  have hs0 : ASIFSim w J (withExtra w s) :=
    ⟨rfl, fun _ p hp => absurd hp (by simp [J, ASIFJ.compose]), fun _ p hp => absurd hp (by simp [J, ASIFJ.compose]), rfl,
      fun _ p hp => absurd hp (by simp [J, ASIFJ.compose])⟩
  have h1 := explicitASIFJ_sim solver sig sigD f g hs0 (.array (pad x)) dt u
  rw [h0] at h
  obtain ⟨o, ht⟩ := explicitASIFJ_traced solver sig sigD f g (j := J) hj hen h
  rw [hq _ List.mem_cons_self] at ht
  have hfl := (explicitASIFJ_flags solver sig sigD f g J (.array (pad x)) dt u)
  -- the rest of the calls
  have key : ∀ (l : List (S × K × List K)), (∀ c ∈ l, ∀ p e, sig (pad c.1) c.2.1 p e = q) →
      ∀ (j : ASIFJ Sig K S P X) (t : ASIFObj K S P X), j.jit.barrierJit = true → jitLookup j.jit.barrier q = some o →
      ASIFSim w (freezeJ w j) t →
      answers (padASIFJ solver sig sigD pad upd f g) j l =
        answers (explicitASIF solver (f w) (g w)) t (l.map fun c => (pad c.1, c.2.1, c.2.2)) := by
    intro l
    induction l with
    | nil => intros; rfl
    | cons c l ih =>
      intro hl j t hJ hlook hsim
      obtain ⟨y, dt', u'⟩ := c
      have hsig := hl _ List.mem_cons_self (updateParams j.obj).params (updateParams j.obj).constraintEnabled
      have hfr := padASIFJ_freeze solver sig sigD pad upd f g w j hJ y dt' u' (hsig ▸ hlook)
      have h2 := explicitASIFJ_sim solver sig sigD f g hsim (.array (pad y)) dt' u'
      have hb := (explicitASIFJ_flags solver sig sigD f g (freezeJ w j) (.array (pad y)) dt' u').1
      have hk := explicitASIFJ_trace solver sig sigD f g (j := freezeJ w j) (q := q) (o := o) hlook (.array (pad y)) dt' u'
      rw [hfr] at h2 hb hk
      have := ih (fun c hc => hl c (List.mem_cons_of_mem _ hc))
        (padASIFJ solver sig sigD pad upd f g j (.array y) dt' u').2 _ (hb.trans hJ) hk h2.2
      simp only [answers, List.map_cons]
      rw [this]
      exact congrArg (fun r => r :: _) h2.1
  have hsim1 : ASIFSim w (freezeJ w (explicitASIFJ solver sig sigD f g J (.array (pad x)) dt u).2)
      (explicitASIF solver (f w) (g w) (withExtra w s) (.array (pad x)) dt u).2 := by
    have a := h1.2
    refine ⟨?_, a.barrier, fun hd p hp => ?_, a.extra, a.integrate⟩
    · show withExtra w _ = _
      rw [a.obj]
      exact withExtra_self a.extra
    · obtain ⟨p', hp', rfl⟩ := List.mem_map.1 hp
      have b := a.direct hd p' hp'
      exact ⟨b.constraints, b.direct, b.actuation, b.controlDim, b.numSlack, a.extra.symm⟩
  have hrest := key l (fun c hc => hq c (List.mem_cons_of_mem _ hc)) _ _ (hfl.1.trans hj) ht hsim1
  rw [← answers_withExtra solver _ _ w _ s]
  simp only [answers, List.map_cons]
  rw [h0, hrest]
  exact congrArg (fun r => r :: _) h1.1

/-- **C91**, without compilation: once the attribute does not change any more, all answers are computed with that value. -/
theorem C91_uncompiled (solver : Solver K) (pad : S → S) (upd : X → S → X) (f : X → S → List K) (g : X → S → List (List K))
    (s : ASIFObj K S P X) (hen : s.enable = true) (x : S) (dt : K) (u : List K) (l : List (S × K × List K))
    (hl : ∀ c ∈ l, upd (upd s.ext.extra x) c.1 = upd s.ext.extra x) :
    answers (padASIF solver pad upd f g) s ((x, dt, u) :: l) =
      answers (explicitASIF solver (f (upd s.ext.extra x)) (g (upd s.ext.extra x))) s
        (((x, dt, u) :: l).map fun c => (pad c.1, c.2.1, c.2.2)) := by
  generalize hw : upd s.ext.extra x = w at hl
  have key : ∀ (l : List (S × K × List K)), (∀ c ∈ l, upd w c.1 = w) → ∀ t : ASIFObj K S P X, t.ext.extra = w →
      answers (padASIF solver pad upd f g) t l =
        answers (explicitASIF solver (f w) (g w)) t (l.map fun c => (pad c.1, c.2.1, c.2.2)) := by
    intro l
    induction l with
    | nil => intros; rfl
    | cons c l ih =>
      intro hl t ht
      obtain ⟨y, dt', u'⟩ := c
      have hy : upd t.ext.extra y = w := by rw [ht]; exact hl _ List.mem_cons_self
      have h1 := padASIF_eq solver pad upd f g t y (Or.inr (hy.trans ht.symm)) dt' u'
      rw [hy, withExtra_self ht] at h1
      simp only [answers, List.map_cons]
      rw [h1, ih (fun c hc => hl c (List.mem_cons_of_mem _ hc)) _ ((explicitASIF_extra solver _ _ t (pad y) dt' u').trans ht)]
  have h0 := padASIF_eq solver pad upd f g s x (Or.inl hen) dt u
  rw [hw] at h0
  rw [← answers_withExtra solver _ _ w _ s]
  simp only [answers, List.map_cons]
  rw [h0, key l hl _ (explicitASIF_extra solver _ _ (withExtra w s) (pad x) dt u)]

end

section
variable {Sig : Type} [DecidableEq Sig] [HasSqrt ℝ]

/-- **C91, the inspection module**: with compiled methods (the default) the rate of the sun in all answers is decided by the first
call: the configured rate if the first state has all eight components, and zero if it has not - whatever states follow. -/
theorem C91_inspection (solver : Solver ℝ) (sig : List ℝ → ℝ → Dict InspParams → Dict Bool → Sig)
    (sigD : List (Row ℝ) → List ℝ → Dict InspParams → Dict Bool → Sig) (c : InspConfig) (opts : Dict Bool)
    (ho : (dictGet opts "generate_barrier_constraint_mats").getD true = true)
    (s : ASIFObj ℝ (List ℝ) InspParams ℝ) (hen : s.enable = true) (hsun : s.ext.extra = c.sunVel)
    (x : List ℝ) (dt : ℝ) (u v : List ℝ) (l : List (List ℝ × ℝ × List ℝ)) (q : Sig)
    (hq : ∀ c ∈ (x, dt, u) :: l, ∀ p e, sig (inspPad c.1) c.2.1 p e = q)
    (h : (inspFilterJ solver sig sigD c (ASIFJ.compose true opts s) (.array x) dt u).1 = .ok v) :
    answers (inspFilterJ solver sig sigD c) (ASIFJ.compose true opts s) ((x, dt, u) :: l) =
      answers (explicitASIF solver (inspectionF c.n (if x.length < 8 then 0 else c.sunVel)) (fun _ => inspectionG c.m)) s
        (((x, dt, u) :: l).map fun c => (if c.1.length < 8 then c.1 ++ [0, 0] else c.1, c.2.1, c.2.2)) := by
  have := C91_first_state solver sig sigD inspPad inspUpd (fun v => inspectionF c.n v) (fun _ _ => inspectionG c.m) opts ho s hen x dt u
    v l q hq h
  rw [hsun] at this
  exact this

/-- **C91, what holds**: if the first state is short, or none is, compilation does not change the answers of the module. -/
theorem C91_same_kind_partial (solver : Solver ℝ) (sig : List ℝ → ℝ → Dict InspParams → Dict Bool → Sig)
    (sigD : List (Row ℝ) → List ℝ → Dict InspParams → Dict Bool → Sig) (c : InspConfig) (opts : Dict Bool)
    (ho : (dictGet opts "generate_barrier_constraint_mats").getD true = true)
    (s : ASIFObj ℝ (List ℝ) InspParams ℝ) (hen : s.enable = true) (x : List ℝ) (dt : ℝ) (u v : List ℝ)
    (l : List (List ℝ × ℝ × List ℝ)) (q : Sig) (hq : ∀ c ∈ (x, dt, u) :: l, ∀ p e, sig (inspPad c.1) c.2.1 p e = q)
    (h : (inspFilterJ solver sig sigD c (ASIFJ.compose true opts s) (.array x) dt u).1 = .ok v)
    (hk : x.length < 8 ∨ (8 ≤ x.length ∧ ∀ c ∈ l, 8 ≤ c.1.length)) :
    answers (inspFilterJ solver sig sigD c) (ASIFJ.compose true opts s) ((x, dt, u) :: l) =
      answers (inspFilter solver c) s ((x, dt, u) :: l) := by
  unfold inspFilterJ inspFilter at *
  rw [C91_first_state solver sig sigD inspPad inspUpd _ _ opts ho s hen x dt u v l q hq h]
  refine (C91_uncompiled solver inspPad inspUpd (fun v => inspectionF c.n v) (fun _ _ => inspectionG c.m) s hen x dt u l
    fun c hc => ?_).symm
  rcases hk with hk | ⟨hk, hk'⟩
  · simp [inspUpd, hk]
  · rw [inspUpd, if_neg (not_lt.2 (hk' c hc))]

/-- **C91, the module for several deputies** (`InspectionRTA`): also here the first call decides the rate of the sun. -/
theorem C91_multi (solver : Solver ℝ) (sig : List ℝ → ℝ → Dict InspParams → Dict Bool → Sig)
    (sigD : List (Row ℝ) → List ℝ → Dict InspParams → Dict Bool → Sig) (c : MultiConfig) (opts : Dict Bool)
    (ho : (dictGet opts "generate_barrier_constraint_mats").getD true = true)
    (s : ASIFObj ℝ (List ℝ) InspParams ℝ) (hen : s.enable = true) (hsun : s.ext.extra = c.sunVel)
    (x : List ℝ) (dt : ℝ) (u v : List ℝ) (l : List (List ℝ × ℝ × List ℝ)) (q : Sig)
    (hq : ∀ k ∈ (x, dt, u) :: l, ∀ p e, sig (multiPad c.numDeputies k.1) k.2.1 p e = q)
    (h : (multiFilterJ solver sig sigD c (ASIFJ.compose true opts s) (.array x) dt u).1 = .ok v) :
    answers (multiFilterJ solver sig sigD c) (ASIFJ.compose true opts s) ((x, dt, u) :: l) =
      answers (explicitASIF solver (multiF { c with sunVel := if x.length < 6 * c.numDeputies + 1 then 0 else c.sunVel })
        (fun _ => multiG c)) s
        (((x, dt, u) :: l).map fun k => (if k.1.length < 6 * c.numDeputies + 1 then k.1 ++ [0] else k.1, k.2.1, k.2.2)) := by
  have := C91_first_state solver sig sigD (multiPad c.numDeputies) (multiUpd c.numDeputies)
    (fun v => multiF { c with sunVel := v }) (fun _ _ => multiG c) opts ho s hen x dt u v l q hq h
  rw [hsun] at this
  exact this

/-- **C91, several deputies, what holds**. -/
theorem C91_multi_same_kind_partial (solver : Solver ℝ) (sig : List ℝ → ℝ → Dict InspParams → Dict Bool → Sig)
    (sigD : List (Row ℝ) → List ℝ → Dict InspParams → Dict Bool → Sig) (c : MultiConfig) (opts : Dict Bool)
    (ho : (dictGet opts "generate_barrier_constraint_mats").getD true = true)
    (s : ASIFObj ℝ (List ℝ) InspParams ℝ) (hen : s.enable = true) (x : List ℝ) (dt : ℝ) (u v : List ℝ)
    (l : List (List ℝ × ℝ × List ℝ)) (q : Sig) (hq : ∀ k ∈ (x, dt, u) :: l, ∀ p e, sig (multiPad c.numDeputies k.1) k.2.1 p e = q)
    (h : (multiFilterJ solver sig sigD c (ASIFJ.compose true opts s) (.array x) dt u).1 = .ok v)
    (hk : x.length < 6 * c.numDeputies + 1 ∨
      (6 * c.numDeputies + 1 ≤ x.length ∧ ∀ k ∈ l, 6 * c.numDeputies + 1 ≤ k.1.length)) :
    answers (multiFilterJ solver sig sigD c) (ASIFJ.compose true opts s) ((x, dt, u) :: l) =
      answers (multiFilter solver c) s ((x, dt, u) :: l) := by
  unfold multiFilterJ multiFilter at *
  rw [C91_first_state solver sig sigD (multiPad c.numDeputies) (multiUpd c.numDeputies) _ _ opts ho s hen x dt u v l q hq h]
  refine (C91_uncompiled solver (multiPad c.numDeputies) (multiUpd c.numDeputies) (fun v => multiF { c with sunVel := v })
    (fun _ _ => multiG c) s hen x dt u l fun k hk' => ?_).symm
  rcases hk with hk | ⟨hk, hk2⟩
  · simp [multiUpd, hk]
  · rw [multiUpd, if_neg (not_lt.2 (hk2 k hk'))]

end

section
variable {Sig : Type} [DecidableEq Sig]
open Real

/-- What the controls and shapes of a module depend on is kept by a call, whatever the dynamics. -/
theorem admissible_after {s t : ASIFObj ℝ (List ℝ) InspParams ℝ} (h : SameAS Eq s t) {f : List ℝ → List ℝ} {g : List ℝ → List (List ℝ)}
    {x u : List ℝ} : Admissible f g t x u ↔ Admissible f g s x u := by
  constructor
  · rintro ⟨h1, h2, h3, h4⟩
    rw [h.controlDim] at h1
    rw [h.low, h.high] at h2
    rw [h.constraints] at h3
    rw [h.direct] at h4
    exact ⟨h1, h2, h3, h4⟩
  · rintro ⟨h1, h2, h3, h4⟩
    refine ⟨?_, ?_, ?_, ?_⟩
    · rw [h.controlDim]; exact h1
    · rw [h.low, h.high]; exact h2
    · rw [h.constraints]; exact h3
    · rw [h.direct]; exact h4

theorem shapes_after {s t : ASIFObj ℝ (List ℝ) InspParams ℝ} (h : SameAS Eq s t) {f : List ℝ → List ℝ} {g : List ℝ → List (List ℝ)}
    {x : List ℝ} (hs : ShapesOK f g s x) : ShapesOK f g t x := by
  obtain ⟨h1, h2, h3, h4, h5⟩ := hs
  refine ⟨?_, ?_, h3, ?_, ?_⟩
  · rw [h.constraints]; exact h1
  · rw [h.constraints]; exact h2
  · rw [h.controlDim]; exact h4
  · rw [h.controlDim, h.direct]; exact h5

/-- What a module with the invariants, without slack variables, answers to an admissible control (as `C25_no_interference`, here
for objects that were used with other dynamics before). -/
theorem passes_of_inv {solver : Solver ℝ} (hspec : SolverSpec solver) {f : List ℝ → List ℝ} {g : List ℝ → List (List ℝ)}
    {s : ASIFObj ℝ (List ℝ) InspParams ℝ} (hinv : ASIFInv s) (hnames : ExplicitNames s) (hns : slackScales s.constraints = [])
    (hen : s.enable = true) {x : List ℝ} (hsh : ShapesOK f g s x) (dt : ℝ) {u : List ℝ} (hadm : Admissible f g s x u) :
    (explicitASIF solver f g s (.array x) dt u).1 = .ok u := by
  have hpos : ScalesPos s.constraints := by intro w hw; rw [hns] at hw; simp at hw
  have had := (admissibleS_noslack hns).2 ⟨rfl, hadm⟩
  obtain ⟨v, hv⟩ := (explicit_total hspec hinv hnames hpos hsh dt hadm.len hen).1 ⟨_, _, had⟩
  have hcall : explicitASIF solver f g s (.array x) dt u = (.ok v, (explicitASIF solver f g s (.array x) dt u).2) := Prod.ext hv rfl
  obtain ⟨-, d, l, hav, hmin, -⟩ := explicit_solved hspec hinv hnames hpos hen hcall ⟨_, _, had⟩
  obtain ⟨rfl, -⟩ := (admissibleS_noslack hns).1 hav
  by_contra hne
  have hvu : v ≠ u := fun e => hne (e ▸ hv)
  have := hmin u [] had (by simpa using hvu)
  have hz := slackCost_zeros (qpWeights s) u u 0
  rw [show zeros 0 = ([] : List ℝ) from rfl, sqDist_self] at hz
  rw [hz] at this
  exact absurd this (not_lt.2 (slackCost_nonneg (qpWeights_pos hpos) _ _ _))

/-- A control that is admissible for a sun at rest but not for a sun that moves as configured. -/
theorem sun_witness {c : InspConfig} (ha : 0 < c.aMax) (h0 : 0 < c.fov) (h1 : c.fov < π) (hm : 0 < c.m) (hw : c.sunVel < 0) :
    ∃ u, Admissible (inspectionF c.n 0) (fun _ => inspectionG c.m) (sunOnly c) sideState u ∧
      ¬ Admissible (inspectionF c.n c.sunVel) (fun _ => inspectionG c.m) (sunOnly c) sideState u ∧
      ∃ v, Admissible (inspectionF c.n c.sunVel) (fun _ => inspectionG c.m) (sunOnly c) sideState v := by
  have hsin : 0 < sin (c.fov / 2) := sin_pos_of_pos_of_lt_pi (by linarith) (by linarith)
  have hcos : 0 < cos (c.fov / 2) := cos_pos_of_mem_Ioo ⟨by linarith, by linarith⟩
  obtain ⟨A, hA⟩ := sunOnly_admissible ha h0 h1
  have hk : 0 < c.aMax * sin (c.fov / 2) / √(2 * c.aMax * cos (c.fov / 2)) - c.sunVel * cos (c.fov / 2) := by
    have h2 : 0 ≤ c.aMax * sin (c.fov / 2) / √(2 * c.aMax * cos (c.fov / 2)) := by positivity
    have h3 : c.sunVel * cos (c.fov / 2) < 0 := mul_neg_of_neg_of_pos hw hcos
    linarith
  generalize c.aMax * sin (c.fov / 2) / √(2 * c.aMax * cos (c.fov / 2)) - c.sunVel * cos (c.fov / 2) = k at hA hk
  have e : ∀ B, sin (c.fov / 2) * (c.m * B / sin (c.fov / 2) / c.m) = B := fun B => by field_simp
  refine ⟨[c.m * (-A) / sin (c.fov / 2), 0, 0], ?_, ?_, [c.m * (-A - k * c.sunVel) / sin (c.fov / 2), 0, 0], ?_⟩
  · rw [hA, e]; linarith
  · rw [hA, e]
    have := mul_neg_of_pos_of_neg hk hw
    linarith
  · rw [hA, e]; linarith

theorem sun_uncompiled (solver : Solver ℝ) (hspec : SolverSpec solver) (c : InspConfig) (u : List ℝ)
    (hu : Admissible (inspectionF c.n 0) (fun _ => inspectionG c.m) (sunOnly c) sideState u) :
    (inspFilter solver c (inspFilter solver c (sunOnly c) (.array sideState) 1 u).2 (.array [0, 1, 0, 0, 0, 0]) 1 u).1 = .ok u := by
  obtain ⟨e1, e2, -, -, -, -, e7, -⟩ := sunOnly_fields c
  obtain ⟨hinv, hnames⟩ := (sunOnly_module solver c c.sunVel).inv
  have hsame := explicit_after_call solver (inspectionF c.n c.sunVel) (fun _ => inspectionG c.m) (directWF_of_inv hinv)
    (.array sideState) 1 u
  have q1 := padASIF_eq solver inspPad inspUpd (fun v => inspectionF c.n v) (fun _ _ => inspectionG c.m) (sunOnly c) sideState
    (Or.inl e2) 1 u
  have hx1 : inspUpd (sunOnly c).ext.extra sideState = c.sunVel := by rw [e7]; simp [inspUpd, sideState]
  rw [hx1, withExtra_self e7, show inspPad sideState = sideState by simp [inspPad, sideState]] at q1
  unfold inspFilter
  rw [q1]
  generalize (explicitASIF solver (inspectionF c.n c.sunVel) (fun _ => inspectionG c.m) (sunOnly c) (.array sideState) 1 u).2 = s1 at hsame
  have hen1 : s1.enable = true := hsame.enable.trans e2
  have hp := passes_of_inv hspec (asifInv_same hsame hinv) (explicitNames_same hsame hnames)
    (by rw [hsame.constraints, e1]; rfl) hen1 (shapes_after hsame (sunOnly_shapes c 0)) 1 ((admissible_after hsame).2 hu)
  have q2 := padASIF_eq solver inspPad inspUpd (fun v => inspectionF c.n v) (fun _ _ => inspectionG c.m) s1 [0, 1, 0, 0, 0, 0]
    (Or.inl hen1) 1 u
  have hx2 : inspUpd s1.ext.extra [0, 1, 0, 0, 0, 0] = 0 := by simp [inspUpd]
  rw [hx2, show inspPad [0, 1, 0, 0, 0, 0] = sideState by simp [inspPad, sideState], explicitASIF_withExtra] at q2
  rw [q2]
  exact hp

/-- With the configured rate of the sun, a second call does not return an inadmissible control either. -/
theorem sun_second (solver : Solver ℝ) (hspec : SolverSpec solver) (c : InspConfig) (u : List ℝ)
    (hu : ¬ Admissible (inspectionF c.n c.sunVel) (fun _ => inspectionG c.m) (sunOnly c) sideState u)
    (hex : ∃ v, Admissible (inspectionF c.n c.sunVel) (fun _ => inspectionG c.m) (sunOnly c) sideState v)
    (hl : u.length = 3) :
    (∃ v, (explicitASIF solver (inspectionF c.n c.sunVel) (fun _ => inspectionG c.m) (sunOnly c) (.array sideState) 1 u).1 = .ok v) ∧
    (explicitASIF solver (inspectionF c.n c.sunVel) (fun _ => inspectionG c.m)
      (explicitASIF solver (inspectionF c.n c.sunVel) (fun _ => inspectionG c.m) (sunOnly c) (.array sideState) 1 u).2
      (.array sideState) 1 u).1 ≠ .ok u := by
  obtain ⟨e1, e2, e3, -⟩ := sunOnly_fields c
  obtain ⟨v0, hv0⟩ := hex
  have hmod := sunOnly_module solver c c.sunVel
  obtain ⟨hinv, hnames⟩ := hmod.inv
  have hns : slackScales (sunOnly c).constraints = [] := by rw [e1]; rfl
  have hsame := explicit_after_call solver (inspectionF c.n c.sunVel) (fun _ => inspectionG c.m) (directWF_of_inv hinv)
    (.array sideState) 1 u
  refine ⟨C24_returns hspec hmod (by intro w hw; rw [hns] at hw; simp at hw) e2 sideState (sunOnly_shapes c _) 1 u (by rw [e3]; exact hl)
    ⟨v0, [], (admissibleS_noslack hns).2 ⟨rfl, hv0⟩⟩, ?_⟩
  generalize (explicitASIF solver (inspectionF c.n c.sunVel) (fun _ => inspectionG c.m) (sunOnly c) (.array sideState) 1 u).2 = s1 at hsame
  intro h
  have hns1 : slackScales s1.constraints = [] := by rw [hsame.constraints]; exact hns
  obtain ⟨-, d, l, hav, -⟩ := explicit_solved hspec (asifInv_same hsame hinv) (explicitNames_same hsame hnames)
    (by intro w hw; rw [hns1] at hw; simp at hw) (hsame.enable.trans e2) (Prod.ext h rfl)
    ⟨v0, [], (admissibleS_noslack hns1).2 ⟨rfl, (admissible_after hsame).2 hv0⟩⟩
  exact hu ((admissible_after hsame).1 ((admissibleS_noslack hns1).1 hav).2)

theorem sun_first (solver : Solver ℝ) (sig : List ℝ → ℝ → Dict InspParams → Dict Bool → Sig)
    (sigD : List (Row ℝ) → List ℝ → Dict InspParams → Dict Bool → Sig) (c : InspConfig) (u v : List ℝ)
    (hv : (explicitASIF solver (inspectionF c.n c.sunVel) (fun _ => inspectionG c.m) (sunOnly c) (.array sideState) 1 u).1 = .ok v) :
    (inspFilterJ solver sig sigD c (ASIFJ.compose true [] (sunOnly c)) (.array sideState) 1 u).1 = .ok v := by
  have hen := (sunOnly_fields c).2.1
  have hex := (sunOnly_fields c).2.2.2.2.2.2.1
  rw [← hv]
  have := padASIFJ_eq solver sig sigD inspPad inspUpd (fun v => inspectionF c.n v) (fun _ _ => inspectionG c.m)
    (ASIFJ.compose true [] (sunOnly c)) hen sideState 1 u
  unfold inspFilterJ
  have hx : inspUpd (sunOnly c).ext.extra sideState = c.sunVel := by rw [hex]; simp [inspUpd, sideState]
  have ho : ({ (ASIFJ.compose true [] (sunOnly c) : ASIFJ Sig ℝ (List ℝ) InspParams ℝ) with
      obj := withExtra (inspUpd (sunOnly c).ext.extra sideState) (sunOnly c) } : ASIFJ Sig ℝ (List ℝ) InspParams ℝ) =
      ASIFJ.compose true [] (sunOnly c) := by rw [hx, withExtra_self hex]; rfl
  have hs0 : ASIFSim c.sunVel (ASIFJ.compose true [] (sunOnly c) : ASIFJ Sig ℝ (List ℝ) InspParams ℝ) (sunOnly c) :=
    ⟨rfl, fun _ p hp => absurd hp (by simp [ASIFJ.compose]), fun _ p hp => absurd hp (by simp [ASIFJ.compose]), hex,
      fun _ p hp => absurd hp (by simp [ASIFJ.compose])⟩
  rw [this, show inspPad sideState = sideState by simp [inspPad, sideState]]
  exact (congrArg (fun j => (explicitASIFJ solver sig sigD (fun v => inspectionF c.n v)
    (fun _ _ => inspectionG c.m) j (.array sideState) 1 u).1) ho).trans
    (explicitASIFJ_sim solver sig sigD _ _ hs0 (.array sideState) 1 u).1

/-- With a correct solver the default module with the sun constraint answers its first call, as `C91_inspection` asks; the later state
is short and has the same signature once completed. -/
example : ∃ u v, (inspFilterJ refSolver (fun x _ _ _ => x.length) (fun _ x _ _ => x.length) inspDefault
      (ASIFJ.compose true [] (sunOnly inspDefault)) (.array sideState) 1 u).1 = .ok v ∧
    ∀ k ∈ [(sideState, (1 : ℝ), u), ([0, 1, 0, 0, 0, 0], 1, u)], (inspPad k.1).length = 8 := by
  have ha : 0 < inspDefault.aMax := lt_trans (by norm_num) default_aMax
  have hf : inspDefault.fov = π / 3 := by show 60 * π / 180 = π / 3; ring
  obtain ⟨u, h1, h2, h3⟩ := sun_witness ha (by rw [hf]; positivity) (by rw [hf]; linarith [pi_pos])
    (by show (0 : ℝ) < 12; norm_num) (by show (-(1027 / 1000000) : ℝ) < 0; norm_num)
  have hlen := h1.len
  rw [(sunOnly_fields inspDefault).2.2.1] at hlen
  obtain ⟨⟨v, hv⟩, -⟩ := sun_second refSolver refSolver_spec inspDefault u h2 h3 hlen
  refine ⟨u, v, sun_first refSolver _ _ inspDefault u v hv, fun k hk => ?_⟩
  simp only [List.mem_cons, List.not_mem_nil, or_false] at hk
  rcases hk with rfl | rfl <;> simp [inspPad, sideState]

/-- **C91 fails as stated**: the default inspection module with the sun constraint only. First a state with all eight components, then
the same position and velocity as a short state, which means a sun that stands still. With compiled methods, the second call rejects a
control that it returns unchanged with `jit_enable=False` - for every correct solver. -/
theorem C91_refuted (solver : Solver ℝ) (hspec : SolverSpec solver) (sig : List ℝ → ℝ → Dict InspParams → Dict Bool → Sig)
    (sigD : List (Row ℝ) → List ℝ → Dict InspParams → Dict Bool → Sig) (q : Sig)
    (hq : ∀ x dt p e, x.length = 8 → sig x dt p e = q) : ∃ s u, inspSunASIF inspDefault (some ["sun"]) none none (1 / 100) false = .ok s ∧
    (answers (inspFilter solver inspDefault) s [([0, 1, 0, 0, 0, 0, 0, 0], 1, u), ([0, 1, 0, 0, 0, 0], 1, u)])[1]? = some (.ok u) ∧
    (answers (inspFilterJ solver sig sigD inspDefault) (ASIFJ.compose true [] s)
      [([0, 1, 0, 0, 0, 0, 0, 0], 1, u), ([0, 1, 0, 0, 0, 0], 1, u)])[1]? ≠ some (.ok u) := by
  have ha : 0 < inspDefault.aMax := lt_trans (by norm_num) default_aMax
  have hf : inspDefault.fov = π / 3 := by show 60 * π / 180 = π / 3; ring
  obtain ⟨u, h1, h2, h3⟩ := sun_witness ha (by rw [hf]; positivity) (by rw [hf]; linarith [pi_pos])
    (by show (0 : ℝ) < 12; norm_num) (by show (-(1027 / 1000000) : ℝ) < 0; norm_num)
  have hlen := h1.len
  rw [(sunOnly_fields inspDefault).2.2.1] at hlen
  obtain ⟨⟨v, hv⟩, hne⟩ := sun_second solver hspec inspDefault u h2 h3 hlen
  refine ⟨sunOnly inspDefault, u, sunOnly_init _, congrArg some (sun_uncompiled solver hspec inspDefault u h1), ?_⟩
  have hen := (sunOnly_fields inspDefault).2.1
  have hex := (sunOnly_fields inspDefault).2.2.2.2.2.2.1
  have q0 := sun_first solver sig sigD inspDefault u v hv
  have := C91_inspection solver sig sigD inspDefault [] rfl (sunOnly inspDefault) hen hex sideState 1 u v
    [([0, 1, 0, 0, 0, 0], 1, u)] q (by
      intro c hc p e
      refine hq _ _ _ _ ?_
      simp only [List.mem_cons, List.not_mem_nil, or_false] at hc
      rcases hc with rfl | rfl <;> simp [inspPad, sideState]) q0
  rw [show ([0, 1, 0, 0, 0, 0, 0, 0] : List ℝ) = sideState from rfl, this]
  have hl8 : ¬ sideState.length < 8 := by simp [sideState]
  rw [if_neg hl8]
  intro h
  refine hne ?_
  have h' := Option.some.inj h
  simpa [answers, sideState] using h'

end

end RTA
