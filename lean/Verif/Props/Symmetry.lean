import Verif.Spec.Symmetry
import Verif.Props.ASIF

/-!
C107: the answer of an explicit ASIF module depends on the situation, not on its description.
-/
set_option linter.unusedSectionVars false
namespace RTA
variable {K S P X S' P' X' : Type}

section general
variable [Field K] [LinearOrder K] [IsStrictOrderedRing K]

theorem same_barrier {m : Nat} {J T : List K → List K} {f : S → List K} {g : S → List (List K)} {x : S} {f' : S' → List K}
    {g' : S' → List (List K)} {y : S'} {c : Constraint K S P} {c' : Constraint K S' P'} (h : SameConstraint m J c x c' y)
    (he : c.enabled = true) {w : List K} (hf : f' y = J (f x)) (hg : matVec (g' y) (T w) = J (matVec (g x) w))
    (hadd : J (vadd (f x) (matVec (g x) w)) = vadd (J (f x)) (J (matVec (g x) w))) (hl : (vadd (f x) (matVec (g x) w)).length = m) (d : K) :
    BarrierOK f' g' c' y (T w) d ↔ BarrierOK f g c x w d := by
  have hst : ∀ al h, strengthening c' al h = strengthening c al h := by
    intro al v; unfold strengthening; rw [h.alphaNeg, h.biasNegative]
  unfold BarrierOK barrierValue
  rw [h.alpha, hf, hg, ← hadd, h.grad he _ hl, h.value he]
  simp only [hst]

theorem same_scales {R : String × Constraint K S P → String × Constraint K S' P' → Prop} {cs : Dict (Constraint K S P)}
    {cs' : Dict (Constraint K S' P')} (hR : ∀ a b, R a b → b.2.slackPriorityScale = a.2.slackPriorityScale) (h : List.Forall₂ R cs cs') :
    slackScales cs' = slackScales cs := by
  induction h with
  | nil => rfl
  | cons h0 _ ih =>
    unfold slackScales at ih ⊢
    rw [List.filterMap_cons, List.filterMap_cons, hR _ _ h0, ih]

/-- The same controls are admissible with the same slack. -/
theorem Corresponds.admissible {f : S → List K} {g : S → List (List K)} {s : ASIFObj K S P X} {x : S} {f' : S' → List K}
    {g' : S' → List (List K)} {t : ASIFObj K S' P' X'} {y : S'} {J T T' : List K → List K} (h : Corresponds f g s x f' g' t y J T T')
    (hsh : ShapesOK f g s x) {w d : List K} (hw : w.length = s.ext.controlDim) :
    AdmissibleS f' g' t y (T w) d ↔ AdmissibleS f g s x w d := by
  have hsc := same_scales (fun a b (hab : SameConstraint (f x).length J a.2 x b.2 y) => hab.slack) h.constraints
  have hm : (matVec (g x) w).length = (f x).length := by rw [← hsh.input]; simp [matVec]
  have hl : (vadd (f x) (matVec (g x) w)).length = (f x).length := by simp [vadd, hm]
  have hadd := h.add (f x) (matVec (g x) w) rfl hm
  have hbar : ∀ (cs : Dict (Constraint K S P)) (cs' : Dict (Constraint K S' P')) (d : List K),
      List.Forall₂ (fun kc kd => SameConstraint (f x).length J kc.2 x kd.2 y) cs cs' →
      ((∀ cd ∈ assignSlack cs' d, cd.1.enabled = true → BarrierOK f' g' cd.1 y (T w) cd.2) ↔
        ∀ cd ∈ assignSlack cs d, cd.1.enabled = true → BarrierOK f g cd.1 x w cd.2) := by
    intro cs cs' d hc
    induction hc generalizing d with
    | nil => simp [assignSlack]
    | @cons a b l l' h0 _ ih =>
      obtain ⟨k, c⟩ := a
      obtain ⟨k', c'⟩ := b
      have hone : ∀ e, (c'.enabled = true → BarrierOK f' g' c' y (T w) e) ↔ (c.enabled = true → BarrierOK f g c x w e) := by
        intro e
        have hen : c'.enabled = c.enabled := h0.enabled
        rw [hen]
        exact imp_congr_right fun he => same_barrier h0 he h.drift (h.input w hw) hadd hl e
      have hslk : c'.slackPriorityScale = c.slackPriorityScale := h0.slack
      simp only [assignSlack, hslk]
      split
      · simp only [List.forall_mem_cons]; exact and_congr (hone _) (ih _)
      · simp only [List.forall_mem_cons]; exact and_congr (hone _) (ih _)
  have hdir : ∀ (ds : Dict (DirectConstraint K S P)) (ds' : Dict (DirectConstraint K S' P')),
      List.Forall₂ (fun kc kd => SameInequality s.ext.controlDim T kc.2 x kd.2 y) ds ds' →
      ((∀ kc ∈ ds', kc.2.enabled = true → DirectOK kc.2 y (T w)) ↔ ∀ kc ∈ ds, kc.2.enabled = true → DirectOK kc.2 x w) := by
    intro ds ds' hc
    induction hc with
    | nil => simp
    | @cons a b l l' h0 _ ih =>
      simp only [List.forall_mem_cons]
      refine and_congr ?_ ih
      rw [h0.enabled]
      exact imp_congr_right fun he => h0.holds he w hw
  constructor
  · intro ha
    exact ⟨hw, by rw [← hsc]; exact ha.slen, (h.bounds w hw).1 ha.bounds, (hbar _ _ d h.constraints).1 ha.barrier, (hdir _ _ h.direct).1 ha.direct⟩
  · intro ha
    exact ⟨by rw [h.dim]; exact h.len w hw, by rw [hsc]; exact ha.slen, (h.bounds w hw).2 ha.bounds, (hbar _ _ d h.constraints).2 ha.barrier,
      (hdir _ _ h.direct).2 ha.direct⟩

variable [HasSqrt K] [LawfulSqrt K]

/-- **C107.** Two explicit ASIF modules, after any histories and with any solvers that meet the contract, that describe the same situation
give the same answer, each in its own description, whatever step lengths they are given, also with slack. If there is no solution, both
raise the solver error or both clip; `hclip` says that clipping respects the correspondence. -/
theorem C107_corresponding {solver solver' : Solver K} (hspec : SolverSpec solver) (hspec' : SolverSpec solver') {f : S → List K}
    {g : S → List (List K)} {s : ASIFObj K S P X} {x : S} {f' : S' → List K} {g' : S' → List (List K)} {t : ASIFObj K S' P' X'} {y : S'}
    {J T T' : List K → List K} (h : Corresponds f g s x f' g' t y J T T') (hs : ExplicitModule solver f g s)
    (ht : ExplicitModule solver' f' g' t) (hpos : ScalesPos s.constraints) (hens : s.enable = true) (hent : t.enable = true)
    (hsh : ShapesOK f g s x) (hsh' : ShapesOK f' g' t y) (dt dt' : K) {u : List K} (hu : u.length = s.ext.controlDim)
    (hclip : t.toBase.clipControl (T u) = (s.toBase.clipControl u).map T) :
    (explicitASIF solver' f' g' t (.array y) dt' (T u)).1 = ((explicitASIF solver f g s (.array x) dt u).1).map T := by
  have hsc := same_scales (fun a b (hab : SameConstraint (f x).length J a.2 x b.2 y) => hab.slack) h.constraints
  have hpos' : ScalesPos t.constraints := fun w hw => hpos w (by rw [← hsc]; exact hw)
  have hu' : (T u).length = t.ext.controlDim := (h.len u hu).trans h.dim.symm
  have S1 := explicit_total hspec hs.inv.1 hs.inv.2 hpos hsh dt hu hens
  have T1 := explicit_total hspec' ht.inv.1 ht.inv.2 hpos' hsh' dt' hu' hent
  have hback : ∀ w d, AdmissibleS f' g' t y w d → ∃ v, v.length = s.ext.controlDim ∧ T v = w ∧ AdmissibleS f g s x v d := by
    intro w d hw
    have hwl := hw.len.trans h.dim
    have hl := h.len' w hwl
    exact ⟨T' w, hl, h.inv w hwl, (h.admissible hsh hl).1 (by rw [h.inv w hwl]; exact hw)⟩
  by_cases ha : ∃ w d, AdmissibleS f g s x w d
  · have ha' : ∃ w d, AdmissibleS f' g' t y w d := by
      obtain ⟨w, d, hw⟩ := ha
      exact ⟨T w, d, (h.admissible hsh hw.len).2 hw⟩
    obtain ⟨v, hv⟩ := S1.1 ha
    obtain ⟨v', hv'⟩ := T1.1 ha'
    obtain ⟨d, had, hmin⟩ := C26_slack_objective_partial hspec hs hpos hens x dt u v (Prod.ext hv rfl) ha
    obtain ⟨d', had', hmin'⟩ := C26_slack_objective_partial hspec' ht hpos' hent y dt' (T u) v' (Prod.ext hv' rfl) ha'
    obtain ⟨q, hql, rfl, hq⟩ := hback v' d' had'
    rw [hv, hv']
    show Except.ok (T q) = Except.ok (T v)
    by_contra hne
    have hqv : q ≠ v := fun e => hne (by rw [e])
    have l1 := hmin q d' hq (fun e => hqv (List.append_inj_left e (had.len.trans hql.symm)).symm)
    have hTne : T q ≠ T v := fun e => hne (by rw [e])
    have l2 := hmin' (T v) d ((h.admissible hsh had.len).2 had)
      (fun e => hTne (List.append_inj_left e ((h.len q hql).trans (h.len v had.len).symm)))
    unfold slackCost at l1 l2
    rw [hsc, h.dist q u hql hu, h.dist v u had.len hu] at l2
    exact absurd l1 (not_lt.2 l2.le)
  · have ha' : ¬ ∃ w d, AdmissibleS f' g' t y w d := by
      rintro ⟨w, d, hw⟩
      obtain ⟨v, -, -, hv⟩ := hback w d hw
      exact ha ⟨v, d, hv⟩
    rw [S1.2 ha, T1.2 ha', h.exc, hclip]
    split <;> rfl

/-- **C107, the step length.** Explicit ASIF modules answer the same whatever step length they are given, and whatever solver. -/
theorem C107_step_length {solver solver' : Solver K} (hspec : SolverSpec solver) (hspec' : SolverSpec solver') {f : S → List K}
    {g : S → List (List K)} {s : ASIFObj K S P X} (hs : ExplicitModule solver f g s) (hs' : ExplicitModule solver' f g s)
    (hpos : ScalesPos s.constraints) (hen : s.enable = true) {x : S} (hsh : ShapesOK f g s x) (dt dt' : K) {u : List K}
    (hu : u.length = s.ext.controlDim) :
    (explicitASIF solver' f g s (.array x) dt' u).1 = (explicitASIF solver f g s (.array x) dt u).1 := by
  have h : Corresponds f g s x f g s x id id id :=
    ⟨rfl, fun _ h => h, fun _ h => h, fun _ _ => rfl, fun _ _ _ _ => rfl, fun _ _ => Iff.rfl, fun _ _ _ _ => rfl, rfl, fun _ _ => rfl,
      List.forall₂_same.2 fun _ _ => ⟨rfl, rfl, rfl, rfl, rfl, fun _ => rfl, fun _ _ _ => rfl⟩,
      List.forall₂_same.2 fun _ _ => ⟨rfl, fun _ _ _ => Iff.rfl⟩, rfl⟩
  have hm : ∀ r : Except PyErr (List K), r.map id = r := fun r => by cases r <;> rfl
  have := C107_corresponding hspec hspec' h hs hs' hpos hen hen hsh hsh dt dt' hu (by rw [hm]; rfl)
  rwa [hm] at this

/-- **C107, coordinates.** A module written in other state coordinates, whose vector fields are the old ones pushed forward by the derivative
`J` of the change of coordinates and whose constraints are the old ones (so that their gradients follow the chain rule), with the same
bounds, gives the same answers. -/
theorem C107_coordinates {solver solver' : Solver K} (hspec : SolverSpec solver) (hspec' : SolverSpec solver') {f : S → List K}
    {g : S → List (List K)} {s : ASIFObj K S P X} {x : S} {f' : S' → List K} {g' : S' → List (List K)} {t : ASIFObj K S' P' X'} {y : S'}
    (hs : ExplicitModule solver f g s) (ht : ExplicitModule solver' f' g' t) (hpos : ScalesPos s.constraints) (hens : s.enable = true)
    (hent : t.enable = true) (hsh : ShapesOK f g s x) (hsh' : ShapesOK f' g' t y) (hdim : t.ext.controlDim = s.ext.controlDim)
    (hlo : t.controlBoundsLow = s.controlBoundsLow) (hhi : t.controlBoundsHigh = s.controlBoundsHigh)
    (hexc : t.ext.solverException = s.ext.solverException) {J : List K → List K}
    (hJ : ∀ v w, v.length = (f x).length → w.length = (f x).length → J (vadd v w) = vadd (J v) (J w)) (hf : f' y = J (f x))
    (hg : ∀ w, w.length = s.ext.controlDim → matVec (g' y) w = J (matVec (g x) w))
    (hc : List.Forall₂ (fun kc kd => SameConstraint (f x).length J kc.2 x kd.2 y) s.constraints t.constraints)
    (hd : List.Forall₂ (fun kc kd => SameInequality s.ext.controlDim id kc.2 x kd.2 y) s.ext.direct t.ext.direct) (dt dt' : K) {u : List K}
    (hu : u.length = s.ext.controlDim) :
    (explicitASIF solver' f' g' t (.array y) dt' u).1 = (explicitASIF solver f g s (.array x) dt u).1 := by
  have h : Corresponds f g s x f' g' t y J id id :=
    ⟨hdim, fun _ h => h, fun _ h => h, fun _ _ => rfl, fun _ _ _ _ => rfl, fun _ _ => by rw [hlo, hhi]; rfl, hJ, hf, hg, hc, hd, hexc⟩
  have hm : ∀ r : Except PyErr (List K), r.map id = r := fun r => by cases r <;> rfl
  have := C107_corresponding hspec hspec' h hs ht hpos hens hent hsh hsh' dt dt' hu (by rw [hm]; exact clipControl_congr s.toBase hlo hhi)
  rwa [hm] at this

end general

/-! ### Mirror images -/

section mirror
variable [Field K] [LinearOrder K] [IsStrictOrderedRing K]

@[simp] theorem flip_length (sg v : List K) : (flip sg v).length = min sg.length v.length := by simp [flip]

theorem flip_add (sg v w : List K) : flip sg (vadd v w) = vadd (flip sg v) (flip sg w) := by
  unfold flip vadd
  induction sg generalizing v w with
  | nil => simp
  | cons a sg ih =>
    rcases v with _ | ⟨b, v⟩
    · simp
    rcases w with _ | ⟨c, w⟩
    · simp
    simp only [List.zipWith_cons_cons, ih, mul_add]

theorem flip_flip {sg : List K} (hsg : ∀ a ∈ sg, a = 1 ∨ a = -1) {v : List K} (hv : v.length ≤ sg.length) : flip sg (flip sg v) = v := by
  unfold flip
  induction sg generalizing v with
  | nil => rw [List.length_eq_zero_iff.1 (Nat.le_zero.1 hv)]; rfl
  | cons a sg ih =>
    rcases v with _ | ⟨b, v⟩
    · simp
    simp only [List.zipWith_cons_cons]
    rw [ih (fun a ha => hsg a (by simp [ha])) (by simpa using hv)]
    rcases hsg a (by simp) with rfl | rfl <;> simp

theorem dot_flip {sg : List K} (hsg : ∀ a ∈ sg, a = 1 ∨ a = -1) {v : List K} (hv : v.length ≤ sg.length) (w : List K) :
    dot (flip sg v) (flip sg w) = dot v w := by
  unfold flip
  induction sg generalizing v w with
  | nil => rw [List.length_eq_zero_iff.1 (Nat.le_zero.1 hv)]; simp
  | cons a sg ih =>
    rcases v with _ | ⟨b, v⟩
    · simp
    rcases w with _ | ⟨c, w⟩
    · simp
    simp only [List.zipWith_cons_cons, dot_cons]
    rw [ih (fun a ha => hsg a (by simp [ha])) (by simpa using hv)]
    rcases hsg a (by simp) with rfl | rfl <;> ring

theorem flip_sub (sg v w : List K) : flip sg (vsub v w) = vsub (flip sg v) (flip sg w) := by
  unfold flip vsub
  induction sg generalizing v w with
  | nil => simp
  | cons a sg ih =>
    rcases v with _ | ⟨b, v⟩
    · simp
    rcases w with _ | ⟨c, w⟩
    · simp
    simp only [List.zipWith_cons_cons, ih, mul_sub]

theorem sqDist_flip {sg : List K} (hsg : ∀ a ∈ sg, a = 1 ∨ a = -1) {v w : List K} (hv : v.length ≤ sg.length) :
    sqDist (flip sg v) (flip sg w) = sqDist v w := by
  have : sqDist (flip sg v) (flip sg w) = dot (flip sg (vsub v w)) (flip sg (vsub v w)) := by rw [flip_sub]; rfl
  rw [this, dot_flip hsg (by simp [vsub]; omega)]
  rfl

theorem flip_getElem? {sg v : List K} {i : Nat} {a b : K} (ha : sg[i]? = some a) (hb : v[i]? = some b) : (flip sg v)[i]? = some (a * b) := by
  unfold flip
  rw [List.getElem?_zipWith, ha, hb]

theorem flip_within {sg : List K} (hsg : ∀ a ∈ sg, a = 1 ∨ a = -1) {lo hi : Option (Bound K)} (hb : SymmetricBounds sg lo hi) {v : List K}
    (hv : v.length = sg.length) (h : Within lo hi v) : Within lo hi (flip sg v) := by
  intro i c hc
  have hi : i < sg.length := by
    have := (List.getElem?_eq_some_iff.1 hc).1
    simp at this; omega
  have ha : sg[i]? = some sg[i] := List.getElem?_eq_getElem hi
  have hvi : v[i]? = some (v[i]'(by omega)) := List.getElem?_eq_getElem (by omega)
  rw [flip_getElem? ha hvi] at hc
  obtain rfl := Option.some.inj hc
  have hw := h i _ hvi
  rcases hsg sg[i] (List.getElem_mem hi) with e | e
  · rw [e, one_mul]; exact hw
  · have hs := hb i (by rw [ha, e])
    rw [e]
    refine ⟨fun b hb' => ?_, fun b hb' => ?_⟩
    · rw [hb'] at hs
      have := hw.2 (-b) (by rw [hs]; rfl)
      linarith
    · rw [hs] at hb'
      obtain ⟨a, ha', rfl⟩ := Option.map_eq_some_iff.1 hb'
      have := hw.1 a ha'
      linarith

theorem clip1_neg {l h : Option K} (hs : h = l.map fun b => -b) (hc : ∀ a b, l = some a → h = some b → a ≤ b) (v : K) :
    clip1 l h (-v) = -clip1 l h v := by
  subst hs
  rcases l with _ | a
  · rfl
  · have := hc a (-a) rfl rfl
    simp only [clip1, Option.map_some]
    rcases le_total v a with h1 | h1 <;> rcases le_total (-v) a with h2 | h2 <;> rcases le_total v (-a) with h3 | h3 <;>
      simp only [max_def, min_def] <;> split_ifs <;> linarith

/-- Clipping respects mirror images when the bounds do. -/
theorem clip_flip (b : Base K) {sg : List K} (hsg : ∀ a ∈ sg, a = 1 ∨ a = -1) (hb : SymmetricBounds sg b.controlBoundsLow b.controlBoundsHigh)
    (hcons : BoundsConsistent b.controlBoundsLow b.controlBoundsHigh) {u : List K} (hu : u.length = sg.length)
    (hl : BoundFits u.length b.controlBoundsLow) (hh : BoundFits u.length b.controlBoundsHigh) :
    b.clipControl (flip sg u) = (b.clipControl u).map (flip sg) := by
  unfold Base.clipControl
  split
  · have hfl : (flip sg u).length = u.length := by simp [hu]
    obtain ⟨y, hy, hlen, hget⟩ := npClip_fits hl hh
    obtain ⟨y', hy', hlen', hget'⟩ := npClip_fits (x := flip sg u) (hfl.symm ▸ hl) (hfl.symm ▸ hh)
    rw [hy, hy']
    show Except.ok y' = Except.ok (flip sg y)
    congr 1
    apply List.ext_getElem?
    intro i
    rw [hget' i]
    by_cases hi : i < u.length
    · have ha : sg[i]? = some (sg[i]'(by omega)) := List.getElem?_eq_getElem (by omega)
      have hui : u[i]? = some (u[i]'hi) := List.getElem?_eq_getElem hi
      have hyi := hget i
      rw [hui] at hyi
      rw [flip_getElem? ha hui, flip_getElem? ha hyi]
      simp only [Option.map_some, Option.some.injEq]
      rcases hsg _ (List.getElem_mem (show i < sg.length by omega)) with e | e
      · rw [e, one_mul, one_mul]
      · rw [e, neg_one_mul, neg_one_mul]
        exact clip1_neg (hb i (by rw [ha, e])) (fun a c h1 h2 => hcons i a c h1 h2) _
    · rw [List.getElem?_eq_none (by rw [hfl]; omega), List.getElem?_eq_none (by simp [hlen]; omega)]
      rfl
  · rfl

variable [HasSqrt K] [LawfulSqrt K]

/-- **C107, mirror images.** Let the dynamics and the constraints of an explicit ASIF module be symmetric under a change of the signs `τ`
of some state components and `σ` of some control components, and the bounds as well. Then in mirror image situations it gives mirror image
answers, whatever its history, solver and step length. -/
theorem C107_mirror {solver : Solver K} (hspec : SolverSpec solver) {f : S → List K} {g : S → List (List K)} {s : ASIFObj K S P X}
    (hs : ExplicitModule solver f g s) (hpos : ScalesPos s.constraints) (hen : s.enable = true) {x y : S} (hsh : ShapesOK f g s x)
    (hsh' : ShapesOK f g s y) {sg ta : List K} (hsg : ∀ a ∈ sg, a = 1 ∨ a = -1) (hta : ∀ a ∈ ta, a = 1 ∨ a = -1)
    (hsl : sg.length = s.ext.controlDim) (htl : ta.length = (f x).length) (hf : f y = flip ta (f x))
    (hg : ∀ w : List K, w.length = s.ext.controlDim → matVec (g y) (flip sg w) = flip ta (matVec (g x) w))
    (hc : ∀ kc ∈ s.constraints, kc.2.enabled = true → kc.2.computeFn y kc.2.params = kc.2.computeFn x kc.2.params ∧
      kc.2.gradFn y kc.2.params = flip ta (kc.2.gradFn x kc.2.params))
    (hd : ∀ kc ∈ s.ext.direct, kc.2.enabled = true → kc.2.ineqConstant y kc.2.params = kc.2.ineqConstant x kc.2.params ∧
      kc.2.ineqWeight y kc.2.params = flip sg (kc.2.ineqWeight x kc.2.params))
    (hb : SymmetricBounds sg s.controlBoundsLow s.controlBoundsHigh) (hcons : BoundsConsistent s.controlBoundsLow s.controlBoundsHigh)
    (dt dt' : K) {u : List K} (hu : u.length = s.ext.controlDim) :
    (explicitASIF solver f g s (.array y) dt' (flip sg u)).1 = ((explicitASIF solver f g s (.array x) dt u).1).map (flip sg) := by
  have hlen : ∀ w : List K, w.length = s.ext.controlDim → (flip sg w).length = s.ext.controlDim := fun w hw => by simp [hw, hsl]
  have hff : ∀ w : List K, w.length = s.ext.controlDim → flip sg (flip sg w) = w := fun w hw => flip_flip hsg (by omega)
  have h : Corresponds f g s x f g s y (flip ta) (flip sg) (flip sg) :=
    { dim := rfl
      len := hlen
      len' := hlen
      inv := hff
      dist := fun v w hv _ => sqDist_flip hsg (by omega)
      bounds := fun w hw => ⟨fun h => by
          have := flip_within hsg hb (by rw [hlen w hw, hsl]) h
          rwa [hff w hw] at this,
        fun h => flip_within hsg hb (by rw [hw, hsl]) h⟩
      add := fun v w _ _ => flip_add _ _ _
      drift := hf
      input := hg
      constraints := List.forall₂_same.2 fun kc hkc => ⟨rfl, rfl, rfl, rfl, rfl, fun he => by rw [(hc kc hkc he).1], fun he v hv => by
        rw [(hc kc hkc he).2, dot_flip hta (by rw [hsh.grad kc hkc, htl])]⟩
      direct := List.forall₂_same.2 fun kc hkc => ⟨rfl, fun he w hw => by
        unfold DirectOK
        rw [(hd kc hkc he).1, (hd kc hkc he).2, dot_flip hsg (by rw [hsh.direct kc hkc, hsl])]⟩
      exc := rfl }
  obtain ⟨names, hact⟩ := hs.inv.1.act
  obtain ⟨fl, fh⟩ := boundFits_of_act hact
  exact C107_corresponding hspec hspec h hs hs hpos hen hen hsh hsh' dt dt' hu
    (clip_flip s.toBase hsg hb hcons (hu.trans hsl.symm) (by rw [hu]; exact fl) (by rw [hu]; exact fh))

end mirror

/-! ### Instances -/

/-- The toy constraint with the state measured in halves. -/
noncomputable def halfC : Constraint ℝ ℝ Unit :=
  { toyC none with computeFn := fun y _ => y / 2, phiFn := fun y _ => y / 2, gradFn := fun _ _ => [1 / 2] }

noncomputable def halfObj (exc : Bool) : ASIFObj ℝ ℝ Unit Unit := { toyObj none exc with constraints := [("c", halfC)] }

theorem half_init (exc : Bool) :
    asifInit (some (.scalar 2)) (some (.scalar (-2))) [("c", halfC)] none (1 / 10000) 1 exc [] () = .ok (halfObj exc) := rfl

theorem half_module (solver : Solver ℝ) (exc : Bool) : ExplicitModule solver toyF (fun _ => [[2]]) (halfObj exc) :=
  ⟨_, _, _, _, _, _, _, _, _, _, [], by simp [dictKeys], by simp [dictKeys], half_init exc, rfl⟩

/-- Twice the state, twice the rate: the same answers. -/
example {solver : Solver ℝ} (hspec : SolverSpec solver) (exc : Bool) (x dt u : ℝ) :
    (explicitASIF solver toyF (fun _ => [[2]]) (halfObj exc) (.array (2 * x)) dt [u]).1 =
      (explicitASIF solver toyF toyG (toyObj none exc) (.array x) dt [u]).1 := by
  refine C107_coordinates hspec hspec (toy_module solver none exc)
    (half_module solver exc) (toy_pos_none exc) rfl rfl
    (toy_shapes none exc x) ⟨by simp [halfObj, halfC, toyC], by simp [halfObj, halfC, toyF], rfl, by simp [halfObj, toyObj], by simp [halfObj, toyObj]⟩
    rfl rfl rfl rfl (J := List.map fun c => 2 * c) ?_ ?_ ?_ ?_ List.Forall₂.nil dt dt rfl
  · intro v w hv hw
    obtain ⟨a, rfl⟩ := List.length_eq_one_iff.1 (hv.trans rfl)
    obtain ⟨b, rfl⟩ := List.length_eq_one_iff.1 (hw.trans rfl)
    simp [vadd, mul_add]
  · simp [toyF]
  · intro w hw
    obtain ⟨a, rfl⟩ := List.length_eq_one_iff.1 (hw.trans rfl)
    simp [matVec, toyG]
  · refine List.Forall₂.cons ⟨rfl, rfl, rfl, rfl, rfl, fun _ => ?_, fun _ v hv => ?_⟩ List.Forall₂.nil
    · simp [halfC, toyC]
    · obtain ⟨a, rfl⟩ := List.length_eq_one_iff.1 (hv.trans rfl)
      simp [halfC, toyC]

example {solver : Solver ℝ} (hspec : SolverSpec solver) (exc : Bool) (x u : ℝ) :
    (explicitASIF refSolver toyF toyG (toyObj none exc) (.array x) 5 [u]).1 = (explicitASIF solver toyF toyG (toyObj none exc) (.array x) 1 [u]).1 :=
  C107_step_length hspec refSolver_spec (toy_module solver none exc) (toy_module refSolver none exc) (toy_pos_none exc) rfl
    (toy_shapes none exc x) 1 5 rfl

end RTA
