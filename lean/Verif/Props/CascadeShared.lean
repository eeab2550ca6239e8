import Verif.Lemmas.CascadeShared
import Verif.Props.Cascade
import Verif.Props.Idempotent

/-!
C99 for cascades: the same module named several times in one cascade.
-/
set_option linter.unusedSectionVars false
namespace RTA
variable {K M I : Type} [HasBase M K] [LinearOrder K]

/-- **C99, distinct modules.** A cascade that names every module at most once behaves like the cascade of `C41_success`: same
answer or exception, same intervening flag, and its modules are changed in the same way. -/
theorem C99_cascade_distinct (filter : M → I → K → List K → Except PyErr (List K) × M) (s : SharedCascade K M) (t : CascadeObj K M)
    (hb : s.toBase = t.toBase) (hn : s.order.Nodup) (hr : ∀ i ∈ s.order, i < s.store.length)
    (hms : s.order.map (s.store[·]?) = t.rtaList.map some) (inp : I) (dt : K) (u : List K) :
    (sharedFilter filter s inp dt u).1 = (cascadeFilter filter t inp dt u).1 ∧
    (sharedFilter filter s inp dt u).2.toBase = (cascadeFilter filter t inp dt u).2.toBase ∧
    s.order.map ((sharedFilter filter s inp dt u).2.store[·]?) = (cascadeFilter filter t inp dt u).2.rtaList.map some := by
  obtain ⟨b, st, od⟩ := s
  obtain ⟨b', ms⟩ := t
  simp only at hb hn hr hms
  subst hb
  obtain ⟨k1, k2, k3⟩ := sharedLoop_nodup (filter := filter) (inp := inp) (dt := dt) od hn st hr ms hms false u
  unfold sharedFilter cascadeFilter filterControl sharedCompute cascadeCompute
  simp only [modifyBase, HasBase.get, HasBase.set]
  by_cases hen : b.enable = true
  · simp only [hen, if_true]
    rw [k1, k2]
    rcases (cascadeLoop filter inp dt ms false u).1 with e | c
    · exact ⟨rfl, rfl, k3⟩
    · simp only
      split
      · exact ⟨rfl, rfl, k3⟩
      · exact ⟨rfl, rfl, k3⟩
  · rw [Bool.not_eq_true] at hen
    simp only [hen, Bool.false_eq_true, if_false]
    exact ⟨trivial, trivial, hms⟩

/-- **C99, repeated modules.** Let the modules of a cascade accept their own answers (as in `C99_explicit_partial`,
`C99_implicit`, `C99_discrete`). Then naming one of them twice in a row changes neither the answer (or exception) of a call nor
its intervening flag, wherever in the cascade it happens, if the module is not named again later. -/
theorem C99_cascade_repeat (filter : M → I → K → List K → Except PyErr (List K) × M) {Q : M → Prop} {L : List K → Prop} {inp : I} {dt : K}
    (hQ : ∀ m w c m', Q m → L w → filter m inp dt w = (.ok c, m') → Q m' ∧ L c ∧
      ∃ m'', filter m' inp dt c = (.ok c, m'') ∧ ((HasBase.get m'').intervening = true → (HasBase.get m').intervening = true))
    (s t : SharedCascade K M) (hb : t.toBase = s.toBase) (hst : t.store = s.store) (pre post : List Nat) (i : Nat) (hi : i ∉ post)
    (hs : s.order = pre ++ i :: post) (ht : t.order = pre ++ i :: i :: post) (hq : ∀ m ∈ s.store, Q m) (u : List K) (hu : L u) :
    (sharedFilter filter t inp dt u).1 = (sharedFilter filter s inp dt u).1 ∧
    (generateInfo (sharedFilter filter t inp dt u).2) = generateInfo (sharedFilter filter s inp dt u).2 := by
  obtain ⟨b, st, od⟩ := s
  obtain ⟨b', st', od'⟩ := t
  simp only at hb hst hs ht hq
  subst hb hst hs ht
  obtain ⟨k1, k2⟩ := sharedLoop_repeat hQ pre post i hi st' false u hq hu
  unfold sharedFilter filterControl sharedCompute
  simp only [modifyBase, HasBase.get, HasBase.set, generateInfo]
  by_cases hen : b'.enable = true
  · simp only [hen, if_true]
    rw [k1, k2]
    rcases (sharedLoop filter inp dt (pre ++ i :: post) st' false u).1 with e | c
    · exact ⟨rfl, rfl⟩
    · simp only
      split
      · exact ⟨rfl, rfl⟩
      · exact ⟨rfl, rfl⟩
  · rw [Bool.not_eq_true] at hen
    simp only [hen, Bool.false_eq_true, if_false]
    exact ⟨trivial, trivial⟩

/-- **C99, cascades of explicit modules.** For cascades of explicit modules without slack variables that raise when their program has no
solution: naming a module twice in a row changes neither answers nor intervening flags. -/
theorem C99_cascade_explicit {K S P X : Type} [Field K] [LinearOrder K] [IsStrictOrderedRing K] [HasSqrt K] [LawfulSqrt K]
    {solver : Solver K} (hspec : SolverSpec solver) {f : S → List K} {g : S → List (List K)}
    (s t : SharedCascade K (ASIFObj K S P X)) (hb : t.toBase = s.toBase) (hst : t.store = s.store) (pre post : List Nat) (i : Nat)
    (hi : i ∉ post) (hs : s.order = pre ++ i :: post) (ht : t.order = pre ++ i :: i :: post) (x : S) (dt : K) (n : Nat)
    (hq : ∀ m ∈ s.store, ExplicitModule solver f g m ∧ slackScales m.constraints = [] ∧ m.enable = true ∧ ShapesOK f g m x ∧
      m.ext.solverException = true ∧ 0 ≤ m.ext.epsilon ∧ m.ext.controlDim = n) (u : List K) (hu : u.length = n) :
    (sharedFilter (explicitASIF solver f g) t (.array x) dt u).1 = (sharedFilter (explicitASIF solver f g) s (.array x) dt u).1 ∧
    generateInfo (sharedFilter (explicitASIF solver f g) t (.array x) dt u).2 =
      generateInfo (sharedFilter (explicitASIF solver f g) s (.array x) dt u).2 := by
  refine C99_cascade_repeat (explicitASIF solver f g) (Q := fun m => ExplicitModule solver f g m ∧ slackScales m.constraints = [] ∧
    m.enable = true ∧ ShapesOK f g m x ∧ m.ext.solverException = true ∧ 0 ≤ m.ext.epsilon ∧ m.ext.controlDim = n)
    (L := fun w => w.length = n) ?_ s t hb hst pre post i hi hs ht hq u hu
  rintro m w c m' ⟨h1, h2, h3, h4, h5, h6, h7⟩ hw hcall
  have hk := explicit_after_call solver f g (directWF_of_inv h1.inv.1) (.array x) dt w
  have h1' := h1.call (.array x) dt w
  rw [hcall] at hk h1'
  simp only at hk h1'
  have h4' : ShapesOK f g m' x :=
    ⟨by rw [hk.constraints]; exact h4.alpha, by rw [hk.constraints]; exact h4.grad, h4.input,
      by rw [hk.controlDim]; exact h4.cols, by rw [hk.direct, hk.controlDim]; exact h4.direct⟩
  have hpos : ScalesPos m.constraints := by intro w hw; rw [h2] at hw; simp at hw
  have hpos' : ScalesPos m'.constraints := by rw [hk.constraints]; exact hpos
  have hadm : ∃ w d, AdmissibleS f g m x w d := by
    by_contra hno
    have := (explicit_total hspec h1.inv.1 h1.inv.2 hpos h4 dt (hw.trans h7.symm) h3).2 hno
    rw [hcall, h5, if_pos rfl] at this
    simp at this
  obtain ⟨w0, d0, h0⟩ := hadm
  obtain ⟨rfl, ha0⟩ := (admissibleS_noslack h2).1 h0
  obtain ⟨hc, -⟩ := C24_closest_admissible hspec h1 h2 h3 x dt w c hcall ⟨w0, ha0⟩
  have hc' : Admissible f g m' x c :=
    ⟨by rw [hk.controlDim]; exact hc.len, by rw [hk.low, hk.high]; exact hc.bounds, by rw [hk.constraints]; exact hc.barrier,
      by rw [hk.direct]; exact hc.direct⟩
  obtain ⟨r1, r2⟩ := C25_no_interference hspec h1' hpos' (by rw [hk.epsilon]; exact h6) (hk.enable.trans h3) x h4' dt c hc'
  refine ⟨⟨h1', by rw [hk.constraints]; exact h2, hk.enable.trans h3, h4', hk.exc.trans h5, by rw [hk.epsilon]; exact h6,
    hk.controlDim.trans h7⟩, hc.len.trans h7, _, Prod.ext r1 rfl, ?_⟩
  intro hint
  exact absurd hint (by simp only [HasBase.get]; rw [r2]; simp)

/-- Two toy modules, the first named twice. -/
example (solver : Solver ℝ) (hspec : SolverSpec solver) (x dt u : ℝ) :
    (sharedFilter (explicitASIF solver toyF toyG) (sharedInit none none [toyObj none true, toyObj none true] [0, 0, 1]) (.array x) dt [u]).1 =
    (sharedFilter (explicitASIF solver toyF toyG) (sharedInit none none [toyObj none true, toyObj none true] [0, 1]) (.array x) dt [u]).1 := by
  refine (C99_cascade_explicit hspec (sharedInit none none [toyObj none true, toyObj none true] [0, 1])
    (sharedInit none none [toyObj none true, toyObj none true] [0, 0, 1]) rfl rfl [] [1] 0 (by decide) rfl rfl x dt 1 ?_ [u] rfl).1
  intro m hm
  have : m = toyObj none true := by simpa [sharedInit] using hm
  subst this
  exact ⟨toy_module solver none true, by simp [toyObj, slackScales, toyC], rfl, toy_shapes none true x, rfl, by simp [toyObj], rfl⟩

/-! ### Simplex modules count their latch time once per mention -/

/-- `toySimplex` with a latch time of 2. -/
def latchSimplex : SimplexObj Int Int Int Unit :=
  let t := toySimplex (-9) 9
  { t with ext := { t.ext with latchTime := 2 } }

/-- Three calls of a cascade of `latchSimplex`, step size 1: at 0 with request 2, at 10 with request 4, at 10 with request 4. -/
def threeCalls (order : List Nat) : Except PyErr (List Int) × Except PyErr (List Int) × Except PyErr (List Int) :=
  let r1 := sharedFilter (explicitSimplex toyPred) (sharedInit none none [latchSimplex] order) (.array 0) 1 [2]
  let r2 := sharedFilter (explicitSimplex toyPred) r1.2 (.array 10) 1 [4]
  let r3 := sharedFilter (explicitSimplex toyPred) r2.2 (.array 10) 1 [4]
  (r1.1, r2.1, r3.1)

/-- **C99 is violated over several calls by latched simplex modules**: named once, the module stays with its backup controller for
its latch time of 2 after the intervention; named twice it counts every step twice, is released early, and the third answers
differ. Every single call satisfies the hypotheses of `C99_simplex_partial`. -/
theorem C99_refuted_latch : threeCalls [0] = (.ok [0], .ok [0], .ok [0]) ∧ threeCalls [0, 0] = (.ok [0], .ok [0], .ok [4]) :=
  ⟨rfl, rfl⟩

end RTA
