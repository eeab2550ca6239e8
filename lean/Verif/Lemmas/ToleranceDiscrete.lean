import Verif.Spec.ToleranceMore
import Verif.Lemmas.Discrete
import Verif.Lemmas.Tolerance

/-!
Helper lemmas for C102: discrete modules with solvers that have tolerances.
-/
set_option linter.unusedSectionVars false
namespace RTA
variable {K S P : Type} [Field K] [LinearOrder K] [IsStrictOrderedRing K]

theorem cbf_by {c : Constraint K S P} {al : K → K} {next : S → K → List K → S} {n : Nat} {idx : Option Nat} {x : S} {dt ε : K}
    (hdt : 0 < dt) {u d : List K} (hu : u.length = n) :
    -ε ≤ cbfFn c al next n idx x dt c.params (u ++ d) ↔
      hval c x - dt * al (hval c x) + dt * ((match idx with | none => 0 | some i => d.getD i 0) - ε) ≤ hval c (next x dt u) := by
  have h := cbf_iff (c := c) (al := fun y => al y + ε) (next := next) (idx := idx) (x := x) hdt (d := d) hu
  have e : cbfFn c (fun y => al y + ε) next n idx x dt c.params (u ++ d) = cbfFn c al next n idx x dt c.params (u ++ d) + ε := by
    unfold cbfFn
    cases idx <;> simp only <;> ring
  rw [e] at h
  rw [neg_le_iff_add_nonneg, h]
  cases idx <;> simp only <;> constructor <;> intro h1 <;> linarith

/-- The functions handed to the solver, up to `ε`, mean the conditions with slack lowered by `ε`. -/
theorem enabledCbfs_by {next : S → K → List K → S} {n : Nat} {x : S} {dt ε : K} (hdt : 0 < dt)
    (cs : Dict (Constraint K S P)) (sc : Nat) {fs : List (List K → K)}
    (h : enabledCbfs next n x dt sc (cs.map (·.2)) (cs.map (·.2.params)) (cs.map (·.2.enabled)) = .ok fs) {u d : List K}
    (hu : u.length = n) :
    (∀ f ∈ fs, -ε ≤ f (u ++ d)) ↔
      ∀ cd ∈ assignSlack cs (d.drop sc), cd.1.enabled = true → DiscreteOK next cd.1 x dt u (cd.2 - ε) := by
  induction cs generalizing sc fs with
  | nil =>
    simp only [List.map_nil, enabledCbfs, Except.ok.injEq] at h
    subst h
    simp [assignSlack]
  | cons kc cs ih =>
    obtain ⟨q, c⟩ := kc
    simp only [List.map_cons, enabledCbfs] at h
    rcases hr : enabledCbfs next n x dt (if c.slackPriorityScale.isSome then sc + 1 else sc) (cs.map (·.2))
        (cs.map (·.2.params)) (cs.map (·.2.enabled)) with e | gs
    · simp [hr] at h
    · rw [hr] at h
      simp only at h
      have ih' := ih _ hr
      have ea : assignSlack ((q, c) :: cs) (d.drop sc) =
          (c, if c.slackPriorityScale.isSome then d.getD sc 0 else 0) ::
            assignSlack cs (d.drop (if c.slackPriorityScale.isSome then sc + 1 else sc)) := by
        rcases hs : c.slackPriorityScale with _ | w
        · simp [assignSlack, hs]
        · simp [assignSlack, hs, List.head?_drop, List.tail_drop]
      rw [ea]
      simp only [List.mem_cons, forall_eq_or_imp]
      rw [← ih']
      cases hen : c.enabled with
      | false =>
        simp only [hen, Bool.false_eq_true, if_false, Except.ok.injEq] at h
        subst h
        simp
      | true =>
        rcases ha : c.alpha with _ | al
        · simp [hen, ha] at h
        · simp only [hen, ha, if_true, Except.ok.injEq] at h
          subst h
          simp only [List.mem_cons, forall_eq_or_imp, forall_const]
          rw [cbf_by hdt hu]
          apply and_congr_left'
          simp only [DiscreteOK, ha, Option.some.injEq, exists_eq_left']
          rcases hs : c.slackPriorityScale with _ | w <;> simp

theorem boundAt_scalar (b : Option (Bound K)) (r : Option K) (hb : scalarBound b = .ok r) (i : Nat) : boundAt b i = r := by
  rcases b with _ | ⟨b⟩ | ⟨j, l⟩
  · simpa [scalarBound, boundAt] using hb
  · simpa [scalarBound, boundAt] using hb
  · rcases l with _ | ⟨a, _ | ⟨a', l⟩⟩ <;> simp [scalarBound, boundAt] at hb ⊢
    exact hb

theorem fits_of_scalar (b : Option (Bound K)) (r : Option K) (n : Nat) (hb : scalarBound b = .ok r) : BoundFits n b := by
  rcases b with _ | ⟨b⟩ | ⟨j, l⟩
  · trivial
  · trivial
  · rcases l with _ | ⟨a, _ | ⟨a', l⟩⟩ <;> simp [scalarBound, BoundFits] at hb ⊢

/-- What a successful solve with tolerances guarantees: the solver's control `w` and slack `d` meet everything up to the
tolerances, and the returned control is `w` clipped. -/
theorem disc_tol [HasSqrt K] {ε η : K} {solver : NLPSolver K} (htol : NLPTol ε η solver) {next : S → K → List K → S}
    {s s' : DiscObj K S P} {x : S} {dt : K} {u v : List K} (hinv : DiscInv s) (hen : s.enable = true) (hdt : 0 < dt)
    (h : discreteASIF solver next s (.array x) dt u = (.ok v, s')) (hexc : s.ext.solverException = true) :
    ∃ w d lo hi fs, w.length = s.ext.controlDim ∧ d.length = (slackScales s.constraints).length ∧
      WithinBy η s.controlBoundsLow s.controlBoundsHigh w ∧
      (∀ cd ∈ assignSlack s.constraints d, cd.1.enabled = true → DiscreteOK next cd.1 x dt w (cd.2 - ε)) ∧
      s.toBase.clipControl w = .ok v ∧ scalarBound s.controlBoundsLow = .ok lo ∧
      scalarBound s.controlBoundsHigh = .ok hi ∧ u.length = s.ext.controlDim ∧
      s'.intervening = asifMonitor s.ext.epsilon u w ∧
      enabledCbfs next s.ext.controlDim x dt 0 (s.constraints.map (·.2)) (s.constraints.map (·.2.params))
        (s.constraints.map (·.2.enabled)) = .ok fs ∧
      (solver (discObj s.ext.objWeight (u ++ zeros s.ext.numSlack)) (u ++ zeros s.ext.numSlack) fs
        (List.replicate s.ext.controlDim (lo, hi) ++ List.replicate s.ext.numSlack (none, none))).success = true ∧
      (solver (discObj s.ext.objWeight (u ++ zeros s.ext.numSlack)) (u ++ zeros s.ext.numSlack) fs
        (List.replicate s.ext.controlDim (lo, hi) ++ List.replicate s.ext.numSlack (none, none))).x = w ++ d := by
  obtain ⟨lo, hi, fs, res, hlo, hhi, hu, hfs, hres, hsucc, hclip, hs'⟩ := disc_ok hinv hen h
  have hs : res.success = true := by
    rcases hsucc with h | h
    · exact h
    · rw [hexc] at h; simp at h
  have hx0 : (u ++ zeros s.ext.numSlack).length =
      (List.replicate s.ext.controlDim (lo, hi) ++
        List.replicate s.ext.numSlack ((none, none) : Option K × Option K)).length := by simp [hu]
  obtain ⟨hl, hlow, hhigh, hineq⟩ := htol _ _ fs _ hx0 (by rw [← hres]; exact hs)
  rw [← hres] at hl hlow hhigh hineq
  have hlen : res.x.length = s.ext.controlDim + s.ext.numSlack := by rw [hl]; simp
  have htl : (res.x.take s.ext.controlDim).length = s.ext.controlDim := by rw [List.length_take, hlen]; omega
  have hz : res.x.take s.ext.controlDim ++ res.x.drop s.ext.controlDim = res.x := List.take_append_drop _ _
  refine ⟨res.x.take s.ext.controlDim, res.x.drop s.ext.controlDim, lo, hi, fs, htl,
    by rw [List.length_drop, hlen, hinv.slack]; omega, ?_, ?_, hclip, hlo, hhi, hu, ?_, hfs, by rw [← hres]; exact hs,
    by rw [← hres, hz]⟩
  · intro i a ha
    have hi' : i < s.ext.controlDim := by rw [← htl]; exact (List.getElem?_eq_some_iff.1 ha).1
    have ha' : res.x[i]? = some a := by rw [← hz, List.getElem?_append_left (by omega)]; exact ha
    have el : (List.replicate s.ext.controlDim (lo, hi) ++
        List.replicate s.ext.numSlack ((none, none) : Option K × Option K))[i]? = some (lo, hi) := by
      rw [List.getElem?_append_left (by simpa using hi')]
      simp [hi']
    refine ⟨fun b hb => ?_, fun b hb => ?_⟩
    · rw [boundAt_scalar _ _ hlo] at hb
      exact hlow i b hi (by rw [el, hb]) a ha'
    · rw [boundAt_scalar _ _ hhi] at hb
      exact hhigh i lo b (by rw [el, hb]) a ha'
  · have := (enabledCbfs_by hdt s.constraints 0 hfs (d := res.x.drop s.ext.controlDim) htl).1 (by rw [hz]; exact hineq)
    simpa using this
  · rw [hs']
    have : (u ++ zeros s.ext.numSlack).take s.ext.controlDim = u := by rw [← hu]; simp
    simp only [this]

end RTA
