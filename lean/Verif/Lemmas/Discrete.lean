import Verif.Spec.Discrete
import Verif.Lemmas.ASIF
import Verif.Lemmas.ASIFCost
import Verif.Lemmas.QP

set_option linter.unusedSectionVars false
namespace RTA
variable {K S P : Type}

theorem discInv_init [One K] [HasSqrt K] {high low : Option (Bound K)} {all : Dict (Constraint K S P)}
    {use : Option (List String)} {eps : K} {n : Nat} {se : Bool} {s : DiscObj K S P} (hall : (dictKeys all).Nodup)
    (h : discInit high low all use eps n se = .ok s) : DiscInv s := by
  unfold discInit at h
  rcases hi : CBObj.init high low all use
      ({ epsilon := eps, controlDim := n, solverException := se, numSlack := 0, objWeight := [], optLow := low
         optHigh := high } : DiscExt K) with e | s0
  · simp [hi] at h
  · simp only [hi, Except.ok.injEq] at h
    have hw := wf_init hall hi
    have hn : s0.ext.controlDim = n ∧ s0.ext.optLow = s0.controlBoundsLow ∧ s0.ext.optHigh = s0.controlBoundsHigh := by
      unfold CBObj.init at hi
      split at hi
      · simp at hi
      · simp only [Except.ok.injEq] at hi; subst hi; exact ⟨rfl, rfl, rfl⟩
    subst h
    exact ⟨⟨hw.nodup, hw.params, hw.enabled⟩, slackWeights_length _, by simp [CBObj.setExt, hn.1], hn.2.1, hn.2.2⟩

section field
variable [Field K] [LinearOrder K] [IsStrictOrderedRing K]

/-- The condition of one constraint as the solver sees it. -/
theorem cbf_iff {c : Constraint K S P} {al : K → K} {next : S → K → List K → S} {n : Nat} {idx : Option Nat} {x : S} {dt : K}
    (hdt : 0 < dt) {u d : List K} (hu : u.length = n) :
    0 ≤ cbfFn c al next n idx x dt c.params (u ++ d) ↔
      hval c x - dt * al (hval c x) + dt * (match idx with | none => 0 | some i => d.getD i 0) ≤ hval c (next x dt u) := by
  have et : (u ++ d).take n = u := by rw [← hu]; simp
  have key : ∀ (a b e q : K), 0 ≤ (a - b) / dt + e - q ↔ b - dt * e + dt * q ≤ a := by
    intro a b e q
    rw [← mul_nonneg_iff_of_pos_left hdt]
    have : dt * ((a - b) / dt + e - q) = a - b + dt * e - dt * q := by field_simp
    rw [this]
    constructor <;> intro h <;> linarith
  unfold cbfFn
  rw [et]
  cases idx with
  | none =>
    have := key (hval c (next x dt u)) (hval c x) (al (hval c x)) 0
    simpa [hval, Constraint.compute] using this
  | some i =>
    have eg : (u ++ d).getD (n + i) 0 = d.getD i 0 := by
      simp only [List.getD_eq_getElem?_getD]
      rw [List.getElem?_append_right (by omega)]
      congr 2; omega
    simp only [eg]
    have := key (hval c (next x dt u)) (hval c x) (al (hval c x)) (d.getD i 0)
    simpa [hval, Constraint.compute] using this

theorem enabledCbfs_spec {next : S → K → List K → S} {n : Nat} {x : S} {dt : K} (hdt : 0 < dt)
    (cs : Dict (Constraint K S P)) (sc : Nat) {fs : List (List K → K)}
    (h : enabledCbfs next n x dt sc (cs.map (·.2)) (cs.map (·.2.params)) (cs.map (·.2.enabled)) = .ok fs) {u d : List K}
    (hu : u.length = n) :
    (∀ f ∈ fs, 0 ≤ f (u ++ d)) ↔
      ∀ cd ∈ assignSlack cs (d.drop sc), cd.1.enabled = true → DiscreteOK next cd.1 x dt u cd.2 := by
  induction cs generalizing sc fs with
  | nil =>
    simp only [List.map_nil, enabledCbfs, Except.ok.injEq] at h
    subst h
    simp [assignSlack]
  | cons kc cs ih =>
    obtain ⟨q, c⟩ := kc
    simp only [List.map_cons, enabledCbfs] at h
    rcases hr : enabledCbfs next n x dt (if c.slackPriorityScale.isSome then sc + 1 else sc) (cs.map (·.2))
        (cs.map (·.2.params)) (cs.map (·.2.enabled)) with e | gs
    · simp [hr] at h
    · rw [hr] at h
      simp only at h
      have ih' := ih _ hr
      have ea : assignSlack ((q, c) :: cs) (d.drop sc) =
          (c, if c.slackPriorityScale.isSome then d.getD sc 0 else 0) ::
            assignSlack cs (d.drop (if c.slackPriorityScale.isSome then sc + 1 else sc)) := by
        rcases hs : c.slackPriorityScale with _ | w
        · simp [assignSlack, hs]
        · simp [assignSlack, hs, List.head?_drop, List.tail_drop]
      rw [ea]
      simp only [List.mem_cons, forall_eq_or_imp]
      rw [← ih']
      cases hen : c.enabled with
      | false =>
        simp only [hen, Bool.false_eq_true, if_false, Except.ok.injEq] at h
        subst h
        simp
      | true =>
        rcases ha : c.alpha with _ | al
        · simp [hen, ha] at h
        · simp only [hen, ha, if_true, Except.ok.injEq] at h
          subst h
          simp only [List.mem_cons, forall_eq_or_imp, forall_const]
          rw [cbf_iff hdt hu]
          apply and_congr_left'
          simp only [DiscreteOK, ha, Option.some.injEq, exists_eq_left']
          rcases hs : c.slackPriorityScale with _ | w <;> simp

/-- Evaluating the constraints raises only when an enabled one has no strengthener. -/
theorem enabledCbfs_total {next : S → K → List K → S} {n : Nat} {x : S} {dt : K} (cs : Dict (Constraint K S P)) (sc : Nat)
    (ha : ∀ kc ∈ cs, kc.2.enabled = true → kc.2.alpha.isSome = true) :
    ∃ fs, enabledCbfs next n x dt sc (cs.map (·.2)) (cs.map (·.2.params)) (cs.map (·.2.enabled)) = .ok fs := by
  induction cs generalizing sc with
  | nil => exact ⟨[], rfl⟩
  | cons kc cs ih =>
    obtain ⟨q, c⟩ := kc
    obtain ⟨gs, hg⟩ := ih (if c.slackPriorityScale.isSome then sc + 1 else sc) (fun kc h => ha kc (by simp [h]))
    simp only [List.map_cons, enabledCbfs, hg]
    have := ha (q, c) (by simp)
    simp only at this
    cases hen : c.enabled with
    | false => simp
    | true =>
      obtain ⟨al, hal⟩ := Option.isSome_iff_exists.1 (this hen)
      simp [hal]

/-- The bounds SciPy receives say the same as the bounds of the module. -/
theorem bounds_spec {lo hi : Option (Bound K)} {l h : Option K} (hl : scalarBound lo = .ok l) (hh : scalarBound hi = .ok h)
    {n k : Nat} {u d : List K} (hu : u.length = n) :
    ((∀ (i : Nat) a b, (List.replicate n (l, h) ++ List.replicate k (none, none))[i]? = some (some a, b) →
        ∀ v, (u ++ d)[i]? = some v → a ≤ v) ∧
      (∀ (i : Nat) a b, (List.replicate n (l, h) ++ List.replicate k (none, none))[i]? = some (a, some b) →
        ∀ v, (u ++ d)[i]? = some v → v ≤ b)) ↔ Within lo hi u := by
  have bl : ∀ (b : Option (Bound K)) r, scalarBound b = .ok r → ∀ i, boundAt b i = r := by
    intro b r hb i
    rcases b with _ | ⟨b⟩ | ⟨j, l⟩
    · simpa [scalarBound, boundAt] using hb
    · simpa [scalarBound, boundAt] using hb
    · rcases l with _ | ⟨a, _ | ⟨a', l⟩⟩ <;> simp [scalarBound, boundAt] at hb ⊢
      exact hb
  have el : ∀ i, i < n → (List.replicate n (l, h) ++ List.replicate k (none, none))[i]? = some (l, h) := by
    intro i hi
    rw [List.getElem?_append_left (by simpa using hi)]
    simp [hi]
  have er : ∀ i p, n ≤ i → (List.replicate n (l, h) ++ List.replicate k (none, none))[i]? = some p →
      p = ((none, none) : Option K × Option K) := by
    intro i p hi hp
    rw [List.getElem?_append_right (by simpa using hi)] at hp
    have := List.mem_of_getElem? hp
    exact (List.mem_replicate.1 this).2
  constructor
  · intro hw i v hv
    have hi : i < n := by rw [← hu]; exact (List.getElem?_eq_some_iff.1 hv).1
    have hv' : (u ++ d)[i]? = some v := by rw [List.getElem?_append_left (by omega)]; exact hv
    refine ⟨fun b hb => ?_, fun b hb => ?_⟩
    · rw [bl lo l hl] at hb
      exact hw.1 i b h (by rw [el i hi, hb]) v hv'
    · rw [bl _ h hh] at hb
      exact hw.2 i l b (by rw [el i hi, hb]) v hv'
  · intro hw
    have get : ∀ i v, i < n → (u ++ d)[i]? = some v → u[i]? = some v := by
      intro i v hi hv
      rwa [List.getElem?_append_left (by omega)] at hv
    constructor
    · intro i a b hb v hv
      by_cases hi : i < n
      · rw [el i hi] at hb
        simp only [Option.some.injEq, Prod.mk.injEq] at hb
        exact (hw i v (get i v hi hv)).1 a (by rw [bl lo l hl]; exact hb.1)
      · have := er i _ (by omega) hb; simp at this
    · intro i a b hb v hv
      by_cases hi : i < n
      · rw [el i hi] at hb
        simp only [Option.some.injEq, Prod.mk.injEq] at hb
        exact (hw i v (get i v hi hv)).2 b (by rw [bl _ h hh]; exact hb.2)
      · have := er i _ (by omega) hb; simp at this

/-- The objective is half the weighted squared distance up to a constant. -/
theorem discObj_eq [HasSqrt K] [LawfulSqrt K] {u v d ws : List K} (hv : v.length = u.length)
    (hws : ∀ w ∈ ws, 0 ≤ w) (hd : d.length = ws.length) :
    discObj (List.replicate u.length 1 ++ ws.map HasSqrt.sqrt) (u ++ zeros ws.length) (v ++ d) =
      slackCost ws u v d / 2 - sqNorm u / 2 := by
  have e1 : List.zipWith (· * ·) (List.replicate u.length (1 : K) ++ ws.map HasSqrt.sqrt)
      (List.replicate u.length 1 ++ ws.map HasSqrt.sqrt) = List.replicate u.length 1 ++ ws := by
    rw [List.zipWith_append (by simp)]
    congr 1
    · simp
    · clear hd
      induction ws with
      | nil => rfl
      | cons w ws ih =>
        simp only [List.map_cons, List.zipWith_cons_cons]
        rw [LawfulSqrt.mul_self w (hws w (by simp)), ih fun w hw => hws w (by simp [hw])]
  have e2 : List.zipWith (· * ·) (List.replicate u.length (1 : K) ++ ws.map HasSqrt.sqrt) (u ++ zeros ws.length) =
      u ++ zeros ws.length := by
    rw [List.zipWith_append (by simp)]
    congr 1
    · clear hv e1
      induction u with
      | nil => rfl
      | cons a u ih => simp only [List.length_cons, List.replicate_succ, List.zipWith_cons_cons, ih, one_mul]
    · clear hd hws e1
      induction ws with
      | nil => rfl
      | cons w ws ih => simp_all [zeros, List.replicate_succ]
  have e3 : List.zipWith (· * ·) (List.replicate u.length (1 : K) ++ ws) (v ++ d) =
      v ++ List.zipWith (· * ·) ws d := by
    rw [List.zipWith_append (by simp [hv])]
    congr 1
    clear e1 e2
    induction v generalizing u with
    | nil => simp
    | cons a v ih =>
      rcases u with _ | ⟨b, u⟩
      · simp at hv
      · simp only [List.length_cons, List.replicate_succ, List.zipWith_cons_cons, one_mul]
        rw [ih (by simpa using hv)]
  unfold discObj
  rw [e1, e2, e3, dot_neg_left, dot_append (by rfl), dot_append (by rw [hv]), dot_zeros_left]
  have e4 : dot (List.zipWith (· * ·) ws d) d = dot ws (List.zipWith (· * ·) d d) := by
    clear e1 e2 e3 hws
    induction ws generalizing d with
    | nil => simp
    | cons w ws ih =>
      rcases d with _ | ⟨a, d⟩
      · simp
      · simp only [List.zipWith_cons_cons, dot_cons]
        rw [ih (by simpa using hd)]
        ring
  rw [e4]
  unfold slackCost
  rw [sqDist_expand hv]
  unfold sqNorm
  ring

/-- Clipping only looks at the bounds. -/
theorem clip_eta (b : Base K) (e i : Bool) (d a : Option (List K)) (w : List K) :
    Base.clipControl { controlBoundsHigh := b.controlBoundsHigh, controlBoundsLow := b.controlBoundsLow, enable := e
                       intervening := i, controlDesired := d, controlActual := a } w = b.clipControl w := rfl

/-- Everything a returning call of an enabled discrete module did. -/
theorem disc_ok [HasSqrt K] {solver : NLPSolver K} {next : S → K → List K → S} {s s' : DiscObj K S P} {x : S} {dt : K}
    {u v : List K} (hinv : DiscInv s) (hen : s.enable = true)
    (h : discreteASIF solver next s (.array x) dt u = (.ok v, s')) :
    ∃ lo hi fs res, scalarBound s.controlBoundsLow = .ok lo ∧ scalarBound s.controlBoundsHigh = .ok hi ∧
      u.length = s.ext.controlDim ∧
      enabledCbfs next s.ext.controlDim x dt 0 (s.constraints.map (·.2)) (s.constraints.map (·.2.params))
        (s.constraints.map (·.2.enabled)) = .ok fs ∧
      res = solver (discObj s.ext.objWeight (u ++ zeros s.ext.numSlack)) (u ++ zeros s.ext.numSlack) fs
        (List.replicate s.ext.controlDim (lo, hi) ++ List.replicate s.ext.numSlack (none, none)) ∧
      (res.success = true ∨ s.ext.solverException = false) ∧
      s.toBase.clipControl (res.x.take s.ext.controlDim) = .ok v ∧
      s' = { prep s x u with
              toBase := { s.toBase with
                controlDesired := some u, controlActual := some v
                intervening := asifMonitor s.ext.epsilon ((u ++ zeros s.ext.numSlack).take s.ext.controlDim)
                  (res.x.take s.ext.controlDim) } } := by
  unfold discreteASIF at h
  rw [call_eq _ hen] at h
  unfold discFilter at h
  have e1 : (prep s x u).controlBoundsLow = s.controlBoundsLow := rfl
  have e2 : (prep s x u).controlBoundsHigh = s.controlBoundsHigh := rfl
  have e3 : (prep s x u).ext = s.ext := rfl
  have e4 : (prep s x u).constraints = s.constraints := rfl
  have ep : (prep s x u).params.map (·.2) = s.constraints.map (·.2.params) := by
    have : (prep s x u).params = cacheParams s.constraints := by
      have := congrArg CBObj.params (updateParams_eq (wf_withDesired hinv.wf u)); exact this
    rw [this]; simp [cacheParams]
  have ee : (prep s x u).constraintEnabled.map (·.2) = s.constraints.map (·.2.enabled) := by
    have : (prep s x u).constraintEnabled = cacheEnabled s.constraints := by
      have := congrArg CBObj.constraintEnabled (updateParams_eq (wf_withDesired hinv.wf u)); exact this
    rw [this]; simp [cacheEnabled]
  simp only [e1, e2, e3, e4, ep, ee, hinv.low, hinv.high] at h
  rcases hlo : scalarBound s.controlBoundsLow with e | lo
  · simp [hlo] at h
  rcases hhi : scalarBound s.controlBoundsHigh with e | hi
  · simp [hlo, hhi] at h
  simp only [hlo, hhi] at h
  by_cases hlen : u.length = s.ext.controlDim
  · have hl' : ¬ (u ++ zeros s.ext.numSlack : List K).length ≠ s.ext.controlDim + s.ext.numSlack := by simp [hlen]
    rw [if_neg hl'] at h
    rcases hfs : enabledCbfs next s.ext.controlDim x dt 0 (s.constraints.map (·.2)) (s.constraints.map (·.2.params))
        (s.constraints.map (·.2.enabled)) with e | fs
    · simp [hfs] at h
    · simp only [hfs] at h
      obtain ⟨res, hres⟩ : ∃ r, r = solver (discObj s.ext.objWeight (u ++ zeros s.ext.numSlack)) (u ++ zeros s.ext.numSlack)
        fs (List.replicate s.ext.controlDim (lo, hi) ++ List.replicate s.ext.numSlack (none, none)) := ⟨_, rfl⟩
      rw [← hres] at h
      refine ⟨lo, hi, fs, res, rfl, rfl, hlen, hfs, hres, ?_⟩
      by_cases hq : ¬ res.success = true ∧ s.ext.solverException = true
      · rw [if_pos hq] at h
        simp at h
      · rw [if_neg hq] at h
        simp only at h
        rw [clip_eta s.toBase] at h
        rcases hc : s.toBase.clipControl (res.x.take s.ext.controlDim) with e | w
        · rw [hc] at h; simp at h
        · rw [hc] at h
          simp only [Prod.mk.injEq, Except.ok.injEq] at h
          obtain ⟨rfl, rfl⟩ := h
          refine ⟨?_, rfl, rfl⟩
          by_contra hcon
          rw [not_or] at hcon
          exact hq ⟨by simpa using hcon.1, by simpa using hcon.2⟩
  · have hl' : (u ++ zeros s.ext.numSlack : List K).length ≠ s.ext.controlDim + s.ext.numSlack := by simp [hlen]
    rw [if_pos hl'] at h
    simp at h

end field

end RTA
