import Verif.Lemmas.ChangedSet
import Verif.Lemmas.JitFrozen
import Verif.Props.ASIF
import Verif.Props.Simplex
import Verif.Props.Jit

/-!
C116: constraints added to, removed from or replaced in a module in use. Modules without compiled methods
(`jit_enable=False`) unless stated otherwise.
-/
set_option linter.unusedSectionVars false
namespace RTA
variable {K S P X A Sig : Type}

section
variable [Field K] [LinearOrder K] [IsStrictOrderedRing K] [HasSqrt K] [LawfulSqrt K]

/-- **C116**. After any use of an explicit ASIF module in which constraints were added, removed and replaced, a control
that is returned when admissible ones exist is the best admissible one for the constraints of the moment. -/
theorem C116_closest {solver : Solver K} (hspec : SolverSpec solver) {f : S → List K} {g : S → List (List K)}
    {m s s' : ASIFObj K S P X} (hm : ExplicitModule solver f g m) (hs : ChangedUse solver f g m s)
    (hpos : ScalesPos s.constraints) (hen : s.enable = true) (x : S) (dt : K) (u v : List K)
    (hcall : explicitASIF solver f g s (.array x) dt u = (.ok v, s')) (hadm : ∃ w d, AdmissibleS f g s x w d) :
    ∃ d, AdmissibleS f g s x v d ∧ ∀ w e, AdmissibleS f g s x w e → v ++ d ≠ w ++ e →
      slackCost ((slackScales s.constraints).map HasSqrt.sqrt) u v d < slackCost ((slackScales s.constraints).map HasSqrt.sqrt) u w e := by
  obtain ⟨hl, -⟩ := hs.loose hm.inv.1
  obtain ⟨nm, hn⟩ := hl.names
  have ht : (explicitASIF solver f g (tidy nm s) (.array x) dt u).1 = .ok v := by
    rcases loose_call hspec f g hl hpos hen hn x dt u with h | ⟨-, h, -⟩
    · rw [← h, hcall]
    · rw [hcall] at h; cases h
  have conv : ∀ w d, AdmissibleS f g s x w d ↔ AdmissibleS f g (tidy nm s) x w d := fun w d =>
    ⟨fun a => ⟨a.len, a.slen, a.bounds, a.barrier, a.direct⟩, fun a => ⟨a.len, a.slen, a.bounds, a.barrier, a.direct⟩⟩
  obtain ⟨w0, d0, hw0⟩ := hadm
  obtain ⟨-, d, l, had, hmin, -⟩ := explicit_solved hspec (hl.inv nm) hn hpos hen (Prod.ext ht rfl) ⟨w0, d0, (conv _ _).1 hw0⟩
  exact ⟨d, (conv _ _).2 had, fun w e hw hne => hmin w e ((conv _ _).1 hw) hne⟩

/-- **C116, what goes wrong**. When an admissible control exists the call returns, unless there are now more constraints than
when the module was constructed; then it may raise `IndexError` instead. -/
theorem C116_returns_partial {solver : Solver K} (hspec : SolverSpec solver) {f : S → List K} {g : S → List (List K)}
    {m s : ASIFObj K S P X} (hm : ExplicitModule solver f g m) (hs : ChangedUse solver f g m s)
    (hpos : ScalesPos s.constraints) (hen : s.enable = true) (x : S) (hsh : ShapesOK f g s x) (dt : K) (u : List K)
    (hu : u.length = s.ext.controlDim) (hadm : ∃ w d, AdmissibleS f g s x w d) :
    (∃ v, (explicitASIF solver f g s (.array x) dt u).1 = .ok v) ∨
    (m.constraints.length < s.constraints.length ∧ (explicitASIF solver f g s (.array x) dt u).1 = .error .indexError) := by
  obtain ⟨hl, hnm, hdl, hact⟩ := hs.loose hm.inv.1
  obtain ⟨nm, hn⟩ := hl.names
  have hsh' : ShapesOK f g (tidy nm s) x := ⟨hsh.alpha, hsh.grad, hsh.input, hsh.cols, hsh.direct⟩
  obtain ⟨w0, d0, hw0⟩ := hadm
  obtain ⟨v, hv⟩ := (explicit_total hspec (hl.inv nm) hn hpos hsh' dt hu hen).1
    ⟨w0, d0, hw0.len, hw0.slen, hw0.bounds, hw0.barrier, hw0.direct⟩
  rcases loose_call hspec f g hl hpos hen hn x dt u with h | ⟨hlt, h, -⟩
  · exact .inl ⟨v, h.trans hv⟩
  · refine .inr ⟨?_, h⟩
    obtain ⟨n1, a1, e1⟩ := hn
    obtain ⟨n2, a2, e2⟩ := hm.inv.2
    have l1 := (actuation_width a1).2
    have l2 := (actuation_width a2).2
    have e1 : nm = n1 ++ (dictKeys s.constraints ++ dictKeys s.ext.direct) := e1
    have l1 : s.ext.actuation.length = n1.length := l1
    rw [hnm, e1, e2] at hlt
    simp only [List.length_append, dictKeys, List.length_map] at hlt
    rw [hact] at l1
    omega

/-- **C116**. When no control is admissible for the constraints of the moment, the configured policy applies. -/
theorem C116_infeasible {solver : Solver K} (hspec : SolverSpec solver) {f : S → List K} {g : S → List (List K)}
    {m s : ASIFObj K S P X} (hm : ExplicitModule solver f g m) (hs : ChangedUse solver f g m s)
    (hpos : ScalesPos s.constraints) (hen : s.enable = true) (x : S) (hsh : ShapesOK f g s x) (dt : K) (u : List K)
    (hu : u.length = s.ext.controlDim) (hadm : ¬ ∃ w d, AdmissibleS f g s x w d) :
    (explicitASIF solver f g s (.array x) dt u).1 = if s.ext.solverException then .error .solverError else s.toBase.clipControl u := by
  obtain ⟨hl, -⟩ := hs.loose hm.inv.1
  obtain ⟨nm, hn⟩ := hl.names
  have hsh' : ShapesOK f g (tidy nm s) x := ⟨hsh.alpha, hsh.grad, hsh.input, hsh.cols, hsh.direct⟩
  rcases loose_call hspec f g hl hpos hen hn x dt u with h | ⟨-, -, h⟩
  · rw [h]
    exact (explicit_total hspec (hl.inv nm) hn hpos hsh' dt hu hen).2
      fun ⟨w, d, hw⟩ => hadm ⟨w, d, hw.len, hw.slen, hw.bounds, hw.barrier, hw.direct⟩
  · exact absurd h hadm

/-- The facts shared by the two theorems about one added constraint. -/
theorem added_facts {solver : Solver K} (hspec : SolverSpec solver) {f : S → List K} {g : S → List (List K)}
    {m : ASIFObj K S P X} (hm : ExplicitModule solver f g m) (hpos : ScalesPos m.constraints) (hd : m.ext.direct = [])
    (hen : m.enable = true) {k : String} {c : Constraint K S P} (hk : k ∉ dictKeys m.constraints)
    (hc : c.slackPriorityScale = none) {x : S} {dt : K} {u v : List K}
    (hcall : (explicitASIF solver f g m (.array x) dt u).1 = .ok v) (hu : u.length = m.ext.controlDim)
    (hsh : ShapesOK f g (setConstraints (m.constraints ++ [(k, c)]) m) x)
    (hadm : ∃ w d, AdmissibleS f g (setConstraints (m.constraints ++ [(k, c)]) m) x w d) :
    (c.enabled = true → ¬ BarrierOK f g c x v 0 →
      (explicitASIF solver f g (setConstraints (m.constraints ++ [(k, c)]) m) (.array x) dt u).1 = .error .indexError) ∧
    ((c.enabled = true → ∃ q, barrierValue f g c x v = some q ∧ 0 < q) →
      (explicitASIF solver f g (setConstraints (m.constraints ++ [(k, c)]) m) (.array x) dt u).1 = .ok v) := by
  obtain ⟨hinv, hnames⟩ := hm.inv
  have hnd : (dictKeys (m.constraints ++ [(k, c)])).Nodup := by
    have : dictKeys (m.constraints ++ [(k, c)]) = dictKeys m.constraints ++ [k] := by simp [dictKeys]
    rw [this, List.nodup_append]
    refine ⟨hinv.wf.nodup, by simp, ?_⟩
    intro a ha b hb hab
    simp only [List.mem_singleton] at hb
    exact hk (hb ▸ hab ▸ ha)
  have hsc := slackScales_snoc m.constraints k c hc
  have hlm : Loose m := .ofInv hinv
  obtain ⟨hls, -⟩ := (ChangedUse.change (solver := solver) (f := f) (g := g) (m.constraints ++ [(k, c)]) .start hnd hsc).loose hinv
  have hposs : ScalesPos (setConstraints (m.constraints ++ [(k, c)]) m).constraints := by
    intro w hw
    exact hpos w (by rw [← hsc]; exact hw)
  have hshm : ShapesOK f g m x := ⟨fun kc h => hsh.alpha kc (List.mem_append_left _ h),
    fun kc h => hsh.grad kc (List.mem_append_left _ h), hsh.input, hsh.cols, hsh.direct⟩
  have hsplit : ∀ w d, AdmissibleS f g (setConstraints (m.constraints ++ [(k, c)]) m) x w d ↔
      AdmissibleS f g m x w d ∧ (c.enabled = true → BarrierOK f g c x w 0) := by
    intro w d
    have e : assignSlack (setConstraints (m.constraints ++ [(k, c)]) m).constraints d = assignSlack m.constraints d ++ [(c, 0)] :=
      assignSlack_snoc m.constraints k c hc d
    constructor
    · intro h
      refine ⟨⟨h.len, ?_, h.bounds, fun cd hcd => h.barrier cd (by rw [e]; exact List.mem_append_left _ hcd), h.direct⟩,
        h.barrier (c, 0) (by rw [e]; exact List.mem_append_right _ (by simp))⟩
      rw [← hsc]; exact h.slen
    · rintro ⟨h, hb⟩
      refine ⟨h.len, ?_, h.bounds, ?_, h.direct⟩
      · show d.length = (slackScales (m.constraints ++ [(k, c)])).length
        rw [hsc]; exact h.slen
      · intro cd hcd
        rw [e] at hcd
        rcases List.mem_append.1 hcd with hcd | hcd
        · exact h.barrier cd hcd
        · simp only [List.mem_singleton] at hcd
          rw [hcd]; exact hb
  obtain ⟨bar, dr, z, iact, hbar, hdr, hfz, hmin, htight, hsuff, hav, hok, -⟩ :=
    loose_solved hspec hlm hpos hen hshm dt hu (by obtain ⟨w, d, h⟩ := hadm; exact ⟨w, d, ((hsplit w d).1 h).1⟩)
  obtain ⟨bar', dr', z', iact', hbar', hdr', hfz', hmin', htight', hsuff', hav', hok', hbad'⟩ :=
    loose_solved hspec hls hposs hen hsh dt hu hadm
  have ed : (setConstraints (m.constraints ++ [(k, c)]) m).ext = m.ext := rfl
  have ec : (setConstraints (m.constraints ++ [(k, c)]) m).constraints = m.constraints ++ [(k, c)] := rfl
  rw [ed, hd] at hdr'
  rw [hd] at hdr
  obtain rfl : [] = dr := Except.ok.inj hdr
  obtain rfl : [] = dr' := Except.ok.inj hdr'
  rw [ed, ec] at hbar'
  obtain ⟨r, rfl⟩ := explicitRows_snoc hnd hbar hbar'
  simp only [ed, List.append_nil, ← List.append_assoc] at hfz' hmin' htight' hsuff' hok' hbad' hav'
  simp only [List.append_nil] at hfz hmin htight hsuff
  obtain ⟨hlen, -, -⟩ := loose_rows hlm (nm := m.ext.constraintNames) hnames u dt hbar (by rw [hd]; rfl : _ = Except.ok [])
  rw [List.append_nil] at hlen
  have hv : v = z.take m.ext.controlDim := by
    have := hok fun i hi => by
      obtain ⟨r, hr, -⟩ := htight i hi
      obtain ⟨h1, h2, -⟩ := rowAt_some hr
      omega
    rw [hcall] at this
    exact Except.ok.inj this
  have hG := objWeight_pos hinv hpos
  have hf' : Feasible m.ext.objWeight.length (m.ext.actuation ++ bar) z' :=
    ⟨hfz'.1, fun q hq => hfz'.2 q (List.mem_append_left _ hq)⟩
  have heq : qpObj m.ext.objWeight (u ++ zeros m.ext.numSlack) z' ≤ qpObj m.ext.objWeight (u ++ zeros m.ext.numSlack) z → z' = z := by
    intro hle
    by_contra hne
    exact absurd (qp_unique hG hfz hmin hf' (fun h => hne h.symm)) (not_lt.2 hle)
  constructor
  · intro hce hviol
    by_cases hall : ∀ i ∈ iact', i ≤ m.ext.constraintNames.length
    · exfalso
      have := heq (hsuff' z hfz.1 fun i hi q hq => by
        obtain ⟨h1, -, -⟩ := rowAt_some hq
        rw [rowAt_append_left _ h1 (by have := hall i hi; omega)] at hq
        exact hfz.2 q (List.mem_of_getElem? (rowAt_some hq).2.2))
      subst this
      exact hviol (hv ▸ ((hsplit _ _).1 hav').2 hce)
    · push Not at hall
      exact hbad' hall
  · intro hstrict
    have hadz : AdmissibleS f g (setConstraints (m.constraints ++ [(k, c)]) m) x (z.take m.ext.controlDim) (z.drop m.ext.controlDim) := by
      refine (hsplit _ _).2 ⟨hav, fun hce => ?_⟩
      obtain ⟨q, hq, hq0⟩ := hstrict hce
      exact ⟨q, by rw [← hv]; exact hq, hq0.le⟩
    obtain ⟨nm', hn'⟩ := hls.names
    obtain ⟨hlen', -, hfe⟩ := loose_rows hls hn' u dt hbar' (by rw [ed, hd]; rfl : _ = Except.ok [])
    simp only [ed, List.append_nil, ← List.append_assoc] at hlen' hfe
    have hzl := hfz.1.trans (objWeight_length hinv)
    have hvl : (z.take m.ext.controlDim).length = m.ext.controlDim := by
      rw [List.length_take, hzl]; exact Nat.min_eq_left (Nat.le_add_right _ _)
    have hdl : (z.drop m.ext.controlDim).length = m.ext.numSlack := by
      rw [List.length_drop, hzl]; exact Nat.add_sub_cancel_left _ _
    obtain ⟨hfe1, hfe2⟩ := hfe _ _ hvl hdl
    have hzf := hfe1.2 hadz
    rw [List.take_append_drop] at hzf
    have := heq (hmin' z hzf)
    subst this
    rw [hv]
    refine hok' fun i hi => ?_
    by_contra hgt
    obtain ⟨q, hq, hqt, hqn⟩ := htight' i hi
    obtain ⟨h1, h2, h3⟩ := rowAt_some hq
    rw [List.length_append, List.length_singleton] at h2
    have hidx : (i - 1).toNat = (m.ext.actuation ++ bar).length := by omega
    rw [hidx, List.getElem?_append_right (le_refl _)] at h3
    simp only [Nat.sub_self, List.getElem?_cons_zero, Option.some.injEq] at h3
    subst h3
    have hnm : ∃ b, nm'[(m.ext.actuation ++ bar).length]? = some b := by
      refine ⟨_, List.getElem?_eq_getElem ?_⟩
      rw [hlen']; simp
    obtain ⟨b, hb⟩ := hnm
    have hz : (nm'.zip (m.ext.actuation ++ bar ++ [r]))[(m.ext.actuation ++ bar).length]? = some (b, r) := by
      rw [List.getElem?_zip_eq_some]
      exact ⟨hb, by simp⟩
    obtain ⟨cd, hcd, hrep⟩ := forall₂_getElem? hfe2 hz
    have hlast : explicitConds f g (setConstraints (m.constraints ++ [(k, c)]) m) x (z'.take m.ext.controlDim) (z'.drop m.ext.controlDim) =
        (lowConds m.controlBoundsLow m.ext.controlDim (z'.take m.ext.controlDim) ++
          highConds m.controlBoundsHigh m.ext.controlDim (z'.take m.ext.controlDim) ++
          barrierConds f g m.constraints x (z'.take m.ext.controlDim) (z'.drop m.ext.controlDim)) ++
        [⟨k, c.enabled = true → BarrierOK f g c x (z'.take m.ext.controlDim) 0,
          c.enabled = true ∧ barrierValue f g c x (z'.take m.ext.controlDim) = some 0⟩] := by
      unfold explicitConds
      rw [ec, ed, hd]
      have hbc : barrierConds f g (m.constraints ++ [(k, c)]) x (z'.take m.ext.controlDim) (z'.drop m.ext.controlDim) =
          barrierConds f g m.constraints x (z'.take m.ext.controlDim) (z'.drop m.ext.controlDim) ++
          [⟨k, c.enabled = true → BarrierOK f g c x (z'.take m.ext.controlDim) 0,
          c.enabled = true ∧ barrierValue f g c x (z'.take m.ext.controlDim) = some 0⟩] := by
        unfold barrierConds
        rw [assignSlack_snoc _ _ _ hc]
        have : dictKeys (m.constraints ++ [(k, c)]) = dictKeys m.constraints ++ [k] := by simp [dictKeys]
        rw [this, List.zipWith_append]
        · rfl
        · rw [assignSlack_length]; simp [dictKeys]
      rw [hbc]
      simp only [directConds, List.map_nil, List.append_nil, List.append_assoc]
      rfl
    have hl2 := hfe2.length_eq
    rw [hlast] at hcd hl2
    rw [List.length_zip, hlen', Nat.min_self, List.length_append, List.length_append (bs := [_]), List.length_singleton, List.length_singleton] at hl2
    have hidx2 : (m.ext.actuation ++ bar).length = (lowConds m.controlBoundsLow m.ext.controlDim (z'.take m.ext.controlDim) ++
          highConds m.controlBoundsHigh m.ext.controlDim (z'.take m.ext.controlDim) ++
          barrierConds f g m.constraints x (z'.take m.ext.controlDim) (z'.drop m.ext.controlDim)).length := by omega
    rw [hidx2, List.getElem?_append_right (le_refl _)] at hcd
    simp only [Nat.sub_self, List.getElem?_cons_zero, Option.some.injEq] at hcd
    subst hcd
    have htt := hrep.2.2 hqn (by rw [List.take_append_drop]; exact hqt)
    obtain ⟨hce, hval⟩ := htt
    obtain ⟨q, hq, hq0⟩ := hstrict hce
    rw [hv, hval] at hq
    exact absurd (Option.some.inj hq) (ne_of_lt hq0)

/-- **C116 fails**: a module without direct inequalities answers `v`; a constraint without slack is added that `v` violates. The
next call raises `IndexError`, although an admissible control exists. -/
theorem C116_added_raises {solver : Solver K} (hspec : SolverSpec solver) {f : S → List K} {g : S → List (List K)}
    {m : ASIFObj K S P X} (hm : ExplicitModule solver f g m) (hpos : ScalesPos m.constraints) (hd : m.ext.direct = [])
    (hen : m.enable = true) {k : String} {c : Constraint K S P} (hk : k ∉ dictKeys m.constraints)
    (hc : c.slackPriorityScale = none) {x : S} {dt : K} {u v : List K}
    (hcall : (explicitASIF solver f g m (.array x) dt u).1 = .ok v) (hu : u.length = m.ext.controlDim)
    (hsh : ShapesOK f g (setConstraints (m.constraints ++ [(k, c)]) m) x)
    (hadm : ∃ w d, AdmissibleS f g (setConstraints (m.constraints ++ [(k, c)]) m) x w d)
    (hce : c.enabled = true) (hviol : ¬ BarrierOK f g c x v 0) :
    (explicitASIF solver f g (setConstraints (m.constraints ++ [(k, c)]) m) (.array x) dt u).1 = .error .indexError :=
  (added_facts hspec hm hpos hd hen hk hc hcall hu hsh hadm).1 hce hviol

/-- **C116**. If the added constraint is disabled, or strictly satisfied by the answer given without it, that answer is given. -/
theorem C116_added_fine {solver : Solver K} (hspec : SolverSpec solver) {f : S → List K} {g : S → List (List K)}
    {m : ASIFObj K S P X} (hm : ExplicitModule solver f g m) (hpos : ScalesPos m.constraints) (hd : m.ext.direct = [])
    (hen : m.enable = true) {k : String} {c : Constraint K S P} (hk : k ∉ dictKeys m.constraints)
    (hc : c.slackPriorityScale = none) {x : S} {dt : K} {u v : List K}
    (hcall : (explicitASIF solver f g m (.array x) dt u).1 = .ok v) (hu : u.length = m.ext.controlDim)
    (hsh : ShapesOK f g (setConstraints (m.constraints ++ [(k, c)]) m) x)
    (hadm : ∃ w d, AdmissibleS f g (setConstraints (m.constraints ++ [(k, c)]) m) x w d)
    (hstrict : c.enabled = true → ∃ q, barrierValue f g c x v = some q ∧ 0 < q) :
    (explicitASIF solver f g (setConstraints (m.constraints ++ [(k, c)]) m) (.array x) dt u).1 = .ok v :=
  (added_facts hspec hm hpos hd hen hk hc hcall hu hsh hadm).2 hstrict

/-- **C116 fails**, slack: a constraint with a slack variable that is added after construction has none. The answer is that with
the same constraint without slack, for every scale. -/
theorem C116_added_slack (solver : Solver K) {f : S → List K} {g : S → List (List K)} {m : ASIFObj K S P X}
    (hm : ExplicitModule solver f g m) (hen : m.enable = true) {k : String} (c : Constraint K S P)
    (hk : k ∉ dictKeys m.constraints) (w : K) (x : S) (dt : K) (u : List K) :
    (explicitASIF solver f g (setConstraints (m.constraints ++ [(k, { c with slackPriorityScale := some w })]) m) (.array x) dt u).1 =
      (explicitASIF solver f g (setConstraints (m.constraints ++ [(k, { c with slackPriorityScale := none })]) m) (.array x) dt u).1 := by
  obtain ⟨hinv, -⟩ := hm.inv
  have hl : Loose m := .ofInv hinv
  have hkeys : ∀ o : Option K, Keys (setConstraints (m.constraints ++ [(k, { c with slackPriorityScale := o })]) m) := by
    intro o
    refine ⟨?_, hl.dnodup, hl.dparams, hl.denabled⟩
    show (dictKeys (m.constraints ++ [(k, { c with slackPriorityScale := o })])).Nodup
    have : dictKeys (m.constraints ++ [(k, { c with slackPriorityScale := o })]) = dictKeys m.constraints ++ [k] := by simp [dictKeys]
    rw [this, List.nodup_append]
    refine ⟨hinv.wf.nodup, by simp, ?_⟩
    intro a ha b hb hab
    simp only [List.mem_singleton] at hb
    exact hk (hb ▸ hab ▸ ha)
  rw [explicit_answer solver f g (hkeys _) hen x dt u, explicit_answer solver f g (hkeys _) hen x dt u]
  have hrows : explicitRows f g (cacheParams (m.constraints ++ [(k, { c with slackPriorityScale := some w })]))
        (cacheEnabled (m.constraints ++ [(k, { c with slackPriorityScale := some w })])) m.ext.controlDim m.ext.numSlack x 0
        (m.constraints ++ [(k, { c with slackPriorityScale := some w })]) =
      explicitRows f g (cacheParams (m.constraints ++ [(k, { c with slackPriorityScale := none })]))
        (cacheEnabled (m.constraints ++ [(k, { c with slackPriorityScale := none })])) m.ext.controlDim m.ext.numSlack x 0
        (m.constraints ++ [(k, { c with slackPriorityScale := none })]) := by
    have e1 : ∀ o : Option K, cacheParams (m.constraints ++ [(k, { c with slackPriorityScale := o })]) =
        cacheParams m.constraints ++ [(k, c.params)] := fun o => by simp [cacheParams]
    have e2 : ∀ o : Option K, cacheEnabled (m.constraints ++ [(k, { c with slackPriorityScale := o })]) =
        cacheEnabled m.constraints ++ [(k, c.enabled)] := fun o => by simp [cacheEnabled]
    have hset : (zeros m.ext.numSlack : List K).set (0 + (slackScales m.constraints).length) (-1) = zeros m.ext.numSlack := by
      refine List.set_eq_of_length_le ?_
      simp [zeros, hl.slack]
    rw [e1, e1, e2, e2, explicitRows_append, explicitRows_append]
    have hone : ∀ (p : Dict P) (e : Dict Bool),
        explicitRows f g p e m.ext.controlDim m.ext.numSlack x (0 + (slackScales m.constraints).length)
          [(k, { c with slackPriorityScale := some w })] =
        explicitRows f g p e m.ext.controlDim m.ext.numSlack x (0 + (slackScales m.constraints).length)
          [(k, { c with slackPriorityScale := none })] := by
      intro p e
      simp only [explicitRows, Option.isSome_some, Option.isSome_none, if_true, Bool.false_eq_true, if_false, hset]
      rfl
    rw [hone]
  unfold answerOf
  show (match explicitRows f g (cacheParams (m.constraints ++ [(k, { c with slackPriorityScale := some w })]))
        (cacheEnabled (m.constraints ++ [(k, { c with slackPriorityScale := some w })])) m.ext.controlDim m.ext.numSlack x 0
        (m.constraints ++ [(k, { c with slackPriorityScale := some w })]) with | .error e => _ | .ok bar => _) = _
  rw [hrows]
  rfl

/-- The rows do not depend on the keys. -/
theorem explicitRows_rename {f : S → List K} {g : S → List (List K)} {p p' : Dict P} {e e' : Dict Bool} {n k : Nat} {x : S}
    {cs ds : Dict (Constraint K S P)} (h : List.Forall₂ (fun a b => a.2 = b.2 ∧ dictGet p a.1 = dictGet p' b.1 ∧
      dictGet e a.1 = dictGet e' b.1 ∧ (dictGet p a.1).isSome ∧ (dictGet e a.1).isSome) cs ds) (sc : Nat) :
    explicitRows f g p e n k x sc cs = explicitRows f g p' e' n k x sc ds := by
  induction h generalizing sc with
  | nil => rfl
  | @cons a b l l' h1 _ ih =>
    obtain ⟨a1, a2⟩ := a
    obtain ⟨b1, b2⟩ := b
    obtain ⟨h1, h2, h3, h4, h5⟩ := h1
    simp only at h1 h2 h3 h4 h5
    subst h1
    obtain ⟨p0, hp⟩ := Option.isSome_iff_exists.1 h4
    obtain ⟨e0, he⟩ := Option.isSome_iff_exists.1 h5
    unfold explicitRows
    rw [← h2, ← h3, hp, he]
    simp only [ih]

/-- **C116 fails**, names: the reported names are those of the time of construction, by position. Replacing the keys of the
constraints (`module.constraints` is rebuilt with other names for the same constraints) changes neither the answer nor the list. -/
theorem C116_renamed {solver : Solver K} {f : S → List K} {g : S → List (List K)} {m s t : ASIFObj K S P X}
    (hm : ExplicitModule solver f g m) (hs : ChangedUse solver f g m s) (hen : s.enable = true)
    {cs : Dict (Constraint K S P)} (hcs : cs.map Prod.snd = s.constraints.map Prod.snd) (hnd : (dictKeys cs).Nodup)
    (x : S) (dt : K) (u v : List K) (hcall : explicitASIF solver f g s (.array x) dt u = (.ok v, t)) :
    ∃ t', explicitASIF solver f g (setConstraints cs s) (.array x) dt u = (.ok v, t') ∧ t'.ext.causing = t.ext.causing := by
  obtain ⟨hl, -⟩ := hs.loose hm.inv.1
  have hk : Keys s := hl.toKeys
  have hk' : Keys (setConstraints cs s) := ⟨hnd, hk.dnodup, hk.dparams, hk.denabled⟩
  obtain ⟨hc1, hc2⟩ := cached hnd
  obtain ⟨hs1, hs2⟩ := cached hk.nodup
  have hrel : List.Forall₂ (fun a b => a.2 = b.2 ∧ dictGet (cacheParams cs) a.1 = dictGet (cacheParams s.constraints) b.1 ∧
      dictGet (cacheEnabled cs) a.1 = dictGet (cacheEnabled s.constraints) b.1 ∧ (dictGet (cacheParams cs) a.1).isSome ∧
      (dictGet (cacheEnabled cs) a.1).isSome) cs s.constraints := by
    rw [List.forall₂_iff_get]
    have hlen : cs.length = s.constraints.length := by simpa using congrArg List.length hcs
    refine ⟨hlen, fun i h1 h2 => ?_⟩
    have e : (cs.get ⟨i, h1⟩).2 = (s.constraints.get ⟨i, h2⟩).2 := by
      have := congrArg (fun l => l[i]?) hcs
      simp only [List.getElem?_map, List.getElem?_eq_getElem h1, List.getElem?_eq_getElem h2, Option.map_some, Option.some.injEq] at this
      exact this
    have a1 := hc1 _ (List.get_mem cs ⟨i, h1⟩)
    have a2 := hc2 _ (List.get_mem cs ⟨i, h1⟩)
    have b1 := hs1 _ (List.get_mem s.constraints ⟨i, h2⟩)
    have b2 := hs2 _ (List.get_mem s.constraints ⟨i, h2⟩)
    rw [a1, a2, b1, b2, e]
    exact ⟨rfl, rfl, rfl, rfl, rfl⟩
  have hrows : ∀ n k, explicitRows f g (cacheParams cs) (cacheEnabled cs) n k x 0 cs =
      explicitRows f g (cacheParams s.constraints) (cacheEnabled s.constraints) n k x 0 s.constraints :=
    fun n k => explicitRows_rename hrel 0
  have h1 : (explicitASIF solver f g (setConstraints cs s) (.array x) dt u).1 = .ok v := by
    have e : (explicitASIF solver f g s (.array x) dt u).1 = .ok v := by rw [hcall]
    rw [← e, explicit_answer solver f g hk' hen x dt u, explicit_answer solver f g hk hen x dt u]
    unfold answerOf
    show (match explicitRows f g (cacheParams cs) (cacheEnabled cs) s.ext.controlDim s.ext.numSlack x 0 cs with
      | .error e => _ | .ok bar => _) = _
    rw [hrows]
    rfl
  refine ⟨_, Prod.ext h1 rfl, ?_⟩
  obtain ⟨nm, ex, rows, dr, w, cz, hg, hd, ho, -, ht⟩ := asif_ok (genFrame_explicit f g) hen hcall
  obtain ⟨nm', ex', rows', dr', w', cz', hg', hd', ho', -, ht'⟩ := asif_ok (s := setConstraints cs s) (genFrame_explicit f g) hen
    (Prod.ext h1 rfl)
  have hrr : rows' = rows := by
    unfold explicitGenRows at hg hg'
    have e1 := aprep_rows (f := f) (g := g) hk x u
    have e2 := aprep_rows (f := f) (g := g) hk' x u
    have e3 : explicitRows f g (aprep (setConstraints cs s) x u).params (aprep (setConstraints cs s) x u).constraintEnabled
        s.ext.controlDim s.ext.numSlack x 0 cs = explicitRows f g (aprep s x u).params (aprep s x u).constraintEnabled
        s.ext.controlDim s.ext.numSlack x 0 s.constraints := by
      rw [e1]
      exact e2.trans (hrows _ _)
    have hg1 := congrArg Prod.fst hg
    have hg2 := congrArg Prod.fst hg'
    have hg2 : (match explicitRows f g (aprep (setConstraints cs s) x u).params (aprep (setConstraints cs s) x u).constraintEnabled
        s.ext.controlDim s.ext.numSlack x 0 cs with
      | .error e => ((.error e, aprep (setConstraints cs s) x u) : Except PyErr (List (Row K)) × ASIFObj K S P X)
      | .ok rows => (.ok (s.ext.actuation ++ rows), aprep (setConstraints cs s) x u)).1 = .ok rows' := hg2
    have hg1 : (match explicitRows f g (aprep s x u).params (aprep s x u).constraintEnabled
        s.ext.controlDim s.ext.numSlack x 0 s.constraints with
      | .error e => ((.error e, aprep s x u) : Except PyErr (List (Row K)) × ASIFObj K S P X)
      | .ok rows => (.ok (s.ext.actuation ++ rows), aprep s x u)).1 = .ok rows := hg1
    rw [e3] at hg2
    cases hx : explicitRows f g (aprep s x u).params (aprep s x u).constraintEnabled
        s.ext.controlDim s.ext.numSlack x 0 s.constraints with
    | error e => rw [hx] at hg1; cases hg1
    | ok r =>
      rw [hx] at hg1 hg2
      exact (Except.ok.inj (hg2.symm)).trans (Except.ok.inj hg1)
  have hdd : dr' = dr := by
    obtain ⟨d1, d2⟩ := aprep_direct hk x u
    obtain ⟨d3, d4⟩ := aprep_direct hk' x u
    rw [d1, d2] at hd
    rw [d3, d4] at hd'
    exact Except.ok.inj (hd'.symm.trans hd)
  have hn : nm = s.ext.constraintNames := by
    have := congrArg (fun p => p.2.ext.constraintNames) hg
    simp only [explicitGen_same] at this
    exact this.symm
  have hn' : nm' = s.ext.constraintNames := by
    have := congrArg (fun p => p.2.ext.constraintNames) hg'
    simp only [explicitGen_same] at this
    exact this.symm
  subst hrr hdd hn
  subst hn'
  have hz : (explicitASIF solver f g (setConstraints cs s) (.array x) dt u).2.ext.causing = cz' :=
    (congrArg (fun o : ASIFObj K S P X => o.ext.causing) ht').trans rfl
  have hz2 : t.ext.causing = cz := (congrArg (fun o : ASIFObj K S P X => o.ext.causing) ht).trans rfl
  rw [hz, hz2]
  have hq : ∀ a, quadprogSolve solver (setConstraints cs s).ext.objWeight (u ++ zeros (setConstraints cs s).ext.numSlack) a =
    quadprogSolve solver s.ext.objWeight (u ++ zeros s.ext.numSlack) a := fun _ => rfl
  cases ho with
  | solved q1 c1 =>
    cases ho' with
    | solved q2 c2 =>
      rw [hq, q1] at q2
      injection q2 with q2 q3
      subst q3
      rw [c1] at c2
      injection c2 with c2 c3
      rw [c3]
    | infeasible q2 _ => rw [hq, q1] at q2; cases q2
  | infeasible q1 _ =>
    cases ho' with
    | solved q2 c2 => rw [hq, q1] at q2; cases q2
    | infeasible q2 _ => rfl

end

section simplex
variable [AddCommMonoid K] [LinearOrder K]

theorem cachesFresh_prep_of_nodup {E : Type} {s : CBObj K S P E} (h : (dictKeys s.constraints).Nodup) (x : S) (u : List K) :
    CachesFresh (prep s x u) :=
  ⟨(updated_params (s := withDesired s u) h).1, (updated_params (s := withDesired s u) h).2⟩

/-- **C116**, explicit Simplex: whatever constraints the module had before, and however the dictionary was changed, an unlatched
call decides by the constraints that are in it at the time of the call. -/
theorem C116_explicit_simplex (pred : S → K → List K → S) (s s' : SimplexObj K S P A) (hwf : (dictKeys s.constraints).Nodup)
    (hen : s.enable = true) (x : S) (dt : K) (u c : List K) (hlat : ¬ Latched s)
    (h : explicitSimplex pred s (.array x) dt u = (.ok c, s')) :
    (s'.intervening = false ↔ SafeAt s.constraints (pred x dt u)) ∧
    (SafeAt s.constraints (pred x dt u) → s.toBase.clipControl u = .ok c) ∧
    (¬ SafeAt s.constraints (pred x dt u) → ∃ z, IsBackup s x dt c z) := by
  obtain ⟨_, h⟩ := simplex_ok (monFrame_explicit pred) hen h
  rcases h with ⟨h, _⟩ | ⟨_, b, sm, sv, hm, hi, h⟩
  · exact absurd h hlat
  obtain ⟨b', hb', hiff⟩ := constraintViolation_fresh (cachesFresh_unlatch (cachesFresh_prep_of_nodup hwf x u)) [pred x dt u]
  simp only [explicitMonitor, Prod.mk.injEq] at hm
  rw [hb'] at hm
  obtain rfl : b' = b := by simpa using hm.1
  rw [unlatch_constraints, show (prep s x u).constraints = s.constraints from rfl] at hiff
  have hiff : b' = true ↔ ¬ SafeAt s.constraints (pred x dt u) := by
    simpa using hiff
  rw [hi]
  rcases h with ⟨rfl, z, hz, _⟩ | ⟨rfl, hc, _⟩
  · have hns := hiff.1 rfl
    exact ⟨⟨fun h => (by cases h), fun h => absurd h hns⟩, fun h => absurd h hns, fun _ => ⟨z, hz⟩⟩
  · have hs : SafeAt s.constraints (pred x dt u) := by
      by_contra hns
      exact absurd (hiff.2 hns) (by simp)
    exact ⟨⟨fun _ => hs, fun _ => rfl⟩, fun _ => hc, fun h => absurd hs h⟩

end simplex

section implicit
variable [Field K] [LinearOrder K] [FloorRing K]

/-- **C116**, implicit Simplex: the same, along the whole predicted backup trajectory. -/
theorem C116_implicit_simplex [IsStrictOrderedRing K] (pred : S → K → List K → S) (s s' : SimplexObj K S P A)
    (hwf : (dictKeys s.constraints).Nodup)
    (hen : s.enable = true) (x : S) (dt : K) (hdt : 0 < dt) (hwin : 0 ≤ s.ext.backupWindow) (u c : List K)
    (claw : S → CState A → List K) (next : S → CState A → CState A)
    (hlaw : ∀ x z, ∃ ub, s.ext.ctrl.gen x dt z = some (ub, next x z) ∧ s.toBase.clipControl ub = .ok (claw x z))
    (hlat : ¬ Latched s) (h : implicitSimplex pred s (.array x) dt u = (.ok c, s')) :
    let traj : Nat → S := fun k =>
      ((fun xz : S × CState A => (pred xz.1 dt (claw xz.1 xz.2), next xz.1 xz.2))^[k] (pred x dt u, s.ext.ctrl.state)).1
    (s'.intervening = false ↔ ∀ k : Nat, (k : Int) ≤ ⌊s.ext.backupWindow / dt⌋ → SafeAt s.constraints (traj k)) ∧
    (s'.intervening = false → s.toBase.clipControl u = .ok c) ∧
    (s'.intervening = true → c = claw x s.ext.ctrl.state) := by
  intro traj
  have hq : 0 ≤ s.ext.backupWindow / dt := div_nonneg hwin hdt.le
  have hpy : pyInt (s.ext.backupWindow / dt) = ⌊s.ext.backupWindow / dt⌋ := by simp [pyInt, hq]
  have hfl : 0 ≤ ⌊s.ext.backupWindow / dt⌋ := Int.floor_nonneg.2 hq
  obtain ⟨_, h⟩ := simplex_ok (monFrame_implicit pred) hen h
  rcases h with ⟨h, _⟩ | ⟨_, b, sm, sv, hm, hi, h⟩
  · exact absurd h hlat
  have hext : (unlatch (prep s x u)).ext = { s.ext with latchedElapsed := elapsedAfter s } := unlatch_ext (prep s x u)
  have hclip : ∀ w, (unlatch (prep s x u)).toBase.clipControl w = s.toBase.clipControl w := by
    intro w; rw [unlatch_toBase]; rfl
  -- the save at the beginning of the integration succeeded, so the controller state is a supported one
  have hcopy : s.ext.ctrl.state.copy = .ok s.ext.ctrl.state := by
    cases hz : s.ext.ctrl.state with
    | unsupported a =>
      exfalso
      unfold implicitMonitor implicitIntegrate backupSteps backupControllerSave BackupController.save at hm
      simp only [hext, hz, hdt.ne', if_false, CState.copy] at hm
      simp at hm
    | _ => rfl
  obtain ⟨b', s1, hb', hiff⟩ := implicitMonitor_eq pred (s := unlatch (prep s x u)) (dt := dt) (claw := claw) (next := next)
    (cachesFresh_unlatch (cachesFresh_prep_of_nodup hwf x u)) hdt.ne'
    (fun y z => by
      obtain ⟨ub, h1, h2⟩ := hlaw y z
      exact ⟨ub, by rw [hext]; exact h1, by rw [hclip]; exact h2⟩) (by rw [hext]; exact hcopy) x u
  rw [hb'] at hm
  simp only [Prod.mk.injEq, Except.ok.injEq] at hm
  obtain ⟨rfl, _⟩ := hm
  have hiff : b' = true ↔ ∃ k : Nat, (k : Int) ≤ ⌊s.ext.backupWindow / dt⌋ ∧ ¬ SafeAt s.constraints (traj k) := by
    rw [hiff, hext, unlatch_constraints, hpy]
    constructor
    · rintro ⟨k, hk, hns⟩
      exact ⟨k, by omega, hns⟩
    · rintro ⟨k, hk, hns⟩
      exact ⟨k, by omega, hns⟩
  rw [hi]
  rcases h with ⟨rfl, z, ⟨ub, h1, h2⟩, _⟩ | ⟨rfl, hc, _⟩
  · obtain ⟨k, hk, hns⟩ := hiff.1 rfl
    refine ⟨⟨fun h => (by cases h), fun h => absurd (h k hk) hns⟩, fun h => (by cases h), fun _ => ?_⟩
    obtain ⟨ub', h1', h2'⟩ := hlaw x s.ext.ctrl.state
    rw [h1'] at h1
    simp only [Option.some.injEq, Prod.mk.injEq] at h1
    rw [← h1.1, h2'] at h2
    simpa using h2.symm
  · refine ⟨⟨fun _ k hk => ?_, fun _ => rfl⟩, fun _ => hc, fun h => by cases h⟩
    by_contra hns
    exact absurd (hiff.2 ⟨k, hk, hns⟩) (by simp)

end implicit

/-! ### Compiled modules -/

section compiled

theorem dictSet_same {V : Type} {d : Dict V} {k : String} {v : V} (h : dictGet d k = some v) : dictSet d k v = d := by
  induction d with
  | nil => cases h
  | cons a d ih =>
    obtain ⟨q, w⟩ := a
    unfold dictGet at h
    unfold dictSet
    by_cases hq : q = k
    · rw [if_pos hq] at h ⊢
      rw [Option.some.inj h]
    · rw [if_neg hq] at h ⊢
      rw [ih h]

theorem foldl_dictSet_keep {C V : Type} (f : C → V) {d : Dict V} {cs : Dict C} (h : ∀ kc ∈ cs, dictGet d kc.1 = some (f kc.2)) :
    cs.foldl (fun d kc => dictSet d kc.1 (f kc.2)) d = d := by
  induction cs with
  | nil => rfl
  | cons kc cs ih =>
    rw [List.foldl_cons, dictSet_same (h kc (by simp))]
    exact ih fun q hq => h q (by simp [hq])

/-- **C116 fails**, compiled explicit ASIF (the default): after a successful call at the same signature, constraints that are
removed go on being enforced. Removing any constraints from the dictionary leaves the answer of the next call what it was. (That
`params` and flags were not changed since the last call is stated by the two equations on the copies.) -/
theorem C116_compiled_removed [DecidableEq Sig] [Add K] [Mul K] [Neg K] [Sub K] [Zero K] [One K] [OfNat K 10] [Max K] [Min K]
    [HasSqrt K] [LT K] [DecidableLT K] (solver : Solver K) (sig : S → K → Dict P → Dict Bool → Sig)
    (sigD : List (Row K) → S → Dict P → Dict Bool → Sig) (f : X → S → List K) (g : X → S → List (List K))
    (j : ASIFJ Sig K S P X) (hj : j.jit.barrierJit = true) (hen : j.obj.enable = true) (x : S) (dt : K) (u v : List K)
    (h : (explicitASIFJ solver sig sigD f g j (.array x) dt u).1 = .ok v) (l : List (Use (ASIFObj K S P X) K S))
    (j2 : ASIFJ Sig K S P X)
    (hj2 : j2 = (useAll (explicitASIFJ solver sig sigD f g) (fun m j => { j with obj := m j.obj }) l
      (explicitASIFJ solver sig sigD f g j (.array x) dt u).2).2)
    (hnd : (dictKeys j2.obj.constraints).Nodup)
    (hcur : (updateParams j2.obj).params = j2.obj.params ∧ (updateParams j2.obj).constraintEnabled = j2.obj.constraintEnabled)
    (cs : Dict (Constraint K S P)) (hcs : ∀ kc ∈ cs, kc ∈ j2.obj.constraints) (x' : S) (dt' : K) (u' : List K)
    (hsig : sig x' dt' (updateParams j2.obj).params (updateParams j2.obj).constraintEnabled =
      sig x dt (updateParams j.obj).params (updateParams j.obj).constraintEnabled) :
    (explicitASIFJ solver sig sigD f g { j2 with obj := setConstraints cs j2.obj } (.array x') dt' u').1 =
      (explicitASIFJ solver sig sigD f g j2 (.array x') dt' u').1 := by
  obtain ⟨o, ho⟩ := explicitASIFJ_traced solver sig sigD f g hj hen h
  have hfl : (explicitASIFJ solver sig sigD f g j (.array x) dt u).2.jit.barrierJit = true :=
    (explicitASIFJ_flags solver sig sigD f g j (.array x) dt u).1.trans hj
  have ht := useAll_inv (Q := fun c : ASIFJit Sig (ASIFObj K S P X) => jitLookup c.barrier
      (sig x dt (updateParams j.obj).params (updateParams j.obj).constraintEnabled) = some o)
    (fun j inp dt u h => explicitASIFJ_trace solver sig sigD f g h inp dt u) l ho
  have hb := useAll_inv (Q := fun c : ASIFJit Sig (ASIFObj K S P X) => c.barrierJit = true)
    (fun j inp dt u h => (explicitASIFJ_flags solver sig sigD f g j inp dt u).1.trans h) l hfl
  rw [← hj2, ← hsig] at ht
  rw [← hj2] at hb
  have hp : ∃ vals, preFilter { j2 with obj := setConstraints cs j2.obj } x' u' =
      ⟨patchASIF cs vals j2.obj.ext.extra (preFilter j2 x' u').obj, j2.jit⟩ := by
    refine ⟨(preFilter { j2 with obj := setConstraints cs j2.obj } x' u').obj.constraintValues, ?_⟩
    obtain ⟨h1, h2⟩ := updated_params (s := j2.obj) hnd
    rw [hcur.1] at h1
    rw [hcur.2] at h2
    have q1 := foldl_dictSet_keep (fun c : Constraint K S P => c.params) (cs := cs) fun kc hk => h1 kc (hcs kc hk)
    have q2 := foldl_dictSet_keep (fun c : Constraint K S P => c.enabled) (cs := cs) fun kc hk => h2 kc (hcs kc hk)
    have c1 := hcur.1
    have c2 := hcur.2
    unfold updateParams at c1 c2
    simp only at c1 c2
    unfold preFilter updateParams patchASIF updateConstraintValuesAt setConstraints
    dsimp only
    rw [q1, q2, c1, c2]
  obtain ⟨vals, hp⟩ := hp
  unfold explicitASIFJ
  refine filterJ_congr (K := K) ?_ ?_
  · rfl
  rw [hp]
  exact asifFilterJ_patch solver sig sigD f g j2.jit hb (preFilter j2 x' u').obj x' dt' u' ht cs vals j2.obj.ext.extra

end compiled

/-! ### Concrete modules -/

/-- `toyC` with another bias. -/
noncomputable def toyB (b : ℝ) : Constraint ℝ ℝ Unit := { toyC none with bias := b }

theorem toyB_value (b u : ℝ) : barrierValue toyF toyG (toyB b) 1 [u] =
    some (u + if 0 ≤ 1 + b then 1 + b else 10 * (1 + b) - 1 / 100) := by
  have e : strengthening (toyB b) id (1 + b) = if 0 ≤ 1 + b then 1 + b else 10 * (1 + b) - 1 / 100 := by
    unfold strengthening
    split
    · rfl
    · simp [toyB, toyC]; ring
  rw [← e]
  simp [barrierValue, toyB, toyC, toyF, toyG, matVec, vadd]

theorem toyB_ok (b u : ℝ) (h : 0 ≤ 1 + b) : BarrierOK toyF toyG (toyB b) 1 [u] 0 ↔ 0 ≤ u + (1 + b) := by
  unfold BarrierOK
  rw [toyB_value, if_pos h]
  simp

/-- The toy module with a further constraint. -/
noncomputable def toyAdded (b : ℝ) : ASIFObj ℝ ℝ Unit Unit :=
  setConstraints ((toyObj none false).constraints ++ [("k", toyB b)]) (toyObj none false)

theorem toyAdded_shapes (b : ℝ) (x : ℝ) : ShapesOK toyF toyG (toyAdded b) x := by
  refine ⟨?_, ?_, rfl, by simp [toyG, toyObj, toyAdded, setConstraints], by simp [toyObj, toyAdded, setConstraints]⟩ <;>
  · intro kc hkc
    simp only [toyAdded, setConstraints, toyObj, List.cons_append, List.nil_append, List.mem_cons, List.not_mem_nil, or_false] at hkc
    rcases hkc with rfl | rfl <;> simp [toyB, toyC, toyF]

theorem toyAdded_admissible (b u : ℝ) (h1 : -1 ≤ u) (h2 : u ≤ 2) (hb : 0 ≤ 1 + b) (h3 : 0 ≤ u + (1 + b)) :
    AdmissibleS toyF toyG (toyAdded b) 1 [u] [] := by
  refine ⟨rfl, by simp [toyAdded, setConstraints, toyObj, slackScales, toyC, toyB],
    (toy_within none false u).2 ⟨by linarith, h2⟩, ?_, by simp [toyObj, toyAdded, setConstraints]⟩
  intro cd hcd _
  have e : assignSlack (toyAdded b).constraints ([] : List ℝ) = [(toyC none, 0), (toyB b, 0)] := by
    simp [toyAdded, setConstraints, toyObj, assignSlack, toyC, toyB]
  rw [e] at hcd
  simp only [List.mem_cons, List.not_mem_nil, or_false] at hcd
  rcases hcd with rfl | rfl
  · rw [toy_barrier, if_pos (by norm_num)]; linarith
  · exact (toyB_ok b u hb).2 h3

/-- **C116 is violated**: the module answers `-1` for `x = 1`, `u = -2`; then `x - 1 / 2 ≥ 0` is added. The control `0` is
admissible, but the call raises `IndexError`. -/
theorem C116_refuted_added (solver : Solver ℝ) (hspec : SolverSpec solver) (dt : ℝ) :
    (explicitASIF solver toyF toyG (toyObj none false) (.array 1) dt [-2]).1 = .ok [-1] ∧
    (∃ w d, AdmissibleS toyF toyG (toyAdded (-(1 / 2))) 1 w d) ∧
    (explicitASIF solver toyF toyG (toyAdded (-(1 / 2))) (.array 1) dt [-2]).1 = .error .indexError := by
  obtain ⟨s', hcall, -⟩ := toy_intervening solver hspec dt
  have hc : (explicitASIF solver toyF toyG (toyObj none false) (.array 1) dt [-2]).1 = .ok [-1] := by rw [hcall]
  have hadm : ∃ w d, AdmissibleS toyF toyG (toyAdded (-(1 / 2))) 1 w d :=
    ⟨[0], [], toyAdded_admissible _ 0 (by norm_num) (by norm_num) (by norm_num) (by norm_num)⟩
  refine ⟨hc, hadm, ?_⟩
  refine C116_added_raises hspec (toy_module solver none false) (toy_pos_none false) rfl rfl (by simp [dictKeys, toyObj]) rfl hc rfl
    (toyAdded_shapes _ _) hadm rfl ?_
  rw [toyB_ok _ _ (by norm_num)]
  norm_num

/-- The hypotheses of `C116_added_fine`: the added constraint `x + 1 ≥ 0` is strictly satisfied at the answer `-1`. -/
example (solver : Solver ℝ) (hspec : SolverSpec solver) (dt : ℝ) :
    (explicitASIF solver toyF toyG (toyAdded 1) (.array 1) dt [-2]).1 = .ok [-1] := by
  obtain ⟨s', hcall, -⟩ := toy_intervening solver hspec dt
  refine C116_added_fine hspec (toy_module solver none false) (toy_pos_none false) rfl rfl (by simp [dictKeys, toyObj]) rfl
    (by rw [hcall]) rfl (toyAdded_shapes _ _)
    ⟨[0], [], toyAdded_admissible _ 0 (by norm_num) (by norm_num) (by norm_num) (by norm_num)⟩ fun _ => ⟨1, ?_, one_pos⟩
  rw [toyB_value, if_pos (by norm_num)]
  norm_num

/-- The hypotheses of `C116_closest` and `C116_returns_partial`: after the constraint was removed from the toy module the desired
control `-2` is returned; before it was `-1`. -/
example (dt : ℝ) : (explicitASIF refSolver toyF toyG (toyObj none false) (.array 1) dt [-2]).1 = .ok [-1] ∧
    (explicitASIF refSolver toyF toyG (setConstraints [] (toyObj none false)) (.array 1) dt [-2]).1 = .ok [-2] := by
  obtain ⟨s', hcall, -⟩ := toy_intervening refSolver refSolver_spec dt
  refine ⟨by rw [hcall], ?_⟩
  have hu : ChangedUse refSolver toyF toyG (toyObj none false) (setConstraints [] (toyObj none false)) :=
    .change [] .start (by simp [dictKeys]) (by simp [slackScales, toyObj, toyC])
  have hpos : ScalesPos (setConstraints [] (toyObj none false)).constraints := by intro w hw; cases hw
  have hw : AdmissibleS toyF toyG (setConstraints [] (toyObj none false)) 1 [-2] [] :=
    ⟨rfl, rfl, (toy_within none false (-2)).2 (by norm_num), (fun cd hcd => by simp [setConstraints, assignSlack] at hcd), by simp [toyObj, setConstraints]⟩
  rcases C116_returns_partial refSolver_spec (toy_module refSolver none false) hu hpos rfl 1
    ⟨by simp [setConstraints], by simp [setConstraints], rfl, by simp [toyG, toyObj, setConstraints], by simp [toyObj, setConstraints]⟩ dt [-2] rfl
    ⟨_, _, hw⟩ with ⟨v, hv⟩ | ⟨h, -⟩
  · obtain ⟨d, had, hmin⟩ := C116_closest refSolver_spec (toy_module refSolver none false) hu hpos rfl 1 dt [-2] v (Prod.ext hv rfl)
      ⟨_, _, hw⟩
    rw [hv]
    by_contra hne
    have hd : d = [] := List.length_eq_zero_iff.1 had.slen
    subst hd
    have := hmin _ _ hw (fun e => hne (by simpa using e))
    have e : slackScales (setConstraints [] (toyObj none false)).constraints = [] := rfl
    rw [e] at this
    simp only [List.map_nil, slackCost_nil] at this
    have h0 : sqDist [(-2 : ℝ)] [-2] = 0 := by simp [sqDist, vsub, sqNorm]
    rw [h0] at this
    obtain ⟨q, rfl⟩ := List.length_eq_one_iff.1 (show v.length = 1 from had.len)
    simp only [sqDist, vsub, sqNorm, List.zipWith_cons_cons, List.zipWith_nil_right, dot_cons, dot_nil_left] at this
    nlinarith [mul_self_nonneg ((-2 : ℝ) - q)]
  · simp [setConstraints] at h

/-- The hypotheses of `C116_infeasible`: the constraint is replaced by one that no control can meet at `x = 1`. -/
example (dt : ℝ) : (explicitASIF refSolver toyF toyG (setConstraints [("c", toyB (-10))] (toyObj none false)) (.array 1) dt [3]).1 = .ok [2] := by
  have hu : ChangedUse refSolver toyF toyG (toyObj none false) (setConstraints [("c", toyB (-10))] (toyObj none false)) :=
    .change _ .start (by simp [dictKeys]) (by simp [slackScales, toyObj, toyC, toyB])
  rw [C116_infeasible refSolver_spec (toy_module refSolver none false) hu (by intro w hw; simp [setConstraints, slackScales, toyB, toyC] at hw) rfl 1
    ⟨by simp [setConstraints, toyB, toyC], by simp [setConstraints, toyB, toyC, toyF], rfl, by simp [toyG, toyObj, setConstraints],
      by simp [toyObj, setConstraints]⟩ dt [3] rfl ?_]
  · show (toyObj none false).toBase.clipControl [3] = _
    have e : (toyObj none false).toBase.clipControl [3] = .ok [min (max 3 (-2)) 2] := rfl
    rw [e]
    norm_num
  · rintro ⟨w, d, h⟩
    obtain ⟨q, rfl⟩ := List.length_eq_one_iff.1 (show w.length = 1 from h.len)
    have hb := (toy_within none false q).1 h.bounds
    obtain ⟨p, hp, hp0⟩ := h.barrier (toyB (-10), 0) (by simp [setConstraints, assignSlack, toyB, toyC]) rfl
    rw [toyB_value, if_neg (by norm_num)] at hp
    have := Option.some.inj hp
    linarith [hb.2]

/-- **C116 is violated**, names: the constraint of the toy module is stored under another key; the list reports the old one,
which is no longer in `module.constraints`. -/
theorem C116_refuted_names (solver : Solver ℝ) (hspec : SolverSpec solver) (dt : ℝ) : ∃ s',
    explicitASIF solver toyF toyG (setConstraints [("z", toyC none)] (toyObj none false)) (.array 1) dt [-2] = (.ok [-1], s') ∧
      s'.ext.causing = some ["c"] ∧ "c" ∉ dictKeys (setConstraints [("z", toyC none)] (toyObj none false)).constraints := by
  obtain ⟨t, hcall, hz⟩ := toy_causing solver hspec dt
  obtain ⟨t', h1, h2⟩ := C116_renamed (toy_module solver none false) .start rfl (cs := [("z", toyC none)])
    (by simp [toyObj]) (by simp [dictKeys]) 1 dt [-2] [-1] hcall
  exact ⟨t', h1, h2.trans hz, by simp [setConstraints, dictKeys]⟩

/-- The hypotheses of `C116_added_slack`, with the effect of `C116_refuted_added`: a slack variable of the added constraint does
not help. -/
example (solver : Solver ℝ) (hspec : SolverSpec solver) (dt w : ℝ) :
    (explicitASIF solver toyF toyG (setConstraints ((toyObj none false).constraints ++
      [("k", { toyB (-(1 / 2)) with slackPriorityScale := some w })]) (toyObj none false)) (.array 1) dt [-2]).1 = .error .indexError := by
  rw [C116_added_slack solver (toy_module solver none false) rfl _ (by simp [dictKeys, toyObj])]
  exact (C116_refuted_added solver hspec dt).2.2

/-- The hypotheses of `C116_explicit_simplex`: a constraint `x ≤ 4` is added to a module in use; control `5` was accepted before
and is not now. -/
example :
    let c : Constraint Int Int Int :=
      { computeFn := fun x p => p - x, phiFn := fun x p => p - x, gradFn := fun _ _ => [-1], alpha := none
        alphaNeg := none, bias := 0, biasNegative := 0, slackPriorityScale := none, params := 4, enabled := true
        subsample := {} }
    let s := (explicitSimplex toyPred (toySimplex (-9) 9) (.array 0) 1 [5]).2
    let s2 := setConstraints (s.constraints ++ [("d", c)]) s
    (dictKeys s2.constraints).Nodup ∧ s2.enable = true ∧ ¬ Latched s2 ∧
    (explicitSimplex toyPred (toySimplex (-9) 9) (.array 0) 1 [5]).1 = .ok [5] ∧
    (explicitSimplex toyPred s2 (.array 0) 1 [5]).1 = .ok [0] := by
  intro c s s2
  refine ⟨by decide +kernel, rfl, ?_, rfl, rfl⟩
  have h1 : s2.intervening = false := rfl
  simp [Latched, h1]

/-- The hypotheses of `C116_implicit_simplex`: all constraints are removed. -/
example :
    let s2 := setConstraints [] toyImplicit
    (dictKeys s2.constraints).Nodup ∧ s2.enable = true ∧ ¬ Latched s2 ∧
    (∀ x z, ∃ ub, s2.ext.ctrl.gen x (1/2) z = some (ub, (fun _ z => match z with
        | CState.array n => CState.array (n + 1) | z => z) x z) ∧ s2.toBase.clipControl ub = .ok ((fun _ _ => [-1]) x z)) := by
  refine ⟨by simp [dictKeys, setConstraints], rfl, by simp [Latched, setConstraints, toyImplicit, Base.init], fun x z => ?_⟩
  cases z <;> exact ⟨[-1], rfl, rfl⟩

/-- The hypotheses of `C116_compiled_removed`, and the effect: after the only constraint was removed the compiled module still
answers `4` for the desired control `10`, the module without compiled methods `10`. -/
example :
    letI : HasSqrt Rat := ⟨fun x => x⟩
    let f : Rat → Rat → List Rat := fun _ _ => [0]
    let g : Rat → Rat → List (List Rat) := fun m _ => [[1 / m]]
    let j : ASIFJ Nat Rat Rat Unit Rat := ASIFJ.compose true [] (jitASIF 1)
    let l : List (Use (ASIFObj Rat Rat Unit Rat) Rat Rat) := [.call (.array 0) 1 [1], .modify (setConstraints []),
      .call (.array 1) 1 [10]]
    let j2 := (explicitASIFJ jitSolver (fun _ _ _ _ => 0) (fun _ _ _ _ => 0) f g j (.array 0) 1 [1]).2
    j.jit.barrierJit = true ∧ j.obj.enable = true ∧
      (explicitASIFJ jitSolver (fun _ _ _ _ => 0) (fun _ _ _ _ => 0) f g j (.array 0) 1 [1]).1 = .ok [1] ∧
      (dictKeys j2.obj.constraints).Nodup ∧ (updateParams j2.obj).params = j2.obj.params ∧
      (updateParams j2.obj).constraintEnabled = j2.obj.constraintEnabled ∧
      (useAll (explicitASIFJ jitSolver (fun _ _ _ _ => 0) (fun _ _ _ _ => 0) f g) (fun m j => { j with obj := m j.obj }) l j).1 =
        [.ok [1], .ok [4]] ∧
      (useAll (fun s : ASIFObj Rat Rat Unit Rat => explicitASIF jitSolver (f s.ext.extra) (g s.ext.extra) s) (fun m s => m s) l
        (jitASIF 1)).1 = [.ok [1], .ok [10]] := by
  refine ⟨rfl, rfl, ?_⟩
  decide +kernel

end RTA
