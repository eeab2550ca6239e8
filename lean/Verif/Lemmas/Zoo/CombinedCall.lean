import Verif.Spec.Zoo.Combined
import Verif.Props.ASIF
import Verif.Props.Zoo.Combined

/-!
Calls of a combined module whose deputy module is an explicit one.
-/
namespace RTA
variable {P X : Type}

theorem runE_append {K S : Type} [Field K] [LinearOrder K] [HasSqrt K] (solver : Solver K) (f : S → List K) (g : S → List (List K))
    (s : ASIFObj K S P X) (ops ops' : List (AOp K S P)) : runE solver f g s (ops ++ ops') = runE solver f g (runE solver f g s ops) ops' := by
  induction ops generalizing s with
  | nil => rfl
  | cons op ops ih => exact ih _

theorem ExplicitModule.call {K S : Type} [Field K] [LinearOrder K] [HasSqrt K] {solver : Solver K} {f : S → List K} {g : S → List (List K)}
    {s : ASIFObj K S P X} (h : ExplicitModule solver f g s) (i : InputState S) (dt : K) (u : List K) :
    ExplicitModule solver f g (explicitASIF solver f g s i dt u).2 := by
  obtain ⟨high, low, all, use, eps, n, exc, direct, extra, s0, ops, h1, h2, h3, rfl⟩ := h
  exact ⟨high, low, all, use, eps, n, exc, direct, extra, s0, ops ++ [.call i dt u], h1, h2, h3, by rw [runE_append]; rfl⟩

section
variable {f : List ℝ → List ℝ} {g : List ℝ → List (List ℝ)}

/-- What a call leaves as it is. -/
structure KeptBy (s t : ASIFObj ℝ (List ℝ) P X) : Prop where
  low : t.controlBoundsLow = s.controlBoundsLow
  high : t.controlBoundsHigh = s.controlBoundsHigh
  enable : t.enable = s.enable
  constraints : t.constraints = s.constraints
  controlDim : t.ext.controlDim = s.ext.controlDim
  exc : t.ext.solverException = s.ext.solverException
  direct : t.ext.direct = s.ext.direct
  epsilon : t.ext.epsilon = s.ext.epsilon

theorem KeptBy.refl (s : ASIFObj ℝ (List ℝ) P X) : KeptBy s s := ⟨rfl, rfl, rfl, rfl, rfl, rfl, rfl, rfl⟩

theorem KeptBy.trans {r s t : ASIFObj ℝ (List ℝ) P X} (h : KeptBy r s) (k : KeptBy s t) : KeptBy r t :=
  ⟨k.low.trans h.low, k.high.trans h.high, k.enable.trans h.enable, k.constraints.trans h.constraints, k.controlDim.trans h.controlDim,
    k.exc.trans h.exc, k.direct.trans h.direct, k.epsilon.trans h.epsilon⟩

theorem ExplicitModule.kept {solver : Solver ℝ} {s : ASIFObj ℝ (List ℝ) P X} (h : ExplicitModule solver f g s)
    (x : InputState (List ℝ)) (dt : ℝ) (u : List ℝ) : KeptBy s (explicitASIF solver f g s x dt u).2 := by
  have := explicit_after_call solver f g (directWF_of_inv h.inv.1) x dt u
  exact ⟨this.low, this.high, this.enable, this.constraints, this.controlDim, this.exc, this.direct, this.epsilon⟩

theorem AdmissibleS.kept {s t : ASIFObj ℝ (List ℝ) P X} (h : KeptBy s t) {x u d : List ℝ} (ha : AdmissibleS f g s x u d) : AdmissibleS f g t x u d :=
  ⟨by rw [h.controlDim]; exact ha.len, by rw [h.constraints]; exact ha.slen, by rw [h.low, h.high]; exact ha.bounds,
    by rw [h.constraints]; exact ha.barrier, by rw [h.direct]; exact ha.direct⟩

theorem KeptBy.symm {s t : ASIFObj ℝ (List ℝ) P X} (h : KeptBy s t) : KeptBy t s :=
  ⟨h.low.symm, h.high.symm, h.enable.symm, h.constraints.symm, h.controlDim.symm, h.exc.symm, h.direct.symm, h.epsilon.symm⟩

theorem ShapesOK.kept {s t : ASIFObj ℝ (List ℝ) P X} (h : KeptBy s t) {x : List ℝ} (hs : ShapesOK f g s x) : ShapesOK f g t x := by
  obtain ⟨h1, h2, h3, h4, h5⟩ := hs
  exact ⟨by rw [h.constraints]; exact h1, by rw [h.constraints]; exact h2, h3, by rw [h.controlDim]; exact h4, by rw [h.direct, h.controlDim]; exact h5⟩

/-- When every agent's program is solvable (or failures raise), a successful call gives every agent an admissible control. -/
theorem combined_agents {solver : Solver ℝ} (hspec : SolverSpec solver) {s s' : CombinedObj ℝ (ASIFObj ℝ (List ℝ) P X)} {lo hi : ℝ}
    (hs : CombinedInUse solver f g lo hi s) (hsp : ScalesPos s.deputyRta.constraints) {x uDes u : List ℝ} {dt : ℝ}
    (hu : uDes.length = 3 * s.numDeputies)
    (hsh : ∀ q < s.numDeputies, ShapesOK f g s.deputyRta (agentState x q))
    (hsolv : s.deputyRta.ext.solverException = true ∨ ∀ q < s.numDeputies, ∃ w d, AdmissibleS f g s.deputyRta (agentState x q) w d)
    (h : combinedFilter (deputyFilter solver f g) s x dt uDes = (.ok u, s')) :
    u.length = 3 * s.numDeputies ∧ ∀ q < s.numDeputies, ∃ d, AdmissibleS f g s.deputyRta (agentState x q) (pySlice u (3 * q) (3 * q + 3)) d := by
  unfold combinedFilter filterControl at h
  simp only [modifyBase, HasBase.get, HasBase.set, hs.on, if_true] at h
  rcases hr : combinedCompute (deputyFilter solver f g) { s with enable := true, controlDesired := some uDes } x dt uDes with ⟨e | v, s1⟩
  · rw [hr] at h; simp at h
  rw [hr] at h
  simp only at h
  unfold combinedCompute at hr
  simp only [Prod.mk.injEq] at hr
  obtain ⟨hv, rfl⟩ := hr
  rcases hl : combinedLoop (deputyFilter solver f g) x dt uDes s.deputyRta (zeros (s.numDeputies * 3)) s.numDeputies with ⟨res, m⟩
  rw [hl] at hv
  simp only at hv
  subst hv
  obtain ⟨h1, ms, h2, h4, -, h6⟩ := combinedLoop_spec (N := s.numDeputies) (by simp [zeros]; omega) (Nat.le_refl _) hl
  -- The deputy module along the way.
  have hmod : ∀ i, i ≤ s.numDeputies → ∃ m, ms[i]? = some m ∧ ExplicitModule solver f g m ∧ KeptBy s.deputyRta m := by
    intro i
    induction i with
    | zero => exact fun _ => ⟨_, h4, hs.module, KeptBy.refl _⟩
    | succ i ih =>
      intro hi
      obtain ⟨m0, e0, hm0, hk0⟩ := ih (by omega)
      obtain ⟨m1, m2, r, e1, e2, e3, -⟩ := h6 i (by omega)
      obtain rfl : m1 = m0 := Option.some.inj (e1.symm.trans e0)
      unfold deputyFilter at e3
      have em : m2 = (explicitASIF solver f g m1 (.array (agentState x i)) dt (pySlice uDes (3 * i) (3 * i + 3))).2 := by rw [e3]
      exact ⟨m2, e2, em ▸ hm0.call _ _ _, hk0.trans (em ▸ hm0.kept _ _ _)⟩
  have hadm : ∀ q < s.numDeputies, ∃ d, AdmissibleS f g s.deputyRta (agentState x q) (pySlice v (3 * q) (3 * q + 3)) d := by
    intro q hq
    obtain ⟨m1, m2, r, e1, -, e3, e4⟩ := h6 q hq
    obtain ⟨m0, e0, hm0, hk0⟩ := hmod q hq.le
    obtain rfl : m1 = m0 := Option.some.inj (e1.symm.trans e0)
    unfold deputyFilter at e3
    have hsp1 : ScalesPos m1.constraints := by rw [hk0.constraints]; exact hsp
    have hen : m1.enable = true := hk0.enable.trans hs.deputyOn
    have hex : ∃ w d, AdmissibleS f g m1 (agentState x q) w d := by
      rcases hsolv with hexc | hsolv
      · by_contra hno
        have hlen : (pySlice uDes (3 * q) (3 * q + 3)).length = m1.ext.controlDim := by
          rw [hk0.controlDim, hs.dim]; simp [pySlice]; omega
        have := C27_infeasible_policy hspec hm0 hsp1 hen (agentState x q) ((hsh q hq).kept hk0) dt _ hlen hno
        rw [e3, if_pos (hk0.exc.trans hexc)] at this
        cases this
      · obtain ⟨w, d, hw⟩ := hsolv q hq
        exact ⟨w, d, hw.kept hk0⟩
    obtain ⟨-, d, -, had, -⟩ := explicit_solved hspec hm0.inv.1 hm0.inv.2 hsp1 hen e3 hex
    have hl3 : r.length = 3 := by rw [had.len, hk0.controlDim, hs.dim]
    rcases e4 with ⟨-, e⟩ | ⟨a, rfl, -⟩
    · exact ⟨d, by rw [e]; exact had.kept hk0.symm⟩
    · simp at hl3
  -- The combined module's own bounds change nothing.
  have hcl : Base.clipControl { s.toBase with enable := true, controlDesired := some uDes } v = .ok v := by
    refine C05_clip_identity _ v (by rw [hs.low]; trivial) (by rw [hs.high]; trivial) ?_
    intro i a ha
    have hi : i < 3 * s.numDeputies := by
      have := (List.getElem?_eq_some_iff.1 ha).1
      omega
    obtain ⟨d, hd⟩ := hadm (i / 3) (by omega)
    have hb := hd.bounds (i % 3) a (by
      unfold pySlice
      rw [List.getElem?_take_of_lt (by omega), List.getElem?_drop, ← ha]
      congr 1
      omega)
    show WithinAt s.controlBoundsLow s.controlBoundsHigh i a
    rw [hs.low, hs.high]
    rw [hs.deputyLow, hs.deputyHigh] at hb
    exact hb
  have hcl' : (HasBase.get ({ s with enable := true, controlDesired := some uDes, deputyRta := m } : CombinedObj ℝ (ASIFObj ℝ (List ℝ) P X))).clipControl v = .ok v := hcl
  rw [hl] at h
  simp only [HasBase.get] at hcl'
  rw [hcl'] at h
  simp only [Prod.mk.injEq, Except.ok.injEq] at h
  obtain ⟨rfl, -⟩ := h
  exact ⟨h1, hadm⟩

theorem Admissible.kept {s t : ASIFObj ℝ (List ℝ) P X} (h : KeptBy s t) {x u : List ℝ} (ha : Admissible f g s x u) : Admissible f g t x u :=
  ⟨by rw [h.controlDim]; exact ha.len, by rw [h.low, h.high]; exact ha.bounds, by rw [h.constraints]; exact ha.barrier,
    by rw [h.direct]; exact ha.direct⟩

/-- When the desired control of every agent is admissible, the combined module changes nothing. -/
theorem combined_unchanged {solver : Solver ℝ} (hspec : SolverSpec solver) {s : CombinedObj ℝ (ASIFObj ℝ (List ℝ) P X)} {lo hi : ℝ}
    (hs : CombinedInUse solver f g lo hi s) (hsp : ScalesPos s.deputyRta.constraints) (heps : 0 ≤ s.deputyRta.ext.epsilon) {x u : List ℝ} {dt : ℝ}
    (hu : u.length = 3 * s.numDeputies)
    (hsh : ∀ q < s.numDeputies, ShapesOK f g s.deputyRta (agentState x q))
    (hadm : ∀ q < s.numDeputies, Admissible f g s.deputyRta (agentState x q) (pySlice u (3 * q) (3 * q + 3))) :
    ∃ s', combinedFilter (deputyFilter solver f g) s x dt u = (.ok u, s') := by
  have hloop : ∀ k, k ≤ s.numDeputies → ∃ m, combinedLoop (deputyFilter solver f g) x dt u s.deputyRta (zeros (s.numDeputies * 3)) k =
      (.ok (u.take (3 * k) ++ zeros (3 * (s.numDeputies - k))), m) ∧ ExplicitModule solver f g m ∧ KeptBy s.deputyRta m := by
    intro k
    induction k with
    | zero => exact fun _ => ⟨_, by simp [combinedLoop, mul_comm], hs.module, KeptBy.refl _⟩
    | succ k ih =>
      intro hk
      obtain ⟨m, e, hm, hkept⟩ := ih (by omega)
      have h1 := (C25_no_interference hspec hm (by rw [hkept.constraints]; exact hsp) (by rw [hkept.epsilon]; exact heps)
        (hkept.enable.trans hs.deputyOn) (agentState x k) ((hsh k (by omega)).kept hkept) dt _ ((hadm k (by omega)).kept hkept)).1
      refine ⟨(explicitASIF solver f g m (.array (agentState x k)) dt (pySlice u (3 * k) (3 * k + 3))).2, ?_, hm.call _ _ _, hkept.trans (hm.kept _ _ _)⟩
      rw [combinedLoop, e]
      simp only
      have h2 : deputyFilter solver f g m (agentState x k) dt (pySlice u (3 * k) (3 * k + 3)) =
        (.ok (pySlice u (3 * k) (3 * k + 3)), (explicitASIF solver f g m (.array (agentState x k)) dt (pySlice u (3 * k) (3 * k + 3))).2) :=
        Prod.ext h1 rfl
      rw [h2]
      simp only [Prod.mk.injEq, and_true]
      have h3 : (pySlice u (3 * k) (3 * k + 3)).length = 3 := by simp [pySlice]; omega
      obtain ⟨a, b, c, habc⟩ : ∃ a b c, pySlice u (3 * k) (3 * k + 3) = [a, b, c] := by
        match pySlice u (3 * k) (3 * k + 3), h3 with
        | [a, b, c], _ => exact ⟨a, b, c, rfl⟩
      rw [habc]
      unfold assignBlock
      simp only [Except.ok.injEq]
      have h4 : (u.take (3 * k)).length = 3 * k := by simp; omega
      rw [List.take_append_of_le_length h4.ge, List.take_of_length_le h4.le, ← habc, List.drop_append, h4,
        List.drop_eq_nil_of_le (by omega), List.nil_append, show 3 * k + 3 - 3 * k = 3 by omega]
      congr 1
      · unfold pySlice
        rw [show 3 * k + 3 - 3 * k = 3 by omega, show 3 * (k + 1) = 3 * k + 3 by ring, List.take_add]
      · simp only [zeros, List.drop_replicate]
        congr 1
        omega
  obtain ⟨m, e, -, -⟩ := hloop s.numDeputies le_rfl
  rw [Nat.sub_self, Nat.mul_zero, List.take_of_length_le hu.le] at e
  have e0 : (zeros 0 : List ℝ) = [] := rfl
  rw [e0, List.append_nil] at e
  have hcl : Base.clipControl { s.toBase with enable := true, controlDesired := some u } u = .ok u := by
    refine C05_clip_identity _ u (by rw [hs.low]; trivial) (by rw [hs.high]; trivial) ?_
    intro i a ha
    have hi : i < 3 * s.numDeputies := by
      have := (List.getElem?_eq_some_iff.1 ha).1
      omega
    have hb := (hadm (i / 3) (by omega)).bounds (i % 3) a (by
      unfold pySlice
      rw [List.getElem?_take_of_lt (by omega), List.getElem?_drop, ← ha]
      congr 1
      omega)
    show WithinAt s.controlBoundsLow s.controlBoundsHigh i a
    rw [hs.low, hs.high]
    rw [hs.deputyLow, hs.deputyHigh] at hb
    exact hb
  unfold combinedFilter filterControl
  simp only [modifyBase, HasBase.get, HasBase.set, hs.on, if_true]
  have hr : combinedCompute (deputyFilter solver f g) { s with enable := true, controlDesired := some u } x dt u =
      (.ok u, { s with enable := true, controlDesired := some u, deputyRta := m }) := by
    unfold combinedCompute
    simp only
    rw [e]
  rw [hr]
  simp only
  rw [hcl]
  exact ⟨_, rfl⟩

end
end RTA
