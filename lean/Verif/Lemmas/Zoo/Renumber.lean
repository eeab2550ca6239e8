import Verif.Lemmas.Zoo.MultiStays
import Verif.Lemmas.Zoo.MultiOwn
import Verif.Props.Zoo.InspectionMulti
import Verif.Props.Symmetry
import Verif.Lemmas.ASIFContinuity
import Verif.Props.Units

/-!
The constraints of the multi-deputy inspection module when the other deputies are listed in another order.
-/
namespace RTA
open Real

/-- The components of a vector in another order. -/
noncomputable def reindex (p : Nat → Nat) (x : List ℝ) : List ℝ := (List.range x.length).map fun k => comp x (p k)

theorem reindex_length (p : Nat → Nat) (x : List ℝ) : (reindex p x).length = x.length := by simp [reindex]

theorem comp_reindex {p : Nat → Nat} {x : List ℝ} {k : Nat} (h : k < x.length) : comp (reindex p x) k = comp x (p k) := by
  unfold comp reindex
  rw [List.getD_eq_getElem?_getD, List.getElem?_map, List.getElem?_range h]
  rfl

/-- Vectors of equal length with equal components are equal. -/
theorem ext_comp {x y : List ℝ} (hl : x.length = y.length) (h : ∀ k < x.length, comp x k = comp y k) : x = y := by
  refine List.ext_getElem hl fun k h1 h2 => ?_
  have := h k h1
  unfold comp at this
  rwa [List.getD_eq_getElem?_getD, List.getD_eq_getElem?_getD, List.getElem?_eq_getElem h1, List.getElem?_eq_getElem h2] at this

/-- An order of the components that only moves the blocks of the other deputies: block `i` comes to place `b i`. -/
structure Renum (N : Nat) (p b : Nat → Nat) : Prop where
  inv : ∀ k, p (p k) = k
  lt : ∀ k < 6 * N + 1, p k < 6 * N + 1
  block : ∀ i < N, ∀ r < 6, p (6 * i + r) = 6 * b i + r
  zero : b 0 = 0
  last : p (6 * N) = 6 * N
  other : ∀ i, Other N i → Other N (b i)
  invol : ∀ i, b (b i) = i

section
variable {N : Nat} {p b : Nat → Nat} (hp : Renum N p b)
include hp

theorem Renum.reindex_reindex {x : List ℝ} (hx : x.length = 6 * N + 1) : reindex p (reindex p x) = x := by
  refine ext_comp (by rw [reindex_length, reindex_length]) fun k hk => ?_
  rw [reindex_length, reindex_length] at hk
  rw [comp_reindex (by rw [reindex_length]; exact hk), comp_reindex (by rw [hx]; exact hp.lt k (by omega)), hp.inv]

theorem Renum.set {x : List ℝ} (hx : x.length = 6 * N + 1) {k : Nat} (s : ℝ) :
    (reindex p x).set k s = reindex p (x.set (p k) s) := by
  refine ext_comp (by simp [reindex_length]) fun i hi => ?_
  rw [List.length_set, reindex_length] at hi
  rw [comp_reindex (by simpa using hi)]
  by_cases h : i = k
  · subst h
    rw [comp_set_self (by rw [reindex_length]; exact hi), comp_set_self (by rw [hx]; exact hp.lt i (by omega))]
  · rw [comp_set_ne (Ne.symm h), comp_reindex hi, comp_set_ne fun e => h (by rw [← hp.inv i, ← e, hp.inv])]

theorem Renum.partials {P : Type} {h h' : List ℝ → P → ℝ} {q : P} (hh : ∀ y, y.length = 6 * N + 1 → h' (reindex p y) q = h y q)
    {x : List ℝ} (hx : x.length = 6 * N + 1) : partials h' (reindex p x) q = reindex p (partials h x q) := by
  refine ext_comp (by rw [partials_length, reindex_length, reindex_length, partials_length]) fun k hk => ?_
  rw [partials_length, reindex_length] at hk
  have hpk : p k < x.length := by rw [hx]; exact hp.lt k (by omega)
  rw [comp_reindex (by rw [partials_length]; exact hk)]
  have e : ∀ {h : List ℝ → P → ℝ} {x : List ℝ} {k : Nat}, k < x.length → comp (RTA.partials h x q) k = deriv (fun s => h (x.set k s) q) (comp x k) := by
    intro h x k hk
    unfold RTA.partials comp
    rw [List.getD_eq_getElem?_getD, List.getElem?_map, List.getElem?_range hk]
    rfl
  rw [e (by rw [reindex_length]; exact hk), e hpk, comp_reindex hk]
  congr 1
  funext s
  rw [hp.set hx, hh _ (by simpa using hx)]

theorem Renum.dot {v w : List ℝ} (hv : v.length = 6 * N + 1) (hw : w.length = 6 * N + 1) : dot (reindex p v) (reindex p w) = dot v w := by
  rw [dot_sum (n := 6 * N + 1) (by rw [reindex_length, hv]) (by rw [reindex_length, hw]), dot_sum hv hw]
  refine Finset.sum_bij' (fun k _ => p k) (fun k _ => p k) (fun k hk => ?_) (fun k hk => ?_) (fun k _ => hp.inv k) (fun k _ => hp.inv k) fun k hk => ?_
  · exact Finset.mem_range.2 (hp.lt k (Finset.mem_range.1 hk))
  · exact Finset.mem_range.2 (hp.lt k (Finset.mem_range.1 hk))
  · have hk := Finset.mem_range.1 hk
    have h1 := comp_reindex (p := p) (x := v) (k := k) (by omega)
    have h2 := comp_reindex (p := p) (x := w) (k := k) (by omega)
    unfold comp at h1 h2
    rw [h1, h2]

theorem Renum.slice {x : List ℝ} (hx : x.length = 6 * N + 1) {i o e : Nat} (hi : i < N) (he : e ≤ 6) :
    pySlice (reindex p x) (6 * b i + o) (6 * b i + e) = pySlice x (6 * i + o) (6 * i + e) := by
  have hbi : b i < N := by
    rcases Nat.eq_zero_or_pos i with rfl | h
    · rw [hp.zero]; exact hi
    · exact (hp.other i ⟨h, hi⟩).2
  have l1 : (pySlice (reindex p x) (6 * b i + o) (6 * b i + e)).length = e - o := by
    rw [pySlice_length (by rw [reindex_length]; omega)]; omega
  have l2 : (pySlice x (6 * i + o) (6 * i + e)).length = e - o := by
    rw [pySlice_length (by omega)]; omega
  refine ext_comp (by rw [l1, l2]) fun k hk => ?_
  rw [l1] at hk
  rw [comp_pySlice (by omega), comp_pySlice (by omega), comp_reindex (by omega)]
  have := hp.block (b i) hbi (o + k) (by omega)
  rw [hp.invol] at this
  rw [show 6 * b i + o + k = 6 * b i + (o + k) by omega, this]
  congr 1
  omega

theorem Renum.comp_block {x : List ℝ} (hx : x.length = 6 * N + 1) {i r : Nat} (hi : i < N) (hr : r < 6) :
    comp (reindex p x) (6 * b i + r) = comp x (6 * i + r) := by
  have hbi : b i < N := by
    rcases Nat.eq_zero_or_pos i with rfl | h
    · rw [hp.zero]; exact hi
    · exact (hp.other i ⟨h, hi⟩).2
  rw [comp_reindex (by omega), hp.block _ hbi r hr, hp.invol]

theorem Renum.comp_last {x : List ℝ} (hx : x.length = 6 * N + 1) : comp (reindex p x) (6 * N) = comp x (6 * N) := by
  rw [comp_reindex (by omega), hp.last]

theorem Renum.minGrad {F F' : ℝ → List ℝ → ℝ} (hF : ∀ t y, y.length = 6 * N + 1 → F' t (reindex p y) = F t y) (times : List ℝ) {x : List ℝ}
    (hx : x.length = 6 * N + 1) : minGrad F' times (reindex p x) = reindex p (minGrad F times x) := by
  have e1 : leastTimes F' times (reindex p x) = leastTimes F times x := by
    unfold leastTimes
    simp only [hF _ _ hx]
  have hl : ∀ ts : List ℝ, (ts.foldr (fun t acc => vadd (RTA.partials (fun y _ => F t y) x ()) acc) (zeros x.length)).length = 6 * N + 1 := by
    intro ts
    induction ts with
    | nil => simp [zeros, hx]
    | cons t ts ih => rw [List.foldr_cons, vadd_length _ _ (by rw [ih, partials_length, hx]), ih]
  have hadd : ∀ v w : List ℝ, v.length = 6 * N + 1 → w.length = 6 * N + 1 → vadd (reindex p v) (reindex p w) = reindex p (vadd v w) := by
    intro v w hv hw
    have l : (vadd v w).length = 6 * N + 1 := by rw [vadd_length _ _ (by rw [hv, hw]), hw]
    refine ext_comp (by rw [vadd_length _ _ (by rw [reindex_length, reindex_length, hv, hw]), reindex_length, reindex_length, l, hw]) fun k hk => ?_
    rw [vadd_length _ _ (by rw [reindex_length, reindex_length, hv, hw]), reindex_length, hw] at hk
    rw [comp_vadd (by rw [reindex_length, reindex_length, hv, hw]), comp_reindex (by omega), comp_reindex (by omega), comp_reindex (by omega),
      comp_vadd (by rw [hv, hw])]
  have hz : zeros (reindex p x).length = reindex p (zeros x.length) := by
    refine ext_comp (by simp [zeros, reindex_length]) fun k hk => ?_
    have hk' : k < x.length := by simpa [zeros, reindex_length] using hk
    rw [comp_reindex (by simpa [zeros] using hk')]
    have z : ∀ m i : Nat, comp (zeros m) i = 0 := fun m i => by
      unfold comp zeros
      rw [List.getD_eq_getElem?_getD, List.getElem?_replicate]
      split <;> rfl
    rw [z, z]
  have e2 : ∀ ts : List ℝ, ts.foldr (fun t acc => vadd (RTA.partials (fun y _ => F' t y) (reindex p x) ()) acc) (zeros (reindex p x).length) =
      reindex p (ts.foldr (fun t acc => vadd (RTA.partials (fun y _ => F t y) x ()) acc) (zeros x.length)) := by
    intro ts
    induction ts with
    | nil => exact hz
    | cons t ts ih =>
      rw [List.foldr_cons, List.foldr_cons, ih, hp.partials (h := fun y _ => F t y) (fun y hy => hF t y hy) hx,
        hadd _ _ (by rw [partials_length, hx]) (hl ts)]
  unfold RTA.minGrad
  rw [e1, e2]
  refine ext_comp (by simp [vscale, reindex_length]) fun k hk => ?_
  have hk' : k < 6 * N + 1 := by rw [← hl (leastTimes F times x)]; simpa [vscale, reindex_length] using hk
  have sc : ∀ (a : ℝ) (v : List ℝ) (k : Nat), comp (vscale a v) k = a * comp v k := by
    intro a v k
    unfold comp vscale
    rw [List.getD_eq_getElem?_getD, List.getElem?_map, List.getD_eq_getElem?_getD]
    cases v[k]? <;> simp
  rw [sc, comp_reindex (by rw [hl]; exact hk'), comp_reindex (by simpa [vscale, hl] using hk'), sc]

/-! ### The dynamics -/

theorem Renum.dynamics {c : MultiConfig} (hc : c.numDeputies = N) (hN : 0 < N) {x : List ℝ} (hx : x.length = 6 * N + 1) (w : List ℝ) :
    vadd (multiF c (reindex p x)) (matVec (multiG c) w) = reindex p (vadd (multiF c x) (matVec (multiG c) w)) := by
  subst hc
  have l1 := multi_length hN (x := reindex p x) w
  have l2 := multi_length hN (x := x) w
  refine ext_comp (by rw [reindex_length, l1, l2]) fun k hk => ?_
  rw [l1] at hk
  rw [comp_reindex (by omega)]
  rcases Nat.lt_or_ge k (6 * c.numDeputies) with h | h
  · have hq : k / 6 < c.numDeputies := by omega
    have hbq : b (k / 6) < c.numDeputies := by
      rcases Nat.eq_zero_or_pos (k / 6) with h0 | h0
      · rw [h0, hp.zero]; exact hN
      · exact (hp.other _ ⟨h0, hq⟩).2
    have hr : k % 6 < 6 := Nat.mod_lt _ (by omega)
    have ek : k = 6 * (k / 6) + k % 6 := by omega
    have hpk : p k = 6 * b (k / 6) + k % 6 := by conv_lhs => rw [ek]; exact hp.block _ hq _ hr
    have hz : (k / 6 = 0) = (b (k / 6) = 0) := by
      refine propext ⟨fun e => by rw [e, hp.zero], fun e => ?_⟩
      rw [← hp.invol (k / 6), e, hp.zero]
    rw [hpk, multi_block hN hx hbq hr]
    conv_lhs => rw [ek]
    rw [multi_block hN (by rw [reindex_length, hx]) hq hr]
    have := hp.slice hx (i := b (k / 6)) (o := 0) (e := 6) hbq le_rfl
    rw [hp.invol] at this
    simp only [add_zero] at this
    rw [this]
    simp only [hz]
  · obtain rfl : k = 6 * c.numDeputies := by omega
    rw [hp.last, multi_last hN, multi_last hN]

/-! ### The constraints -/

def MIx.renum (b : Nat → Nat) : MIx → MIx
  | .own k => .own k
  | .coll i => .coll (b i)
  | .dsun i => .dsun (b i)
  | .psm i => .psm (b i)

omit hp in
theorem MIx.renum_renum (h : ∀ i, b (b i) = i) (k : MIx) : (k.renum b).renum b = k := by cases k <;> simp [MIx.renum, h]

theorem Renum.ok {k : MIx} (hk : k.Ok N) : (k.renum b).Ok N := by
  cases k
  case own => trivial
  all_goals exact hp.other _ hk

/-- Every constraint has a constraint that is the same condition in the other order. -/
theorem Renum.same {c : MultiConfig} {k : MIx} (hN : 0 < N) (hk : k.Ok N) {x : List ℝ} (hx : x.length = 6 * N + 1) :
    (multiC c (k.renum b)).2.computeFn (reindex p x) (multiC c (k.renum b)).2.params = (multiC c k).2.computeFn x (multiC c k).2.params ∧
    (multiC c (k.renum b)).2.gradFn (reindex p x) (multiC c (k.renum b)).2.params = reindex p ((multiC c k).2.gradFn x (multiC c k).2.params) := by
  have s03 : ∀ {y : List ℝ}, y.length = 6 * N + 1 → pySlice (reindex p y) 0 3 = pySlice y 0 3 := fun {y} hy => by
    have := hp.slice hy (i := 0) (o := 0) (e := 3) hN (by omega)
    simpa [hp.zero] using this
  have s36 : ∀ {y : List ℝ}, y.length = 6 * N + 1 → pySlice (reindex p y) 3 6 = pySlice y 3 6 := fun {y} hy => by
    have := hp.slice hy (i := 0) (o := 3) (e := 6) hN (by omega)
    simpa [hp.zero] using this
  have cz : ∀ {y : List ℝ}, y.length = 6 * N + 1 → ∀ r < 6, comp (reindex p y) r = comp y r := fun {y} hy r hr => by
    have := hp.comp_block hy (i := 0) (r := r) hN hr
    simpa [hp.zero] using this
  have sun : ∀ {y : List ℝ}, y.length = 6 * N + 1 → multiSun (reindex p y) = multiSun y := fun {y} hy => by
    unfold multiSun
    rw [reindex_length, hy, Nat.add_sub_cancel, hp.comp_last hy]
  have d03 : ∀ {y : List ℝ}, y.length = 6 * N + 1 → ∀ {i}, i < N → pySlice (reindex p y) (6 * b i) (6 * b i + 3) = pySlice y (6 * i) (6 * i + 3) :=
    fun {y} hy {i} hi => by simpa using hp.slice hy (i := i) (o := 0) (e := 3) hi (by omega)
  have rp : ∀ {y : List ℝ}, y.length = 6 * N + 1 → ∀ {i}, i < N → relPos (b i) (reindex p y) = relPos i y := fun {y} hy {i} hi => by
    unfold relPos
    have := hp.slice hy (i := i) (o := 0) (e := 3) hi (by omega)
    simp only [add_zero] at this
    rw [this, s03 hy]
  have rv : ∀ {y : List ℝ}, y.length = 6 * N + 1 → ∀ {i}, i < N → relVel (b i) (reindex p y) = relVel i y := fun {y} hy {i} hi => by
    unfold relVel
    rw [hp.slice hy hi (by omega), s36 hy]
  have sg : ∀ {y : List ℝ}, y.length = 6 * N + 1 → ∀ {i}, i < N → getSign (b i) (reindex p y) = getSign i y := fun {y} hy {i} hi => by
    unfold getSign
    rw [rp hy hi, sun hy]
  have co : ∀ {y : List ℝ}, y.length = 6 * N + 1 → ∀ {i}, i < N → ∀ n t, psmCoast n (reindex p y) (b i * 6) t = psmCoast n y (i * 6) t :=
    fun {y} hy {i} hi n t => by
      unfold psmCoast
      rw [Nat.mul_comm (b i), Nat.mul_comm i, hp.comp_block hy hi (by omega), hp.comp_block hy hi (by omega), hp.comp_block hy hi (by omega),
        hp.comp_block hy hi (by omega), hp.comp_block hy hi (by omega), hp.comp_block hy hi (by omega)]
  have lim : ∀ i < 6, ∀ q : ℝ, q ^ 2 - stateAt (reindex p x) i ^ 2 = q ^ 2 - stateAt x i ^ 2 ∧
      gradAt (reindex p x).length i (-(2 * stateAt (reindex p x) i)) = reindex p (gradAt x.length i (-(2 * stateAt x i))) := by
    intro i hi q
    have e : stateAt (reindex p x) i = stateAt x i := cz hx i hi
    have hpi : p i = i := by have := hp.block 0 hN i hi; simpa [hp.zero] using this
    refine ⟨by rw [e], ?_⟩
    rw [e, reindex_length]
    have hl : ∀ m i (v : ℝ), (gradAt m i v).length = m := fun m i v => by simp [gradAt]
    have hcg : ∀ {m i k : Nat} (v : ℝ), k < m → comp (gradAt m i v) k = if k = i then v else 0 := fun {m i k} v hk => by
      unfold comp gradAt
      rw [List.getD_eq_getElem?_getD, List.getElem?_map, List.getElem?_range hk]
      rfl
    refine ext_comp (by rw [reindex_length, hl]) fun k hk => ?_
    rw [hl] at hk
    rw [comp_reindex (by rw [hl]; exact hk), hcg _ hk, hcg _ (by rw [hx]; exact hp.lt k (by omega))]
    have : (p k = i) = (k = i) := propext ⟨fun h => by rw [← hp.inv k, h, hpi], fun h => by rw [h, hpi]⟩
    simp only [this]
  cases k with
  | own k =>
    cases k
    case rel =>
      simp only [multiC, MIx.renum, inspRelVel, adConstraint, Constraint.mk']
      refine ⟨?_, hp.partials (fun y hy => ?_) hx⟩
      · simp only [relativeVelocity, s03 hx, s36 hx]
      · simp only [relativeVelocity, s03 hy, s36 hy]
    case sun =>
      simp only [multiC, MIx.renum, multiChiefSun, adConstraint, Constraint.mk']
      refine ⟨?_, hp.partials (fun y hy => ?_) hx⟩
      · simp only [s03 hx, s36 hx, sun hx]
      · simp only [s03 hy, s36 hy, sun hy]
    case rmax =>
      simp only [multiC, MIx.renum, inspMaxDistance, adConstraint, Constraint.mk']
      refine ⟨?_, hp.partials (fun y hy => ?_) hx⟩
      · simp only [maxDistance, s03 hx, s36 hx]
      · simp only [maxDistance, s03 hy, s36 hy]
    case psm =>
      have hF : ∀ (r t : ℝ) (y : List ℝ), y.length = 6 * N + 1 → psmFutureState c.n (reindex p y) t r = psmFutureState c.n y t r := fun r t y hy => by
        unfold psmFutureState
        rw [cz hy 0 (by omega), cz hy 1 (by omega), cz hy 2 (by omega), cz hy 3 (by omega), cz hy 4 (by omega), cz hy 5 (by omega)]
      have e : ∀ r dt steps, psmCompute c.n r dt steps (reindex p x) = psmCompute c.n r dt steps x := fun r dt steps => by
        unfold psmCompute
        simp only [hF _ _ _ hx]
      have e' : ∀ r dt steps, psmGrad c.n r dt steps (reindex p x) = reindex p (psmGrad c.n r dt steps x) := fun r dt steps =>
        hp.minGrad (fun t y hy => hF _ t y hy) _ hx
      simp only [multiC, MIx.renum, inspPSM, Constraint.mk', e, e', and_self]
    case vx =>
      simp only [multiC, MIx.renum, inspLimit, Constraint.mk']
      exact lim 3 (by omega) _
    case vy =>
      simp only [multiC, MIx.renum, inspLimit, Constraint.mk']
      exact lim 4 (by omega) _
    case vz =>
      simp only [multiC, MIx.renum, inspLimit, Constraint.mk']
      exact lim 5 (by omega) _
    case coll =>
      simp only [multiC, MIx.renum, inspCollision, adConstraint, Constraint.mk']
      refine ⟨?_, hp.partials (fun y hy => ?_) hx⟩
      · simp only [chiefCollision, s03 hx, s36 hx]
      · simp only [chiefCollision, s03 hy, s36 hy]
  | coll i =>
    simp only [multiC, MIx.renum, multiCollision, adConstraint, Constraint.mk']
    refine ⟨?_, hp.partials (fun y hy => ?_) hx⟩
    · simp only [deputyCollision, s03 hx, s36 hx, Nat.mul_comm _ 6, d03 hx hk.2, hp.slice hx hk.2 (le_refl 6)]
    · simp only [deputyCollision, s03 hy, s36 hy, Nat.mul_comm _ 6, d03 hy hk.2, hp.slice hy hk.2 (le_refl 6)]
  | dsun i =>
    simp only [multiC, MIx.renum, multiDeputySun, adConstraint, Constraint.mk']
    refine ⟨?_, hp.partials (fun y hy => ?_) hx⟩
    · simp only [deputySun, rp hx hk.2, rv hx hk.2, sg hx hk.2, sun hx]
    · simp only [deputySun, rp hy hk.2, rv hy hk.2, sg hy hk.2, sun hy]
  | psm i =>
    have hF : ∀ (r t : ℝ) (y : List ℝ), y.length = 6 * N + 1 → psmDeputyFutureState c.n (b i) (reindex p y) t r = psmDeputyFutureState c.n i y t r :=
      fun r t y hy => by
        unfold psmDeputyFutureState
        have := co hy (i := 0) hN c.n t
        rw [hp.zero, Nat.zero_mul] at this
        rw [this, co hy hk.2]
    have e : ∀ r dt steps, psmDeputyCompute c.n r dt steps (b i) (reindex p x) = psmDeputyCompute c.n r dt steps i x := fun r dt steps => by
      unfold psmDeputyCompute
      simp only [hF _ _ _ hx]
    have e' : ∀ r times, RTA.minGrad (fun t y => psmDeputyFutureState c.n (b i) y t r) times (reindex p x) =
        reindex p (RTA.minGrad (fun t y => psmDeputyFutureState c.n i y t r) times x) := fun r times =>
      hp.minGrad (fun t y hy => hF _ t y hy) _ hx
    simp only [multiC, MIx.renum, multiPSM, Constraint.mk', e, e', and_self]

/-- The same controls satisfy the barrier conditions in both orders. -/
theorem Renum.barriers {c : MultiConfig} (hc : c.numDeputies = N) (hN : 0 < N) {x : List ℝ} (hx : x.length = 6 * N + 1) {w : List ℝ}
    (h : ∀ kc ∈ multiConstraints c, kc.2.enabled = true → BarrierOK (multiF c) (fun _ => multiG c) kc.2 x w 0) :
    ∀ kc ∈ multiConstraints c, kc.2.enabled = true → BarrierOK (multiF c) (fun _ => multiG c) kc.2 (reindex p x) w 0 := by
  rw [multiConstraints_eq] at h ⊢
  intro kc hkc hen
  obtain ⟨k, hk, rfl⟩ := List.mem_map.1 hkc
  have hok : k.Ok N := by rw [← hc]; exact mem_mAll.1 hk
  have hok' := hp.ok hok
  have hb := MIx.renum_renum hp.invol k
  obtain ⟨e1, e2⟩ := hp.same (c := c) hN hok' hx
  rw [hb] at e1 e2
  have hset : (multiC c k).2.enabled = (multiC c (k.renum b)).2.enabled ∧ (multiC c k).2.alpha = (multiC c (k.renum b)).2.alpha ∧
      (multiC c k).2.bias = (multiC c (k.renum b)).2.bias ∧ (multiC c k).2.alphaNeg = (multiC c (k.renum b)).2.alphaNeg ∧
      (multiC c k).2.biasNegative = (multiC c (k.renum b)).2.biasNegative := by
    cases k with
    | own k => exact ⟨rfl, rfl, rfl, rfl, rfl⟩
    | coll i => simp only [multiC, MIx.renum, mCoefs, multiCollision, adConstraint, Constraint.mk', and_self]
    | dsun i => simp only [multiC, MIx.renum, mCoefs, multiDeputySun, adConstraint, Constraint.mk', and_self]
    | psm i => simp only [multiC, MIx.renum, mCoefs, multiPSM, Constraint.mk', and_self]
  obtain ⟨h1, h2, h3, h4, h5⟩ := hset
  obtain ⟨m, hm, hd⟩ := h _ (List.mem_map.2 ⟨k.renum b, mem_mAll.2 (by rw [hc]; exact hok'), rfl⟩) (h1 ▸ hen)
  refine ⟨m, ?_, hd⟩
  rw [← hm]
  have hst : ∀ al v, strengthening (multiC c k).2 al v = strengthening (multiC c (k.renum b)).2 al v := fun al v => by
    unfold strengthening; rw [h4, h5]
  unfold barrierValue
  rw [h2, e1, e2, hp.dynamics hc hN hx, hp.dot (by rw [multi_gradFn_length, hx]) (by rw [← hc]; exact multi_length (hc ▸ hN) _), h3]
  simp only [hst]

end

/-! ### Exchanging two neighbouring deputies -/

/-- The components with blocks `j` and `j + 1` exchanged. -/
def swapIx (j k : Nat) : Nat := if k < 6 * j then k else if k < 6 * j + 6 then k + 6 else if k < 6 * j + 12 then k - 6 else k

/-- The blocks with `j` and `j + 1` exchanged. -/
def swapBlock (j i : Nat) : Nat := if i = j then j + 1 else if i = j + 1 then j else i

theorem swap_renum {N j : Nat} (h1 : 0 < j) (h2 : j + 1 < N) : Renum N (swapIx j) (swapBlock j) := by
  refine ⟨fun k => ?_, fun k hk => ?_, fun i hi r hr => ?_, ?_, ?_, fun i hi => ?_, fun i => ?_⟩
  · unfold swapIx; split_ifs <;> omega
  · unfold swapIx; split_ifs <;> omega
  · unfold swapIx swapBlock; split_ifs <;> omega
  · have e1 : ¬ 0 = j := by omega
    have e2 : ¬ 0 = j + 1 := by omega
    simp only [swapBlock, if_neg e1, if_neg e2]
  · have e1 : ¬ 6 * N < 6 * j := by omega
    have e2 : ¬ 6 * N < 6 * j + 6 := by omega
    have e3 : ¬ 6 * N < 6 * j + 12 := by omega
    simp only [swapIx, if_neg e1, if_neg e2, if_neg e3]
  · unfold swapBlock Other at *; split_ifs <;> omega
  · unfold swapBlock; split_ifs <;> omega

theorem reindex_swap {j : Nat} {A a b T : List ℝ} (hA : A.length = 6 * j) (ha : a.length = 6) (hb : b.length = 6) :
    A ++ (b ++ (a ++ T)) = reindex (swapIx j) (A ++ (a ++ (b ++ T))) := by
  refine ext_comp (by simp [reindex_length]; omega) fun k hk => ?_
  have hk' : k < 6 * j + 12 + T.length := by
    simp only [List.length_append] at hk; omega
  rw [comp_reindex (by simp only [List.length_append]; omega)]
  have R : ∀ (P Q : List ℝ) (k : Nat), P.length ≤ k → comp (P ++ Q) k = comp Q (k - P.length) := fun P Q k h => by
    have := comp_append_right (a := P) (b := Q) (i := k - P.length)
    rwa [Nat.add_sub_cancel' h] at this
  unfold swapIx
  split_ifs with c1 c2 c3
  · rw [comp_append_left (by omega), comp_append_left (by omega)]
  · rw [R A _ k (by omega), R A _ (k + 6) (by omega), comp_append_left (by omega), R a _ _ (by omega), comp_append_left (by omega)]
    congr 1; omega
  · rw [R A _ k (by omega), R A _ (k - 6) (by omega), R b _ _ (by omega), comp_append_left (by omega), comp_append_left (by omega)]
    congr 1; omega
  · rw [R A _ k (by omega), R A _ k (by omega), R b _ _ (by omega), R a _ _ (by omega), R a _ _ (by omega), R b _ _ (by omega)]
    congr 1; omega

/-- Which controls satisfy the barrier conditions does not depend on the order in which the other deputies are listed. -/
theorem barriers_perm {c : MultiConfig} {others others' : List (List ℝ)} (h : others.Perm others') :
    ∀ (pre : List (List ℝ)) (sun : ℝ) (w : List ℝ), 0 < pre.length → (∀ q ∈ pre, q.length = 6) → (∀ q ∈ others, q.length = 6) →
      pre.length + others.length = c.numDeputies →
      (∀ kc ∈ multiConstraints c, kc.2.enabled = true →
        BarrierOK (multiF c) (fun _ => multiG c) kc.2 (pre.flatten ++ others.flatten ++ [sun]) w 0) →
      ∀ kc ∈ multiConstraints c, kc.2.enabled = true →
        BarrierOK (multiF c) (fun _ => multiG c) kc.2 (pre.flatten ++ others'.flatten ++ [sun]) w 0 := by
  have fl : ∀ (l : List (List ℝ)), (∀ q ∈ l, q.length = 6) → l.flatten.length = 6 * l.length := by
    intro l
    induction l with
    | nil => simp
    | cons q l ih =>
      intro hl
      rw [List.flatten_cons, List.length_append, hl q (by simp), ih fun r hr => hl r (by simp [hr]), List.length_cons]
      omega
  induction h with
  | nil => exact fun _ _ _ _ _ _ _ h => h
  | @cons a l l' _ ih =>
    intro pre sun w h0 hpre ho hlen h
    have e : ∀ l : List (List ℝ), pre.flatten ++ (a :: l).flatten ++ [sun] = (pre ++ [a]).flatten ++ l.flatten ++ [sun] := fun l => by simp
    rw [e] at h ⊢
    refine ih (pre ++ [a]) sun w (by simp) (fun q hq => ?_) (fun q hq => ho q (by simp [hq])) (by simp at hlen ⊢; omega) h
    rcases List.mem_append.1 hq with hq | hq
    · exact hpre q hq
    · simp only [List.mem_singleton] at hq; subst hq; exact ho q (by simp)
  | swap a b l =>
    intro pre sun w h0 hpre ho hlen h
    have ha : a.length = 6 := ho a (by simp)
    have hb : b.length = 6 := ho b (by simp)
    have hl := fl l fun q hq => ho q (by simp [hq])
    have hA := fl pre hpre
    simp only [List.length_cons] at hlen
    have e : ∀ a b : List ℝ, pre.flatten ++ (a :: b :: l).flatten ++ [sun] = pre.flatten ++ (a ++ (b ++ (l.flatten ++ [sun]))) := fun a b => by simp
    rw [e] at h ⊢
    rw [reindex_swap hA hb ha]
    exact (swap_renum (N := c.numDeputies) h0 (by omega)).barriers rfl (by omega) (by simp [hA, ha, hb, hl]; omega) h
  | @trans l1 l2 l3 p1 p2 ih1 ih2 =>
    intro pre sun w h0 hpre ho hlen h
    exact ih2 pre sun w h0 hpre (fun q hq => ho q (p1.mem_iff.2 hq)) (by rw [← p1.length_eq]; exact hlen) (ih1 pre sun w h0 hpre ho hlen h)

end RTA
