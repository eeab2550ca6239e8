import Mathlib.Data.List.FinRange
import Verif.Spec.Zoo.Renumber
import Verif.Lemmas.Zoo.Renumber
import Verif.Props.Zoo.CombinedInspection

/-!
C115: the numbering of the deputies does not matter.
-/
namespace RTA

theorem flatten_length_of {d : Nat} (l : List (List ℝ)) (h : ∀ q ∈ l, q.length = d) : l.flatten.length = d * l.length := by
  induction l with
  | nil => simp
  | cons q l ih =>
    rw [List.flatten_cons, List.length_append, h q (by simp), ih fun r hr => h r (by simp [hr]), List.length_cons]
    ring

/-- **C115, the other deputies.** The answer of a deputy module with all its constraints does not depend on the order in which the other
deputies are listed in the state; nor on earlier calls, the step length or the solver. -/
theorem C115_others {solver solver' : Solver ℝ} (hspec : SolverSpec solver) (hspec' : SolverSpec solver') {c : MultiConfig}
    {s t : ASIFObj ℝ (List ℝ) InspParams Unit} (hs : ExplicitModule solver (multiF c) (fun _ => multiG c) s)
    (ht : ExplicitModule solver' (multiF c) (fun _ => multiG c) t) (hens : s.enable = true) (hent : t.enable = true)
    (hcs : s.constraints = multiConstraints c) (hct : t.constraints = multiConstraints c) (hds : s.ext.controlDim = 3)
    (hdt : t.ext.controlDim = 3) (hrs : s.ext.direct = []) (hrt : t.ext.direct = []) (hlo : t.controlBoundsLow = s.controlBoundsLow)
    (hhi : t.controlBoundsHigh = s.controlBoundsHigh) (hexc : t.ext.solverException = s.ext.solverException)
    {own : List ℝ} {others others' : List (List ℝ)} (hp : others.Perm others') (hown : own.length = 6) (ho : ∀ q ∈ others, q.length = 6)
    (hN : others.length + 1 = c.numDeputies) (sun dt dt' : ℝ) {u : List ℝ} (hu : u.length = 3) :
    (explicitASIF solver' (multiF c) (fun _ => multiG c) t (.array (own ++ others'.flatten ++ [sun])) dt' u).1 =
      (explicitASIF solver (multiF c) (fun _ => multiG c) s (.array (own ++ others.flatten ++ [sun])) dt u).1 := by
  have hl : ∀ l : List (List ℝ), l.length = others.length → (∀ q ∈ l, q.length = 6) →
      (own ++ l.flatten ++ [sun]).length = 6 * c.numDeputies + 1 := fun l e h => by
    rw [List.length_append, List.length_append, hown, flatten_length_of l h, e]
    simp only [List.length_singleton]
    omega
  have ho' : ∀ q ∈ others', q.length = 6 := fun q hq => ho q (hp.mem_iff.2 hq)
  have key : ∀ (l l' : List (List ℝ)), l.Perm l' → l.length = others.length → (∀ q ∈ l, q.length = 6) → ∀ w,
      (∀ kc ∈ multiConstraints c, kc.2.enabled = true → BarrierOK (multiF c) (fun _ => multiG c) kc.2 (own ++ l.flatten ++ [sun]) w 0) →
      ∀ kc ∈ multiConstraints c, kc.2.enabled = true → BarrierOK (multiF c) (fun _ => multiG c) kc.2 (own ++ l'.flatten ++ [sun]) w 0 := by
    intro l l' hll e h w hw
    have := barriers_perm (c := c) hll [own] sun w (by simp) (by simpa using hown) h (by rw [e, List.length_singleton]; omega)
    simp only [List.flatten_cons, List.flatten_nil, List.append_nil] at this
    exact this hw
  refine same_admissible_same_answer hspec hspec' hs ht hens hent (by rw [hcs]; exact multi_noslack c) (by rw [hct]; exact multi_noslack c)
    (multi_shapes (by omega) hcs hds hrs (hl others rfl ho)) (multi_shapes (by omega) hct hdt hrt (hl others' hp.length_eq.symm ho'))
    (hdt.trans hds.symm) hlo hhi hexc (fun w => ?_) dt dt' (hu.trans hds.symm)
  constructor
  · intro h
    exact ⟨by rw [hds, ← hdt]; exact h.len, by rw [← hlo, ← hhi]; exact h.bounds,
      by rw [hcs]; exact key _ _ hp.symm hp.length_eq.symm ho' w (by rw [← hct]; exact h.barrier), by rw [hrs]; simp⟩
  · intro h
    exact ⟨by rw [hdt, ← hds]; exact h.len, by rw [hlo, hhi]; exact h.bounds,
      by rw [hct]; exact key _ _ hp rfl ho w (by rw [← hcs]; exact h.barrier), by rw [hrt]; simp⟩

/-! ### The combined module, call by call -/

theorem slice_flatten {d : Nat} (l : List (List ℝ)) (h : ∀ q ∈ l, q.length = d) {i : Nat} (hi : i < l.length) :
    pySlice l.flatten (d * i) (d * i + d) = l[i] := by
  induction l generalizing i with
  | nil => simp at hi
  | cons q l ih =>
    have hq : q.length = d := h q (by simp)
    unfold pySlice at ih ⊢
    cases i with
    | zero => simp [← hq]
    | succ i =>
      have := ih (fun r hr => h r (by simp [hr])) (by simpa using hi)
      rw [List.flatten_cons, show d * (i + 1) + d - d * (i + 1) = d * i + d - d * i by omega,
        show d * (i + 1) = q.length + d * i by rw [hq]; ring, List.drop_append]
      simp only [List.getElem_cons_succ]
      rw [← this, List.drop_eq_nil_of_le (by omega), List.nil_append, Nat.add_sub_cancel_left, Nat.add_sub_cancel_left]

section
variable {solver : Solver ℝ} {c : MultiConfig} {lo hi : ℝ} {s : CombinedObj ℝ (ASIFObj ℝ (List ℝ) InspParams Unit)}

/-- What deputy `i` is answered. -/
noncomputable def deputyAnswer (solver : Solver ℝ) (c : MultiConfig) (m : ASIFObj ℝ (List ℝ) InspParams Unit) (x : List ℝ) (dt : ℝ) (u : List ℝ)
    (i : Nat) : Except PyErr (List ℝ) :=
  (explicitASIF solver (multiF c) (fun _ => multiG c) m (.array (agentState x i)) dt (pySlice u (3 * i) (3 * i + 3))).1

variable (hspec : SolverSpec solver) (hs : CombinedInUse solver (multiF c) (fun _ => multiG c) lo hi s)
  (hcs : s.deputyRta.constraints = multiConstraints c) (hN : s.numDeputies = c.numDeputies)
include hspec hs hcs

theorem deputy_again {m : ASIFObj ℝ (List ℝ) InspParams Unit} (hm : ExplicitModule solver (multiF c) (fun _ => multiG c) m)
    (hk : KeptBy s.deputyRta m) {x : List ℝ} (hx : x.length = 6 * c.numDeputies + 1) (hc : 0 < c.numDeputies) (dt : ℝ) {u : List ℝ}
    (hu : u.length = 3) :
    (explicitASIF solver (multiF c) (fun _ => multiG c) m (.array x) dt u).1 =
      (explicitASIF solver (multiF c) (fun _ => multiG c) s.deputyRta (.array x) dt u).1 := by
  have hcm : m.constraints = multiConstraints c := hk.constraints.trans hcs
  refine same_admissible_same_answer hspec hspec hs.module hm hs.deputyOn (hk.enable.trans hs.deputyOn) (by rw [hcs]; exact multi_noslack c)
    (by rw [hcm]; exact multi_noslack c) (multi_shapes hc hcs hs.dim hs.direct hx)
    (multi_shapes hc hcm (hk.controlDim.trans hs.dim) (hk.direct.trans hs.direct) hx)
    hk.controlDim hk.low hk.high hk.exc (fun w => ?_) dt dt (hu.trans hs.dim.symm)
  constructor
  · intro h
    exact ⟨by rw [← hk.controlDim]; exact h.len, by rw [← hk.low, ← hk.high]; exact h.bounds, by rw [← hk.constraints]; exact h.barrier,
      by rw [← hk.direct]; exact h.direct⟩
  · intro h
    exact ⟨by rw [hk.controlDim]; exact h.len, by rw [hk.low, hk.high]; exact h.bounds, by rw [hk.constraints]; exact h.barrier,
      by rw [hk.direct]; exact h.direct⟩

theorem deputy_length {x : List ℝ} (hx : x.length = 6 * c.numDeputies + 1) (hc : 0 < c.numDeputies) {dt : ℝ} {u v : List ℝ}
    (hu : u.length = 3) (h : (explicitASIF solver (multiF c) (fun _ => multiG c) s.deputyRta (.array x) dt u).1 = .ok v) : v.length = 3 := by
  have hns : slackScales s.deputyRta.constraints = [] := by rw [hcs]; exact multi_noslack c
  have hpos : ScalesPos s.deputyRta.constraints := by intro w hw; rw [hns] at hw; simp at hw
  have hsh := multi_shapes hc hcs hs.dim hs.direct hx
  by_cases ha : ∃ w, Admissible (multiF c) (fun _ => multiG c) s.deputyRta x w
  · rw [← hs.dim]
    exact (C24_closest_admissible hspec hs.module hns hs.deputyOn x dt u v (Prod.ext h rfl) ha).1.len
  · have hno : ¬ ∃ w d, AdmissibleS (multiF c) (fun _ => multiG c) s.deputyRta x w d := by
      rintro ⟨w, d, hw⟩
      exact ha ⟨w, ((admissibleS_noslack hns).1 hw).2⟩
    have := C27_infeasible_policy hspec hs.module hpos hs.deputyOn x hsh dt u (hu.trans hs.dim.symm) hno
    rw [h] at this
    split at this
    · cases this
    · obtain ⟨y, hy, hl⟩ := C05_clip_total s.deputyRta.toBase u (by rw [hs.deputyLow]; trivial) (by rw [hs.deputyHigh]; trivial)
      rw [hy] at this
      cases this
      rw [hl, hu]

include hN

/-- The loop succeeds exactly if every deputy is answered, and puts the answers together. -/
theorem loop_iff (hc : 0 < c.numDeputies) {x : List ℝ} (hx : x.length = 6 * c.numDeputies + 1) (dt : ℝ) {u : List ℝ}
    (hu : u.length = 3 * c.numDeputies) {k : Nat} (hk : k ≤ c.numDeputies) (V : List ℝ) :
    (combinedLoop (deputyFilter solver (multiF c) fun _ => multiG c) x dt u s.deputyRta (zeros (s.numDeputies * 3)) k).1 = .ok V ↔
      ∃ vs : List (List ℝ), vs.length = k ∧ (∀ q ∈ vs, q.length = 3) ∧ (∀ i (h : i < vs.length), deputyAnswer solver c s.deputyRta x dt u i = .ok vs[i]) ∧
        V = vs.flatten ++ zeros (3 * (c.numDeputies - k)) := by
  have hmod : ∀ k ≤ c.numDeputies,
      ExplicitModule solver (multiF c) (fun _ => multiG c)
        (combinedLoop (deputyFilter solver (multiF c) fun _ => multiG c) x dt u s.deputyRta (zeros (s.numDeputies * 3)) k).2 ∧
      KeptBy s.deputyRta (combinedLoop (deputyFilter solver (multiF c) fun _ => multiG c) x dt u s.deputyRta (zeros (s.numDeputies * 3)) k).2 := by
    intro k
    induction k with
    | zero => exact fun _ => ⟨hs.module, KeptBy.refl _⟩
    | succ k ih =>
      intro hk
      obtain ⟨h1, h2⟩ := ih (by omega)
      simp only [combinedLoop]
      rcases hr : combinedLoop (deputyFilter solver (multiF c) fun _ => multiG c) x dt u s.deputyRta (zeros (s.numDeputies * 3)) k with ⟨e | V, m⟩
      · rw [hr] at h1 h2; exact ⟨h1, h2⟩
      · rw [hr] at h1 h2
        simp only at h1 h2 ⊢
        have a1 := h1.call (.array (agentState x k)) dt (pySlice u (3 * k) (3 * k + 3))
        have a2 := h2.trans (h1.kept (.array (agentState x k)) dt (pySlice u (3 * k) (3 * k + 3)))
        unfold deputyFilter
        rcases hq : explicitASIF solver (multiF c) (fun _ => multiG c) m (.array (agentState x k)) dt (pySlice u (3 * k) (3 * k + 3)) with ⟨e | r, m'⟩
        · rw [hq] at a1 a2; exact ⟨a1, a2⟩
        · rw [hq] at a1 a2; exact ⟨a1, a2⟩
  induction k generalizing V with
  | zero =>
    simp only [combinedLoop]
    have hz : zeros (s.numDeputies * 3) = (zeros (3 * c.numDeputies) : List ℝ) := by rw [hN, Nat.mul_comm]
    constructor
    · intro h
      cases h
      exact ⟨[], rfl, by simp, by simp, by simp [hz]⟩
    · rintro ⟨vs, h1, -, -, h4⟩
      obtain rfl := List.length_eq_zero_iff.1 h1
      rw [h4, hz]
      simp
  | succ k ih =>
    obtain ⟨h1, h2⟩ := hmod k (by omega)
    have hxk := agentState_length hx (q := k) (by omega)
    have huk : (pySlice u (3 * k) (3 * k + 3)).length = 3 := by rw [pySlice_length (by omega)]; omega
    have hA := deputy_again hspec hs hcs h1 h2 hxk hc dt huk
    have put : ∀ (vs : List (List ℝ)) (r : List ℝ), vs.length = k → (∀ q ∈ vs, q.length = 3) → r.length = 3 →
        assignBlock (vs.flatten ++ zeros (3 * (c.numDeputies - k))) k r = .ok ((vs ++ [r]).flatten ++ zeros (3 * (c.numDeputies - (k + 1)))) := by
      intro vs r hv hv3 hr
      have hl := flatten_length_of vs hv3
      rw [hv] at hl
      match r, hr with
      | [a, b, e], _ =>
        have hz : zeros (3 * (c.numDeputies - k)) = (zeros 3 ++ zeros (3 * (c.numDeputies - (k + 1))) : List ℝ) := by
          unfold zeros
          rw [List.replicate_append_replicate]
          congr 1
          omega
        simp only [assignBlock]
        rw [List.take_append_of_le_length (by omega), List.take_of_length_le (by omega), hz, ← List.append_assoc,
          List.drop_append_of_le_length (by rw [List.length_append, hl, zeros, List.length_replicate]),
          List.drop_eq_nil_of_le (by rw [List.length_append, hl, zeros, List.length_replicate])]
        simp
    rcases hr : combinedLoop (deputyFilter solver (multiF c) fun _ => multiG c) x dt u s.deputyRta (zeros (s.numDeputies * 3)) k with ⟨e | W, m⟩
    · -- An earlier deputy is not answered.
      simp only [combinedLoop, hr]
      refine ⟨fun h => (nomatch h), ?_⟩
      rintro ⟨vs, g1, g2, g3, -⟩
      have : k < vs.length := by omega
      have hW := (ih (by omega) ((vs.take k).flatten ++ zeros (3 * (c.numDeputies - k)))).2
        ⟨vs.take k, by simp [g1], fun q hq => g2 q (List.mem_of_mem_take hq), fun i hi => by
          rw [List.getElem_take]; exact g3 i (by simp at hi; omega), rfl⟩
      rw [hr] at hW
      cases hW
    · rw [hr] at hA
      simp only at hA
      obtain ⟨vs, g1, g2, g3, rfl⟩ := (ih (by omega) W).1 (by rw [hr])
      simp only [combinedLoop, hr, deputyFilter]
      rcases hq : explicitASIF solver (multiF c) (fun _ => multiG c) m (.array (agentState x k)) dt (pySlice u (3 * k) (3 * k + 3)) with ⟨e | r, m'⟩
      · simp only
        refine ⟨fun h => (nomatch h), ?_⟩
        rintro ⟨vs', f1, -, f3, -⟩
        have := f3 k (by omega)
        unfold deputyAnswer at this
        rw [← hA, hq] at this
        cases this
      · rw [hq] at hA
        have hr3 : r.length = 3 := deputy_length hspec hs hcs hxk hc huk hA.symm
        simp only
        rw [put vs r g1 g2 hr3]
        constructor
        · intro h
          cases h
          refine ⟨vs ++ [r], by simp [g1], fun q hq => ?_, fun i hi => ?_, rfl⟩
          · rcases List.mem_append.1 hq with hq | hq
            · exact g2 q hq
            · simp only [List.mem_singleton] at hq; subst hq; exact hr3
          · rcases Nat.lt_or_ge i vs.length with h' | h'
            · rw [List.getElem_append_left h']; exact g3 i h'
            · have hi' : i < vs.length + 1 := by simpa using hi
              obtain rfl : i = vs.length := by omega
              rw [List.getElem_append_right le_rfl]
              simp only [Nat.sub_self, List.getElem_singleton]
              rw [g1]
              exact hA.symm
        · rintro ⟨vs', f1, f2, f3, rfl⟩
          have e : vs' = vs ++ [r] := by
            refine List.ext_getElem (by simp [f1, g1]) fun i i1 i2 => ?_
            have := f3 i i1
            rcases Nat.lt_or_ge i vs.length with h' | h'
            · rw [List.getElem_append_left h']
              rw [g3 i h'] at this
              exact (Except.ok.inj this).symm
            · obtain rfl : i = k := by omega
              rw [List.getElem_append_right (by omega)]
              simp only [List.getElem_singleton]
              unfold deputyAnswer at this
              rw [← hA] at this
              exact (Except.ok.inj this).symm
          rw [e]

theorem combined_iff (hc : 0 < c.numDeputies) {x : List ℝ} (hx : x.length = 6 * c.numDeputies + 1) (dt : ℝ) {u : List ℝ}
    (hu : u.length = 3 * c.numDeputies) (V : List ℝ) :
    (combinedFilter (deputyFilter solver (multiF c) fun _ => multiG c) s x dt u).1 = .ok V ↔
      ∃ vs : List (List ℝ), vs.length = c.numDeputies ∧ (∀ q ∈ vs, q.length = 3) ∧
        (∀ i (h : i < vs.length), deputyAnswer solver c s.deputyRta x dt u i = .ok vs[i]) ∧
        V = (vs.map (List.map fun a => min (max a lo) hi)).flatten := by
  have hclip : ∀ (b : Base ℝ) (W : List ℝ), b.controlBoundsLow = some (.scalar lo) → b.controlBoundsHigh = some (.scalar hi) →
      b.clipControl W = .ok (W.map fun a => min (max a lo) hi) := by
    intro b W h1 h2
    have z : ∀ (f : ℝ → ℝ → ℝ) (W : List ℝ) (a : ℝ), List.zipWith f W (List.replicate W.length a) = W.map fun b => f b a := by
      intro f W a
      induction W with
      | nil => rfl
      | cons w W ih => simp [List.replicate_succ, ih]
    unfold Base.clipControl
    rw [h1, h2]
    simp only [Option.isSome_some, Bool.or_self, if_true, npClip, Bound.bcast, Bound.toList, Option.bind_some]
    have hb : bcastTo W.length W = W := by
      unfold bcastTo
      split <;> simp_all
    rw [hb, z]
    have := z min (W.map fun b => max b lo) hi
    rw [List.length_map] at this
    rw [this, List.map_map]
    rfl
  have L := loop_iff hspec hs hcs hN hc hx dt hu le_rfl
  unfold combinedFilter filterControl
  simp only [modifyBase, HasBase.get, HasBase.set, hs.on, if_true, combinedCompute]
  rw [← hN] at L
  rcases hr : combinedLoop (deputyFilter solver (multiF c) fun _ => multiG c) x dt u s.deputyRta (zeros (s.numDeputies * 3)) s.numDeputies
    with ⟨e | W, m⟩
  · simp only
    refine ⟨fun h => (nomatch h), ?_⟩
    rintro ⟨vs, h1, h2, h3, -⟩
    have := (L _).2 ⟨vs, h1.trans hN.symm, h2, h3, rfl⟩
    rw [hr] at this
    cases this
  · rw [hr] at L
    simp only
    have hcl := hclip { s.toBase with enable := true, controlDesired := some u } W hs.low hs.high
    simp only [hcl]
    constructor
    · intro h
      cases h
      obtain ⟨vs, h1, h2, h3, h4⟩ := (L W).1 rfl
      refine ⟨vs, h1.trans hN, h2, h3, ?_⟩
      rw [h4, ← List.map_flatten]
      simp [zeros]
    · rintro ⟨vs, h1, h2, h3, rfl⟩
      have := (L _).2 ⟨vs, h1.trans hN.symm, h2, h3, rfl⟩
      cases this
      rw [← List.map_flatten]
      simp [zeros]

end

/-! ### C115 -/

section
variable {solver : Solver ℝ} {c : MultiConfig} {lo hi : ℝ} {s : CombinedObj ℝ (ASIFObj ℝ (List ℝ) InspParams Unit)}

theorem fleet_length {N d : Nat} {b : Fin N → List ℝ} (h : ∀ i, (b i).length = d) : (fleet b).length = d * N := by
  unfold fleet
  rw [flatten_length_of _ (d := d), List.length_ofFn]
  intro q hq
  obtain ⟨i, rfl⟩ := (List.mem_ofFn' b q).1 hq
  exact h i

/-- **C115.** Numbering the deputies differently, in the state and in the desired controls, numbers the returned controls in the same way:
every deputy is given the same control whatever its number. -/
theorem C115_renumbering (hspec : SolverSpec solver) (hs : CombinedInUse solver (multiF c) (fun _ => multiG c) lo hi s)
    (hcs : s.deputyRta.constraints = multiConstraints c) (hN : s.numDeputies = c.numDeputies) (hc : 0 < c.numDeputies)
    (p : Equiv.Perm (Fin c.numDeputies)) {b w : Fin c.numDeputies → List ℝ} (hb : ∀ i, (b i).length = 6) (hw : ∀ i, (w i).length = 3)
    (sun dt : ℝ) {u : List ℝ}
    (h : (combinedFilter (deputyFilter solver (multiF c) fun _ => multiG c) s (fleet b ++ [sun]) dt (fleet w)).1 = .ok u) :
    ∃ v : Fin c.numDeputies → List ℝ, u = fleet v ∧ (∀ i, (v i).length = 3) ∧
      (combinedFilter (deputyFilter solver (multiF c) fun _ => multiG c) s (fleet (b ∘ p) ++ [sun]) dt (fleet (w ∘ p))).1 = .ok (fleet (v ∘ p)) := by
  have hx : ∀ b : Fin c.numDeputies → List ℝ, (∀ i, (b i).length = 6) → (fleet b ++ [sun]).length = 6 * c.numDeputies + 1 := fun b hb => by
    rw [List.length_append, fleet_length hb]; rfl
  have hmem : ∀ {d : Nat} {b : Fin c.numDeputies → List ℝ}, (∀ i, (b i).length = d) → ∀ q ∈ List.ofFn b, q.length = d := fun hb q hq => by
    obtain ⟨i, rfl⟩ := (List.mem_ofFn' _ q).1 hq
    exact hb i
  obtain ⟨vs, h1, h2, h3, rfl⟩ := (combined_iff hspec hs hcs hN hc (hx b hb) dt (by rw [fleet_length hw]) u).1 h
  -- What a deputy is answered under its new number.
  have hans : ∀ (i : Nat) (hi : i < c.numDeputies), deputyAnswer solver c s.deputyRta (fleet (b ∘ p) ++ [sun]) dt (fleet (w ∘ p)) i =
      deputyAnswer solver c s.deputyRta (fleet b ++ [sun]) dt (fleet w) (p ⟨i, hi⟩) := by
    intro i hi
    have hbp : ∀ i, ((b ∘ p) i).length = 6 := fun i => hb _
    have hwp : ∀ i, ((w ∘ p) i).length = 3 := fun i => hw _
    have e1 := C50_agent_state (blocks := List.ofFn (b ∘ p)) (hmem hbp) [sun] (i := i) (by simpa using hi)
    have e2 := C50_agent_state (blocks := List.ofFn b) (hmem hb) [sun] (i := (p ⟨i, hi⟩ : Nat)) (by simp)
    have e3 := slice_flatten (List.ofFn (w ∘ p)) (hmem hwp) (i := i) (by simpa using hi)
    have e4 := slice_flatten (List.ofFn w) (hmem hw) (i := (p ⟨i, hi⟩ : Nat)) (by simp)
    have q1 := C50_each_agent_once (blocks := List.ofFn (b ∘ p)) (i := i) (by simpa using hi)
    have q2 := C50_each_agent_once (blocks := List.ofFn b) (i := (p ⟨i, hi⟩ : Nat)) (by simp)
    simp only [List.getElem_ofFn, Function.comp_apply, Fin.eta] at e1 e2 e3 e4 q1 q2
    have q := (q2.trans ((p.ofFn_comp_perm b).symm.trans q1.symm)).cons_inv
    unfold deputyAnswer
    unfold fleet
    rw [e1, e2, e3, e4]
    refine C115_others hspec hspec hs.module hs.module hs.deputyOn hs.deputyOn hcs hcs hs.dim hs.dim hs.direct hs.direct rfl rfl rfl q (hb _) ?_ ?_
      sun dt dt (hw _)
    · exact fun r hr => hmem hb r (List.mem_of_mem_eraseIdx hr)
    · rw [List.length_eraseIdx_of_lt (by simp), List.length_ofFn]; omega
  refine ⟨fun i => (vs[(i : Nat)]'(by omega)).map fun a => min (max a lo) hi, ?_, fun i => ?_, ?_⟩
  · unfold fleet
    congr 1
    refine List.ext_getElem (by simp [h1]) fun i i1 i2 => ?_
    simp
  · rw [List.length_map]
    exact h2 _ (List.getElem_mem _)
  · refine (combined_iff hspec hs hcs hN hc (hx (b ∘ p) fun i => hb _) dt (u := fleet (w ∘ p)) (fleet_length fun i => hw _) _).2
      ⟨List.ofFn fun i : Fin c.numDeputies => vs[((p i : Fin c.numDeputies) : Nat)]'(by omega), by simp, ?_, ?_, ?_⟩
    · exact hmem fun i => h2 _ (List.getElem_mem _)
    · intro i hi
      have hi' : i < c.numDeputies := by simpa using hi
      rw [hans i hi', h3 _ (by omega)]
      simp
    · unfold fleet
      congr 1
      refine List.ext_getElem (by simp) fun i i1 i2 => ?_
      simp

/-- **C115, failures.** Whether the call succeeds does not depend on the numbering either. -/
theorem C115_raises (hspec : SolverSpec solver) (hs : CombinedInUse solver (multiF c) (fun _ => multiG c) lo hi s)
    (hcs : s.deputyRta.constraints = multiConstraints c) (hN : s.numDeputies = c.numDeputies) (hc : 0 < c.numDeputies)
    (p : Equiv.Perm (Fin c.numDeputies)) {b w : Fin c.numDeputies → List ℝ} (hb : ∀ i, (b i).length = 6) (hw : ∀ i, (w i).length = 3)
    (sun dt : ℝ) :
    (∃ u, (combinedFilter (deputyFilter solver (multiF c) fun _ => multiG c) s (fleet (b ∘ p) ++ [sun]) dt (fleet (w ∘ p))).1 = .ok u) ↔
      ∃ u, (combinedFilter (deputyFilter solver (multiF c) fun _ => multiG c) s (fleet b ++ [sun]) dt (fleet w)).1 = .ok u := by
  constructor
  · rintro ⟨u, h⟩
    obtain ⟨v, -, -, hv⟩ := C115_renumbering hspec hs hcs hN hc p.symm (fun i => hb _) (fun i => hw _) sun dt h
    refine ⟨fleet (v ∘ p.symm), ?_⟩
    rw [← hv]
    have e : ∀ f : Fin c.numDeputies → List ℝ, (fun i => f (p i)) ∘ p.symm = f := fun f => by funext i; simp
    rw [e, e]
  · rintro ⟨u, h⟩
    obtain ⟨v, -, -, hv⟩ := C115_renumbering hspec hs hcs hN hc p hb hw sun dt h
    exact ⟨_, hv⟩

end

theorem combined_succeeds {solver : Solver ℝ} {c : MultiConfig} {lo hi : ℝ} {s : CombinedObj ℝ (ASIFObj ℝ (List ℝ) InspParams Unit)}
    (hspec : SolverSpec solver) (hs : CombinedInUse solver (multiF c) (fun _ => multiG c) lo hi s)
    (hcs : s.deputyRta.constraints = multiConstraints c) (hN : s.numDeputies = c.numDeputies) (hc : 0 < c.numDeputies)
    (hexc : s.deputyRta.ext.solverException = false) {x : List ℝ} (hx : x.length = 6 * c.numDeputies + 1) (dt : ℝ) {u : List ℝ}
    (hu : u.length = 3 * c.numDeputies) : ∃ v, (combinedFilter (deputyFilter solver (multiF c) fun _ => multiG c) s x dt u).1 = .ok v := by
  have hpos : ScalesPos s.deputyRta.constraints := by intro w hw; rw [hcs, multi_noslack] at hw; simp at hw
  have key : ∀ i : Fin c.numDeputies, ∃ v, deputyAnswer solver c s.deputyRta x dt u i = .ok v ∧ v.length = 3 := by
    intro i
    have hxi := agentState_length hx i.2
    have hui : (pySlice u (3 * (i : Nat)) (3 * (i : Nat) + 3)).length = 3 := by rw [pySlice_length (by omega)]; omega
    have T := explicit_total hspec hs.module.inv.1 hs.module.inv.2 hpos (multi_shapes hc hcs hs.dim hs.direct hxi) dt (hui.trans hs.dim.symm)
      hs.deputyOn
    have : ∃ v, deputyAnswer solver c s.deputyRta x dt u i = .ok v := by
      by_cases ha : ∃ w d, AdmissibleS (multiF c) (fun _ => multiG c) s.deputyRta (agentState x i) w d
      · exact T.1 ha
      · obtain ⟨y, hy, -⟩ := C05_clip_total s.deputyRta.toBase (pySlice u (3 * (i : Nat)) (3 * (i : Nat) + 3)) (by rw [hs.deputyLow]; trivial)
          (by rw [hs.deputyHigh]; trivial)
        refine ⟨y, ?_⟩
        unfold deputyAnswer
        rw [T.2 ha, hexc, ← hy]
        rfl
    obtain ⟨v, hv⟩ := this
    exact ⟨v, hv, deputy_length hspec hs hcs hxi hc hui hv⟩
  choose v hv hl using key
  refine ⟨_, (combined_iff hspec hs hcs hN hc hx dt hu _).2 ⟨List.ofFn v, by simp, fun q hq => ?_, fun i hi => ?_, rfl⟩⟩
  · obtain ⟨i, rfl⟩ := (List.mem_ofFn' _ q).1 hq
    exact hl i
  · rw [List.getElem_ofFn]
    exact hv ⟨i, by simpa using hi⟩

/-- A module as in C115 with two deputies, and a call of it: the deputies wait at rest ahead of the chief. It clips the desired controls where
its program has no solution, so every call succeeds. -/
example {solver : Solver ℝ} (hspec : SolverSpec solver) : ∃ (s : CombinedObj ℝ (ASIFObj ℝ (List ℝ) InspParams Unit)) (u : List ℝ),
    CombinedInUse solver (multiF multiStill) (fun _ => multiG multiStill) (-1) 1 s ∧ s.deputyRta.constraints = multiConstraints multiStill ∧
    s.numDeputies = multiStill.numDeputies ∧ 0 < multiStill.numDeputies ∧
    (combinedFilter (deputyFilter solver (multiF multiStill) fun _ => multiG multiStill) s
      (fleet (N := 2) ![[0, 100, 0, 0, 0, 0], [0, 300, 0, 0, 0, 0]] ++ [Real.pi / 6]) 1 (fleet (N := 2) ![[1, 0, 0], [0, 0, 0]])).1 = .ok u := by
  have hl : selectConstraints (multiConstraints multiStill) none = .ok (multiConstraints multiStill) := rfl
  obtain ⟨s, h⟩ : ∃ s, multiASIF multiStill none (some (.scalar 1)) (some (.scalar (-1))) (1 / 100) false = .ok s := ⟨_, rfl⟩
  obtain ⟨h1, h2, h3, h4, h5, h6, h7, h8⟩ := multi_init_use hl h
  have hu := combined_in_use (solver := solver) hl h
  obtain ⟨v, hv⟩ := combined_succeeds hspec hu h1 rfl (by decide) h7 (x := fleet (N := 2) ![[0, 100, 0, 0, 0, 0], [0, 300, 0, 0, 0, 0]] ++ [Real.pi / 6])
    rfl 1 (u := fleet (N := 2) ![[1, 0, 0], [0, 0, 0]]) rfl
  exact ⟨_, v, hu, h1, rfl, by decide, hv⟩

end RTA
