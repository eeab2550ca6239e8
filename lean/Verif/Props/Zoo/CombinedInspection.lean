import Verif.Lemmas.Zoo.MultiOwn
import Verif.Lemmas.Zoo.CombinedCall
import Verif.Lemmas.Zoo.PairRate
import Verif.Props.Zoo.InspectionMulti

/-!
C74: all deputies move and thrust, each filtered by the combined module.
-/
namespace RTA
open Set Real Filter Topology

/-! ### The view of one deputy -/

theorem agentState_length {x : List ℝ} {N q : Nat} (hx : x.length = 6 * N + 1) (hq : q < N) : (agentState x q).length = 6 * N + 1 := by
  unfold agentState
  rw [List.length_append, List.length_append, pySlice_length (by omega), List.length_take, List.length_drop]
  omega

theorem agent_alone {x : List ℝ} {N q : Nat} (hx : x.length = 6 * N + 1) (hq : q < N) :
    alone (agentState x q) = [comp x (6 * q), comp x (6 * q + 1), comp x (6 * q + 2), comp x (6 * q + 3), comp x (6 * q + 4), comp x (6 * q + 5),
      comp x (6 * N)] := by
  have hl := agentState_length hx hq
  have hs : (pySlice x (6 * q) (6 * q + 6)).length = 6 := by rw [pySlice_length (by omega)]; omega
  have h1 : ∀ i < 6, comp (agentState x q) i = comp x (6 * q + i) := fun i hi => by
    unfold agentState
    rw [comp_append_left (by omega), comp_pySlice (by omega)]
  have h2 : comp (agentState x q) (6 * N) = comp x (6 * N) := by
    have e : 6 * N = (pySlice x (6 * q) (6 * q + 6) ++ x.take (6 * q)).length + (6 * N - (6 * q + 6)) := by
      rw [List.length_append, hs, List.length_take]; omega
    unfold agentState
    simp only
    rw [← List.append_assoc]
    conv_lhs => rw [e]
    rw [comp_append_right, comp_drop]
    congr 1
    omega
  unfold alone
  rw [hl, Nat.add_sub_cancel, h1 0 (by omega), h1 1 (by omega), h1 2 (by omega), h1 3 (by omega), h1 4 (by omega), h1 5 (by omega), h2]
  rfl

theorem agent_slice {x : List ℝ} {N q : Nat} (hx : x.length = 6 * N + 1) (hq : q < N) :
    pySlice (alone (agentState x q)) 0 6 = pySlice x (6 * q) (6 * q + 6) ∧ pySlice (alone (agentState x q)) 0 3 = pySlice x (6 * q) (6 * q + 3) := by
  rw [agent_alone hx hq, slice6 (6 * q) (by omega : 6 * q + 6 ≤ x.length), slice3 (6 * q) (by omega : 6 * q + 3 ≤ x.length)]
  exact ⟨rfl, rfl⟩

/-- The motion of one deputy of a fleet. -/
theorem FleetMotion.agent {n m sunVel : ℝ} {N : Nat} {x : ℝ → List ℝ} {w : ℝ → Nat → List ℝ} (h : FleetMotion n m sunVel N x w) {q : Nat}
    (hq : q < N) : FleetMotion n m sunVel 1 (fun t => alone (agentState (x t) q)) (onlyFirst fun t => w t q) := by
  have hc : ∀ i < 6, ∀ t, 0 ≤ t → comp (alone (agentState (x t) q)) i = comp (x t) (6 * q + i) := fun i hi t ht => by
    rw [agent_alone (h.len t ht) hq]
    interval_cases i <;> rfl
  have hs : ∀ t, 0 ≤ t → comp (alone (agentState (x t) q)) 6 = comp (x t) (6 * N) := fun t ht => by
    rw [agent_alone (h.len t ht) hq]; rfl
  refine ⟨fun _ _ => rfl, fun t ht p hp => ?_, fun i hi => ?_, fun t ht p hp i hi => ?_, fun t ht => ?_⟩
  · obtain rfl : p = 0 := by omega
    exact h.wlen t ht q hq
  · rcases Nat.lt_or_ge i 6 with hi6 | hi6
    · exact (h.cont (6 * q + i) (by omega)).congr fun t ht => hc i hi6 t ht
    · obtain rfl : i = 6 := by omega
      exact (h.cont (6 * N) (by omega)).congr fun t ht => hs t ht
  · obtain rfl : p = 0 := by omega
    simp only [Nat.mul_zero, Nat.zero_add]
    refine ((h.deriv t ht q hq i hi).congr (fun s hs' => hc i hi s (ht.trans hs')) (hc i hi t ht)).congr_deriv ?_
    rw [(agent_slice (h.len t ht) hq).1]
    rfl
  · exact (h.angle t ht).congr (fun s hs' => hs s (ht.trans hs')) (hs t ht)

theorem multiOwn_eq (c : MultiConfig) : multiOwn c = multiConstraints (single c) := by
  unfold multiConstraints
  have e : (single c).numDeputies - 1 = 0 := rfl
  rw [e, List.range_zero, List.flatMap_nil, List.append_nil]
  rfl

theorem own_mem (c : MultiConfig) (k : InspIx) : multiC c (.own k) ∈ multiOwn c := by
  rw [multiOwn_eq]
  exact multiC_mem (c := single c) (mem_own _ k)

theorem single_ok {c : MultiConfig} (hc : MultiOK c) : MultiOK (single c) := { toInspOK := hc.toInspOK, deputies := Nat.one_pos, deputyRadius := hc.deputyRadius }

theorem no_other {i : Nat} (h : Other 1 i) : False := by have := h.1; have := h.2; omega

theorem sub_noslack {c : MultiConfig} {l : Dict (Constraint ℝ (List ℝ) InspParams)} (h : ∀ kc ∈ l, kc ∈ multiConstraints c) : ScalesPos l := by
  have hns : slackScales l = [] := by
    unfold slackScales
    rw [List.filterMap_eq_nil_iff]
    intro kc hkc
    have := h kc hkc
    rw [multiConstraints_eq] at this
    obtain ⟨k, -, rfl⟩ := List.mem_map.1 this
    simp [multiC_noslack]
  intro w hw
  rw [hns] at hw
  simp at hw

theorem sub_shapes {c : MultiConfig} (hN : 0 < c.numDeputies) {s : ASIFObj ℝ (List ℝ) InspParams Unit} (h : ∀ kc ∈ s.constraints, kc ∈ multiConstraints c)
    (hdim : s.ext.controlDim = 3) (hdir : s.ext.direct = []) {x : List ℝ} (hx : x.length = 6 * c.numDeputies + 1) :
    ShapesOK (multiF c) (fun _ => multiG c) s x := by
  have hf : (multiF c x).length = 6 * c.numDeputies + 1 := multiF_length hN
  have hk : ∀ kc ∈ s.constraints, ∃ k, kc = multiC c k := fun kc hkc => by
    have := h kc hkc
    rw [multiConstraints_eq] at this
    obtain ⟨k, -, rfl⟩ := List.mem_map.1 this
    exact ⟨k, rfl⟩
  refine ⟨fun kc hkc => ?_, fun kc hkc => ?_, by rw [hf]; exact multiG_length hN, by rw [hdim]; exact multiG_rows c, by rw [hdir]; simp⟩
  · obtain ⟨k, rfl⟩ := hk kc hkc
    rw [multiC_alpha]; rfl
  · obtain ⟨k, rfl⟩ := hk kc hkc
    rw [multi_gradFn_length, hf, hx]

/-! ### C74 -/

/-- Deputy `q` is between the two spheres around the chief with the sun out of its field of view. -/
structure DeputyInside (c : MultiConfig) (q : Nat) (x : List ℝ) : Prop where
  outside : c.radius < norm2 (pySlice x (6 * q) (6 * q + 3))
  inside : norm2 (pySlice x (6 * q) (6 * q + 3)) < c.rMax
  sun : dot (pySlice x (6 * q) (6 * q + 3)) (sunDirection (comp x (6 * c.numDeputies))) < norm2 (pySlice x (6 * q) (6 * q + 3)) * cos (c.fov / 2)

theorem deputy_inside_iff {c : MultiConfig} (hc : MultiOK c) {x : List ℝ} {q : Nat} (hx : x.length = 6 * c.numDeputies + 1) (hq : q < c.numDeputies)
    (hax : sqNorm (pySlice x (6 * q) (6 * q + 3)) ≠ dot (pySlice x (6 * q) (6 * q + 3)) (sunDirection (comp x (6 * c.numDeputies))) ^ 2) :
    DeputyInside c q x ↔ MultiIn (single c) (fun _ => 1) (alone (agentState x q)) := by
  obtain ⟨h6, h3⟩ := agent_slice hx hq
  have hs : comp (alone (agentState x q)) (6 * (single c).numDeputies) = comp x (6 * c.numDeputies) := by
    rw [agent_alone hx hq]; rfl
  rw [← fleet_inside_iff (single_ok hc) (fun _ => Or.inl rfl) rfl (by rw [h3, hs]; exact hax) (fun i h0 h1 => (no_other ⟨h0, h1⟩).elim)]
  constructor
  · intro h
    exact ⟨by rw [h3]; exact h.outside, by rw [h3]; exact h.inside, by rw [h3, hs]; exact h.sun, fun i h0 h1 => (no_other ⟨h0, h1⟩).elim,
      fun i h0 h1 => (no_other ⟨h0, h1⟩).elim⟩
  · intro h
    have hs' := h.sun
    rw [h3, hs] at hs'
    exact ⟨by rw [← h3]; exact h.outside, by rw [← h3]; exact h.inside, hs'⟩

theorem own_values {c : MultiConfig} {y : List ℝ} (hy : 6 ≤ y.length) :
    (∀ kc ∈ multiOwn c, 0 < kc.2.value y) ↔ ∀ kc ∈ multiConstraints (single c), 0 < kc.2.value (alone y) := by
  have e : ∀ z : List ℝ, (∀ kc ∈ multiConstraints (single c), 0 < kc.2.value z) ↔ ∀ k, 0 < (multiC (single c) (.own k)).2.value z := by
    intro z
    constructor
    · exact fun h k => h _ (multiC_mem (c := single c) (mem_own _ k))
    · intro h kc hkc
      rw [multiConstraints_eq] at hkc
      obtain ⟨k, hk, rfl⟩ := List.mem_map.1 hkc
      have hk := mem_mAll.1 hk
      cases k with
      | own k => exact h k
      | coll i => exact (no_other hk).elim
      | dsun i => exact (no_other hk).elim
      | psm i => exact (no_other hk).elim
  rw [multiOwn_eq, e, e]
  refine forall_congr' fun k => ?_
  have h1 : (multiC (single c) (.own k)).2.value y = (multiC c (.own k)).2.value y := rfl
  rw [h1, single_value hy]

/-- **C74, what holds.** Let `N` deputies move by the true dynamics, all of them thrusting, and let at every instant before `T` all thrusts be what
the combined module returns, whose deputy module is an inspection module (with the configuration `c`, after whatever history) that has
the constraints of `multiOwn` and any of the other constraints of the inspection module. If the deputy module raises on unsolvable
programs or the programs are solvable, then the constraints that concern a deputy alone - collision with the chief, the speed limits,
the sun, the maximum distance, passive safety with respect to the chief - stay positive for every deputy, whatever the others do. -/
theorem C74_own_partial {solver : Solver ℝ} (hspec : SolverSpec solver) {c : MultiConfig} (hc : MultiOK c) {x u : ℝ → List ℝ}
    (hm : FleetMotion c.n c.m c.sunVel c.numDeputies x (thrustOf u)) {T lo hi : ℝ}
    (hloop : ∀ t, 0 ≤ t → t < T → ∃ (s s' : CombinedObj ℝ (ASIFObj ℝ (List ℝ) InspParams Unit)) (dt : ℝ) (uDes : List ℝ),
      CombinedInUse solver (multiF c) (fun _ => multiG c) lo hi s ∧ s.numDeputies = c.numDeputies ∧
      (∀ kc ∈ multiOwn c, kc ∈ s.deputyRta.constraints) ∧ (∀ kc ∈ s.deputyRta.constraints, kc ∈ multiConstraints c) ∧
      uDes.length = 3 * c.numDeputies ∧
      (s.deputyRta.ext.solverException = true ∨
        ∀ q < c.numDeputies, ∃ w, Admissible (multiF c) (fun _ => multiG c) s.deputyRta (agentState (x t) q) w) ∧
      combinedFilter (deputyFilter solver (multiF c) fun _ => multiG c) s (x t) dt uDes = (.ok (u t), s'))
    {q : Nat} (hq : q < c.numDeputies)
    (hax : ∀ t, 0 ≤ t → t ≤ T → sqNorm (pySlice (x t) (6 * q) (6 * q + 3)) ≠
      dot (pySlice (x t) (6 * q) (6 * q + 3)) (sunDirection (comp (x t) (6 * c.numDeputies))) ^ 2)
    (h0 : DeputyInside c q (x 0)) (h0' : ∀ kc ∈ multiOwn c, 0 < kc.2.value (agentState (x 0) q)) :
    ∀ t, 0 ≤ t → t ≤ T → DeputyInside c q (x t) ∧ ∀ kc ∈ multiOwn c, 0 < kc.2.value (agentState (x t) q) := by
  intro t ht htT
  have hT0 : 0 ≤ T := ht.trans htT
  have hc1 := single_ok hc
  have hm1 : FleetMotion (single c).n (single c).m (single c).sunVel (single c).numDeputies (fun t => alone (agentState (x t) q))
    (onlyFirst fun t => thrustOf u t q) := hm.agent hq
  have hlen : ∀ t, 0 ≤ t → (agentState (x t) q).length = 6 * c.numDeputies + 1 := fun t ht => agentState_length (hm.len t ht) hq
  have h6 : ∀ t, 0 ≤ t → 6 ≤ (agentState (x t) q).length := fun t ht => by rw [hlen t ht]; omega
  have hiff := fun t ht htT => deputy_inside_iff hc (hm.len t ht) hq (hax t ht htT)
  have hv := fun t ht htT (h : DeputyInside c q (x t)) =>
    (own_values (c := c) (h6 t ht)).trans (multi_value_pos hc1 (fun _ => Or.inl rfl) ((hiff t ht htT).1 h))
  have hax' : ∀ t, 0 ≤ t → t ≤ T → axisDist (pySlice (ownView (alone (agentState (x t) q))) 0 3) (sunVector (ownView (alone (agentState (x t) q)))) ≠ 0 := by
    intro t ht htT e
    have hn := axis_nonneg (show (pySlice (ownView (alone (agentState (x t) q))) 0 3).length = 3 from rfl) rfl
      (sun_unit (ownView (alone (agentState (x t) q))))
    unfold axisDist at e
    rw [sqrt_eq_zero hn] at e
    have h7 : (alone (agentState (x t) q)).length = 6 * 1 + 1 := rfl
    rw [ownView_pos (by rw [h7]; omega), ownView_sun, multiSun_eq h7, (agent_slice (hm.len t ht) hq).2, agent_alone (hm.len t ht) hq] at e
    exact hax t ht htT (by
      have e1 : comp [comp (x t) (6 * q), comp (x t) (6 * q + 1), comp (x t) (6 * q + 2), comp (x t) (6 * q + 3), comp (x t) (6 * q + 4),
        comp (x t) (6 * q + 5), comp (x t) (6 * c.numDeputies)] (6 * 1) = comp (x t) (6 * c.numDeputies) := rfl
      rw [e1] at e
      linarith)
  suffices hbar : ∀ t, 0 ≤ t → t < T → ∀ k : InspIx,
      BarrierOK (multiF (single c)) (fun _ => multiG (single c)) (multiC (single c) (.own k)).2 (alone (agentState (x t) q)) (thrustOf u t q) 0 by
    obtain ⟨hin, hp⟩ := multi_stays hc1 (σ := fun _ => 1) (fun _ => Or.inl rfl) hm1 hax' (fun t _ _ i hi => (no_other hi).elim)
      (fun t ht htT _ _ k hk => by
        have hk := mem_mAll.1 hk
        cases k with
        | own k => exact hbar t ht htT k
        | coll i => exact (no_other hk).elim
        | dsun i => exact (no_other hk).elim
        | psm i => exact (no_other hk).elim)
      ((hiff 0 le_rfl hT0).1 h0) ((hv 0 le_rfl hT0 h0).1 h0') t ht htT
    have hin' := (hiff t ht htT).2 hin
    exact ⟨hin', (hv t ht htT hin').2 hp⟩
  intro t ht htT k
  obtain ⟨s, s', dt, uDes, hs, hN, hown, hsub, hul, hsolv, hcall⟩ := hloop t ht htT
  have hsp := sub_noslack hsub
  have hsh : ∀ p < s.numDeputies, ShapesOK (multiF c) (fun _ => multiG c) s.deputyRta (agentState (x t) p) := fun p hp =>
    sub_shapes hc.deputies hsub hs.dim hs.direct (agentState_length (hm.len t ht) (by omega))
  obtain ⟨-, hadm⟩ := combined_agents hspec hs hsp (by rw [hul, hN]) hsh
    (hsolv.imp id fun h p hp => by
      obtain ⟨w, hw⟩ := h p (by omega)
      exact ⟨w, _, admissible_iff_zeros.1 hw⟩) hcall
  obtain ⟨d, had⟩ := hadm q (by omega)
  have hb := barrier_of_admissible had (show ((multiC c (.own k)).1, (multiC c (.own k)).2) ∈ s.deputyRta.constraints from hown _ (own_mem c k))
    (multiC_enabled c _) (multiC_noslack c _)
  exact single_barrier hc.deputies (hlen t ht) hb

/-! ### Two thrusting deputies -/

/-- The default configuration with two deputies. -/
noncomputable def twoDeputies : MultiConfig := { multiDefault with numDeputies := 2 }

theorem two_aMax : twoDeputies.aMax = 1 / 12 - 3 * (1027 / 1000000) ^ 2 * 1000 - 2 * (1027 / 1000000) := by
  show 1 / (12 : ℝ) - 3 * (1027 / 1000000) ^ 2 * 1000 - 2 * (1027 / 1000000) * min (1 : ℝ) (2 / 10 + 2 * (1027 / 1000000) * 1000) = _
  rw [min_eq_left (by norm_num)]
  norm_num

theorem two_ok : MultiOK twoDeputies where
  toInspOK := ⟨inspStill_ok.radius, inspStill_ok.aMax, inspStill_ok.fov0, inspStill_ok.fov⟩
  deputies := by show 0 < 2; omega
  deputyRadius := by show (0 : ℝ) < 5; norm_num

theorem pairRate_cont {R a : ℝ} (hR : 0 ≤ R) (ha : 0 < a) {p1 p2 p3 v1 v2 v3 q1 q2 q3 w1 w2 w3 : ℝ → ℝ} {t : ℝ}
    (hp1 : ContinuousAt p1 t) (hp2 : ContinuousAt p2 t) (hp3 : ContinuousAt p3 t) (hv1 : ContinuousAt v1 t) (hv2 : ContinuousAt v2 t)
    (hv3 : ContinuousAt v3 t) (hq1 : ContinuousAt q1 t) (hq2 : ContinuousAt q2 t) (hq3 : ContinuousAt q3 t) (hw1 : ContinuousAt w1 t)
    (hw2 : ContinuousAt w2 t) (hw3 : ContinuousAt w3 t) (h : R < √(p1 t ^ 2 + p2 t ^ 2 + p3 t ^ 2)) :
    ContinuousAt (fun s => pairRate R a (p1 s) (p2 s) (p3 s) (v1 s) (v2 s) (v3 s) (q1 s) (q2 s) (q3 s) (w1 s) (w2 s) (w3 s)) t := by
  have hD : ContinuousAt (fun s => √(p1 s ^ 2 + p2 s ^ 2 + p3 s ^ 2)) t := (((hp1.pow 2).add (hp2.pow 2)).add (hp3.pow 2)).sqrt
  have hS : ContinuousAt (fun s => √(2 * a * (√(p1 s ^ 2 + p2 s ^ 2 + p3 s ^ 2) - R))) t := (continuousAt_const.mul (hD.sub continuousAt_const)).sqrt
  have hD0 : √(p1 t ^ 2 + p2 t ^ 2 + p3 t ^ 2) ≠ 0 := (hR.trans_lt h).ne'
  have hS0 : √(2 * a * (√(p1 t ^ 2 + p2 t ^ 2 + p3 t ^ 2) - R)) ≠ 0 := (sqrt_pos.2 (mul_pos (by linarith) (by linarith))).ne'
  have hpq := ((hp1.mul hq1).add (hp2.mul hq2)).add (hp3.mul hq3)
  have hpv := ((hp1.mul hv1).add (hp2.mul hv2)).add (hp3.mul hv3)
  have hqv := ((hq1.mul hv1).add (hq2.mul hv2)).add (hq3.mul hv3)
  have hpw := ((hp1.mul hw1).add (hp2.mul hw2)).add (hp3.mul hw3)
  exact (((continuousAt_const.mul (hpq.div hD hD0)).div hS hS0).add ((hqv.add hpw).div hD hD0)).sub
    ((hpv.mul hpq).div (hD.pow 3) (pow_ne_zero 3 hD0))

theorem pairRate_neg (R a p1 p2 p3 v1 v2 v3 q1 q2 q3 w1 w2 w3 : ℝ) :
    pairRate R a (-p1) (-p2) (-p3) (-v1) (-v2) (-v3) (-q1) (-q2) (-q3) (-w1) (-w2) (-w3) =
      pairRate R a p1 p2 p3 v1 v2 v3 q1 q2 q3 w1 w2 w3 := by
  unfold pairRate
  simp only [neg_sq, neg_mul_neg]

/-- Separation `d` along the third axis, closing speed `s` at the limit of the constraint, sideways speed `w`. -/
theorem pairRate_axis {R a d s w : ℝ} (hd : 0 < d) (hs : 0 < s) (h : 2 * a * (d - R) = s ^ 2) (w1 w2 w3 : ℝ) :
    pairRate R a 0 0 d 0 w (-s) 0 w (-s) w1 w2 w3 = -a + w ^ 2 / d + w3 := by
  have e : √((0 : ℝ) ^ 2 + 0 ^ 2 + d ^ 2) = d := by rw [show (0 : ℝ) ^ 2 + 0 ^ 2 + d ^ 2 = d ^ 2 by ring, sqrt_sq hd.le]
  unfold pairRate
  rw [e, h, sqrt_sq hs.le]
  field_simp
  ring

theorem pairH_axis {R a d s w : ℝ} (hd : 0 < d) (hs : 0 < s) (h : 2 * a * (d - R) = s ^ 2) : pairH R a 0 0 d 0 w (-s) = 0 := by
  have e : √((0 : ℝ) ^ 2 + 0 ^ 2 + d ^ 2) = d := by rw [show (0 : ℝ) ^ 2 + 0 ^ 2 + d ^ 2 = d ^ 2 by ring, sqrt_sq hd.le]
  unfold pairH
  rw [e, h, sqrt_sq hs.le]
  field_simp
  ring

/-- The distance at which a closing speed of 1/2 is the limit. -/
noncomputable def limitDist : ℝ := 10 + 1 / (16 * twoDeputies.aMax)

theorem limitDist_pos : 0 < limitDist := by
  have := two_ok.aMax
  unfold limitDist
  positivity

theorem limitDist_eq : 2 * (2 * twoDeputies.aMax) * (limitDist - twoDeputies.deputyRadius * 2) = (1 / 2) ^ 2 := by
  have := two_ok.aMax
  have e : twoDeputies.deputyRadius * 2 = 10 := by show (5 : ℝ) * 2 = 10; norm_num
  rw [e]
  unfold limitDist
  field_simp
  ring

/-- The first deputy: above the second, closing, moving sideways, thrusting down. -/
noncomputable def upper (t : ℝ) : List ℝ :=
  discreteStep twoDeputies.n twoDeputies.m t [0, 100, limitDist / 2, 0, 87 / 100, -(1 / 4)] [0, 0, -1]

/-- The second deputy, thrusting up. -/
noncomputable def lower (t : ℝ) : List ℝ :=
  discreteStep twoDeputies.n twoDeputies.m t [0, 100, -(limitDist / 2), 0, -(87 / 100), 1 / 4] [0, 0, 1]

theorem two_n : twoDeputies.n ≠ 0 := by show (1027 / 1000000 : ℝ) ≠ 0; norm_num

theorem upper_sol : CWHSolution twoDeputies.n twoDeputies.m [0, 0, -1] upper := step_solution two_n _ _ _ _ _ _ _ _ _ _

theorem lower_sol : CWHSolution twoDeputies.n twoDeputies.m [0, 0, 1] lower := step_solution two_n _ _ _ _ _ _ _ _ _ _

theorem upper_zero : upper 0 = [0, 100, limitDist / 2, 0, 87 / 100, -(1 / 4)] := by
  unfold upper
  rw [discreteStep_eq]
  simp
  norm_num

theorem lower_zero : lower 0 = [0, 100, -(limitDist / 2), 0, -(87 / 100), 1 / 4] := by
  unfold lower
  rw [discreteStep_eq]
  simp
  norm_num

/-- Both deputies, and the sun angle. -/
noncomputable def meeting (t : ℝ) : List ℝ := upper t ++ lower t ++ [twoDeputies.sunVel * t]

/-- The rate of the constraint between two deputies seen by the first, which thrusts. -/
noncomputable def seenRate (a b : List ℝ) (u3 : ℝ) : ℝ :=
  pairRate (twoDeputies.deputyRadius * 2) (2 * twoDeputies.aMax) (comp a 0 - comp b 0) (comp a 1 - comp b 1) (comp a 2 - comp b 2)
    (comp a 3 - comp b 3) (comp a 4 - comp b 4) (comp a 5 - comp b 5) (comp a 3 - comp b 3) (comp a 4 - comp b 4) (comp a 5 - comp b 5)
    (3 * twoDeputies.n ^ 2 * comp a 0 + 2 * twoDeputies.n * comp a 4 + 1 / twoDeputies.m * 0 - (3 * twoDeputies.n ^ 2 * comp b 0 + 2 * twoDeputies.n * comp b 4))
    (-2 * twoDeputies.n * comp a 3 + 1 / twoDeputies.m * 0 - -2 * twoDeputies.n * comp b 3)
    (-twoDeputies.n ^ 2 * comp a 2 + 1 / twoDeputies.m * u3 - -twoDeputies.n ^ 2 * comp b 2)

/-- The constraint. -/
noncomputable def seenH (a b : List ℝ) : ℝ :=
  pairH (twoDeputies.deputyRadius * 2) (2 * twoDeputies.aMax) (comp a 0 - comp b 0) (comp a 1 - comp b 1) (comp a 2 - comp b 2)
    (comp a 3 - comp b 3) (comp a 4 - comp b 4) (comp a 5 - comp b 5)

noncomputable def seenDist (a b : List ℝ) : ℝ := √((comp a 0 - comp b 0) ^ 2 + (comp a 1 - comp b 1) ^ 2 + (comp a 2 - comp b 2) ^ 2)

theorem seen_value {a b : List ℝ} (ha : a.length = 6) (hb : b.length = 6) (θ : ℝ) (h : twoDeputies.deputyRadius * 2 < seenDist a b) :
    (multiC twoDeputies (.coll 1)).2.value (a ++ b ++ [θ]) = seenH a b := by
  rw [list_eq6 ha, list_eq6 hb] at h ⊢
  exact pair_value two_ok rfl h

theorem seen_barrier {a b : List ℝ} (ha : a.length = 6) (hb : b.length = 6) (θ u3 : ℝ) (h : twoDeputies.deputyRadius * 2 < seenDist a b)
    (hr : 0 ≤ seenRate a b u3 - 10 * |polyAlpha [0, 1 / 100, 0, 1 / 1000] (seenH a b)| - 1 / 100) :
    BarrierOK (multiF twoDeputies) (fun _ => multiG twoDeputies) (multiC twoDeputies (.coll 1)).2 (a ++ b ++ [θ]) [0, 0, u3] 0 := by
  have hv := seen_value ha hb θ h
  match a, ha, b, hb with
  | [a0, a1, a2, a3, a4, a5], _, [b0, b1, b2, b3, b4, b5], _ =>
    have hf := multi_comp2 (c := twoDeputies) rfl a0 a1 a2 a3 a4 a5 b0 b1 b2 b3 b4 b5 θ 0 0 u3
    have hg := pair_grad two_ok (x := [a0, a1, a2, a3, a4, a5, b0, b1, b2, b3, b4, b5, θ])
      (v := vadd (multiF twoDeputies [a0, a1, a2, a3, a4, a5, b0, b1, b2, b3, b4, b5, θ]) (matVec (multiG twoDeputies) [0, 0, u3])) rfl
      (by rw [hf]; rfl) h
    refine ⟨_, by rw [barrierValue, multiC_alpha]; rfl, ?_⟩
    have hv' : (multiC twoDeputies (.coll 1)).2.computeFn ([a0, a1, a2, a3, a4, a5] ++ [b0, b1, b2, b3, b4, b5] ++ [θ])
      (multiC twoDeputies (.coll 1)).2.params + (multiC twoDeputies (.coll 1)).2.bias = seenH [a0, a1, a2, a3, a4, a5] [b0, b1, b2, b3, b4, b5] := hv
    rw [hv']
    have hg' : dot ((multiC twoDeputies (.coll 1)).2.gradFn ([a0, a1, a2, a3, a4, a5] ++ [b0, b1, b2, b3, b4, b5] ++ [θ]) (multiC twoDeputies (.coll 1)).2.params)
        (vadd (multiF twoDeputies ([a0, a1, a2, a3, a4, a5] ++ [b0, b1, b2, b3, b4, b5] ++ [θ])) (matVec (multiG twoDeputies) [0, 0, u3])) =
        seenRate [a0, a1, a2, a3, a4, a5] [b0, b1, b2, b3, b4, b5] u3 := by
      refine hg.trans ?_
      rw [hf]
      rfl
    rw [hg']
    refine hr.trans ?_
    have hs : -(10 * |polyAlpha [0, 1 / 100, 0, 1 / 1000] (seenH [a0, a1, a2, a3, a4, a5] [b0, b1, b2, b3, b4, b5])|) - 1 / 100 ≤
        strengthening (multiC twoDeputies (.coll 1)).2 (polyAlpha [0, 1 / 100, 0, 1 / 1000]) (seenH [a0, a1, a2, a3, a4, a5] [b0, b1, b2, b3, b4, b5]) := by
      generalize seenH [a0, a1, a2, a3, a4, a5] [b0, b1, b2, b3, b4, b5] = y
      have h1 := neg_abs_le (polyAlpha [0, 1 / 100, 0, 1 / 1000] y)
      have h2 := abs_nonneg (polyAlpha [0, 1 / 100, 0, 1 / 1000] y)
      unfold strengthening
      split_ifs
      · linarith
      · show _ ≤ 10 * polyAlpha [0, 1 / 100, 0, 1 / 1000] y + -(1 / 100)
        linarith
    have hm : mCoefs (.coll 1) = [0, 1 / 100, 0, 1 / 1000] := rfl
    rw [hm]
    linarith

theorem meeting_agent (t : ℝ) : agentState (meeting t) 0 = upper t ++ lower t ++ [twoDeputies.sunVel * t] ∧
    agentState (meeting t) 1 = lower t ++ upper t ++ [twoDeputies.sunVel * t] := by
  unfold meeting
  rw [list_eq6 (upper_sol.length t), list_eq6 (lower_sol.length t)]
  exact ⟨rfl, rfl⟩

theorem seen_cont {a b : ℝ → List ℝ} {u w : List ℝ} (ha : CWHSolution twoDeputies.n twoDeputies.m u a) (hb : CWHSolution twoDeputies.n twoDeputies.m w b)
    (u3 : ℝ) {t : ℝ} (h : twoDeputies.deputyRadius * 2 < seenDist (a t) (b t)) :
    ContinuousAt (fun t => seenDist (a t) (b t)) t ∧ ContinuousAt (fun t => seenH (a t) (b t)) t ∧ ContinuousAt (fun t => seenRate (a t) (b t) u3) t := by
  have hca : ∀ i < 6, ContinuousAt (fun t => comp (a t) i) t := fun i hi => (ha.deriv i hi t).continuousAt
  have hcb : ∀ i < 6, ContinuousAt (fun t => comp (b t) i) t := fun i hi => (hb.deriv i hi t).continuousAt
  have hd : ∀ i < 6, ContinuousAt (fun t => comp (a t) i - comp (b t) i) t := fun i hi => (hca i hi).sub (hcb i hi)
  have hR : 0 ≤ twoDeputies.deputyRadius * 2 := by linarith [two_ok.deputyRadius]
  have hA : 0 < 2 * twoDeputies.aMax := by linarith [two_ok.aMax]
  have hD : ContinuousAt (fun t => seenDist (a t) (b t)) t :=
    ((((hd 0 (by omega)).pow 2).add ((hd 1 (by omega)).pow 2)).add ((hd 2 (by omega)).pow 2)).sqrt
  refine ⟨hD, ?_, ?_⟩
  · exact ((continuousAt_const.mul (hD.sub continuousAt_const)).sqrt).add
      (((((hd 0 (by omega)).mul (hd 3 (by omega))).add ((hd 1 (by omega)).mul (hd 4 (by omega)))).add ((hd 2 (by omega)).mul (hd 5 (by omega)))).div hD
        (hR.trans_lt h).ne')
  · exact pairRate_cont hR hA (hd 0 (by omega)) (hd 1 (by omega)) (hd 2 (by omega)) (hd 3 (by omega)) (hd 4 (by omega)) (hd 5 (by omega))
      (hd 3 (by omega)) (hd 4 (by omega)) (hd 5 (by omega))
      (((((continuousAt_const.mul (hca 0 (by omega))).add (continuousAt_const.mul (hca 4 (by omega)))).add continuousAt_const).sub
        ((continuousAt_const.mul (hcb 0 (by omega))).add (continuousAt_const.mul (hcb 4 (by omega))))))
      (((continuousAt_const.mul (hca 3 (by omega))).add continuousAt_const).sub (continuousAt_const.mul (hcb 3 (by omega))))
      (((continuousAt_const.mul (hca 2 (by omega))).add continuousAt_const).sub (continuousAt_const.mul (hcb 2 (by omega)))) h

theorem polyAlpha_cubic (a b y : ℝ) : polyAlpha [0, a, 0, b] y = a * y + b * y ^ 3 := by
  simp [polyAlpha, polyLoop]

theorem meeting_dist : seenDist (upper 0) (lower 0) = limitDist ∧ seenDist (lower 0) (upper 0) = limitDist := by
  rw [upper_zero, lower_zero]
  constructor
  · show √(((0 : ℝ) - 0) ^ 2 + (100 - 100) ^ 2 + (limitDist / 2 - -(limitDist / 2)) ^ 2) = limitDist
    rw [show ((0 : ℝ) - 0) ^ 2 + (100 - 100) ^ 2 + (limitDist / 2 - -(limitDist / 2)) ^ 2 = limitDist ^ 2 by ring, sqrt_sq limitDist_pos.le]
  · show √(((0 : ℝ) - 0) ^ 2 + (100 - 100) ^ 2 + (-(limitDist / 2) - limitDist / 2) ^ 2) = limitDist
    rw [show ((0 : ℝ) - 0) ^ 2 + (100 - 100) ^ 2 + (-(limitDist / 2) - limitDist / 2) ^ 2 = limitDist ^ 2 by ring, sqrt_sq limitDist_pos.le]

theorem meeting_far : twoDeputies.deputyRadius * 2 < limitDist := by
  have e : twoDeputies.deputyRadius * 2 = 10 := by show (5 : ℝ) * 2 = 10; norm_num
  have := two_ok.aMax
  have : 0 < 1 / (16 * twoDeputies.aMax) := by positivity
  rw [e]
  unfold limitDist
  linarith

theorem meeting_rate_upper : seenRate (upper 0) (lower 0) (-1) =
    -(2 * twoDeputies.aMax) + (87 / 50) ^ 2 / limitDist + (-twoDeputies.n ^ 2 * limitDist - 1 / 12) := by
  rw [upper_zero, lower_zero, ← pairRate_axis limitDist_pos (by norm_num) limitDist_eq 
    (3 * twoDeputies.n ^ 2 * 0 + 2 * twoDeputies.n * (87 / 100) + 1 / twoDeputies.m * 0 - (3 * twoDeputies.n ^ 2 * 0 + 2 * twoDeputies.n * -(87 / 100)))
    (-2 * twoDeputies.n * 0 + 1 / twoDeputies.m * 0 - -2 * twoDeputies.n * 0)]
  have hm : twoDeputies.m = 12 := rfl
  unfold seenRate
  simp only [comp, List.getD_cons_zero, List.getD_cons_succ]
  congr 1 <;> (try rw [hm]) <;> ring

theorem seen_symm {a b : List ℝ} : seenH a b = seenH b a := by
  unfold seenH pairH
  congr 2
  · congr 2
    congr 1
    ring
  · ring
  · congr 1
    ring

theorem meeting_rate_lower : seenRate (lower 0) (upper 0) 1 = seenRate (upper 0) (lower 0) (-1) := by
  unfold seenRate
  rw [← pairRate_neg]
  rw [upper_zero, lower_zero]
  simp only [comp, List.getD_cons_zero, List.getD_cons_succ]
  congr 1 <;> ring

theorem meeting_zero : seenH (upper 0) (lower 0) = 0 := by
  rw [upper_zero, lower_zero, ← pairH_axis (w := 87 / 50) limitDist_pos (show (0 : ℝ) < 1 / 2 by norm_num) limitDist_eq]
  unfold seenH
  simp only [comp, List.getD_cons_zero, List.getD_cons_succ]
  congr 1 <;> ring

theorem limitDist_bounds : 10 + 799 / 1000 < limitDist ∧ limitDist < 10 + 801 / 1000 := by
  have h := two_aMax
  unfold limitDist
  rw [h]
  constructor <;> norm_num

theorem meeting_length (t : ℝ) : (meeting t).length = 13 := by
  unfold meeting
  rw [List.length_append, List.length_append, upper_sol.length, lower_sol.length]
  rfl

theorem meeting_motion (δ : ℝ) : FleetMotion twoDeputies.n twoDeputies.m twoDeputies.sunVel twoDeputies.numDeputies (fun t => meeting (t - δ))
    (thrustOf fun _ => [0, 0, -1, 0, 0, 1]) := by
  have hu : ∀ t i, i < 6 → comp (meeting t) i = comp (upper t) i := fun t i hi => by
    unfold meeting
    rw [list_eq6 (upper_sol.length t), list_eq6 (lower_sol.length t)]
    interval_cases i <;> rfl
  have hl : ∀ t i, i < 6 → comp (meeting t) (6 + i) = comp (lower t) i := fun t i hi => by
    unfold meeting
    rw [list_eq6 (upper_sol.length t), list_eq6 (lower_sol.length t)]
    interval_cases i <;> rfl
  have ha : ∀ t, comp (meeting t) 12 = twoDeputies.sunVel * t := fun t => by
    unfold meeting
    rw [list_eq6 (upper_sol.length t), list_eq6 (lower_sol.length t)]
    rfl
  have hsu : ∀ t, pySlice (meeting t) 0 6 = upper t := fun t => by
    unfold meeting
    rw [list_eq6 (upper_sol.length t), list_eq6 (lower_sol.length t)]
    rfl
  have hsl : ∀ t, pySlice (meeting t) 6 12 = lower t := fun t => by
    unfold meeting
    rw [list_eq6 (upper_sol.length t), list_eq6 (lower_sol.length t)]
    rfl
  have hdu : ∀ t, ∀ i < 6, HasDerivAt (fun s => comp (meeting (s - δ)) i)
      (comp (vadd (matVec (cwhA3 twoDeputies.n) (upper (t - δ))) (matVec (cwhB3 twoDeputies.m) [0, 0, -1])) i) t := fun t i hi => by
    simp only [hu _ i hi]
    exact (upper_sol.deriv i hi (t - δ)).comp_sub_const t δ
  have hdl : ∀ t, ∀ i < 6, HasDerivAt (fun s => comp (meeting (s - δ)) (6 + i))
      (comp (vadd (matVec (cwhA3 twoDeputies.n) (lower (t - δ))) (matVec (cwhB3 twoDeputies.m) [0, 0, 1])) i) t := fun t i hi => by
    simp only [hl _ i hi]
    exact (lower_sol.deriv i hi (t - δ)).comp_sub_const t δ
  have hda : ∀ t, HasDerivAt (fun s => comp (meeting (s - δ)) 12) twoDeputies.sunVel t := fun t => by
    simp only [ha]
    simpa using ((hasDerivAt_id t).sub_const δ).const_mul twoDeputies.sunVel
  refine ⟨fun t _ => meeting_length _, fun t _ q hq => ?_, fun i hi => ?_, fun t ht q hq i hi => ?_, fun t ht => (hda t).hasDerivWithinAt⟩
  · have hq : q < 2 := hq
    interval_cases q <;> rfl
  · have hi : i < 13 := hi
    rcases Nat.lt_or_ge i 6 with h | h
    · exact fun t _ => (hdu t i h).continuousAt.continuousWithinAt
    · rcases Nat.lt_or_ge i 12 with h' | h'
      · obtain ⟨j, rfl⟩ := Nat.exists_eq_add_of_le h
        exact fun t _ => (hdl t j (by omega)).continuousAt.continuousWithinAt
      · obtain rfl : i = 12 := by omega
        exact fun t _ => (hda t).continuousAt.continuousWithinAt
  · have hq : q < 2 := hq
    interval_cases q
    · have := (hdu t i hi).hasDerivWithinAt (s := Ici t)
      rw [← hsu] at this
      simp only [Nat.mul_zero, Nat.zero_add]
      exact this
    · have := (hdl t i hi).hasDerivWithinAt (s := Ici t)
      rw [← hsl] at this
      exact this

theorem meeting_deriv : HasDerivAt (fun t => seenH (upper t) (lower t))
    (-(2 * twoDeputies.aMax) + (87 / 50) ^ 2 / limitDist + (-twoDeputies.n ^ 2 * limitDist - 1 / 6)) 0 := by
  have hR : 0 ≤ twoDeputies.deputyRadius * 2 := by linarith [two_ok.deputyRadius]
  have hA : 0 < 2 * twoDeputies.aMax := by linarith [two_ok.aMax]
  obtain ⟨a0, a1, a2, a3, a4, a5⟩ := sol_derivs upper_sol 0
  obtain ⟨b0, b1, b2, b3, b4, b5⟩ := sol_derivs lower_sol 0
  have h := pairH_deriv hR hA (a0.sub b0) (a1.sub b1) (a2.sub b2) (a3.sub b3) (a4.sub b4) (a5.sub b5)
    (show twoDeputies.deputyRadius * 2 < seenDist (upper 0) (lower 0) by rw [meeting_dist.1]; exact meeting_far)
  refine h.congr_deriv ?_
  simp only [Pi.sub_apply]
  rw [upper_zero, lower_zero, ← pairRate_axis limitDist_pos (by norm_num) limitDist_eq
    (3 * twoDeputies.n ^ 2 * 0 + 2 * twoDeputies.n * (87 / 100) + 1 / twoDeputies.m * 0 - (3 * twoDeputies.n ^ 2 * 0 + 2 * twoDeputies.n * -(87 / 100) + 1 / twoDeputies.m * 0))
    (-2 * twoDeputies.n * 0 + 1 / twoDeputies.m * 0 - (-2 * twoDeputies.n * 0 + 1 / twoDeputies.m * 0))]
  have hm : twoDeputies.m = 12 := rfl
  simp only [comp, List.getD_cons_zero, List.getD_cons_succ]
  congr 1 <;> (try rw [hm]) <;> ring

/-- Around the instant 0 both barrier conditions hold; the constraint changes its sign there. -/
theorem meeting_local : ∃ ε > 0, ∀ t, |t| < ε → twoDeputies.deputyRadius * 2 < seenDist (upper t) (lower t) ∧
    twoDeputies.deputyRadius * 2 < seenDist (lower t) (upper t) ∧
    0 ≤ seenRate (upper t) (lower t) (-1) - 10 * |polyAlpha [0, 1 / 100, 0, 1 / 1000] (seenH (upper t) (lower t))| - 1 / 100 ∧
    0 ≤ seenRate (lower t) (upper t) 1 - 10 * |polyAlpha [0, 1 / 100, 0, 1 / 1000] (seenH (lower t) (upper t))| - 1 / 100 ∧
    (0 < t → seenH (upper t) (lower t) < 0) ∧ (t < 0 → 0 < seenH (upper t) (lower t)) := by
  have hfar1 : twoDeputies.deputyRadius * 2 < seenDist (upper 0) (lower 0) := by rw [meeting_dist.1]; exact meeting_far
  have hfar2 : twoDeputies.deputyRadius * 2 < seenDist (lower 0) (upper 0) := by rw [meeting_dist.2]; exact meeting_far
  obtain ⟨c1, c2, c3⟩ := seen_cont upper_sol lower_sol (-1) hfar1
  obtain ⟨d1, d2, d3⟩ := seen_cont lower_sol upper_sol 1 hfar2
  obtain ⟨l1, l2⟩ := limitDist_bounds
  have hn : twoDeputies.n = 1027 / 1000000 := rfl
  have hq1 : 28 / 100 < (87 / 50 : ℝ) ^ 2 / limitDist := by
    rw [lt_div_iff₀ limitDist_pos]; nlinarith
  have hq2 : (87 / 50 : ℝ) ^ 2 / limitDist < 281 / 1000 := by
    rw [div_lt_iff₀ limitDist_pos]; nlinarith
  have hz : ∀ y : ℝ, polyAlpha [0, 1 / 100, 0, 1 / 1000] y = 1 / 100 * y + 1 / 1000 * y ^ 3 := polyAlpha_cubic _ _
  have hrate : 2 / 100 < seenRate (upper 0) (lower 0) (-1) := by
    rw [meeting_rate_upper, two_aMax, hn]
    nlinarith
  have e3 : ∀ᶠ t in 𝓝 (0 : ℝ), 0 < seenRate (upper t) (lower t) (-1) - 10 * |1 / 100 * seenH (upper t) (lower t) + 1 / 1000 * seenH (upper t) (lower t) ^ 3| - 1 / 100 := by
    refine ((c3.sub (continuousAt_const.mul ((continuousAt_const.mul c2).add (continuousAt_const.mul (c2.pow 3))).abs)).sub continuousAt_const).eventually
      (lt_mem_nhds ?_)
    simp only [Pi.sub_apply, Pi.mul_apply, Pi.add_apply, Pi.pow_apply]
    rw [meeting_zero]
    norm_num
    linarith
  have e4 : ∀ᶠ t in 𝓝 (0 : ℝ), 0 < seenRate (lower t) (upper t) 1 - 10 * |1 / 100 * seenH (lower t) (upper t) + 1 / 1000 * seenH (lower t) (upper t) ^ 3| - 1 / 100 := by
    refine ((d3.sub (continuousAt_const.mul ((continuousAt_const.mul d2).add (continuousAt_const.mul (d2.pow 3))).abs)).sub continuousAt_const).eventually
      (lt_mem_nhds ?_)
    simp only [Pi.sub_apply, Pi.mul_apply, Pi.add_apply, Pi.pow_apply]
    rw [seen_symm, meeting_zero, meeting_rate_lower]
    norm_num
    linarith
  have e5 : ∀ᶠ t in 𝓝 (0 : ℝ), t ≠ 0 → slope (fun t => seenH (upper t) (lower t)) 0 t < 0 := by
    have hneg : -(2 * twoDeputies.aMax) + (87 / 50) ^ 2 / limitDist + (-twoDeputies.n ^ 2 * limitDist - 1 / 6) < 0 := by
      rw [two_aMax, hn]
      nlinarith
    have := (hasDerivAt_iff_tendsto_slope.1 meeting_deriv).eventually (gt_mem_nhds hneg)
    rw [eventually_nhdsWithin_iff] at this
    exact this
  obtain ⟨ε, hε, h⟩ := Metric.eventually_nhds_iff.1 ((((c1.eventually (lt_mem_nhds hfar1)).and (d1.eventually (lt_mem_nhds hfar2))).and (e3.and e4)).and e5)
  refine ⟨ε, hε, fun t ht => ?_⟩
  obtain ⟨⟨⟨h1, h2⟩, h3, h4⟩, h5⟩ := h (y := t) (by rw [Real.dist_eq, sub_zero]; exact ht)
  have hsl : slope (fun t => seenH (upper t) (lower t)) 0 t = seenH (upper t) (lower t) / t := by
    rw [slope_def_field, meeting_zero, sub_zero, sub_zero]
  rw [hsl] at h5
  refine ⟨h1, h2, by rw [hz]; exact h3.le, by rw [hz]; exact h4.le, fun h0 => ?_, fun h0 => ?_⟩
  · have := h5 h0.ne'
    rw [div_lt_iff₀ h0, zero_mul] at this
    exact this
  · have := h5 h0.ne
    rwa [div_lt_iff_of_neg h0, zero_mul] at this

/-- **C74 refuted for pairs of deputies.** With the default configuration there are motions of two deputies on which the combined module
returns the desired thrusts unchanged at every instant, although the constraint against a collision of the two becomes negative: for each
deputy alone the barrier condition holds on the assumption that the other one coasts, but both thrust towards each other. -/
theorem C74_pairs_refuted {solver : Solver ℝ} (hspec : SolverSpec solver) :
    ∃ (x : ℝ → List ℝ) (T : ℝ) (u : List ℝ), 0 < T ∧
      FleetMotion twoDeputies.n twoDeputies.m twoDeputies.sunVel twoDeputies.numDeputies x (thrustOf fun _ => u) ∧
      (∀ t, 0 ≤ t → t ≤ T → ∀ (s : CombinedObj ℝ (ASIFObj ℝ (List ℝ) InspParams Unit)) (dt : ℝ),
        CombinedInUse solver (multiF twoDeputies) (fun _ => multiG twoDeputies) (-1) 1 s → s.numDeputies = 2 → 0 ≤ s.deputyRta.ext.epsilon →
        s.deputyRta.constraints = [("deputy_collision_1", multiCollision [0, 1 / 100, 0, 1 / 1000] (twoDeputies.deputyRadius * 2) twoDeputies.aMax 1)] →
        ∃ s', combinedFilter (deputyFilter solver (multiF twoDeputies) fun _ => multiG twoDeputies) s (x t) dt u = (.ok u, s')) ∧
      (∀ t, 0 ≤ t → t ≤ T → twoDeputies.deputyRadius * 2 < norm2 (vsub (pySlice (x t) 0 3) (pySlice (x t) 6 9))) ∧
      0 < (multiCollision [0, 1 / 100, 0, 1 / 1000] (twoDeputies.deputyRadius * 2) twoDeputies.aMax 1).value (agentState (x 0) 0) ∧
      (multiCollision [0, 1 / 100, 0, 1 / 1000] (twoDeputies.deputyRadius * 2) twoDeputies.aMax 1).value (agentState (x T) 0) < 0 := by
  obtain ⟨ε, hε, h⟩ := meeting_local
  have hin : ∀ t, 0 ≤ t → t ≤ ε → |t - ε / 2| < ε := fun t h0 h1 => by rw [abs_lt]; constructor <;> linarith
  have hmc : multiC twoDeputies (.coll 1) = ("deputy_collision_1", multiCollision [0, 1 / 100, 0, 1 / 1000] (twoDeputies.deputyRadius * 2) twoDeputies.aMax 1) := rfl
  refine ⟨fun t => meeting (t - ε / 2), ε, [0, 0, -1, 0, 0, 1], hε, meeting_motion _, fun t h0 h1 s dt hs hN heps hcon => ?_, fun t h0 h1 => ?_, ?_, ?_⟩
  · obtain ⟨r1, r2, r3, r4, -, -⟩ := h (t - ε / 2) (hin t h0 h1)
    obtain ⟨m0, m1⟩ := meeting_agent (t - ε / 2)
    have hsub : ∀ kc ∈ s.deputyRta.constraints, kc ∈ multiConstraints twoDeputies := by
      rw [hcon]
      intro kc hkc
      rw [List.mem_singleton] at hkc
      rw [hkc, ← hmc]
      exact multiC_mem (mem_mAll.2 ⟨by omega, by show 1 < 2; omega⟩)
    refine combined_unchanged hspec hs (sub_noslack hsub) heps (by rw [hN]; rfl)
      (fun q hq => sub_shapes two_ok.deputies hsub hs.dim hs.direct (agentState_length (meeting_length _) (by rw [hN] at hq; exact hq))) fun q hq => ?_
    have hadm : ∀ y u, u.length = 3 → (∀ a ∈ u, |a| ≤ (1 : ℝ)) →
        BarrierOK (multiF twoDeputies) (fun _ => multiG twoDeputies) (multiC twoDeputies (.coll 1)).2 y u 0 →
        Admissible (multiF twoDeputies) (fun _ => multiG twoDeputies) s.deputyRta y u := fun y u hl hb hbar => by
      refine ⟨by rw [hl, hs.dim], by rw [hs.deputyLow, hs.deputyHigh]; exact within_scalar hb, ?_, by rw [hs.direct]; simp⟩
      rw [hcon]
      intro kc hkc _
      rw [List.mem_singleton] at hkc
      rw [hkc, ← hmc]
      exact hbar
    rw [hN] at hq
    interval_cases q
    · rw [m0]
      exact hadm _ [0, 0, -1] rfl (by simp) (seen_barrier (upper_sol.length _) (lower_sol.length _) _ _ r1 r3)
    · rw [m1]
      exact hadm _ [0, 0, 1] rfl (by simp) (seen_barrier (lower_sol.length _) (upper_sol.length _) _ _ r2 r4)
  · have r1 := (h (t - ε / 2) (hin t h0 h1)).1
    refine r1.trans_eq ?_
    unfold meeting seenDist norm2
    rw [sqNorm3 (by simp [vsub, pySlice, upper_sol.length, lower_sol.length]), list_eq6 (upper_sol.length (t - ε / 2)), list_eq6 (lower_sol.length (t - ε / 2))]
    rfl
  · obtain ⟨r1, -, -, -, -, r6⟩ := h (0 - ε / 2) (hin 0 le_rfl hε.le)
    have hv := seen_value (upper_sol.length (0 - ε / 2)) (lower_sol.length _) (twoDeputies.sunVel * (0 - ε / 2)) r1
    rw [hmc] at hv
    rw [(meeting_agent _).1, hv]
    exact r6 (by linarith)
  · obtain ⟨r1, -, -, -, r5, -⟩ := h (ε - ε / 2) (hin ε hε.le le_rfl)
    have hv := seen_value (upper_sol.length (ε - ε / 2)) (lower_sol.length _) (twoDeputies.sunVel * (ε - ε / 2)) r1
    rw [hmc] at hv
    rw [(meeting_agent _).1, hv]
    exact r5 (by linarith)

theorem multi_init_use {c : MultiConfig} {epsilon : ℝ} {use : Option (List String)} {high low : Option (Bound ℝ)} {exc : Bool}
    {l : Dict (Constraint ℝ (List ℝ) InspParams)} (hl : selectConstraints (multiConstraints c) use = .ok l) {s : ASIFObj ℝ (List ℝ) InspParams Unit}
    (h : multiASIF c use high low epsilon exc = .ok s) :
    s.constraints = l ∧ s.ext.controlDim = 3 ∧ s.ext.direct = [] ∧
      s.enable = true ∧ s.controlBoundsLow = low ∧ s.controlBoundsHigh = high ∧ s.ext.solverException = exc ∧ s.ext.epsilon = epsilon := by
  unfold multiASIF asifInit CBObj.init at h
  rw [hl] at h
  simp only at h
  split at h
  · cases h
  · simp only [Except.ok.injEq] at h
    subst h
    exact ⟨rfl, rfl, rfl, rfl, rfl, rfl, rfl, rfl⟩

theorem combined_in_use {solver : Solver ℝ} {c : MultiConfig} {epsilon U : ℝ} {use : Option (List String)} {exc : Bool}
    {l : Dict (Constraint ℝ (List ℝ) InspParams)} (hl : selectConstraints (multiConstraints c) use = .ok l) {s : ASIFObj ℝ (List ℝ) InspParams Unit}
    (h : multiASIF c use (some (.scalar U)) (some (.scalar (-U))) epsilon exc = .ok s) :
    CombinedInUse solver (multiF c) (fun _ => multiG c) (-U) U (combinedInit (some (.scalar U)) (some (.scalar (-U))) c.numDeputies s) := by
  obtain ⟨-, h2, h3, h4, h5, h6, -, -⟩ := multi_init_use hl h
  exact ⟨rfl, rfl, rfl, multi_module h, h4, h5, h6, h2, h3⟩

/-- A combined module as in `C74_pairs_refuted`: its deputy module is constructed with the one constraint. -/
example {solver : Solver ℝ} : ∃ s : ASIFObj ℝ (List ℝ) InspParams Unit,
    multiASIF twoDeputies (some ["deputy_collision_1"]) (some (.scalar 1)) (some (.scalar (-1))) (1 / 100) true = .ok s ∧
    CombinedInUse solver (multiF twoDeputies) (fun _ => multiG twoDeputies) (-1) 1 (combinedInit (some (.scalar 1)) (some (.scalar (-1))) 2 s) ∧
    0 ≤ s.ext.epsilon ∧
    s.constraints = [("deputy_collision_1", multiCollision [0, 1 / 100, 0, 1 / 1000] (twoDeputies.deputyRadius * 2) twoDeputies.aMax 1)] := by
  have hl : selectConstraints (multiConstraints twoDeputies) (some ["deputy_collision_1"]) =
    .ok [("deputy_collision_1", multiCollision [0, 1 / 100, 0, 1 / 1000] (twoDeputies.deputyRadius * 2) twoDeputies.aMax 1)] := rfl
  obtain ⟨s, h⟩ : ∃ s, multiASIF twoDeputies (some ["deputy_collision_1"]) (some (.scalar 1)) (some (.scalar (-1))) (1 / 100) true = .ok s := ⟨_, rfl⟩
  obtain ⟨h1, -, -, -, -, -, -, h8⟩ := multi_init_use hl h
  exact ⟨s, h, combined_in_use hl h, by rw [h8]; norm_num, h1⟩

/-! ### The hypotheses of `C74_own_partial` are met -/

/-- One deputy at rest on the chief's orbit, the sun 60 degrees off its line. -/
noncomputable def aloneRest (d : ℝ) : List ℝ := [0, d, 0, 0, 0, 0, π / 6]

theorem aloneRest_own (d : ℝ) : ownView (aloneRest d) = orbitRest d 0 0 := rfl

section
variable {d : ℝ} (h1 : 20 ≤ d) (h2 : d ≤ 500)
include h1

theorem aloneRest_axis : sqNorm (pySlice (aloneRest d) 0 3) ≠ dot (pySlice (aloneRest d) 0 3) (sunDirection (comp (aloneRest d) 6)) ^ 2 := by
  have e : pySlice (aloneRest d) 0 3 = pySlice (orbitRest d 0 0) 0 3 := rfl
  have e' : sunDirection (comp (aloneRest d) 6) = sunVector (orbitRest d 0 0) := rfl
  rw [e, e', orbitRest_ps, ← norm2_sq rfl, orbitRest_norm, sq_abs]
  nlinarith

include h2

theorem aloneRest_inside : FleetInside (single multiStill) (aloneRest d) := by
  have hcos : cos ((single multiStill).fov / 2) = √3 / 2 := by
    have e : (single multiStill).fov / 2 = π / 6 := multiStill_fov
    rw [e, cos_pi_div_six]
  have h3 := sqrt3_gt
  have hrad : (single multiStill).radius = 10 := by show (5 : ℝ) + 5 = 10; norm_num
  have e : pySlice (aloneRest d) 0 3 = pySlice (orbitRest d 0 0) 0 3 := rfl
  have e' : sunDirection (comp (aloneRest d) (6 * (single multiStill).numDeputies)) = sunVector (orbitRest d 0 0) := rfl
  have hn : norm2 (pySlice (aloneRest d) 0 3) = d := by rw [e, orbitRest_norm, abs_of_pos (by linarith)]
  refine ⟨by rw [hn, hrad]; linarith, by rw [hn]; show d < 1000; linarith, ?_, fun i h0 h1 => (no_other ⟨h0, h1⟩).elim,
    fun i h0 h1 => (no_other ⟨h0, h1⟩).elim⟩
  rw [hn, hcos, e, e', orbitRest_ps]
  nlinarith

theorem aloneRest_in : MultiIn (single multiStill) (fun _ => 1) (aloneRest d) :=
  (fleet_inside_iff (single_ok multiStill_ok) (fun _ => Or.inl rfl) rfl (aloneRest_axis h1) fun _ h0 h1 => (no_other ⟨h0, h1⟩).elim).1
    (aloneRest_inside h1 h2)

theorem aloneRest_values : ∀ kc ∈ multiConstraints (single multiStill), 0 < kc.2.value (aloneRest d) := by
  rw [multi_value_pos (single_ok multiStill_ok) (fun _ => Or.inl rfl) (aloneRest_in h1 h2)]
  have ha : 7 / 100 < multiStill.aMax := inspStill_aMax
  have hrad : multiStill.radius = 10 := by show (5 : ℝ) + 5 = 10; norm_num
  have habs : |d| = d := abs_of_pos (by linarith)
  have hmarg : ∀ a y, 7 / 100 < a → 1 ≤ y → 1 / 1000 < √(2 * a * y) := fun a y ha hy => by
    rw [lt_sqrt (by norm_num)]
    nlinarith
  have hlim : ∀ i, stateAt (orbitRest d 0 0) i = 0 → 0 < multiStill.velLimit ^ 2 - stateAt (orbitRest d 0 0) i ^ 2 + -(1 / 1000) + 0 := fun i h => by
    rw [h]
    show (0 : ℝ) < 1 ^ 2 - 0 ^ 2 + -(1 / 1000) + 0
    norm_num
  intro k hk j _
  cases k with
  | own k =>
    show 0 < inspH multiStill.toInspConfig k j (ownView (aloneRest d)) + mShift k
    rw [aloneRest_own]
    cases k
    · show 0 < relativeVelocity 3 multiStill.v0 (multiStill.v1Coef * multiStill.n) multiStill.v0Distance (1 / 100000) (orbitRest d 0 0) + -(1 / 1000)
        + -(1 / 1000)
      have e : relativeVelocity 3 multiStill.v0 (multiStill.v1Coef * multiStill.n) multiStill.v0Distance (1 / 100000) (orbitRest d 0 0) =
          2 / 10 + 2 * (1027 / 1000000) * (√(0 ^ 2 + d ^ 2 + 0 ^ 2 + 1 / 100000) - 0) - √(0 ^ 2 + 0 ^ 2 + 0 ^ 2 + 1 / 100000) := by
        simp [relativeVelocity, normWithDelta, pySlice, orbitRest, multiStill, multiDefault, inspDefault]
      rw [e]
      have h1 : √((0 : ℝ) ^ 2 + 0 ^ 2 + 0 ^ 2 + 1 / 100000) ≤ 1 / 100 := by
        rw [sqrt_le_left (by norm_num)]; norm_num
      have h2 := sqrt_nonneg ((0 : ℝ) ^ 2 + d ^ 2 + 0 ^ 2 + 1 / 100000)
      nlinarith
    · show 0 < sunH multiStill.fov multiStill.aMax 0 (orbitRest d 0 0) + -(1 / 1000) + 0
      rw [orbitRest_sunH _ _ multiStill_fov]
      have := hmarg multiStill.aMax (3 / 4 * |d| + d / 4) ha (by rw [habs]; linarith)
      linarith
    · show 0 < maxH multiStill.rMax multiStill.aMax (orbitRest d 0 0) + -(1 / 1000) + 1 / 1000
      unfold maxH
      rw [orbitRest_pv, orbitRest_norm, zero_div]
      have := hmarg multiStill.aMax (multiStill.rMax - |d|) ha (by rw [habs]; show (1 : ℝ) ≤ 1000 - d; linarith)
      linarith
    · show 0 < psmFutureState multiStill.n (orbitRest d 0 0) ((j + 1) * 1) multiStill.radius + 0
      rw [orbitRest_psm, hrad, habs]; linarith
    · exact hlim 3 rfl
    · exact hlim 4 rfl
    · exact hlim 5 rfl
    · show 0 < chiefH multiStill.radius multiStill.aMax (orbitRest d 0 0) + 0
      unfold chiefH
      rw [orbitRest_pv, orbitRest_norm, hrad, zero_div]
      have := hmarg multiStill.aMax (|d| - 10) ha (by rw [habs]; linarith)
      linarith
  | coll i => exact (no_other (mem_mAll.1 hk)).elim
  | dsun i => exact (no_other (mem_mAll.1 hk)).elim
  | psm i => exact (no_other (mem_mAll.1 hk)).elim

end

/-- The second deputy's view of `multiRest`. -/
theorem multiRest_agent : agentState multiRest 0 = multiRest ∧ agentState multiRest 1 = [0, 300, 0, 0, 0, 0, 0, 100, 0, 0, 0, 0, π / 6] := ⟨rfl, rfl⟩

theorem multiRest_agent_values {q : Nat} (hq : q < 2) : (∀ kc ∈ multiOwn multiStill, 0 < kc.2.value (agentState multiRest q)) ∧
    vadd (multiF multiStill (agentState multiRest q)) (matVec (multiG multiStill) [0, 0, 0]) = zeros 13 := by
  have e : multiStill.sunVel = 0 := rfl
  have e' : multiStill.numDeputies = 2 := rfl
  interval_cases q
  · exact ⟨(own_values (by simp [agentState, multiRest])).2 (aloneRest_values (d := 100) (by norm_num) (by norm_num)), multiRest_still⟩
  · refine ⟨(own_values (by simp [agentState, multiRest])).2 (aloneRest_values (d := 300) (by norm_num) (by norm_num)), ?_⟩
    rw [multiRest_agent.2]
    unfold multiF multiG
    rw [e, e']
    simp [multiA, multiB, blockDiag, cwhA3, cwhB3, matVec, vadd, pySlice, zeros, List.replicate]

/-- A closed loop as in `C74_own_partial` up to any time: both deputies wait at rest ahead of the chief. -/
example {solver : Solver ℝ} (hspec : SolverSpec solver) {exc : Bool} (T : ℝ) :
    FleetMotion multiStill.n multiStill.m multiStill.sunVel multiStill.numDeputies (fun _ => multiRest) (thrustOf fun _ => zeros 6) ∧
    (∀ t, 0 ≤ t → t < T → ∃ (s s' : CombinedObj ℝ (ASIFObj ℝ (List ℝ) InspParams Unit)) (dt : ℝ) (uDes : List ℝ),
      CombinedInUse solver (multiF multiStill) (fun _ => multiG multiStill) (-1) 1 s ∧ s.numDeputies = multiStill.numDeputies ∧
      (∀ kc ∈ multiOwn multiStill, kc ∈ s.deputyRta.constraints) ∧ (∀ kc ∈ s.deputyRta.constraints, kc ∈ multiConstraints multiStill) ∧
      uDes.length = 3 * multiStill.numDeputies ∧
      (s.deputyRta.ext.solverException = true ∨
        ∀ q < multiStill.numDeputies, ∃ w, Admissible (multiF multiStill) (fun _ => multiG multiStill) s.deputyRta (agentState multiRest q) w) ∧
      combinedFilter (deputyFilter solver (multiF multiStill) fun _ => multiG multiStill) s multiRest dt uDes = (.ok (zeros 6), s')) ∧
    ∀ q < multiStill.numDeputies, DeputyInside multiStill q multiRest ∧ ∀ kc ∈ multiOwn multiStill, 0 < kc.2.value (agentState multiRest q) := by
  have hN : multiStill.numDeputies = 2 := rfl
  refine ⟨⟨fun _ _ => rfl, fun t _ q hq => ?_, fun _ _ => continuousOn_const, fun t _ q hq i hi => ?_, fun t _ => hasDerivWithinAt_const t (Ici t) _⟩,
    fun t _ _ => ?_, fun q hq => ⟨?_, (multiRest_agent_values hq).1⟩⟩
  · rw [hN] at hq
    interval_cases q <;> rfl
  · refine (hasDerivWithinAt_const t (Ici t) _).congr_deriv ?_
    rw [hN] at hq
    interval_cases q <;> interval_cases i <;> simp [pySlice, multiRest, cwhA3, cwhB3, matVec, vadd, comp, thrustOf, zeros, List.replicate]
  · have hl : selectConstraints (multiConstraints multiStill) (some ["chief_collision", "rel_vel", "chief_sun", "r_max", "PSM", "x_vel", "y_vel", "z_vel"]) =
      .ok (multiOwn multiStill) := rfl
    obtain ⟨s, h⟩ : ∃ s, multiASIF multiStill (some ["chief_collision", "rel_vel", "chief_sun", "r_max", "PSM", "x_vel", "y_vel", "z_vel"])
      (some (.scalar 1)) (some (.scalar (-1))) (1 / 100) exc = .ok s := ⟨_, rfl⟩
    obtain ⟨hc, hdim, hdir, hen, hlo, hhi, -, heps⟩ := multi_init_use hl h
    have huse := combined_in_use (solver := solver) hl h
    have hsub : ∀ kc ∈ s.constraints, kc ∈ multiConstraints multiStill := by
      rw [hc]
      intro kc hkc
      unfold multiConstraints
      exact List.mem_append_left _ hkc
    have hadm : ∀ q < 2, Admissible (multiF multiStill) (fun _ => multiG multiStill) s (agentState multiRest q) [0, 0, 0] := by
      intro q hq
      refine ⟨hdim.symm, by rw [hlo, hhi]; exact within_scalar (by simp), fun kc hkc _ => ?_, by rw [hdir]; simp⟩
      rw [hc] at hkc
      obtain ⟨hval, hst⟩ := multiRest_agent_values hq
      have hv := hval kc hkc
      have hk := hsub kc (by rw [hc]; exact hkc)
      rw [multiConstraints_eq] at hk
      obtain ⟨k, -, rfl⟩ := List.mem_map.1 hk
      have hv' : 0 < (multiC multiStill k).2.computeFn (agentState multiRest q) (multiC multiStill k).2.params + (multiC multiStill k).2.bias := hv
      refine ⟨polyAlpha (mCoefs k) ((multiC multiStill k).2.computeFn (agentState multiRest q) (multiC multiStill k).2.params + (multiC multiStill k).2.bias), ?_,
        ((C33_sign _ (mCoefs_classK k) _).2 hv').le⟩
      rw [barrierValue, multiC_alpha, hst, dot_zeros_right]
      simp only [Option.map_some, zero_add]
      rw [strengthening, if_pos hv'.le]
    obtain ⟨s', hs'⟩ := combined_unchanged hspec huse (sub_noslack hsub) (by show 0 ≤ s.ext.epsilon; rw [heps]; norm_num) (x := multiRest) (u := zeros 6) (dt := 1) rfl
      (fun q hq => sub_shapes multiStill_ok.deputies hsub hdim hdir (agentState_length rfl hq)) (fun q hq => by
        have hq : q < 2 := hq
        have e : pySlice (zeros 6 : List ℝ) (3 * q) (3 * q + 3) = [0, 0, 0] := by interval_cases q <;> rfl
        rw [e]
        exact hadm q hq)
    exact ⟨_, s', 1, zeros 6, huse, rfl, fun kc hkc => by show kc ∈ s.constraints; rw [hc]; exact hkc, hsub, rfl, Or.inr fun q hq => ⟨_, hadm q hq⟩, hs'⟩
  · rw [hN] at hq
    have h1 : MultiIn (single multiStill) (fun _ => 1) (alone (agentState multiRest q)) ∧
        sqNorm (pySlice multiRest (6 * q) (6 * q + 3)) ≠ dot (pySlice multiRest (6 * q) (6 * q + 3)) (sunDirection (comp multiRest (6 * multiStill.numDeputies))) ^ 2 := by
      interval_cases q
      · exact ⟨aloneRest_in (d := 100) (by norm_num) (by norm_num), aloneRest_axis (d := 100) (by norm_num)⟩
      · exact ⟨aloneRest_in (d := 300) (by norm_num) (by norm_num), aloneRest_axis (d := 300) (by norm_num)⟩
    exact (deputy_inside_iff multiStill_ok rfl hq h1.2).2 h1.1

end RTA
