import Verif.Lemmas.Zoo.InspectionMotion

/-!
The inspection module with the high order constraint on the collision with the chief.
-/
namespace RTA
open Set Real Filter Topology

noncomputable def hocCoefs : InspIx → List ℝ
  | .coll => [0, 1 / 10, 0, 1 / 10]
  | k => inspCoefs k

theorem hocCoefs_ne {k : InspIx} (hk : k ≠ .coll) : hocCoefs k = inspCoefs k := by
  cases k <;> first | rfl | exact absurd rfl hk

theorem hocCoefs_classK (k : InspIx) : ClassKCoefs (hocCoefs k) := by
  by_cases hk : k = .coll
  · subst hk
    refine ⟨fun i c h => ?_, 1, _, rfl, by norm_num⟩
    match i, h with
    | 0, h => simp [hocCoefs] at h; subst h; simp
    | 1, h => simp [hocCoefs] at h; subst h; exact ⟨by simp, by norm_num⟩
    | 2, h => simp [hocCoefs] at h; subst h; simp
    | 3, h => simp [hocCoefs] at h; subst h; exact ⟨by decide, by norm_num⟩
    | (i + 4), h => simp [hocCoefs] at h
  · rw [hocCoefs_ne hk]; exact inspCoefs_classK k

/-- The high order constraint. -/
noncomputable def hocK (c : InspConfig) : Constraint ℝ (List ℝ) InspParams :=
  { Constraint.mk'
      (fun x p => (hocbfHelper (fun h x p => partials h x p) (inspHocbfBase c.radius) (inspectionF c.n c.sunVel) (polyAlpha [0, 1 / 10, 0, 1 / 10])).compute x p)
      (fun x p => partials (fun x p =>
        (hocbfHelper (fun h x p => partials h x p) (inspHocbfBase c.radius) (inspectionF c.n c.sunVel) (polyAlpha [0, 1 / 10, 0, 1 / 10])).compute x p) x p)
      (some (polyAlpha [0, 1 / 10, 0, 1 / 10])) { collisionRadius := c.radius } with
    phiFn := fun x p => norm2 (pySlice x 0 3) - p.collisionRadius }

theorem inspHocbf_eq (c : InspConfig) : inspHocbf c = .ok (hocK c) := rfl

noncomputable def hocC (c : InspConfig) : InspIx → String × Constraint ℝ (List ℝ) InspParams
  | .coll => ("chief_collision_hocbf", hocK c)
  | k => inspC c k

theorem hocC_ne {c : InspConfig} {k : InspIx} (hk : k ≠ .coll) : hocC c k = inspC c k := by
  cases k <;> first | rfl | exact absurd rfl hk

theorem hocConstraints_eq (c : InspConfig) : inspHocbfConstraints c = .ok (inspAll.map (hocC c)) := rfl

theorem hocC_mem (c : InspConfig) (k : InspIx) : hocC c k ∈ inspAll.map (hocC c) := List.mem_map_of_mem (mem_inspAll k)

theorem hocC_alpha (c : InspConfig) (k : InspIx) : (hocC c k).2.alpha = some (polyAlpha (hocCoefs k)) := by cases k <;> rfl

theorem hocC_enabled (c : InspConfig) (k : InspIx) : (hocC c k).2.enabled = true := by cases k <;> rfl

theorem hocC_noslack (c : InspConfig) (k : InspIx) : (hocC c k).2.slackPriorityScale = none := by cases k <;> rfl

/-- The value of the high order constraint: the radial velocity plus the strengthened distance. -/
noncomputable def hocV (c : InspConfig) (x : List ℝ) : ℝ :=
  dot (pySlice x 0 3) (pySlice x 3 6) / norm2 (pySlice x 0 3) + polyAlpha [0, 1 / 10, 0, 1 / 10] (norm2 (pySlice x 0 3) - c.radius)

theorem hasDerivAt_root {a k R : ℝ} (h : a ^ 2 + k ≠ 0) : HasDerivAt (fun s => √(s ^ 2 + k) - R) (a / √(a ^ 2 + k)) a := by
  have := (((hasDerivAt_pow 2 a).add_const k).sqrt h).sub_const R
  refine this.congr_deriv ?_
  rw [Nat.cast_ofNat, show 2 - 1 = 1 from rfl, pow_one]
  field_simp

/-- The gradient of the distance. -/
theorem dist_partials {R : ℝ} {x : List ℝ} (hx : x.length = 8) (h0 : norm2 (pySlice x 0 3) ≠ 0) :
    partials (fun x (p : InspParams) => norm2 (pySlice x 0 3) - p.collisionRadius) x { collisionRadius := R } =
      [comp x 0 / norm2 (pySlice x 0 3), comp x 1 / norm2 (pySlice x 0 3), comp x 2 / norm2 (pySlice x 0 3), 0, 0, 0, 0, 0] := by
  match x, hx with
  | [a, b, c, d, e, f, g, h], _ =>
    have en : ∀ a b c d e f g h : ℝ, norm2 (pySlice [a, b, c, d, e, f, g, h] 0 3) = √(a ^ 2 + b ^ 2 + c ^ 2) := by
      intros; unfold norm2; rw [sqNorm3 rfl]; rfl
    rw [en] at h0
    have hne : a ^ 2 + b ^ 2 + c ^ 2 ≠ 0 := fun e => h0 (by rw [e, sqrt_zero])
    have e0 : (fun s : ℝ => √(s ^ 2 + b ^ 2 + c ^ 2) - R) = fun s => √(s ^ 2 + (b ^ 2 + c ^ 2)) - R := by funext s; rw [add_assoc]
    have e1 : (fun s : ℝ => √(a ^ 2 + s ^ 2 + c ^ 2) - R) = fun s => √(s ^ 2 + (a ^ 2 + c ^ 2)) - R := by funext s; congr 2; ring
    have e2 : (fun s : ℝ => √(a ^ 2 + b ^ 2 + s ^ 2) - R) = fun s => √(s ^ 2 + (a ^ 2 + b ^ 2)) - R := by funext s; congr 2; ring
    have d0 : deriv (fun s : ℝ => √(s ^ 2 + b ^ 2 + c ^ 2) - R) a = a / √(a ^ 2 + b ^ 2 + c ^ 2) := by
      rw [e0, (hasDerivAt_root (by rwa [← add_assoc])).deriv, add_assoc]
    have d1 : deriv (fun s : ℝ => √(a ^ 2 + s ^ 2 + c ^ 2) - R) b = b / √(a ^ 2 + b ^ 2 + c ^ 2) := by
      have e : b ^ 2 + (a ^ 2 + c ^ 2) = a ^ 2 + b ^ 2 + c ^ 2 := by ring
      rw [e1, (hasDerivAt_root (by rwa [e])).deriv, e]
    have d2 : deriv (fun s : ℝ => √(a ^ 2 + b ^ 2 + s ^ 2) - R) c = c / √(a ^ 2 + b ^ 2 + c ^ 2) := by
      have e : c ^ 2 + (a ^ 2 + b ^ 2) = a ^ 2 + b ^ 2 + c ^ 2 := by ring
      rw [e2, (hasDerivAt_root (by rwa [e])).deriv, e]
    simp only [partials, List.length_cons, List.length_nil, List.range_succ, List.range_zero, List.nil_append, List.cons_append, List.map_cons,
      List.map_nil, List.set_cons_zero, List.set_cons_succ, en, List.getD_cons_zero, List.getD_cons_succ, deriv_const, comp, d0, d1, d2,
      Nat.reduceAdd]

theorem hoc_value {c : InspConfig} {x : List ℝ} (hx : x.length = 8) (h0 : norm2 (pySlice x 0 3) ≠ 0) : (hocK c).value x = hocV c x := by
  show dot (partials (fun x (p : InspParams) => norm2 (pySlice x 0 3) - p.collisionRadius) x { collisionRadius := c.radius }) (inspectionF c.n c.sunVel x) +
    polyAlpha [0, 1 / 10, 0, 1 / 10] (norm2 (pySlice x 0 3) - c.radius + 0) + 0 + 0 = _
  rw [dist_partials hx h0, add_zero, add_zero, add_zero, hocV]
  congr 1
  match x, hx with
  | [a, b, d, e, f, g, h, i], _ =>
    rw [dot3 (p := pySlice [a, b, d, e, f, g, h, i] 0 3) (v := pySlice [a, b, d, e, f, g, h, i] 3 6) rfl rfl]
    simp [inspectionF, cwhA3, matVec, pySlice, comp]
    ring

/-- The values the constraints take. -/
noncomputable def hocH (c : InspConfig) : InspIx → ℕ → List ℝ → ℝ
  | .coll, _, x => hocV c x
  | k, j, x => inspH c k j x

theorem hocH_ne {c : InspConfig} {k : InspIx} (hk : k ≠ .coll) : hocH c k = inspH c k := by
  cases k <;> first | rfl | exact absurd rfl hk

noncomputable def hocGrad (c : InspConfig) : InspIx → ℕ → List ℝ → List ℝ
  | .coll, _, x => (hocK c).gradFn x (hocK c).params
  | k, j, x => inspGrad c k j x

theorem hocGrad_ne {c : InspConfig} {k : InspIx} (hk : k ≠ .coll) : hocGrad c k = inspGrad c k := by
  cases k <;> first | rfl | exact absurd rfl hk

theorem hocGrad_shape {c : InspConfig} {x : List ℝ} (hx : x.length = 8) (h0 : norm2 (pySlice x 0 3) ≠ 0) :
    ((hocK c).gradFn x (hocK c).params).length = 8 ∧ ((hocK c).gradFn x (hocK c).params).getD 7 0 = 0 := by
  have e : (hocK c).gradFn x (hocK c).params = partials (hocK c).computeFn x (hocK c).params := rfl
  rw [e]
  refine ⟨by rw [partials_length, hx], partials_free (by omega) fun s => ?_⟩
  have hp := (pySlice_set hx s).1
  have hv := (pySlice_set hx s).2.1
  have h1 := hoc_value (c := c) (x := x.set 7 s) (by simpa using hx) (by rwa [hp])
  have h2 := hoc_value (c := c) hx h0
  have e3 : hocV c (x.set 7 s) = hocV c x := by unfold hocV; rw [hp, hv]
  have : (hocK c).value (x.set 7 s) = (hocK c).value x := by rw [h1, h2, e3]
  unfold Constraint.value at this
  exact add_right_cancel this

theorem poly4 (a b y : ℝ) : polyAlpha [0, a, 0, b] y = a * y + b * y ^ 3 := by
  simp [polyAlpha, polyLoop]

theorem hoc_diff {c : InspConfig} {y0 : Fin 8 → ℝ} (h0 : 0 < norm2 (pySlice (List.ofFn y0) 0 3)) :
    DifferentiableAt ℝ (fun y : Fin 8 → ℝ => (hocK c).computeFn (List.ofFn y) (hocK c).params) y0 := by
  rw [norm8] at h0
  have h1 : √(y0 0 ^ 2 + y0 1 ^ 2 + y0 2 ^ 2) ≠ 0 := h0.ne'
  have h2 : y0 0 ^ 2 + y0 1 ^ 2 + y0 2 ^ 2 ≠ 0 := fun e => h1 (by rw [e, sqrt_zero])
  have hd : DifferentiableAt ℝ (fun y : Fin 8 → ℝ => (y 0 * y 3 + y 1 * y 4 + y 2 * y 5) / √(y 0 ^ 2 + y 1 ^ 2 + y 2 ^ 2) +
      (1 / 10 * (√(y 0 ^ 2 + y 1 ^ 2 + y 2 ^ 2) - c.radius) + 1 / 10 * (√(y 0 ^ 2 + y 1 ^ 2 + y 2 ^ 2) - c.radius) ^ 3)) y0 := by
    fun_prop (disch := assumption)
  refine hd.congr_of_eventuallyEq ?_
  have hc : ContinuousAt (fun y : Fin 8 → ℝ => √(y 0 ^ 2 + y 1 ^ 2 + y 2 ^ 2)) y0 := by fun_prop
  filter_upwards [hc.eventually (lt_mem_nhds h0)] with y hy
  have hy' : 0 < norm2 (pySlice (List.ofFn y) 0 3) := by rw [norm8]; exact hy
  have hv := hoc_value (c := c) (x := List.ofFn y) (by simp) hy'.ne'
  have : (hocK c).value (List.ofFn y) = (hocK c).computeFn (List.ofFn y) (hocK c).params + 0 := rfl
  rw [add_zero] at this
  rw [← this, hv, hocV, poly4, norm8, dot8]

/-- What the barrier condition of a constraint says. -/
theorem hoc_barrier {c : InspConfig} (hc : InspOK c) {x u : List ℝ} (hin : InspIn c x) (hu : u.length = 3) {k : InspIx}
    (hpos : ∀ j ∈ inspJ k, 0 < hocH c k j x)
    (hb : BarrierOK (inspectionF c.n c.sunVel) (fun _ => inspectionG c.m) (hocC c k).2 x u 0) :
    ∃ j ∈ inspJ k, (∀ i ∈ inspJ k, hocH c k j x ≤ hocH c k i x) ∧
      -polyAlpha (hocCoefs k) (hocH c k j x) ≤ dot (hocGrad c k j x) (computeStateDot c.n c.m c.sunVel x u) := by
  by_cases hk : k = .coll
  · subst hk
    have h0 := (hin.norm_pos hc).ne'
    obtain ⟨m, hm, hm0⟩ := hb
    rw [barrierValue, hocC_alpha] at hm
    simp only [Option.map_some, Option.some.injEq] at hm
    have hp : 0 < hocV c x := hpos 0 (by simp [inspJ])
    have hv : (hocC c .coll).2.computeFn x (hocC c .coll).2.params + (hocC c .coll).2.bias = hocV c x := hoc_value hin.len h0
    have hg : (hocC c .coll).2.gradFn x (hocC c .coll).2.params = hocGrad c .coll 0 x := rfl
    obtain ⟨hs1, hs2⟩ := hocGrad_shape (c := c) hin.len h0
    rw [hv, strengthening, if_pos hp.le, hg, dot_stateDot (q := hocGrad c .coll 0 x) hin.len hu hs1 hs2] at hm
    refine ⟨0, by simp [inspJ], fun i _ => le_rfl, ?_⟩
    have e : hocH c .coll 0 x = hocV c x := rfl
    rw [e]
    linarith
  · rw [hocH_ne hk] at hpos ⊢
    rw [hocC_ne hk] at hb
    rw [hocCoefs_ne hk, hocGrad_ne hk]
    exact insp_barrier hc hin hu hpos hb

section
variable {c : InspConfig} (hc : InspOK c) {x u : ℝ → List ℝ} (h : InspectionMotion c.n c.m c.sunVel x u)
include hc h

theorem hoc_deriv {t : ℝ} (ht : 0 ≤ t) (hin : InspIn c (x t)) (k : InspIx) (j : ℕ) (hpos : 0 < hocH c k j (x t)) :
    HasDerivWithinAt (fun s => hocH c k j (x s)) (dot (hocGrad c k j (x t)) (computeStateDot c.n c.m c.sunVel (x t) (u t))) (Ici t) t := by
  by_cases hk : k = .coll
  · subst hk
    have h0 := hin.norm_pos hc
    have hd := h.along (f := (hocK c).computeFn) (p := (hocK c).params) ht (hoc_diff (by rw [ofFn_toVec (h.len t ht)]; exact h0))
    have e : ∀ s, 0 ≤ s → InspIn c (x s) → hocH c .coll j (x s) = (hocK c).computeFn (x s) (hocK c).params := fun s hs hi => by
      have hv : (hocK c).computeFn (x s) (hocK c).params + 0 = hocV c (x s) := hoc_value hi.len (hi.norm_pos hc).ne'
      rw [add_zero] at hv
      exact hv.symm
    refine hd.congr_of_eventuallyEq ?_ (e t ht hin)
    filter_upwards [hin.eventually h ht, self_mem_nhdsWithin] with s hs hts
    exact e s (ht.trans hts) hs
  · rw [hocH_ne hk] at hpos ⊢
    rw [hocGrad_ne hk]
    exact insp_deriv hc h ht hin k j hpos

omit hc in
theorem hoc_cont {S : Set ℝ} (hS : S ⊆ Ici 0) (hr : ∀ t ∈ S, norm2 (pySlice (x t) 0 3) ≠ 0)
    (hax : ∀ t ∈ S, axisDist (pySlice (x t) 0 3) (sunVector (x t)) ≠ 0) (k : InspIx) (j : ℕ) :
    ContinuousOn (fun t => hocH c k j (x t)) S := by
  by_cases hk : k = .coll
  · subst hk
    show ContinuousOn (fun t => hocV c (x t)) S
    unfold hocV
    simp only [poly4]
    have hd := (h.path.pos.norm_cont.mono hS).sub (continuousOn_const (c := c.radius))
    exact (h.path.radial_cont hS hr).add ((continuousOn_const.mul hd).add (continuousOn_const.mul (hd.pow 3)))
  · rw [hocH_ne hk]
    exact insp_cont h.path hS hr hax k j

/-- Barrier conditions up to time `T` keep the constraints and the guards positive. -/
theorem hoc_stays {T : ℝ} (hax : ∀ t, 0 ≤ t → t ≤ T → axisDist (pySlice (x t) 0 3) (sunVector (x t)) ≠ 0)
    (hbar : ∀ t, 0 ≤ t → t < T → InspIn c (x t) → (∀ k, ∀ j ∈ inspJ k, 0 < hocH c k j (x t)) →
      ∀ k, BarrierOK (inspectionF c.n c.sunVel) (fun _ => inspectionG c.m) (hocC c k).2 (x t) (u t) 0)
    (h0 : InspIn c (x 0)) (h0' : ∀ k, ∀ j ∈ inspJ k, 0 < hocH c k j (x 0)) :
    ∀ t, 0 ≤ t → t ≤ T → InspIn c (x t) ∧ ∀ k, ∀ j ∈ inspJ k, 0 < hocH c k j (x t) := by
  intro t ht htT
  have mem : ∀ g : InspGuard, g ∈ [InspGuard.outside, .inside, .cone] := fun g => by cases g <;> simp
  have hr : ∀ t, 0 ≤ inspGuard c .outside (x t) → norm2 (pySlice (x t) 0 3) ≠ 0 := fun t ht => by
    have : 0 ≤ norm2 (pySlice (x t) 0 3) - c.radius := ht
    linarith [hc.radius]
  have key := guarded (I := inspAll) (J := inspJ) (G := [InspGuard.outside, .inside, .cone]) (T := T)
    (H := fun k j t => hocH c k j (x t))
    (H' := fun k j t => dot (hocGrad c k j (x t)) (computeStateDot c.n c.m c.sunVel (x t) (u t)))
    (al := fun k => polyAlpha (hocCoefs k)) (d := fun g t => inspGuard c g (x t)) (w := fun g t => inspGuardRate c g (x t))
    (fun g _ => guard_cont h.path g)
    (fun g _ t ht htT hg => guard_deriv h.path ht (hax t ht htT.le) (hr t (hg _ (mem .outside)).le) g)
    (fun g _ => rate_cont h.path (fun t ht => ht.1) (fun t ht => hr t (ht.2.2 _ (mem _))) (fun t ht => hax t ht.1 ht.2.1) g)
    (fun k _ j _ => hoc_cont h (fun t ht => ht.1) (fun t ht => hr t (ht.2.2 _ (mem _))) (fun t ht => hax t ht.1 ht.2.1) k j)
    (fun k _ j _ t ht htT hg hp => hoc_deriv hc h ht ⟨h.len t ht, hax t ht htT.le, fun g => hg g (mem g)⟩ k j hp)
    (fun t ht htT hg hp k _ => by
      have hin : InspIn c (x t) := ⟨h.len t ht, hax t ht htT.le, fun g => hg g (mem g)⟩
      exact hoc_barrier hc hin (h.ulen t ht) (hp k (mem_inspAll k)) (hbar t ht htT hin (fun k => hp k (mem_inspAll k)) k))
    (fun k _ M => polyAlpha_linear _ (hocCoefs_classK k) M)
    (fun t ht htT hg hp g _ hz => by
      cases g
      · have h1 : 0 < hocV c (x t) := hp .coll (mem_inspAll _) 0 (by simp [inspJ])
        have hz' : norm2 (pySlice (x t) 0 3) - c.radius = 0 := hz
        unfold hocV at h1
        rw [hz', poly4] at h1
        show 0 < _ / _
        linarith
      · have h1 : 0 < maxH c.rMax c.aMax (x t) + -(1 / 1000) := hp .rmax (mem_inspAll _) 0 (by simp [inspJ])
        have hz' : c.rMax - norm2 (pySlice (x t) 0 3) = 0 := hz
        unfold maxH at h1
        rw [hz', mul_zero, sqrt_zero, zero_sub] at h1
        show 0 < -(_ / _)
        linarith
      · have h1 : 0 < sunH c.fov c.aMax c.sunVel (x t) + -(1 / 1000) := hp .sun (mem_inspAll _) 0 (by simp [inspJ])
        have hz' : coneM (c.fov / 2) (pySlice (x t) 0 3) (sunVector (x t)) = 0 := hz
        unfold sunH at h1
        rw [hz', mul_zero, sqrt_zero, zero_add] at h1
        show 0 < coneRate _ _ _ _ _
        linarith)
    ⟨fun g _ => h0.guard g, fun k _ => h0' k⟩ t ht htT
  exact ⟨⟨h.len t ht, hax t ht htT, fun g => key.1 g (mem g)⟩, fun k => key.2 k (mem_inspAll k)⟩

end
end RTA
