import Verif.Model.Base
import Verif.Spec.Bounds
import Verif.Lemmas.Py
import Mathlib.Algebra.Order.Group.Abs
import Mathlib.Algebra.Order.Group.Unbundled.Abs
import Mathlib.Tactic.Linarith
import Mathlib.Algebra.Order.Ring.Int

/-!
Properties of `RTAModule`: C01, C02, C03, C05.
-/
namespace RTA

section order
variable {K : Type} [LinearOrder K]

theorem clip1_le_hi {lo : Option K} {b : K} (a : K) : clip1 lo (some b) a ≤ b := by
  unfold clip1; exact min_le_right _ _

theorem le_clip1_lo {a lo : K} {hi : Option K} (h : ∀ b, hi = some b → lo ≤ b) : lo ≤ clip1 (some lo) hi a := by
  unfold clip1
  cases hi with
  | none => exact le_max_right _ _
  | some b => exact le_min (le_max_right _ _) (h b rfl)

theorem clip1_of_within {lo hi : Option K} {a : K} (h1 : ∀ b, lo = some b → b ≤ a) (h2 : ∀ b, hi = some b → a ≤ b) :
    clip1 lo hi a = a := by
  unfold clip1
  cases lo with
  | none =>
    cases hi with
    | none => rfl
    | some b => exact min_eq_left (h2 b rfl)
  | some l =>
    have e : max a l = a := max_eq_left (h1 l rfl)
    cases hi with
    | none => exact e
    | some b => simp only [e]; exact min_eq_left (h2 b rfl)

theorem clip1_idem (lo hi : Option K) (a : K) : clip1 lo hi (clip1 lo hi a) = clip1 lo hi a := by
  unfold clip1
  cases lo with
  | none =>
    cases hi with
    | none => rfl
    | some b => simp
  | some l =>
    cases hi with
    | none => simp
    | some b =>
      simp only
      rcases le_total l b with h | h
      · have : l ≤ min (max a l) b := le_min (le_max_right _ _) h
        rw [max_eq_left this, min_eq_left (min_le_right _ _)]
      · have h1 : min (max a l) b = b := min_eq_right (h.trans (le_max_right _ _))
        rw [h1, max_eq_right h, min_eq_right h]

/-! ### C01 -/

/-- Components of a successful clip respect the bounds. -/
theorem npClip_bounds {lo hi : Option (Bound K)} {x y : List K} (h : npClip lo hi x = .ok y) {i : Nat} {v : K}
    (hv : y[i]? = some v) :
    (∀ b, boundAt hi i = some b → v ≤ b) ∧
    (∀ a, boundAt lo i = some a → (∀ b, boundAt hi i = some b → a ≤ b) → a ≤ v) := by
  obtain ⟨n, _, _, _, h4⟩ := npClip_ok h
  rw [h4 i] at hv
  obtain ⟨w, _, rfl⟩ := Option.map_eq_some_iff.1 hv
  constructor
  · intro b hb; rw [hb]; exact clip1_le_hi _
  · intro a ha hc; rw [ha]; exact le_clip1_lo hc

variable {σ I : Type} [HasBase σ K]

/-- **C01.** Whatever the subclass computes (`compute` is arbitrary and may even modify the bounds), a control returned
by an enabled module respects the upper bounds the module has, and the lower bounds wherever they do not contradict the
upper ones. The bounds are those of the object after the call. -/
theorem C01_filtered_control_in_bounds (compute : σ → I → K → List K → Except PyErr (List K) × σ)
    (self : σ) (inp : I) (dt : K) (u c : List K) (self' : σ)
    (henabled : (HasBase.get self).enable = true)
    (hcall : filterControl compute self inp dt u = (.ok c, self')) (i : Nat) (v : K) (hv : c[i]? = some v) :
    (∀ b, boundAt (HasBase.get self').controlBoundsHigh i = some b → v ≤ b) ∧
    (∀ a, boundAt (HasBase.get self').controlBoundsLow i = some a →
      (∀ b, boundAt (HasBase.get self').controlBoundsHigh i = some b → a ≤ b) → a ≤ v) := by
  unfold filterControl at hcall
  simp only [modifyBase, HasBase.get_set, henabled, if_true] at hcall
  split at hcall
  · simp at hcall
  · rename_i w s1 hw
    split at hcall
    · simp at hcall
    · rename_i c' hc'
      simp only [Prod.mk.injEq, Except.ok.injEq] at hcall
      obtain ⟨rfl, rfl⟩ := hcall
      simp only [HasBase.get_set]
      unfold Base.clipControl at hc'
      split at hc'
      · exact npClip_bounds hc' hv
      · rename_i hn
        simp only [Bool.or_eq_true, not_or, Bool.not_eq_true, Option.isSome_eq_false_iff, Option.isNone_iff_eq_none] at hn
        simp [hn.1, hn.2, boundAt]

/-- **C01**, whole vector form: when the subclass leaves the bounds alone and the bounds are consistent, the returned
control is within the bounds the module had when it was called. -/
theorem C01_filtered_control_within (compute : σ → I → K → List K → Except PyErr (List K) × σ)
    (hcompute : ∀ s i dt u, (HasBase.get (compute s i dt u).2).controlBoundsHigh = (HasBase.get s).controlBoundsHigh ∧
      (HasBase.get (compute s i dt u).2).controlBoundsLow = (HasBase.get s).controlBoundsLow)
    (self : σ) (inp : I) (dt : K) (u c : List K) (self' : σ)
    (henabled : (HasBase.get self).enable = true)
    (hcons : BoundsConsistent (HasBase.get self).controlBoundsLow (HasBase.get self).controlBoundsHigh)
    (hcall : filterControl compute self inp dt u = (.ok c, self')) :
    Within (HasBase.get self).controlBoundsLow (HasBase.get self).controlBoundsHigh c := by
  have hb : (HasBase.get self').controlBoundsHigh = (HasBase.get self).controlBoundsHigh ∧
      (HasBase.get self').controlBoundsLow = (HasBase.get self).controlBoundsLow := by
    unfold filterControl at hcall
    simp only [modifyBase, HasBase.get_set, henabled, if_true] at hcall
    have hh := hcompute (HasBase.set { (HasBase.get self) with controlDesired := some u } self) inp dt u
    simp only [henabled] at hh
    split at hcall
    · simp at hcall
    · rename_i w s1 hw
      rw [hw] at hh
      split at hcall
      · simp at hcall
      · simp only [Prod.mk.injEq, Except.ok.injEq] at hcall
        obtain ⟨rfl, rfl⟩ := hcall
        simpa [HasBase.get_set] using hh
  intro i v hv
  have := C01_filtered_control_in_bounds compute self inp dt u c self' henabled hcall i v hv
  rw [hb.1, hb.2] at this
  exact ⟨fun a ha => this.2 a ha (fun b hb => hcons i a b ha hb), this.1⟩

/-- The hypotheses of C01 are met by a module with mixed scalar/array bounds whose filter doubles the control:
`[5, -7, 1]` doubled is clipped to `[3, -4, 2]`. -/
example : ∃ self',
    filterControl (σ := Base Int) (I := Unit) (fun s _ _ u => (.ok (u.map (2 * ·)), s))
      (Base.init (some (.arr false [3, 9, 9])) (some (.scalar (-4)))) () 1 [5, -7, 1] = (.ok [3, -4, 2], self') :=
  ⟨_, rfl⟩

end order

section plain
variable {K : Type} {σ I : Type} [HasBase σ K]

/-! ### C02 -/

/-- **C02.** A disabled module returns the desired control itself, without error, without calling the subclass, and
changes nothing but the two recorded controls: the base attributes change as stated and putting the old base attributes
back gives the old object. -/
theorem C02_disabled_passthrough [Max K] [Min K] (compute : σ → I → K → List K → Except PyErr (List K) × σ)
    (self : σ) (inp : I) (dt : K) (u : List K) (hdis : (HasBase.get self).enable = false) :
    ∃ self', filterControl compute self inp dt u = (.ok u, self') ∧
      HasBase.get self' = { HasBase.get self with controlDesired := some u, controlActual := some u } ∧
      HasBase.set (HasBase.get self) self' = self := by
  unfold filterControl
  simp only [modifyBase, HasBase.get_set, hdis, Bool.false_eq_true, if_false]
  refine ⟨_, rfl, ?_, ?_⟩
  · simp [HasBase.get_set]
  · simp only [HasBase.set_set, HasBase.set_get]

/-- A disabled module with bounds and a subclass that always raises: an out-of-bounds control passes unchanged. -/
example : (filterControl (σ := Base Int) (I := Unit) (fun s _ _ _ => (.error .solverError, s))
      { Base.init (some (.scalar 1)) (some (.scalar (-1))) with enable := false } () 1 [5, -7]).1 = .ok [5, -7] := rfl

/-! ### C03 -/

/-- **C03**, last call. After every successful call, whatever the object state before and whatever the subclass did to
the recorded controls, `generate_info` reports the returned control as actual control. -/
theorem C03_actual_is_returned [Max K] [Min K] (compute : σ → I → K → List K → Except PyErr (List K) × σ)
    (self : σ) (inp : I) (dt : K) (u c : List K) (self' : σ)
    (hcall : filterControl compute self inp dt u = (.ok c, self')) :
    (generateInfo self').controlActual = some c := by
  unfold filterControl at hcall
  simp only [modifyBase, HasBase.get_set] at hcall
  split at hcall
  · split at hcall
    · simp at hcall
    · split at hcall
      · simp at hcall
      · simp only [Prod.mk.injEq, Except.ok.injEq] at hcall
        obtain ⟨rfl, rfl⟩ := hcall
        simp [generateInfo, HasBase.get_set]
  · simp only [Prod.mk.injEq, Except.ok.injEq] at hcall
    obtain ⟨rfl, rfl⟩ := hcall
    simp [generateInfo, HasBase.get_set]

/-- What the history theorem needs to know about a subclass's `compute_filtered_control`: it does not touch the recorded
desired control, the enable flag or the bounds, and when it raises it has not recorded an actual control. -/
structure KeepsRecords (compute : σ → I → K → List K → Except PyErr (List K) × σ) : Prop where
  desired : ∀ s i dt u, (HasBase.get (compute s i dt u).2).controlDesired = (HasBase.get s).controlDesired
  enable : ∀ s i dt u, (HasBase.get (compute s i dt u).2).enable = (HasBase.get s).enable
  high : ∀ s i dt u, (HasBase.get (compute s i dt u).2).controlBoundsHigh = (HasBase.get s).controlBoundsHigh
  low : ∀ s i dt u, (HasBase.get (compute s i dt u).2).controlBoundsLow = (HasBase.get s).controlBoundsLow
  actual : ∀ s i dt u e s', compute s i dt u = (.error e, s') →
    (HasBase.get s').controlActual = (HasBase.get s).controlActual

/-- User visible operations on a module. -/
inductive BaseOp (K I : Type) where
  | call (inp : I) (dt : K) (u : List K)
  | reset
  | setEnable (b : Bool)

/-- What the user sees of an operation. -/
inductive BaseEvent (K : Type) where
  | returned (desired control : List K)
  | raised (desired : List K)
  | wasReset
  | toggled

/-- Execute one operation. -/
def stepBase [Max K] [Min K] (compute : σ → I → K → List K → Except PyErr (List K) × σ) (s : σ) :
    BaseOp K I → BaseEvent K × σ
  | .call i dt u =>
    match filterControl compute s i dt u with
    | (.ok c, s') => (.returned u c, s')
    | (.error _, s') => (.raised u, s')
  | .reset => (.wasReset, Base.reset s)
  | .setEnable b => (.toggled, modifyBase (fun x => { x with enable := b }) s)

/-- Execute a history, collecting what the user sees (oldest event first). -/
def runBase [Max K] [Min K] (compute : σ → I → K → List K → Except PyErr (List K) × σ) :
    σ → List (BaseOp K I) → List (BaseEvent K) × σ
  | s, [] => ([], s)
  | s, op :: ops =>
    let (e, s) := stepBase compute s op
    let (es, s) := runBase compute s ops
    (e :: es, s)

/-- Specification: the desired control to report after a list of events, given the report before them: that of the last
call, successful or not, none after a reset. -/
def reportDesired (init : Option (List K)) : List (BaseEvent K) → Option (List K)
  | [] => init
  | .returned d _ :: es => reportDesired (some d) es
  | .raised d :: es => reportDesired (some d) es
  | .wasReset :: es => reportDesired none es
  | .toggled :: es => reportDesired init es

/-- Specification: the actual control to report: what the last successful call returned, none after a reset. -/
def reportActual (init : Option (List K)) : List (BaseEvent K) → Option (List K)
  | [] => init
  | .returned _ c :: es => reportActual (some c) es
  | .raised _ :: es => reportActual init es
  | .wasReset :: es => reportActual none es
  | .toggled :: es => reportActual init es

/-- A bound that is a number or absent, so clipping cannot raise. -/
def ScalarBound : Option (Bound K) → Prop
  | some (.arr _ _) => False
  | _ => True

theorem clipControl_scalar [Max K] [Min K] {b : Base K} (h : ScalarBound b.controlBoundsHigh)
    (l : ScalarBound b.controlBoundsLow) (u : List K) : ∃ c, b.clipControl u = .ok c := by
  unfold Base.clipControl
  split
  · obtain ⟨y, hy, _⟩ := npClip_fits (x := u) (lo := b.controlBoundsLow) (hi := b.controlBoundsHigh)
      (by cases hb : b.controlBoundsLow with
          | none => trivial
          | some x => cases x with
            | scalar _ => trivial
            | arr _ _ => rw [hb] at l; exact l.elim)
      (by cases hb : b.controlBoundsHigh with
          | none => trivial
          | some x => cases x with
            | scalar _ => trivial
            | arr _ _ => rw [hb] at h; exact h.elim)
    exact ⟨y, hy⟩
  · exact ⟨u, rfl⟩

/-- One call under `KeepsRecords`: records and bounds afterwards. -/
theorem filterControl_records [Max K] [Min K] {compute : σ → I → K → List K → Except PyErr (List K) × σ}
    (hc : KeepsRecords compute) (s : σ) (i : I) (dt : K) (u : List K)
    (hh : ScalarBound (HasBase.get s).controlBoundsHigh) (hl : ScalarBound (HasBase.get s).controlBoundsLow) :
    let r := filterControl compute s i dt u
    (HasBase.get r.2).controlDesired = some u ∧
    (HasBase.get r.2).controlBoundsHigh = (HasBase.get s).controlBoundsHigh ∧
    (HasBase.get r.2).controlBoundsLow = (HasBase.get s).controlBoundsLow ∧
    (HasBase.get r.2).enable = (HasBase.get s).enable ∧
    (∀ e, r.1 = .error e → (HasBase.get r.2).controlActual = (HasBase.get s).controlActual) := by
  simp only [filterControl, modifyBase, HasBase.get_set]
  set s0 : σ := HasBase.set { HasBase.get s with controlDesired := some u } s with hs0
  have g0 : HasBase.get s0 = { HasBase.get s with controlDesired := some u } := by rw [hs0, HasBase.get_set]
  split
  · rename_i hen
    have k1 := hc.desired s0 i dt u
    have k2 := hc.high s0 i dt u
    have k3 := hc.low s0 i dt u
    have k4 := hc.actual s0 i dt u
    have k5 := hc.enable s0 i dt u
    split
    · rename_i e s1 h1
      rw [h1] at k1 k2 k3 k5
      simp only [g0] at k1 k2 k3 k5
      refine ⟨k1, k2, k3, k5, fun e' _ => ?_⟩
      rw [k4 e s1 h1, g0]
    · rename_i w s1 h1
      rw [h1] at k1 k2 k3 k5
      simp only [g0] at k1 k2 k3 k5
      obtain ⟨c, hcl⟩ := clipControl_scalar (b := HasBase.get s1) (by rw [k2]; exact hh) (by rw [k3]; exact hl) w
      rw [hcl]
      simp only [HasBase.get_set]
      exact ⟨k1, k2, k3, k5, fun e h => by simp at h⟩
  · simp only [HasBase.get_set, hs0]
    exact ⟨trivial, trivial, trivial, trivial, fun e h => by simp at h⟩

/-- **C03**, histories. After any sequence of calls (successful or raising), resets and enable toggles, `generate_info`
reports the desired control of the last call and the actual control of the last successful call since the last reset. -/
theorem C03_history [Max K] [Min K] {compute : σ → I → K → List K → Except PyErr (List K) × σ}
    (hc : KeepsRecords compute) (ops : List (BaseOp K I)) (s : σ)
    (hh : ScalarBound (HasBase.get s).controlBoundsHigh) (hl : ScalarBound (HasBase.get s).controlBoundsLow) :
    let r := runBase compute s ops
    (generateInfo r.2).controlDesired = reportDesired (generateInfo s).controlDesired r.1 ∧
    (generateInfo r.2).controlActual = reportActual (generateInfo s).controlActual r.1 := by
  induction ops generalizing s with
  | nil => exact ⟨rfl, rfl⟩
  | cons op ops ih =>
    cases op with
    | call i dt u =>
      have hrec := filterControl_records hc s i dt u hh hl
      have hact : ∀ c s', filterControl compute s i dt u = (.ok c, s') → (generateInfo s').controlActual = some c :=
        fun c s' h => C03_actual_is_returned compute s i dt u c s' h
      rcases hres : filterControl compute s i dt u with ⟨r1, s1⟩
      rw [hres] at hrec
      obtain ⟨d1, b1, b2, _, e1⟩ := hrec
      have ih' := ih s1 (by rw [b1]; exact hh) (by rw [b2]; exact hl)
      cases r1 with
      | ok c =>
        have := hact c s1 hres
        simp only [runBase, stepBase, hres, reportDesired, reportActual]
        rw [this] at ih'
        simp only [generateInfo] at ih' ⊢
        rw [d1] at ih'
        exact ih'
      | error e =>
        have := e1 e rfl
        simp only [runBase, stepBase, hres, reportDesired, reportActual]
        simp only [generateInfo] at ih' ⊢
        rw [d1, this] at ih'
        exact ih'
    | reset =>
      have ih' := ih (Base.reset s)
        (by simp only [Base.reset, modifyBase, HasBase.get_set]; exact hh)
        (by simp only [Base.reset, modifyBase, HasBase.get_set]; exact hl)
      simp only [runBase, stepBase, reportDesired, reportActual]
      simpa only [generateInfo, Base.reset, modifyBase, HasBase.get_set] using ih'
    | setEnable b =>
      have ih' := ih (modifyBase (fun x => { x with enable := b }) s)
        (by simp only [modifyBase, HasBase.get_set]; exact hh)
        (by simp only [modifyBase, HasBase.get_set]; exact hl)
      simp only [runBase, stepBase, reportDesired, reportActual]
      simpa only [generateInfo, modifyBase, HasBase.get_set] using ih'

/-- A hook satisfying `KeepsRecords` that raises on negative step sizes: history with success, failure, reset. -/
example : KeepsRecords (σ := Base Int) (I := Unit)
    (fun s _ dt u => if dt < 0 then (.error .solverError, s) else (.ok (u.map (· + 1)), s)) := by
  constructor <;> intro s i dt u <;> try (split <;> rfl)
  intro e s' h
  split at h
  · simp only [Prod.mk.injEq] at h; rw [h.2]
  · simp at h

/-- The reports in that history: after `call 5; failing call 7` the report is desired `7`, actual `3` (clipped `6`). -/
example :
    let compute : Base Int → Unit → Int → List Int → Except PyErr (List Int) × Base Int :=
      fun s _ dt u => if dt < 0 then (.error .solverError, s) else (.ok (u.map (· + 1)), s)
    let r := runBase compute (Base.init (some (.scalar 3)) none) [.call () 1 [5], .call () (-1) [7]]
    ((generateInfo r.2).controlDesired, (generateInfo r.2).controlActual) = (some [7], some [3]) := rfl

end plain

/-! ### C05 -/

section C05
variable {K : Type}

/-- **C05**, identity: a control inside the bounds is returned unchanged. -/
theorem C05_clip_identity [LinearOrder K] (b : Base K) (u : List K)
    (hl : BoundFits u.length b.controlBoundsLow) (hh : BoundFits u.length b.controlBoundsHigh)
    (hin : Within b.controlBoundsLow b.controlBoundsHigh u) : b.clipControl u = .ok u := by
  unfold Base.clipControl
  split
  · obtain ⟨y, hy, hlen, hget⟩ := npClip_fits hl hh
    rw [hy]
    congr 1
    apply List.ext_getElem?
    intro i
    rw [hget i]
    cases hu : u[i]? with
    | none => rfl
    | some v =>
      have := hin i v hu
      simp only [Option.map_some]
      rw [clip1_of_within this.1 this.2]
  · rfl

/-- Clipping is total when the array bounds have one element or one per control component. -/
theorem C05_clip_total [LinearOrder K] (b : Base K) (u : List K)
    (hl : BoundFits u.length b.controlBoundsLow) (hh : BoundFits u.length b.controlBoundsHigh) :
    ∃ c, b.clipControl u = .ok c ∧ c.length = u.length := by
  unfold Base.clipControl
  split
  · obtain ⟨y, hy, hlen, hget⟩ := npClip_fits hl hh
    exact ⟨y, hy, hlen⟩
  · exact ⟨u, rfl, rfl⟩

/-- **C05**, idempotence: clipping a clipped control changes nothing, even when the bounds contradict each other. -/
theorem C05_clip_idempotent [LinearOrder K] (b : Base K) (u c : List K)
    (hc : b.clipControl u = .ok c) : b.clipControl c = .ok c := by
  unfold Base.clipControl at hc ⊢
  split at hc
  · rename_i hs
    rw [if_pos hs]
    obtain ⟨fl, fh⟩ := npClip_fits_of_ok hc
    obtain ⟨n, _, _, _, hget⟩ := npClip_ok hc
    obtain ⟨z, hz, hzl, hzget⟩ := npClip_fits fl fh
    rw [hz]
    congr 1
    apply List.ext_getElem?
    intro i
    rw [hzget i, hget i]
    cases (bcastTo n u)[i]? with
    | none => rfl
    | some v => simp [clip1_idem]
  · rename_i hs
    rw [if_neg hs]

theorem clip1_minimal [AddCommGroup K] [LinearOrder K] [IsOrderedAddMonoid K] {lo hi : Option K} (a z : K)
    (h1 : ∀ b, lo = some b → b ≤ z) (h2 : ∀ b, hi = some b → z ≤ b) : |clip1 lo hi a - a| ≤ |z - a| := by
  have key : (z ≤ clip1 lo hi a ∧ clip1 lo hi a ≤ a) ∨ (a ≤ clip1 lo hi a ∧ clip1 lo hi a ≤ z) ∨ clip1 lo hi a = a := by
    unfold clip1
    cases lo with
    | none =>
      cases hi with
      | none => right; right; rfl
      | some b =>
        rcases le_total a b with h | h
        · right; right; exact min_eq_left h
        · left; simp only [min_eq_right h]; exact ⟨h2 b rfl, h⟩
    | some l =>
      have hl := h1 l rfl
      cases hi with
      | none =>
        rcases le_total a l with h | h
        · right; left; simp only [max_eq_right h]; exact ⟨h, hl⟩
        · right; right; exact max_eq_left h
      | some b =>
        have hb := h2 b rfl
        rcases le_total a l with h | h
        · right; left
          simp only [max_eq_right h, min_eq_left (hl.trans hb)]
          exact ⟨h, hl⟩
        · simp only [max_eq_left h]
          rcases le_total a b with h' | h'
          · right; right; exact min_eq_left h'
          · left; rw [min_eq_right h']; exact ⟨hb, h'⟩
  rcases key with ⟨h, h'⟩ | ⟨h, h'⟩ | h
  · rw [abs_of_nonpos (sub_nonpos.2 h'), abs_of_nonpos (sub_nonpos.2 (h.trans h'))]
    exact neg_le_neg (sub_le_sub_right h a)
  · rw [abs_of_nonneg (sub_nonneg.2 h), abs_of_nonneg (sub_nonneg.2 (h.trans h'))]
    exact sub_le_sub_right h' a
  · rw [h]; simp

/-- **C05**, minimality: in every component no in-bounds control is closer to the clipped one's source. -/
theorem C05_clip_minimal [AddCommGroup K] [LinearOrder K] [IsOrderedAddMonoid K] (b : Base K) (u c : List K)
    (hl : BoundFits u.length b.controlBoundsLow) (hh : BoundFits u.length b.controlBoundsHigh)
    (hc : b.clipControl u = .ok c) (w : List K) (hw : Within b.controlBoundsLow b.controlBoundsHigh w)
    (i : Nat) (ui ci wi : K) (hu : u[i]? = some ui) (hci : c[i]? = some ci) (hwi : w[i]? = some wi) :
    |ci - ui| ≤ |wi - ui| := by
  unfold Base.clipControl at hc
  split at hc
  · obtain ⟨y, hy, hlen, hget⟩ := npClip_fits hl hh
    rw [hy] at hc
    obtain rfl : y = c := by simpa using hc
    rw [hget i, hu] at hci
    simp only [Option.map_some, Option.some.injEq] at hci
    subst hci
    exact clip1_minimal _ _ (hw i wi hwi).1 (hw i wi hwi).2
  · obtain rfl : u = c := by simpa using hc
    rw [hu] at hci
    obtain rfl : ui = ci := by simpa using hci
    simp

/-- A concrete case of the three clip theorems: bounds `[-1,-2]..5`, control `[7,-9]`, clipped `[5,-2]`. -/
example : (Base.init (some (.scalar (5 : Int))) (some (.arr true [-1, -2]))).clipControl [7, -9] = .ok [5, -2] ∧
    Within (some (.arr true [-1, -2])) (some (.scalar (5 : Int))) [5, -2] ∧
    BoundFits 2 (some (.arr true [(-1 : Int), -2])) := by
  refine ⟨rfl, ?_, Or.inr rfl⟩
  intro i v hv
  match i with
  | 0 => simp at hv; subst hv; simp [WithinAt, boundAt]
  | 1 => simp at hv; subst hv; simp [WithinAt, boundAt]
  | n + 2 => simp at hv

end C05

end RTA
