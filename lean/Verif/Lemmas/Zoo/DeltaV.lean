import Verif.Spec.Zoo.DeltaV
import Mathlib.Tactic.Linarith
import Mathlib.Tactic.Positivity
import Mathlib.Algebra.Order.Field.Basic

/-!
Lemmas about the delta-v limiter.
-/
namespace RTA
variable {K : Type} [Field K] [LinearOrder K]

theorem predState_ok {s : DeltaVObj K} (hs : DVShape s) {x u : List K} (dt : K) (hx : x.length = 8) (hu : u.length = 3) :
    ∃ y, s.predState x dt u = .ok y ∧ y.length = 8 ∧
      dvOf y = dvOf x + (u.map fun c => |c|).foldr (· + ·) 0 / s.m * dt := by
  unfold DeltaVObj.predState
  rw [if_neg (by simp [hx, hu])]
  refine ⟨_, rfl, ?_, ?_⟩
  · simp [vadd, matVec, hx, hs.A, hs.B]
  · have h7 : 7 < x.length := by omega
    simp [dvOf, vadd, matVec, hs.A, hs.B, List.getElem?_zipWith, List.getElem?_eq_getElem h7]

omit [LinearOrder K] in
theorem trackError_ok (s : DeltaVObj K) {x : List K} (hx : 5 ≤ x.length) :
    ∃ er, s.trackError x = .ok er := by
  unfold DeltaVObj.trackError
  rw [List.getElem?_eq_getElem (by omega : 3 < x.length), List.getElem?_eq_getElem (by omega : 1 < x.length),
    List.getElem?_eq_getElem (by omega : 4 < x.length), List.getElem?_eq_getElem (by omega : 0 < x.length)]
  exact ⟨_, rfl⟩

theorem backup_ok {s : DeltaVObj K} (hs : DVShape s) {x : List K} (dt : K) (hx : 5 ≤ x.length) (ei : List K) :
    ∃ ub ei', s.backupControl x dt ei = .ok (ub, ei') ∧ ub.length = 3 := by
  obtain ⟨er, he⟩ := trackError_ok s hx
  unfold DeltaVObj.backupControl
  rw [he]
  exact ⟨_, _, rfl, by simp [vsub, matVec, hs.K1, hs.K2]⟩

/-- The predicted run, as functions of the step. -/
noncomputable def predRun (s : DeltaVObj K) (dt : K) (x0 : List K) : Nat → List K × List K
  | 0 => (x0, s.errorIntegral)
  | k + 1 =>
    let p := predRun s dt x0 k
    match s.backupControl p.1 dt p.2 with
    | .error _ => p
    | .ok (ub, ei) =>
      match s.predState p.1 dt ub with
      | .error _ => p
      | .ok y => (y, ei)

theorem prediction_exists {s : DeltaVObj K} (hs : DVShape s) {inp u : List K} (dt : K) (hx : inp.length = 8)
    (hu : u.length = 3) : ∃ xs is, IsPrediction s inp dt u xs is := by
  obtain ⟨x0, h0, hl0, _⟩ := predState_ok hs dt hx hu
  have hlen : ∀ k, (predRun s dt x0 k).1.length = 8 := by
    intro k
    induction k with
    | zero => exact hl0
    | succ k ih =>
      obtain ⟨ub, ei, hb, hub⟩ := backup_ok hs dt (by omega : 5 ≤ (predRun s dt x0 k).1.length) (predRun s dt x0 k).2
      obtain ⟨y, hy, hly, _⟩ := predState_ok hs dt ih hub
      simp only [predRun, hb, hy, hly]
  refine ⟨fun k => (predRun s dt x0 k).1, fun k => (predRun s dt x0 k).2, h0, rfl, ?_⟩
  intro k
  obtain ⟨ub, ei, hb, hub⟩ := backup_ok hs dt (by rw [hlen]; omega : 5 ≤ (predRun s dt x0 k).1.length) (predRun s dt x0 k).2
  obtain ⟨y, hy, hly, _⟩ := predState_ok hs dt (hlen k) hub
  refine ⟨ub, ?_, ?_⟩
  · simp only [predRun, hb, hy]
  · simp only [predRun, hb, hy]

theorem predState_len {s : DeltaVObj K} (hs : DVShape s) {x u y : List K} {dt : K} (h : s.predState x dt u = .ok y) :
    y.length = 8 ∧ x.length = 8 ∧ u.length = 3 := by
  by_cases hc : x.length ≠ 8 ∨ u.length ≠ 3
  · unfold DeltaVObj.predState at h
    rw [if_pos hc] at h
    exact absurd h (by simp)
  · have h1 : x.length = 8 := by tauto
    have h2 : u.length = 3 := by tauto
    obtain ⟨z, hz, hl, _⟩ := predState_ok hs dt h1 h2
    rw [hz] at h
    simp only [Except.ok.injEq] at h
    rw [← h]; exact ⟨hl, h1, h2⟩

theorem pred_len {s : DeltaVObj K} (hs : DVShape s) {inp u : List K} {dt : K} {xs is : Nat → List K}
    (hp : IsPrediction s inp dt u xs is) (k : Nat) : (xs k).length = 8 := by
  cases k with
  | zero => exact (predState_len hs hp.start).1
  | succ k =>
    obtain ⟨ub, _, h⟩ := hp.step k
    exact (predState_len hs h).1

/-- How the loop leaves the object after `c` steps found the limit exceeded. -/
def bump (s : DeltaVObj K) (er : List K) (dt : K) : Nat → DeltaVObj K
  | 0 => s
  | c + 1 => bump { s with errorIntegral := vadd s.errorIntegral (er.map (· * dt)), latched := true, intervening := true } er dt c

omit [LinearOrder K] in
theorem bump_fields (s : DeltaVObj K) (er : List K) (dt : K) (c : Nat) :
    bump s er dt c = { s with
      errorIntegral := (fun e => vadd e (er.map (· * dt)))^[c] s.errorIntegral
      latched := if c = 0 then s.latched else true
      intervening := if c = 0 then s.intervening else true } := by
  induction c generalizing s with
  | zero => simp [bump]
  | succ c ih =>
    rw [bump, ih]
    rcases c with _ | c <;> simp

/-- How many of the predicted states after the first exceed the limit. -/
def exceeding (limit : K) (xs : Nat → List K) (j : Nat) : Nat → Nat
  | 0 => 0
  | k + 1 => (if limit < dvOf (xs (j + 1)) then 1 else 0) + exceeding limit xs (j + 1) k

theorem exceeding_zero_iff (limit : K) (xs : Nat → List K) (j k : Nat) :
    exceeding limit xs j k = 0 ↔ ∀ i, i < k → ¬ limit < dvOf (xs (j + i + 1)) := by
  induction k generalizing j with
  | zero => simp [exceeding]
  | succ k ih =>
    rw [exceeding, Nat.add_eq_zero_iff, ih]
    constructor
    · rintro ⟨h1, h2⟩ i hi
      cases i with
      | zero =>
        intro hlt
        simp only [Nat.add_zero] at hlt
        rw [if_pos hlt] at h1
        omega
      | succ i =>
        have := h2 i (by omega)
        rwa [show j + 1 + i + 1 = j + (i + 1) + 1 by omega] at this
    · intro h
      refine ⟨?_, ?_⟩
      · rw [if_neg]
        exact h 0 (by omega)
      · intro i hi
        have := h (i + 1) (by omega)
        rwa [show j + (i + 1) + 1 = j + 1 + i + 1 by omega] at this

theorem loop_eq {s : DeltaVObj K} (hs : DVShape s) {inp u : List K} {dt : K} {xs is : Nat → List K}
    (hp : IsPrediction s inp dt u xs is) {er : List K} (he : s.trackError inp = .ok er) (k : Nat) :
    ∀ (j : Nat) (ei : List K) (l b : Bool),
      DeltaVObj.loop inp dt k (xs j) (is j) { s with errorIntegral := ei, latched := l, intervening := b } =
        (.ok (), bump { s with errorIntegral := ei, latched := l, intervening := b } er dt
          (exceeding s.deltaVLimit xs j k)) := by
  induction k with
  | zero => intro j ei l b; rfl
  | succ k ih =>
    intro j ei l b
    obtain ⟨ub, h1, h2⟩ := hp.step j
    have h1' : DeltaVObj.backupControl { s with errorIntegral := ei, latched := l, intervening := b } (xs j) dt (is j)
      = .ok (ub, is (j + 1)) := h1
    have h2' : DeltaVObj.predState { s with errorIntegral := ei, latched := l, intervening := b } (xs j) dt ub
      = .ok (xs (j + 1)) := h2
    have hl : (xs (j + 1)).length = 8 := pred_len hs hp _
    have h7 : (xs (j + 1))[7]? = some (dvOf (xs (j + 1))) := by
      unfold dvOf
      rw [List.getD_eq_getElem?_getD, List.getElem?_eq_getElem (by omega : 7 < (xs (j + 1)).length)]
      rfl
    have h3' : DeltaVObj.backupControl { s with errorIntegral := ei, latched := l, intervening := b } inp dt ei =
        .ok ((vsub ((matVec s.K1 er).map fun a => -a) (matVec s.K2 ei)).map fun a => min (max a (-1)) 1,
          vadd ei (er.map (· * dt))) := by
      have he' : DeltaVObj.trackError { s with errorIntegral := ei, latched := l, intervening := b } inp = .ok er := he
      unfold DeltaVObj.backupControl
      rw [he']
    rw [DeltaVObj.loop, h1']
    simp only
    rw [h2']
    simp only
    rw [h7]
    simp only
    rw [exceeding]
    by_cases hlt : s.deltaVLimit < dvOf (xs (j + 1))
    · rw [if_pos hlt, if_pos hlt, h3', Nat.add_comm 1, bump]
      exact ih (j + 1) _ true true
    · rw [if_neg hlt, if_neg hlt, Nat.zero_add]
      exact ih (j + 1) ei l b

/-- The loop only ever changes the error integral and the flags, and only by latching. -/
theorem loop_frame (inp : List K) (dt : K) (k : Nat) : ∀ (x ei : List K) (s : DeltaVObj K),
    let t := (DeltaVObj.loop inp dt k x ei s).2
    t = s ∨ (t.latched = true ∧ ∃ e, t = { s with errorIntegral := e, latched := true, intervening := true }) := by
  induction k with
  | zero => intro x ei s; exact .inl rfl
  | succ k ih =>
    intro x ei s
    rw [DeltaVObj.loop]
    split
    · exact .inl rfl
    · split
      · exact .inl rfl
      · split
        · exact .inl rfl
        · split
          · split
            · exact .inl rfl
            · rename_i ni _
              rcases ih _ _ { s with errorIntegral := ni, latched := true, intervening := true } with h | ⟨h1, e, h2⟩
              · right
                rw [h]
                exact ⟨rfl, ni, rfl⟩
              · right
                refine ⟨h1, e, ?_⟩
                rw [h2]
          · exact ih _ _ s

section mono
variable [IsStrictOrderedRing K]

theorem absSum_nonneg (u : List K) : 0 ≤ (u.map fun c => |c|).foldr (· + ·) 0 := by
  induction u with
  | nil => simp
  | cons a u ih => simp only [List.map_cons, List.foldr_cons]; exact add_nonneg (abs_nonneg a) ih

theorem pred_mono {s : DeltaVObj K} (hs : DVShape s) (hm : 0 < s.m) {inp u : List K} {dt : K} (hdt : 0 ≤ dt)
    {xs is : Nat → List K} (hp : IsPrediction s inp dt u xs is) {i k : Nat} (h : i ≤ k) : dvOf (xs i) ≤ dvOf (xs k) := by
  induction h with
  | refl => exact le_refl _
  | @step k _ ih =>
    refine ih.trans ?_
    obtain ⟨ub, _, h2⟩ := hp.step k
    obtain ⟨_, hx, hu⟩ := predState_len hs h2
    obtain ⟨y, hy, _, hdv⟩ := predState_ok hs dt hx hu
    rw [hy] at h2
    simp only [Except.ok.injEq] at h2
    rw [← h2, hdv]
    have := absSum_nonneg ub
    have : 0 ≤ (ub.map fun c => |c|).foldr (· + ·) 0 / s.m * dt := by positivity
    linarith

end mono
end RTA
