import Verif.Lemmas.ASIFCost
import Verif.Lemmas.ImplicitCall
import Mathlib.Tactic.LinearCombination

/-!
The set of admissible controls of an optimisation module is convex, and the minimisers for two desired controls are no
further apart than the desired controls (lemmas for C92).
-/
set_option linter.unusedSectionVars false
namespace RTA
variable {K S P X A : Type} [Field K] [LinearOrder K] [IsStrictOrderedRing K]

/-- The point a fraction `t` of the way from `a` to `b`. -/
def mix (t : K) (a b : List K) : List K := List.zipWith (fun p q => p + t * (q - p)) a b

@[simp] theorem mix_length (t : K) (a b : List K) : (mix t a b).length = min a.length b.length := List.length_zipWith

theorem mix_cons (t p q : K) (a b : List K) : mix t (p :: a) (q :: b) = (p + t * (q - p)) :: mix t a b := rfl

theorem dot_cons' (p q : K) (a b : List K) : dot (p :: a) (q :: b) = p * q + dot a b := rfl

theorem dot_mix (t : K) (r : List K) {a b : List K} (h : a.length = b.length) :
    dot r (mix t a b) = dot r a + t * (dot r b - dot r a) := by
  induction r generalizing a b with
  | nil => simp [dot]
  | cons r rs ih =>
    cases a with
    | nil =>
      cases b with
      | nil => simp [dot, mix]
      | cons q b => simp at h
    | cons p a =>
      cases b with
      | nil => simp at h
      | cons q b =>
        rw [mix_cons, dot_cons', dot_cons', dot_cons', ih (by simpa using h)]
        ring

theorem matVec_mix (t : K) (M : List (List K)) {a b : List K} (h : a.length = b.length) :
    matVec M (mix t a b) = mix t (matVec M a) (matVec M b) := by
  induction M with
  | nil => rfl
  | cons r M ih =>
    show dot r (mix t a b) :: matVec M (mix t a b) = mix t (dot r a :: matVec M a) (dot r b :: matVec M b)
    rw [mix_cons, ih, dot_mix t r h]

theorem vadd_mix (t : K) (a b c d : List K) : vadd (mix t a b) (mix t c d) = mix t (vadd a c) (vadd b d) := by
  induction a generalizing b c d with
  | nil => simp [mix, vadd]
  | cons p a ih =>
    cases b with
    | nil => simp [mix, vadd]
    | cons q b =>
      cases c with
      | nil => simp [mix, vadd]
      | cons r c =>
        cases d with
        | nil => simp [mix, vadd]
        | cons s d =>
          show (p + t * (q - p) + (r + t * (s - r))) :: vadd (mix t a b) (mix t c d) =
            ((p + r) + t * ((q + s) - (p + r))) :: mix t (vadd a c) (vadd b d)
          rw [ih]
          congr 1
          ring

theorem mix_self (t : K) (a : List K) : mix t a a = a := by
  induction a with
  | nil => rfl
  | cons p a ih => rw [mix_cons, ih]; simp

theorem vscale_mix (t e : K) (a b : List K) : vscale e (mix t a b) = mix t (vscale e a) (vscale e b) := by
  induction a generalizing b with
  | nil => rfl
  | cons p a ih =>
    cases b with
    | nil => rfl
    | cons q b =>
      show (e * (p + t * (q - p))) :: vscale e (mix t a b) = (e * p + t * (e * q - e * p)) :: mix t (vscale e a) (vscale e b)
      rw [ih]
      congr 1
      ring

theorem mix_le {t m a b : K} (h0 : 0 ≤ t) (h1 : t ≤ 1) (ha : m ≤ a) (hb : m ≤ b) : m ≤ a + t * (b - a) := by
  nlinarith [mul_nonneg h0 (sub_nonneg.2 hb), mul_nonneg (sub_nonneg.2 h1) (sub_nonneg.2 ha)]

theorem mix_ge {t m a b : K} (h0 : 0 ≤ t) (h1 : t ≤ 1) (ha : a ≤ m) (hb : b ≤ m) : a + t * (b - a) ≤ m := by
  nlinarith [mul_nonneg h0 (sub_nonneg.2 hb), mul_nonneg (sub_nonneg.2 h1) (sub_nonneg.2 ha)]

theorem mix_mono {t a b c d : K} (h0 : 0 ≤ t) (h1 : t ≤ 1) (ha : a ≤ c) (hb : b ≤ d) : a + t * (b - a) ≤ c + t * (d - c) := by
  nlinarith [mul_nonneg h0 (sub_nonneg.2 hb), mul_nonneg (sub_nonneg.2 h1) (sub_nonneg.2 ha)]

theorem within_mix {lo hi : Option (Bound K)} {t : K} (h0 : 0 ≤ t) (h1 : t ≤ 1) {a b : List K} (ha : Within lo hi a)
    (hb : Within lo hi b) : Within lo hi (mix t a b) := by
  intro i v hv
  unfold mix at hv
  rw [List.getElem?_zipWith] at hv
  rcases hp : a[i]? with _ | p
  · rw [hp] at hv; simp at hv
  · rcases hq : b[i]? with _ | q
    · rw [hp, hq] at hv; simp at hv
    · rw [hp, hq] at hv
      simp only [Option.some.injEq] at hv
      subst hv
      obtain ⟨l1, r1⟩ := ha i p hp
      obtain ⟨l2, r2⟩ := hb i q hq
      exact ⟨fun m hm => mix_le h0 h1 (l1 m hm) (l2 m hm), fun m hm => mix_ge h0 h1 (r1 m hm) (r2 m hm)⟩

theorem flow_mix (f : S → List K) (g : S → List (List K)) (x : S) (t : K) {a b : List K} (h : a.length = b.length) :
    vadd (f x) (matVec (g x) (mix t a b)) = mix t (vadd (f x) (matVec (g x) a)) (vadd (f x) (matVec (g x) b)) := by
  rw [matVec_mix t _ h, ← vadd_mix, mix_self]

theorem flow_length (f : S → List K) (g : S → List (List K)) (x : S) (a b : List K) :
    (vadd (f x) (matVec (g x) a)).length = (vadd (f x) (matVec (g x) b)).length := by
  simp [vadd, matVec]

theorem barrierOK_mix {f : S → List K} {g : S → List (List K)} {c : Constraint K S P} {x : S} {t : K} (h0 : 0 ≤ t) (h1 : t ≤ 1)
    {a b : List K} {d e : K} (hl : a.length = b.length) (ha : BarrierOK f g c x a d) (hb : BarrierOK f g c x b e) :
    BarrierOK f g c x (mix t a b) (d + t * (e - d)) := by
  obtain ⟨m, hm, hdm⟩ := ha
  obtain ⟨n, hn, hen⟩ := hb
  unfold BarrierOK barrierValue at *
  cases hal : c.alpha with
  | none => rw [hal] at hm; simp at hm
  | some al =>
    rw [hal] at hm hn
    simp only [Option.map_some, Option.some.injEq] at hm hn ⊢
    refine ⟨_, rfl, ?_⟩
    rw [flow_mix f g x t hl, dot_mix t _ (flow_length f g x a b)]
    have := mix_mono h0 h1 hdm hen
    rw [← hm, ← hn] at this
    linarith

theorem directOK_mix {c : DirectConstraint K S P} {x : S} {t : K} (h0 : 0 ≤ t) (h1 : t ≤ 1) {a b : List K}
    (hl : a.length = b.length) (ha : DirectOK c x a) (hb : DirectOK c x b) : DirectOK c x (mix t a b) := by
  unfold DirectOK at *
  rw [dot_mix t _ hl]
  exact mix_le h0 h1 ha hb

theorem assignSlack_mix (t : K) (cs : Dict (Constraint K S P)) {d e : List K} (h : d.length = e.length) :
    ∀ cd ∈ assignSlack cs (mix t d e), ∃ p q, (cd.1, p) ∈ assignSlack cs d ∧ (cd.1, q) ∈ assignSlack cs e ∧
      cd.2 = p + t * (q - p) := by
  induction cs generalizing d e with
  | nil => intro cd hcd; simp [assignSlack] at hcd
  | cons kc cs ih =>
    obtain ⟨k, c⟩ := kc
    intro cd hcd
    unfold assignSlack at hcd ⊢
    by_cases hc : c.slackPriorityScale.isSome
    · rw [if_pos hc] at hcd ⊢
      rw [if_pos hc]
      have key : (mix t d e).headD 0 = d.headD 0 + t * (e.headD 0 - d.headD 0) ∧ (mix t d e).tail = mix t d.tail e.tail := by
        cases d with
        | nil =>
          cases e with
          | nil => simp [mix]
          | cons q e => simp at h
        | cons p d =>
          cases e with
          | nil => simp at h
          | cons q e => exact ⟨rfl, rfl⟩
      rw [key.1, key.2] at hcd
      rcases List.mem_cons.1 hcd with rfl | hcd
      · exact ⟨_, _, List.mem_cons_self, List.mem_cons_self, rfl⟩
      · obtain ⟨p, q, hp, hq, hpq⟩ := ih (by simp [h]) cd hcd
        exact ⟨p, q, List.mem_cons_of_mem _ hp, List.mem_cons_of_mem _ hq, hpq⟩
    · rw [if_neg hc] at hcd ⊢
      rw [if_neg hc]
      rcases List.mem_cons.1 hcd with rfl | hcd
      · exact ⟨_, _, List.mem_cons_self, List.mem_cons_self, by simp⟩
      · obtain ⟨p, q, hp, hq, hpq⟩ := ih h cd hcd
        exact ⟨p, q, List.mem_cons_of_mem _ hp, List.mem_cons_of_mem _ hq, hpq⟩

/-- The admissible controls with slack form a convex set. -/
theorem admissibleS_mix {f : S → List K} {g : S → List (List K)} {s : ASIFObj K S P X} {x : S} {t : K} (h0 : 0 ≤ t) (h1 : t ≤ 1)
    {a b d e : List K} (ha : AdmissibleS f g s x a d) (hb : AdmissibleS f g s x b e) :
    AdmissibleS f g s x (mix t a b) (mix t d e) := by
  have hl := ha.len.trans hb.len.symm
  refine ⟨by simp [ha.len, hb.len], by simp [ha.slen, hb.slen], within_mix h0 h1 ha.bounds hb.bounds, ?_,
    fun kc hkc hen => directOK_mix h0 h1 hl (ha.direct kc hkc hen) (hb.direct kc hkc hen)⟩
  intro cd hcd hen
  obtain ⟨p, q, hp, hq, hpq⟩ := assignSlack_mix t s.constraints (ha.slen.trans hb.slen.symm) cd hcd
  rw [hpq]
  exact barrierOK_mix h0 h1 hl (ha.barrier _ hp hen) (hb.barrier _ hq hen)

/-! ### Implicit modules -/

theorem variation_length [FloorRing K] (E : ImplicitEnv K) (s : ImplicitObj K P A) (x : List K) (dt : K) {a b : List K}
    (h : a.length = b.length) (k : Nat) : (variation E s x dt a k).length = (variation E s x dt b k).length := by
  induction k with
  | zero => exact h
  | succ k ih =>
    unfold variation
    rcases backupPath E s x dt (k + 1) with _ | ⟨y, z⟩
    · rfl
    · simp [vadd, vscale, matVec, ih]

theorem variation_mix [FloorRing K] (E : ImplicitEnv K) (s : ImplicitObj K P A) (x : List K) (dt t : K) {a b : List K}
    (h : a.length = b.length) (k : Nat) :
    variation E s x dt (mix t a b) k = mix t (variation E s x dt a k) (variation E s x dt b k) := by
  induction k with
  | zero => rfl
  | succ k ih =>
    unfold variation
    rcases backupPath E s x dt (k + 1) with _ | ⟨y, z⟩
    · rfl
    · simp only [ih]
      rw [matVec_mix t _ (variation_length E s x dt h k), vscale_mix, vadd_mix]

theorem pointOK_mix [FloorRing K] {E : ImplicitEnv K} {s : ImplicitObj K P A} {x : List K} {dt : K}
    {c : Constraint K (List K) P} {t : K} (h0 : 0 ≤ t) (h1 : t ≤ 1) {a b : List K} (hl : a.length = b.length) {k : Nat}
    (ha : PointOK E s x dt c a k) (hb : PointOK E s x dt c b k) : PointOK E s x dt c (mix t a b) k := by
  unfold PointOK pointValue at *
  rcases hp : backupPath E s x dt k with _ | ⟨y, z⟩
  · rw [hp] at ha; simp at ha
  · rcases hal : c.alpha with _ | al
    · rw [hp, hal] at ha; simp at ha
    · rw [hp, hal] at ha hb
      obtain ⟨m, hm, hdm⟩ := ha
      obtain ⟨n, hn, hen⟩ := hb
      simp only [Option.some.injEq] at hm hn
      refine ⟨_, rfl, ?_⟩
      rw [flow_mix E.f E.g x t hl, variation_mix E s x dt t (flow_length E.f E.g x a b),
        dot_mix t _ (variation_length E s x dt (flow_length E.f E.g x a b) k)]
      have := mix_le h0 h1 hdm hen
      rw [← hm, ← hn] at this
      linarith

/-- The admissible controls of an implicit module form a convex set. -/
theorem admissibleI_mix [FloorRing K] {E : ImplicitEnv K} {s : ImplicitObj K P A} {x : List K} {dt : K} {t : K} (h0 : 0 ≤ t)
    (h1 : t ≤ 1) {a b : List K} (ha : AdmissibleI E s x dt a) (hb : AdmissibleI E s x dt b) :
    AdmissibleI E s x dt (mix t a b) := by
  have hl := ha.len.trans hb.len.symm
  exact ⟨by simp [ha.len, hb.len], within_mix h0 h1 ha.bounds hb.bounds,
    fun kc hkc hen k hk => pointOK_mix h0 h1 hl (ha.barrier kc hkc hen k hk) (hb.barrier kc hkc hen k hk),
    fun kc hkc hen => directOK_mix h0 h1 hl (ha.direct kc hkc hen) (hb.direct kc hkc hen)⟩

/-! ### Minimisers -/

theorem first_order {p q : K} (h : ∀ t : K, 0 ≤ t → t ≤ 1 → 0 ≤ 2 * t * p + t ^ 2 * q) : 0 ≤ p := by
  by_contra hp
  have hp := not_le.1 hp
  by_cases hq : q ≤ -p
  · have := h 1 zero_le_one le_rfl
    linarith
  · have hq := not_le.1 hq
    have hq0 : 0 < q := by linarith
    have := h (-p / q) (div_nonneg (by linarith) hq0.le) ((div_le_one hq0).2 hq.le)
    have e : 2 * (-p / q) * p + (-p / q) ^ 2 * q = -p / q * p := by field_simp; ring
    rw [e] at this
    have h2 : 0 < -p / q := div_pos (by linarith) hq0
    nlinarith [mul_pos h2 (neg_pos.2 hp)]

theorem sqDist_cons (p q : K) (a b : List K) : sqDist (p :: a) (q :: b) = (p - q) * (p - q) + sqDist a b := rfl

theorem sqDist_mix (t : K) {u v w : List K} (h1 : v.length = u.length) (h2 : w.length = u.length) :
    sqDist (mix t v w) u = sqDist v u + (2 * t * dot (vsub v u) (vsub w v) + t ^ 2 * sqDist w v) := by
  induction u generalizing v w with
  | nil =>
    cases v with
    | nil => simp [sqDist, sqNorm, dot, vsub, mix]
    | cons p v => simp at h1
  | cons r u ih =>
    cases v with
    | nil => simp at h1
    | cons p v =>
      cases w with
      | nil => simp at h2
      | cons q w =>
        have := ih (v := v) (w := w) (by simpa using h1) (by simpa using h2)
        rw [mix_cons, sqDist_cons, sqDist_cons, sqDist_cons, this]
        show _ = _ + (2 * t * ((p - r) * (q - p) + dot (vsub v u) (vsub w v)) + _)
        ring

theorem sqSlack_mix (t : K) (W : List K) {d e : List K} (h : d.length = e.length) :
    dot W (List.zipWith (· * ·) (mix t d e) (mix t d e)) = dot W (List.zipWith (· * ·) d d) +
      (2 * t * dot W (List.zipWith (· * ·) d (vsub e d)) + t ^ 2 * dot W (List.zipWith (· * ·) (vsub e d) (vsub e d))) := by
  induction W generalizing d e with
  | nil => simp [dot]
  | cons r W ih =>
    cases d with
    | nil =>
      cases e with
      | nil => simp [dot, mix, vsub]
      | cons q e => simp at h
    | cons p d =>
      cases e with
      | nil => simp at h
      | cons q e =>
        have := ih (d := d) (e := e) (by simpa using h)
        show r * ((p + t * (q - p)) * (p + t * (q - p))) + dot W (List.zipWith (· * ·) (mix t d e) (mix t d e)) =
          (r * (p * p) + dot W (List.zipWith (· * ·) d d)) +
            (2 * t * (r * (p * (q - p)) + dot W (List.zipWith (· * ·) d (vsub e d))) +
              t ^ 2 * (r * ((q - p) * (q - p)) + dot W (List.zipWith (· * ·) (vsub e d) (vsub e d))))
        rw [this]
        ring

theorem firm_identity {u u' v v' : List K} (h1 : v.length = u.length) (h2 : v'.length = u.length) (h3 : u'.length = u.length) :
    dot (vsub v u) (vsub v' v) + dot (vsub v' u') (vsub v v') = dot (vsub u u') (vsub v v') - sqDist v v' := by
  induction u generalizing u' v v' with
  | nil =>
    cases v with
    | nil => cases v' with
      | nil => simp [dot, vsub, sqDist, sqNorm]
      | cons p v => simp at h2
    | cons p v => simp at h1
  | cons r u ih =>
    cases v with
    | nil => simp at h1
    | cons p v =>
      cases v' with
      | nil => simp at h2
      | cons q v' =>
        cases u' with
        | nil => simp at h3
        | cons r' u' =>
          have := ih (u' := u') (v := v) (v' := v') (by simpa using h1) (by simpa using h2) (by simpa using h3)
          show (p - r) * (q - p) + dot (vsub v u) (vsub v' v) + ((q - r') * (p - q) + dot (vsub v' u') (vsub v v')) =
            (r - r') * (p - q) + dot (vsub u u') (vsub v v') - ((p - q) * (p - q) + sqDist v v')
          linear_combination this

theorem slack_identity (W : List K) {d e : List K} (h : d.length = e.length) :
    dot W (List.zipWith (· * ·) d (vsub e d)) + dot W (List.zipWith (· * ·) e (vsub d e)) =
      - dot W (List.zipWith (· * ·) (vsub d e) (vsub d e)) := by
  induction W generalizing d e with
  | nil => simp [dot]
  | cons r W ih =>
    cases d with
    | nil =>
      cases e with
      | nil => simp [dot, vsub]
      | cons q e => simp at h
    | cons p d =>
      cases e with
      | nil => simp at h
      | cons q e =>
        have := ih (d := d) (e := e) (by simpa using h)
        show r * (p * (q - p)) + dot W (List.zipWith (· * ·) d (vsub e d)) +
          (r * (q * (p - q)) + dot W (List.zipWith (· * ·) e (vsub d e))) =
            -(r * ((p - q) * (p - q)) + dot W (List.zipWith (· * ·) (vsub d e) (vsub d e)))
        linear_combination this

theorem slackSq_nonneg {W : List K} (hW : ∀ w ∈ W, 0 < w) (d : List K) : 0 ≤ dot W (List.zipWith (· * ·) d d) := by
  induction W generalizing d with
  | nil => simp [dot]
  | cons r W ih =>
    cases d with
    | nil => simp [dot]
    | cons p d =>
      show 0 ≤ r * (p * p) + dot W (List.zipWith (· * ·) d d)
      exact add_nonneg (mul_nonneg (hW r (by simp)).le (mul_self_nonneg p)) (ih (fun w hw => hW w (by simp [hw])) d)

/-- Minimisers over the same convex set for two targets are firmly non-expansive in the target. -/
theorem firm_of_min {W : List K} (hW : ∀ w ∈ W, 0 < w) {C : List K → List K → Prop} {n m : Nat}
    (hlen : ∀ w e, C w e → w.length = n ∧ e.length = m)
    (hmix : ∀ t : K, 0 ≤ t → t ≤ 1 → ∀ a b d e, C a d → C b e → C (mix t a b) (mix t d e)) {u u' v v' d d' : List K}
    (hu : u.length = n) (hu' : u'.length = n) (hv : C v d) (hv' : C v' d')
    (hmin : ∀ w e, C w e → slackCost W u v d ≤ slackCost W u w e)
    (hmin' : ∀ w e, C w e → slackCost W u' v' d' ≤ slackCost W u' w e) :
    sqDist v v' ≤ dot (vsub u u') (vsub v v') := by
  obtain ⟨l1, m1⟩ := hlen _ _ hv
  obtain ⟨l2, m2⟩ := hlen _ _ hv'
  have key : ∀ {u v v' d d' : List K}, u.length = n → C v d → C v' d' →
      (∀ w e, C w e → slackCost W u v d ≤ slackCost W u w e) →
      0 ≤ dot (vsub v u) (vsub v' v) + dot W (List.zipWith (· * ·) d (vsub d' d)) := by
    intro u v v' d d' hu hv hv' hmin
    obtain ⟨l1, m1⟩ := hlen _ _ hv
    obtain ⟨l2, m2⟩ := hlen _ _ hv'
    refine first_order (q := sqDist v' v + dot W (List.zipWith (· * ·) (vsub d' d) (vsub d' d))) fun t h0 h1 => ?_
    have := hmin _ _ (hmix t h0 h1 v v' d d' hv hv')
    unfold slackCost at this
    rw [sqDist_mix t (l1.trans hu.symm) (l2.trans hu.symm), sqSlack_mix t W (m1.trans m2.symm)] at this
    linarith
  have k1 := key hu hv hv' hmin
  have k2 := key hu' hv' hv hmin'
  have e1 := firm_identity (l1.trans hu.symm) (l2.trans hu.symm) (hu'.trans hu.symm)
  have e2 := slack_identity W (m1.trans m2.symm)
  have h3 := slackSq_nonneg hW (vsub d d')
  linarith

theorem dot_le_half {a b : List K} (h : a.length = b.length) : 2 * dot a b ≤ dot a a + dot b b := by
  induction a generalizing b with
  | nil => cases b with
    | nil => simp [dot]
    | cons q b => simp at h
  | cons p a ih =>
    cases b with
    | nil => simp at h
    | cons q b =>
      have := ih (b := b) (by simpa using h)
      rw [dot_cons', dot_cons', dot_cons']
      nlinarith [mul_self_nonneg (p - q)]

theorem nonexpansive_of_firm {u u' v v' : List K} (h1 : v.length = u.length) (h2 : v'.length = u.length)
    (h3 : u'.length = u.length) (h : sqDist v v' ≤ dot (vsub u u') (vsub v v')) : sqDist v v' ≤ sqDist u u' := by
  have := dot_le_half (a := vsub u u') (b := vsub v v') (by simp [vsub, h1, h2, h3])
  unfold sqDist sqNorm at *
  linarith

theorem clip1_mono (lo hi : Option K) {a b : K} (h : a ≤ b) : clip1 lo hi a ≤ clip1 lo hi b := by
  unfold clip1
  cases lo <;> cases hi <;> simp only
  · exact h
  · exact min_le_min_right _ h
  · exact max_le_max_right _ h
  · exact min_le_min_right _ (max_le_max_right _ h)

theorem clip1_lip (lo hi : Option K) {a b : K} (h : a ≤ b) : clip1 lo hi b - clip1 lo hi a ≤ b - a := by
  have hmax : ∀ c : K, max b c - max a c ≤ b - a := fun c => by
    rcases le_total b c with h1 | h1
    · rw [max_eq_right h1, max_eq_right (h.trans h1)]; linarith
    · rw [max_eq_left h1]; linarith [le_max_left a c]
  have hmin : ∀ {p q : K}, p ≤ q → ∀ c : K, min q c - min p c ≤ q - p := fun {p q} hpq c => by
    rcases le_total p c with h1 | h1
    · rw [min_eq_left h1]; linarith [min_le_left q c]
    · rw [min_eq_right h1, min_eq_right (h1.trans hpq)]; linarith
  unfold clip1
  cases lo <;> cases hi <;> simp only
  · exact le_rfl
  · exact hmin h _
  · exact hmax _
  · exact (hmin (max_le_max_right _ h) _).trans (hmax _)

theorem clip1_firm (lo hi : Option K) (a b : K) :
    (clip1 lo hi a - clip1 lo hi b) * (clip1 lo hi a - clip1 lo hi b) ≤ (a - b) * (clip1 lo hi a - clip1 lo hi b) := by
  rcases le_total a b with h | h
  · nlinarith [clip1_mono lo hi h, clip1_lip lo hi h]
  · nlinarith [clip1_mono lo hi h, clip1_lip lo hi h]

theorem firm_pointwise {u u' v v' : List K} (φ : Nat → K → K)
    (hφ : ∀ i a b, (φ i a - φ i b) * (φ i a - φ i b) ≤ (a - b) * (φ i a - φ i b)) (h3 : u'.length = u.length)
    (h1 : ∀ i, v[i]? = u[i]?.map (φ i)) (h2 : ∀ i, v'[i]? = u'[i]?.map (φ i)) :
    sqDist v v' ≤ dot (vsub u u') (vsub v v') := by
  induction u generalizing u' v v' φ with
  | nil =>
    have : v = [] := by
      cases v with
      | nil => rfl
      | cons p v => have := h1 0; simp at this
    subst this
    simp [sqDist, sqNorm, dot, vsub]
  | cons r u ih =>
    cases u' with
    | nil => simp at h3
    | cons r' u' =>
      cases v with
      | nil => have := h1 0; simp at this
      | cons p v =>
        cases v' with
        | nil => have := h2 0; simp at this
        | cons q v' =>
          have e1 : p = φ 0 r := by simpa using h1 0
          have e2 : q = φ 0 r' := by simpa using h2 0
          have := ih (fun i => φ (i + 1)) (fun i => hφ (i + 1)) (by simpa using h3) (fun i => by simpa using h1 (i + 1))
            (fun i => by simpa using h2 (i + 1))
          show (p - q) * (p - q) + sqDist v v' ≤ (r - r') * (p - q) + dot (vsub u u') (vsub v v')
          have h0 := hφ 0 r r'
          rw [← e1, ← e2] at h0
          linarith

theorem npClip_firm {lo hi : Option (Bound K)} {u u' v v' : List K} (hlo : BoundFits u.length lo) (hhi : BoundFits u.length hi)
    (h3 : u'.length = u.length) (h1 : npClip lo hi u = .ok v) (h2 : npClip lo hi u' = .ok v') :
    v.length = u.length ∧ v'.length = u.length ∧ sqDist v v' ≤ dot (vsub u u') (vsub v v') := by
  obtain ⟨y, hy, hl, hyi⟩ := npClip_fits hlo hhi
  obtain ⟨y', hy', hl', hyi'⟩ := npClip_fits (x := u') (h3.symm ▸ hlo) (h3.symm ▸ hhi)
  rw [h1] at hy
  rw [h2] at hy'
  simp only [Except.ok.injEq] at hy hy'
  subst hy hy'
  exact ⟨hl, hl'.trans h3, firm_pointwise (fun i => clip1 (boundAt lo i) (boundAt hi i)) (fun i a b => clip1_firm _ _ a b) h3
    hyi hyi'⟩

end RTA
