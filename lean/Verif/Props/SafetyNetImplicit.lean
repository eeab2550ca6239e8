import Verif.Props.SafetyNet

/-!
C124 for implicit switching modules: a cascade whose last stage is an implicit switching (simplex) module is safe whatever the stage before it does.
-/
namespace RTA
variable {K S P A M : Type}

section
variable [Field K] [LinearOrder K] [IsStrictOrderedRing K] [FloorRing K] [HasBase M K]

/-- **C124**, the net holds, implicit. A cascade without bounds of its own whose second and last stage is an implicit switching module, called every
`dt`: let the first stage be anything at all whose answers lie within the bounds of the switching module (`hfirst`, with `J` for what is known of the
object). Let the backup window be long enough: a backup trajectory that is safe over the window is safe for ever (`hlong`). Then from every state whose
backup trajectory is safe the closed loop of the cascade satisfies every enabled constraint of the switching module at every step, and the backup
trajectory is always safe, for all desired controls and latch times, for as long as the calls return. -/
theorem C124_net_implicit (pred : S → K → List K → S) (fA : M → InputState S → K → List K → Except PyErr (List K) × M) (J : M → Prop) (dt : K)
    (hdt : 0 < dt) (us : Nat → List K) (x0 : S) (s0 : CascadeObj K (M ⊕ SimplexObj K S P A)) (a0 : M) (t0 : SimplexObj K S P A)
    (hl : s0.rtaList = [.inl a0, .inr t0]) (hen : s0.enable = true) (hnb : s0.controlBoundsHigh = none ∧ s0.controlBoundsLow = none)
    (hJ : J a0) (hfirst : ∀ a n x w a', J a → fA a (.array x) dt (us n) = (.ok w, a') → J a' ∧ t0.toBase.clipControl w = .ok w)
    (hwf : WF t0) (hent : t0.enable = true) (hwin : 0 ≤ t0.ext.backupWindow)
    (claw : S → CState A → List K) (next : S → CState A → CState A)
    (hlaw : ∀ x z, ∃ ub, t0.ext.ctrl.gen x dt z = some (ub, next x z) ∧ t0.toBase.clipControl ub = .ok (claw x z))
    (hlong : ∀ x z, (∀ k : Nat, (k : Int) ≤ ⌊t0.ext.backupWindow / dt⌋ → SafeAt t0.constraints ((backupIter pred dt claw next)^[k] (x, z)).1) →
      ∀ k, SafeAt t0.constraints ((backupIter pred dt claw next)^[k] (x, z)).1)
    (hsafe : ∀ k, SafeAt t0.constraints ((backupIter pred dt claw next)^[k] (x0, t0.ext.ctrl.state)).1)
    (n : Nat) (x : S) (s : CascadeObj K (M ⊕ SimplexObj K S P A))
    (h : closedLoop (cascadeFilter (eitherFilter fA (implicitSimplex pred))) pred (fun _ => dt) us x0 s0 n = some (x, s)) :
    SafeAt t0.constraints x ∧
    ∃ a t, s.rtaList = [.inl a, .inr t] ∧ ∀ k, SafeAt t0.constraints ((backupIter pred dt claw next)^[k] (x, t.ext.ctrl.state)).1 := by
  refine (fun hI => ?_) (closedLoop_invariant (fun x s => s.enable = true ∧
      (s.controlBoundsHigh = none ∧ s.controlBoundsLow = none) ∧ ∃ a t, s.rtaList = [.inl a, .inr t] ∧ J a ∧ WF t ∧ t.enable = true ∧
      t.constraints = t0.constraints ∧ t.controlBoundsHigh = t0.controlBoundsHigh ∧ t.controlBoundsLow = t0.controlBoundsLow ∧
      t.ext.ctrl.gen = t0.ext.ctrl.gen ∧ t.ext.backupWindow = t0.ext.backupWindow ∧
      ∀ k, SafeAt t0.constraints ((backupIter pred dt claw next)^[k] (x, t.ext.ctrl.state)).1)
    ⟨hen, hnb, a0, t0, hl, hJ, hwf, hent, rfl, rfl, rfl, rfl, rfl, hsafe⟩ ?_ n x s h)
  · obtain ⟨-, -, a, t, hat, -, -, -, -, -, -, -, -, hz⟩ := hI
    exact ⟨hz 0, a, t, hat, hz⟩
  clear h n x s
  rintro n x s c s' ⟨he, ⟨hb1, hb2⟩, a, t, hls, hJa, hw, het, hcs, hhi, hlo, hgen, hbw, hx⟩ hcall
  obtain ⟨w, a', out, t', hA, hT, hclipo, hls', he', hh', hl', -⟩ := two_stages_ok hls he hcall
  have ho : out = c := by
    unfold Base.clipControl at hclipo
    simpa [hb1, hb2] using hclipo
  subst ho
  obtain ⟨hJ', hcw⟩ := hfirst a n x w a' hJa hA
  have hclip : ∀ u, t.toBase.clipControl u = t0.toBase.clipControl u := by
    intro u; unfold Base.clipControl; rw [hhi, hlo]
  have hlawt : ∀ x z, ∃ ub, t.ext.ctrl.gen x dt z = some (ub, next x z) ∧ t.toBase.clipControl ub = .ok (claw x z) := by
    intro x z
    obtain ⟨ub, h1, h2⟩ := hlaw x z
    exact ⟨ub, by rw [hgen]; exact h1, (hclip ub).trans h2⟩
  have hw' : WF t' := by
    have := (filterControlCB_frame frame_getStateDefault (frameFilter_simplex (monFrame_implicit pred)) t (.array x) dt w).2 hw
    unfold implicitSimplex at hT
    rwa [hT] at this
  obtain ⟨⟨het', hcs', hhi', hlo'⟩, hd⟩ := simplex_ok (monFrame_implicit pred) het hT
  have hgen' : t'.ext.ctrl.gen = t.ext.ctrl.gen ∧ t'.ext.backupWindow = t.ext.backupWindow := by
    rcases hd with ⟨_, _, z, _, hext⟩ | ⟨_, b, sm, sv, _, _, ⟨_, z, _, hext⟩ | ⟨_, _, hext⟩⟩ <;> rw [hext] <;> exact ⟨rfl, rfl⟩
  refine ⟨he', ⟨hh'.trans hb1, hl'.trans hb2⟩, a', t', hls', hJ', hw', het', hcs'.trans hcs, hhi'.trans hhi, hlo'.trans hlo,
    hgen'.1.trans hgen, hgen'.2.trans hbw, ?_⟩
  have hb : ∀ z, IsBackup t x dt out z → ∀ k, SafeAt t0.constraints ((backupIter pred dt claw next)^[k] (pred x dt out, z)).1 := by
    rintro z ⟨ub, hg, hc⟩ k
    obtain ⟨ub', hg', hc'⟩ := hlawt x t.ext.ctrl.state
    rw [hg'] at hg
    simp only [Option.some.injEq, Prod.mk.injEq] at hg
    obtain ⟨rfl, rfl⟩ := hg
    rw [hc'] at hc
    obtain rfl : claw x t.ext.ctrl.state = out := by simpa using hc
    exact hx (k + 1)
  rcases hd with ⟨_, _, z, hz, hext⟩ | ⟨hnl, b, sm, sv, hm, hib, ⟨_, z, hz, hext⟩ | ⟨hbf, hcu, hext⟩⟩
  · rw [hext]; exact hb z hz
  · rw [hext]; exact hb z hz
  · rw [hext]
    rw [hclip, hcw] at hcu
    obtain rfl : w = out := by simpa using hcu
    refine hlong _ _ fun k hk => ?_
    have h1 := (C14_implicit_decision pred t t' hw het x dt hdt (by rw [hbw]; exact hwin) w w claw next hlawt hnl hT).1.1 (hib.trans hbf) k
      (by rw [hbw]; exact hk)
    rw [hcs] at h1
    exact h1

end

/-- C124: whatever is asked of it, a first stage that always answers 1 cannot bring the loop of `toyImplicit` (constraint `x ≤ 3`, law `-1`) above 3. -/
example (us : Nat → List Rat) (b : Base Rat) (x0 : Rat) (h0 : x0 ≤ 3) (n : Nat) (x : Rat) (s : CascadeObj Rat (Base Rat ⊕ SimplexObj Rat Rat Rat Nat))
    (h : closedLoop (cascadeFilter (eitherFilter (fun a _ _ _ => (.ok [1], a)) (implicitSimplex fun x dt u => x + dt * u.headD 0)))
      (fun x dt u => x + dt * u.headD 0) (fun _ => 1 / 2) us x0 (cascadeInit none none [.inl b, .inr toyImplicit]) n = some (x, s)) : x ≤ 3 := by
  have hsafe : ∀ x : Rat, SafeAt toyImplicit.constraints x ↔ x ≤ 3 := by
    intro x; simp [SafeAt, toyImplicit]
  have hmono : ∀ (x : Rat) (z : CState Nat), x ≤ 3 → ∀ k, ((backupIter (fun x dt (u : List Rat) => x + dt * u.headD 0) (1 / 2) (fun _ _ => [-1])
      (fun _ z => match z with | .array n => .array (n + 1) | z => z))^[k] (x, z)).1 ≤ 3 := by
    intro x z hx k
    induction k generalizing x z with
    | zero => exact hx
    | succ k ih =>
      rw [Function.iterate_succ_apply]
      refine ih _ _ ?_
      simp only [List.headD_cons]
      linarith
  rw [← hsafe]
  refine (C124_net_implicit (fun x dt u => x + dt * u.headD 0) _ (fun _ => True) (1 / 2) (by norm_num) us x0 _ b toyImplicit rfl rfl ⟨rfl, rfl⟩ trivial
    ?_ ⟨by simp [dictKeys, toyImplicit], by simp [dictKeys, toyImplicit], by simp [dictKeys, toyImplicit]⟩ rfl ?_ (fun _ _ => [-1])
    (fun _ z => match z with | .array n => .array (n + 1) | z => z) ?_ ?_ (fun k => (hsafe _).2 (hmono _ _ h0 k)) n x s h).1
  · intro a n x w a' _ h
    simp only [Prod.mk.injEq, Except.ok.injEq] at h
    obtain ⟨rfl, -⟩ := h
    exact ⟨trivial, rfl⟩
  · norm_num [toyImplicit]
  · intro x z
    cases z <;> exact ⟨[-1], rfl, rfl⟩
  · intro x z hk k
    have := hk 0 (Int.floor_nonneg.2 (by norm_num [toyImplicit]))
    exact (hsafe _).2 (hmono _ _ ((hsafe _).1 this) k)

end RTA
