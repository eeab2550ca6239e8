import Verif.Props.ClosedLoop

/-!
C123: switching filters whose prediction, state estimate or constraint values are not exact.

A switching module decides by the sign of a number: the constraint value, with bias, that it computes at the state it predicts from the state it is
handed. Nothing below assumes that this number is the true one. The true plant has states of its own (type `T`), moves by a relation (disturbances
included), is seen by the module only through an estimate, and the true meaning of the constraint called `k` is a function `H k` of the true state.
The error of a constraint is how far the number computed at the prediction is from the true value at the state really reached: rounding, the
integration scheme, a wrong model, a disturbance and an estimate all count the same.
-/
namespace RTA
variable {K S P A T : Type}

/-- The true value of every enabled constraint is non-negative at the true state `y`. -/
def TrueSafe [Zero K] [LE K] (H : String → T → K) (cs : Dict (Constraint K S P)) (y : T) : Prop :=
  ∀ kc ∈ cs, kc.2.enabled = true → 0 ≤ H kc.1 y

/-- A run of `N` steps of plant and module: at step `n` the plant is in state `y n`, the module is handed the estimate `e n` and the desired control
`us n`, answers `c n`, and the plant moves, under that control, to `y (n + 1)`. -/
structure NoisyRun {σ : Type} (fc : σ → InputState S → K → List K → Except PyErr (List K) × σ) (plant : T → K → List K → T → Prop)
    (sees : T → S → Prop) (dts : Nat → K) (us : Nat → List K) (N : Nat) (y : Nat → T) (e : Nat → S) (s : Nat → σ) (c : Nat → List K) : Prop where
  est : ∀ n < N, sees (y n) (e n)
  call : ∀ n < N, fc (s n) (.array (e n)) (dts n) (us n) = (.ok (c n), s (n + 1))
  move : ∀ n < N, plant (y n) (dts n) (c n) (y (n + 1))

section explicit
variable [AddCommGroup K] [LinearOrder K] [IsOrderedAddMonoid K]

/-- **C123**, one call: if the explicit switching module lets a desired control inside the bounds pass, then at the state really reached the true
value of an enabled constraint is at least `-(bias + error)`. With a bias of at most minus the error it is non-negative. -/
theorem C123_accepted (pred : S → K → List K → S) (H : String → T → K) (η : String → K) (s s' : SimplexObj K S P A) (hwf : WF s)
    (hen : s.enable = true) (e : S) (dt : K) (u c : List K) (hin : s.toBase.clipControl u = .ok u)
    (h : explicitSimplex pred s (.array e) dt u = (.ok c, s')) (hi : s'.intervening = false) (y' : T)
    (herr : ∀ kc ∈ s.constraints, kc.2.enabled = true → kc.2.computeFn (pred e dt u) kc.2.params ≤ H kc.1 y' + η kc.1) :
    c = u ∧ (∀ kc ∈ s.constraints, kc.2.enabled = true → -(kc.2.bias + η kc.1) ≤ H kc.1 y') ∧
      ((∀ kc ∈ s.constraints, kc.2.enabled = true → kc.2.bias ≤ -η kc.1) → TrueSafe H s.constraints y') := by
  obtain ⟨rfl, hs⟩ := C15_accepted_is_safe_partial pred s s' hwf hen e dt u c hin h hi
  have h1 : ∀ kc ∈ s.constraints, kc.2.enabled = true → -(kc.2.bias + η kc.1) ≤ H kc.1 y' := by
    intro kc hkc hk
    have h2 := (hs kc hkc hk).trans (add_le_add_left (herr kc hkc hk) kc.2.bias)
    rw [neg_le_iff_add_nonneg]
    calc (0 : K) ≤ _ := h2
      _ = _ := by abel
  refine ⟨rfl, h1, fun hb kc hkc hk => le_trans ?_ (h1 kc hkc hk)⟩
  have := hb kc hkc hk
  rw [neg_add_rev, le_neg_add_iff_add_le, add_zero]
  have h3 := neg_le_neg this
  rwa [neg_neg] at h3

/-- **C123**, no needless intervention: an unlatched explicit switching module lets a desired control pass whose true outcome keeps every enabled
constraint at `error - bias` or more. So a bias of minus the error costs twice the error, and no more. -/
theorem C123_passes (pred : S → K → List K → S) (H : String → T → K) (η : String → K) (s s' : SimplexObj K S P A) (hwf : WF s)
    (hen : s.enable = true) (e : S) (dt : K) (u c : List K) (hlat : ¬ Latched s)
    (h : explicitSimplex pred s (.array e) dt u = (.ok c, s')) (y' : T)
    (herr : ∀ kc ∈ s.constraints, kc.2.enabled = true → H kc.1 y' ≤ kc.2.computeFn (pred e dt u) kc.2.params + η kc.1)
    (hy : ∀ kc ∈ s.constraints, kc.2.enabled = true → η kc.1 - kc.2.bias ≤ H kc.1 y') :
    s'.intervening = false ∧ s.toBase.clipControl u = .ok c := by
  obtain ⟨h1, h2, _⟩ := C13_explicit_decision pred s s' hwf hen e dt u c hlat h
  have hs : SafeAt s.constraints (pred e dt u) := by
    intro kc hkc hk
    have h3 := (hy kc hkc hk).trans (herr kc hkc hk)
    rw [sub_le_iff_le_add] at h3
    have h4 : 0 + η kc.1 ≤ (kc.2.computeFn (pred e dt u) kc.2.params + kc.2.bias) + η kc.1 := by
      rw [zero_add]
      calc η kc.1 ≤ _ := h3
        _ = _ := by abel
    exact le_of_add_le_add_right h4
  exact ⟨h1.2 hs, h2 hs⟩

/-- **C123**, closed loop. Let every enabled constraint carry a bias of at most minus its error, and let the backup law, computed from whatever
estimate the module may see, keep the truly safe states truly safe under the true plant (`hback`). Then every run from a truly safe state — any
desired controls inside the bounds, step sizes, latch time, disturbances and estimates — is truly safe at every step. -/
theorem C123_loop (pred : S → K → List K → S) (plant : T → K → List K → T → Prop) (sees : T → S → Prop) (H : String → T → K) (η : String → K)
    (dts : Nat → K) (us : Nat → List K) (N : Nat) (y : Nat → T) (e : Nat → S) (s : Nat → SimplexObj K S P A) (c : Nat → List K)
    (hrun : NoisyRun (explicitSimplex pred) plant sees dts us N y e s c)
    (hwf : WF (s 0)) (hen : (s 0).enable = true) (hus : ∀ n < N, (s 0).toBase.clipControl (us n) = .ok (us n))
    (hbias : ∀ kc ∈ (s 0).constraints, kc.2.enabled = true → kc.2.bias ≤ -η kc.1)
    (herr : ∀ n < N, ∀ a b y', sees a b → plant a (dts n) (us n) y' → ∀ kc ∈ (s 0).constraints, kc.2.enabled = true →
      kc.2.computeFn (pred b (dts n) (us n)) kc.2.params ≤ H kc.1 y' + η kc.1)
    (hback : ∀ n < N, ∀ a b y' z ub z' cb, TrueSafe H (s 0).constraints a → sees a b → (s 0).ext.ctrl.gen b (dts n) z = some (ub, z') →
      (s 0).toBase.clipControl ub = .ok cb → plant a (dts n) cb y' → TrueSafe H (s 0).constraints y')
    (hsafe : TrueSafe H (s 0).constraints (y 0)) (n : Nat) (hn : n ≤ N) : TrueSafe H (s 0).constraints (y n) := by
  suffices hI : TrueSafe H (s 0).constraints (y n) ∧ WF (s n) ∧ (s n).enable = true ∧ (s n).constraints = (s 0).constraints ∧
      (s n).controlBoundsHigh = (s 0).controlBoundsHigh ∧ (s n).controlBoundsLow = (s 0).controlBoundsLow ∧
      (s n).ext.ctrl.gen = (s 0).ext.ctrl.gen from hI.1
  induction n with
  | zero => exact ⟨hsafe, hwf, hen, rfl, rfl, rfl, rfl⟩
  | succ n ih =>
    have hn' : n < N := hn
    obtain ⟨hy, hw, he, hcs, hhi, hlo, hgen⟩ := ih hn'.le
    have hcall := hrun.call n hn'
    have hmove := hrun.move n hn'
    have hest := hrun.est n hn'
    have hclip : ∀ u, (s n).toBase.clipControl u = (s 0).toBase.clipControl u := by
      intro u; unfold Base.clipControl; rw [hhi, hlo]
    have hw' : WF (s (n + 1)) := by
      have := (filterControlCB_frame frame_getStateDefault (frameFilter_simplex (monFrame_explicit pred)) (s n) (.array (e n))
        (dts n) (us n)).2 hw
      unfold explicitSimplex at hcall
      rwa [hcall] at this
    obtain ⟨⟨he', hcs', hhi', hlo'⟩, hd⟩ := simplex_ok (monFrame_explicit pred) he hcall
    have hgen' : (s (n + 1)).ext.ctrl.gen = (s n).ext.ctrl.gen := by
      rcases hd with ⟨_, _, z, _, hext⟩ | ⟨_, b, sm, sv, _, _, ⟨_, z, _, hext⟩ | ⟨_, _, hext⟩⟩ <;> rw [hext]
    refine ⟨?_, hw', he', hcs'.trans hcs, hhi'.trans hhi, hlo'.trans hlo, hgen'.trans hgen⟩
    have hb : ∀ z, IsBackup (s n) (e n) (dts n) (c n) z → TrueSafe H (s 0).constraints (y (n + 1)) := by
      rintro z ⟨ub, hg, hc⟩
      rw [hgen] at hg
      rw [hclip] at hc
      exact hback n hn' (y n) (e n) (y (n + 1)) _ ub z (c n) hy hest hg hc hmove
    rcases hd with ⟨_, _, z, hz, _⟩ | ⟨hnl, b, sm, sv, hm, hib, ⟨_, z, hz, _⟩ | ⟨hbf, hcu, _⟩⟩
    · exact hb z hz
    · exact hb z hz
    · have hcu' : us n = c n := by
        rw [hclip, hus n hn'] at hcu
        simpa using hcu
      rw [← hcu'] at hmove
      have := (C123_accepted pred H η (s n) (s (n + 1)) hw he (e n) (dts n) (us n) (c n) ((hclip _).trans (hus n hn')) hcall (hib.trans hbf)
        (y (n + 1)) (by rw [hcs]; exact herr n hn' (y n) (e n) _ hest hmove)).2.2 (by rw [hcs]; exact hbias)
      rwa [hcs] at this

end explicit

/-! ### An example: without bias, an error can carry the loop away; with bias, it cannot -/

/-- `toySimplex` (constraint `x >= 3`, backup control 0) with a bias. -/
def toyBiased (b : Int) : SimplexObj Int Int Int Unit :=
  { toySimplex (-9) 9 with constraints := (toySimplex (-9) 9).constraints.map fun kc => (kc.1, { kc.2 with bias := b }) }

/-- A plant that the module's prediction `x + dt * u` misses by at most 1: it loses 1 at every step, except when it rests, uncontrolled, in a safe
state. -/
def leak (x dt : Int) (u : List Int) : Int := if u.headD 0 = 0 ∧ 3 ≤ x then x else x + dt * u.headD 0 - 1

theorem leak_error (x : Int) (u : List Int) : toyPred x 1 u ≤ leak x 1 u + 1 ∧ leak x 1 u ≤ toyPred x 1 u := by
  unfold leak toyPred
  split <;> omega

/-- **C123 needs the bias.** The prediction is wrong by at most 1, the backup control keeps the truly safe states, the loop starts in one, and every
call succeeds; but the constraints carry no bias. Step by step the loop is carried away from the safe states, further than the error of any one
prediction. -/
theorem C123_refuted_without_bias :
    ∃ (s0 : SimplexObj Int Int Int Unit) (plant : Int → Int → List Int → Int) (x0 : Int) (us : Nat → List Int),
      WF s0 ∧ s0.enable = true ∧ 3 ≤ x0 ∧ (∀ n, s0.toBase.clipControl (us n) = .ok (us n)) ∧
      (∀ x, SafeAt s0.constraints x ↔ 3 ≤ x) ∧
      (∀ x u, toyPred x 1 u ≤ plant x 1 u + 1 ∧ plant x 1 u ≤ toyPred x 1 u) ∧
      (∀ x z ub z' cb, 3 ≤ x → s0.ext.ctrl.gen x 1 z = some (ub, z') → s0.toBase.clipControl ub = .ok cb → 3 ≤ plant x 1 cb) ∧
      (closedLoop (explicitSimplex toyPred) plant (fun _ => 1) us x0 s0 5).map Prod.fst = some (-2) := by
  refine ⟨toySimplex (-9) 9, leak, 4, fun _ => [-1], wf_toySimplex _ _, rfl, by norm_num, fun _ => rfl, toy_safe_iff _ _, leak_error, ?_, rfl⟩
  intro x z ub z' cb hx hg hc
  simp only [toySimplex, Option.some.injEq, Prod.mk.injEq] at hg
  obtain ⟨rfl, _⟩ := hg
  have : (toySimplex (-9) 9).toBase.clipControl [0] = .ok [0] := rfl
  rw [this] at hc
  obtain rfl : [0] = cb := by simpa using hc
  simp [leak, hx]

/-- C123: the same plant with a bias of -1. Whatever is asked of it within the bounds, it stays at 3 or above. -/
example (us : Nat → List Int) (hus : ∀ n, (toyBiased (-1)).toBase.clipControl (us n) = .ok (us n)) (N : Nat) (y : Nat → Int)
    (s : Nat → SimplexObj Int Int Int Unit) (c : Nat → List Int) (hs : s 0 = toyBiased (-1)) (hy : 3 ≤ y 0)
    (hrun : NoisyRun (explicitSimplex toyPred) (fun a dt u b => b = leak a dt u) (fun a b => b = a) (fun _ => 1) us N y y s c)
    (n : Nat) (hn : n ≤ N) : 3 ≤ y n := by
  have hts : ∀ x : Int, TrueSafe (fun _ (x : Int) => x - 3) (s 0).constraints x ↔ 3 ≤ x := by
    intro x
    rw [hs]
    simp [TrueSafe, toyBiased, toySimplex]
  rw [← hts]
  refine C123_loop toyPred _ _ (fun _ x => x - 3) (fun _ => 1) (fun _ => 1) us N y y s c hrun ?_ ?_ ?_ ?_ ?_ ?_ ((hts _).2 hy) n hn
  · rw [hs]
    exact ⟨by simp [dictKeys, toyBiased, toySimplex], by simp [dictKeys, toyBiased, toySimplex], by simp [dictKeys, toyBiased, toySimplex]⟩
  · rw [hs]; rfl
  · intro n _; rw [hs]; exact hus n
  · rw [hs]; simp [toyBiased, toySimplex]
  · rintro n _ a b y' rfl rfl kc hkc hk
    rw [hs] at hkc
    simp only [toyBiased, toySimplex, List.map_cons, List.map_nil, List.mem_singleton] at hkc
    subst hkc
    have := (leak_error b (us n)).1
    simp only
    omega
  · intro n _ a b y' z ub z' cb ha hb hg hc hp
    rw [hts] at ha ⊢
    rw [hs] at hg hc
    simp only [toyBiased, toySimplex, Option.some.injEq, Prod.mk.injEq] at hg
    obtain ⟨rfl, _⟩ := hg
    have : (toyBiased (-1)).toBase.clipControl [0] = .ok [0] := rfl
    rw [this] at hc
    obtain rfl : [0] = cb := by simpa using hc
    rw [hp]
    simp [leak, ha]

/-- Such runs exist: four steps of the loop with bias, asked to go down at every step. -/
example : (closedLoop (explicitSimplex toyPred) leak (fun _ => 1) (fun _ => [-1]) 6 (toyBiased (-1)) 4).map Prod.fst = some 4 := rfl

section implicit
variable [Field K] [LinearOrder K] [FloorRing K] [IsStrictOrderedRing K]

/-- **C123**, implicit switching modules, one call: if the module lets a desired control pass, then every true state `Y k` that belongs to one of the
predicted states of the backup trajectory, with error `η`, has a true value of at least `-(bias + error)`; with bias to match, the plant could really
be brought along the backup trajectory for the whole window in safety. -/
theorem C123_implicit_accepted (pred : S → K → List K → S) (H : String → T → K) (η : String → Nat → K) (s s' : SimplexObj K S P A) (hwf : WF s)
    (hen : s.enable = true) (e : S) (dt : K) (hdt : 0 < dt) (hwin : 0 ≤ s.ext.backupWindow) (u c : List K)
    (claw : S → CState A → List K) (next : S → CState A → CState A)
    (hlaw : ∀ x z, ∃ ub, s.ext.ctrl.gen x dt z = some (ub, next x z) ∧ s.toBase.clipControl ub = .ok (claw x z))
    (hlat : ¬ Latched s) (h : implicitSimplex pred s (.array e) dt u = (.ok c, s')) (hi : s'.intervening = false) (Y : Nat → T)
    (herr : ∀ k : Nat, (k : Int) ≤ ⌊s.ext.backupWindow / dt⌋ → ∀ kc ∈ s.constraints, kc.2.enabled = true →
      kc.2.computeFn ((backupIter pred dt claw next)^[k] (pred e dt u, s.ext.ctrl.state)).1 kc.2.params ≤ H kc.1 (Y k) + η kc.1 k) :
    s.toBase.clipControl u = .ok c ∧
    ∀ k : Nat, (k : Int) ≤ ⌊s.ext.backupWindow / dt⌋ →
      (∀ kc ∈ s.constraints, kc.2.enabled = true → -(kc.2.bias + η kc.1 k) ≤ H kc.1 (Y k)) ∧
      ((∀ kc ∈ s.constraints, kc.2.enabled = true → kc.2.bias ≤ -η kc.1 k) → TrueSafe H s.constraints (Y k)) := by
  obtain ⟨h1, h2, _⟩ := C14_implicit_decision pred s s' hwf hen e dt hdt hwin u c claw next hlaw hlat h
  refine ⟨h2 hi, fun k hk => ?_⟩
  have hs := h1.1 hi k hk
  have h3 : ∀ kc ∈ s.constraints, kc.2.enabled = true → -(kc.2.bias + η kc.1 k) ≤ H kc.1 (Y k) := by
    intro kc hkc hkk
    have h4 := hs kc hkc hkk
    have h5 := herr k hk kc hkc hkk
    unfold backupIter at h5
    linarith
  exact ⟨h3, fun hb kc hkc hkk => by linarith [h3 kc hkc hkk, hb kc hkc hkk]⟩

/-- **C123**, implicit switching modules, closed loop. Let `Rec y z` say that the true plant in state `y` can be brought on in safety by the backup
law with controller state `z`: such states are truly safe (`hrec`), one step of the backup law, computed from whatever estimate the module may see,
leads to such a state again (`hback`), and a desired control whose predicted backup trajectory the module finds non-negative, bias included, over the
window leads to such a state (`hcert`: here the bias has to make up for the errors). Then every run from such a state is truly safe. -/
theorem C123_implicit_loop (pred : S → K → List K → S) (plant : T → K → List K → T → Prop) (sees : T → S → Prop) (H : String → T → K)
    (Rec : T → CState A → Prop) (dt : K) (us : Nat → List K) (N : Nat) (y : Nat → T) (e : Nat → S) (s : Nat → SimplexObj K S P A)
    (c : Nat → List K) (hrun : NoisyRun (implicitSimplex pred) plant sees (fun _ => dt) us N y e s c)
    (hwf : WF (s 0)) (hen : (s 0).enable = true) (hdt : 0 < dt) (hwin : 0 ≤ (s 0).ext.backupWindow)
    (claw : S → CState A → List K) (next : S → CState A → CState A)
    (hlaw : ∀ x z, ∃ ub, (s 0).ext.ctrl.gen x dt z = some (ub, next x z) ∧ (s 0).toBase.clipControl ub = .ok (claw x z))
    (hus : ∀ n < N, (s 0).toBase.clipControl (us n) = .ok (us n))
    (hrec : ∀ a z, Rec a z → TrueSafe H (s 0).constraints a)
    (hback : ∀ a b z y', Rec a z → sees a b → plant a dt (claw b z) y' → Rec y' (next b z))
    (hcert : ∀ n < N, ∀ a b z y', Rec a z → sees a b → plant a dt (us n) y' →
      (∀ k : Nat, (k : Int) ≤ ⌊(s 0).ext.backupWindow / dt⌋ →
        SafeAt (s 0).constraints ((backupIter pred dt claw next)^[k] (pred b dt (us n), z)).1) → Rec y' z)
    (hsafe : Rec (y 0) (s 0).ext.ctrl.state) (n : Nat) (hn : n ≤ N) : TrueSafe H (s 0).constraints (y n) := by
  suffices hI : Rec (y n) (s n).ext.ctrl.state ∧ WF (s n) ∧ (s n).enable = true ∧ (s n).constraints = (s 0).constraints ∧
      (s n).controlBoundsHigh = (s 0).controlBoundsHigh ∧ (s n).controlBoundsLow = (s 0).controlBoundsLow ∧
      (s n).ext.ctrl.gen = (s 0).ext.ctrl.gen ∧ (s n).ext.backupWindow = (s 0).ext.backupWindow from hrec _ _ hI.1
  induction n with
  | zero => exact ⟨hsafe, hwf, hen, rfl, rfl, rfl, rfl, rfl⟩
  | succ n ih =>
    have hn' : n < N := hn
    obtain ⟨hy, hw, he, hcs, hhi, hlo, hgen, hbw⟩ := ih hn'.le
    have hcall := hrun.call n hn'
    have hmove := hrun.move n hn'
    have hest := hrun.est n hn'
    have hclip : ∀ u, (s n).toBase.clipControl u = (s 0).toBase.clipControl u := by
      intro u; unfold Base.clipControl; rw [hhi, hlo]
    have hlawn : ∀ x z, ∃ ub, (s n).ext.ctrl.gen x dt z = some (ub, next x z) ∧ (s n).toBase.clipControl ub = .ok (claw x z) := by
      intro x z
      obtain ⟨ub, h1, h2⟩ := hlaw x z
      exact ⟨ub, by rw [hgen]; exact h1, (hclip ub).trans h2⟩
    have hw' : WF (s (n + 1)) := by
      have := (filterControlCB_frame frame_getStateDefault (frameFilter_simplex (monFrame_implicit pred)) (s n) (.array (e n))
        dt (us n)).2 hw
      unfold implicitSimplex at hcall
      rwa [hcall] at this
    obtain ⟨⟨he', hcs', hhi', hlo'⟩, hd⟩ := simplex_ok (monFrame_implicit pred) he hcall
    have hb : ∀ z, IsBackup (s n) (e n) dt (c n) z → Rec (y (n + 1)) z := by
      rintro z ⟨ub, hg, hc⟩
      obtain ⟨ub', hg', hc'⟩ := hlawn (e n) (s n).ext.ctrl.state
      rw [hg'] at hg
      simp only [Option.some.injEq, Prod.mk.injEq] at hg
      obtain ⟨rfl, rfl⟩ := hg
      rw [hc'] at hc
      have hcc : claw (e n) (s n).ext.ctrl.state = c n := by simpa using hc
      exact hback (y n) (e n) _ _ hy hest (by rw [hcc]; exact hmove)
    rcases hd with ⟨_, _, z, hz, hext⟩ | ⟨hnl, b, sm, sv, hm, hib, ⟨_, z, hz, hext⟩ | ⟨hbf, hcu, hext⟩⟩
    · exact ⟨by rw [hext]; exact hb z hz, hw', he', hcs'.trans hcs, hhi'.trans hhi, hlo'.trans hlo, by rw [hext]; exact hgen,
        by rw [hext]; exact hbw⟩
    · exact ⟨by rw [hext]; exact hb z hz, hw', he', hcs'.trans hcs, hhi'.trans hhi, hlo'.trans hlo, by rw [hext]; exact hgen,
        by rw [hext]; exact hbw⟩
    · refine ⟨?_, hw', he', hcs'.trans hcs, hhi'.trans hhi, hlo'.trans hlo, by rw [hext]; exact hgen, by rw [hext]; exact hbw⟩
      rw [hext]
      have hcu' : us n = c n := by
        rw [hclip, hus n hn'] at hcu
        simpa using hcu
      rw [← hcu'] at hmove
      refine hcert n hn' (y n) (e n) _ _ hy hest hmove fun k hk => ?_
      have h1 := (C14_implicit_decision pred (s n) (s (n + 1)) hw he (e n) dt hdt (by rw [hbw]; exact hwin) (us n) (c n) claw next hlawn hnl
        hcall).1.1 (hib.trans hbf) k (by rw [hbw]; exact hk)
      rw [hcs] at h1
      exact h1

/-- `toyImplicit` (constraint `x <= 3`, law `-1`, window of 4 steps of size 1/2) with a bias of -1/4. -/
def toyImplicitBiased : SimplexObj Rat Rat Rat Nat :=
  { toyImplicit with constraints := toyImplicit.constraints.map fun kc => (kc.1, { kc.2 with bias := -(1 / 4) }) }

/-- C123: a plant with a disturbance of up to 1/4 a step, behind an implicit switching module that knows nothing of it but carries a bias of -1/4,
stays at 3 or below whatever is asked of it. -/
example (us : Nat → List Rat) (hus : ∀ n, toyImplicitBiased.toBase.clipControl (us n) = .ok (us n)) (N : Nat) (y : Nat → Rat)
    (s : Nat → SimplexObj Rat Rat Rat Nat) (c : Nat → List Rat) (hs : s 0 = toyImplicitBiased) (hy : y 0 ≤ 3)
    (hrun : NoisyRun (implicitSimplex fun x dt u => x + dt * u.headD 0) (fun a dt u b => |b - (a + dt * u.headD 0)| ≤ 1 / 4) (fun a b => b = a)
      (fun _ => 1 / 2) us N y y s c) (n : Nat) (hn : n ≤ N) : y n ≤ 3 := by
  have hts : ∀ x : Rat, TrueSafe (fun _ (x : Rat) => 3 - x) (s 0).constraints x ↔ x ≤ 3 := by
    intro x
    rw [hs]
    simp [TrueSafe, toyImplicitBiased, toyImplicit]
  rw [← hts]
  refine C123_implicit_loop _ _ _ (fun _ x => 3 - x) (fun a _ => a ≤ 3) (1 / 2) us N y y s c hrun ?_ ?_ (by norm_num) ?_ (fun _ _ => [-1])
    (fun _ z => match z with | .array n => .array (n + 1) | z => z) ?_ ?_ (fun a _ h => (hts a).2 h) ?_ ?_ hy n hn
  · rw [hs]
    exact ⟨by simp [dictKeys, toyImplicitBiased, toyImplicit], by simp [dictKeys, toyImplicitBiased, toyImplicit],
      by simp [dictKeys, toyImplicitBiased, toyImplicit]⟩
  · rw [hs]; rfl
  · rw [hs]; norm_num [toyImplicitBiased, toyImplicit]
  · rw [hs]
    intro x z
    cases z <;> exact ⟨[-1], rfl, rfl⟩
  · intro n _; rw [hs]; exact hus n
  · rintro a b z y' ha rfl hp
    have := (abs_le.1 hp).2
    simp only [List.headD_cons] at this
    linarith
  · rintro n _ a b z y' ha rfl hp hk
    have h0 := hk 0 (by rw [hs]; exact Int.floor_nonneg.2 (by norm_num [toyImplicitBiased, toyImplicit]))
    rw [hs] at h0
    simp only [SafeAt, toyImplicitBiased, toyImplicit, List.map_cons, List.map_nil, List.mem_singleton, forall_eq, Function.iterate_zero,
      id_eq, forall_const] at h0
    have := (abs_le.1 hp).2
    linarith

end implicit

end RTA
