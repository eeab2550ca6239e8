import Verif.Model.JitDiscrete
import Verif.Lemmas.JitFrozen

/-!
Helper lemmas for discrete ASIF modules as they run.
-/
namespace RTA

section
variable {K S P X Sig : Type}

/-- The error of a constraint without strengthener. -/
theorem enabledCbfs_error [Add K] [Sub K] [Mul K] [Div K] [Zero K] {next : S → K → List K → S} {n : Nat} {x : S} {dt : K}
    {sc : Nat} {cs : List (Constraint K S P)} {ps : List P} {es : List Bool} {er : PyErr}
    (h : enabledCbfs next n x dt sc cs ps es = .error er) :
    er = .assertionError "alpha must be an instance/sub-class of ConstraintStrenthener" := by
  induction cs generalizing sc ps es with
  | nil => cases ps <;> cases es <;> simp [enabledCbfs] at h
  | cons c cs ih =>
    cases ps with
    | nil => cases es <;> simp [enabledCbfs] at h
    | cons p ps =>
      cases es with
      | nil => simp [enabledCbfs] at h
      | cons e es =>
        unfold enabledCbfs at h
        dsimp only at h
        rcases hq : enabledCbfs next n x dt (if c.slackPriorityScale.isSome then sc + 1 else sc) cs ps es with er' | fs
        · rw [hq] at h
          obtain rfl : er' = er := Except.error.inj h
          exact ih hq
        · rw [hq] at h
          dsimp only at h
          cases e with
          | false => simp at h
          | true =>
            rw [if_pos rfl] at h
            cases hal : c.alpha with
            | none => rw [hal] at h; exact (Except.error.inj h).symm
            | some al => rw [hal] at h; simp at h

/-- The traces of every constraint are of the same code and of the same attributes. -/
def TracesOK (e : X) (cs : List (Constraint K S P)) (ts : List (JitCache Sig (Constraint K S P × X))) : Prop :=
  List.Forall₂ (fun c t => ∀ p ∈ t, p.2.1.SameCode c ∧ p.2.2 = e) cs ts

theorem enabledCbfsJ_sim [DecidableEq Sig] [Add K] [Sub K] [Mul K] [Div K] [Zero K] (sig : S → K → P → Sig)
    (next : X → S → K → List K → S) (e : X) (n : Nat) (x : S) (dt : K) {cs : List (Constraint K S P)}
    {ts : List (JitCache Sig (Constraint K S P × X))} (h : TracesOK e cs ts) (sc : Nat) (ps : List P) (es : List Bool) :
    (enabledCbfsJ sig next e n x dt sc cs ps es ts).1 = enabledCbfs (next e) n x dt sc cs ps es ∧
      TracesOK e cs (enabledCbfsJ sig next e n x dt sc cs ps es ts).2 := by
  unfold TracesOK at h
  induction h generalizing sc ps es with
  | nil => simp [enabledCbfsJ, enabledCbfs, TracesOK]
  | @cons c t cs ts h1 h2 ih =>
    cases ps with
    | nil => exact ⟨by simp [enabledCbfsJ, enabledCbfs], by rw [enabledCbfsJ]; exacts [List.Forall₂.cons h1 h2, by simp]⟩
    | cons p ps =>
      cases es with
      | nil => exact ⟨by simp [enabledCbfsJ, enabledCbfs], by rw [enabledCbfsJ]; exacts [List.Forall₂.cons h1 h2, by simp]⟩
      | cons b es =>
        obtain ⟨i1, i2⟩ := ih (if c.slackPriorityScale.isSome then sc + 1 else sc) ps es
        unfold enabledCbfsJ enabledCbfs
        dsimp only
        rw [← i1]
        rcases hq : enabledCbfsJ sig next e n x dt (if c.slackPriorityScale.isSome then sc + 1 else sc) cs ps es ts with ⟨r, ts'⟩
        rw [hq] at i1 i2
        have i2 : TracesOK e cs ts' := i2
        cases b with
        | false =>
          simp only [Bool.false_eq_true, if_false]
          exact ⟨by cases r <;> rfl, .cons h1 i2⟩
        | true =>
          rw [if_pos rfl]
          have hj := jitCall_eq (on := true) (q := sig x dt p) (self := (c, e)) (cache := t)
            (run := cbfOf next n (if c.slackPriorityScale.isSome then some sc else none) x dt p)
            (Rel := fun a b => a.1.SameCode b.1 ∧ a.2 = b.2) ⟨rfl, rfl⟩
            (by
              rintro ⟨a, e'⟩ ⟨ha, rfl⟩
              have ha : a.SameCode c := ha
              have ha1 : a.alpha = c.alpha := by rw [← ha]
              unfold cbfOf
              dsimp only
              rw [ha1]
              cases c.alpha with
              | none => rfl
              | some al =>
                dsimp only
                congr 1
                funext z
                unfold cbfFn
                rw [ha.compute]) (fun _ => h1)
          obtain ⟨j1, j2⟩ := hj
          have j2 := j2 rfl
          rcases hc : jitCall true (cbfOf next n (if c.slackPriorityScale.isSome then some sc else none) x dt p) t (sig x dt p) (c, e) with ⟨rf, t'⟩
          rw [hc] at j1 j2
          have j1 : rf = _ := j1
          unfold cbfOf at j1
          dsimp only at j1 j2
          cases hal : c.alpha with
          | none =>
            rw [hal] at j1
            subst j1
            refine ⟨?_, .cons j2 h2⟩
            cases r with
            | error er => rw [enabledCbfs_error i1.symm]
            | ok fs => simp
          | some al =>
            rw [hal] at j1
            subst j1
            cases r with
            | error er => exact ⟨rfl, .cons j2 i2⟩
            | ok fs => exact ⟨rfl, .cons j2 i2⟩

/-- Discrete ASIF: the compiled module `j` is in step with the uncompiled module `s`. -/
structure DiscSim (e : X) (j : DiscJ Sig K S P X) (s : DiscObj K S P) : Prop where
  obj : j.obj = s
  extra : j.jit.extra = e
  traces : TracesOK e (s.constraints.map (·.2)) j.jit.traces

theorem DiscSim.up {e : X} (j : DiscJ Sig K S P X) (s : DiscObj K S P) (h : DiscSim e j s) (o : DiscObj K S P)
    (hc : o.constraints = s.constraints) (_ : o.ext = s.ext) (_ : SameBounds s o) : DiscSim e { j with obj := o } o :=
  ⟨rfl, h.extra, by rw [hc]; exact h.traces⟩

theorem discFilterJ_sim [DecidableEq Sig] [Field K] [HasSqrt K] [LT K] [DecidableLT K] (solver : NLPSolver K)
    (sig : S → K → P → Sig) (next : X → S → K → List K → S) {e : X} {j : DiscJ Sig K S P X} {s : DiscObj K S P}
    (h : DiscSim e j s) (x : S) (dt : K) (u : List K) :
    (discFilterJ solver sig next j x dt u).1 = (discFilter solver (next e) s x dt u).1 ∧
      DiscSim e (discFilterJ solver sig next j x dt u).2 (discFilter solver (next e) s x dt u).2 := by
  obtain ⟨o, e', ts⟩ := j
  obtain ⟨rfl, rfl, ht⟩ := h
  dsimp only at ht
  have h' : DiscSim e' (⟨o, e', ts⟩ : DiscJ Sig K S P X) o := ⟨rfl, rfl, ht⟩
  unfold discFilterJ discFilter
  dsimp only
  cases scalarBound o.ext.optLow with
  | error er => exact ⟨rfl, h'⟩
  | ok lo =>
    cases scalarBound o.ext.optHigh with
    | error er => exact ⟨rfl, h'⟩
    | ok hi =>
      dsimp only
      by_cases hlen : (u ++ zeros o.ext.numSlack).length ≠ o.ext.controlDim + o.ext.numSlack
      · rw [if_pos hlen, if_pos hlen]; exact ⟨rfl, h'⟩
      · rw [if_neg hlen, if_neg hlen]
        obtain ⟨h1, h2⟩ := enabledCbfsJ_sim sig next e' o.ext.controlDim x dt ht 0 (o.params.map (·.2))
          (o.constraintEnabled.map (·.2))
        rcases hq : enabledCbfsJ sig next e' o.ext.controlDim x dt 0 (o.constraints.map (·.2)) (o.params.map (·.2))
          (o.constraintEnabled.map (·.2)) ts with ⟨r, ts'⟩
        rw [hq] at h1 h2
        rw [← show r = _ from h1, hq]
        clear h1
        have h2 : TracesOK e' (o.constraints.map (·.2)) ts' := h2
        cases r with
        | error er => exact ⟨rfl, rfl, rfl, h2⟩
        | ok fs =>
          dsimp only
          by_cases hr : ¬ (solver (discObj o.ext.objWeight (u ++ zeros o.ext.numSlack)) (u ++ zeros o.ext.numSlack) fs
              (List.replicate o.ext.controlDim (lo, hi) ++ List.replicate o.ext.numSlack (none, none))).success = true ∧
              o.ext.solverException = true
          · rw [if_pos hr, if_pos hr]; exact ⟨rfl, rfl, rfl, h2⟩
          · rw [if_neg hr, if_neg hr]; exact ⟨rfl, rfl, rfl, h2⟩

theorem discreteASIFJ_sim [DecidableEq Sig] [Field K] [Max K] [Min K] [HasSqrt K] [LT K] [DecidableLT K] (solver : NLPSolver K)
    (sig : S → K → P → Sig) (next : X → S → K → List K → S) {e : X} {j : DiscJ Sig K S P X} {s : DiscObj K S P}
    (h : DiscSim e j s) (inp : InputState S) (dt : K) (u : List K) :
    (discreteASIFJ solver sig next j inp dt u).1 = (discreteASIF solver (next e) s inp dt u).1 ∧
      DiscSim e (discreteASIFJ solver sig next j inp dt u).2 (discreteASIF solver (next e) s inp dt u).2 := by
  refine filterControlJ_sim (fun _ _ h => h.obj) DiscSim.up (fun j s inp dt u h => ?_) h inp dt u
  refine computeFilteredControlJ_sim (fun _ _ h => h.obj) DiscSim.up getStateDefault_same (fun j s x dt u h => ?_) h inp dt u
  exact discFilterJ_sim solver sig next h x dt u

theorem TracesOK.mono {e : X} {cs ds : Dict (Constraint K S P)} {ts : List (JitCache Sig (Constraint K S P × X))}
    (h : TracesOK e (cs.map (·.2)) ts) (hs : SameConstraints cs ds) : TracesOK e (ds.map (·.2)) ts := by
  unfold SameConstraints at hs
  unfold TracesOK at *
  induction hs generalizing ts with
  | nil => exact h
  | cons h1 _ ih =>
    cases h with
    | cons h2 h3 => exact .cons (fun p hp => ⟨(h2 p hp).1.trans h1.2, (h2 p hp).2⟩) (ih h3)

theorem TracesOK.new (e : X) (cs : Dict (Constraint K S P)) :
    TracesOK (Sig := Sig) e (cs.map (·.2)) (cs.map fun _ => []) := by
  unfold TracesOK
  induction cs with
  | nil => exact .nil
  | cons a l ih => exact .cons (fun p hp => by cases hp) ih

/-! ### Traces -/

/-- Constraint number `i` has a trace for the signature `q`. -/
def TracedAt [DecidableEq Sig] (ts : List (JitCache Sig (Constraint K S P × X))) (i : Nat) (q : Sig) : Prop :=
  ∃ t, ts[i]? = some t ∧ (jitLookup t q).isSome = true

theorem enabledCbfsJ_trace [DecidableEq Sig] [Add K] [Sub K] [Mul K] [Div K] [Zero K] (sig : S → K → P → Sig)
    (next : X → S → K → List K → S) (e : X) (n : Nat) (x : S) (dt : K) (sc : Nat) (cs : List (Constraint K S P))
    (ps : List P) (es : List Bool) {ts : List (JitCache Sig (Constraint K S P × X))} {i : Nat} {q : Sig} (h : TracedAt ts i q) :
    TracedAt (enabledCbfsJ sig next e n x dt sc cs ps es ts).2 i q := by
  induction ts generalizing sc cs ps es i with
  | nil => obtain ⟨t, ht, _⟩ := h; simp at ht
  | cons t ts ih =>
    cases cs with
    | nil => simpa [enabledCbfsJ] using h
    | cons c cs =>
      cases ps with
      | nil => simpa [enabledCbfsJ] using h
      | cons p ps =>
        cases es with
        | nil => simpa [enabledCbfsJ] using h
        | cons b es =>
          have ih' := fun (j : Nat) (hj : TracedAt ts j q) =>
            ih (if c.slackPriorityScale.isSome then sc + 1 else sc) cs ps es hj
          unfold enabledCbfsJ
          dsimp only
          rcases hq : enabledCbfsJ sig next e n x dt (if c.slackPriorityScale.isSome then sc + 1 else sc) cs ps es ts with ⟨r, ts'⟩
          rw [hq] at ih'
          have ih' : ∀ j, TracedAt ts j q → TracedAt ts' j q := ih'
          have two : ∀ t', (i = 0 → (jitLookup t' q).isSome = true) → TracedAt (t' :: ts') i q := by
            intro t' h0
            cases i with
            | zero => exact ⟨t', rfl, h0 rfl⟩
            | succ i =>
              obtain ⟨t1, ht1, hq1⟩ := h
              obtain ⟨t2, ht2, hq2⟩ := ih' i ⟨t1, by simpa using ht1, hq1⟩
              exact ⟨t2, by simpa using ht2, hq2⟩
          have two' : ∀ t', (i = 0 → (jitLookup t' q).isSome = true) → TracedAt (t' :: ts) i q := by
            intro t' h0
            cases i with
            | zero => exact ⟨t', rfl, h0 rfl⟩
            | succ i =>
              obtain ⟨t1, ht1, hq1⟩ := h
              exact ⟨t1, by simpa using ht1, hq1⟩
          have here : i = 0 → (jitLookup t q).isSome = true := by
            rintro rfl
            obtain ⟨t1, ht1, hq1⟩ := h
            obtain rfl : t = t1 := by simpa using ht1
            exact hq1
          cases b with
          | false => simp only [Bool.false_eq_true, if_false]; exact two _ here
          | true =>
            rw [if_pos rfl]
            obtain ⟨run, hrun⟩ : ∃ run : Constraint K S P × X → Except PyErr (List K → K), run =
              cbfOf next n (if c.slackPriorityScale.isSome then some sc else none) x dt p := ⟨_, rfl⟩
            rw [← hrun]
            have here' : i = 0 → (jitLookup (jitCall true run t (sig x dt p) (c, e)).2 q).isSome = true := by
              intro h0
              obtain ⟨o, ho⟩ := Option.isSome_iff_exists.1 (here h0)
              rw [jitLookup_jitCall ho]; rfl
            rcases hc : jitCall true run t (sig x dt p) (c, e) with ⟨rf, t'⟩
            rw [hc] at here'
            cases rf with
            | error er => exact two' _ here'
            | ok fn =>
              dsimp only
              cases r <;> exact two _ here'

theorem enabledCbfsJ_traced [DecidableEq Sig] [Add K] [Sub K] [Mul K] [Div K] [Zero K] (sig : S → K → P → Sig)
    (next : X → S → K → List K → S) (e : X) (n : Nat) (x : S) (dt : K) (sc : Nat) (cs : List (Constraint K S P))
    (ps : List P) (es : List Bool) {ts : List (JitCache Sig (Constraint K S P × X))} {fs : List (List K → K)}
    (h : (enabledCbfsJ sig next e n x dt sc cs ps es ts).1 = .ok fs) {i : Nat} {p : P} (hp : ps[i]? = some p)
    (he : es[i]? = some true) (hc : i < cs.length) (ht : i < ts.length) :
    TracedAt (enabledCbfsJ sig next e n x dt sc cs ps es ts).2 i (sig x dt p) := by
  induction ts generalizing sc cs ps es i fs with
  | nil => simp at ht
  | cons t ts ih =>
    cases cs with
    | nil => simp at hc
    | cons c cs =>
      cases ps with
      | nil => simp at hp
      | cons p' ps =>
        cases es with
        | nil => simp at he
        | cons b es =>
          unfold enabledCbfsJ at h ⊢
          dsimp only at h ⊢
          have ih' := fun fs h (j : Nat) h1 h2 h3 h4 =>
            @ih (if c.slackPriorityScale.isSome then sc + 1 else sc) cs ps es fs h j h1 h2 h3 h4
          rcases hq : enabledCbfsJ sig next e n x dt (if c.slackPriorityScale.isSome then sc + 1 else sc) cs ps es ts with ⟨r, ts'⟩
          rw [hq] at ih' h
          have rest : ∀ t', r = .ok fs ∨ (∃ gs, r = .ok gs) → (i = 0 → (jitLookup t' (sig x dt p)).isSome = true) →
              TracedAt (t' :: ts') i (sig x dt p) := by
            intro t' hr h0
            cases i with
            | zero => exact ⟨t', rfl, h0 rfl⟩
            | succ i =>
              obtain ⟨gs, hr⟩ : ∃ gs, r = .ok gs := by rcases hr with hr | hr; exacts [⟨_, hr⟩, hr]
              obtain ⟨t2, ht2, hq2⟩ := ih' gs hr i (by simpa using hp) (by simpa using he) (by simpa using hc) (by simpa using ht)
              exact ⟨t2, by simpa using ht2, hq2⟩
          cases b with
          | false =>
            simp only [Bool.false_eq_true, if_false] at h ⊢
            refine rest _ (.inl h) ?_
            rintro rfl
            simp at he
          | true =>
            rw [if_pos rfl] at h ⊢
            obtain ⟨run, hrun⟩ : ∃ run : Constraint K S P × X → Except PyErr (List K → K), run =
              cbfOf next n (if c.slackPriorityScale.isSome then some sc else none) x dt p' := ⟨_, rfl⟩
            rw [← hrun] at h ⊢
            rcases hcall : jitCall true run t (sig x dt p') (c, e) with ⟨rf, t'⟩
            rw [hcall] at h
            cases rf with
            | error er => cases h
            | ok fn =>
              have hlook := jitLookup_of_ok (run := run) (cache := t) (q := sig x dt p') (self := (c, e)) (r := fn)
                (by rw [hcall])
              rw [hcall] at hlook
              dsimp only at h ⊢
              cases r with
              | error er => cases h
              | ok gs =>
                dsimp only at h ⊢
                refine rest _ (.inr ⟨gs, rfl⟩) ?_
                rintro rfl
                obtain rfl : p' = p := by simpa using hp
                obtain ⟨o, ho⟩ := hlook
                rw [ho]; rfl

/-- When every enabled constraint is traced, the current constraint objects and attributes are not read. -/
theorem enabledCbfsJ_frozen [DecidableEq Sig] [Add K] [Sub K] [Mul K] [Div K] [Zero K] (sig : S → K → P → Sig)
    (next : X → S → K → List K → S) (e e' : X) (n : Nat) (x : S) (dt : K) (sc : Nat) {cs cs' : List (Constraint K S P)}
    (hcs : List.Forall₂ (fun a b : Constraint K S P => a.slackPriorityScale = b.slackPriorityScale) cs cs')
    (ps : List P) (es : List Bool) (ts : List (JitCache Sig (Constraint K S P × X)))
    (h : ∀ i p, i < cs.length → ps[i]? = some p → es[i]? = some true → TracedAt ts i (sig x dt p)) :
    enabledCbfsJ sig next e' n x dt sc cs' ps es ts = enabledCbfsJ sig next e n x dt sc cs ps es ts := by
  induction hcs generalizing sc ps es ts with
  | nil => simp [enabledCbfsJ]
  | @cons c c' cs cs' h1 h2 ih =>
    cases ps with
    | nil => simp [enabledCbfsJ]
    | cons p ps =>
      cases es with
      | nil => simp [enabledCbfsJ]
      | cons b es =>
        cases ts with
        | nil => simp [enabledCbfsJ]
        | cons t ts =>
          have ih' := ih (if c.slackPriorityScale.isSome then sc + 1 else sc) ps es ts (fun i p' hi hp he => by
            obtain ⟨t', ht', hq⟩ := h (i + 1) p' (by simpa using hi) (by simpa using hp) (by simpa using he)
            exact ⟨t', by simpa using ht', hq⟩)
          unfold enabledCbfsJ
          dsimp only
          rw [← h1, ih']
          cases b with
          | false => rfl
          | true =>
            obtain ⟨t', ht', hq⟩ := h 0 p (by simp) rfl rfl
            obtain rfl : t = t' := by simpa using ht'
            obtain ⟨o, ho⟩ := Option.isSome_iff_exists.1 hq
            rw [if_pos rfl, if_pos rfl, jitCall_hit ho, jitCall_hit ho]

/-! ### Frozen constraints -/

/-- A discrete module with other constraints, constraint values and attributes. -/
def patchDisc (cs : Dict (Constraint K S P)) (vals : Dict K) (o : DiscObj K S P) : DiscObj K S P :=
  { o with constraints := cs, constraintValues := vals }

theorem discFilterJ_patch [DecidableEq Sig] [Field K] [HasSqrt K] [LT K] [DecidableLT K] (solver : NLPSolver K)
    (sig : S → K → P → Sig) (next : X → S → K → List K → S) (o o' : DiscObj K S P) (e e' : X)
    (ts : List (JitCache Sig (Constraint K S P × X))) (hb : o'.toBase = o.toBase) (hp : o'.params = o.params)
    (hE : o'.constraintEnabled = o.constraintEnabled) (hext : o'.ext = o.ext)
    (hcs : List.Forall₂ (fun a b : Constraint K S P => a.slackPriorityScale = b.slackPriorityScale)
      (o.constraints.map (·.2)) (o'.constraints.map (·.2))) (x : S) (dt : K) (u : List K)
    (h : ∀ i p, i < (o.constraints.map (·.2)).length → (o.params.map (·.2))[i]? = some p →
      (o.constraintEnabled.map (·.2))[i]? = some true → TracedAt ts i (sig x dt p)) :
    (discFilterJ solver sig next ⟨o', e', ts⟩ x dt u).1 = (discFilterJ solver sig next ⟨o, e, ts⟩ x dt u).1 ∧
      (discFilterJ solver sig next ⟨o', e', ts⟩ x dt u).2.obj.toBase =
        (discFilterJ solver sig next ⟨o, e, ts⟩ x dt u).2.obj.toBase := by
  have hf := enabledCbfsJ_frozen sig next e e' o.ext.controlDim x dt 0 hcs (o.params.map (·.2)) (o.constraintEnabled.map (·.2)) ts h
  rcases o with ⟨b, c, p, en, v, st, ext⟩
  rcases o' with ⟨b', c', p', en', v', st', ext'⟩
  dsimp only at hb hp hE hext hf
  subst hb hp hE hext
  unfold discFilterJ
  dsimp only
  rw [hf]
  cases scalarBound ext'.optLow with
  | error er => exact ⟨rfl, rfl⟩
  | ok lo =>
    cases scalarBound ext'.optHigh with
    | error er => exact ⟨rfl, rfl⟩
    | ok hi =>
      dsimp only
      by_cases hlen : (u ++ zeros ext'.numSlack).length ≠ ext'.controlDim + ext'.numSlack
      · rw [if_pos hlen, if_pos hlen]; exact ⟨rfl, rfl⟩
      · rw [if_neg hlen, if_neg hlen]
        rcases hq : enabledCbfsJ sig next e ext'.controlDim x dt 0 (c.map (·.2)) (p'.map (·.2)) (en'.map (·.2)) ts with ⟨r, ts'⟩
        rw [hq]
        cases r with
        | error er => exact ⟨rfl, rfl⟩
        | ok fs =>
          dsimp only
          by_cases hr : ¬ (solver (discObj ext'.objWeight (u ++ zeros ext'.numSlack)) (u ++ zeros ext'.numSlack) fs
              (List.replicate ext'.controlDim (lo, hi) ++ List.replicate ext'.numSlack (none, none))).success = true ∧
              ext'.solverException = true
          · rw [if_pos hr, if_pos hr]; exact ⟨rfl, rfl⟩
          · rw [if_neg hr, if_neg hr]; exact ⟨rfl, rfl⟩

theorem preFilter_patchDisc {j : DiscJ Sig K S P X} {cs : Dict (Constraint K S P)} (h : SameData j.obj.constraints cs) (e : X)
    (x : S) (u : List K) :
    ∃ vals, preFilter ({ obj := { j.obj with constraints := cs }, jit := { j.jit with extra := e } } : DiscJ Sig K S P X) x u =
      ⟨patchDisc cs vals (preFilter j x u).obj, e, j.jit.traces⟩ := by
  refine ⟨(preFilter ({ obj := { j.obj with constraints := cs }, jit := { j.jit with extra := e } } : DiscJ Sig K S P X)
    x u).obj.constraintValues, ?_⟩
  have h1 := updateParams_data h j.obj.params j.obj.constraintEnabled
  unfold preFilter updateParams patchDisc updateConstraintValuesAt
  dsimp only
  rw [h1.1, h1.2]

theorem discFilterJ_inv [DecidableEq Sig] [Field K] [HasSqrt K] [LT K] [DecidableLT K] (solver : NLPSolver K)
    (sig : S → K → P → Sig) (next : X → S → K → List K → S) (j : DiscJ Sig K S P X) (x : S) (dt : K) (u : List K) {i : Nat} {q : Sig}
    (h : TracedAt j.jit.traces i q) : TracedAt (discFilterJ solver sig next j x dt u).2.jit.traces i q := by
  unfold discFilterJ
  dsimp only
  cases scalarBound j.obj.ext.optLow with
  | error er => exact h
  | ok lo =>
    cases scalarBound j.obj.ext.optHigh with
    | error er => exact h
    | ok hi =>
      dsimp only
      by_cases hlen : (u ++ zeros j.obj.ext.numSlack).length ≠ j.obj.ext.controlDim + j.obj.ext.numSlack
      · rw [if_pos hlen]; exact h
      · rw [if_neg hlen]
        have h2 := enabledCbfsJ_trace sig next j.jit.extra j.obj.ext.controlDim x dt 0 (j.obj.constraints.map (·.2))
          (j.obj.params.map (·.2)) (j.obj.constraintEnabled.map (·.2)) h
        rcases hq : enabledCbfsJ sig next j.jit.extra j.obj.ext.controlDim x dt 0 (j.obj.constraints.map (·.2))
          (j.obj.params.map (·.2)) (j.obj.constraintEnabled.map (·.2)) j.jit.traces with ⟨r, ts'⟩
        rw [hq] at h2 ⊢
        have h2 : TracedAt ts' i q := h2
        cases r with
        | error er => exact h2
        | ok fs =>
          dsimp only
          by_cases hr : ¬ (solver (discObj j.obj.ext.objWeight (u ++ zeros j.obj.ext.numSlack)) (u ++ zeros j.obj.ext.numSlack) fs
              (List.replicate j.obj.ext.controlDim (lo, hi) ++ List.replicate j.obj.ext.numSlack (none, none))).success = true ∧
              j.obj.ext.solverException = true
          · rw [if_pos hr]; exact h2
          · rw [if_neg hr]; exact h2

theorem discreteASIFJ_trace [DecidableEq Sig] [Field K] [Max K] [Min K] [HasSqrt K] [LT K] [DecidableLT K] (solver : NLPSolver K)
    (sig : S → K → P → Sig) (next : X → S → K → List K → S) (j : DiscJ Sig K S P X) (inp : InputState S) (dt : K) (u : List K)
    {i : Nat} {q : Sig} (h : TracedAt j.jit.traces i q) : TracedAt (discreteASIFJ solver sig next j inp dt u).2.jit.traces i q := by
  unfold discreteASIFJ
  refine filterControlJ_inv (Q := fun c : DiscJit Sig K S P X => TracedAt c.traces i q) (fun j inp dt u h => ?_) h inp dt u
  refine computeFilteredControlJ_inv (Q := fun c : DiscJit Sig K S P X => TracedAt c.traces i q) (fun j x dt u h => ?_) h inp dt u
  exact discFilterJ_inv solver sig next j x dt u h

theorem discFilterJ_traced [DecidableEq Sig] [Field K] [HasSqrt K] [LT K] [DecidableLT K] (solver : NLPSolver K)
    (sig : S → K → P → Sig) (next : X → S → K → List K → S) {j : DiscJ Sig K S P X} {x : S} {dt : K} {u v : List K}
    (h : (discFilterJ solver sig next j x dt u).1 = .ok v) {i : Nat} {p : P} (hp : (j.obj.params.map (·.2))[i]? = some p)
    (he : (j.obj.constraintEnabled.map (·.2))[i]? = some true) (hc : i < (j.obj.constraints.map (·.2)).length)
    (ht : i < j.jit.traces.length) : TracedAt (discFilterJ solver sig next j x dt u).2.jit.traces i (sig x dt p) := by
  unfold discFilterJ at h ⊢
  dsimp only at h ⊢
  cases hlo : scalarBound j.obj.ext.optLow with
  | error er => rw [hlo] at h; cases h
  | ok lo =>
    cases hhi : scalarBound j.obj.ext.optHigh with
    | error er => rw [hlo, hhi] at h; cases h
    | ok hi =>
      rw [hlo, hhi] at h
      dsimp only at h ⊢
      by_cases hlen : (u ++ zeros j.obj.ext.numSlack).length ≠ j.obj.ext.controlDim + j.obj.ext.numSlack
      · rw [if_pos hlen] at h; cases h
      · rw [if_neg hlen] at h ⊢
        have h2 := fun fs hfs => @enabledCbfsJ_traced K S P X Sig _ _ _ _ _ _ sig next j.jit.extra j.obj.ext.controlDim x dt 0
          (j.obj.constraints.map (·.2)) (j.obj.params.map (·.2)) (j.obj.constraintEnabled.map (·.2)) j.jit.traces fs hfs i p hp he hc ht
        rcases hq : enabledCbfsJ sig next j.jit.extra j.obj.ext.controlDim x dt 0 (j.obj.constraints.map (·.2))
          (j.obj.params.map (·.2)) (j.obj.constraintEnabled.map (·.2)) j.jit.traces with ⟨r, ts'⟩
        rw [hq] at h h2 ⊢
        cases r with
        | error er => cases h
        | ok fs =>
          have h2 : TracedAt ts' i (sig x dt p) := h2 fs rfl
          dsimp only
          by_cases hr : ¬ (solver (discObj j.obj.ext.objWeight (u ++ zeros j.obj.ext.numSlack)) (u ++ zeros j.obj.ext.numSlack) fs
              (List.replicate j.obj.ext.controlDim (lo, hi) ++ List.replicate j.obj.ext.numSlack (none, none))).success = true ∧
              j.obj.ext.solverException = true
          · rw [if_pos hr]; exact h2
          · rw [if_neg hr]; exact h2

theorem discreteASIFJ_traced [DecidableEq Sig] [Field K] [Max K] [Min K] [HasSqrt K] [LT K] [DecidableLT K] (solver : NLPSolver K)
    (sig : S → K → P → Sig) (next : X → S → K → List K → S) {j : DiscJ Sig K S P X} (hen : j.obj.enable = true) {x : S} {dt : K}
    {u v : List K} (h : (discreteASIFJ solver sig next j (.array x) dt u).1 = .ok v) {i : Nat} {p : P}
    (hp : ((updateParams j.obj).params.map (·.2))[i]? = some p)
    (he : ((updateParams j.obj).constraintEnabled.map (·.2))[i]? = some true) (hc : i < j.obj.constraints.length)
    (ht : i < j.jit.traces.length) :
    TracedAt (discreteASIFJ solver sig next j (.array x) dt u).2.jit.traces i (sig x dt p) := by
  unfold discreteASIFJ at h ⊢
  rw [filterJ_enabled _ hen] at h ⊢
  have hk := fun v hv => @discFilterJ_traced K S P X Sig _ _ _ _ _ solver sig next (preFilter j x u) x dt u v hv i p hp he
    (by rw [List.length_map]; exact hc) ht
  rcases hq : discFilterJ solver sig next (preFilter j x u) x dt u with ⟨r, j'⟩
  rw [hq] at h hk
  cases r with
  | error er => cases h
  | ok c =>
    have hk : TracedAt j'.jit.traces i (sig x dt p) := hk c rfl
    dsimp only
    cases j'.obj.toBase.clipControl c <;> exact hk

end

end RTA
