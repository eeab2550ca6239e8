import Verif.Model.ConstraintRTA
import Verif.Model.LinAlg

/-!
Model of `run_time_assurance/rta/asif.py`: `BaseOptimizationModule`, `ASIFModule`, `ExplicitASIFModule` (lines 27-451) and
`get_lower_bound_ineq_constraint_mats` (lines 927-955), and of `DirectInequalityConstraint` (`constraint.py:453-509`).
-/
namespace RTA

/-- A `DirectInequalityConstraint` object (`constraint.py:453-509`). -/
structure DirectConstraint (K S P : Type) where
  ineqWeight : S → P → List K
  ineqConstant : S → P → K
  params : P
  enabled : Bool

/-- What `quadprog.solve_qp(G, a, C, b, 0)` can do: return a tuple, of which the code uses the minimiser (entry 0) and
the 1-based indices of the active inequalities (entry 5), or raise `ValueError` with a message. -/
inductive QPResult (K : Type) where
  | solved (x : List K) (iact : List Int)
  | valueError (msg : String)
deriving Repr, DecidableEq

/-- The message compared at `rta/asif.py:260`. -/
def inconsistentMsg : String := "constraints are inconsistent, no solution"

/-- Type of the external solver. Simplification: `G` is passed as the list of its diagonal entries, `obj_weight` always
being `np.diag(...)` (`rta/asif.py:58`), and `(C, b)` as the list of inequalities. -/
abbrev Solver (K : Type) := List K → List K → List (Row K) → QPResult K

/-- Attributes added by `BaseOptimizationModule` (`rta/asif.py:42-58`) and `ASIFModule` (lines 86-98); `extra` holds those
of further subclasses. `constraints_with_slack` is represented by its length `numSlack`. -/
structure ASIFExt (K S P X : Type) where
  epsilon : K
  controlDim : Nat
  solverException : Bool
  numSlack : Nat
  objWeight : List K
  constraintNames : List String
  actuation : List (Row K)
  direct : Dict (DirectConstraint K S P)
  directParams : Dict P
  directEnabled : Dict Bool
  causing : Option (List String)
  extra : X

/-- An ASIF module object. -/
abbrev ASIFObj (K S P X : Type) := CBObj K S P (ASIFExt K S P X)

section
variable {K S P X : Type}

/-- The attributes of the subclass replaced. -/
def CBObj.setExt {E : Type} (self : CBObj K S P E) (e : E) : CBObj K S P E := { self with ext := e }

/-- `get_lower_bound_ineq_constraint_mats` (`rta/asif.py:927-955`), the vector `b`; the matrix is `eye(vec_len)`. A `jax`
array must have the exact shape, other arrays are broadcast against `ones(vec_len)`. Simplification: a NumPy array of
length `L ≠ 1` for a one-dimensional control broadcasts to length `L` here and fails later inside the solver; the model
fails at once. -/
def lowerBoundVec (bound : Bound K) (n : Nat) : Except PyErr (List K) :=
  match bound with
  | .scalar b => .ok (List.replicate n b)
  | .arr true l =>
    if l.length = n then .ok l else .error (.assertionError s!"the shape of bound must be ({n},)")
  | .arr false l =>
    if l.length = n then .ok l
    else if l.length = 1 then .ok (bcastTo n l)
    else .error (.typeError "incompatible shapes for broadcasting")

/-- Rows `eye(n)[i] ++ zeros(num_slack)` with constants `b` (`rta/asif.py:154-158`). -/
def lowRows [Zero K] [One K] (b : List K) (n numSlack : Nat) : List (Row K) :=
  (List.range n).map fun i => ⟨eyeRow n i ++ zeros numSlack, b.getD i 0⟩

/-- The same with `c *= -1; b *= -1` (`rta/asif.py:162-167`). -/
def highRows [Zero K] [One K] [Neg K] (b : List K) (n numSlack : Nat) : List (Row K) :=
  (List.range n).map fun i => ⟨(eyeRow n i).map (- ·) ++ zeros numSlack, - b.getD i 0⟩

/-- Names `u1_min, u2_min, ...` (`rta/asif.py:159-160, 168-169`). -/
def actuationNames (suffix : String) (n : Nat) : List String :=
  (List.range n).map fun i => "u" ++ toString (i + 1) ++ suffix

/-- `ASIFModule._generate_actuation_constraint_mats` (`rta/asif.py:138-170`): rows and the names appended to
`constraint_names`. -/
def actuationMats [Zero K] [One K] [Neg K] (low high : Option (Bound K)) (n numSlack : Nat) :
    Except PyErr (List (Row K) × List String) :=
  match (match low with
    | none => Except.ok ([], [])
    | some b =>
      match lowerBoundVec b n with
      | .error e => .error e
      | .ok l => .ok (lowRows l n numSlack, actuationNames "_min" n)) with
  | .error e => .error e
  | .ok (rows, names) =>
    match high with
    | none => .ok (rows, names)
    | some b =>
      match lowerBoundVec b n with
      | .error e => .error e
      | .ok l => .ok (rows ++ highRows l n numSlack, names ++ actuationNames "_max" n)

/-- The slack weights: entries of `obj_weight` after the control entries (`rta/asif.py:49-57`). -/
def slackWeights [HasSqrt K] (cs : Dict (Constraint K S P)) : List K :=
  cs.filterMap fun kc => kc.2.slackPriorityScale.map HasSqrt.sqrt

/-- `ASIFModule._update_direct_inequality_params` (`rta/asif.py:100-104`). -/
def updateDirectParams (self : ASIFObj K S P X) : ASIFObj K S P X :=
  self.setExt { self.ext with
    directParams := self.ext.direct.foldl (fun d kc => dictSet d kc.1 kc.2.params) self.ext.directParams
    directEnabled := self.ext.direct.foldl (fun d kc => dictSet d kc.1 kc.2.enabled) self.ext.directEnabled }

/-- `BaseOptimizationModule.__init__` and `ASIFModule.__init__` (`rta/asif.py:42-58, 86-98`); `direct` is the
result of `_setup_direct_constraints` (`rta/asif.py:331-341`, by default empty). `extraNames` are the names
between the actuation names and the direct constraint names: the constraint keys (line 98). -/
def asifInit [Zero K] [One K] [Neg K] [HasSqrt K] (high low : Option (Bound K)) (all : Dict (Constraint K S P))
    (use : Option (List String)) (epsilon : K) (controlDim : Nat) (solverException : Bool)
    (direct : Dict (DirectConstraint K S P)) (extra : X) : Except PyErr (ASIFObj K S P X) :=
  -- the base class constructor does not read the subclass attributes
  match CBObj.init high low all use
      ({ epsilon := epsilon, controlDim := controlDim, solverException := solverException, numSlack := 0, objWeight := []
         constraintNames := [], actuation := [], direct := direct, directParams := [], directEnabled := []
         causing := none, extra := extra } : ASIFExt K S P X) with
  | .error e => .error e
  | .ok self =>
    let w := slackWeights self.constraints
    match actuationMats self.controlBoundsLow self.controlBoundsHigh controlDim w.length with
    | .error e => .error e
    | .ok (rows, names) =>
      let self := self.setExt { self.ext with
        numSlack := w.length, objWeight := List.replicate controlDim 1 ++ w, actuation := rows
        constraintNames := names ++ (dictKeys self.constraints ++ dictKeys direct) }
      .ok (updateDirectParams self)

/-- The loop of `ASIFModule._update_ineq_mats` (`rta/asif.py:193-222`). A weight of the wrong length makes `jnp.append`
raise. -/
def directRows [Zero K] (params : Dict P) (en : Dict Bool) (controlDim numSlack : Nat) (x : S) :
    Dict (DirectConstraint K S P) → Except PyErr (List (Row K))
  | [] => .ok []
  | (k, c) :: rest =>
    match dictGet params k, dictGet en k with
    | some p, some e =>
      if (c.ineqWeight x p).length ≠ controlDim then .error (.typeError "concatenation axis must match exactly")
      else
        match directRows params en controlDim numSlack x rest with
        | .error er => .error er
        | .ok rows =>
          .ok ((if e then ⟨c.ineqWeight x p ++ zeros numSlack, c.ineqConstant x p⟩
                else ⟨zeros (controlDim + numSlack), 0⟩) :: rows)
    | _, _ => .error (.keyError k)

/-- The loop over `opt[5]` (`rta/asif.py:252-256`): append `constraint_names[i - 1]` unless present. A bad index raises
`IndexError` and leaves the names collected so far. -/
def causingLoop (names : List String) : List Int → List String → Except PyErr Unit × List String
  | [], acc => (.ok (), acc)
  | i :: is, acc =>
    match pyGet names (i - 1) with
    | none => (.error .indexError, acc)
    | some key => causingLoop names is (if key ∈ acc then acc else acc ++ [key])

/-- `quadprog.solve_qp` checks that `a` has the dimension of `G` and every column of `C` too before solving; otherwise it
raises `ValueError`. -/
def quadprogSolve (solver : Solver K) (G a : List K) (rows : List (Row K)) : QPResult K :=
  if a.length = G.length ∧ ∀ r ∈ rows, r.w.length = G.length then solver G a rows
  else .valueError "G, a and C must have matching dimensions"

/-- `ASIFModule._optimize` (`rta/asif.py:224-268`). The warning of line 262 is not modelled. -/
def optimize [Zero K] (solver : Solver K) (self : ASIFObj K S P X) (desired : List K) (rows : List (Row K)) :
    Except PyErr (List K) × ASIFObj K S P X :=
  let a := desired ++ zeros self.ext.numSlack
  match quadprogSolve solver self.ext.objWeight a rows with
  | .solved u iact =>
    match causingLoop self.ext.constraintNames iact [] with
    | (.error e, l) => (.error e, self.setExt { self.ext with causing := some l })
    | (.ok (), l) => (.ok (u.take self.ext.controlDim), self.setExt { self.ext with causing := some l })
  | .valueError msg =>
    if msg = inconsistentMsg then
      if ¬ self.ext.solverException then (.ok (a.take self.ext.controlDim), self)
      else (.error .solverError, self)
    else (.error (.valueError msg), self)

/-- `BaseOptimizationModule.monitor` (`rta/asif.py:60-75`): `norm(desired - actual) > epsilon`. -/
def asifMonitor [Add K] [Mul K] [Sub K] [Zero K] [HasSqrt K] [LT K] [DecidableLT K] (epsilon : K)
    (desired actual : List K) : Bool :=
  decide (epsilon < HasSqrt.sqrt (sqNorm (vsub desired actual)))

/-- `ASIFModule._filter_control` (`rta/asif.py:126-136`). `genRows` is `_generate_barrier_constraint_mats`, which may
modify the object (the implicit variant drives the backup controller). -/
def asifFilter [Add K] [Mul K] [Sub K] [Zero K] [HasSqrt K] [LT K] [DecidableLT K] (solver : Solver K)
    (genRows : ASIFObj K S P X → S → K → Except PyErr (List (Row K)) × ASIFObj K S P X)
    (self : ASIFObj K S P X) (x : S) (dt : K) (u : List K) : Except PyErr (List K) × ASIFObj K S P X :=
  let self := updateDirectParams self
  match genRows self x dt with
  | (.error e, self) => (.error e, self)
  | (.ok rows, self) =>
    match directRows self.ext.directParams self.ext.directEnabled self.ext.controlDim self.ext.numSlack x self.ext.direct with
    | .error e => (.error e, self)
    | .ok drows =>
      match optimize solver self u (rows ++ drows) with
      | (.error e, self) => (.error e, self)
      | (.ok actual, self) =>
        (.ok actual, { self with intervening := asifMonitor self.ext.epsilon u actual })

/-- The strengthening term chosen by `lax.cond` (`rta/asif.py:406-413`). Both alternatives are evaluated, so a missing
strengthener raises in either case. -/
def alphaTerm [Add K] [Mul K] [Zero K] [OfNat K 10] [LT K] [DecidableLT K] (c : Constraint K S P) (h : K) :
    Except PyErr K :=
  match c.alphaAt h with
  | .error e => .error e
  | .ok pos =>
    match c.alphaNegAt h with
    | .error e => .error e
    | .ok neg => .ok (if h < 0 then neg + c.biasNegative else pos)

/-- The loop of `ExplicitASIFModule._generate_barrier_constraint_mats` (`rta/asif.py:389-429`, the branches at `rta/asif.py:437-451`). `f` and `g` are the
abstract `state_transition_system` and `state_transition_input`; `sc` is `slack_counter`. Shape mismatches make `@` or
`jnp.append` raise. `slack.at[sc].set(-1)` ignores an index out of range, as `List.set` does. -/
def explicitRows [Add K] [Mul K] [Neg K] [Sub K] [Zero K] [One K] [OfNat K 10] [LT K] [DecidableLT K] (f : S → List K)
    (g : S → List (List K)) (params : Dict P) (en : Dict Bool) (controlDim numSlack : Nat) (x : S) :
    Nat → Dict (Constraint K S P) → Except PyErr (List (Row K))
  | _, [] => .ok []
  | sc, (k, c) :: rest =>
    match dictGet params k, dictGet en k with
    | some p, some e =>
      let grad := c.gradFn x p
      if grad.length ≠ (g x).length ∨ grad.length ≠ (f x).length ∨ (∃ r ∈ g x, r.length ≠ controlDim) then
        .error (.typeError "dot_general requires contracting dimensions to have the same shape")
      else
        let temp1 := vecMat grad (g x) controlDim ++
          (if c.slackPriorityScale.isSome then (zeros numSlack).set sc (-1) else zeros numSlack)
        match alphaTerm c (c.compute x p) with
        | .error er => .error er
        | .ok alpha =>
          let temp2 := -(dot grad (f x)) - alpha
          match explicitRows f g params en controlDim numSlack x
              (if c.slackPriorityScale.isSome then sc + 1 else sc) rest with
          | .error er => .error er
          | .ok rows =>
            .ok ((if e then ⟨temp1, temp2⟩ else ⟨zeros (controlDim + numSlack), 0⟩) :: rows)
    | _, _ => .error (.keyError k)

/-- `ExplicitASIFModule._generate_barrier_constraint_mats` (`rta/asif.py:363-435`): actuation rows first. -/
def explicitGenRows [Add K] [Mul K] [Neg K] [Sub K] [Zero K] [One K] [OfNat K 10] [LT K] [DecidableLT K]
    (f : S → List K) (g : S → List (List K)) (self : ASIFObj K S P X) (x : S) (_dt : K) :
    Except PyErr (List (Row K)) × ASIFObj K S P X :=
  match explicitRows f g self.params self.constraintEnabled self.ext.controlDim self.ext.numSlack x 0 self.constraints with
  | .error e => (.error e, self)
  | .ok rows => (.ok (self.ext.actuation ++ rows), self)

/-- `filter_control` of an `ExplicitASIFModule`. -/
def explicitASIF [Add K] [Mul K] [Neg K] [Sub K] [Zero K] [One K] [OfNat K 10] [Max K] [Min K] [HasSqrt K] [LT K]
    [DecidableLT K] (solver : Solver K) (f : S → List K) (g : S → List (List K)) (self : ASIFObj K S P X)
    (inp : InputState S) (dt : K) (u : List K) : Except PyErr (List K) × ASIFObj K S P X :=
  filterControlCB getStateDefault (asifFilter solver (explicitGenRows f g)) self inp dt u

end

end RTA
