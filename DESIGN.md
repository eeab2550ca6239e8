# Formal model of run-time-assurance: design

The subject is the Python library in `/repo` (run-time assurance filters: Simplex, ASIF, cascades, the CWH / integrator
"zoo" and the sample-testing harness).  The model is written in Lean 4 with Mathlib under `lean/Verif`:

* `Verif/Model/*`  – the code, function by function, each definition citing the file and lines it mirrors;
* `Verif/Spec/*`   – small, independent vocabulary used in the property statements;
* `Verif/Lemmas/*` – helper lemmas (no property claims);
* `Verif/Props/*`  – one or more theorems per property `Cxx`, each with an `example` meeting its hypotheses.

`properties.jsonl` lists the properties, `MANIFEST.json` the theorems for each, `seeded/LOG.jsonl` the wrong programs the
theorems were tested against. Lines with an empty `theorems_failed` are attempts that nothing caught; for most of this work they were left out of the
log and only their repeat after tightening was listed, so they were added later, together, from the saved output of the runs (the output of the
earliest runs was not saved, so survivors from then may be missing). Edits that did not type-check are not listed.

## Modelling choices (apply everywhere)

* **Numbers.** Exact ordered-field / real arithmetic replaces float32/float64. Where a result only needs an order or an
  addition the definitions are generic (`K`), so they can also be instantiated with a type containing a NaN (C20)
  or with rounded arithmetic (C103). Zoo
  constraints whose code can produce NaN or infinity (square roots of negative numbers, 0/0) have values in `Option ℝ`.
* **Arrays** are lists; shape errors are explicit error values. 1-D broadcasting of bounds is modelled.
* **Python exceptions** are values: a method is a function `σ → Except PyErr α × σ`; the object state reached at the moment
  the exception is raised is retained.
* **Objects** are structures; subclass hooks (abstract methods) are function parameters, so theorems quantify over every
  subclass. Object identity and aliasing matter for C04 and C59 only; `Model/Heap` and `Model/Zoo/Combined` have a store.
* **jit / vmap / tracing** are treated as the identity (the traced Python function is what is modelled), except in `Model/Jit`, `Model/JitDiscrete` and `Model/JitHocbf`,
  where the module-level `jit`s of simplex and ASIF modules are caches: one snapshot of the object per signature, from
  which later calls read the attributes. Arguments are passed anew. A non-hashable static argument raises. C85 justifies the
  identity for the other files.
* **Autodiff** (`grad`, `jacfwd`, `jacrev`) is a function field of the model; theorems that need it to be the derivative
  assume exactly that (`IsGradientOn`: chain rule along curves) or prove it for the concrete constraint (docking,
  integrator, limits, inspection).
* **External solvers** (`quadprog.solve_qp`, `scipy.optimize.minimize`) are parameters with a contract (`SolverSpec`):
  optimal and feasible when they report success, "inconsistent" only when infeasible. The contract is shown satisfiable
  (`refSolver_spec`). What remains of the guarantees for solvers that are only approximately right is C98 (`SolverTol`).
* **Dynamics of safe_autonomy_simulation** (`dynamics.step`) is a parameter; Euler and exact-flow instances are defined
  where a zoo property needs them.
* **Continuous time**: a trajectory is a function of time with right derivatives given by the module's own `f(x) + g(x) u`
  (`Trajectory`); existence of solutions is not needed by any theorem except the counterexamples, which give them.
* **`while` loops** carry a fuel argument; theorems say that the fuel does not matter or that the loop ends.

## Trusted base

Lean's kernel, Lean/Mathlib's standard axioms (`propext`, `Classical.choice`, `Quot.sound`; no theorem depends on any
other), and the faithfulness of `Verif/Model` to the cited lines. No further axioms, no `sorry`,
no `native_decide`/`bv_decide`. `decide +kernel` is used for examples and witnesses over the rationals; it is evaluated by the kernel.

## What is modelled

| code | model |
|------|-------|
| `rta/base.py` (all classes) | `Model/Base`, `Model/ConstraintRTA`, `Model/Cascade`, `Model/Heap` |
| `rta/simplex.py` | `Model/Simplex` |
| `rta/asif.py` | `Model/ASIF` (explicit), `Model/Implicit`, `Model/Discrete` |
| `controller.py` | `Model/Controller` |
| the `compose` methods of simplex and ASIF modules and of backup controllers | `Model/Jit`; compiled filters of simplex (with compiled controllers and the option `integrate`), explicit and implicit ASIF modules; `Model/JitHocbf` for the constraints that `jit_enable=False` does not reach |
| `jit_compile_dict` (base.py:173-201, the dictionary lookups of the `compose` methods) | `Model/Options`; dictionaries as objects on a heap, which methods each module kind compiles |
| two simplex modules holding the same controller object (base.py:400-401) | `Model/Shared` |
| the options `pred_state` and `integrate` of simplex modules with predictions that may raise while traced; `_docking_pred_state` | `Model/Zoo/DockingJit` |
| `_get_state` of the two inspection modules with the attribute `sun_vel`, compiled and not | `Model/Zoo/InspectionJit` |
| `DiscreteCBFConstraint.__init__` (its `jit`s) | `Model/JitDiscrete`; discrete ASIF modules as they run |
| `constraint.py` | `Model/Constraint`, `Model/HOCBF`, `Model/Discrete` (discrete constraints) |
| `utils/utils.py` | `Model/Py`, `Model/LinAlg`, `Model/Zoo/CWH` |
| `utils/sample_testing.py`, `zoo/cwh/random_sample_testing.py` | `Model/SampleTesting`, `Model/LatinHypercube` |
| `zoo/cwh/utils.py`, constraints of `inspection_1v1.py`, `inspection_3d.py` | `Model/Zoo/CWH`, `Inspection`, `InspectionConstraints`, `DeltaV` |
| `Inspection1v1RTA` | `Model/Zoo/InspectionModule` |
| `InspectionRTA` | `Model/Zoo/InspectionMulti` |
| `DiscreteInspection1v1RTA` | `Model/Zoo/InspectionDiscrete` |
| `InspectionCascadedRTA` | `Model/Zoo/InspectionCascade`; the gains of the limiter are parameters |
| the Riccati equations of `SwitchingDeltaVLimitRTA.__init__` and of the docking backup controllers | `Model/Zoo/Riccati`; what `scipy.linalg.solve_continuous_are` is documented to return, not how it computes it |
| `inspection_3d.py` combined module | `Model/Zoo/Combined` |
| `docking_2d.py`, `docking_3d.py` | `Model/Zoo/Docking` |
| `integrator_1d.py` | `Model/Zoo/Integrator` |
| `state.py` and the state wrappers of the zoo | `Model/State` |

## What is not modelled

* Floating-point rounding, except for explicit ASIF modules (C103: constraints without slack; sums in a fixed order, no fused operations, no overflow) and the solver tolerances of C98 and C102; for switching modules any error of prediction or value is allowed for (C123), but how large rounding makes it is not modelled; wall-clock time, plotting, csv files, printing and directories of the testing harness, statistical quality of random sources (a parameter).
* Compilation of implicit ASIF modules with a controller with internal state or with the option
  `generate_barrier_constraint_mats` on, and of the zoo's own methods; compile-time cost. The signature by which `jax` distinguishes
  calls is a parameter.
* `odeint` integration (`integration_method="RK45"` of the implicit modules): trajectories are hypotheses.
* Changing the control dimension after a module was constructed (changes of the dictionary of constraints and of slack scales: C116; for discrete time modules `Model/DiscreteStored.lean` has the list `scipy_constraints` kept from construction).
* The gains of the linear-quadratic controllers (`solve_continuous_are`, `solve_discrete_are`) are parameters.
* Negative `num_steps` of implicit modules; the order of errors among several constraints that fail in the same call of an implicit module.
* `PointMassIntegratorDynamics` and `LinearODEDynamics` of the external simulator: the former is taken as A = [[0,1],[0,0]], B = [[0],[1/m]] with
  an Euler or an exact step, the latter is a parameter.
* Testing hooks are pure and do not raise.
* Heap model: subclasses do not keep references to caller arrays.
* CWH: mean motion nonzero (the code divides by it); the conic constraint is 0/0 on the cone surface, the axis and in the origin; `tan` at 90 degrees.

## Where the code disagrees with a property

Each is a theorem with a concrete witness (named `*_refuted*` or as given), next to a `_partial` theorem saying what holds.

| no. | finding | theorems |
|-----|---------|----------|
| F1 | the delta-v limiter returns the desired control on the very call that latches it, and overshoots its budget | C42_refuted_* |
| F2 | `reset` of a simplex module keeps the elapsed latch time | C10_refuted_simplex_reset |
| F3 | implicit ASIF modules with slack constraints raise | C37_refuted_slack |
| F4 | `num_check_all` skips the point after the densely checked ones | C37_refuted_gap |
| F5 | implicit ASIF row names are misaligned with the rows after subsampling | C29_refuted_implicit_names |
| F6 | the slack weight in the quadratic program is the square root of the documented one | C26_refuted_slack_weight |
| F7 | the list of causing constraints is stale after an infeasible call | C29_refuted_stale_list |
| F8 | infeasible calls with out-of-bounds desired controls are not reported as interventions; the flag of a disabled ASIF is stale | C28_refuted_* |
| F9 | simplex monitors see the unclipped desired control | C15_refuted_out_of_bounds |
| F10 | higher-order constraints of relative degree 1 raise `UnboundLocalError` | C35_refuted_degree_one |
| F11 | `CascadedRTA.reset` does not reset the stages | C10_refuted_cascade_reset |
| F12 | the combined module never reports `intervening` | C50_refuted_intervening |
| F13 | one short input state freezes the sun for all later ones (without compilation; see F59 for the default); only six-component states are completed | C51_refuted_* |
| F14 | the discrete inspection module turns the sun the wrong way | C49_refuted |
| F15 | `SafetyAssurance` sampling calls constraints without params: `TypeError` | C56_refuted |
| F16 | a NaN constraint value counts as satisfied | C20_refuted_nan_accepted |
| F17 | 1-D switching filters collide: Euler prediction, between samples, and for a short window | C53_refuted_* |
| F18 | the sensitivity of the backup trajectory ignores the clipping of the backup control | C38_saturated_counterexample |
| F19 | the discrete condition keeps the set invariant only if `dt * alpha(h) <= h` | hypothesis of C39_closed_loop |
| F20 | discrete ASIF modules do not support bounds per element | Model/Discrete |
| F21 | restoring the controller state without a save sets it to `None` | C21_save_restore |
| F22 | `a_max` is computed from a hard-coded thrust | C46_refuted_custom_bounds |
| F23 | an exception inside the look-ahead leaves the backup controller modified | C17_not_exception_safe, C11_refuted_implicit |
| F24 | by default the discrete ASIF applies the output of a failed solve | C39_failed_solve_unsafe |
| F25 | all combined modules share their default deputy modules | C59_refuted_shared_default |
| F26 | the discrete next state resets the consumed delta-v | Model/Zoo/Combined |
| F27 | the conic constraint is NaN on the cone and its axis | C47 hypotheses |
| F28 | the trajectory report of `ConstraintPSMDeputy` always raises `ValueError` | C66_refuted_array |
| F29 | the 1-D explicit constraint ignores the mass | C52_refuted_heavy |
| F30 | from the boundary of its safe set the 1-D explicit filter lets a trajectory collide | C60_refuted_boundary |
| F31 | testing modules do not reset the filter between episodes | C61_refuted |
| F32 | the docking backup controllers feed back only the velocity and do not bring it to zero | C65_refuted_* |
| F33 | the 1-D implicit optimisation filter, called once per step, lets full thrust through one step before no control is admissible, and then lets the vehicle pass the dock | C68_refuted_sampled |
| F34 | the braking speed of the maximum distance constraint ignores sideways motion: a spacecraft that thrusts towards the chief with `a_max` all the time still leaves the maximum distance | C69_refuted_sideways |
| F35 | the passive safety constraint between deputies uses chief radius + deputy radius instead of twice the deputy radius: with a chief smaller than the deputies, coasting deputies collide although the constraint is positive | C72_passive_refuted |
| F36 | the value of the sun constraint between deputies jumps where the relative position crosses the plane perpendicular to the sun direction | C73_jump_refuted |
| F37 | the combined module filters each deputy as if the others coasted: two deputies thrusting at each other get their thrusts unchanged while the collision constraint between them becomes negative | C74_pairs_refuted |
| F38 | a higher-order constraint ignores the strengthener given to the constraint it wraps | C75_wrapped_strengthener_unused |
| F39 | every setter of the state wrappers raises `TypeError` (jax arrays are immutable) | C78_refuted_write |
| F40 | reading a missing component of a short state vector returns the last component instead of raising | C78_refuted_short |
| F41 | filters reject the library's own state wrappers, which their documentation admits | C78_refuted_input |
| F42 | the discrete inspection module with long steps: the deputy flies through the chief between two samples at which all constraints hold | C79_refuted_crossing |
| F43 | the discrete inspection module with long steps: the deputy is inside the collision sphere at a sample at which all constraints hold | C79_refuted_inside |
| F44 | the cubic strengtheners of the discrete inspection module are too large for steps of 50 s: an accepted control leads to a state from which coasting collides with the chief | C79_refuted_psm |
| F45 | the discrete inspection module takes the vertical velocity of a six-component state for the sun angle | C79_six, C79_refuted_six |
| F46 | once the delta-v limiter has switched, the inspection cascade ignores its inspection module, also after `reset()`: a deputy that starts a new episode with all constraints positive gets no thrust and drifts into the chief | C80_refuted_collision, C80_refuted_latched_ignores_constraints, C80_refuted_latched_for_ever |
| F47 | the inspection cascade raises `ValueError` for the six-component states its inspection module accepts | C80_refuted_six |
| F48 | the Riccati equation for the gains of the delta-v limiter has no solution: the integral of the velocity and the position differ by a constant no input can change | C81_no_solution, C81_no_gains |
| F49 | far from the chief (40 km) the switching docking modules accept states at the component limit that no admissible thrust can keep there: the tidal acceleration exceeds the thrust | C83_refuted_far |
| F50 | with one-second steps the default 2-D docking optimisation filter accepts full thrust across the direction of motion in a state at the limit; held for the second it exceeds the documented limit by more than 6 % | C84_refuted_one_second |
| F51 | after the first call a compiled module ignores changes of a constraint's bias, strengthening function or formula and of attributes the dynamics read (a mass), until the signature changes | C86_refuted_bias, C86_frozen_simplex, C86_frozen_asif |
| F52 | with compilation on, the default, backup controllers with internal state raise `ValueError` (unhashable static argument) whenever they are consulted: always in implicit simplex modules, exactly when intervening in explicit ones (a note at `restore`, `controller.py:167`, mentions the incompatibility; the documentation of `_generate_control` says the opposite) | C87_refuted_explicit, C87_refuted_implicit |
| F53 | `DiscreteCBFConstraint` compiles its barrier whatever `jit_enable` is: a discrete ASIF module ignores changes of bias, strengthening function, formula and dynamics attributes after its first call, also with `jit_enable=False` | C86_refuted_discrete, C86_frozen_discrete |
| F54 | a compiled backup controller (the default) ignores changes of its gains after it was used once, until `reset()` | C86_frozen_controller, C86_refuted_controller; C86_reset_controller_partial |
| F55 | `jit_enable=False` does not reach the constraints inside a `HOCBFConstraint`: changes of the wrapped constraint, of its strengthening function or of the state transition system are ignored after the first call | C86_frozen_hocbf, C86_refuted_hocbf |
| F56 | control bounds assigned after construction do not reach the optimisation problem of explicit and discrete ASIF modules (actuation rows and `opt_bounds` are computed once); the answer for the old bounds is only clipped, so with tighter bounds it can violate a constraint although an admissible control exists, and with looser bounds an admissible desired control is changed | C88_refuted_tightened, C88_refuted_loosened, C88_refuted_discrete; C88_asif_clips, C88_discrete_clips say exactly what is returned |
| F57 | a Latin hypercube test draws `n_points * multiplier` stratified rows but uses the first `n_points` safe ones, so with `multiplier > 1` (docking default 3) whole slices of the box may stay untested; with fewer than `n_points` safe rows it raises `IndexError` and loses all finished episodes | C89_refuted, C89_runs_out |
| F58 | the 2-D docking prediction converts its arguments with `np.array`, which cannot be traced: with the documented options `pred_state` or `integrate` every call of the 2-D switching modules raises `TypeError` (the 3-D ones work) | C90_refuted_explicit, C90_refuted_implicit |
| F59 | `_get_state` of the inspection modules sets `sun_vel = 0` outside the compiled method that reads it: by default the kind of the *first* state fixes the rate of the sun for all later calls (F13 describes `jit_enable=False`) | C91_inspection, C91_multi, C91_refuted |
| F60 | with slack, adding a constraint can make a QP module interfere *less*: `x ≥ 1` alone turns 0 into 1/2, with the conflicting `-x ≥ 0` added into 1/3 | C93_refuted_slack |
| F61 | the sensitivity of the backup trajectory takes the Jacobian at the end of each step, so for nonlinear loops it is not the derivative of the predicted state, as its docstring says (`x' = x²`, `x = 1`, `dt = 1/10`: 61/50 instead of 6/5); the error is of first order in `dt` | C94_refuted, C94_error_bound_partial |
| F62 | with the default `bias_negative = -0.01` the strengthening term jumps where a constraint value reaches zero, so the filtered control is discontinuous on the boundary of the safe set (`x' = u`, `x ≥ 0`: answer 0 at `x = 0`, at least 0.01 for every `x < 0`) | C95_refuted_bias |
| F63 | where the conditions can be met but not strictly, the filtered control can jump although all data are continuous (`x' = -1 + u`, `x²/2 ≥ 0`: answer 0 at `x = 0`, `1 - x/2` for `0 < x ≤ 1`) | C95_refuted_slater |
| F64 | the implicit ASIF constructor writes `generate_barrier_constraint_mats: False` into the caller's `jit_compile_dict` (asif.py:513); an explicit ASIF module constructed later with the same dictionary is then not compiled and follows attribute changes that its twin ignores | C96_shared_iff, C96_refuted_shared |
| F65 | the documentation of the implicit ASIF `compose` says that `pred_state` and `integrate` are not compiled by default; they are | C96_refuted_defaults |
| F66 | two modules with the same backup controller object share its internal state: an intervention of one moves the other's backup law on, a reset of one starts the other's anew | C97_refuted_call, C97_refuted_reset |
| F67 | with slack variables an ASIF module does not accept its own answer: handed back, it is changed again (request -1 is answered by -1/3, -1/3 by -1/9) | C99_refuted_slack |
| F68 | a simplex module named twice in a cascade counts every step twice against its latch time and is released early; requests beyond the bounds and backup controllers with an internal state also make the second answer differ | C99_refuted_latch, C99_refuted_bounds, C99_refuted_stateful |
| F69 | `alpha_negative` and `bias_negative`, meant to push back into the safe set, have no effect in implicit and discrete ASIF modules: solver errors of any size lead to lasting violations there, whatever `bias_negative` is | C102_implicit_bias_ignored, C102_implicit_bias_negative, C102_discrete_loss |
| F70 | constraints, gradients and inequality rows are evaluated in single precision (64 bit arithmetic of JAX is never enabled; the conversion to `float64` before the solver comes too late), and the default `bias` is 0: values whose rounding is not negative are treated as safe, so a trajectory can violate a constraint at all times by less than the rounding error; `bias_negative` cannot prevent it, a negative `bias` does | C103_bias_needed, C103_bias, C103_single |
| F71 | controls are held between calls and arrive after their computing time, and the default `bias` is 0: for every step length there is a system that violates its constraint between the calls while the module does not intervene; `bias_negative` cannot prevent it, a negative `bias` does | C104_bias_needed, C104_bias |
| F72 | simplex modules look at the state one step ahead only (`_monitor` and `integrate` with the caller's `step_size`), so a vehicle fast enough to cross a keep-out zone within one step is let through it | C105_attained, C105_explicit_simplex |
| F73 | the default strengthener of the shipped state limits (`PolynomialConstraintStrengthener([0, 0.0005, 0, 0.001])`) adds powers of a quantity that has units, so the answer depends on the units of the state: one metre from a position limit the filter allows an approach at 0.0015 m/s with positions in metres and at 0.1005 m/s with positions in decimetres | C108_refuted |
| F74 | with `subsample_constraints_num_least` (set to 1 by the shipped 1-D integrator modules that look along a trajectory) a longer backup window can drop a condition: the point with the least value moves and the one that restricted the control is no longer looked at; with window 1 the answer to 2 is 1, with window 2 it is 2 | C110_refuted_num_least |
| F75 | a reset in the middle of a latch shortens the next one, because the elapsed latch time is kept: with `latch_time` 2 and unit steps control goes back after two steps under backup control instead of three | C111_refuted_reset |
| F76 | where a constraint is violated the discrete-time module keeps the strengthener for non-negative values, the explicit one uses the stronger one for negative values: with `x >= 0`, bounds 2 and exact prediction the answers to 0 at -0.1 are 0.1 (for every step size) and 1.01 | C112_refuted_violated |
| F77 | the discrete-time module never quite brings a violated constraint back: with `x >= 0`, `alpha(y) = y` and half second steps the state goes from -1 to -(1/2)^n and stays negative for ever (the explicit module recovers in finite time thanks to `bias_negative`, which the discrete one ignores) | C113_refuted_finite |
| F78 | a cascade of optimisation filters does not keep the constraints of its earlier stages: in the plane with `x >= 0` and `x + y <= 0` and desired control (-1, 1) at the origin the two orders answer (-1/2, 1/2) and (0, 1), each violating the condition of the first stage, without an error, although (0, 0) satisfies both | C114_refuted |
| F79 | the list of names for `constraints_causing_intervention` is made when an explicit ASIF module is constructed: when a constraint is added to `module.constraints` later and becomes active, looking up its name raises `IndexError`, although the problem was solved | C116_added_raises, C116_refuted_added |
| F80 | names are looked up by position in that list, so names that are no longer in `module.constraints` are reported after renaming; a slack variable of a constraint added later is silently dropped and the constraint enforced without slack | C116_renamed, C116_refuted_names, C116_added_slack |
| F81 | a compiled explicit ASIF module (the default) goes on enforcing constraints that were removed from `module.constraints` after a call with the same signature, because their `params` stay in the dictionary that decides about retracing | C116_compiled_removed |
| F82 | a discrete time ASIF module enforces the list of constraints it made at construction: entries added to `module.constraints` later are never enforced, and removed or replaced ones go on being enforced | C116_discrete_ignored, C116_refuted_discrete_removed, C116_refuted_discrete_added |
| F83 | A soft constraint (`slack_priority_scale` given) that would be missed by the answer without it is still missed, by a positive amount, with every finite scale; it is never kept exactly, also in states where all constraints can be satisfied. The weight is the square root of the scale in continuous modules and the scale itself in discrete ones, so with the same scale the two kinds answer differently | `C117_kept_iff`, `C117_penalty`, `C117_discrete_penalty` |
| F84 | Changing `slack_priority_scale` of a constraint of an explicit ASIF module in use has no effect on the weights: they are made at construction and handed out by position to the constraints that have a scale. After the scale of one constraint was removed, the next one is weighted with its scale; a constraint that gets a scale later than construction may take the slack variable of another, or none | `C116_scales_ignored`, `C116_scales_closest`, `C116_refuted_scale` |
| F85 | With `bias_negative=0` a soft constraint is violated in closed loop with every scale, although it can be satisfied at all times: from the boundary the trajectory under a desired control that points outwards approaches `-1/(10·slope·√scale)`. The default `bias_negative` of `-0.01` makes up for it if the scale is large enough for the size of the desired corrections (`C118_bias`) | `C118_bias_needed` |
| F86 | A filter can keep a vehicle from its target for ever, without any message, although a safe way exists: with the unit disc as obstacle between vehicle and target the closed loop comes to rest in front of the disc | `C119_refuted_obstacle` |
| F87 | No slope of a strengthening function leaves all strictly safe motions alone, and some motions that are strictly safe for ever are altered from some time on with every slope: what is safe and what a module lets pass are different sets | `C120_refuted_slope`, `C120_refuted_forever` |
| F88 | a switching module treats its prediction as exact: with the default bias 0 a prediction error (the integrators are not exact, states are single precision) can be followed by a state from which the backup law no longer recovers; a bias of minus the error repairs it | C123_refuted_without_bias, C123_loop |
| F89 | the explicit switching module of `integrator_1d.py` has no bias and predicts with an Euler step, which ignores the effect of the control on the position within the step: on the true point mass it accepts controls after which braking comes too late | C125_refuted_without_bias, C125_dock |
| F90 | the implicit switching module of `integrator_1d.py` with its default Euler prediction and without bias is safe at the calls, but lets the vehicle be up to `dt²/8` past the target between two calls | C126_refuted_between, C126_dock |
| F91 | no bias makes the explicit optimisation module of `integrator_1d.py` safe when its control is held between calls: at rest the barrier condition does not restrict the acceleration, one step later no control is admissible, and the desired control is passed on until the vehicle is past the target (with `solver_exception` the second call raises) | C127_refuted, C127_raises |

Documentation only: the 3-D docking constraint documents 0.5 as the default cubic coefficient of its strengthening function; the code uses 0.005.

## How each property is proved

| id | modelled by | proof idea |
|----|-------------|-----------|
| C01 | `filterControl`, `npClip` with broadcasting | pointwise min/max, for an arbitrary `compute` hook |
| C02 | `filterControl` | branch analysis |
| C03 | `filterControl`, `generateInfo`, `reset`, history type | induction over histories |
| C04 | heap model of `filter_control` (`Model/Heap`) | frame argument: fresh locations are unreachable |
| C05 | `npClip` | pointwise order lemmas |
| C06 | `selectConstraints` | list filter characterisation |
| C07 | `updateParams`, `computeFilteredControl` | the cache is overwritten before every read; `C07_explicit_asif`, `C07_implicit_asif`, `C07_discrete_asif`, `C07_simplex`: for the modules themselves with their own `reset`, no hypothesis on hooks left (`Lemmas/Frames.lean`) |
| C08 | `updateConstraintValues`, `generateInfoCB` | induction over histories; `C08_explicit_asif`, `C08_implicit_asif`, `C08_discrete_asif`, `C08_simplex` for the modules themselves |
| C09 | `constraintViolation`, ASIF/implicit/discrete row generators | row-wise: zero row is satisfied by all |
| C10 | `simplexReset` etc. | refuted for simplex/cascade by a witness; partial theorem states when it holds |
| C11, C12 | `asifFilter` | output is a function of non-mutated fields |
| C13–C15 | `simplexFilter`, monitors | decision equations; C15 refuted outside bounds + partial inside |
| C16 | `simplexFilter` | invariant over call sequences (sum of step sizes) |
| C17 | `implicitIntegrate`, controller model | save/restore frame; induction over histories |
| C18, C19 | closed-loop runs of `filterControl` | inductive invariants |
| C20 | NaN-extended value type | refuted by witness |
| C21 | controller model | equations |
| C22–C29 | ASIF row generators + `optimize` + solver contract | linear algebra over lists, projection argument; `C29_index_zero` says what an index outside the contract would do |
| C30–C32 | row meaning + calculus | comparison lemma (Mathlib mean value theorem) |
| C33, C34 | polynomials, limit constraints | induction over coefficient lists; algebra |
| C35 | HOCBF chain | induction over degree + C31 lemma |
| C36–C38 | implicit ASIF | induction over trajectory, list index lemmas; C37 refuted in parts; `C37_negative`, `C37_index` (`Props/Edges.lean`): negative settings count from the end, what is out of range is clamped |
| C39, C40 | discrete CBF, discrete ASIF | algebra + induction over steps |
| C41 | cascades of heterogeneous modules | induction over stages |
| C42 | delta-v limiter | refuted in parts + partial |
| C43–C49, C57, C58, C66, C69 | CWH zoo | trigonometric identities, derivatives, comparison lemma, Cauchy–Schwarz |
| C50, C51, C59 | combined module, state padding | list permutation; refuted in parts |
| C52, C53, C60 | 1-D integrator instance of the generic modules | nonlinear arithmetic; C53 refuted for Euler |
| C54–C56, C61, C62 | episode simulation | induction over loop iterations |
| C63, C64 | docking instances of the explicit ASIF | a braking control is admissible (Cauchy–Schwarz); C31 for the closed loop |
| C67 | implicit ASIF in continuous time | the least of finitely many functions cannot fall when one that attains it rises (induction over the functions that may be least) |
| C68 | 1-D implicit optimisation module | closed form of trajectory and sensitivities, C67; refuted when sampled |
| C65 | `lqrControl` | a positive root of the characteristic polynomial (intermediate value theorem) gives a growing motion; comparison lemma for what holds |
| C70 | `Inspection1v1RTA` as an instance of the explicit ASIF | closed forms and Fréchet differentiability inside the safe set; induction over time: distances ("guards") and constraints keep each other positive ; numbers for the default arguments in `C70_default` |
| C71 | explicit ASIF | the barrier condition of a control that holds still is the strengthener's sign; C25 |
| C72 | `InspectionRTA` as an instance of the explicit ASIF, the other deputies coast | as C70; pair constraints are the one-vehicle constraints on a linear view of the state; refuted for small chiefs ; numbers for the default arguments in `C72_default` |
| C73 | `InspectionRTA.get_sign` | differentiable on either side; refuted on the plane |
| C74 | `CombinedInspectionRTA` in closed loop | own constraints of every deputy kept; refuted for pair constraints |
| C75 | `Inspection1v1RTA(use_hocbf=True)` in closed loop | C75_closed_loop; meaning of the constraint C75_value; the wrapped constraint's strengthener is ignored C75_wrapped_strengthener_unused |
| C76 | modules with `solver_exception=True` | a call that returns has solved the program: C76_explicit_returned, C76_implicit_returned; hence C76_*_closed_loop without solvability; the default flag does not have this (C76_default_returns_inadmissible) |
| C77 | `dock2Implicit`, `dock3Implicit` | instance of C67/C76 with the gradients and the documented limit of C64; C77_rest shows a module that answers |
| C78 | `Model/State` | evaluation; the rates given by the dynamics fit the names; writing, short vectors and wrappers as input refuted; empty vectors raise (`C78_empty`) |
| C79 | `DiscreteInspection1v1RTA` in closed loop | one step of the discrete barrier condition keeps a value non-negative when `dt (a + b Y^2) <= 1` for a bound `Y` on it; the limits bound the values, of the sun constraint by the distance and the two velocities and of the passive safety constraint by the distance after one second; refuted for long steps by motion perpendicular to the orbit, where everything has a closed form |
| C80 | `InspectionCascadedRTA` in closed loop | before the limiter switches it is the inspection module, so C70 carries over; after that the answer is the backup control of the limiter, which is zero on natural motion trajectories; one of them goes through the chief |
| C81 | the Riccati equation of the limiter | a vector that `A_int` and `B_int` annihilate from the left: a solution is injective, hence reaches the vector, and evaluating the equation there makes the weight vanish |
| C82 | gains of the docking backup controllers (`lqrGain`) | existence by Kleinman's iteration (`Lemmas/Riccati`: Lyapunov equations through an extremal Rayleigh quotient, monotone limit), uniqueness by comparing two solutions; the velocity block of the solution is positive definite, which is the damping C65 assumes. Assumed of `solve_continuous_are`: it returns the positive semidefinite solution |
| C83 | `dock2Simplex`, `dock3Simplex` with the gains of C82 in closed loop | the gains are enclosed by comparing the Riccati solution with explicit sub- and supersolutions (`Lemmas/Zoo/DockingGain`), one backup step shortens a fast velocity and cannot lengthen a slow one past the limit (`DockingStep`), predictions within `NearEuler`; exact solutions of the linear dynamics are within it for dt up to 10 (`DockingFlow`); the horizon theorems drop the hypothesis that the loop stays near by bounding the growth of the distance. Assumed: mass 12, bounds ±1 (the defaults), enforced limit at most 9/4 m/s in the loop |
| C84 | explicit optimisation filter with held controls | `C84_one_hold`, `C84_sampled_barrier` for any constraint along a trajectory; `C84_docking_2d/3d` are closed-loop theorems about the constructed modules with an exact plant (`ExactFlow2/3`, which `exactDock2/3` meet): the feasibility of the program in slightly violated states, the bound on the second derivative of the constraint (`Lemmas/Zoo/Hold`) and the recovery term (`bias_negative`) are proved. Assumed: default mean motion, mass and `v1`, bounds ±1, component limits at least 2.5 m/s, steps of at most 1/8 s, horizon such that the limit stays below 2.25 m/s |
| C85 | compiled = uncompiled | simulation over histories of calls and changes (`Spec/Jit.useAll`); explicit and implicit simplex, explicit, implicit and discrete ASIF; any `sig` |
| C86 | changes of attributes | false when compiled (frozen theorems: any change, any history in between); `C86_uncompiled_*_partial`: with `jit_enable=False` it holds, except for discrete ASIF modules and for constraints inside a `HOCBFConstraint`, where it fails as well (`C86_refuted_discrete`, `C86_refuted_hocbf`); compiled backup controllers are frozen until `reset()` |
| C87 | stateful controllers | false when compiled; `C87_uncompiled_controller_partial`: with `jit_enable=False` given to the controller it holds |
| C88 | changed control bounds | the bounds are respected and simplex modules adapt; false for the optimisation (F56), whose answer is the clip of the old one; `C88_asif_tightened_partial`: right when the old answer is within tighter bounds |
| C89 | Latin hypercube tests | the sampler is a parameter with a stratification contract (`LatinSampler`, met by `midSampler`); table in the box and stratified, starts are rows of the table in order; false with `multiplier > 1` (F57), `C89_covers_partial` for `multiplier = 1`; `C89_runs_out` says exactly when the rows suffice |
| C90 | compile options of predictions | holds for the 3-D docking modules and any prediction that can be traced; false for the 2-D ones (F58); `C90_dock2_partial`: holds while neither option is on. That `jax` raises when `np.array` meets a traced array is an assumption of `Model/Zoo/DockingJit.lean` |
| C91 | compiled sun rate | false as stated (F59, `C91_refuted`, for every correct solver). Exactly what is computed: `C91_inspection`, `C91_multi`. `C91_same_kind_partial`, `C91_multi_same_kind_partial`: holds if the first state is short or no state is. Assumes that one trace serves all calls (one signature) and that the first call is answered |
| C92 | answers are non-expansive in the desired control | `C92_firm` (`\|v-v'\|² ≤ (u-u')·(v-v')`), `C92_nonexpansive`, `C92_implicit_firm`, `C92_implicit_nonexpansive`: every module after every history, with slack, and in the fallback when nothing is admissible. `C92_idempotent` for modules without slack |
| C93 | more constraints, order of constraints | false as stated with slack (F60). `C93_more_constraints_partial`: without slack, also for narrower bounds. `C93_implicit_more_constraints`, `C93_simplex`, `C93_implicit_simplex` as stated. `C93_order` (with slack), `C93_implicit_order`: order is irrelevant. Discrete modules (`Props/OrderDiscrete.lean`): `C93_discrete_more_constraints_partial`; reordered modules reach the same cost (`C93_discrete_order`) and both answer or neither (`C93_discrete_order_answers`), but which of several closest controls is returned may depend on the order (`C93_refuted_discrete_order`: opposite controls, exact solver) |
| C94 | sensitivity of nonlinear loops | false as stated (F61). `C94_error_bound_partial`: for every differentiable loop the predicted state is differentiable and the sensitivity is within `k dt Δ (1 + dt L)^(k-1) b` of the derivative (attained in the example); `C94_first_order_partial`: hence within `dt C T exp(L T) b` |
| C95 | continuity of the answers | false as stated (F62, F63). `C95_continuous_partial`: continuous, jointly in state and desired control and with slack, wherever the strengthening terms are continuous and some control satisfies the conditions strictly. `C95_strengthening`: they are, unless a constraint value is zero there and the two branches differ |
| C96 | compile options | false as stated (F64, F65). `C96_shared_iff`: exactly when a shared dictionary changes what is compiled, for every sequence of constructions; `C96_dictionary`: what it then contains; `C96_disabled`, `C96_default`, `C96_defaults_partial`: options with `jit_enable=False`, without dictionary, documented values; `C96_answers_partial`: answers do not change as long as only `params` and `enabled` of constraints do |
| C97 | shared backup controllers | false for controllers with internal state (F66). `C97_stateless_partial`: no influence for controllers without, every interleaving of calls and resets; `C97_silent_partial`: no influence, whatever the controller, by a companion that is only called and does not intervene |
| C98 | solver tolerances | `SolverTol e d`: what a solver within tolerances must do; exact solvers (`C98_exact`) and solvers that relax every inequality by `e` (`C98_relaxed`) meet it. `C98_conditions`, `C98_returns`, `C98_interference`, `C98_distance`: one call; `C98_loop`, `C98_bias`: trajectories; `C98_bias_needed`: without `bias_negative` a solver within any tolerance `e > 0` leads to violations |
| C99 | repeated filtering | false as stated (F67, F68, also F9). `C99_explicit_partial` (no slack), `C99_implicit`, `C99_discrete` (no slack, failures raise), `C99_simplex_partial`, `C99_implicit_simplex_partial` (request within bounds, controller without state): the second answer is the first. `C99_slack_descends_partial`: with slack, the slack cost goes down. `Model/CascadeShared.lean` models cascades that name an object several times; `C99_cascade_distinct`, `C99_cascade_repeat`, `C99_cascade_explicit` |
| C100 | the reports of the inspection modules | `C100_inspection`, `C100_hocbf`, `C100_fleet`: entry by entry, `OwnReports` says what each number is (angles via `arccos`, the 1/316 of the smoothed norms, the coasting orbit as the solution of the CWH equations); `C100_positive`, `C100_fleet_positive` and, through C70 and C72, `C100_closed_loop`, `C100_fleet_closed_loop` |
| C101 | disturbed systems (`Spec/Disturbance.lean`: `x' = f + g u + w`), estimates of the state | `C101_loop`, `C101_recovery`: the value stays above (or returns to) `-η` where the strengthening term exceeds solver tolerance, disturbance and estimation error; `C101_bias` (`bias_negative` and `bias`), `C101_linear`, `C101_discrete`, `C101_discrete_linear`, `C101_simplex`, `C101_docking_2d` (the defaults of the docking module); `C101_bias_needed`: without `bias_negative` every disturbance size leads to a violation, and the bound of `C101_linear` is the best one. Implicit ASIF modules (`Props/DisturbanceImplicit.lean`): `C101_implicit`, `C101_implicit_linear` (exact solver, strengthener and `bias`), `C101_refuted_implicit`: as these modules do not use `bias_negative`, it makes up for no disturbance. The trajectory is a hypothesis: a filter whose answer jumps in the state need not have one in the classical sense (C95) |
| C102 | tolerances of the solvers of implicit and discrete modules (`Spec/ToleranceMore.lean`) | `C102_implicit_conditions`, `C102_implicit_returns`, `C102_implicit_interference`: one call; `C102_implicit_loop`, `C102_implicit_backup`: trajectories; `C102_implicit_bias_ignored`: violations for every tolerance whatever `bias_negative` is (F69). Discrete: `NLPTol e n`, `NLPNear d`; `C102_discrete_exact`, `C102_discrete_zero`, `C102_discrete_relaxed` (who meets them), `C102_discrete_conditions`, `C102_discrete_interference`, `C102_discrete_loop`, `C102_discrete_linear`, `C102_discrete_loss` |
| C103 | the model of explicit ASIF modules over `Fl rd`, numbers whose operations round by `rd` (`Model/Rounding.lean`, `Spec/Rounding.lean`; `RoundsBy u m rd` is the standard model of floating point arithmetic) | `C103_conditions`: one call; `C103_loop`, `C103_recovery`, `C103_bias`: trajectories of the true system, whose functions the module evaluates with errors; `C103_single`: numbers for single precision; `C103_bias_needed`: without `bias` values between the numbers of the format are lost (F70) |
| C104 | `DelayedLoop` (`Props/Delay.lean`): the control at any time was computed for a state at most `Δ` old | `C104_loop`, `C104_bias`, `C104_recovery`: trajectories of the true system; `C104_linear`: linear strengtheners; `C104_age`, `C104_sampled`: held controls with computing time `ℓ` have `Δ = dt + ℓ`; `C104_bias_needed`: without `bias` every step length loses (F71) |
| C105 | `Passes` (`Props/Between.lean`): a motion in continuous time through the states of a loop | `C105_explicit_simplex`, `C105_implicit_simplex`, `C105_discrete`: on top of C18, C19, C39; `C105_step`: one step; `C105_attained`: the bound is attained, with `gap_loop` and `gap_passes` for the loop (F72) |
| C106 | `drift`, `influence`, `boxAuthority`, `lowLimits`, `highLimits` (`Spec/ClosedForm.lean`) | `C106_authority`, `C106_outcome`: one condition within bounds; `C106_projection`: one condition without bounds; `C106_pairs`, `C106_scalar`: scalar controls with any number of conditions; `C106_integrator`: the 1-D docking integrator |
| C107 | `SameConstraint`, `Corresponds`, `flip`, `SymmetricBounds`, `Symmetric`, `SymmetricI`, `CBObj.mirror` (`Spec/Symmetry.lean`) | `C107_corresponding`; `C107_step_length`; `C107_coordinates`; `C107_mirror`; implicit ASIF `C107_implicit` (with the Jacobians of the closed loop assumed symmetric), `C107_docking_2d_implicit`, `C107_docking_3d_implicit` (linear prediction; `ExactOnLinear`: automatic differentiation gives the matrix of a linear map); `C107_docking_2d`, `C107_docking_3d`, `C107_inspection`, `C107_inspection_hocbf`; `C107_simplex`, `C107_simplex_run`, `C107_implicit_simplex`, `C107_implicit_simplex_run`; `C107_docking_2d_simplex`, `C107_docking_3d_simplex`; discrete time `C107_discrete`, `C107_inspection_discrete`, where the control itself need not be mirrored: `C107_refuted_discrete` |
| C108 | `RescaledLinear` (`Spec/Symmetry.lean`) | false: `C108_refuted` (F73); holds with linear strengtheners: `C108_linear_partial` |
| C109 | `MoreCautious`, `CoversCautiously` (`Spec/Caution.lean`) | `C109_explicit`, `C109_implicit`, `C109_discrete` (both calls succeed); `C109_simplex`, `C109_implicit_simplex`; `lowerBias_poly` for the strengtheners shipped |
| C110 | `Covers` (`Spec/Order.lean`) | simplex: `C110_simplex`; false for ASIF with `num_least`: `C110_refuted_num_least` (F74); holds otherwise: `C110_implicit_partial` |
| C111 | `backupTime`, `runTime`, `releases`, `handOvers`, `StepsAtLeast` (`Props/Dwell.lean`) | runs without resets: `C111_dwell_partial`; false after a reset: `C111_refuted_reset` (F75) |
| C112 | `ConsistentStep` (`Spec/SmallSteps.lean`), `StrictS` | states where the constraints hold, no slack: `C112_small_steps_partial`; false where a constraint is violated: `C112_refuted_violated` (F76) |
| C113 | `closedLoop` (`Props/ClosedLoop.lean`), `DiscInv` | the rate: `C113_shrinks`; below every tolerance: `C113_tolerance_partial`; with negative bias in finitely many steps: `C113_bias_partial`; false without bias: `C113_refuted_finite` (F77) |
| C114 | `Joins` (`Spec/CascadeJoin.lean`) | one control input: `C114_single_input_partial`; later stages that do not object: `C114_untouched_partial`; false with two inputs in either order: `C114_refuted` (F78) |
| C115 | `fleet` (`Spec/Zoo/Renumber.lean`) | the other deputies in one module: `C115_others`; the combined module: `C115_renumbering`, `C115_raises` |
| C116 | `setConstraints`, `ChangedUse`, `ChangedUseI` (`Spec/ChangedSet.lean`) | what is returned is best for the constraints of the moment: `C116_closest`, `C116_infeasible`; it is returned unless constraints were added: `C116_returns_partial`, `C116_added_fine`; Simplex: `C116_explicit_simplex`, `C116_implicit_simplex`; implicit ASIF: `C116_implicit_closest`, `C116_implicit_returns`, `C116_implicit_names`; **fails**: `C116_added_raises`, `C116_refuted_added`, `C116_added_slack`, `C116_renamed`, `C116_refuted_names`, `C116_compiled_removed`; discrete time modules ignore all changes: `C116_discrete_ignored`, `C116_refuted_discrete_removed`, `C116_refuted_discrete_added`; changed slack scales are ignored: `C116_scales_ignored`, `C116_scales_closest`, `C116_refuted_scale` |
| C117 | `violation`, `softCost`, `FirmOK`, `Rescaled`, `Without` (`Spec/Soft.lean`) | slack variables eliminated: `C117_returns`, `C117_penalty`, `C117_bound`, `C117_priority`, `C117_large_scales` (with an explicit rate), `C117_kept_iff`; discrete time modules: `C117_discrete_penalty`, `C117_discrete_bound`, `C117_discrete_priority`. Implicit modules raise with slack (F3) |
| C118 | `SoftLoop` (`Props/SoftLoop.lean`) | `C118_margin` (one call), `C118_loop`, `C118_recovery`, `C118_bias`, `C118_linear`, `C118_discrete`, `C118_discrete_linear`; `C118_bias_needed` gives for every scale a trajectory that violates the constraint at all times after its start |
| C119 | `C119_arrives` hypotheses (`Props/Zoo/IntegratorArrives.lean`) | partial: `C119_arrives` for the 1-D docking module (the vehicle comes to rest at the target); `C119_refuted_obstacle` shows that it is false for modules in general |
| C120 | hypotheses of `C120_steep` (`Props/Steep.lean`) | `C120_passes` (one call), `C120_steep` (bounded time, by compactness); `C120_refuted_slope` and `C120_refuted_forever` show that the slope has to depend on the motion, and the time has to be bounded |
| C121 | `ClosedLoop`, `LipOn` (`Props/Existence.lean`), `SampledLoop` (`Props/ExistenceSampled.lean`) | sampled calls: `C121_sampled_exists`, `C121_sampled_unique` for every filter whose calls return, `C121_sampled_asif`, `C121_sampled_simplex`, `C121_sampled_implicit` (`Props/ExistenceImplicit.lean`), `C121_sampled_docking`; scalar controls with any conditions and bounds: `C121_scalar_partial` (`Props/ExistenceScalar.lean`), safety of the motions: `C121_safe`; continuous calls: `C121_exists`, `C121_unique` (whenever the module answers everywhere and the resulting velocity has a Lipschitz constant), `C121_affine_partial` (one affine constraint, no bounds, constant input matrix: the hypotheses follow from those on the data), `C121_strengthening` (linear strengtheners without `bias_negative` qualify); missing: several constraints, bounds, nonzero `bias_negative`, data without a global Lipschitz constant |
| C122 | `ClosedLoop`, `SampledLoop` (`Props/SamplingLimit.lean`, `Lemmas/SampledODE.lean`) | `C122_converges` (Grönwall, with a bound on the speed at the samples by induction), `C122_violation` (with `C121_safe`); `scalar_answer_lip` and `C121_affine_partial` say when answers have a Lipschitz constant |
| C123 | `explicitSimplex`, `implicitSimplex` with a plant of its own (`NoisyRun`, `TrueSafe`, `Props/SimplexMargin.lean`) | `C123_accepted`, `C123_passes`, `C123_loop`, `C123_implicit_accepted`, `C123_implicit_loop`; without bias: `C123_refuted_without_bias` |
| C124 | `cascadeFilter` with stages of two classes (`eitherFilter`), `explicitSimplex`, `discreteASIF`, `explicitASIF` (`Props/SafetyNet.lean`) | `C124_net`, `C124_net_implicit` (`Props/SafetyNetImplicit.lean`), `C124_discrete`, `C124_explicit`; without the condition on the predicted change: `C124_refuted_curved` |
| C125 | `dockESObj` with a bias (`dockESBiased`), `pointEuler` as prediction, `pointExact` as plant (`Props/Zoo/IntegratorMargin.lean`) | `C125_dock` (C123 and `dock_dip`), `C125_runs`; in continuous time `C125_motion` (`Props/Zoo/IntegratorMotion.lean`); without bias `C125_refuted_without_bias` |
| C126 | `dockISObj` with a bias (`dockISBiased`), `pointEuler` as prediction, `pointExact` as plant (`Props/Zoo/IntegratorMarginImplicit.lean`) | `C126_dock` (C123 and `dock_bulge`), `C126_runs`; in continuous time `C126_motion`; without bias `C126_refuted_between` |
| C127 | `dockEOObj` with a bias (`dockEOBiased`), `pointExact` as plant (`Props/Zoo/IntegratorHeld.lean`) | `C127_coasting_partial` (C24 and the held step written out); false in general: `C127_refuted`, with `solver_exception` `C127_raises`; with the switching module of C125 as second stage of a cascade the loop is safe at all times for every desired control (`Props/Zoo/IntegratorNet.lean`: `C127_net` for any first stage, `C127_net_dock`, `C127_net_runs`) |
