{"id": "C01", "title": "Actuator bounds on the returned control", "statement": "Whenever an enabled RTA module returns a control from filter_control, every component is at most its upper bound, and at least its lower bound provided lower <= upper for that component; this holds no matter what the subclass's filtering logic computed.", "quantifier": "every module subclass and internal state, every input state, step size, desired control, every scalar/list/None bound combination", "why_tests_cant": "the clip must hold for every value a subclass may compute, for scalar, per-element, broadcast and absent bounds; tests only see a few controls", "anchors": ["run_time_assurance/rta/base.py:RTAModule.filter_control", "run_time_assurance/rta/base.py:RTAModule._clip_control"]}
{"id": "C02", "title": "Disabled module is a transparent pass-through", "statement": "With enable = False, filter_control returns exactly the desired control (bounds are not applied), never raises, and changes nothing in the module except the recorded desired and actual control.", "quantifier": "every module subclass, state, step size and desired control", "why_tests_cant": "absence of any side effect or value change must hold for every subclass state and every control", "anchors": ["run_time_assurance/rta/base.py:RTAModule.filter_control"]}
{"id": "C03", "title": "Reported controls match the last call", "statement": "After every successful filter_control call, generate_info reports as control_desired exactly the control passed in and as control_actual exactly the control returned, for enabled and disabled modules and after any history of earlier calls, resets and failures. After a call that raises, control_desired is the rejected request and control_actual is still that of the last call that computed one.", "quantifier": "every history of filter_control / reset / enable toggling calls", "why_tests_cant": "the claim is about the last element of an arbitrary call history including calls that raise", "anchors": ["run_time_assurance/rta/base.py:RTAModule.filter_control", "run_time_assurance/rta/base.py:RTAModule.generate_info", "run_time_assurance/rta/base.py:ConstraintBasedRTA.compute_filtered_control"]}
{"id": "C04", "title": "No aliasing between caller arrays and module records", "statement": "Mutating in place the array passed to filter_control, or the array returned by it, never changes what the module later reports or computes; the array returned by generate_info however is the module's own record.", "quantifier": "every interleaving of filter_control calls and caller in-place writes", "why_tests_cant": "aliasing bugs appear only for particular interleavings of writes and calls", "anchors": ["run_time_assurance/rta/base.py:RTAModule.filter_control", "run_time_assurance/rta/base.py:RTAModule.generate_info"]}
{"id": "C05", "title": "Clipping is the identity inside the bounds, idempotent and minimal", "statement": "Clipping leaves a control inside the bounds unchanged, applying it twice equals applying it once, and no other in-bounds control is closer in any component.", "quantifier": "every control vector and every bound configuration", "why_tests_cant": "needs every vector length and every real value", "anchors": ["run_time_assurance/rta/base.py:RTAModule._clip_control", "run_time_assurance/rta/base.py:ConstraintBasedRTA._clip_control_jax"]}
{"id": "C06", "title": "Constraint selection keeps exactly the requested constraints", "statement": "constraints_to_use keeps exactly those defined constraints whose key is listed, in definition order; unknown names are ignored; construction raises ValueError exactly when nothing is left; None keeps everything.", "quantifier": "every constraint dictionary and every list of names", "why_tests_cant": "needs all dictionaries and lists including duplicates, unknown names and empty lists", "anchors": ["run_time_assurance/rta/base.py:ConstraintBasedRTA.__init__"]}
{"id": "C07", "title": "Constraint parameter and enable edits take effect on the next call", "statement": "A filter_control call uses the params and enabled flags the constraint objects hold at the time of the call: the result equals that of a freshly constructed module with those params and flags, regardless of all parameter values used in earlier calls.", "quantifier": "every sequence of parameter/flag edits interleaved with calls", "why_tests_cant": "stale-cache bugs depend on the order of edits and calls", "anchors": ["run_time_assurance/rta/base.py:ConstraintBasedRTA._update_params", "run_time_assurance/rta/base.py:ConstraintBasedRTA.compute_filtered_control"]}
{"id": "C08", "title": "Logged constraint values carry the right label", "statement": "After any history, generate_info contains exactly one of the keys 'constraints' and 'constraints_at_last_state'. After filter_control it is 'constraints_at_last_state' with phi evaluated at the state passed to that call; after update_constraint_values it is 'constraints' with phi at the state passed there; one value per constraint, without bias, also for disabled constraints.", "quantifier": "every history of filter_control, update_constraint_values and reset calls", "why_tests_cant": "the label depends on the whole call history", "anchors": ["run_time_assurance/rta/base.py:ConstraintBasedRTA.generate_info", "run_time_assurance/rta/base.py:ConstraintBasedRTA.update_constraint_values", "run_time_assurance/rta/base.py:ConstraintBasedRTA._update_constraint_values"]}
{"id": "C09", "title": "Disabled constraints have no influence", "statement": "A constraint with enabled = False influences neither the switching decision (simplex), nor the set of controls admitted by the optimisation (explicit and implicit ASIF, direct constraints, discrete ASIF): decisions and admitted controls are those of the module without that constraint.", "quantifier": "every constraint set, every subset of disabled constraints, every state and control", "why_tests_cant": "quantifies over all constraint functions, including ones whose value would be violating everywhere", "anchors": ["run_time_assurance/rta/simplex.py:SimplexModule._constraint_violation", "run_time_assurance/rta/asif.py:ExplicitASIFModule._generate_barrier_constraint_mats", "run_time_assurance/rta/asif.py:ASIFModule._update_ineq_mats", "run_time_assurance/rta/asif.py:ImplicitASIFModule._generate_ineq_constraint_mats", "run_time_assurance/rta/asif.py:DiscreteASIFModule._filter_control"]}
{"id": "C10", "title": "reset() makes the module behave as newly constructed", "statement": "After reset(), a module responds to every future sequence of calls exactly as a newly constructed module with the same constraints and controller.", "quantifier": "every prior history followed by reset and every future call sequence", "why_tests_cant": "requires comparing two modules over all pasts and all futures", "anchors": ["run_time_assurance/rta/base.py:RTAModule.reset", "run_time_assurance/rta/simplex.py:SimplexModule.reset", "run_time_assurance/rta/asif.py:ImplicitASIFModule.reset", "run_time_assurance/rta/base.py:CascadedRTA"]}
{"id": "C11", "title": "Failures do not poison later calls", "statement": "If a filter_control call of an optimisation-based module raises (solver failure, bad input), the next call returns the same control as if the failing call had never happened.", "quantifier": "every history containing failing calls", "why_tests_cant": "needs every failure point and every later call", "anchors": ["run_time_assurance/rta/asif.py:ASIFModule._filter_control", "run_time_assurance/rta/asif.py:ASIFModule._optimize"]}
{"id": "C12", "title": "ASIF output is independent of history", "statement": "The control returned by an explicit ASIF module, and its intervening flag, depend only on the current state, desired control, constraint params/flags and bounds, not on any earlier call.", "quantifier": "every pair of call histories ending in the same call", "why_tests_cant": "history independence is a hyperproperty over pairs of executions", "anchors": ["run_time_assurance/rta/asif.py:ASIFModule._filter_control", "run_time_assurance/rta/asif.py:ExplicitASIFModule._generate_barrier_constraint_mats"]}
{"id": "C13", "title": "Explicit simplex decision rule", "statement": "When not latched, the explicit simplex module returns the (clipped) desired control and reports not intervening exactly when every enabled constraint, including its bias, is >= 0 at the state predicted for the desired control; otherwise it returns the clipped backup control and reports intervening.", "quantifier": "every state, control, constraint set, prediction function and backup controller", "why_tests_cant": "all constraint functions and all predictions", "anchors": ["run_time_assurance/rta/simplex.py:SimplexModule._filter_control", "run_time_assurance/rta/simplex.py:ExplicitSimplexModule._monitor", "run_time_assurance/rta/simplex.py:SimplexModule._constraint_violation"]}
{"id": "C14", "title": "Implicit simplex decision rule", "statement": "When not latched, the implicit simplex module accepts the desired control exactly when every enabled constraint is >= 0 at every one of the floor(backup_window/step_size)+1 states obtained by one step of the desired control followed by floor(backup_window/step_size) steps of the clipped backup control (with the controller's internal state evolving along the trajectory).", "quantifier": "every backup window, step size, stateful backup controller, prediction function and constraint set", "why_tests_cant": "trajectory length is unbounded and controller may be stateful", "anchors": ["run_time_assurance/rta/simplex.py:ImplicitSimplexModule.integrate", "run_time_assurance/rta/simplex.py:ImplicitSimplexModule._monitor"]}
{"id": "C15", "title": "Accepted controls lead to safe predicted states", "statement": "If a simplex module reports not intervening after a call, the state predicted for the control it actually returned satisfies all enabled constraints.", "quantifier": "every state and desired control, including out-of-bounds desired controls", "why_tests_cant": "the monitored control and the returned control may differ for inputs outside the bounds", "anchors": ["run_time_assurance/rta/simplex.py:ExplicitSimplexModule._monitor", "run_time_assurance/rta/base.py:RTAModule.filter_control"]}
{"id": "C16", "title": "Latching keeps the backup controller engaged for latch_time", "statement": "Once a simplex module starts intervening it returns the backup control, without consulting the monitor, on every following call until the sum of the step sizes of those latched calls reaches latch_time; the first call after that is decided by the monitor. With latch_time <= 0 every call is decided by the monitor.", "quantifier": "every sequence of calls with arbitrary (varying) step sizes", "why_tests_cant": "depends on accumulated time over an unbounded call sequence", "anchors": ["run_time_assurance/rta/simplex.py:SimplexModule._filter_control"]}
{"id": "C17", "title": "Monitoring does not disturb the backup controller", "statement": "Evaluating a desired control does not change the backup controller's internal state; over any history its state is the result of applying the controller exactly once per call on which backup control was returned, starting from the last reset.", "quantifier": "every stateful controller and every call history", "why_tests_cant": "depends on the entire history of accept/intervene decisions", "anchors": ["run_time_assurance/rta/simplex.py:ImplicitSimplexModule.integrate", "run_time_assurance/controller.py:RTABackupController.save", "run_time_assurance/controller.py:RTABackupController.restore", "run_time_assurance/rta/asif.py:ImplicitASIFModule.integrate"]}
{"id": "C18", "title": "Explicit simplex keeps the closed loop safe forever", "statement": "If the backup control keeps the constraint set invariant, then for any sequence of in-bounds desired controls the closed loop (plant = the module's prediction model) starting in the constraint set never leaves it, whatever the latch time.", "quantifier": "every initial safe state, every infinite sequence of desired controls, every latch time", "why_tests_cant": "unbounded horizon and adversarial inputs", "anchors": ["run_time_assurance/rta/simplex.py:ExplicitSimplexModule", "run_time_assurance/rta/simplex.py:SimplexModule._filter_control"]}
{"id": "C19", "title": "Implicit simplex keeps the closed loop safe forever", "statement": "If every state whose backup trajectory is safe over the backup window has a backup trajectory that is safe forever, then for any sequence of in-bounds desired controls, starting from a state with a safe backup trajectory, the closed loop satisfies all enabled constraints at every step.", "quantifier": "every initial state with safe backup trajectory, every sequence of desired controls, every stateful controller", "why_tests_cant": "unbounded horizon and adversarial inputs", "anchors": ["run_time_assurance/rta/simplex.py:ImplicitSimplexModule", "run_time_assurance/rta/simplex.py:SimplexModule._filter_control"]}
{"id": "C20", "title": "Undefined constraint values are treated as unsafe", "statement": "If an enabled constraint evaluates to NaN at a predicted state the simplex module does not accept the desired control.", "quantifier": "every constraint returning an undefined value", "why_tests_cant": "NaN arises only at singular states that tests do not hit", "anchors": ["run_time_assurance/rta/simplex.py:SimplexModule._constraint_violation"]}
{"id": "C21", "title": "Backup controller state contract", "statement": "reset puts the controller state back to its initial value; restore after save returns to the saved state whatever happened in between; generate_control stores exactly the state returned by the control law and generate_control_with_controller_state changes nothing; a control law not returning a pair raises ValueError and an unsupported state type raises TypeError.", "quantifier": "every control law, every controller state, every sequence of operations", "why_tests_cant": "all sequences of generate/save/restore/reset", "anchors": ["run_time_assurance/controller.py:RTABackupController"]}
{"id": "C22", "title": "Actuation inequality rows are exactly the bounds", "statement": "The actuation inequality matrices handed to the QP are satisfied by a control (with any slack values) exactly when the control is within its bounds in every component.", "quantifier": "every control dimension, bound type and slack count", "why_tests_cant": "all dimensions and real values", "anchors": ["run_time_assurance/rta/asif.py:ASIFModule._generate_actuation_constraint_mats", "run_time_assurance/rta/asif.py:get_lower_bound_ineq_constraint_mats"]}
{"id": "C23", "title": "Explicit ASIF admits exactly the barrier-condition controls", "statement": "A control (with slack values) satisfies the inequality generated for an enabled constraint exactly when grad h . (f(x) + g(x) u) + a(h(x)) >= slack, where a is alpha when h >= 0 and alpha_negative + bias_negative when h < 0; constraints without slack have slack 0.", "quantifier": "every constraint, dynamics, state, control and slack vector", "why_tests_cant": "all constraint functions and dimensions", "anchors": ["run_time_assurance/rta/asif.py:ExplicitASIFModule._generate_barrier_constraint_mats"]}
{"id": "C24", "title": "ASIF returns the unique closest admissible control", "statement": "When the QP solver succeeds and no slack variables are used, the control returned by ASIF satisfies every enabled barrier inequality, every direct inequality and the bounds, and every other such control is strictly farther (Euclidean) from the desired control.", "quantifier": "every constraint set, state and desired control", "why_tests_cant": "optimality is a statement about all competing controls", "anchors": ["run_time_assurance/rta/asif.py:ASIFModule._filter_control", "run_time_assurance/rta/asif.py:ASIFModule._optimize"]}
{"id": "C25", "title": "ASIF does not interfere when the desired control is admissible", "statement": "If the desired control satisfies all inequalities and the bounds, ASIF returns it unchanged and reports not intervening.", "quantifier": "every state and admissible desired control", "why_tests_cant": "all admissible controls", "anchors": ["run_time_assurance/rta/asif.py:ASIFModule._filter_control"]}
{"id": "C26", "title": "Slack variables relax, never block", "statement": "If every enabled barrier constraint has a slack variable, no direct constraint is active and the bounds are consistent, the QP always has a solution. The returned control minimises |u-u_des|^2 + sum_i w_i d_i^2 over controls and slacks d with barrier_i >= d_i, with w_i equal to slack_priority_scale_i.", "quantifier": "every state, desired control and slack configuration", "why_tests_cant": "feasibility for all states; optimality over all competitors", "anchors": ["run_time_assurance/rta/asif.py:BaseOptimizationModule.__init__", "run_time_assurance/rta/asif.py:ASIFModule._optimize", "run_time_assurance/rta/asif.py:ExplicitASIFModule._generate_barrier_constraint_mats"]}
{"id": "C27", "title": "Infeasible problems follow the configured policy", "statement": "When the inequalities admit no control, ASIF raises SolverError if solver_exception is set (no control is returned), and otherwise returns the desired control clipped to the bounds; other solver errors are always re-raised.", "quantifier": "every infeasible problem", "why_tests_cant": "all infeasible inequality systems", "anchors": ["run_time_assurance/rta/asif.py:ASIFModule._optimize"]}
{"id": "C28", "title": "The intervening flag is truthful", "statement": "After a successful call intervening is True exactly when the returned control differs from the desired one (for ASIF: by more than epsilon in Euclidean norm; for simplex: when backup control was returned; for cascades: when some stage intervened).", "quantifier": "every module type, state, control and history", "why_tests_cant": "must hold in infeasible, clipped, disabled and latched cases alike", "anchors": ["run_time_assurance/rta/asif.py:BaseOptimizationModule.monitor", "run_time_assurance/rta/simplex.py:SimplexModule._filter_control", "run_time_assurance/rta/base.py:CascadedRTA.compute_filtered_control", "run_time_assurance/rta/base.py:RTAModule.filter_control"]}
{"id": "C29", "title": "constraints_causing_intervention names the active constraints", "statement": "After each call constraints_causing_intervention lists, without duplicates, exactly the names of the constraints whose inequality is active in the QP solved in that call.", "quantifier": "every constraint set, bound configuration, subsampling configuration and history", "why_tests_cant": "the index-to-name mapping must be right for all dimensions and subsampling settings", "anchors": ["run_time_assurance/rta/asif.py:ASIFModule._optimize", "run_time_assurance/rta/asif.py:ASIFModule.__init__", "run_time_assurance/rta/asif.py:ImplicitASIFModule._generate_barrier_constraint_mats"]}
{"id": "C30", "title": "Violated constraints are driven back", "statement": "When h(x) < 0 for an enabled constraint with default alpha_negative, an odd class-K polynomial alpha and negative bias_negative, every control admitted by explicit ASIF (without slack) makes h increase at a rate of at least |bias_negative| > 0.", "quantifier": "every violating state and admitted control", "why_tests_cant": "all violating states", "anchors": ["run_time_assurance/rta/asif.py:ExplicitASIFModule._generate_barrier_constraint_mats", "run_time_assurance/constraint.py:ConstraintModule.alpha_negative"]}
{"id": "C31", "title": "Continuous-time forward invariance under explicit ASIF", "statement": "Along any differentiable trajectory of the control-affine system whose control always satisfies the explicit ASIF inequality of a constraint, the constraint is >= 0 at all times if it is >= 0 initially.", "quantifier": "every trajectory, time and constraint with admissible alpha functions", "why_tests_cant": "continuous time and all trajectories", "anchors": ["run_time_assurance/rta/asif.py:ExplicitASIFModule._generate_barrier_constraint_mats", "run_time_assurance/constraint.py:ConstraintModule"]}
{"id": "C32", "title": "Finite-time recovery under explicit ASIF", "statement": "Along any such trajectory starting with h(x(0)) < 0, h becomes >= 0 no later than time |h(x(0))| / |bias_negative| and stays so.", "quantifier": "every trajectory and initial violation", "why_tests_cant": "continuous time and all trajectories", "anchors": ["run_time_assurance/rta/asif.py:ExplicitASIFModule._generate_barrier_constraint_mats", "run_time_assurance/constraint.py:ConstraintModule.alpha_negative"]}
{"id": "C33", "title": "Polynomial strengtheners are class-K", "statement": "The polynomial strengthener evaluates to sum coefs[i] x^i; with non-negative odd coefficients (at least one positive) and zero even coefficients it is zero at zero, odd and strictly increasing on the whole real line, as ASIF requires; the default is the identity.", "quantifier": "every coefficient list and every real argument", "why_tests_cant": "all coefficient lists and reals", "anchors": ["run_time_assurance/constraint.py:PolynomialConstraintStrengthener"]}
{"id": "C34", "title": "State-limit constraints mean what they say", "statement": "The magnitude limit constraint is >= 0 exactly when |x_i| <= limit (limit >= 0), the maximum limit exactly when x_i <= limit, the minimum limit exactly when x_i >= limit; bias shifts only the enforced value, not the logged one.", "quantifier": "every state, index and limit", "why_tests_cant": "all real states", "anchors": ["run_time_assurance/constraint.py:ConstraintMagnitudeStateLimit", "run_time_assurance/constraint.py:ConstraintMaxStateLimit", "run_time_assurance/constraint.py:ConstraintMinStateLimit", "run_time_assurance/constraint.py:ConstraintModule.compute", "run_time_assurance/constraint.py:ConstraintModule._phi"]}
{"id": "C35", "title": "Higher-order CBF protects the original constraint", "statement": "For relative degree r >= 2 the HOCBF constraint is the r-1 fold strengthened Lie-derivative chain psi_i = grad psi_{i-1}.f + alpha(psi_{i-1}); if it stays >= 0 along a trajectory and all chain elements are >= 0 initially, the original constraint stays >= 0 forever, for every r. Construction accepts every relative degree >= 1.", "quantifier": "every relative degree, constraint, dynamics and trajectory", "why_tests_cant": "unbounded recursion depth and continuous time", "anchors": ["run_time_assurance/constraint.py:HOCBFConstraint", "run_time_assurance/constraint.py:HOCBFConstraintHelper"]}
{"id": "C36", "title": "Implicit ASIF rows encode the barrier condition along the backup trajectory", "statement": "The inequality generated for an enabled constraint at trajectory point k is satisfied by a control u exactly when grad h(x_k).(S_k (f(x_0)+g(x_0)u)) + alpha(h(x_k)) >= 0, where x_k is the state after k clipped backup steps and k ranges over 0..floor(backup_window/step_size); point 0 gives the explicit barrier condition.", "quantifier": "every window, step size, constraint, controller, state and control", "why_tests_cant": "unbounded number of trajectory points", "anchors": ["run_time_assurance/rta/asif.py:ImplicitASIFModule.integrate", "run_time_assurance/rta/asif.py:ImplicitASIFModule.invariance_constraints", "run_time_assurance/rta/asif.py:ImplicitASIFModule._generate_ineq_constraint_mats"]}
{"id": "C37", "title": "Subsampling keeps the documented points", "statement": "With default settings every trajectory point yields an inequality; with num_check_all = m and skip_length = s exactly the first m points and then every s-th point are kept; subsample_constraints_num_least = N keeps N points none of which has a larger constraint value than a dropped one; keep_first / keep_last always retain the first / last point; slack variables are supported.", "quantifier": "every configuration, trajectory length and constraint values", "why_tests_cant": "index arithmetic must be right for all lengths and configurations", "anchors": ["run_time_assurance/rta/asif.py:ImplicitASIFModule.subsample_constraints", "run_time_assurance/constraint.py:SubsampleConfigValidator"]}
{"id": "C38", "title": "Backup trajectory sensitivity is the derivative of the predicted state", "statement": "For linear dynamics, a linear unsaturated stateless backup law and Euler integration the sensitivity used at point k equals the derivative of the k-step predicted state with respect to the initial state.", "quantifier": "every linear system, step size and number of steps", "why_tests_cant": "unbounded number of steps and all matrices", "anchors": ["run_time_assurance/rta/asif.py:ImplicitASIFModule.integrate", "run_time_assurance/rta/asif.py:ImplicitASIFModule._backup_state_transition"]}
{"id": "C39", "title": "Discrete CBF condition and closed-loop invariance", "statement": "The discrete constraint value is >= 0 exactly when h(x_next) >= h(x) - dt*alpha(h(x)) + dt*slack; if dt*alpha(y) <= y for y >= 0 and the solver satisfies the inequalities in each call, the closed loop never leaves the set h >= 0 for any desired-control sequence.", "quantifier": "every state, step size, constraint and infinite sequence of desired controls", "why_tests_cant": "unbounded horizon and adversarial inputs", "anchors": ["run_time_assurance/constraint.py:DiscreteCBFConstraint.cbf_fn", "run_time_assurance/rta/asif.py:DiscreteASIFModule._filter_control"]}
{"id": "C40", "title": "Discrete ASIF minimises the weighted distance", "statement": "The discrete ASIF objective differs from half the squared weighted distance to the desired control by a constant, so with a successful global solve the returned control is admissible and closest among admissible controls; only enabled constraints are passed to the solver, each with its own params.", "quantifier": "every state, desired control, constraint set", "why_tests_cant": "optimality over all competitors", "anchors": ["run_time_assurance/rta/asif.py:DiscreteASIFModule.obj", "run_time_assurance/rta/asif.py:DiscreteASIFModule._filter_control"]}
{"id": "C41", "title": "Cascades compose stages in order", "statement": "A cascaded module's result is obtained by feeding the desired control through the stages in list order, each seeing the same state and step size; the cascade reports intervening exactly when some stage does; an error in a stage aborts the call; with no stages it is the (clipped) identity.", "quantifier": "every list of stages, histories and inputs", "why_tests_cant": "unbounded number of heterogeneous stateful stages", "anchors": ["run_time_assurance/rta/base.py:CascadedRTA.compute_filtered_control"]}
{"id": "C42", "title": "Delta-v limiter takes over when the budget would be exceeded", "statement": "When the predicted delta-v use exceeds the limit the switching delta-v limiter returns its backup control from that call on, in bounds, until reset, after which it behaves as new.", "quantifier": "every call history and state", "why_tests_cant": "latched behaviour over unbounded histories", "anchors": ["run_time_assurance/zoo/cwh/inspection_1v1.py:SwitchingDeltaVLimitRTA"]}
{"id": "C43", "title": "Closed-form CWH discretisation is the exact flow", "statement": "The closed-form discrete CWH matrices reproduce exactly the solution of the linear CWH differential equation under constant control over a step of any length: they are the identity at 0, satisfy the matrix ODE and compose over consecutive steps.", "quantifier": "every time step, mean motion, mass, state and control", "why_tests_cant": "all reals; trigonometric identities", "anchors": ["run_time_assurance/zoo/cwh/inspection_1v1.py:DiscreteInspection1v1RTA.discrete_a_mat", "run_time_assurance/zoo/cwh/inspection_1v1.py:DiscreteInspection1v1RTA.discrete_b_mat", "run_time_assurance/zoo/cwh/utils.py:generate_cwh_matrices"]}
{"id": "C44", "title": "Passive-safety constraint checks the true coasting trajectory", "statement": "The passively-safe-maneuver constraint is >= 0 exactly when, coasting without thrust, the spacecraft is at least the collision distance away at every sampled time dt, 2dt, ..., T; the coasting positions are those of the exact CWH flow.", "quantifier": "every state, horizon and step", "why_tests_cant": "all states; unbounded number of sample times", "anchors": ["run_time_assurance/zoo/cwh/inspection_1v1.py:ConstraintPassivelySafeManeuver"]}
{"id": "C45", "title": "Braking-distance constraints protect the keep-out / keep-in distance", "statement": "If the chief-collision (deputy-collision, max-distance) constraint stays >= 0 along a differentiable trajectory that starts outside the keep-out sphere (inside the keep-in sphere), the trajectory never enters (leaves) it.", "quantifier": "every differentiable trajectory and time", "why_tests_cant": "continuous time and all trajectories", "anchors": ["run_time_assurance/zoo/cwh/inspection_1v1.py:ConstraintCWHChiefCollision", "run_time_assurance/zoo/cwh/inspection_1v1.py:ConstraintCWHMaxDistance", "run_time_assurance/zoo/cwh/inspection_3d.py:ConstraintCWHDeputyCollision"]}
{"id": "C46", "title": "The assumed braking acceleration is always available", "statement": "For every state inside the maximum distance and velocity limits and every direction there is an in-bounds thrust producing acceleration of at least a_max in that direction.", "quantifier": "every state within limits and every unit direction", "why_tests_cant": "all states and directions", "anchors": ["run_time_assurance/zoo/cwh/inspection_1v1.py:Inspection1v1RTA.__init__"]}
{"id": "C47", "title": "Conic keep-out constraint has the sign of the angular margin", "statement": "The distance-like position term of the sun keep-out constraint is >= 0 exactly when the angle between the line of sight and the sun axis is at least half the field of view.", "quantifier": "every relative position and sun angle away from the singular axis", "why_tests_cant": "all positions; inverse trigonometric functions", "anchors": ["run_time_assurance/zoo/cwh/inspection_1v1.py:ConstraintCWHConicKeepOutZone"]}
{"id": "C48", "title": "Docking speed constraint bounds the true speed", "statement": "When the docking relative-velocity constraint is >= 0, the true speed is at most v0 + v1*(distance - v0_distance) up to v1*sqrt(1e-5), despite the smoothing inside the norms; the constraint is defined at every state.", "quantifier": "every state", "why_tests_cant": "all states including the origin", "anchors": ["run_time_assurance/zoo/cwh/docking_2d.py:ConstraintDocking2dRelativeVelocity", "run_time_assurance/zoo/cwh/docking_3d.py:ConstraintCWH3dRelativeVelocity"]}
{"id": "C49", "title": "Sun motion agrees between continuous and discrete models", "statement": "The sun angle predicted by the discrete inspection module over a step equals the one of the continuous inspection module's dynamics.", "quantifier": "every state and step size", "why_tests_cant": "all states and steps", "anchors": ["run_time_assurance/zoo/cwh/inspection_1v1.py:DiscreteInspection1v1RTA.next_state_differentiable", "run_time_assurance/zoo/cwh/inspection_1v1.py:Inspection1v1RTA.state_transition_system"]}
{"id": "C50", "title": "Multi-agent filter treats every agent as the deputy of interest", "statement": "In the combined inspection module the control block of agent i is the deputy filter applied to the state in which agent i comes first and the others follow in order; every other agent's state appears exactly once; the combined module reports intervening when some agent was modified.", "quantifier": "every number of agents and every state", "why_tests_cant": "all agent counts", "anchors": ["run_time_assurance/zoo/cwh/inspection_3d.py:CombinedInspectionRTA"]}
{"id": "C51", "title": "Short input states are completed without lasting effect", "statement": "A state without sun angle is completed so that the module sees the full-length state, and doing so does not change how later full-length states are treated.", "quantifier": "every sequence of inputs of different lengths", "why_tests_cant": "mode change depends on history", "anchors": ["run_time_assurance/zoo/cwh/inspection_1v1.py:Inspection1v1RTA._get_state", "run_time_assurance/zoo/cwh/inspection_3d.py:InspectionRTA._get_state"]}
{"id": "C52", "title": "1-D integrator: explicit ASIF is always solvable inside the safe set", "statement": "For the 1-D integrator problem the explicit ASIF QP has a solution at every state in the safe set h >= 0 under the default bounds, so the safety filter never falls back to the unfiltered control there.", "quantifier": "every safe state and desired control", "why_tests_cant": "all real states", "anchors": ["run_time_assurance/zoo/integrators/integrator_1d.py:Integrator1dDockingExplicitOptimizationRTA", "run_time_assurance/zoo/integrators/integrator_1d.py:ConstraintIntegrator1dDockingCollisionExplicit"]}
{"id": "C53", "title": "1-D integrator: switching filters avoid collision", "statement": "For the 1-D integrator with the default bounds the explicit and implicit switching filters never let the position exceed 0, for any sequence of desired controls, starting in their safe set.", "quantifier": "every initial safe state, step size and desired-control sequence", "why_tests_cant": "unbounded horizon and adversarial inputs", "anchors": ["run_time_assurance/zoo/integrators/integrator_1d.py:Integrator1dDockingExplicitSwitchingRTA", "run_time_assurance/zoo/integrators/integrator_1d.py:Integrator1dDockingImplicitSwitchingRTA"]}
{"id": "C54", "title": "Episode simulation records a consistent trajectory", "statement": "simulate_episode returns state, control and intervention records of equal length steps+1, where consecutive states are related by the plant step under the recorded filtered control, simulated time advances by the step size, and the episode ends exactly at the first step where the done condition holds.", "quantifier": "every environment, RTA module and episode length", "why_tests_cant": "unbounded episode length", "anchors": ["run_time_assurance/utils/sample_testing.py:DataTrackingSampleTestingModule.simulate_episode"]}
{"id": "C55", "title": "Initial states are drawn until safe, within a bounded number of attempts", "statement": "With initial-state checking the episode starts from a state for which all phi and h values are >= 0, and gives up with ValueError after a fixed number of unsafe samples.", "quantifier": "every sampling sequence", "why_tests_cant": "all random sequences", "anchors": ["run_time_assurance/utils/sample_testing.py:DataTrackingSampleTestingModule.simulate_episode", "run_time_assurance/utils/sample_testing.py:DataTrackingSampleTestingModule.check_if_safe_state"]}
{"id": "C56", "title": "Safety-assurance sampling runs every test case once", "statement": "run_sample_test simulates every test case index exactly once, flags exactly the cases in which some constraint is violated at some step, and never raises for modules with constraints.", "quantifier": "every number of test cases and every module", "why_tests_cant": "all sampling sizes and modules", "anchors": ["run_time_assurance/utils/sample_testing.py:SafetyAssuranceSampleTestingModule"]}
{"id": "C57", "title": "Braking keeps out of the collision spheres", "statement": "From any state in which the chief (or deputy) collision constraint is non-negative, a spacecraft whose acceleration has an outward component along the line of sight of at least the assumed a_max (2 a_max in relative motion for two deputies) stays outside the keep-out sphere for all time.", "quantifier": "every initial state with constraint value >= 0, every a_max > 0 and all times", "why_tests_cant": "continuum of states and unbounded time", "anchors": ["run_time_assurance/zoo/cwh/inspection_1v1.py:ConstraintCWHChiefCollision", "run_time_assurance/zoo/cwh/inspection_3d.py:ConstraintCWHDeputyCollision"]}
{"id": "C58", "title": "The sun keep-out constraint protects the cone although the sun moves", "statement": "Along every trajectory on which the conic keep-out constraint stays non-negative the spacecraft that starts outside the cone around the sun direction stays outside it, with the sun rotating at the configured angular velocity.", "quantifier": "every smooth trajectory, cone angle and sun velocity", "why_tests_cant": "continuum of trajectories and times", "anchors": ["run_time_assurance/zoo/cwh/inspection_1v1.py:ConstraintCWHConicKeepOutZone", "run_time_assurance/zoo/cwh/inspection_1v1.py:Inspection1v1RTA.get_sun_vector"]}
{"id": "C59", "title": "Combined modules constructed separately are independent", "statement": "Using one combined inspection module never changes what another, separately constructed one returns.", "quantifier": "every two combined modules and every call sequence", "why_tests_cant": "depends on hidden sharing between objects and on call order", "anchors": ["run_time_assurance/zoo/cwh/inspection_3d.py:CombinedInspectionRTA.__init__"]}
{"id": "C60", "title": "The 1-D explicit optimisation filter never collides in closed loop", "statement": "A vehicle that at every time applies the control returned by the explicit 1-D docking optimisation filter, started in a state the docking constraint calls safe, never has a position beyond the docking point.", "quantifier": "every safe initial state, every desired control signal, all times", "why_tests_cant": "quantifies over a continuum of times, starting states and control signals", "anchors": ["run_time_assurance/zoo/integrators/integrator_1d.py:Integrator1dDockingExplicitOptimizationRTA", "run_time_assurance/zoo/integrators/integrator_1d.py:ConstraintIntegrator1dDockingCollisionExplicit"]}
{"id": "C61", "title": "Simulated episodes are independent of each other", "statement": "The record of an episode simulated by a testing module depends only on its initial state and the module as constructed, not on the episodes simulated before with the same module.", "quantifier": "every module and every sequence of earlier episodes", "why_tests_cant": "quantifies over all earlier episodes", "anchors": ["run_time_assurance/utils/sample_testing.py:DataTrackingSampleTestingModule.simulate_episode"]}
{"id": "C62", "title": "Parametric sampling follows the declared distributions", "statement": "A state drawn by the parametric testing module has state_dim components, each drawn from the distribution and with the parameters declared for it; an undeclared kind of distribution raises ValueError.", "quantifier": "every declaration, dimension and random source", "why_tests_cant": "all dimensions, declarations and random streams", "anchors": ["run_time_assurance/utils/sample_testing.py:ParametricRandomSampleTestingModule._get_initial_state"]}
{"id": "C63", "title": "Docking optimisation filters have a solution in safe states", "statement": "The 2-D and 3-D docking explicit optimisation modules return, for every safe state in which the thrust bound suffices to brake, a control within the bounds that satisfies all constraints and is the unique closest such control to the desired one. With the default parameters every safe state within 5 km radially (2-D) or 2 km (3-D) qualifies.", "quantifier": "every safe state with enough thrust, every desired control, every module history", "why_tests_cant": "continuum of states and controls; feasibility of an optimisation problem at every state", "anchors": ["run_time_assurance/zoo/cwh/docking_2d.py:Docking2dExplicitOptimizationRTA", "run_time_assurance/zoo/cwh/docking_3d.py:Docking3dExplicitOptimizationRTA", "run_time_assurance/zoo/cwh/docking_2d.py:ConstraintDocking2dRelativeVelocity"]}
{"id": "C64", "title": "Docking optimisation filters keep the documented speed limits along trajectories", "statement": "A vehicle with the module's dynamics that applies the control returned by a docking explicit optimisation module at every instant, starting strictly inside the constraints, satisfies the documented limit |v| <= v0 + v1 (|r| - v0_distance) and the limits on the velocity components at every later time, as long as the thrust sufficed.", "quantifier": "every continuous-time trajectory, every desired control, every module history", "why_tests_cant": "continuous time and all trajectories", "anchors": ["run_time_assurance/zoo/cwh/docking_2d.py:Docking2dExplicitOptimizationRTA", "run_time_assurance/zoo/cwh/docking_3d.py:Docking3dExplicitOptimizationRTA", "run_time_assurance/utils/general.py:norm_with_delta"]}
{"id": "C65", "title": "Docking backup controllers bring the velocity to zero", "statement": "A vehicle with the module's dynamics under the docking backup controller comes to rest: its velocity tends to zero from every state.", "quantifier": "every initial state and every gain matrix", "why_tests_cant": "asymptotic behaviour over an unbounded horizon from every state", "anchors": ["run_time_assurance/zoo/cwh/docking_2d.py:Docking2dStopLQRBackupController", "run_time_assurance/zoo/cwh/docking_3d.py:Docking3dStopLQRBackupController"]}
{"id": "C66", "title": "Deputy passive-safety constraint checks the true coasting trajectories", "statement": "The passive-safety constraint between two deputies is nonnegative exactly when the two deputies, both coasting without thrust from the state, are at least the collision radius apart at every sampling time dt, 2dt, .., steps*dt; its trajectory report gives the margin at the times 0, dt, .., steps*dt.", "quantifier": "every state, mean motion, radius, step size and number of steps", "why_tests_cant": "compares closed-form formulas with solutions of the equations of motion for all states and times", "anchors": ["run_time_assurance/zoo/cwh/inspection_3d.py:ConstraintPSMDeputy"]}
{"id": "C67", "title": "Implicit optimisation filters keep constraints and their backup trajectories in continuous time", "statement": "If a control-affine system is driven at every time by the control an implicit ASIF module returns for the current state, and the module's problem is solvable, then (a) a constraint that is looked at in the current state and satisfied at the start stays satisfied, and (b) if a point of the backup trajectory where the constraint is least is looked at and the sensitivities are exact, then a backup trajectory that satisfies the constraint at all its points at the start does so for ever after - even if only one least point is looked at at each time.", "quantifier": "every implicit module after any history, every dynamics, constraint with exact gradient and sign-preserving strengthener, every desired control signal, every trajectory and time", "why_tests_cant": "a statement about all continuous-time trajectories, where the point looked at may switch infinitely often", "anchors": ["run_time_assurance/rta/asif.py:ImplicitASIFModule", "run_time_assurance/rta/asif.py:ImplicitASIFModule._generate_barrier_constraint_mats"]}
{"id": "C68", "title": "The 1-D implicit optimisation filter prevents collision", "statement": "From every state whose predicted braking trajectory stays on the near side of the dock and comes to rest within the window, the implicit optimisation filter of the 1-D integrator returns an admissible control, and a vehicle that applies the returned controls never passes the dock.", "quantifier": "every such state, mass, step, window, desired control and history of calls", "why_tests_cant": "quantifies over all states and infinitely long runs", "anchors": ["run_time_assurance/zoo/integrators/integrator_1d.py:Integrator1dDockingImplicitOptimizationRTA"]}
{"id": "C69", "title": "Braking keeps the spacecraft within the maximum distance", "statement": "From a state within the maximum distance where the maximum distance constraint of the inspection modules is nonnegative, a spacecraft that accelerates towards the chief with the acceleration the constraint was built for (net of the orbital terms) does not exceed the maximum distance.", "quantifier": "every start state, maximum distance, acceleration, motion and time", "why_tests_cant": "a statement about all continuous motions; sampled motions do not cover the sideways directions", "anchors": ["run_time_assurance/zoo/cwh/inspection_1v1.py:ConstraintCWHMaxDistance"]}
{"id": "C70", "title": "The 1v1 inspection filter keeps every documented limit along trajectories", "statement": "If a deputy with the inspection dynamics is driven at every time by the thrust the explicit 1v1 inspection module returns for the current state, starts strictly inside all constraints, never crosses the line through chief and sun, and the module's program is solvable (or the module is configured to raise when it is not), then up to any time it stays outside the collision radius and within r_max, keeps the sun out of the field of view, keeps the velocity and speed limits, and could at any moment stop thrusting and stay outside the collision radius at every whole second for 100 seconds.", "quantifier": "every configuration with positive radius, a_max and field of view below 180 degrees, every desired control signal, every trajectory, time and history of the module", "why_tests_cant": "a statement about all continuous-time trajectories under eight simultaneous constraints, some of which are only differentiable inside the safe set", "anchors": ["run_time_assurance/zoo/cwh/inspection_1v1.py:Inspection1v1RTA", "run_time_assurance/zoo/cwh/inspection_1v1.py:Inspection1v1RTA._setup_constraints"]}
{"id": "C71", "title": "A vehicle that holds still safely is left alone", "statement": "If the desired control is within the bounds and holds the state still and all enabled constraints are satisfied, an explicit ASIF module returns it unchanged and reports no intervention; if an enabled constraint is violated, a solvable module never returns a control that holds the state still.", "quantifier": "every explicit module after any history, every dynamics, state and constraint with a strengthener that preserves signs", "why_tests_cant": "quantifies over all dynamics, constraints and states", "anchors": ["run_time_assurance/rta/asif.py:ExplicitASIFModule", "run_time_assurance/rta/asif.py:ASIFModule._optimize"]}
{"id": "C72", "title": "The multi-deputy inspection filter keeps every documented limit along trajectories", "statement": "Filtering the first deputy's control at every instant with the default constraints of the inspection module keeps, while the other deputies coast, every constraint of the module positive for all time: chief and deputy collision, speed limits, sun avoidance between chief and deputies, maximum distance, and passive safety, where passive safety between deputies means that for the time horizon the two coasting deputies stay apart by their collision distance (twice the deputy radius).", "quantifier": "every configuration with positive radii and braking acceleration, every number of deputies, every motion and every horizon of time", "why_tests_cant": "continuous time, all states, all fleets", "anchors": ["run_time_assurance/zoo/cwh/inspection_3d.py:InspectionRTA", "run_time_assurance/zoo/cwh/inspection_3d.py:ConstraintCWHDeputyCollision", "run_time_assurance/zoo/cwh/inspection_3d.py:ConstraintPSMDeputy"]}
{"id": "C73", "title": "The sun constraint between deputies varies continuously", "statement": "The value of the sun constraint between two deputies varies continuously (differentiably) with the state, so that a safe state has a safe neighbourhood and the gradient used by the filter describes the constraint.", "quantifier": "every state in which the deputies do not touch", "why_tests_cant": "all states; the jump lies on a surface random samples miss", "anchors": ["run_time_assurance/zoo/cwh/inspection_3d.py:InspectionRTA.get_sign", "run_time_assurance/zoo/cwh/inspection_3d.py:InspectionRTA._setup_constraints"]}
{"id": "C74", "title": "The combined filter keeps every deputy's constraints along trajectories", "statement": "If every deputy's thrust is at every instant the one the combined inspection module returns, then every constraint that the deputy module was given - the deputy's own limits as well as the constraints between pairs of deputies - stays positive for every deputy, although all deputies thrust at the same time.", "quantifier": "every number of deputies, configuration, desired control signal, motion, time and history of the modules", "why_tests_cant": "all continuous-time motions of all fleets; the failure needs two deputies whose simultaneous thrusts add up on the boundary of a pair constraint", "anchors": ["run_time_assurance/zoo/cwh/inspection_3d.py:CombinedInspectionRTA", "run_time_assurance/zoo/cwh/inspection_3d.py:CombinedInspectionRTA.compute_filtered_control", "run_time_assurance/zoo/cwh/inspection_3d.py:CombinedInspectionRTA.get_agent_state"]}
{"id": "C75", "title": "The high order collision constraint of the inspection filter keeps the deputy clear of the chief", "statement": "With use_hocbf=True the collision constraint bounds the speed of approach by 0.1 d + 0.1 d^3 in the distance d from the collision sphere, and if the thrust is at every instant the one the module returns, the deputy stays outside the sphere, within the maximum distance, the sun stays out of the field of view and every constraint stays positive. The strengthener given to the wrapped constraint has no effect.", "quantifier": "every configuration, motion, desired control signal, time and history of the module", "why_tests_cant": "all continuous-time motions; the constraint is a second derivative of the distance, simulations only sample it", "anchors": ["run_time_assurance/zoo/cwh/inspection_1v1.py:Inspection1v1RTA._setup_constraints", "run_time_assurance/zoo/cwh/inspection_1v1.py:HOCBFExampleChiefCollision", "run_time_assurance/constraint.py:HOCBFConstraint"]}
{"id": "C76", "title": "A strict optimisation filter never returns an unsafe control", "statement": "With solver_exception=True, every control that an explicit or implicit optimisation based module returns is within the bounds and satisfies every condition the module imposes; a vehicle driven by such controls, none of the calls having raised, keeps every constraint for all time. No assumption on solvability is needed.", "quantifier": "every module, history, state, desired control and trajectory", "why_tests_cant": "all states and continuous time; the solver's failure path is data dependent", "anchors": ["run_time_assurance/rta/asif.py:BaseOptimizationModule", "run_time_assurance/rta/asif.py:ASIFModule._optimize", "run_time_assurance/rta/asif.py:ImplicitASIFModule"]}
{"id": "C77", "title": "The implicit docking filters keep the documented speed limits", "statement": "A vehicle that applies at every instant the control an implicit optimisation module of the 2-D or 3-D docking problem returns keeps |v| <= v0 + v1 (|r| - v0_distance) and the limits on the velocity components, if it does initially and either solver_exception=True or some control is always admissible.", "quantifier": "every configuration with v1 <= 1/32, backup controller, window, integrator, motion, desired control and history", "why_tests_cant": "all continuous-time motions and backup controllers", "anchors": ["run_time_assurance/zoo/cwh/docking_2d.py:Docking2dImplicitOptimizationRTA", "run_time_assurance/zoo/cwh/docking_3d.py:Docking3dImplicitOptimizationRTA"]}
{"id": "C78", "title": "State wrappers give access to named state components", "statement": "The properties of the state wrappers read the components of the state vector that the module's dynamics and constraints treat under these names; assigning to a property changes exactly that component; a missing component is an error; a wrapper can be given to a filter as input state.", "quantifier": "every wrapper class, vector, component and value", "why_tests_cant": "all vectors, including those of the wrong length", "anchors": ["run_time_assurance/state.py:RTAStateWrapper", "run_time_assurance/zoo/cwh/docking_2d.py:Docking2dState", "run_time_assurance/zoo/cwh/docking_3d.py:Docking3dState", "run_time_assurance/zoo/cwh/inspection_1v1.py:Inspection3dState", "run_time_assurance/zoo/integrators/integrator_1d.py:Integrator1dDockingState", "run_time_assurance/rta/base.py:ConstraintBasedRTA._get_state"]}
{"id": "C79", "title": "The discrete-time 1v1 inspection module keeps its limits", "statement": "In the loop formed by DiscreteInspection1v1RTA and the motion it predicts, a deputy that satisfies the module's constraints at first satisfies them at every sample: velocity limits per axis, distance dependent speed limit, maximum distance, collision with the chief, sun exclusion and passive safety; it does not collide with the chief between samples; states without sun angle are treated as the continuous-time module treats them.", "quantifier": "every configuration, solver that satisfies what it reports, initial state, sequence of desired controls and of step sizes", "why_tests_cant": "unbounded sequences, all states and step sizes, real arithmetic", "anchors": ["run_time_assurance/zoo/cwh/inspection_1v1.py:DiscreteInspection1v1RTA", "run_time_assurance/rta/asif.py:DiscreteASIFModule", "run_time_assurance/constraint.py:DiscreteCBFConstraint"]}
{"id": "C80", "title": "The inspection cascade keeps the inspection limits", "statement": "A deputy moving with the control InspectionCascadedRTA returns, starting with all constraints of its inspection module positive, does not collide with the chief, stays within r_max, keeps the sun out of view and all constraints positive; the cascade answers whenever its inspection module does; once the budget is used up it coasts.", "quantifier": "every configuration, gains, budget, horizon, history of calls and resets, desired controls and motion", "why_tests_cant": "continuous time, all histories of the switching stage, real arithmetic", "anchors": ["run_time_assurance/zoo/cwh/inspection_1v1.py:InspectionCascadedRTA", "run_time_assurance/zoo/cwh/inspection_1v1.py:SwitchingDeltaVLimitRTA", "run_time_assurance/zoo/cwh/inspection_1v1.py:Inspection1v1RTA", "run_time_assurance/rta/base.py:CascadedRTA"]}
{"id": "C81", "title": "The backup controller of the delta-v limiter has no LQR gains", "statement": "The Riccati equation from which SwitchingDeltaVLimitRTA computes the gains of its backup controller has no symmetric solution, so construction either raises or uses gains that are not the ones of the design; and no gains at all make the error of that design (with the integrals of all six components) decay.", "quantifier": "every mass, mean motion, candidate solution, gain matrix and motion of the error", "why_tests_cant": "non-existence over all matrices; a numerical solver returns something near a singular problem", "anchors": ["run_time_assurance/zoo/cwh/inspection_1v1.py:SwitchingDeltaVLimitRTA.__init__"]}
{"id": "C82", "title": "Docking backup gains are well defined and oppose the motion", "statement": "For every positive mass and every mean motion the Riccati equation from which the docking backup controllers take their gains has exactly one symmetric positive semidefinite solution; the thrust computed from it does negative work in every state with nonzero velocity, at least in proportion to the squared speed, so the speed falls exponentially to within a multiple of the radial distance.", "quantifier": "every positive mass, every mean motion, every state and every motion of the vehicle", "why_tests_cant": "tests evaluate the numerically computed gains for one mass and one mean motion; existence, uniqueness and the sign of a quadratic form over all states and parameters need proof", "anchors": ["run_time_assurance/zoo/cwh/docking_2d.py:Docking2dStopLQRBackupController", "run_time_assurance/zoo/cwh/docking_3d.py:Docking3dStopLQRBackupController"]}
{"id": "C83", "title": "The switching docking filters keep the velocity limits with the gains they compute", "statement": "Take a docking simplex filter (2-D or 3-D, explicit or implicit) whose backup controller uses the gains of its own LQR design, with the default mass and thrust bounds and any low-orbit mean motion. Started inside the documented velocity limits and driven by any sequence of admissible desired controls, it never raises and the limits hold at every step, as long as the limit enforced at the current distance is at most 2.25 m/s; this holds for every prediction that stays close to an Euler step, in particular for the exact motion with steps up to ten seconds, and a bound on the initial distance alone guarantees an explicit number of safe steps. It does not hold from everywhere: far from the chief the module accepts states from which every answer leads out of the limits.", "quantifier": "every mean motion in the given range, every admissible desired control sequence, initial state, switching limits, latch time, step length up to the stated bound and number of steps", "why_tests_cant": "tests evaluate one numerically computed gain on sampled states; this is a closed-loop invariant for all states and controls with gains known only through the equation they solve", "anchors": ["run_time_assurance/zoo/cwh/docking_2d.py:Docking2dExplicitSwitchingRTA", "run_time_assurance/zoo/cwh/docking_2d.py:Docking2dImplicitSwitchingRTA", "run_time_assurance/zoo/cwh/docking_3d.py:Docking3dExplicitSwitchingRTA", "run_time_assurance/zoo/cwh/docking_3d.py:Docking3dImplicitSwitchingRTA", "run_time_assurance/zoo/cwh/docking_2d.py:Docking2dStopLQRBackupController"]}
{"id": "C84", "title": "What an optimisation filter guarantees between its calls", "statement": "An optimisation filter is called once per step and its control is held until the next call. If the control satisfies the inequality of a constraint at every call, and within a hold the rate of the constraint drops at most at the rate L, the constraint is never violated by more than a margin plus L dt^2/2, at any instant. In particular the default 2-D and 3-D docking modules, called at least eight times a second on a vehicle that moves exactly by the equations of motion, answer every call and never let the speed exceed the documented limit by more than dt^2/20 (2-D) or 7 dt^2/100 (3-D) m/s, for a number of steps given by the initial distance. With steps of one second there is no such protection: the 2-D module passes on a thrust that exceeds the limit by more than 0.012 m/s before the next call.", "quantifier": "every desired control sequence, initial state within the enforced limit, sequence of step lengths up to dt, instant between calls; every velocity limit, offset and distance parameter in the given range", "why_tests_cant": "tests look at the state at the calls for one step length; this is about every instant of continuous motion under every control sequence", "anchors": ["run_time_assurance/rta/asif.py:ExplicitASIFModule", "run_time_assurance/zoo/cwh/docking_2d.py:Docking2dExplicitOptimizationRTA", "run_time_assurance/zoo/cwh/docking_3d.py:Docking3dExplicitOptimizationRTA", "run_time_assurance/constraint.py:ConstraintModule"]}
{"id": "C85", "title": "Compiling a module does not change its answers", "statement": "A module built with compilation on (the default), with any choice of per-method compilation options, answers every history of filter_control calls exactly as the same module built with jit_enable=False and ends with the same attributes, as long as the user only changes the parameters and the enabled flags of constraints (and attributes that no compiled method reads) between calls. In particular changes of params and enabled made between calls are seen by the next call. A compiled backup controller keeps no internal state and is not changed; a compiled backup prediction also needs the window and the control bounds to stay as they are.", "quantifier": "every history of calls and of such changes, every compilation option, every rule by which the compiler distinguishes signatures, every state, step length and control", "why_tests_cant": "tests compare a few calls; the caches of compiled methods depend on the whole history of calls and changes", "anchors": ["run_time_assurance/rta/simplex.py:SimplexModule.compose", "run_time_assurance/rta/asif.py:ASIFModule.compose", "run_time_assurance/rta/base.py:ConstraintBasedRTA._update_params", "run_time_assurance/rta/simplex.py:SimplexModule._constraint_violation"]}
{"id": "C86", "title": "A change of a constraint or of the dynamics takes effect at the next call", "statement": "When a user changes a constraint of a module (its bias, its strengthening function, its formula), a gain of its backup controller or an attribute that the dynamics of the module read (a mass), the next call of filter_control uses the new value, with compilation on as well as off.", "quantifier": "every history of calls and changes of attributes", "why_tests_cant": "a stale compiled method only shows when a change falls between two calls with the same signature", "anchors": ["run_time_assurance/rta/simplex.py:SimplexModule.compose", "run_time_assurance/rta/asif.py:ASIFModule.compose", "run_time_assurance/constraint.py:ConstraintModule"]}
{"id": "C87", "title": "Backup controllers with internal state work in compiled simplex modules", "statement": "A simplex module whose backup controller keeps internal state in controller_state (an array or a dict of arrays, as its documentation requires) answers with compilation on, the default, as with compilation off.", "quantifier": "every controller with internal state, state, step length and control", "why_tests_cant": "the failure depends on the kind of the controller state and on whether the backup controller is consulted in the call", "anchors": ["run_time_assurance/controller.py:RTABackupController._compose", "run_time_assurance/controller.py:RTABackupController._generate_control", "run_time_assurance/rta/simplex.py:ImplicitSimplexModule.integrate"]}
{"id": "C88", "title": "Changed control bounds take effect at the next call", "statement": "After control_bounds_low or control_bounds_high of an existing module is assigned a new value, filter_control returns controls within the new bounds; a simplex module behaves as if it had been constructed with them; an optimisation based module returns the control closest to the desired one among those that satisfy all constraints and the new bounds.", "quantifier": "every module, every new pair of bounds, every state, step length and control", "why_tests_cant": "whether a stale bound matters depends on where the old optimum lies relative to the old and new bounds and the constraints", "anchors": ["run_time_assurance/rta/base.py:RTAModule.clip_control", "run_time_assurance/rta/asif.py:ASIFModule._generate_actuation_constraint_mats", "run_time_assurance/rta/asif.py:DiscreteASIFModule.__init__"]}
{"id": "C89", "title": "Latin hypercube tests cover the requested box", "statement": "A Latin hypercube sample test constructed with n_points and bounds starts its n_points test cases in the box given by bounds, and for every state component each of the n_points equal slices of its interval contains the starting state of some reported test case; resampling unsafe states does not exhaust the prepared points.", "quantifier": "every number of points, multiplier, box, module and outcome of the random sampler", "why_tests_cant": "all random tables, boxes and patterns of safe and unsafe rows", "anchors": ["run_time_assurance/utils/sample_testing.py:LatinHypercubeRandomSampleTestingModule.__init__", "run_time_assurance/utils/sample_testing.py:LatinHypercubeRandomSampleTestingModule._get_initial_state", "run_time_assurance/utils/sample_testing.py:SafetyAssuranceSampleTestingModule.run_sample_test"]}
{"id": "C90", "title": "Compile options of predictions do not change answers", "statement": "Switching the documented entries pred_state or integrate of jit_compile_dict on or off does not change what filter_control of a docking switching module returns, nor whether it raises.", "quantifier": "every setting of the options, every module configuration, state, step size, control and sequence of calls", "why_tests_cant": "all configurations, states and call sequences; the repository's tests run the default options only", "anchors": ["run_time_assurance/rta/simplex.py:SimplexModule.compose", "run_time_assurance/rta/simplex.py:ImplicitSimplexModule.compose", "run_time_assurance/zoo/cwh/docking_2d.py:Docking2dRTAMixin._docking_pred_state", "run_time_assurance/zoo/cwh/docking_3d.py:Docking3dRTAMixin._docking_pred_state"]}
{"id": "C91", "title": "Compilation does not change the sun rate of an inspection module", "statement": "What filter_control of an inspection module returns does not depend on whether its methods are compiled, also when some input states carry the sun angle and others do not (a state without it means a sun that does not move, from then on).", "quantifier": "every configuration, correct solver, sequence of states with and without the sun angle, controls and step sizes", "why_tests_cant": "all sequences of states and configurations; a single call cannot show it, since only later calls use what was compiled", "anchors": ["run_time_assurance/zoo/cwh/inspection_1v1.py:Inspection1v1RTA._get_state", "run_time_assurance/zoo/cwh/inspection_1v1.py:Inspection1v1RTA.state_transition_system", "run_time_assurance/zoo/cwh/inspection_3d.py:InspectionRTA._get_state", "run_time_assurance/rta/asif.py:ASIFModule.compose"]}
{"id": "C92", "title": "The filter does not amplify changes of the desired control", "statement": "For a QP based module (explicit or implicit) in a given state, the controls returned by filter_control for two desired controls are never further apart than the desired controls themselves, also when slack is used and when no control is admissible and the module falls back to the clipped desired control. An explicit module without slack that is given its own answer as desired control returns it unchanged.", "quantifier": "every module configuration and history of uses, state, step size, pair of desired controls, and every correct QP solver", "why_tests_cant": "a Lipschitz bound over all pairs of controls in all states; sampling pairs shows nothing about the others", "anchors": ["run_time_assurance/rta/asif.py:ASIFModule._filter_control", "run_time_assurance/rta/asif.py:ASIFModule._optimize", "run_time_assurance/rta/asif.py:ExplicitASIFModule._generate_barrier_constraint_mats", "run_time_assurance/rta/asif.py:ImplicitASIFModule._generate_barrier_constraint_mats"]}
{"id": "C93", "title": "More constraints never mean less interference, and their order does not matter", "statement": "If one module imposes all enabled constraints and direct inequalities of another (and, for explicit QP modules, bounds at least as narrow), then wherever its conditions can be met the other one answers too, at least as close to the desired control, and it leaves every control alone that the first one leaves alone. For switching modules: what the module with more constraints accepts, the one with fewer accepts. Listing the same constraints in another order does not change any answer.", "quantifier": "every pair of module configurations so related, state, step size, desired control and correct QP solver", "why_tests_cant": "compares all pairs of configurations in all states", "anchors": ["run_time_assurance/rta/asif.py:ASIFModule._filter_control", "run_time_assurance/rta/asif.py:ExplicitASIFModule._generate_barrier_constraint_mats", "run_time_assurance/rta/asif.py:ImplicitASIFModule._generate_barrier_constraint_mats", "run_time_assurance/rta/simplex.py:ExplicitSimplexModule._monitor", "run_time_assurance/rta/simplex.py:ImplicitSimplexModule._monitor"]}
{"id": "C94", "title": "Backup trajectory sensitivity for nonlinear closed loops", "statement": "For every differentiable closed loop stepped by Euler's method, wherever the backup control is not clipped, the sensitivity the implicit ASIF module returns with each point of the backup trajectory (documented as the Jacobian with respect to the initial state) is the derivative of that point with respect to the initial state.", "quantifier": "every differentiable dynamics and stateless backup law, initial state, direction, step size and number of points", "why_tests_cant": "derivatives along all trajectories of all smooth systems; a test compares finitely many numbers to a tolerance", "anchors": ["run_time_assurance/rta/asif.py:ImplicitASIFModule.integrate", "run_time_assurance/rta/asif.py:ImplicitASIFModule.jacobian"]}
{"id": "C95", "title": "The filtered control depends continuously on the state", "statement": "If the dynamics, constraint values, constraint gradients and strengthening functions handed to an explicit ASIF module are continuous and some admissible control exists, then the control returned by the module depends continuously on the state and on the desired control: states and desired controls that approach given ones are answered by controls that approach the answer given there.", "quantifier": "every module, state, desired control and family of states and desired controls approaching them", "why_tests_cant": "continuity is a statement about all nearby states; a test compares finitely many states and misses jumps between them", "anchors": ["run_time_assurance/rta/asif.py:ExplicitASIFModule._generate_barrier_constraint_mats", "run_time_assurance/constraint.py:ConstraintModule.alpha", "run_time_assurance/rta/asif.py:ASIFModule._optimize"]}
{"id": "C96", "title": "Compile options mean the same for every module given them", "statement": "The dictionary of compile options given to a module decides, together with jit_enable and the documented defaults, which of its methods are compiled: giving the same dictionary to several modules, in whatever order they are constructed, compiles the same methods as giving each its own copy, and the caller's dictionary is left as it was.", "quantifier": "every sequence of constructions of simplex and ASIF modules, with any dictionaries shared among any of them", "why_tests_cant": "ranges over all orders of construction and ways of sharing dictionaries; a test constructs modules one at a time", "anchors": ["run_time_assurance/rta/base.py:ConstraintBasedRTA.__init__", "run_time_assurance/rta/simplex.py:ExplicitSimplexModule.compose", "run_time_assurance/rta/asif.py:ExplicitASIFModule.compose", "run_time_assurance/rta/asif.py:ImplicitASIFModule.compose"]}
{"id": "C97", "title": "Modules that share a backup controller do not influence each other", "statement": "Two simplex modules that were constructed with the same backup controller object return, for every interleaving of calls and resets of the two, what they return with backup controllers of their own.", "quantifier": "every pair of explicit or implicit simplex modules, controller with or without internal state, and interleaving of calls and resets", "why_tests_cant": "quantifies over all interleavings of two objects with hidden shared state; a test uses one module at a time", "anchors": ["run_time_assurance/rta/base.py:BackupControlBasedRTA.__init__", "run_time_assurance/rta/base.py:BackupControlBasedRTA.reset", "run_time_assurance/rta/base.py:BackupControlBasedRTA.backup_control", "run_time_assurance/controller.py:RTABackupController.generate_control"]}
{"id": "C98", "title": "Small solver errors cost small guarantees", "statement": "If the quadratic programming solver meets its inequalities up to e and minimises up to d, then a control returned by an ASIF module respects its bounds exactly, meets every barrier condition up to e times one plus the control's influence on the constraint, is within sqrt(2d) of an admissible desired control, and differs from the exact answer by an amount that vanishes with e and d as long as some control satisfies the conditions with a margin. If bias_negative is at most minus e times one plus the control's influence, constraints still stay satisfied exactly along closed loop trajectories.", "quantifier": "every explicit ASIF module after any history, every state, desired control, solver within the tolerances, and every closed loop trajectory", "why_tests_cant": "ranges over all solvers within the tolerances and all trajectories; a test sees the rounding of one solver on one problem", "anchors": ["run_time_assurance/rta/asif.py:ASIFModule._optimize", "run_time_assurance/rta/asif.py:ASIFModule._filter_control", "run_time_assurance/rta/asif.py:ASIFModule.monitor", "run_time_assurance/constraint.py:ConstraintModule.alpha", "run_time_assurance/rta/base.py:RTAModule._clip_control"]}
{"id": "C99", "title": "A filter accepts its own answers", "statement": "Handing a control that filter_control returned back to the same module, in the same state and with the same step size, returns that control; so a cascade whose rta_list names a module twice in a row answers like the cascade that names it once, call after call.", "quantifier": "every explicit, implicit and discrete ASIF module, explicit and implicit simplex module and cascade, every history, state, step size and desired control", "why_tests_cant": "ranges over all modules, histories, states and requests; a test tries a few requests, and most of them are accepted unchanged", "anchors": ["run_time_assurance/rta/base.py:RTAModule.filter_control", "run_time_assurance/rta/base.py:CascadedRTA.compute_filtered_control", "run_time_assurance/rta/asif.py:ASIFModule._filter_control", "run_time_assurance/rta/asif.py:DiscreteASIFModule._filter_control", "run_time_assurance/rta/simplex.py:SimplexModule._filter_control"]}
{"id": "C100", "title": "The values an inspection module reports measure the limits they are named after", "statement": "After filter_control on an inspection module the entries of constraints_at_last_state are, one per constraint name and whatever the call answered: chief_collision the distance to the chief beyond the collision radius (also with use_hocbf); r_max the distance left to r_max; x_vel, y_vel, z_vel the squares left to the velocity limit; sun a number that is nonnegative exactly if the sun is out of the sensor's field of view; rel_vel the speed left to the distance-dependent limit up to 1/316 m/s; PSM the least distance beyond the collision radius at the whole seconds of coasting for 100 s; for each further deputy of the multi-deputy module the distance beyond twice the deputy radius, the same for the sun behind either deputy, and the same for coasting of both. In a closed loop that starts with all limits kept and all constraints positive, no reported value is ever zero or negative.", "quantifier": "every configuration of the 1v1 and multi-deputy inspection modules, every state off the chief's centre, every step size and desired control; every closed loop with the module's own answers", "why_tests_cant": "ranges over all states, angles, configurations and coasting orbits, and over all times of every closed loop", "anchors": ["run_time_assurance/rta/base.py:ConstraintBasedRTA._update_constraint_values", "run_time_assurance/zoo/cwh/inspection_1v1.py:ConstraintCWHChiefCollision._phi", "run_time_assurance/zoo/cwh/inspection_1v1.py:ConstraintCWHConicKeepOutZone._phi", "run_time_assurance/zoo/cwh/inspection_1v1.py:ConstraintCWHMaxDistance._phi", "run_time_assurance/zoo/cwh/inspection_3d.py:ConstraintCWHDeputyCollision._phi", "run_time_assurance/constraint.py:HOCBFConstraint._phi"]}
{"id": "C101", "title": "Disturbances, model errors and estimation errors cost as much safety as they are large", "statement": "If the true system departs from the dynamics a module was given by an additive disturbance of bounded size, and the module is called with an estimate of the state instead of the state, then a constraint of an explicit ASIF module stays above minus a margin that is explicit in the size of the errors, the constraint's slope and its strengthener; errors that are together at most -bias_negative cost nothing but the estimation error, which a bias of at least that size makes up for; without bias_negative a disturbance of any size leads to a violation. With the default bias_negative the docking module keeps its documented limits under disturbances of up to about 0.005 per entry. A constraint of an implicit ASIF module whose current state is among the points checked has the same margin from its strengthener, and a bias of that size makes up for it, but bias_negative makes up for nothing. A discrete ASIF module and an explicit simplex module lose at most what one step's prediction error, amplified by the strengthener, amounts to.", "quantifier": "all disturbances, estimates, histories of the module, desired controls and trajectories of the true system; all constraints with a class-K strengthener", "why_tests_cant": "ranges over all disturbance signals and all times of continuous trajectories", "anchors": ["run_time_assurance/rta/asif.py:ASIFModule._filter_control", "run_time_assurance/rta/asif.py:ExplicitASIFModule", "run_time_assurance/rta/asif.py:ImplicitASIFModule", "run_time_assurance/rta/asif.py:DiscreteASIFModule._filter_control", "run_time_assurance/rta/simplex.py:SimplexModule._filter_control", "run_time_assurance/constraint.py:ConstraintModule.__init__", "run_time_assurance/zoo/cwh/docking_2d.py:Docking2dExplicitOptimizationRTA"]}
{"id": "C102", "title": "Solver errors in implicit and discrete ASIF modules cost a margin that only bias can make up for", "statement": "If the quadratic programming solver of an implicit ASIF module meets its inequalities up to e and minimises up to d, a returned control respects its bounds exactly, meets the condition at every backup trajectory point looked at up to e times one plus the control's influence on it, and is within sqrt(2d) of an admissible desired control; along closed loop trajectories constraints (and constraints along the backup trajectory) stay above minus a margin explicit in e and the strengthener, and a bias of at least that size keeps them satisfied. bias_negative, which makes up for such errors in explicit modules, has no effect: for every e some solver within it leads to a violation whatever bias_negative is. If the nonlinear solver of a discrete ASIF module meets inequalities up to e and bounds up to n, the returned control respects its bounds exactly, the one-step condition holds up to dt e for a control within n of it, and the loop loses at most a margin explicit in e and n; again bias makes up for it and bias_negative does not.", "quantifier": "every implicit and discrete ASIF module after any history, every state, desired control, solver within the tolerances, and every closed loop trajectory", "why_tests_cant": "ranges over all solvers within the tolerances and all trajectories; a test sees the rounding of one solver on one problem", "anchors": ["run_time_assurance/rta/asif.py:ASIFModule._optimize", "run_time_assurance/rta/asif.py:ImplicitASIFModule._generate_barrier_constraint_mats", "run_time_assurance/rta/asif.py:ImplicitASIFModule.invariance_constraints", "run_time_assurance/rta/asif.py:DiscreteASIFModule._filter_control", "run_time_assurance/rta/base.py:RTAModule._clip_control", "run_time_assurance/constraint.py:ConstraintModule.__init__"]}
{"id": "C103", "title": "Rounding errors of explicit ASIF modules cost a margin that bias and bias_negative make up for", "statement": "Let every arithmetic operation of an explicit ASIF module round its result with relative error u and absolute error m, and let the solver meet its inequalities up to e. Then the returned control is within its bounds exactly and meets the barrier condition of every enabled constraint without slack up to e times one plus the control's influence and a rounding error given explicitly by u, m, the state dimension and the size of the terms of the inequality. Along closed loop trajectories, a bias_negative that covers this error and the error of the evaluated gradient and dynamics keeps the true value of the constraint above minus the error with which it is evaluated, and a bias of that size keeps the constraint itself satisfied; from below, trajectories recover in a time that is given. In single precision (which the package uses, since it does not enable 64 bit arithmetic), for states of at most 12 components and terms of size at most 8000, the default bias_negative covers the rounding of the inequality. Without bias it does not suffice: however fine the arithmetic is and whatever bias_negative is, some system with an exact solver, and functions evaluated as exactly as the arithmetic allows, violates its constraint at all times although every control is what the module returned.", "quantifier": "every explicit ASIF module after any history, every rounding function with these errors, solver within the tolerance, state, desired control and closed loop trajectory", "why_tests_cant": "ranges over all inputs and all ways of rounding; a test sees the rounding of one machine on finitely many inputs", "anchors": ["run_time_assurance/rta/asif.py:ExplicitASIFModule._generate_barrier_constraint_mats", "run_time_assurance/rta/asif.py:ASIFModule._optimize", "run_time_assurance/constraint.py:ConstraintModule.__init__", "run_time_assurance/constraint.py:ConstraintModule.alpha_negative", "run_time_assurance/rta/base.py:RTAModule._clip_control"]}
{"id": "C104", "title": "Computing time and held controls cost an explicit ASIF module a margin that bias and bias_negative make up for", "statement": "Let the control applied to the true system at any time be one that an explicit ASIF module returned for a state at most D seconds old: a control held for a step of length dt and returned after computing for l seconds gives D = dt + l. Let the state move at speed at most V, the constraint have slope at most L, the inequality coefficients change by at most M per unit of state, and let disturbances and solver errors be bounded as in C101. Then the true constraint value never falls below minus V L D when bias_negative covers the disturbance, the solver error and M V D; with a bias of at most minus V L D it never becomes negative, at any instant, not only at the sample times. From below, trajectories recover in a time that is given. Without bias the constraint is violated between the calls for every step length, however short, every strengthener that vanishes at zero and every bias_negative: the module itself does not intervene.", "quantifier": "every explicit ASIF module after any history, every solver within the tolerance, step length, delay, disturbance and closed loop trajectory within the bounds", "why_tests_cant": "ranges over all trajectories in continuous time and all delays; a simulation looks at finitely many instants of one run and applies every control at once", "anchors": ["run_time_assurance/rta/base.py:RTAModule.filter_control", "run_time_assurance/rta/asif.py:ExplicitASIFModule._generate_barrier_constraint_mats", "run_time_assurance/constraint.py:ConstraintModule.__init__", "run_time_assurance/constraint.py:ConstraintModule.alpha_negative"]}
{"id": "C105", "title": "Modules that check predicted states keep constraints between the steps up to half a step's change", "statement": "Explicit and implicit simplex modules and discrete ASIF modules decide by the states at the ends of the steps. If a loop meets the conditions under which they keep the constraints at those states (C18, C19, C39), the true motion passes through these states and no enabled constraint changes faster than rho on the way, then at every instant of every step of length dt no enabled constraint is violated by more than rho dt / 2; a bias of at most minus rho dt / 2 keeps the constrained quantities themselves non-negative at every instant. The bound cannot be improved: for every radius and step length explicit and implicit simplex modules let a vehicle at the edge of a keep-out zone pass straight through its centre when one step takes it to the other side, and its loop satisfies every hypothesis.", "quantifier": "every module, backup controller, desired control sequence, step length and motion that meets the hypotheses", "why_tests_cant": "ranges over all motions in continuous time; a simulation with the module's step length never looks between the steps", "anchors": ["run_time_assurance/rta/simplex.py:ExplicitSimplexModule._monitor", "run_time_assurance/rta/simplex.py:ImplicitSimplexModule._monitor", "run_time_assurance/rta/asif.py:DiscreteASIFModule._filter_control", "run_time_assurance/constraint.py:ConstraintModule.__call__"]}
{"id": "C106", "title": "When an explicit ASIF module has a solution, and what it answers, in closed form", "statement": "Write the condition that an enabled constraint puts on the control u at a state as 0 <= d + a u. With one such condition and bounds l <= u <= h on every component, an explicit ASIF module finds a control exactly when d plus the sum over the components of max(a_i l_i, a_i h_i) is not negative; otherwise it raises the solver error or clips the desired control, as configured. Without bounds and with a not zero it answers the desired control if that meets the condition and otherwise the desired control minus ((d + a u) / |a|^2) a; with a zero and d negative there is no solution. With a scalar control and any number of constraints and inequality constraints, a control exists exactly when no lower limit exceeds an upper limit and every condition with a = 0 has d >= 0, so pairwise compatibility suffices, and the answer is the desired control raised to the lower limits and cut off at the upper ones. For the shipped 1-D docking integrator this gives the answer as an explicit function of position, velocity and desired control at every safe state.", "quantifier": "every explicit ASIF module without slack after any history, every solver that meets its contract, every state, desired control and step length", "why_tests_cant": "an equivalence over all states, constraints, bounds and desired controls; tests compare answers at sampled points up to the solver's tolerance", "anchors": ["run_time_assurance/rta/asif.py:ASIFModule._optimize", "run_time_assurance/rta/asif.py:ASIFModule._generate_actuation_constraint_mats", "run_time_assurance/rta/asif.py:ExplicitASIFModule._generate_barrier_constraint_mats", "run_time_assurance/zoo/integrators/integrator_1d.py:Integrator1dDockingExplicitOptimizationRTA"]}
{"id": "C107", "title": "Answers do not depend on the description of the situation", "statement": "Two explicit ASIF modules that describe the same situation give the same answer, each in its own description, whatever their histories, solvers and step lengths: the state may be written in other coordinates, with the vector fields and gradients converted, and controls may correspond by any map that preserves distances and bounds, also with slack. In particular the answer does not depend on the step length, and a module whose dynamics, constraints and bounds are symmetric under a change of signs gives mirror image answers in mirror image situations; so does an implicit ASIF module if its prediction, backup law and the Jacobians of its closed loop are symmetric as well, for instance the shipped docking modules and the reflection in the target, whatever the gains. The shipped 2-D docking module commutes with the reflection in the target, the 3-D one also with the reflection in the orbital plane and the half turn about the axis perpendicular to it. Simplex modules, explicit or implicit, whose prediction, constraints, backup controller and bounds are symmetric answer every sequence of mirror image calls with the mirror image answers, latch and controller state included; the docking simplex modules do so for the reflection in the target, whatever their gains. A discrete-time module without slack answers in a mirror image situation exactly if it answers in the original, equally far from the desired control, and with the mirror image control if the closest admissible control is unique (not otherwise). The shipped inspection modules, explicit (with or without the high order constraint) and discrete-time, commute in this sense with the reflection in the orbital plane.", "quantifier": "every pair of explicit ASIF modules, histories, solvers that meet the contract, states, desired controls, step lengths, changes of coordinates and symmetries; every simplex module with a symmetry and every sequence of calls", "why_tests_cant": "compares two runs over all situations and all changes of description; tests can compare some pairs of points", "anchors": ["run_time_assurance/rta/asif.py:ASIFModule._optimize", "run_time_assurance/rta/asif.py:ExplicitASIFModule._generate_barrier_constraint_mats", "run_time_assurance/rta/asif.py:ImplicitASIFModule._generate_barrier_constraint_mats", "run_time_assurance/zoo/cwh/docking_2d.py:Docking2dExplicitOptimizationRTA", "run_time_assurance/zoo/cwh/docking_3d.py:Docking3dExplicitOptimizationRTA", "run_time_assurance/rta/simplex.py:SimplexModule._filter_control", "run_time_assurance/zoo/cwh/docking_2d.py:Docking2dExplicitSwitchingRTA", "run_time_assurance/zoo/cwh/docking_3d.py:Docking3dImplicitSwitchingRTA"]}
{"id": "C108", "title": "Explicit ASIF answers do not depend on the units", "statement": "If the state, or the values of the constraints, are expressed in other units and the dynamics and constraints are converted accordingly, an explicit ASIF module gives the same answers.", "quantifier": "every explicit ASIF module, factor of the units, state and desired control", "why_tests_cant": "compares two modules over all factors, states and desired controls", "anchors": ["run_time_assurance/constraint.py:HOCBFConstraint", "run_time_assurance/constraint.py:ConstraintMinStateLimit", "run_time_assurance/constraint.py:PolynomialConstraintStrengthener", "run_time_assurance/rta/asif.py:ExplicitASIFModule._generate_barrier_constraint_mats"]}
{"id": "C109", "title": "More cautious settings never mean less interference", "statement": "Lowering a constraint's bias, weakening its strengthener or narrowing the control bounds never makes a filter change the desired control less, for constraints without slack. Whenever the more cautious module has an admissible control and answers, the other answers too and at least as close to the desired control; what the more cautious switching module accepts, the other accepts. Holds for explicit, implicit and discrete ASIF and for explicit and implicit simplex modules, whatever the subsampling settings.", "quantifier": "every pair of modules of the same kind of which one is set up at least as cautiously, every state, desired control and step length", "why_tests_cant": "compares two modules over all settings, states and desired controls; the case split of the strengthener at zero and the selection of trajectory points both depend on the bias", "anchors": ["run_time_assurance/constraint.py:ConstraintModule", "run_time_assurance/rta/asif.py:ExplicitASIFModule._generate_barrier_constraint_mats", "run_time_assurance/rta/asif.py:ImplicitASIFModule", "run_time_assurance/rta/simplex.py:SimplexModule"]}
{"id": "C110", "title": "A longer backup window never means less interference", "statement": "Of two modules that look along the same backup trajectory, the one that looks further ahead never changes the desired control less: what an implicit simplex module with the longer window accepts, the one with the shorter window accepts, and the answer of an implicit ASIF module with the shorter window is at least as close to the desired control.", "quantifier": "every pair of modules that differ in the window, every state, desired control and step length", "why_tests_cant": "compares two modules over all windows, states and desired controls; depends on the subsampling settings", "anchors": ["run_time_assurance/rta/asif.py:ImplicitASIFModule", "run_time_assurance/rta/simplex.py:ImplicitSimplexModule", "run_time_assurance/constraint.py:ConstraintModule"]}
{"id": "C111", "title": "A latched simplex module does not chatter", "statement": "With a latch time T and calls whose step sizes are at least d, every time a simplex module gives control back to the desired control the backup controller has been in control for at least T + d since it took over: over a run, the number of returns times T + d is at most the time under backup control, and the number of hand overs times T + d is at most the duration of the run plus T + d.", "quantifier": "every explicit or implicit simplex module and every sequence of calls and resets", "why_tests_cant": "a bound over call sequences of any length with varying steps", "anchors": ["run_time_assurance/rta/simplex.py:SimplexModule._filter_control"]}
{"id": "C112", "title": "For small steps the discrete-time module answers like the explicit one", "statement": "Give a discrete-time ASIF module and an explicit ASIF module the same constraints and control bounds, and let the predicted next state agree to first order with the dynamics. Then, as the step size tends to zero, the controls returned by the discrete-time module tend to the control returned by the explicit module.", "quantifier": "every pair of such modules, every state and every desired control", "why_tests_cant": "a limit over all step sizes, and the answers of two different optimisation problems", "anchors": ["run_time_assurance/constraint.py:555", "run_time_assurance/rta/asif.py:DiscreteASIFModule._filter_control", "run_time_assurance/rta/asif.py:ASIFModule._filter_control"]}
{"id": "C113", "title": "The discrete-time module brings violated constraints back", "statement": "In the loop of a discrete-time ASIF module (with a solver that raises on failure) and the plant it predicts, a violated constraint without slack is violated less and less, by at least the rate of its strengthener, whatever controls are desired, and is satisfied again after finitely many steps.", "quantifier": "every discrete-time module, every violated initial state, every sequence of desired controls and step sizes", "why_tests_cant": "unbounded number of steps", "anchors": ["run_time_assurance/constraint.py:555", "run_time_assurance/rta/asif.py:DiscreteASIFModule._filter_control"]}
{"id": "C114", "title": "Cascading modules amounts to one module with all their constraints", "statement": "Where some control satisfies the conditions of all stages, a cascade of explicit ASIF modules with the same control bounds returns what one explicit ASIF module with all their constraints returns; in particular its answer satisfies the constraints of every stage.", "quantifier": "every list of explicit ASIF modules, every state and every desired control", "why_tests_cant": "depends on the geometry of the admissible sets of several optimisation problems", "anchors": ["run_time_assurance/rta/base.py:CascadedRTA.compute_filtered_control", "run_time_assurance/rta/asif.py:ASIFModule._filter_control"]}
{"id": "C115", "title": "The numbering of the deputies does not matter", "statement": "When the deputies are numbered differently in the state and in the desired controls given to a combined inspection module that uses all its constraints, the returned controls are numbered in the same way: every deputy gets the control it would get under its old number, and the call fails under the one numbering exactly if it fails under the other.", "quantifier": "every number of deputies, every permutation of them, every state, desired control and history of calls", "why_tests_cant": "all permutations of any number of deputies in all states; the gradients of about three constraints per pair must permute accordingly", "anchors": ["run_time_assurance/zoo/cwh/inspection_3d.py:511", "run_time_assurance/zoo/cwh/inspection_3d.py:216"]}
{"id": "C116", "title": "Constraints added to or removed from a module in use take effect at the next call", "statement": "When entries of the dictionary module.constraints are added, removed or replaced between calls, the next call of filter_control judges and filters by the constraints that are then in the dictionary: a Simplex module accepts the desired control exactly when those hold, an ASIF module returns the closest control that is admissible for those, and the reported names are names of constraints that are in the dictionary.", "quantifier": "every module, every sequence of calls and changes of the dictionary, every state and desired control", "why_tests_cant": "arbitrary changes interleaved with arbitrary calls, for arbitrary constraints and dynamics; whether the lists made at construction are still consulted shows only when the added constraint is active", "anchors": ["run_time_assurance/rta/base.py:193", "run_time_assurance/rta/asif.py:252", "run_time_assurance/rta/asif.py:389"]}
{"id": "C117", "title": "Slack priority scales make constraints soft in the order of their scales", "statement": "A constraint with a slack_priority_scale never makes a call of an explicit ASIF module fail. Among the controls that satisfy everything without slack, an explicit or discrete time ASIF module returns one for which the squared distance from the desired control plus weight times squared violation, summed over the enabled constraints with slack, is smallest; the weight is the square root of the scale in explicit modules and the scale in discrete time ones. Raising the scale of a constraint never makes its violation larger, and the violation is bounded in terms of the scale whenever all constraints can be satisfied. The answers of explicit modules tend to the answer without slack as the scales grow, but a soft constraint that the answer without it would miss is missed with every scale.", "quantifier": "every module, every set of scales, every state and desired control", "why_tests_cant": "arbitrary scales, constraints, dynamics and states; comparing the answers of two modules that differ in one scale, and a limit of scales growing without bound", "anchors": ["run_time_assurance/constraint.py:67", "run_time_assurance/rta/asif.py:95", "run_time_assurance/rta/asif.py:389"]}
{"id": "C118", "title": "Soft constraints are kept in closed loop up to a margin that shrinks with their scale", "statement": "Let the control of a system at all times be what an explicit ASIF module returns for its state, and let a control that satisfies every condition without slack, and that of a constraint with a slack_priority_scale with a margin m to spare, exist within squared distance R of the desired control. Then the barrier condition of that constraint is missed by at most R/(4 m sqrt(scale)) at any time (and by at most sqrt(R/(4 sqrt(scale))) without margin), so the value of the constraint stays above a bound that tends to zero as the scale grows, and trajectories that start below that bound recover to it in finite time. With a negative bias_negative there is a scale from which on the constraint is never violated; with bias_negative zero no scale suffices. The same holds for discrete time modules, where a bias makes up for the margin.", "quantifier": "every control affine system, every trajectory under the module, every scale, every history of the module", "why_tests_cant": "trajectories over unbounded time of arbitrary systems; the bound is a limit statement over all scales", "anchors": ["run_time_assurance/constraint.py:67", "run_time_assurance/constraint.py:85", "run_time_assurance/rta/asif.py:95", "run_time_assurance/rta/asif.py:389"]}
{"id": "C119", "title": "A filtered vehicle still arrives", "statement": "Let a vehicle at all times apply the control an ASIF module returns for its state and the desired control, and let the desired control alone bring it to a target at which all constraints hold. Then the filtered vehicle arrives as well. For the 1-D explicit optimization docking module: if the vehicle starts in the interior of the safe set and the desired control pushes on wherever the vehicle is slow and not yet there, the vehicle comes to rest at the target.", "quantifier": "every module and target; for the 1-D docking module every mass up to 1, every desired control, every trajectory from the interior of the safe set", "why_tests_cant": "liveness over unbounded time for arbitrary desired controls", "anchors": ["run_time_assurance/zoo/integrators/integrator_1d.py:Integrator1dDockingExplicitOptimizationRTA", "run_time_assurance/rta/asif.py:95"]}
{"id": "C120", "title": "Steep strengtheners let strictly safe motions pass unaltered", "statement": "If a motion with controls within the bounds keeps all constraint values positive for a bounded time, there is a slope such that every explicit ASIF module with these constraints whose strengthening functions have at least this slope returns the controls of the motion unaltered and reports no intervention, at all times of the motion. One slope is enough for a call if the slope times the smallest value is at least the rate at which values fall.", "quantifier": "every system, every finite set of constraints, every strictly safe motion of bounded duration, every module with slopes from the bound on", "why_tests_cant": "existence of one slope for a continuum of states and all steeper modules", "anchors": ["run_time_assurance/rta/asif.py:95", "run_time_assurance/constraint.py:67"]}
{"id": "C121", "title": "The closed loop has exactly one motion from every state", "statement": "Let the control of a system at all times be what an explicit ASIF module returns for its state and a desired control that depends on the state. Then from every state there is a motion of this closed loop, defined for all times, it is the only one, and motions from close states stay close for bounded time: their distance grows at most exponentially. If the module, of whatever kind, is called at fixed intervals and its control held in between, there is exactly one motion as long as the calls return.", "quantifier": "every control affine system and state dependent desired control whose data change at most proportionally to the state, every initial state", "why_tests_cant": "existence and uniqueness of solutions of differential equations for all initial states and all times; simulations only approximate them", "anchors": ["run_time_assurance/rta/asif.py:95", "run_time_assurance/rta/asif.py:389"]}
{"id": "C122", "title": "Calling the filter more often approaches the ideal loop", "statement": "Let an explicit ASIF module whose answers change at most proportionally to the state be called every \u0394, its control being held in between. As \u0394 tends to zero the motion of the system tends to the motion of the loop in which the module is called at all times: up to any given time the distance is at most a constant times \u0394. A constraint that holds at the start is violated by at most a constant times \u0394.", "quantifier": "every control affine system with constant input matrix, drift and answers with a Lipschitz constant, every initial state, end time and interval up to one second", "why_tests_cant": "a limit and a uniform bound over all intervals and initial states; a simulation samples both loops", "anchors": ["run_time_assurance/rta/asif.py:95", "run_time_assurance/rta/asif.py:389", "run_time_assurance/rta/base.py:60"]}
{"id": "C123", "title": "Switching filters with inexact predictions", "statement": "Let the number a switching (simplex) module computes for a constraint at the predicted state differ by at most some error from the true value at the state the plant really reaches, whatever the cause: rounding, integration scheme, wrong model, disturbance, state estimate. If the module lets a desired control pass, the true value afterwards is at least minus bias minus error; a desired control whose true outcome keeps error minus bias passes. With a bias of at most minus the error, a backup law that keeps truly safe states truly safe makes every closed loop truly safe at all times, for implicit modules as well. Without bias the loop can end up violating a constraint by several times the error.", "quantifier": "every plant (relation between states and next states), every estimate, prediction, backup law with state, desired controls inside the bounds, step sizes, latch time and number of steps", "why_tests_cant": "all disturbances and estimates of infinitely long runs; a test simulates the plant with the prediction itself and so has no error", "anchors": ["run_time_assurance/rta/simplex.py:232", "run_time_assurance/rta/simplex.py:274", "run_time_assurance/constraint.py:149"]}
{"id": "C124", "title": "A switching module as safety net behind another module", "statement": "A cascade whose last stage is an explicit switching (simplex) module keeps the constraints of that stage in closed loop whatever the stage before it answers within the bounds, as long as calls return. Behind an optimisation based module (discrete-time, or explicit) with the same constraints the switching module stays silent in safe states: it passes on every answer of a solvable problem, provided the step does not overshoot the strengthener and the predicted change of each constraint is at least the step size times the rate the optimisation module reckons with.", "quantifier": "every first stage (any program with any state), every desired control, step size, latch time and number of steps; every constraint, dynamics and prediction with the named properties", "why_tests_cant": "the first stage ranges over all programs, and silence is a claim about every state and every desired control", "anchors": ["run_time_assurance/rta/base.py:359", "run_time_assurance/rta/simplex.py:232", "run_time_assurance/rta/asif.py:95"]}
{"id": "C125", "title": "The 1-D switching filter with Euler prediction avoids collision at all times", "statement": "The explicit switching module of the one-dimensional docking example, with its default Euler prediction, called every dt on the true point mass: with a bias of at most minus 17/16 dt squared (and minus the error of computed values and estimates, if any) the vehicle never passes the target, neither at the calls nor between them, from every state with -2x - v^2 at least dt^2/16 and for every desired control within the bounds. No call raises. Without bias the module as constructed lets the vehicle collide.", "quantifier": "every step size, latch time, number of steps, desired controls within the bounds, initial state, prediction and constraint evaluation within the error, and every time between the calls", "why_tests_cant": "all real times between the calls and all states; a test compares the filter with its own prediction", "anchors": ["run_time_assurance/zoo/integrators/integrator_1d.py:130", "run_time_assurance/zoo/integrators/integrator_1d.py:377", "run_time_assurance/rta/simplex.py:232"]}
{"id": "C126", "title": "The implicit 1-D switching filter with Euler prediction avoids collision", "statement": "The implicit switching module of the one-dimensional docking example, with its default Euler prediction, called every dt on the true point mass, with a backup window of at least one step: if the velocities met can be braked to zero within the window, the vehicle is never past the target at the calls, and with a bias of at most minus dt^2/8 (and minus the error of computed values and estimates, if any) it is not past the target between the calls either, for every desired control within the bounds and every latch time. No call raises. Without bias the vehicle can be past the target between two calls.", "quantifier": "every step size, backup window, latch time, number of steps, desired controls within the bounds, initial state from which braking is safe, prediction and constraint evaluation within the error, and every time between the calls", "why_tests_cant": "all real times between the calls and all states; a test compares the filter with its own prediction", "anchors": ["run_time_assurance/zoo/integrators/integrator_1d.py:173", "run_time_assurance/rta/simplex.py:237"]}
{"id": "C127", "title": "A bias makes the explicit 1-D optimisation filter safe with held controls", "statement": "The explicit optimisation module of the one-dimensional docking example, constructed with a bias on its constraint, called every dt on the true point mass with the returned control held between the calls: from a state that satisfies the biased constraint, the vehicle never passes the target. (False for every bias and every step size; true for desired controls that do not accelerate towards the target, with a step size that fits the strengthener.)", "quantifier": "every bias, step size, slack tolerance, exact QP solver, number of steps and desired controls", "why_tests_cant": "all biases and step sizes and all times between the calls; whether a large margin suffices cannot be settled by trying some margins", "anchors": ["run_time_assurance/zoo/integrators/integrator_1d.py:240", "run_time_assurance/zoo/integrators/integrator_1d.py:377", "run_time_assurance/rta/asif.py:224", "run_time_assurance/rta/asif.py:363"]}
