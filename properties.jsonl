{"id": "C01", "title": "Exponential system: analytical_solution is the exact motion", "statement": "For an ExponentialSystem, analytical_solution(ts) returns at t=0 the initial state, its second result is at every time the derivative of its first result, and that derivative equals differential_equation evaluated on the returned state, in every dimension, for a scalar decay constant as well as for one constant per dimension. No other differentiable motion from the same initial state obeys differential_equation.", "quantifier": "all tau != 0, all initial and attractor vectors of any dimension, all alpha (scalar or per dimension), all times", "why_tests_cant": "a test compares a few sampled trajectories with a tolerance; being the solution of the differential equation is a statement about all times and all real parameters", "anchors": ["dmpbbo/dynamicalsystems/ExponentialSystem.py: ExponentialSystem.differential_equation, ExponentialSystem.analytical_solution"]}
{"id": "C02", "title": "Exponential system: monotone approach to the attractor without overshoot", "statement": "With alpha/tau > 0 every component of the state returned by analytical_solution approaches the attractor monotonically, stays between initial state and attractor for all t >= 0, never crosses it, and converges to it as t grows.", "quantifier": "all initial states, attractors, positive alpha/tau and all pairs of times 0 <= s <= t", "why_tests_cant": "monotonicity and limits quantify over an unbounded continuum of times", "anchors": ["dmpbbo/dynamicalsystems/ExponentialSystem.py: ExponentialSystem.analytical_solution"]}
{"id": "C03", "title": "Time system: phase starts, ends and saturates exactly", "statement": "A TimeSystem's phase starts at 0 (1 when counting down), is linear in t/tau up to t = tau, equals exactly 1 (0) at t = tau and stays there for ever; it is always within [0,1], is monotone, the counting-up and counting-down phases always add up to 1, and the returned rate is the derivative of the phase and agrees with differential_equation at every time other than t = tau.", "quantifier": "all tau > 0, all t >= 0, both count directions, including after switching direction with the count_down setter", "why_tests_cant": "saturation behaviour has to hold at every time including the single switching instant, which sampled grids miss", "anchors": ["dmpbbo/dynamicalsystems/TimeSystem.py: TimeSystem.__init__, TimeSystem.count_down, TimeSystem.differential_equation, TimeSystem.analytical_solution"]}
{"id": "C04", "title": "Time system: numerical integration saturates after at most one step of overshoot", "statement": "Integrating a TimeSystem step by step (Euler or Runge-Kutta) with any positive step sizes, the phase moves monotonically, overshoots its final value by at most dt/tau of the last moving step, and once it has reached or passed the final value it never changes again.", "quantifier": "all tau > 0, all finite sequences of positive step sizes (constant or not), both count directions, both integration methods", "why_tests_cant": "the set of step-size sequences is infinite and the overshoot depends on how steps align with tau", "anchors": ["dmpbbo/dynamicalsystems/TimeSystem.py: TimeSystem.differential_equation", "dmpbbo/dynamicalsystems/DynamicalSystem.py: integrate_step_euler, integrate_step_runge_kutta, integrate"]}
{"id": "C05", "title": "Spring-damper: analytical_solution is the exact motion", "statement": "For a critically damped SpringDamperSystem, analytical_solution(ts) starts in the initial state set by the user (position and velocity part), its second result is the derivative of the first and equals differential_equation on the returned state.", "quantifier": "all tau > 0, damping, mass, initial positions and initial velocity parts, all times, any dimension, scalar or per-dimension parameters", "why_tests_cant": "holds (or fails) as an identity in real parameters; the existing tests only use mass 1 and zero initial velocity", "anchors": ["dmpbbo/dynamicalsystems/SpringDamperSystem.py: SpringDamperSystem.differential_equation, SpringDamperSystem.analytical_solution"]}
{"id": "C06", "title": "Spring-damper: the default spring constant is critically damped", "statement": "A SpringDamperSystem constructed without a spring constant is critically damped, i.e. its damping ratio is exactly 1, whatever damping coefficient and mass are passed.", "quantifier": "all positive damping coefficients and masses", "why_tests_cant": "tests only construct the system with the default mass", "anchors": ["dmpbbo/dynamicalsystems/SpringDamperSystem.py: SpringDamperSystem.__init__, zetas in analytical_solution"]}
{"id": "C07", "title": "Sigmoid system: analytical_solution is the exact motion and its inflection lies at inflection_ratio*tau", "statement": "For a SigmoidSystem with positive initial state, analytical_solution starts in the initial state, its second result is the derivative of the first and equals differential_equation on the returned state, the state at t = inflection_ratio*tau is exactly half the carrying capacity, and the magnitude of the rate of change is maximal there.", "quantifier": "all tau, positive initial states, non-zero rates and inflection ratios, all times, any dimension", "why_tests_cant": "an identity over real parameters and a global maximum over all times cannot be sampled", "anchors": ["dmpbbo/dynamicalsystems/SigmoidSystem.py: SigmoidSystem.differential_equation, analytical_solution, _get_ks"]}
{"id": "C08", "title": "Sigmoid system: cached quantities never go stale", "statement": "After any sequence of setting tau, setting the initial state (whole or y part), decoupling parameters, and querying differential_equation or analytical_solution, a SigmoidSystem answers every query exactly as a freshly constructed system with the current parameters would.", "quantifier": "all finite sequences of setter, decouple and query calls, including rejected ones", "why_tests_cant": "cache staleness depends on the order of calls; the number of orders is unbounded", "anchors": ["dmpbbo/dynamicalsystems/SigmoidSystem.py: tau, x_init, y_init setters, decouple_parameters, _get_ks"]}
{"id": "C09", "title": "Gating sigmoid hits its specification", "statement": "SigmoidSystem.for_gating(tau, ratio, n) yields a system that starts at 1 in each of the n dimensions, has the value ratio at t = tau exactly, is strictly decreasing and stays in (0,1] for all t >= 0, and tends to 0.", "quantifier": "all tau > 0, all ratios in (0,1), all n, all times", "why_tests_cant": "the rate is computed with logarithms from the specification; that this inverts the sigmoid is an algebraic identity for all inputs", "anchors": ["dmpbbo/dynamicalsystems/SigmoidSystem.py: SigmoidSystem.for_gating"]}
{"id": "C10", "title": "Richards system: analytical_solution is the exact motion and its inflection lies at t_infl_ratio*tau", "statement": "For a RichardsSystem (with the shape parameter restricted as the code restricts it), analytical_solution starts in the initial state, its second result is the derivative of its first and equals differential_equation on the returned state, it converges to the attractor, and the acceleration vanishes exactly at t = t_infl_ratio*tau.", "quantifier": "all tau > 0, alpha > 0, shape v, t_infl_ratio >= 0, initial state different from the attractor, all times t >= 0", "why_tests_cant": "the source itself carries the comment 'This is not correct yet' next to the rate of change; only a proof for all parameters settles it", "anchors": ["dmpbbo/dynamicalsystems/RichardsSystem.py: RichardsSystem._get_left_asymptote, differential_equation, analytical_solution"]}
{"id": "C11", "title": "Time rescaling of the dynamical systems through tau", "statement": "Multiplying tau of a dynamical system by s > 0 only slows the motion down by s: the state at time s*t with the new tau equals the state at time t with the old tau and the rates of change are divided by s.", "quantifier": "all systems (exponential, time, spring-damper started at rest, sigmoid, Richards), all parameters, all s > 0, all times", "why_tests_cant": "an invariance between two parameter settings at all times", "anchors": ["dmpbbo/dynamicalsystems/ExponentialSystem.py", "dmpbbo/dynamicalsystems/TimeSystem.py", "dmpbbo/dynamicalsystems/SpringDamperSystem.py", "dmpbbo/dynamicalsystems/SigmoidSystem.py", "dmpbbo/dynamicalsystems/RichardsSystem.py", "dmpbbo/dynamicalsystems/DynamicalSystem.py: tau setter"]}
{"id": "C12", "title": "integrate() is the iteration of single steps from the initial state", "statement": "integrate(ts) returns one state and one rate per entry of ts; row 0 is the initial state; row i is obtained from row i-1 by one step of length ts[i]-ts[i-1] of the chosen method; states of the wrong size are rejected; a step of length 0 leaves the state unchanged.", "quantifier": "all systems, all time vectors (uniform or not), both integration methods", "why_tests_cant": "holds for every length of ts and every system, by induction over the loop", "anchors": ["dmpbbo/dynamicalsystems/DynamicalSystem.py: integrate, integrate_start, integrate_step_euler, integrate_step_runge_kutta"]}
{"id": "C13", "title": "Runge-Kutta step has fourth-order accuracy on linear systems and Euler first order", "statement": "On an ExponentialSystem one Runge-Kutta step multiplies the distance to the attractor by the fourth-order Taylor polynomial of exp(-alpha*dt/tau), one Euler step by the first-order one, so that for step sizes with 0 < alpha*dt/tau <= 1 the numerically integrated state approaches the attractor monotonically without overshoot for any number of steps, and the local error of a Runge-Kutta step is at most the next Taylor term.", "quantifier": "all attractors, states, alpha, tau, dt with 0 < alpha*dt/tau <= 1 and all numbers of steps", "why_tests_cant": "a wrong coefficient in one of the four stages only shows up as a slightly larger error; tests use loose tolerances", "anchors": ["dmpbbo/dynamicalsystems/DynamicalSystem.py: integrate_step_runge_kutta, integrate_step_euler", "dmpbbo/dynamicalsystems/ExponentialSystem.py: differential_equation"]}
{"id": "C14", "title": "decouple_parameters does not change behaviour", "statement": "Calling decouple_parameters any number of times, at any point, on an exponential, spring-damper, sigmoid or Richards system does not change the result of differential_equation or analytical_solution.", "quantifier": "all systems, all scalar or already decoupled parameters, all states and times", "why_tests_cant": "it switches every later call to a different code path (array instead of scalar); equality is needed for all inputs", "anchors": ["dmpbbo/dynamicalsystems/ExponentialSystem.py: decouple_parameters", "dmpbbo/dynamicalsystems/SpringDamperSystem.py: decouple_parameters", "dmpbbo/dynamicalsystems/SigmoidSystem.py: decouple_parameters", "dmpbbo/dynamicalsystems/RichardsSystem.py: decouple_parameters"]}
{"id": "C15", "title": "Initial-state setters keep the state well formed", "statement": "After construction and any sequence of (accepted or rejected) x_init and y_init assignments, the initial state of a dynamical system has size dim_x; an assignment of the wrong size raises ValueError and changes nothing; after an accepted y_init assignment y_init reads back the assigned value and the rest of the state is zero; an order other than 1 or 2 is rejected.", "quantifier": "all orders, dimensions and finite sequences of assignments", "why_tests_cant": "an invariant over all call sequences", "anchors": ["dmpbbo/dynamicalsystems/DynamicalSystem.py: __init__, x_init, y_init, integrate_start"]}
{"id": "C16", "title": "DMP state layout", "statement": "The index sets that a Dmp uses for spring position, spring velocity, goal, phase, gating and damping are pairwise disjoint, together cover the state vector of size 4*n+2 exactly, and positions, velocities and accelerations read from a state are those of the spring part (acceleration = rate of the velocity part divided by tau).", "quantifier": "all dimensionalities n and all state vectors", "why_tests_cant": "an off-by-one in one slice silently mixes subsystems for some n only", "anchors": ["dmpbbo/dmps/Dmp.py: Dmp.__init__ (SPRING..DAMPING), states_as_pos_vel_acc, states_as_trajectory"]}
{"id": "C17", "title": "Training targets invert the transformation system", "statement": "If the function approximators reproduce the training targets exactly, then along the demonstration the Dmp's acceleration equals the demonstrated acceleration at every sample, for each forcing-term scaling and with or without damping system, as long as gating (and scaling factor) is non-zero.", "quantifier": "all trajectories (any length, any dimension), all subsystems, all three scalings, any spring constant, damping, mass 1 and tau", "why_tests_cant": "an algebraic inversion that has to be exact for all real data; tests only compare reproduced curves visually or with tolerance", "anchors": ["dmpbbo/dmps/Dmp.py: _compute_targets, analytical_solution, differential_equation"]}
{"id": "C18", "title": "A DMP reproduces the demonstration it was trained on", "statement": "If the function approximators reproduce the training targets exactly, analytical_solution on the training times returns exactly the demonstrated positions, velocities and accelerations for every demonstration that starts at rest and whose positions and velocities follow from its accelerations by the integration rule that the Dmp itself uses; for any other demonstration starting in the same state the position error after k steps is exactly the accumulated integration residual of the demonstration propagated through the spring-damper system.", "quantifier": "all demonstrations of any length and dimension, non-uniform time steps, all scalings", "why_tests_cant": "exact reproduction is an induction over time steps", "anchors": ["dmpbbo/dmps/Dmp.py: train, _compute_targets, analytical_solution, states_as_trajectory"]}
{"id": "C19", "title": "A DMP converges to its goal whatever the forcing term", "statement": "For every bounded forcing-term function, if gating tends to 0 and the delayed goal tends to the attractor, then every motion that obeys the Dmp's differential equation converges to the attractor with velocity tending to 0. In particular this holds for the default subsystems of each dmp_type.", "quantifier": "all bounded function-approximator outputs, all initial states and attractors, all tau > 0 and positive damping; all solutions for t -> infinity", "why_tests_cant": "convergence is a limit statement over all forcing functions and all times", "anchors": ["dmpbbo/dmps/Dmp.py: differential_equation, __init__ (default subsystems)"]}
{"id": "C20", "title": "Setting tau of a DMP only changes the speed", "statement": "After dmp.tau = s*tau, analytical_solution at the time vector s*ts returns the same positions as before at ts, velocities divided by s and accelerations divided by s^2.", "quantifier": "all dmp types, all parameters and trained forcing terms, all time vectors, all s > 0", "why_tests_cant": "requires every subsystem to be rescaled consistently, for all time vectors (induction over the integration loop)", "anchors": ["dmpbbo/dmps/Dmp.py: tau setter, analytical_solution"]}
{"id": "C21", "title": "Translating start and goal of a DMP translates the movement", "statement": "Adding the same vector to the initial and attractor state of a Dmp adds this vector to all positions of analytical_solution and leaves velocities, accelerations, phase, gating and forcing terms unchanged.", "quantifier": "all dmp types with exponential, absent or scaled goal system, all scalings, all trained forcing terms and time vectors", "why_tests_cant": "an invariance relating two runs at all time steps", "anchors": ["dmpbbo/dmps/Dmp.py: analytical_solution, y_init setter, y_attr setter"]}
{"id": "C22", "title": "Scaling start-goal distance scales the movement (G_MINUS_Y0_SCALING)", "statement": "With forcing-term scaling G_MINUS_Y0_SCALING, multiplying the vector from initial to attractor state component-wise by a factor multiplies the deviation of all positions from the initial position, all velocities and all accelerations by that factor.", "quantifier": "all factors, all trained forcing terms, all time vectors", "why_tests_cant": "an invariance relating two runs at all time steps", "anchors": ["dmpbbo/dmps/Dmp.py: analytical_solution (forcing term scaling)"]}
{"id": "C23", "title": "Setting the start position of a DMP takes effect and reads back", "statement": "After dmp.y_init = v the property y_init returns v, the next integration and the next analytical_solution start at position v with zero velocity, and values of the wrong size are rejected without effect.", "quantifier": "all dmp types, all vectors v, any history of assignments", "why_tests_cant": "state is stored in several places; consistency is an invariant over histories", "anchors": ["dmpbbo/dmps/Dmp.py: y_init setter, integrate_start, analytical_solution", "dmpbbo/dynamicalsystems/DynamicalSystem.py: y_init getter"]}
{"id": "C24", "title": "Setting the attractor of a DMP takes effect", "statement": "After dmp.y_attr = g the movement produced by integration and by analytical_solution heads for g: the delayed goal used at late times converges to g.", "quantifier": "all dmp types, all vectors g, any history of assignments", "why_tests_cant": "depends on which goal system is used and on which of several stored copies is read", "anchors": ["dmpbbo/dmps/Dmp.py: y_attr setter, differential_equation, analytical_solution, scale_goal_system", "dmpbbo/dynamicalsystems/RichardsSystem.py"]}
{"id": "C25", "title": "Integrating a DMP has no side effect on later results", "statement": "Any interleaving of integrate_start(), integrate_step, differential_equation and analytical_solution calls leaves the result of every later call unchanged: each result depends only on the parameters of the Dmp and the arguments.", "quantifier": "all finite sequences of calls with arbitrary (also off-trajectory) states", "why_tests_cant": "the calls do overwrite attractor and damping of the internal spring system; only an invariant over all histories shows this is unobservable", "anchors": ["dmpbbo/dmps/Dmp.py: integrate_start, differential_equation, analytical_solution"]}
{"id": "C26", "title": "DMP subsystems evolve independently of the movement", "statement": "One integration step of a Dmp updates phase, gating, goal and damping exactly as one step of these systems alone would, independent of spring state and forcing term, and the i-th dimension of the movement depends only on the i-th function approximator, initial state, goal and damping.", "quantifier": "all states, step sizes, dimensions, forcing terms, both integration methods", "why_tests_cant": "cross-talk between dimensions or subsystems must be excluded for all states", "anchors": ["dmpbbo/dmps/Dmp.py: differential_equation", "dmpbbo/dynamicalsystems/DynamicalSystem.py: integrate_step_runge_kutta"]}
{"id": "C27", "title": "Parameter vector round trip of a DMP", "statement": "For a Dmp with trained function approximators and any selection of distinct array-valued parameters (optionally with the goal), get_param_vector has length get_param_vector_size, set_param_vector(v) followed by get_param_vector returns v, set_param_vector(get_param_vector()) changes nothing, parameters that are not selected are never changed, and vectors of the wrong length are rejected with no change.", "quantifier": "all numbers and shapes of model parameters, all selections in any order, all values", "why_tests_cant": "flattening, offsets and reshaping have to agree for all shapes and selections", "anchors": ["dmpbbo/functionapproximators/FunctionApproximator.py: get_param_vector, set_param_vector, get_param_vector_size, set_selected_param_names", "dmpbbo/dmps/Dmp.py: get_param_vector, set_param_vector, get_param_vector_size, set_selected_param_names"]}
{"id": "C28", "title": "Parameter vector length equals its reported size for every selection", "statement": "For every selection of parameter names, including none, len(get_param_vector()) == get_param_vector_size(), and a previous selection of the goal can be undone by selecting other parameters.", "quantifier": "all selections and histories of selections", "why_tests_cant": "needs all selections including the initial one", "anchors": ["dmpbbo/functionapproximators/FunctionApproximator.py: get_param_vector, get_param_vector_size", "dmpbbo/dmps/Dmp.py: set_selected_param_names"]}
{"id": "C29", "title": "Rollouts of a TaskSolverDmp are pure functions of the sample", "statement": "perform_rollout(sample) returns the same result whatever rollouts were performed before; it does not modify the Dmp passed at construction; its time column starts at 0, ends at tau*factor, is uniformly spaced, has floor(tau*factor/dt)+1 entries, and its spacing is at least dt and less than 2*dt.", "quantifier": "all samples, all histories of rollouts, all dt > 0 and integration times >= dt", "why_tests_cant": "history independence quantifies over all previous calls", "anchors": ["dmpbbo/bbo_of_dmps/TaskSolverDmp.py: __init__, perform_rollout, perform_rollout_dmp"]}
{"id": "C30", "title": "Schedules respect their bounds", "statement": "All schedule values returned by analytical_solution_sched, integrate_start_sched and integrate_step_sched of a DmpWithSchedules lie within [min_schedules, max_schedules] per dimension, and values within the bounds are returned unchanged.", "quantifier": "all bounds (scalar or per dimension, one- or two-sided), all numbers of schedules, all predictions", "why_tests_cant": "depends on truthiness of arrays; behaviour differs between one and several schedules and for bound value 0", "anchors": ["dmpbbo/dmps/DmpWithSchedules.py: __init__, _enforce_schedule_bounds, analytical_solution_sched, integrate_start_sched"]}
{"id": "C31", "title": "Gaussian activations are bounded and normalised ones form a partition of unity", "statement": "Unnormalised activations lie in (0,1] and equal 1 exactly when the input is the centre; they do not increase when the input moves away from the centre along one dimension; normalised activations are non-negative and sum to exactly 1 for every input.", "quantifier": "all centres, non-zero widths, inputs, numbers of basis functions and dimensions", "why_tests_cant": "a statement for all real inputs", "anchors": ["dmpbbo/functionapproximators/basis_functions.py: Gaussian._activations"]}
{"id": "C32", "title": "Neighbouring basis functions intersect at the requested height", "statement": "With centres and widths from get_centers_and_widths, in each dimension two neighbouring basis functions both have activation intersection_height halfway between their centres, the centres are equidistant from the smallest to the largest input.", "quantifier": "all input ranges with max > min, all numbers of basis functions >= 2, all heights in (0,1)", "why_tests_cant": "an identity with sqrt and log in real parameters", "anchors": ["dmpbbo/functionapproximators/basis_functions.py: Gaussian.get_centers_and_widths"]}
{"id": "C33", "title": "Multi-dimensional basis functions cover the full grid exactly once", "statement": "get_centers_and_widths returns exactly prod(n_bfs_per_dim) centres; each combination of per-dimension centres occurs exactly once, in lexicographic order with the last dimension running fastest, and the widths row belongs to the same combination.", "quantifier": "all numbers of dimensions and all numbers of basis functions per dimension >= 1", "why_tests_cant": "the digit-carry loop must be right for every radix vector", "anchors": ["dmpbbo/functionapproximators/basis_functions.py: Gaussian.get_centers_and_widths (digit loop)"]}
{"id": "C34", "title": "Weighted least squares returns the minimiser", "statement": "When training of the weighted least-squares approximator succeeds (the normal matrix is invertible), with non-negative weights and regularisation lambda >= 0 the returned parameters minimise sum_i w_i*(prediction_i - target_i)^2 + lambda*|parameters|^2 over all parameters, and are the only minimiser; targets that are an exact linear (affine, with offset) function of the inputs are recovered exactly when lambda = 0.", "quantifier": "all data sets of any size and dimension, all non-negative weights, all lambda >= 0", "why_tests_cant": "optimality compares with all parameter vectors", "anchors": ["dmpbbo/functionapproximators/FunctionApproximatorWLS.py: _train, _predict"]}
{"id": "C35", "title": "RBFN prediction is the best approximation in the span of its basis functions", "statement": "RBFN predictions are linear in the weights; training yields weights that minimise the (regularised) squared error over all weight vectors; targets generated by some weights are reproduced exactly at the training inputs when regularisation is 0.", "quantifier": "all data sets, centres and widths for which training succeeds", "why_tests_cant": "optimality compares with all weight vectors", "anchors": ["dmpbbo/functionapproximators/FunctionApproximatorRBFN.py: _train, _predict"]}
{"id": "C36", "title": "LWR predictions are convex combinations of local lines and reproduce affine data", "statement": "Every LWR prediction lies between the smallest and the largest value of the local linear models at that input, and if the training targets are an affine function of the inputs, training that succeeds reproduces this function at every input (not only the training inputs).", "quantifier": "all inputs, slopes, offsets, centres and widths; all affine functions", "why_tests_cant": "quantifies over all inputs and all affine functions", "anchors": ["dmpbbo/functionapproximators/FunctionApproximatorLWR.py: _train, _get_lines, _predict"]}
{"id": "C37", "title": "LWR honours its regularisation parameter", "statement": "Training LWR with regularization lambda gives, for each basis function, the line that minimises the weighted squared error plus lambda times the squared norm of its parameters.", "quantifier": "all data sets and all lambda >= 0", "why_tests_cant": "tests use lambda = 0, for which the difference cannot be seen", "anchors": ["dmpbbo/functionapproximators/FunctionApproximatorLWR.py: _train", "dmpbbo/functionapproximators/FunctionApproximatorWLS.py: __init__"]}
{"id": "C38", "title": "GPR interpolates its training data", "statement": "When training of the GPR approximator succeeds, predicting at each training input returns the training target exactly, and predictions are linear in the targets.", "quantifier": "all training sets for which the Gram matrix is invertible, all length scales and covariances", "why_tests_cant": "all data sets", "anchors": ["dmpbbo/functionapproximators/FunctionApproximatorGPR.py: _train, _predict, _activations"]}
{"id": "C39", "title": "Predictions are made sample by sample", "statement": "Predicting a batch of inputs gives for each input the same value as predicting it alone, for RBFN, LWR, GPR and WLS; calling predict before train or with another input dimensionality raises ValueError.", "quantifier": "all batches of any size, all models", "why_tests_cant": "online integration calls predict with one input, analytical_solution with all; they must agree for every input", "anchors": ["dmpbbo/functionapproximators/FunctionApproximator.py: predict", "dmpbbo/functionapproximators/FunctionApproximatorRBFN.py: _predict", "dmpbbo/functionapproximators/FunctionApproximatorLWR.py: _predict", "dmpbbo/functionapproximators/FunctionApproximatorGPR.py: _predict", "dmpbbo/functionapproximators/FunctionApproximatorWLS.py: _predict"]}
{"id": "C40", "title": "Trajectory shape invariant", "statement": "After construction and any sequence of append, prepend, crop, padding, set_start_time_to_zero, misc assignment and recomputation of derivatives, positions, velocities, accelerations and (if present) misc have as many rows as there are times, and positions, velocities and accelerations have the same number of columns.", "quantifier": "all trajectories and all finite sequences of operations that do not raise", "why_tests_cant": "an invariant over all operation sequences", "anchors": ["dmpbbo/dmps/Trajectory.py: Trajectory.__init__, append, prepend, crop, pad_front, pad_end, set_start_time_to_zero, misc, recompute_derivatives"]}
{"id": "C41", "title": "Trajectory matrix round trip", "statement": "Trajectory.from_matrix(traj.as_matrix(), n_dims_misc) returns a trajectory with the same times, positions, velocities, accelerations and misc, and conversely as_matrix(from_matrix(m, n_dims_misc)) == m for every matrix whose number of columns is 1+3*n+n_dims_misc.", "quantifier": "all lengths, dimensions n >= 1 and numbers of misc columns", "why_tests_cant": "column offsets have to be right for all n and n_dims_misc", "anchors": ["dmpbbo/dmps/Trajectory.py: from_matrix, as_matrix, loadtxt"]}
{"id": "C42", "title": "Concatenating trajectories keeps time strictly increasing", "statement": "If both trajectories have strictly increasing times, so has the trajectory after append and after prepend; durations add up together with one mean time step; samples of both are kept in order.", "quantifier": "all pairs of trajectories with strictly increasing times (at least two samples), any start times", "why_tests_cant": "tests only use trajectories that start at time 0", "anchors": ["dmpbbo/dmps/Trajectory.py: append, prepend, set_start_time_to_zero"]}
{"id": "C43", "title": "Cropping keeps exactly the requested samples", "statement": "crop by index keeps exactly the samples start..end-1 (with Python slice semantics); crop by time keeps exactly those samples whose time lies in the requested interval, in particular cropping with an interval containing all times keeps everything.", "quantifier": "all trajectories with increasing times, all start < end", "why_tests_cant": "boundary behaviour at the first and last sample", "anchors": ["dmpbbo/dmps/Trajectory.py: crop"]}
{"id": "C44", "title": "Polynomial trajectories satisfy their boundary conditions", "statement": "Trajectory.from_polynomial(ts, ...) starts and ends with exactly the requested position, velocity and acceleration, and its velocities and accelerations are the derivatives of its positions.", "quantifier": "all boundary conditions, all time vectors with positive duration, any start time", "why_tests_cant": "an identity in the durations; the demos only use zero boundary velocities or unit duration", "anchors": ["dmpbbo/dmps/Trajectory.py: from_polynomial"]}
{"id": "C45", "title": "Minimum-jerk trajectories", "statement": "Trajectory.from_min_jerk(ts, a, b) starts at a and ends at b, with zero velocity and acceleration at both ends, every coordinate moves monotonically from a to b without overshoot, and velocities and accelerations are the first and second derivatives of position.", "quantifier": "all a, b, all time vectors of positive duration, any start time", "why_tests_cant": "monotonicity between samples and derivative identities for all times", "anchors": ["dmpbbo/dmps/Trajectory.py: from_min_jerk"]}
{"id": "C46", "title": "Numerical differentiation is exact on constant-velocity data", "statement": "For uniformly sampled data, the velocities computed by Trajectory (when not given) are exact for every constant-velocity motion and exact at all interior samples for every constant-acceleration motion.", "quantifier": "all numbers of samples >= 2, all dimensions, slopes, step sizes", "why_tests_cant": "boundary handling differs for short trajectories", "anchors": ["dmpbbo/dmps/Trajectory.py: diffnc, __init__, recompute_derivatives"]}
{"id": "C47", "title": "Padding holds position and keeps the movement", "statement": "pad_front(n)/pad_end(n) add exactly n samples with the first/last position and zero velocity and acceleration, keep all other samples, in order, and keep time strictly increasing.", "quantifier": "all trajectories with positive mean time step and all n >= 1", "why_tests_cant": "depends on start time and step", "anchors": ["dmpbbo/dmps/Trajectory.py: pad_front, pad_end, prepend, append"]}
{"id": "C48", "title": "Weights form a probability vector and follow the cost order", "statement": "costs_to_weights returns one weight per sample, all non-negative and summing to exactly 1; a sample with lower cost never gets a lower weight (for all methods; strictly higher for PI-BB with h>0), equal costs give equal PI-BB weights; only total costs (first component) matter.", "quantifier": "all non-empty cost vectors (ties included), all eliteness h for PI-BB and 1 <= mu <= n for CEM and CMA-ES", "why_tests_cant": "ties and permutations of costs are combinatorial; the sum is an identity with exp/log", "anchors": ["dmpbbo/bbo/updaters.py: costs_to_weights"]}
{"id": "C49", "title": "PI-BB weights do not depend on the scale of the costs", "statement": "PI-BB weights are unchanged when all costs are multiplied by a positive constant or shifted by a constant, and permuting the samples permutes the weights; an unknown method name behaves as PI-BB.", "quantifier": "all cost vectors, all positive factors and all shifts, all permutations", "why_tests_cant": "an invariance over real parameters", "anchors": ["dmpbbo/bbo/updaters.py: costs_to_weights"]}
{"id": "C50", "title": "Reward-weighted averaging stays within the samples", "statement": "The mean after an update lies, in each dimension, between the smallest and largest sample value (it is a convex combination of the samples); if all samples are equal it equals them; the distribution passed in is not modified.", "quantifier": "all updaters, samples, costs, weighting methods", "why_tests_cant": "all sample sets", "anchors": ["dmpbbo/bbo/updaters.py: UpdaterMean.update_distribution, UpdaterCovarDecay.update_distribution, UpdaterCovarAdaptation.update_distribution"]}
{"id": "C51", "title": "Covariance decay", "statement": "After k updates with UpdaterCovarDecay the covariance is exactly decay^(2k) times the initial covariance, whatever samples and costs were seen; it stays symmetric and positive semi-definite.", "quantifier": "all k, all decay factors, all histories of samples and costs", "why_tests_cant": "induction over the number of updates", "anchors": ["dmpbbo/bbo/updaters.py: UpdaterCovarDecay.update_distribution"]}
{"id": "C52", "title": "Covariance adaptation keeps a valid covariance matrix", "statement": "After any number of updates with UpdaterCovarAdaptation starting from a symmetric positive semi-definite covariance, the covariance is symmetric and positive semi-definite, for all settings of diagonal_max, diagonal_min, diag_only and learning_rate.", "quantifier": "all histories of updates, all samples and costs, all settings", "why_tests_cant": "validity must survive any history; clipping diagonals can destroy it for particular off-diagonals", "anchors": ["dmpbbo/bbo/updaters.py: UpdaterCovarAdaptation.update_distribution"]}
{"id": "C53", "title": "Diagonal limits of covariance adaptation are enforced", "statement": "After an update with UpdaterCovarAdaptation every diagonal entry of the covariance is at most diagonal_max^2 and at least diagonal_min^2 (scalar or per dimension, when min <= max), entries within the limits are not changed, learning_rate 0 keeps the old covariance and 1 ignores it, and learning rates outside [0,1] are rejected.", "quantifier": "all samples, costs and settings", "why_tests_cant": "all samples and settings", "anchors": ["dmpbbo/bbo/updaters.py: UpdaterCovarAdaptation.__init__, update_distribution"]}
{"id": "C54", "title": "Bounded distributions stay in bounds during the whole optimisation", "statement": "All samples of a DistributionGaussianBounded lie within its bounds, and in an optimisation that starts with such a distribution every later distribution mean lies within the bounds.", "quantifier": "all draws of the random generator, all numbers of updates, all updaters", "why_tests_cant": "random draws are arbitrary; the invariant ranges over whole optimisation runs", "anchors": ["dmpbbo/bbo/DistributionGaussianBounded.py: generate_samples", "dmpbbo/bbo/run_optimization.py: run_optimization", "dmpbbo/bbo/updaters.py"]}
{"id": "C55", "title": "Optimisation history is consistent", "statement": "In the session returned by run_optimization, for every update i the recorded new distribution is the recorded distribution of update i+1, the evaluated sample is the mean of distribution i, the recorded costs are the cost function applied to the recorded samples, and the recorded weights are those used for the update.", "quantifier": "all cost functions, updaters, numbers of updates and samples, all random draws", "why_tests_cant": "a statement over whole runs", "anchors": ["dmpbbo/bbo/run_optimization.py: run_optimization", "dmpbbo/bbo/LearningSession.py: add_eval, add_update, tell, ask"]}
{"id": "C56", "title": "A learning session behaves like a map", "statement": "Within one session, ask returns the value of the latest tell for the same name, update and sample number, raises an error if there is none, is unaffected by tells for other keys, and later modification of objects passed to tell or obtained from ask does not change what the session returns.", "quantifier": "all finite sequences of tell/ask/exists and of modifications of the objects handed in or out, with or without directory", "why_tests_cant": "aliasing and caching errors only show up in particular call orders", "anchors": ["dmpbbo/bbo/LearningSession.py: tell, ask, exists"]}
{"id": "C57", "title": "A session re-opened from its directory returns the latest values", "statement": "After any sequence of tells in a session with a directory, a session created with from_dir on that directory returns for every key the value of the latest tell.", "quantifier": "all sequences of tells, including values of different kinds (array, data frame, object) for the same key", "why_tests_cant": "depends on order and kind of earlier tells (files of several formats may coexist)", "anchors": ["dmpbbo/bbo/LearningSession.py: from_dir, ask, tell, save"]}
{"id": "C58", "title": "Session keys do not collide", "statement": "Two different combinations of name, update number and sample label are stored under different entries, so telling one never changes the answer for the other.", "quantifier": "all names, update and sample numbers of any magnitude, sample labels", "why_tests_cant": "zero padding and prefix concatenation must be injective for all numbers and names", "anchors": ["dmpbbo/bbo/LearningSession.py: get_base_name"]}
{"id": "C59", "title": "get_n_updates returns the number of updates", "statement": "After N updates have been added (numbered 0..N-1), get_n_updates returns N, with or without directory, for every N; learning curves therefore contain N rows.", "quantifier": "all N, including 0, 1 and N beyond the zero-padding width", "why_tests_cant": "depends on lexicographic sorting of directory names and on off-by-one conventions", "anchors": ["dmpbbo/bbo/LearningSession.py: get_n_updates, add_update, get_learning_curve, get_eval_cost_before_after"]}
{"id": "C60", "title": "Learning curve abscissa", "statement": "The first column of the learning curve is strictly increasing and counts the samples evaluated so far: i*n_samples_per_update when separate evaluations exist, (i+0.5)*n_samples_per_update otherwise; the cost column then is the evaluation cost, respectively the mean over the samples of that update.", "quantifier": "all sessions with any number of updates and samples", "why_tests_cant": "all sessions", "anchors": ["dmpbbo/bbo/LearningSession.py: get_learning_curve, get_eval_costs, get_sample_costs"]}
{"id": "C61", "title": "Step-by-step update can be repeated after a crash", "statement": "If update_step is interrupted between any two of its write operations and then run again completely (in a new session on the same directory, with the same samples drawn), the resulting database is the same as if it had run once without interruption.", "quantifier": "all crash points, all costs, updaters, samples and numbers of samples, with and without saved trajectories", "why_tests_cant": "requires every crash point; reads must not see what an interrupted run has written", "anchors": ["dmpbbo/bbo_of_dmps/step_by_step_optimization.py: update_step, _generate_samples", "dmpbbo/bbo/LearningSession.py: tell, ask"]}
{"id": "C62", "title": "Step-by-step optimisation equals the monolithic one", "statement": "Running prepare_optimization followed by update_step for i = 0..N-1 (with rollouts performed in between) yields the same sequence of distributions as run_optimization_task with the same random draws, task, solver and updater.", "quantifier": "all tasks, solvers, updaters, N and random draws", "why_tests_cant": "equality of two state machines over whole runs", "anchors": ["dmpbbo/bbo_of_dmps/step_by_step_optimization.py: prepare_optimization, update_step", "dmpbbo/bbo_of_dmps/run_optimization_task.py: run_optimization_task"]}
{"id": "C63", "title": "Contextual DMP: predicted parameters take effect", "statement": "After training a DmpContextualTwoStep, setting task parameters installs in the Dmp exactly the vector of values predicted by the policy parameter function; if this function interpolates its training data, setting the task parameters of the k-th demonstration installs exactly the parameters that a Dmp trained on that demonstration alone has; the start position used afterwards is the mean of the demonstrated start positions.", "quantifier": "all sets of demonstrations and task parameters, all selections of parameters", "why_tests_cant": "all demonstration sets", "anchors": ["dmpbbo/dmps/DmpContextualTwoStep.py: train, set_task_params, analytical_solution"]}
{"id": "C64", "title": "Viapoint task: total cost is the sum of its components", "statement": "The cost vector of TaskViapoint has the sum of its components as first entry, all entries are non-negative, the viapoint cost is 0 exactly when the waypoint is within the radius, and each component depends only on its own weight.", "quantifier": "all trajectories, viapoints, weights >= 0 and radii", "why_tests_cant": "all trajectories and weights", "anchors": ["demos/python/bbo_of_dmps/TaskViapoint.py: evaluate_rollout_local, get_waypoint"]}
{"id": "C65", "title": "Python and C++ dynamical systems agree", "statement": "A dynamical system or integration step executed by the C++ classes gives the same state and rates as the Python class with the same parameters (in exact arithmetic), so that a movement trained in Python is the movement executed on the robot.", "quantifier": "all parameters, states, times and step sizes of exponential, time, sigmoid and spring-damper systems, Euler and Runge-Kutta steps, basis-function activations and RBFN/LWR predictions", "why_tests_cant": "the integration tests compare a handful of trajectories printed to files", "anchors": ["src/dynamicalsystems/*.cpp", "src/functionapproximators/*.cpp", "dmpbbo/dynamicalsystems/*.py", "dmpbbo/functionapproximators/*.py"]}
{"id": "C66", "title": "Viapoint polynomials pass through start, viapoint and end", "statement": "Trajectory.from_viapoint_polynomial(ts, y_from, [y yd ydd], viapoint_time, y_to) on equidistant times keeps these times, starts at y_from, has the viapoint position at the first sample not before viapoint_time, and ends at y_to.", "quantifier": "all dimensions, positions, viapoint velocities and accelerations, numbers of samples and viapoint times with at least two samples on each side", "why_tests_cant": "the demos only use one viapoint with zero velocity and acceleration; the claim depends on polynomial coefficients", "anchors": ["dmpbbo/dmps/Trajectory.py: from_viapoint_polynomial, from_polynomial, append"]}
{"id": "C67", "title": "A trained RBFN or LWR can predict", "statement": "If training an RBFN or LWR succeeds, predicting at its training inputs succeeds too, whether the number of basis functions is given per dimension or as one number for all dimensions.", "quantifier": "all data sets, all input dimensions, all numbers of basis functions", "why_tests_cant": "the tests only use one number for one-dimensional inputs, or a list for two-dimensional ones", "anchors": ["dmpbbo/functionapproximators/FunctionApproximatorRBFN.py: _train, _predict", "dmpbbo/functionapproximators/FunctionApproximatorLWR.py: _train, _predict", "dmpbbo/functionapproximators/basis_functions.py: Gaussian.get_centers_and_widths"]}
{"id": "C68", "title": "Parameter vector round trip of a DMP with schedules", "statement": "For a DmpWithSchedules with any selection of distinct array-valued parameters (names with the prefix sched_ for the schedules), get_param_vector consists of the values of the Dmp followed by those of the schedules and has length get_param_vector_size, set_param_vector(v) followed by get_param_vector returns v, set_param_vector(get_param_vector()) changes nothing, parameters that are not selected are never changed, and vectors of the wrong length are rejected with no change.", "quantifier": "all numbers of schedules, shapes of model parameters, selections and values", "why_tests_cant": "offsets in the vector have to agree for all numbers of function approximators and all selections", "anchors": ["dmpbbo/dmps/DmpWithSchedules.py: set_selected_param_names, get_param_vector, set_param_vector, get_param_vector_size"]}
{"id": "C69", "title": "Schedules do not influence the motion", "statement": "The states returned by analytical_solution_sched, integrate_start_sched and integrate_step_sched are those of the Dmp without schedules, exceptions of the Dmp are passed on, and train_sched trains the Dmp as train does and each schedule with the phases of the analytical solution and its own column of the demonstrated schedules.", "quantifier": "all Dmps, schedules, bounds, times, states and demonstrations", "why_tests_cant": "needs all states of both parts of the object", "anchors": ["dmpbbo/dmps/DmpWithSchedules.py: train_sched, analytical_solution_sched, integrate_start_sched, integrate_step_sched"]}
{"id": "C70", "title": "A Dmp written by Python can be loaded and executed by C++", "statement": "A Dmp whose initial state is set, whose function approximators have been trained and whose amplitudes are known if the forcing term is scaled by them, saved with savejson_for_cpp, is read by the C++ from_json without an exception, and integrating the result on the robot does not fail.", "quantifier": "all Dmp types, constructor arguments, and sequences of setters, training, selections and queries that precede saving", "why_tests_cant": "the integration tests only save freshly trained Dmps of some types", "anchors": ["dmpbbo/dmps/Dmp.py", "dmpbbo/json_for_cpp.py: savejson_for_cpp", "src/dmp/Dmp.cpp: from_json, integrateStart, differentialEquation", "demos/robot/robotExecuteDmp.cpp"]}
{"id": "C71", "title": "The Dmp loaded by C++ makes the motion of the Dmp in Python", "statement": "For a Dmp that was saved by Python and loaded by C++, rates of change, integration steps, whole executions and the analytical solution of C++ equal those of Python (without the damping states, which C++ does not have), also after the same time constants, initial states and attractor states have been set on both.", "quantifier": "all Dmps that can be loaded and used, all sequences of setters, step sizes, times and states, exact arithmetic", "why_tests_cant": "the integration tests compare a few trajectories; states and setters are unbounded", "anchors": ["dmpbbo/dmps/Dmp.py", "src/dmp/Dmp.cpp", "demos/robot/robotExecuteDmp.cpp"]}
{"id": "C72", "title": "C++ generates the trajectories of Python, through the viapoint", "statement": "generateMinJerkTrajectory and generatePolynomialTrajectory return the trajectory that Python's from_min_jerk and from_polynomial return, and fail for the same arguments; generatePolynomialTrajectoryThroughViapoint returns a trajectory with the given times that starts at y_from at rest, is at the viapoint with the requested velocity and acceleration at the first time not before viapoint_time, and ends at y_to at rest.", "quantifier": "all times, positions, velocities, accelerations and viapoint times, exact arithmetic", "why_tests_cant": "the tests generate a few trajectories with viapoints at rest", "anchors": ["src/dmp/Trajectory.cpp:142-255", "dmpbbo/dmps/Trajectory.py: from_min_jerk, from_polynomial, from_viapoint_polynomial"]}
{"id": "C73", "title": "Trajectories survive being written to and read from text files, in C++ and Python", "statement": "A trajectory that is saved by C++ or Python and read by either (with the right number of miscellaneous variables) is the same trajectory; saving does not touch other files, does not overwrite unless told to, and reports true exactly if the file was written.", "quantifier": "all trajectories with at least one sample (two for Python), all file systems", "why_tests_cant": "numbers and sizes are unbounded; failing file systems are not tested", "anchors": ["src/dmp/Trajectory.cpp:257-308", "src/eigenutils/eigen_file_io.tpp", "dmpbbo/dmps/Trajectory.py: savetxt, loadtxt"]}
{"id": "C74", "title": "Appending trajectories in C++ concatenates them", "statement": "append succeeds exactly if the trajectories have the same dimensions, meet in time, and agree in position, velocity and acceleration there; the result is the concatenation without the duplicate sample, its duration is the sum, times stay increasing, and appending is associative (if the trajectory in the middle has at least two samples). The constructor accepts exactly matrices of the same sizes; set_misc replaces the miscellaneous variables only if the number of rows fits.", "quantifier": "all trajectories", "why_tests_cant": "sizes and contents are unbounded; failing asserts are not tested", "anchors": ["src/dmp/Trajectory.cpp:40-140"]}
{"id": "C75", "title": "Numerical integration of a Dmp arrives at the attractor if the steps are small enough", "statement": "For a Dmp with default subsystems (after any sequence of constructor, training, setters and integration) there is a step length below which the sequence of states computed by integrate, or by integrate_start and integrate_step, with Euler's method or with Runge-Kutta, tends to rest at y_attr, whatever the function approximators have learnt. Directly after the constructor, steps up to tau/17 (tau/100 for the dmp_types of 2022) below 4 tau/alpha_spring_damper are small enough. Steps that are too long are not.", "quantifier": "all reachable Dmps with default subsystems, both methods, all small step lengths, unbounded number of steps", "why_tests_cant": "a limit over infinitely many steps, for all trained function approximators; tests run one step length for a finite time", "anchors": ["dmpbbo/dynamicalsystems/DynamicalSystem.py:133-222", "dmpbbo/dmps/Dmp.py:193-330"]}
{"id": "C76", "title": "Link positions of the planar arm are those of its forward kinematics", "statement": "angles_to_link_positions returns, for every number of links, angles and lengths, the base at the origin and for joint k the sum of the first k links, each of them pointing in the direction of the sum of the angles so far; the matrix has two columns per joint. Consecutive joints are a link length apart, the end-effector is not further from the base than the lengths together, changing an angle moves only the joints behind it, and changing the first angle rotates the arm as a whole.", "quantifier": "all numbers of links, joint angles and link lengths, all time steps", "why_tests_cant": "real-valued angles and any number of joints; the demo only plots the arm", "anchors": ["demos/python/bbo_of_dmps/arm2D/TaskSolverDmpArm2D.py:68-87"]}
{"id": "C77", "title": "The solver and task of the planar arm", "statement": "The solver keeps the link lengths that it is given, and has n links of length 1/n if none are given. A rollout contains the times, the joint angles of the Dmp with their velocities and accelerations, and the link positions of these angles; the task computes the viapoint cost with the end-effector in the last two columns, and the acceleration cost with the joint accelerations; the total is the sum.", "quantifier": "all Dmps, samples, link lengths and viapoints", "why_tests_cant": "constructor branches are not tested; the demo runs one arm", "anchors": ["demos/python/bbo_of_dmps/arm2D/TaskSolverDmpArm2D.py:31-66", "demos/python/bbo_of_dmps/arm2D/TaskViapointArm2D.py:28-55"]}
{"id": "C78", "title": "Simulation of a thrown ball in Python", "statement": "run_python_simulation returns one row per hundredth of a second up to 1.5 times the duration: time, position, velocity and acceleration of the hand as integrated by the Dmp, and the position of a ball that is held up to the first time after 0.6, then flies under gravity (semi-implicit Euler, a parabola with a known deviation), and lies where it first fell below the floor. Once released, it is never below the floor, and it always lands. The simulation fails exactly if the integration fails.", "quantifier": "all planar Dmps reachable by any sequence of setters and queries, all floors", "why_tests_cant": "the demo runs one Dmp and only plots the result", "anchors": ["demos/robot/TaskThrowBall.py:103-168"]}
{"id": "C79", "title": "Simulation of a thrown ball in C++, compared with Python", "statement": "robotExecuteDmp and robotExecuteTrajectory write one row of 14 columns per step or sample: time, hand, ball (position, velocity and acceleration; 0 on the floor) and whether the ball is in the hand. What is not planar, has a negative duration or fewer than two samples violates an assertion. A Dmp saved by Python and loaded by C++ gives the rows of the simulation in Python.", "quantifier": "all Dmps that can be executed, all trajectories with increasing times, all Dmps of the types that C++ can load", "why_tests_cant": "both programs are demos without tests; nothing compares their output files", "anchors": ["demos/robot/runSimulationThrowBall.cpp:37-133", "demos/robot/robotExecuteDmp.cpp:66-95", "demos/robot/robotExecuteTrajectory.cpp:66-90", "demos/robot/TaskThrowBall.py:103-168"]}
{"id": "C80", "title": "Costs of throwing a ball", "statement": "evaluate_rollout returns the sum and two costs with labels: the distance of the ball in the last row from the goal beyond the margin (0 exactly within the margin), and the weighted mean of squared accelerations (0 exactly if the weight is not positive or all are 0). No cost is negative; without rows or ball columns there is an IndexError. If the ball lands before the end, the cost for the landing site is the same for the rows of C++ and Python.", "quantifier": "all tasks, all cost variables, all loadable Dmps", "why_tests_cant": "real-valued rows of any number; boundary of the margin; rows of two programs", "anchors": ["demos/robot/TaskThrowBall.py:8-60"]}
{"id": "C81", "title": "Following a Dmp in a force field", "statement": "perform_rollout of the force field simulator returns for each of the evenly spaced times the position, velocity and acceleration of the Dmp as integrate computes them, the clipped gains for the phase at that time, the field, and a motion that starts at the Dmp and, at each step, accelerates by the desired acceleration, the gain times the position error, the root of the gain times the velocity error and the field. It changes nothing but internal caches of the Dmp, succeeds exactly if the Dmp can be integrated and gains are not negative, and needs two times. The effect of the field is proportional to its strength. The task solver sets the parameters of the sample and returns these rows in a fixed order of columns.", "quantifier": "all Dmps with schedules reachable by any sequence of setters and queries, all strengths and modes of the field, all numbers of times", "why_tests_cant": "the demo runs one Dmp with one schedule and only plots", "anchors": ["demos/python/bbo_of_dmps/with_schedules/force_field_simulator.py:27-86", "demos/python/bbo_of_dmps/with_schedules/demo_bbo_of_dmps_with_gains.py:134-184"]}
{"id": "C82", "title": "The controlled motion arrives at the attractor despite the force field", "statement": "With default subsystems and steps that are small enough, the controlled motion comes to rest at the attractor as the duration grows, whatever the strength of the force field, if the gains tend to positive numbers below ((sqrt 5 - 1) / dt)^2. Above this bound the positions can get arbitrarily large.", "quantifier": "all histories of assignments, training and queries, all fields, all converging gains", "why_tests_cant": "limit of unboundedly many steps; stability bound over the reals", "anchors": ["demos/python/bbo_of_dmps/with_schedules/force_field_simulator.py:56-79", "dmpbbo/dmps/Dmp.py"]}
{"id": "C83", "title": "Costs of following a Dmp with gains", "statement": "evaluate_rollout of the task with gains returns the sum and three costs with labels: the weighted distance to the viapoint at the first time that is not before its time, the weighted mean of absolute accelerations, and the normalised sum of the gains, which is 0 if all gains are at the minimum.", "quantifier": "all tasks and cost variables, all rollouts of the task solver", "why_tests_cant": "real-valued rows of any number; the demo only plots learning curves", "anchors": ["demos/python/bbo_of_dmps/with_schedules/demo_bbo_of_dmps_with_gains.py:37-93"]}
{"id": "C84", "title": "Both ways of integrating a Dmp approximate one and the same exact motion", "statement": "From the state of integrate_start, a Dmp with default subsystems has exactly one exact motion, that is, solution of its differential equation. Up to any time and for any precision, if the times are sufficiently close to each other, all states returned by integrate (Euler or Runge-Kutta) and by analytical_solution, and their rates of change of positions and velocities, are that close to the exact motion, and thus to each other. If integrate_start succeeds and the function approximators answer for each phase, then both succeed for each non-empty array of times.", "quantifier": "all histories of assignments, training and queries, all function approximators, all durations and precisions, all fine arrays of times (evenly spaced or not)", "why_tests_cant": "the exact motion is not computable; limit over all grids; tests compare the two solutions with a tolerance for some trajectories", "anchors": ["dmpbbo/dmps/Dmp.py:194-439", "dmpbbo/dynamicalsystems/DynamicalSystem.py:145-225"]}
{"id": "C85", "title": "set_params_dyn_sys sets the parameters that are given and nothing else", "statement": "Dmp.set_params_dyn_sys either succeeds, and then each given parameter of each given subsystem has the given value, or raises an exception and leaves the Dmp as it was. It succeeds exactly if all names are those of subsystems that are there and of attributes of these. All other attributes stay as they are. After it, the subsystems move according to their new parameters. Setting coefficients of the movement to values of the right size keeps the Dmp in working order.", "quantifier": "all Dmps, all dictionaries of parameters (with values of the types the attributes have)", "why_tests_cant": "no test calls it; the combinations of subsystem classes, names and orders of entries are unbounded", "anchors": ["dmpbbo/dmps/Dmp.py:657-677"]}
{"id": "C86", "title": "save_all saves a session that can be opened again", "statement": "LearningSession.save_all writes the items of the cache in the order of the dictionary, each to the file of its key with the extension for its type. A session without directory that is saved to an empty directory can be opened with from_dir: it has the same number of samples per update, ask returns for each key the value told last (as it is read from file), and raises IOError for keys that were never told.", "quantifier": "all sequences of tells of objects of any types, all keys, both classes of sessions", "why_tests_cant": "sequences of tells and combinations of keys and types are unbounded; tests save one session", "anchors": ["dmpbbo/bbo/LearningSession.py:408-440", "dmpbbo/bbo/LearningSession.py:259-269", "dmpbbo/bbo/LearningSession.py:312-406"]}
{"id": "C87", "title": "A Dmp made from a demonstration starts, ends and lasts as the demonstration", "statement": "Dmp.from_traj returns a Dmp whose time constant is the duration of the demonstration, that starts at the first sample with velocity zero and whose attractor is the last sample; phase, gate and delayed goal follow the curves of these values, the exact motion tends to rest at the last sample, and with interpolating function approximators (GPR) the motion is the demonstration itself. An empty demonstration raises IndexError, an unknown dmp_type ValueError. from_traj_sched makes the same Dmp, with the trained schedules.", "quantifier": "all demonstrations, all options of the constructor, all function approximators, all query times", "why_tests_cant": "demonstrations and options are unbounded, and the tests only train on demonstrations that start at time zero", "anchors": ["dmpbbo/dmps/Dmp.py:160-180", "dmpbbo/dmps/Dmp.py:441-480", "dmpbbo/dmps/DmpWithSchedules.py:50-110"]}
{"id": "C88", "title": "Invalid calls raise the documented exception and leave the object as it was", "statement": "Calls with arguments of the wrong size or type, and calls on objects that are not ready (not trained, no initial state, no times, empty trajectories), raise the exception that the code has for this case - ValueError, TypeError, IndexError, AttributeError, KeyError, OSError or ZeroDivisionError in Python, a failed assertion, a json exception or a NULL pointer in C++ - and the object is the same as before the call. This holds for the dynamical systems, trajectories, function approximators, Dmps with all variants, the updaters of the distribution and the database of the session.", "quantifier": "all arguments and all objects that meet the condition of the invalid call", "why_tests_cant": "sizes and states of objects are unbounded, and tests hardly look at the state of an object after an exception", "anchors": ["dmpbbo/dynamicalsystems/DynamicalSystem.py:60-175", "dmpbbo/dmps/Trajectory.py:28-110", "dmpbbo/dmps/Trajectory.py:420-450", "dmpbbo/functionapproximators/FunctionApproximator.py:100-150", "dmpbbo/dmps/Dmp.py:180-520", "dmpbbo/bbo/updaters.py:28-235", "dmpbbo/bbo_of_dmps/LearningSessionTask.py:45-62", "src/dmp/Dmp.cpp:188-240"]}
{"id": "C89", "title": "The constructors of the C++ Dmp make Dmps that can be integrated", "statement": "Dmp.hpp offers five constructors. Each of them makes a Dmp with the given duration, initial state, goal, function approximators and scaling, a critically damped spring, and the goal, phase and gating system of the type; the Dmp can then be integrated, and its gate is closed to a tenth when the movement ends, as in Python.", "quantifier": "all durations, initial states, goals, function approximators, scalings and names of types", "why_tests_cant": "the constructors for a type are not called by any test or demo, which read all Dmps from json files", "anchors": ["src/dmp/Dmp.cpp:85-240", "src/dmp/Dmp.cpp:251-335", "src/dynamicalsystems/DynamicalSystem.cpp:41-55"]}
{"id": "C90", "title": "Json written by Python is read as the same object in C++, and so is json written by C++", "statement": "The C++ classes read exactly the json values with the members they name, and from what Python writes for a trained Dmp they make the Dmp with the same attributes, with the same movements; other members make no difference. What C++ itself writes for a system can be read again and gives the same system.", "quantifier": "all json values, systems, function approximators and Dmps", "why_tests_cant": "the tests read a few files that Python has written, and never read a file that C++ has written", "anchors": ["dmpbbo/json_for_cpp.py:36-53", "src/eigenutils/eigen_json.tpp:11-40", "src/eigenutils/eigen_json.hpp:47-57", "src/dynamicalsystems/DynamicalSystem.cpp:150-180", "src/dynamicalsystems/ExponentialSystem.cpp:91-107", "src/dynamicalsystems/SpringDamperSystem.cpp:164-188", "src/functionapproximators/FunctionApproximatorRBFN.cpp:98-113", "src/dmp/Dmp.cpp:545-592"]}
{"id": "C91", "title": "The exploration curve shows the largest standard deviation of each distribution", "statement": "max_eigen_value is the largest variance of the distribution among all directions. The exploration curve of a session has for each update the number of samples before it and the square root of this value; it is multiplied by the decay factor in each update with covariance decay, is constant if only the mean is updated, and stays within the limits of the diagonal with covariance adaptation.", "quantifier": "all covariance matrices, updaters, numbers of updates and random draws", "why_tests_cant": "the curve is only drawn; a maximum over all directions, and whole optimisations", "anchors": ["dmpbbo/bbo/DistributionGaussian.py:94-99", "dmpbbo/bbo/LearningSession.py:535-548"]}
{"id": "C92", "title": "apply_low_pass_filter is a Butterworth filter applied forward and backward", "statement": "apply_low_pass_filter replaces the positions by the positions filtered forward and backward in time with a stable Butterworth filter of the given order: the squared gain at frequency F is 1/(1+(tan(pi F/fs)/tan(pi cutoff/fs))^(2 order)), 1 at rest, 1/2 at the cutoff frequency, 0 at half the sample frequency, decreasing in between, and no phase is shifted. It is linear and commutes with translations, a motion at rest is unchanged, times, misc and shapes are kept and the derivatives are recomputed. It raises ValueError, leaving the trajectory unchanged, exactly if the cutoff is not between 0 and half the sample frequency, the order is not positive, or there are at most 3*(order+1) samples.", "quantifier": "all trajectories, cutoff frequencies, orders and frequencies", "why_tests_cant": "a gain at all frequencies and a statement about all orders and numbers of samples; tests look at a few signals", "anchors": ["dmpbbo/dmps/Trajectory.py:528-540", "dmpbbo/dmps/Trajectory.py:603-630"]}
{"id": "C93", "title": "Optimising a Dmp step by step from files equals run_optimization_task with TaskSolverDmp", "statement": "For every Dmp made by the package whose selected parameters can be set, writing a parameter vector and then another keeps only the last, reading returns what was written, and performing rollouts with TaskSolverDmp for a sample is the same as performing the rollout of the Dmp with that sample as parameters. Therefore preparing and executing an optimisation step by step, with the Dmps saved in files between the updates, gives in every update the samples, costs, cost components and distributions that run_optimization_task gives with TaskSolverDmp, and the directory contains for every update the Dmps, their trajectories (if asked for), cost variables and costs of the mean and of all samples.", "quantifier": "all Dmps, tasks, distributions, updaters, random draws, numbers of samples and updates", "why_tests_cant": "two programs with different storage compared over all histories of all optimisations; tests run one short optimisation with one of them", "anchors": ["dmpbbo/bbo_of_dmps/step_by_step_optimization.py:22-142", "dmpbbo/bbo_of_dmps/TaskSolverDmp.py:31-61", "dmpbbo/dmps/Dmp.py:679-704", "demos/python/bbo_of_dmps/demo_bbo_of_dmps_step_by_step.py:89-103"]}
{"id": "C94", "title": "The robot demo: sampled Dmps are executed by C++ as Python simulates them, and optimising with the robot never fails and follows the costs of its rollouts", "statement": "For every Dmp made by the package with known settings, whose function approximators are trained: step3 of the robot demo writes for every sample a Dmp that has the sample as parameters, and a file that the C++ program reads as a Dmp with the same parts; it fails if the parameters cannot be read, if plots are wanted for fewer than two parameters, or if trajectories are wanted of a Dmp that was not trained with a trajectory. For every Dmp with two dimensions the C++ program for the robot reads the file, and writes floor(150 tau) rows of 14 numbers which are those of the simulation in Python, except for the time and the accelerations in the row of the release. Then, for all random numbers and all choices of which steps are new processes, the optimisation of demo_robot.bash never fails, and the directory contains the history of the optimisation of the costs of these C++ rollouts: Dmps, cost variables, costs, weights, and distributions of every update.", "quantifier": "all trained Dmps of two dimensions, exploration sizes, random draws, tasks, updaters with weights that exist, numbers of samples and updates", "why_tests_cant": "the demo runs a shell script over two languages with one Dmp; that no sampled parameter vector makes the C++ reader or the update fail is a claim over all real parameter vectors", "anchors": ["demos/robot/step3_tune_exploration.py:43-97", "demos/robot/robotExecuteDmp.cpp:66-101", "demos/robot/demo_robot.bash:20-75", "demos/robot/step4_prepare_optimization.py", "demos/robot/step5_one_optimization_update.py"]}
{"id": "C95", "title": "C++ basis functions: asymmetric kernels, Gaussians with covariance matrices, and cosines", "statement": "Asymmetric kernels are bell curves with the width of the previous kernel left of the center; they are continuous, normalised they are positive and sum to 1, and for all centers, also with different distances, neighbours intersect at the intended height. Without asymmetry they are the activations that the function approximators use. Gaussians with covariance matrices are the prior times exp of minus half the squared Mahalanobis distance, are largest at the mean, do not depend on the coordinate system (invariance under affine maps), equal the kernels with widths for diagonal covariance matrices and priors 1, and with positive priors normalised activations are positive, sum to 1 and keep their ratios. Both overloads for cosines agree, and are periodic. Arguments of wrong sizes violate assertions.", "quantifier": "all numbers of kernels, dimensions and samples; all centers, widths, covariance matrices, priors, inputs, affine maps", "why_tests_cant": "identities between two overloads, invariance and continuity over all real inputs; there is no test of these functions", "anchors": ["src/functionapproximators/BasisFunction.cpp:39-106", "src/functionapproximators/BasisFunction.cpp:108-188", "src/functionapproximators/BasisFunction.cpp:190-225"]}
{"id": "C96", "title": "The ellipse that is drawn for a distribution shows one standard deviation in every direction", "statement": "For every Gaussian distribution with at least two parameters, whatever signs and order of vectors the singular value decomposition returns: in every direction of the plane of the first two parameters, no point of the ellipse is further from the mean than the standard deviation of the samples in that direction, and one point is exactly that far. Its longer half axis is the largest standard deviation in the plane. If the covariance matrix of the two parameters is positive definite, the ellipse is exactly the curve of Mahalanobis distance 1. A distribution with one parameter cannot be drawn (ValueError).", "quantifier": "all means, covariance matrices, directions, and singular value decompositions", "why_tests_cant": "plots are not tested; the claim is about all points and directions and all results that svd may return", "anchors": ["dmpbbo/bbo/DistributionGaussian.py:25-65", "dmpbbo/bbo/DistributionGaussian.py:108-116"]}
{"id": "C97", "title": "The plots of a learning session show what happened in the optimisation", "statement": "For every optimisation that succeeds with at least two updates: plot_learning_curve draws one dot per sample with the total cost of that sample, and one line per cost component through the costs of the means of the distributions at the numbers of samples seen so far, with a legend that pairs the labels with the lines; the vertical lines that mark updates are at the ends of the updates, and their number stays readable. plot_distribution_updates draws for every update the old and new mean and the ellipses of one standard deviation, and plot_rollouts draws the rollout of the mean of every listed update in a colour from red to green; the listed updates start with 0, end with the last one, increase, and are at most max_n_updates.", "quantifier": "all cost functions, tasks, updaters, distributions, numbers of samples and updates, and sessions", "why_tests_cant": "plots are not tested; the thinning of lines and the choice of updates depend on unbounded numbers of updates", "anchors": ["dmpbbo/bbo/LearningSession.py:39-120", "dmpbbo/bbo/LearningSession.py:148-231", "dmpbbo/bbo/LearningSession.py:501-597", "dmpbbo/bbo_of_dmps/LearningSessionTask.py:88-159"]}
{"id": "C98", "title": "Plots of function approximators show the trained function, its parts, and the data", "statement": "For every trained function approximator of one or two inputs: plot_predictions_grid draws exactly the predictions on an even grid over the box of the inputs (no point of the box is further away than 1/200 or 1/40 of its width); the lines of plot_model_parameters are the weighted basis functions, whose sum is the prediction (RBFN, GPR), or the locally linear models where their basis function is among the most active, at least one at every point (LWR); plot_predictions draws targets, predictions and the residuals between them. Once trained, an object can be plotted for all inputs, and plotting without inputs shows the data of the last training.", "quantifier": "all trained function approximators, bounds, inputs, targets, and sequences of trainings", "why_tests_cant": "plots are not tested; sums over basis functions and distances to the grid are claims over all real parameters", "anchors": ["dmpbbo/functionapproximators/FunctionApproximator.py:42-56", "dmpbbo/functionapproximators/FunctionApproximator.py:159-352", "dmpbbo/functionapproximators/FunctionApproximatorLWR.py:123-157", "dmpbbo/functionapproximators/FunctionApproximatorRBFN.py:91-111", "dmpbbo/functionapproximators/FunctionApproximatorGPR.py:80-103", "dmpbbo/functionapproximators/FunctionApproximatorWLS.py:105-114"]}
{"id": "C99", "title": "Plots of trajectories, dynamical systems and Dmps show the motion", "statement": "The curves that are drawn for a trajectory are its positions, velocities, accelerations and additional variables at its times, each on its own axes; those of a system of first order its state and rate of change. For a critically damped spring-damper system the curves on the second and third axes are the derivatives of those on the first and second, and obey the equation of motion. Dmp.plot shows, on fixed axes of a picture with one or two rows, the goal, the motion (that of states_as_trajectory), phase, gating, forcing terms, outputs of the function approximators, the demonstration and the motion without forcing term; plotting does not change any later answer of the Dmp. The goal that is shown is the goal that the motion is attracted to.", "quantifier": "all trajectories, systems, Dmps, times, states, and lists of axes", "why_tests_cant": "plots are not tested; derivatives and the absence of effects on later answers are claims over all real parameters and states", "anchors": ["dmpbbo/dynamicalsystems/DynamicalSystem.py:233-297", "dmpbbo/dmps/Trajectory.py:542-580", "dmpbbo/dmps/Dmp.py:720-868", "dmpbbo/dmps/DmpWithSchedules.py:262-286"]}
{"id": "C100", "title": "Plots of contextual Dmps show the predicted motion and leave the Dmp as it was", "statement": "The plot of a trained contextual Dmp shows every demonstration and, for each of them, the motion of the Dmp with the start and duration of that demonstration and with the parameters that the policy parameter function predicts for its task parameters, at times from zero in steps of the mean time step until 1.1 times the longest duration. The policy parameter function is drawn with one axes per parameter. Drawing fails without demonstrations, without time step, before training, and if the parameters cannot be predicted. Drawing does not change the motion of the Dmp.", "quantifier": "all contextual Dmps that are reachable by training, all demonstrations, task parameters and lists of axes", "why_tests_cant": "plots are not tested; the effect of plotting on the state of the Dmp is invisible in the picture", "anchors": ["dmpbbo/dmps/DmpContextualTwoStep.py:203-272"]}
{"id": "C101", "title": "The integration tests pass exactly where Python and C++ agree", "statement": "The integration tests save an object of Python, let a program in C++ read it and compute, and compare the results with those of Python. They pass for every dynamical system, function approximator and Dmp that C++ can read; they fail if a number differs by a millionth or more, if sizes differ, if the program is missing, crashes or writes nothing.", "quantifier": "all dynamical systems with their parameters, all trained function approximators and inputs, all reachable Dmps, all times, all contents of the directory", "why_tests_cant": "the tests are themselves the tests; they run for one duration and a few objects, and nothing tests that they can fail", "anchors": ["tests/integration/test_dynamical_systems.py:98-195", "tests/integration/test_function_approximators.py:99-121", "tests/integration/test_dmp.py:66-113", "tests/integration/execute_binary.py:24-53", "tests/integration/testDynamicalSystems.cpp:38-117", "tests/integration/testFunctionApproximators.cpp:37-84", "tests/integration/testDmp.cpp:38-104"]}
{"id": "C102", "title": "Training succeeds exactly if the data determine the parameters", "statement": "Training a function approximator never fails without need: an RBFN without regularisation can be trained on one-dimensional inputs exactly if there are at least as many different inputs as basis functions (and then reproduces the targets if there are as many), with regularisation whenever no dimension with several basis functions is constant; LWR and WLS exactly if the inputs do not lie in a hyperplane; GPR exactly if no two inputs are equal. Otherwise training raises LinAlgError (or yields nan for constant inputs with several basis functions, or raises ValueError without inputs).", "quantifier": "all numbers of inputs, dimensions and basis functions, all inputs, targets and positive weights, all heights between 0 and 1, all regularisations, lengths and covariances other than zero", "why_tests_cant": "the tests train on equidistant inputs with far fewer basis functions than inputs; that matrices of Gaussians are never singular holds for infinitely many inputs", "anchors": ["dmpbbo/functionapproximators/FunctionApproximatorRBFN.py:50-75", "dmpbbo/functionapproximators/FunctionApproximatorLWR.py:44-77", "dmpbbo/functionapproximators/FunctionApproximatorWLS.py:43-88", "dmpbbo/functionapproximators/FunctionApproximatorGPR.py:49-67", "dmpbbo/functionapproximators/FunctionApproximator.py:42-56", "dmpbbo/functionapproximators/basis_functions.py:54-195"]}
{"id": "C103", "title": "Training Dmps from a trajectory file: when it succeeds, what is written, how exact it is", "statement": "The script that trains Dmps from a demonstration with 3 to n basis functions succeeds exactly if the demonstration has at least n samples (for increasing times; in general: different phases) and lasts at least 1/130 s. It writes the demonstration and, per number of basis functions, a Dmp that C++ can read and whose weights are the parameters of the optimisation; the error that it reports is the mean distance between demonstration and solution, and is 0 for as many basis functions as samples if the demonstration starts at rest and follows by Euler steps. Otherwise it raises LinAlgError (IndexError for shorter demonstrations), with the files for smaller numbers of basis functions written.", "quantifier": "all trajectory files with increasing times that end after time 0, all numbers of dimensions, samples and basis functions", "why_tests_cant": "the script is only run by hand, with one demonstration of a hundred samples and 15 basis functions", "anchors": ["demos/robot/step1_train_dmp_from_trajectory_file.py:48-109", "dmpbbo/dmps/Dmp.py:160-178", "dmpbbo/dmps/Trajectory.py:492-518", "dmpbbo/functionapproximators/FunctionApproximatorRBFN.py:50-75"]}
{"id": "C104", "title": "Trajectories of states: C++ gives those of Python", "statement": "C++ makes a trajectory of states and rates of change exactly if there are as many as times and the matrices have the same number of columns, at least twice the dimension of the Dmp (otherwise an assertion fails). Each time step has the position, velocity and acceleration of this state, and there are no miscellaneous variables. For a Dmp that Python has written, the trajectories of the analytical solution and of the numerical integration are those of Python.", "quantifier": "all matrices of states, all Dmps with default subsystems after any changes in Python, all sorted times", "why_tests_cant": "tests of the C++ code compare a few Dmps at default settings, and only numerically", "anchors": ["src/dmp/Dmp.cpp:337-352", "src/dmp/Dmp.cpp:364-388", "src/dmp/Trajectory.cpp:40-58", "dmpbbo/dmps/Dmp.py:538-566"]}
{"id": "C105", "title": "Keyword arguments of the updaters, and the optimisations of the demos", "statement": "The constructors of the updaters use exactly the documented arguments (eliteness, weighting_method, covar_decay_factor, diagonal_max, diagonal_min, diag_only, learning_rate) with their defaults; learning rates outside [0,1] are a ValueError; arguments with other names have no effect. The optimisations of demo_bbo.py and demo_bbo_multiple_cost_components.py succeed whatever is drawn, with constant, decaying or adapted covariance; the limit that is passed bounds the exploration from below.", "quantifier": "all keyword arguments, all draws, all sortings of equal costs, all sessions", "why_tests_cant": "no test constructs an updater with limits, and an ignored argument gives no message", "anchors": ["dmpbbo/bbo/updaters.py:43-51", "dmpbbo/bbo/updaters.py:81-92", "dmpbbo/bbo/updaters.py:125-145", "demos/python/bbo/demo_bbo.py:56-94", "demos/python/bbo/demo_bbo_multiple_cost_components.py:73-89", "demos/python/bbo_of_dmps/demo_bbo_of_dmps.py:86-93", "demos/robot/step4_prepare_optimization.py:54"]}
{"id": "C106", "title": "Cost functions of the demos", "statement": "The cost of demo_bbo.py is the Euclidean distance to the point, zero at the point only. The costs of demo_bbo_multiple_cost_components.py are the sum, the distance and the weighted norm, with one label per component. The total cost is smallest at the point only for weights below 1, at zero only for weights above 1, and for weight 1 (that of the demo) exactly on the segment between zero and the point.", "quantifier": "all points, samples, dimensions and non-negative weights", "why_tests_cant": "the demos are only run by hand; that the minimum is not unique does not show in one run", "anchors": ["demos/python/bbo/demo_bbo.py:41-50", "demos/python/bbo/demo_bbo_multiple_cost_components.py:44-64"]}
{"id": "C107", "title": "The robot demo from the trajectory file to the last update", "statement": "For every trajectory file with two dimensions, at least 15 samples at increasing times, and a sufficient duration: training succeeds and the Dmp with 10 basis functions (20 parameters) is chosen; the initial distribution has its parameters as mean and standard deviation 20; and the 16 updates succeed, whatever is drawn and whenever the session is re-opened. All rollouts are performed by the C++ program and stored with their costs; after i updates the covariance matrix is 400 * 0.8^(2i) I, and each mean is the average of the 5 samples with positive weights that sum to 1 and are larger exactly for smaller costs of the rollouts. The costs of the task vanish exactly if the ball lands between -0.71 and -0.69.", "quantifier": "all trajectory files as described, all random numbers, all orders of equal costs, all ways of re-opening the session", "why_tests_cant": "the demo consists of many processes in two languages that pass files to each other; it is only run by hand, with one trajectory", "anchors": ["demos/robot/demo_robot.bash:1-82", "demos/robot/step1_train_dmp_from_trajectory_file.py:48-109", "demos/robot/step2_define_task.py:36-40", "demos/robot/step3_tune_exploration.py:48-97", "demos/robot/step4_prepare_optimization.py:36-75", "demos/robot/step5_one_optimization_update.py:35-37", "demos/robot/robotExecuteDmp.cpp:66-101"]}
{"id": "C108", "title": "Setting the spring-damper system in C++ has the same effect as in Python", "statement": "If a Dmp written by Python is read by C++, and afterwards the damping coefficient, the spring constant, the duration, the initial state and the goal are set in any order, in C++ and in Python, then both make the same motions: integration, execution and the analytical solution.", "quantifier": "all Dmps that can be reached in Python and are read by C++, all sequences of settings", "why_tests_cant": "the setters of the C++ Dmp are not called by any test", "anchors": ["src/dmp/Dmp.cpp:222-229", "src/dmp/Dmp.cpp:469-486", "src/dynamicalsystems/SpringDamperSystem.hpp:96-108", "dmpbbo/dmps/Dmp.py:657-677"]}
{"id": "C109", "title": "The robot demo with trajectories instead of Dmps", "statement": "For every trajectory file as in C107, whose times differ after rounding to 7 decimals: the demo in which the robot performs trajectories succeeds. The program for the robot accepts every file with at least two lines of 7 numbers at increasing times, and writes a line for each of them, with the time, what was asked of the robot, and the position, velocity and acceleration of a ball that is held until 0.6 s have passed, flies, and lies on the floor. For each sample the session contains the trajectory of the Dmp at the times of the trajectory file, what the robot did for this trajectory, and its costs; distributions are updated as in C107. In a movement of at most 0.6 s, the ball is not thrown.", "quantifier": "all trajectory files as described, all random numbers, all orders of equal costs, all ways of re-opening the session; for the program all files", "why_tests_cant": "the demo consists of many processes in two languages that pass files to each other; it is only run by hand, with one trajectory", "anchors": ["demos/robot/demo_robot_with_trajectories.bash:1-75", "demos/robot/robotExecuteTrajectory.cpp:61-92", "src/dmp/Trajectory.cpp:288-308", "src/eigenutils/eigen_file_io.tpp:31-69", "demos/robot/step3_tune_exploration.py:86-91", "dmpbbo/bbo_of_dmps/step_by_step_optimization.py:61-92"]}
{"id": "C110", "title": "Plots of rollouts on the robot", "statement": "plot_rollouts.py plots every input whose files are tables with at least two rows and 9 columns: it draws, for each file of a directory whose name matches *cost_vars*.txt (or for the given file), the path of the hand (columns 1, 2) and of the ball (columns 7, 8), and saves the figure in the directory or shows it. The drawn floor is lower exactly where the landing site costs nothing. What the program for the robot writes can be plotted.", "quantifier": "all directories and files with tables of numbers, all tasks, with and without --save", "why_tests_cant": "the script opens windows or writes images, and is only run by hand, with directories", "anchors": ["demos/robot/plot_rollouts.py:39-64", "demos/robot/TaskThrowBall.py:62-101"]}
{"id": "C111", "title": "Exploration on the robot, and its plots", "statement": "In step 3 of both demos for the robot, with any sigma, the program for the robot executes the files of all 10 samples, and plot_rollouts.py draws all 10 rollouts, in the order of the samples, and saves the figure. Each rollout is that of the trained Dmp with the sample as parameters: of its trajectory, or of the Dmp itself, as in the simulation in Python.", "quantifier": "all trajectory files that the demo accepts (C107) and that end at 2/150 s or later (or have different times after rounding to 7 decimals, for trajectories), all sigma, all draws of the samples", "why_tests_cant": "the demos need compiled programs and are run by hand with one trajectory file; no test executes them", "anchors": ["demos/robot/demo_robot.bash:20-46", "demos/robot/demo_robot_with_trajectories.bash:20-46", "demos/robot/step3_tune_exploration.py:43-97", "demos/robot/plot_rollouts.py:39-64", "demos/robot/robotExecuteDmp.cpp:66-101", "demos/robot/robotExecuteTrajectory.cpp:61-92"]}
{"id": "C112", "title": "The demo that trains a Dmp for C++", "statement": "demo_dmp_training.py succeeds exactly if there are at least 10 samples: the reproduction is the solution of the trained Dmp at the times of the file, the motion that of an integration with time step 0.001 until 1.3 times the duration, and the figures show the solution and the demonstration. C++ reads the file that is written after the integration and makes the same movements as the trained Dmp, also after changes of duration, start and goal.", "quantifier": "all trajectory files with increasing times that end after time 0, any number of dimensions and samples", "why_tests_cant": "the demo is run by hand with one file; no test executes it or passes its file to C++", "anchors": ["demos/python/dmps/demo_dmp_training.py:26-54", "dmpbbo/dmps/Dmp.py:535-566", "dmpbbo/json_for_cpp.py:1-91"]}
{"id": "C113", "title": "What plot_optimization.py shows", "statement": "After a step-by-step optimisation with at least two samples and two parameters, plot_optimization.py does not fail and shows all updates: the distributions before and after each of them, the rollouts of the means (none for the last distribution, which has not been evaluated), the exploration before each update (the largest standard deviation in any direction), a dot for the total cost of each sample, and as learning curve the means of the costs of the samples with a legend for the cost components. In demo_robot.bash there are 16 updates, the exploration before update i is 20 * 0.8^i, and the task can plot each of the rollouts.", "quantifier": "all tasks, initial Dmps, updaters, random numbers, numbers of updates and samples, and times when the session is re-opened", "why_tests_cant": "the program is run by hand at the end of the demo; no test executes it, and what a figure shows is not tested", "anchors": ["demos/robot/plot_optimization.py:36-37", "dmpbbo/bbo_of_dmps/LearningSessionTask.py:162-179", "dmpbbo/bbo/LearningSession.py:133-145", "dmpbbo/bbo/LearningSession.py:535-551"]}
{"id": "C114", "title": "The demo of Dmps", "statement": "For each of its three types of Dmps demo_dmp.py succeeds: a Dmp is trained with a movement of 0.5 s from (0, 0.7) through (-0.2, 0.4) at time 0.2 to (0.4, 0.5); the step-by-step integration visits the times of the analytical solution; and the figures show the analytical solution with the demonstration and the motion without forcing term, the integrated states, and the demonstration together with both reproductions.", "quantifier": "all demonstrations, durations and numbers of time steps for the part after the training", "why_tests_cant": "the demo is run by hand; no test executes it, and what a figure shows is not tested", "anchors": ["demos/python/dmps/demo_dmp.py:30-83", "dmpbbo/dmps/Trajectory.py:349-393"]}
