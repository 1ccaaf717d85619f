# Formal model of dmpbbo: design

Subject: `/repo` (stulp/dmpbbo, pinned commit): the Python package `dmpbbo/`, plus parts of the C++
library (`src/`) and of the demos. The sources are read as text; nothing is built or run.

## 1. Trusted base

* Lean 4 kernel, and Mathlib as a library of definitions that occur in statements:
  real numbers, `HasDerivAt`, `HasDerivWithinAt`, `ContinuousOn`, `Filter.Tendsto`,
  `Real.exp/log/sqrt/rpow`, `Matrix`, `Matrix.PosSemidef`.
* Axioms: at most `propext`, `Classical.choice`, `Quot.sound` for each theorem (`#print axioms`,
  checked by the gate). No own axioms, no `sorry`, no `native_decide`/`bv_decide`.
* The faithfulness of the definitions in `lean/Verif/Model/`. Every definition cites
  the file and lines it models, and says where it simplifies.

### Global simplifications

* **Exact arithmetic.** Floating point numbers are real numbers, or elements of an ordered field `K`
  (Trajectory). Rounding, overflow and underflow are not modelled. Where exact arithmetic would give
  `nan` (0/0), either the model reports the error value `nanResult`, or the theorems exclude the case by
  an explicit hypothesis; the comment of the definition says which.
* **Arrays.** 1-D numpy arrays are `List ℝ`, 2-D arrays are lists of rows, or `Fin N → Fin d → ℝ` in the
  function approximators; size checks the code makes are explicit; broadcasting is modelled only in the
  forms the code uses (scalar-or-array parameters `Par`, row-wise subtraction). Matrix algebra (least
  squares, covariance matrices) uses `Matrix (Fin n) (Fin m) ℝ`.
* **Objects.** A method that mutates `self` is a function in `PyM σ` (state and exceptions), `σ` the
  state of the object; changes made before an exception therefore stay visible, as in Python.
  Exceptions are the values `PyErr` (`valueError`, `typeError`, …; `nanResult` and `runtimeError` stand for
  results that are not numbers and for asserts).
* **Aliasing** is modelled where properties depend on it: the cache of a learning session
  (`Model/Session`) and the deep copies of TaskSolverDmp (`Model/TaskSolverDmp`) use memories with
  references. Elsewhere arrays are values: writing into an array that an object also holds is not modelled.
* **Randomness.** Draws of the random generator are arbitrary parameters (universally quantified).
* **Sorting ties.** `np.argsort` is any permutation that sorts (numpy's default is not stable).
* **Files.** A directory is a map from names to contents; each file is written atomically; formatting
  numbers as text loses nothing, except in files of trajectories, where numbers are rounded to 6 or 7 decimals.
  jsonpickle is a faithful serialisation. `np.loadtxt` returns arrays of
  lower dimension for single rows and columns, as numpy does.

### What is modelled

| code | model | not modelled |
|------|-------|--------------|
| dynamicalsystems/DynamicalSystem.py | `Model/DynamicalSystem` | plotting |
| dynamicalsystems/{Time,Exponential,SpringDamper,Sigmoid,Richards}System.py | `Model/{TimeSystem,Exponential,SpringDamper,Sigmoid,Richards}` | plotting |
| dmps/Trajectory.py | `Model/Trajectory`, `Model/CppTrajectory` (savetxt, loadtxt), `Model/LowPass` (apply_low_pass_filter, with scipy's butter and filtfilt) | plotting |
| functionapproximators/basis_functions.py | `Model/BasisFunctions` | arrays in which a dimension is missing; `Cosine` (raises NotImplementedError) |
| functionapproximators/FunctionApproximator{,WLS,RBFN,LWR,GPR}.py | `Model/FunctionApproximator`, `Model/FaPlots` | axes and figures of plots |
| dmps/Dmp.py | `Model/Dmp`, `Model/DmpDynParams` | plotting; set_params_dyn_sys with values of other types than those the attributes have |
| dmps/DmpWithSchedules.py | `Model/DmpWithSchedules` | plotting |
| dmps/DmpContextualTwoStep.py | `Model/DmpContextual` | plotting |
| bbo/updaters.py, DistributionGaussian{,Bounded}.py | `Model/Updaters`, `Model/Ellipse` | colours and axes of plots |
| bbo/LearningSession.py, bbo_of_dmps/LearningSessionTask.py | `Model/Session`, `Model/Exploration`, `Model/SessionPlots` | axes and figures of plots |
| bbo/run_optimization.py, bbo_of_dmps/run_optimization_task.py | `Model/Optimization` | plotting, progress output |
| bbo_of_dmps/TaskSolverDmp.py | `Model/TaskSolverDmp` | result as data frame |
| bbo_of_dmps/step_by_step_optimization.py | `Model/Session`, `Model/Optimization`, Props/StepByStep | plotting, command line |
| demos/python/bbo/demo_bbo.py, demo_bbo_multiple_cost_components.py | `Model/DemoBbo` | plotting, printing, command line |
| demos/python/dmps/demo_dmp_training.py | `Model/DemoTraining` | styles of plots, printing |
| demos/python/dmps/demo_dmp.py | `Model/DemoDmp` | styles and titles of plots, printing |
| demos/robot/demo_robot.bash, step2_define_task.py, step4_prepare_optimization.py, step5_one_optimization_update.py | `Model/RobotDemo`, `Model/RobotExploration`, `Model/DemoBbo`, `Model/Optimization` | plots of the session, command line, what bash does after a failing program |
| demos/python/bbo_of_dmps/TaskViapoint.py | `Model/TaskViapoint` | plotting |
| demos/python/bbo_of_dmps/arm2D | `Model/Arm2D` | plotting; viapoints with another number of entries than two |
| demos/python/bbo_of_dmps/with_schedules | `Model/ForceField` | plotting, training of the demo, run_optimization |
| demos/robot/step1_train_dmp_from_trajectory_file.py | `Model/TrainScript` | plotting, printing, command line |
| demos/robot/demo_robot_with_trajectories.bash, main function of robotExecuteTrajectory.cpp | `Model/RobotTrajectories`, `Model/RobotExploration` | command line, what bash does after a failing program |
| demos/robot/step3_tune_exploration.py, demo_robot.bash | `Model/RobotWorkflow` | plotting, command line |
| demos/robot/TaskThrowBall.py | `Model/ThrowBall`, `Model/RolloutPlots` | styles of plots, main |
| demos/robot/plot_rollouts.py | `Model/RolloutPlots` | command line, styles of plots |
| demos/robot/plot_optimization.py, plot of LearningSessionTask.py | `Model/PlotOptimization` | command line, styles of plots, saving figures |
| demos/robot/runSimulationThrowBall.cpp, robotExecuteDmp.cpp, robotExecuteTrajectory.cpp | `Model/ThrowBall` (namespace `Cpp`) | command line, reading and writing of files, printing |
| src/dynamicalsystems, src/dmp, src/functionapproximators (C++), json_for_cpp.py | `Model/{CppSystems,CppApproximators,CppBasisFunctions,CppDmp,CppStates,CppTrajectory,CppJson}` | text of json files, Eigen memory management, warnings |

## 2. Layout of `lean/Verif`

* `Model/*`: transcription of the code (definitions only).
* `Spec/*`: specifications that do not mention model helpers.
* `Proofs/*`: helper lemmas.
* `Props/*`: the theorems listed in `MANIFEST.json`, named after property numbers, with
  `example`s showing that concrete cases meet the hypotheses.

## 3. Properties: what is modelled and how it is proved

Where the code violates a property, the full statement is a definition `C.._statement`, its negation is
proved with a concrete witness (`…_refuted`), and the part that holds is proved as `…_partial`. The notes in
`MANIFEST.json` say in detail what is covered.

| id | model | proof |
|----|-------|-------|
| C01 | `Model/Exponential`: both code paths (scalar/array alpha) | derivative by Mathlib calculus; uniqueness by derivative of `(x-xa)*exp` being 0 |
| C02 | same | monotonicity of `exp`, limit of `exp(-ct)` |
| C03 | `Model/TimeSystem`: piecewise code, setter | case analysis, `HasDerivAt` left and right of tau |
| C04 | `Model/DynamicalSystem` integrators + `TimeSystem` | induction over list of step sizes |
| C05 | `Model/SpringDamper` | derivative; fails for non-zero initial velocity part with tau≠1 (code uses z0 as yd0): refutation + partial |
| C06 | same, constructor | fails for mass≠1 (k=d²/4 independent of mass): refutation + partial |
| C07 | `Model/Sigmoid` | derivative of logistic function, inequality for maximum |
| C08 | `Model/Sigmoid` as object with cache in `PyM` | invariant "cache = none or cache = K(current params)" by induction over call sequences |
| C09 | `for_gating` | exp/log algebra |
| C10 | `Model/Richards` | derivative of `rpow`, left asymptote algebra |
| C11 | all systems | algebra; fails for Sigmoid (rate not rescaled): refutation + partial |
| C12 | `integrate` | induction over ts |
| C13 | RK4, Euler on Exponential | ring; bounds on Taylor polynomials; induction over steps |
| C14 | `decouple_parameters` | case analysis scalar/array |
| C15 | `DynamicalSystem` constructor and setters in `PyM` | invariant by induction over call sequences |
| C16 | `Model/Dmp` slices | arithmetic on index ranges for all n |
| C17 | `_compute_targets`, forcing term | field algebra per sample and dimension |
| C18 | `train` + `analytical_solution` Euler loop | induction over samples; error recursion |
| C19 | `Dmp.differential_equation` as ODE, motions continuous with right derivatives (`Spec/Motion`) | quadratic energy with mixed term decays up to a vanishing disturbance (`Proofs/Converge`); limits of subsystems by uniqueness of motions (`Proofs/SubMotion`); outputs of the four function approximators bounded on bounded phases (`Proofs/FaBound`); invariant over histories |
| C20 | tau setter + `analytical_solution` | induction over samples; fails with sigmoid gating and with damping system: refutations + partial |
| C21 | `analytical_solution` | induction over samples |
| C22 | same | induction over samples |
| C23 | y_init setter and getter, `integrate_start` | read-back fails in the code (getter reads another field): refutation + partial |
| C24 | y_attr setter, goal systems | limits of goal systems, analytical and along motions; fails with un-scaled Richards goal system: refutation + partial |
| C25 | Dmp methods in `PyM` | invariant: two objects that differ only in scratch fields are indistinguishable; induction over call sequences |
| C26 | RK4/Euler on the Dmp state | projection lemma through the four stages |
| C27 | parameter vector code of FunctionApproximator and Dmp | induction over selected parameters, splitting lemmas |
| C28 | same | fails for no selection (returns one 0): refutation + partial |
| C29 | `TaskSolverDmp` | deep copy semantics; floor arithmetic |
| C30 | `_enforce_schedule_bounds` with numpy truthiness | fails (falsy bounds, ambiguous arrays): refutation + partial |
| C31 | `Gaussian._activations` | bounds of exp, normalisation |
| C32 | `get_centers_and_widths` | exp/log/sqrt algebra |
| C33 | digit loop | loop invariant: digits represent the counter in mixed radix |
| C34 | `WLS._train` with `Matrix` inverse | normal equations ⇒ completing the square |
| C35 | RBFN via same | same |
| C36 | LWR | convexity; WLS exactness on affine data per basis function |
| C37 | LWR passing arguments to WLS | fails (argument lands in another parameter): refutation + partial |
| C38 | GPR | `inv` algebra |
| C39 | `predict` of all models on lists of inputs | map structure; error branches |
| C40 | `Model/Trajectory` | invariant by induction over operations |
| C41 | `from_matrix`, `as_matrix` | list splitting lemmas |
| C42 | `append`, `prepend` | pairwise order on concatenation; prepend fails if prepended trajectory does not start at 0: refutation + partial |
| C43 | `crop` | index crop exact; time crop drops last sample: refutation + partial |
| C44 | `from_polynomial` | polynomial identities; boundary velocities are off by factor 1/T: refutation + partial |
| C45 | `from_min_jerk` | polynomial identities/inequalities; needs ts[0]=0: refutation for other starts + partial |
| C46 | `diffnc` | index computation; fails for 2 samples: refutation + partial |
| C47 | `pad_front`, `pad_end` | list computation, order |
| C48 | `costs_to_weights` for any valid argsort | sums, permutation arguments |
| C49 | same | algebra |
| C50 | updaters | convex combination bounds |
| C51 | UpdaterCovarDecay | induction over updates |
| C52 | UpdaterCovarAdaptation | PSD cone closure; fails with diagonal_max: refutation + partial |
| C53 | same | case analysis on limits |
| C54 | bounded distribution, optimisation loop | induction over updates |
| C55 | `run_optimization` | induction over updates over session map |
| C56 | LearningSession with object heap | simulation of an abstract map; aliasing on first ask from disk fails: refutation + partial |
| C57 | session + file system | stale files of other format win: refutation + partial |
| C58 | `get_base_name` | string injectivity lemmas; collisions for composite names: refutation + partial |
| C59 | `get_n_updates` | returns last index, not number: refutation + partial |
| C60 | `get_learning_curve` | list computation |
| C61 | `update_step` as sequence of store writes | reads disjoint from writes; prefix of writes then all writes = all writes |
| C62 | both loops | simulation by induction over updates; C62_files: what the directory contains for every update |
| C63 | DmpContextualTwoStep | object state; stale y_init in mean: refutation + partial |
| C64 | demo TaskViapoint | list computation; acceleration cost depends on goal weight: refutation + partial |
| C65 | `Model/CppSystems`, `Model/CppApproximators`: the C++ classes, and reading what Python writes | simulation: invariant `Twin` of the two objects, kept by reading and setters; steps by induction over the times; unsorted times, initial states that are not read: refutation + partial |
| C66 | `from_viapoint_polynomial` | polynomial identities; fails if the viapoint acceleration is not 0: refutation + partial |
| C67 | RBFN and LWR objects | shapes of weights; fails for one number of basis functions in several dimensions: refutation + partial |
| C68 | `Model/DmpWithSchedules` parameter vectors | as C27, splitting between motion and schedules |
| C69 | `Model/DmpWithSchedules` | simulation: the Dmp in the object makes the same steps as the Dmp alone |
| C70 | `Model/CppDmp` reading of a Dmp object; Dmps reachable by any sequence of calls | invariant `Common` of reachable objects; reading succeeds iff `Prepared`; totality of integration; other types, decoupled parameters: refutation + partial |
| C71 | `Model/CppDmp` differential equation, integration, execution loop, setters | simulation relation `Matches` kept by steps and setters; spring constant not read: refutation + partial |
| C72 | `Model/CppTrajectory` minJerk, polynomial, viapoint | generators equal those of Python; viapoint: success characterised by `Close`, rows at start, viapoint and end; velocities at viapoints: refutation + partial |
| C73 | `Model/CppTrajectory` save, readFile, savetxt, loadtxt | reading inverts writing up to rounding of every number (`mapAll (roundTo k)`); exactness: refutation + partial |
| C74 | `Model/CppTrajectory` constructor, append, set_misc, ranges | success characterised; result is the concatenation; associativity by cases |
| C75 | `Model/DynamicalSystem` steps, `Model/Dmp` integration | the states are runs of the method (`Spec/Steps`); amplification factor of a step on a linear system (a complex polynomial), stable subspaces, perturbed linear recursions; subsystem by subsystem as in C19; explicit step lengths for the default parameters; counterexample for long steps |
| C76 | `Model/Arm2D` link positions | induction over the links; `Spec/Arm` defines the joints by sums; reach with complex exponentials |
| C77 | `Model/Arm2D` solver and task | the rollout is the rollout of TaskSolverDmp (C29) with the link positions appended; link lengths: refutation + partial |
| C78 | `Model/ThrowBall` run_python_simulation | invariant over the loop, with the view of a row of ydds as row number; `Spec/Throw` says where a ball is by sums; accelerations: refutation + partial |
| C79 | `Model/ThrowBall` simulator in C++ | invariant (hand, air, floor) over the steps gives `ThrownFully` of `Spec/Throw`; with C71 and uniqueness of the thrown ball, comparison with Python: refutation + partial |
| C80 | `Model/ThrowBall` evaluateRollout | closed form of the two costs, error branches; landing site in C++ and Python from C79 |
| C81 | `Model/ForceField` performRollout, Solver | invariant over the loop; `Spec/Tracking` states the recursion of the controlled motion; the motion of the Dmp is that of C07/C75 `integrate` |
| C82 | `Model/ForceField` loop, `Model/Dmp` | error dynamics as a perturbed linear recursion of second order (`Proofs/Tracking`: roots of the characteristic polynomial inside the unit circle exactly below the bound), perturbations vanish by `Props/DmpStepsRates` (C75 for velocities and accelerations) |
| C83 | `Model/ForceField` Task | sums over columns of the rows; cost of the gains: refutation + partial (bounds) |
| C84 | `Model/Dmp` diffEq, integrate, analytical; all function approximators | outputs of function approximators are C¹ functions of the phase (`Proofs/FaSmooth`); existence by Picard-Lindelöf with clamped states, continued over all times (`Proofs/MotionExists`, `Props/DmpExists`); Grönwall-like estimate for one step methods on arbitrary grids (`Proofs/StepsConverge`), with a separate argument for the clock, whose rate jumps (`Proofs/SubClose`); uniqueness as a limit of Euler runs (`Props/DmpMotions`) |
| C85 | `Model/DmpDynParams` (Dmp.set_params_dyn_sys) | `Spec/Attributes` sees objects as dictionaries; loop over the parameters by induction, rounds over the subsystems by induction (`Proofs/DmpDynParams`); "sets all or raises and changes nothing": refutation + partial; caches: refutation; tuning keeps the invariant `Inv` |
| C86 | `Model/Session` saveAll, fromDir | `Spec.dictItems` states the order of Python dictionaries; the cache as a list of assignments refines it; invariant of tells in sessions without directory, files of distinct keys are distinct (C58); colliding keys: refutation + partial |
| C87 | `Model/Dmp` fromTraj, `Model/DmpWithSchedules` fromTrajSched | `Dmp.Ends` states first and last sample and last time; composition of the constructor and train into a reachable Dmp, curves of the default systems in terms of the demonstration, C19 and C18 for the motion; time constant = last time, not duration: refutation + partial |
| C88 | error branches of all models of the package (`PyErr` values with the object after the call), `CppErr` of the C++ models | `Spec.Raises`: the call ends with this exception and the object is unchanged; one theorem per kind of invalid call (`Props/Raises*`), as equivalences where the call is otherwise accepted; refuted where the object is changed first |
| C89 | the five constructors of `Cpp.Dmp` with `typeSystems`, integrateStart, differentialEquation, analyticalSolution | `Spec/CppConstructors`: the members of the Dmp and of its systems, and the first state with its rate of change entry by entry; that a result exists only with room for 3n + 2 values follows from the segments; full claims refuted with concrete Dmps |
| C90 | json values, the attributes that Python writes for systems, function approximators and Dmps, from_json and to_json of all C++ classes and of Eigen matrices | `Spec/CppJson`: which members a json value has, which vector or matrix it represents, which object it describes; reading succeeds iff the value describes the object; the json of Python gives what `Cpp.Dmp.read` gives, by cases on the attributes; for json of C++ the members that are missing |
| C91 | `Model/Exploration`: eigenvalues as roots of the characteristic polynomial, max_eigen_value, the values of the exploration curve | `Spec/Exploration`: largest variance among all directions; spectral theorem for the bound, an eigenvector attains it; then C51 - C55 and C59 for whole optimisations |
| C92 | `Model/LowPass`: apply_low_pass_filter, butter_low_pass(_filter) and the functions of scipy.signal they call | `Spec/LowPass`: difference equation, frequency response, reflection, two passes; the gain by factoring X^(2n)+1 over the complex numbers, the time domain by induction over the samples; the specification has only one solution |
| C93 | `Model/TaskSolverDmp`, `Model/StepByStep`, `Dmp.trainMatrix` | instance `DmpLike (TunableDmp n)`; parameter laws from Proofs/ParamOverwrite and Proofs/TunableDmp, then C62_same/C62_files |
| C94 | `Model/RobotWorkflow` (step3_tune_exploration.py, robotExecuteDmp), `Model/StepByStep`, C++ reader | composition: C27 (parameters), C71/C79 (C++ runs as Python), C93/C62_files (session); `norm` shows that parameters keep all that the reader and the rollouts need |
| C95 | `Model/CppBasisFunctions` | `Spec.bell`; continuity by gluing at the center; Mahalanobis distance through solutions of linear equations; affine maps by the inverse of a product |
| C96 | `Model/Ellipse` (np.linalg.svd as relation, matplotlib.patches.Ellipse as set of points) | the left singular vectors of a covariance matrix are eigenvectors; Cauchy-Schwarz in the coordinates of the axes |
| C97 | `Model/SessionPlots` (data of the plots; ellipses from C96) | ask as a pure function of the stored history (C55, C56); arithmetic of thinning and rounding |
| C98 | `Model/FaPlots` (data of the plots) | batches of predictions (C39); index arithmetic of the reshaped grid; maximum of activations |
| C99 | `Model/DmpPlots` (data of the plots) | slices of the state; C05 for the spring-damper system; `Stable` (same answers afterwards) |
| C100 | `Model/ContextualPlots` (data of the plots, state of the Dmp) | induction over the demonstrations with the state `moved` (start, goal and parameters of the last one); C63 for the predictions |
| C101 | `Model/IntegrationTests` (scripts, files, programs in C++) | C65, C71, C90 for the equality of the computations; rounding to 6 decimals is below the tolerance; steps of equal size |
| C102 | `Model/FunctionApproximator` (training), `Model/BasisFunctions` | Vandermonde matrix of exponentials for equidistant Gaussians; Gaussian kernels are strictly positive definite (independence of exponentials, induction); C34 for the regression |
| C103 | `Model/TrainScript` (step1_train_dmp_from_trajectory_file.py) | outcome of training one network (C102) lifted to the Dmp; invariants of trained Dmps (C87, C94); refinement of the loop of the script by `integrate`; induction over the numbers of basis functions |
| C104 | `Model/CppStates` (Dmp::statesAsTrajectory), `Model/{CppDmp,CppTrajectory,Dmp}` | case analysis of the asserts; refinement of Python by C71 and layout of states |
| C105 | `Model/DemoBbo` (constructors of updaters.py with keyword arguments, demo_bbo.py, demo_bbo_multiple_cost_components.py) | lookup in the arguments; invariance under filtering of unknown names; C50, C51, C53, C55 for the runs; refutation by samples at the mean (induction over the updates) |
| C106 | `Model/DemoBbo` (cost functions) | norm of EuclideanSpace; triangle inequality and its equality case in strictly convex spaces |
| C107 | `Model/RobotDemo` (demo_robot.bash, step2_define_task.py: what is passed between the programs) | composition of the theorems on the programs: C103_script, C103_dmp, C94_explore, C94_demo, C51_decay, C50_convex, C48_pibb_order |
| C108 | `Model/CppDmp` (set_damping_coefficient, set_spring_constant) | induction over the settings with the relation `Matches` of C71, which no longer requires critical damping; counterexample by evaluation of the velocity of the analytical solution |
| C109 | `Model/RobotTrajectories` (demo_robot_with_trajectories.bash, main function of robotExecuteTrajectory.cpp) | the lines of a file as a trajectory (loadMatrix, ofMatrix), then C79_trajectory; shape of the matrix of a trajectory of a Dmp; composition with C94_explore, C62_files, and the updates of C107 |
| C110 | `Model/RolloutPlots` (plot_rollouts.py, plot_rollout of TaskThrowBall.py) | induction over the files; decomposition of the names; case distinction over the segments of the drawn floor |
| C111 | `Model/RobotExploration` (step 3 of demo_robot.bash and demo_robot_with_trajectories.bash) | C94 and C109 for the files of samples, C110 for the plots; induction over the samples for the files in the directory |
| C112 | `Model/DemoTraining` (demo_dmp_training.py) | invariant: C++ can read the Dmp, and queries keep this (induction over the integration steps); C99 for the figures, C103 for the training |
| C113 | `Model/PlotOptimization` (plot_optimization.py, LearningSessionTask.plot) | the files of the session determine what is asked (C62 with the shape of all keys, induction over the steps); C91 for the exploration, C107 for the demo |
| C114 | `Model/DemoDmp` (demo_dmp.py) | C66 for the demonstration, C103 for the training, C99 for the figures; queries keep what they depend on (partial: the figures only for type KULVICIUS_2012_JOINING; the training for all three types, `Props/TrainTypes`) |

## 4. Findings: where the code does not do what the property says

Each of these follows from the model; those marked R have a theorem `…_refuted` or another theorem that
states the behaviour.

Dynamical systems
* SpringDamperSystem.analytical_solution takes the z part of the initial state for the velocity (R, C05);
  the default spring constant is critical for mass 1 only (R, C06).
* SigmoidSystem: the tau setter does not rescale max_rate (R, C11). Consequence: the default Dmp is not
  slowed down by its tau setter (R, C20).
* Dmp.from_traj and train take the last time of the demonstration for the time constant, which is the duration
  only if the demonstration starts at time zero (R, C87).

Trajectories
* apply_low_pass_filter takes the mean of the time steps as sample period; samples that are not equidistant are treated as if they were. The derivatives are recomputed with the time step stored when the object was made.
* from_polynomial (also in C++): coefficients of the initial acceleration are 2.5 and 2 instead of 1.5 and 1.5,
  so that the end position is off by −a0/2 (R, C44); velocities and accelerations are divided by T and T².
  from_viapoint_polynomial misses the end if the viapoint acceleration is not zero, and repeats the viapoint
  (R, C66).
* Minimum-jerk trajectories need ts[0] = 0 (R, C45). diffnc is wrong for two samples (R, C46).
* crop with as_times drops the last sample and ignores intervals that reach beyond the trajectory (R, C43).
* pad_front(1) gives nan (R, C47), both pads drop misc. prepend uses the mean step of the other trajectory
  (R, C42).

Optimisation
* The exploration curve does not show the last update, as get_n_updates returns one less (R, C91).
* For types of Dmps that scale the goal ("2022"), Dmp.plot shows the state of the goal system before scaling, between 0
  and 1, as the delayed goal (R, C99); in the compact picture it is drawn on the axes of the positions.
* plot_sched needs the times even if the Dmp has been trained; Dmp.plot does not (C99_schedules).
* Plotting a contextual Dmp leaves the start, goal and selected parameters of the last demonstration in the Dmp; only tau
  is restored (R, C100). If drawing raises an exception, tau is not restored either (C100_interrupted).
* plot_policy_parameter_function fails for exactly one parameter (AttributeError, as plt.subplots(1, 1) returns no array)
  and for none (C100_parameter_axes).
* DmpContextualTwoStep.dim_dmp returns the bound method self.dmp.dim_dmp and not its result (by reading, not modelled).
* test_dmp.py can never pass: the states of Python have 4 d + 2 columns, those of C++ 3 d + 2, and np.reshape raises
  ValueError (R, C101_dmp). The common columns agree (C101_partial).
* execute_binary does not look at the exit code: with files of an earlier test in the directory, the tests pass although
  the program crashes (R, C101_exit_code).
* The test of dynamical systems integrates in Python with steps of 0.01, in C++ with the distances of the times. It passes
  only if these are the same; for tau = 0.604 it does not pass (R, C101_other_duration).
* The tests load the rates of change, forcing terms and predictions that C++ wrote, but do not compare them.
* GPR has no noise term: training raises LinAlgError as soon as two inputs are equal, whatever the targets (C102_gpr).
* step1_train_dmp_from_trajectory_file.py raises IndexError for demonstrations shorter than 1/130 s, after the first Dmp has been written (C103_short).
* The default of 15 basis functions is too many for demonstrations with fewer than 15 samples: LinAlgError after some of the files have been written (C103_script).
* Updaters ignore unknown keyword arguments. The demos pass `min_level` and `max_level` to UpdaterCovarAdaptation, whose arguments are called `diagonal_min` and `diagonal_max`: exploration has no lower limit in demo_bbo.py and demo_bbo_of_dmps.py (R, C105). step4_prepare_optimization.py passes `weighting` instead of `weighting_method`, which has no effect either.
* demo_bbo_multiple_cost_components.py has no unique minimum: with regularization weight 1 all points between zero and the point are optimal (C106_minimum).
* demo_robot.bash needs a trajectory with at least 15 samples (C103, C107).
* `analyticalSolution` of the C++ Dmp ignores the spring constant set by `set_spring_constant` (C108_ignored, C108_refuted).
* With trajectories, the robot stops with the last time of the trajectory file, with Dmps only after 1.5 times its duration: if the trajectory ends within 0.6 s, the ball is not thrown in the former demo (C109_held). A file with one line, or no file, fails an assertion in robotExecuteTrajectory; an empty file is a division by zero (C109_files).
* plot_rollouts.py with option --save and a file as input raises a TypeError, as there is no directory to save the figure in (C110_refuted).
* For a movement that ends before 2/150 s, plot_rollouts.py raises an IndexError in demo_robot.bash: the results have one line, and np.loadtxt returns an array with one dimension (C111_short).
* demo_dmp_training.py fails with a LinAlgError for trajectory files with fewer than 10 samples (C112_demo).
* plot_optimization.py shows no rollout for the last distribution, although it has been prepared; it shows all N updates, whereas N - 1 are shown after run_optimization (C113_plot).
* After training without save_training_data, plot(inputs) raises TypeError, as the targets are None (R, C98); after an
  earlier training with saved data, plot() shows these older data (C98_stale_refuted). One target for several
  two-dimensional inputs is drawn at all of them, but raises IndexError with residuals (C98_predictions).
* plot_rollouts can draw max_n_updates + 1 rollouts (R, C97). The last update of an optimisation is in no plot, and after
  an optimisation with one update plot_learning_curve raises IndexError (C97_single_update), both because of C59. Costs
  with one component that are reloaded from file are one-dimensional, so that plot_learning_curve raises IndexError
  (C97_reloaded_costs).
* PI-BB with negative h reverses the order of weights (R, C48). diagonal_max can make a covariance matrix
  indefinite (R, C52); diagonal_min wins over diagonal_max.
* Sessions: ask returns the object in the cache after loading it from disk, so that callers can change it (R,
  C56); a stale json file is preferred to a newer txt file (R, C57); keys collide, e.g. name "eval_cost" and
  name "cost" with label "eval" (R, C58); get_n_updates returns the last index (R, C59); hence
  the learning curve has one row less than there were updates. update_step in a re-opened session fails for one
  sample or one parameter, because np.loadtxt returns a 1-D array.
* `step3_tune_exploration.py` with `--show` or `--save` raises ValueError for a Dmp with fewer than two selected
  parameters, because the plot of the distribution reads the first two (C94_explore_few).
* C++ Gaussian::activations with covariance matrices adds a number to the sums of all samples if the sum of one is zero, so
  that the activations of the other samples do not sum to 1 (R, C95).
* save_all writes objects with the same file in the order in which their keys were first used, so that the object told
  last can be lost (R, C86).
* Step by step optimisation stores "eval_costs" but the learning curve looks for "eval_cost".

Function approximators
* LWR ignores its regularisation (R, C37). RBFN and LWR with one number of basis functions for several
  dimensions train, but cannot predict (R, C67). Too long n_bfs_per_dim leads to zero rows (C33_superfluous).
* WLS: set_param_vector with "offset" selected raises TypeError. GPR: "max_covariance" raises AttributeError,
  "gram_inv" KeyError. Without selection get_param_vector returns np.array(0) while the size is 0 (R, C28).
* A constant input dimension gives zero widths and nan.

Dmp
* dmp_type 2022 with goal_system=None: analytical_solution and training use a scaled goal,
  differential_equation does not (R, C17, C21, C22).
* differential_equation sets the attractor of the goal system, also if the goal is scaled (R, C25).
* The tau setter does not reach the damping system (R, C20).
* The y_init getter returns the old value after the setter (R, C23); after training a DmpContextualTwoStep starts
  at the constructor's start (R, C63).
* The y_attr setter has no effect on the goal system of the NO_SCALING types (R, C24); for these
  start = attractor gives 0/0.
* Selecting "goal" cannot be undone (R, C28).
* set_params_dyn_sys: parameters of phase_system and gating_system are accepted and ignored, as are entries named after
  any other attribute, for instance "tau" (R, C85, C85_ignored); an exception leaves the parameters before the wrong one
  set (C85_changed); the values a SigmoidSystem has cached are used further after `_max_rate` has been set (R,
  C85_fresh_refuted); "_tau" of a subsystem can be set to another value than that of the Dmp (C85_desynchronised).
* Row 0 of analytical_solution uses the time constant of the spring system for yd, later rows use that of the Dmp.
* DmpWithSchedules: the bound 0 is taken for None (R, C30); several schedules with scalar or array bounds raise
  ValueError, with list bounds IndexError in integrate_start_sched and integrate_step_sched (C30_arrays, C30_single).

Task
* TaskViapoint: a positive goal_weight overwrites n_time_steps, so that the acceleration cost depends on it (R,
  C64). No sample after goal_time, goal_time None with goal_weight > 0: exceptions or nan (C64_errors).
* TaskSolverDmpArm2D: the constructor tests `link_lengths is not None or len(link_lengths) > 0`. Without
  link_lengths (as in the demo) this is a TypeError; given lengths are replaced by 1/n (R, C77).
* TaskViapointArm2D divides the acceleration cost by 2, not by the number of joints (C77_costs).
* TaskThrowBall.run_python_simulation: `ydd_ball = ydds[ii, :]` is a view, so that gravity is written to the
  recorded acceleration of the hand in the row of the release; it counts in the acceleration cost (R, C78;
  C80_simulated).
* Rows of the thrown ball: the time in C++ is one step ahead of that in Python (R, C79), and Python has one
  row more if 150 times the duration is not an integer (C79_same_partial). With more than two dimensions
  C++ stops with an assertion (C79_wrong_size).
* Force field simulator: explicit Euler with steps `dt` is unstable for gains above ((√5 - 1) / dt)², that is 611 for
  the 0.05 s of the demo, which allows gains up to 1000 (C82_large_gains_fail). Several schedules with bounds cannot be
  integrated at all (C30_single), so that the simulator only works for one schedule, which is the gain of all
  dimensions.
* TaskViapointWithGains: the cost of the gains subtracts the minimum gain once, not once for each time and dimension,
  so that gains at the minimum are not free (R, C83). A viapoint that is a matrix with one row, as in the demo, counts
  as one coordinate: with more columns, velocities are taken for accelerations and gains (C83_matrix).
* Exceptions after changes: Trajectory.append with another number of miscellaneous columns raises after it has replaced
  the times and positions (R, C88_append_refuted); set_param_vector with slopes and offsets selected has set the first
  parameter when the second one does not fit (R, C88_set_refuted); Dmp.train with a trajectory of another dimension has
  changed the duration (C88_train).
* A scaling with amplitudes that were not given is a ValueError in the differential equation and a TypeError in the
  analytical solution (C88_no_amplitudes). An empty list of function approximators is an IndexError in train
  (C88_train_empty_list). train_sched with several schedules passed as an argument always raises ValueError
  (C88_ambiguous). One number of basis functions for several dimensions can be trained, but not predict
  (C88_one_number).
* Updaters: a negative eliteness gives weights that are not numbers (C88_eliteness_negative), CEM with eliteness 0 is a
  ZeroDivisionError but CMA-ES is not (C88_eliteness_zero).

C++
* What C++ writes for exponential, sigmoid and spring-damper systems has `_y_init` (and `_y_attr`), but reading needs
  `_x_init` (and `_x_attr`); for a Dmp `_y_attr` and `_scaling_amplitudes` are missing. Reading always throws (R, C90). A
  Dmp without goal system dereferences NULL when it is written (C90_dmp_no_goal). Function approximators and time systems
  can be read again, though a function approximator without basis functions is written as null (C90_fa_empty).
* The four constructors of Dmp that from_json does not use make a state with the size of the position only: integration
  and analytical solution always violate an assertion (R, C89). For the types with a time system, the gate has the
  inflection ratio 0.9 tau and the absolute rate -10: it is half closed at 0.9 tau², is still open at the end if tau is
  larger than 10/9, and is not the gate that Python has (R, C89_gate). set_tau gives another gate than construction
  with this tau (C89_gate_set_tau). An unknown type gives NULL systems, not an exception (C89_make_type).
* TimeSystem::analyticalSolution is constant from the first time after tau on, also if later entries of ts are
  smaller (R, C65). The initial state of a TimeSystem, the initial velocity of a spring-damper system and a spring
  constant of -1 are not read (C65_time_init, C65_spring_velocity, C65_spring_constant). Systems with arrays as
  parameters make the json library throw, RichardsSystem is read as NULL (C65_read). set_y_init of a
  SigmoidSystem does not recompute its Ks (C65_sigmoid_setYInit).
* Dmps of type IJSPEERT_2002_MOVEMENT and others without an exponential goal system are never read (R, C70), nor is
  any Dmp after decouple_parameters (C70_decoupled_refuted). The spring constant of a transformation system that is
  passed to the constructor is ignored, so that C++ moves differently from Python (R, C71).
* generatePolynomialTrajectoryThroughViapoint fails an assertion for most velocities at the viapoint, because these
  are divided by the durations of the two parts (R, C72). Python is at the viapoint one sample earlier than C++
  (C72_same_viapoint_refuted). If no time is after the viapoint, the trajectory is empty, not min-jerk as the message
  says (C72_viapoint_errors).
* Trajectory files have 6 (C++) or 7 (Python) decimals (R, C73). readFromFile without n_dims_misc reads three
  miscellaneous variables as another dimension (C73_misc). saveToFile with a directory returns true although nothing
  was written (C73_saved_refuted); an empty file is a division by zero (C73_read_errors). Python cannot read a
  trajectory with one sample (C73_single).

## 5. Wrong programs

`seeded/LOG.jsonl` records edits of definitions in `Model/` as a realistic bug would make them (wrong
boundary, swapped argument, dropped update, …), the claim that the edit breaks, the theorems that failed in
the rebuilt project, and theorems that were tightened because none failed.
