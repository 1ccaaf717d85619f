{"claims": [
{"property": "C01", "status": "proved", "theorems": ["Verif.Exponential.C01_analytical_is_motion", "Verif.Exponential.C01_motion_unique", "Verif.Exponential.C01_diffEq_components"], "note": ""},
{"property": "C02", "status": "proved", "theorems": ["Verif.Exponential.C02_distance", "Verif.Exponential.C02_monotone_approach", "Verif.Exponential.C02_strict_approach", "Verif.Exponential.C02_converges"], "note": ""},
{"property": "C03", "status": "proved", "theorems": ["Verif.TimeSystem.C03_start", "Verif.TimeSystem.C03_linear", "Verif.TimeSystem.C03_saturates", "Verif.TimeSystem.C03_range", "Verif.TimeSystem.C03_monotone", "Verif.TimeSystem.C03_up_plus_down", "Verif.TimeSystem.C03_rate", "Verif.TimeSystem.C03_analytical"], "note": ""},
{"property": "C04", "status": "proved", "theorems": ["Verif.TimeSystem.C04_integrate", "Verif.TimeSystem.C04_overshoot_bounded", "Verif.TimeSystem.C04_integrate_bounded"], "note": ""},
{"property": "C05", "status": "partial", "theorems": ["Verif.SpringDamper.C05_analytical_is_motion_partial", "Verif.SpringDamper.C05_refuted", "Verif.SpringDamper.C05_no_overshoot", "Verif.SpringDamper.C05_converges"], "note": "The full statement C05_statement is refuted: analytical_solution uses the z part of the initial state as velocity instead of tau*velocity; proved when the z part is 0 or tau = 1."},
{"property": "C06", "status": "partial", "theorems": ["Verif.SpringDamper.C06_refuted", "Verif.SpringDamper.C06_default_critical_partial", "Verif.SpringDamper.C06_zeta_formula"], "note": "The full statement C06_statement is refuted for mass different from 1; proved for mass 1, with the damping ratio formula for all masses."},
{"property": "C07", "status": "proved", "theorems": ["Verif.Sigmoid.C07_analytical_is_motion"], "note": ""},
{"property": "C08", "status": "proved", "theorems": ["Verif.Sigmoid.C08_cache_never_stale"], "note": ""},
{"property": "C09", "status": "proved", "theorems": ["Verif.Sigmoid.C09_gating", "Verif.Sigmoid.C09_curve"], "note": ""},
{"property": "C10", "status": "proved", "theorems": ["Verif.Richards.C10_analytical_is_motion", "Verif.Richards.C10_given_asymptote"], "note": ""},
{"property": "C100", "status": "partial", "theorems": ["Verif.DmpContextual.C100_times", "Verif.DmpContextual.C100_times_errors", "Verif.DmpContextual.C100_picture", "Verif.DmpContextual.C100_succeeds", "Verif.DmpContextual.C100_errors", "Verif.DmpContextual.C100_interrupted", "Verif.DmpContextual.C100_task_params", "Verif.DmpContextual.C100_parameter_axes", "Verif.DmpContextual.C100_untrained", "Verif.DmpContextual.C100_delegates", "Verif.DmpContextual.C100_partial", "Verif.DmpContextual.C100_refuted"], "note": "All but the last sentence is proved (C100_picture, C100_times, C100_succeeds, and the exceptions). The last sentence is refuted (C100_refuted): drawing leaves start, goal and selected parameters of the last demonstration in the Dmp. C100_partial proves that duration, policy parameter function and all that is not selected are as before. Only the drawn data are modelled."},
{"property": "C101", "status": "partial", "theorems": ["Verif.IntegrationTests.C101_accepts", "Verif.IntegrationTests.C101_rejects", "Verif.IntegrationTests.C101_system", "Verif.IntegrationTests.C101_systems", "Verif.IntegrationTests.C101_dynSystems", "Verif.IntegrationTests.C101_systems_pass", "Verif.IntegrationTests.C101_cases", "Verif.IntegrationTests.C101_not_installed", "Verif.IntegrationTests.C101_not_writable", "Verif.IntegrationTests.C101_loadtxt", "Verif.IntegrationTests.C101_crash", "Verif.IntegrationTests.C101_exit_code", "Verif.IntegrationTests.C101_exit_refuted", "Verif.IntegrationTests.C101_other_duration", "Verif.IntegrationTests.C101_durations_refuted", "Verif.IntegrationTests.C101_fa", "Verif.IntegrationTests.C101_fa_missing", "Verif.IntegrationTests.C101_fa_raises", "Verif.IntegrationTests.C101_dmp", "Verif.IntegrationTests.C101_refuted", "Verif.IntegrationTests.C101_partial", "Verif.IntegrationTests.C101_dmp_raises", "Verif.IntegrationTests.C101_dmp_missing"], "note": "Proved for dynamical systems if 125 tau is a natural number (C101_systems, C101_systems_pass for the tau of the test) and for function approximators (C101_fa). Refuted for other durations (C101_durations_refuted), for Dmps (C101_refuted: the test can never pass, as Python has d more columns; C101_partial: the common columns agree), and for crashes (C101_exit_refuted: the exit code is not looked at, files of earlier tests are accepted). Plots and printing are not modelled."},
{"property": "C102", "status": "proved", "theorems": ["Verif.C102_wls", "Verif.C102_lwr", "Verif.C102_rbfn_regularised", "Verif.C102_line", "Verif.C102_rbfn", "Verif.C102_interpolates", "Verif.C102_gpr"], "note": "Exact arithmetic: with rounding, matrices that are nearly singular are inverted inexactly. RBFNs without regularisation: for one input dimension (as in Dmps); the other theorems are for any number of dimensions."},
{"property": "C103", "status": "proved", "theorems": ["Verif.Dmp.C103_outcome", "Verif.C103_trains", "Verif.C103_increasing", "Verif.C103_dmp", "Verif.C103_reproduce", "Verif.C103_exact", "Verif.C103_script", "Verif.C103_short"], "note": "Plots and printing are not modelled. Exact arithmetic."},
{"property": "C104", "status": "proved", "theorems": ["Verif.Cpp.Dmp.C104_matrices", "Verif.Cpp.Dmp.C104_trajectory", "Verif.C104_same"], "note": "Asserts are active (debug build); in release builds Eigen does not check sizes. Exact arithmetic."},
{"property": "C105", "status": "partial", "theorems": ["Verif.C105_mean", "Verif.C105_decay", "Verif.C105_adaptation", "Verif.C105_no_method", "Verif.C105_ignored", "Verif.C105_demos", "Verif.C105_runs", "Verif.C105_sessions", "Verif.C105_shrinks", "Verif.C105_min_refuted", "Verif.C105_min_partial"], "note": "The last part is false of the code: the demos pass min_level and max_level, the constructor reads diagonal_min and diagonal_max (C105_min_refuted). With diagonal_min it holds (C105_min_partial). Arrays as eliteness, decay factor or learning rate are not modelled; plots are not modelled."},
{"property": "C106", "status": "proved", "theorems": ["Verif.C106_distance", "Verif.C106_components", "Verif.C106_minimum"], "note": "Sample and point have the same size (numpy would broadcast). Exact arithmetic."},
{"property": "C107", "status": "proved", "theorems": ["Verif.C107_train", "Verif.C107_explore", "Verif.C107_demo", "Verif.C107_task"], "note": "Composition of C103, C94, C105, C62, C51, C50 and C48. Exact arithmetic, also in files; plots are not modelled except for what they need. What bash does after a failing program is not modelled (no program fails here)."},
{"property": "C108", "status": "partial", "theorems": ["Verif.Cpp.Dmp.C108_partial", "Verif.Cpp.Dmp.C108_ignored", "Verif.Cpp.Dmp.C108_mended", "Verif.Cpp.Dmp.C108_refuted"], "note": "Refuted for the analytical solution (C108_refuted): C++ rebuilds a critically damped spring-damper system from the damping coefficient, and ignores the spring constant (C108_ignored). C108_partial: integration and execution always agree, the analytical solution if the final system is critically damped. C108_mended: the spring constant lost on reading (C71_refuted) can be restored by set_spring_constant."},
{"property": "C109", "status": "proved", "theorems": ["Verif.Cpp.C109_program", "Verif.Cpp.C109_files", "Verif.Cpp.C109_held", "Verif.TunableDmp.C109_rollout", "Verif.C109_explore", "Verif.C109_demo"], "note": "Composition of C79, C73, C94, C107, C62. Exact arithmetic; the files of the exploration are rounded to 7 decimals as in the code, those of the session are not; cost_vars are not rounded. What bash does after a failing program is not modelled (no program fails here)."},
{"property": "C11", "status": "partial", "theorems": ["Verif.Exponential.C11_time_scaling", "Verif.TimeSystem.C11_time_scaling", "Verif.SpringDamper.C11_time_scaling", "Verif.Richards.C11_time_scaling", "Verif.Sigmoid.C11_refuted", "Verif.Sigmoid.C11_for_gating_partial"], "note": "The code violates the claim for SigmoidSystem (max_rate is not rescaled by the tau setter): Sigmoid.C11_refuted proves the negation of Sigmoid.C11_statement. All other systems satisfy it."},
{"property": "C110", "status": "partial", "theorems": ["Verif.C110_file", "Verif.C110_raises", "Verif.C110_names", "Verif.C110_directory", "Verif.C110_single", "Verif.C110_missing", "Verif.C110_partial", "Verif.C110_refuted", "Verif.C110_hole", "Verif.C110_robot"], "note": "Refuted for --save with a file as input, which raises a TypeError (C110_refuted, C110_single). C110_partial: all other inputs. Styles, labels and limits of axes are not modelled, nor are text files other than tables of numbers."},
{"property": "C111", "status": "proved", "theorems": ["Verif.C111_names", "Verif.C111_digits", "Verif.C111_files", "Verif.C111_fails", "Verif.C111_exploration", "Verif.C111_demos", "Verif.C111_short"], "note": "C111_short: for movements that end before 2/150 s, the files of demo_robot.bash have one line and plot_rollouts.py raises an IndexError. What bash does after a failing program is not modelled."},
{"property": "C112", "status": "proved", "theorems": ["Verif.C112_run", "Verif.C112_demo", "Verif.C112_unreadable"], "note": "Files with times that do not increase are covered by C103_trains. Styles of plots and plt.show are not modelled."},
{"property": "C113", "status": "proved", "theorems": ["Verif.C113_plot", "Verif.C113_demo"], "note": "The costs of tasks have the same number of components for all rollouts, and fewer than 100000 updates are assumed (five digits in the names of directories). Styles of plots and saving of figures are not modelled."},
{"property": "C114", "status": "partial", "theorems": ["Verif.C114_run", "Verif.C114_demonstration", "Verif.C114_demo_partial", "Verif.C114_ijspeert", "Verif.C114_2022", "Verif.C114_training"], "note": "The training is proved for all three types; what is shown for the type KULVICIUS_2012_JOINING, and for all Dmps that C++ can read once they are trained. Missing: the figures for the types IJSPEERT_2002_MOVEMENT and 2022. Styles of plots and plt.show are not modelled."},
{"property": "C12", "status": "proved", "theorems": ["Verif.DynSys.C12_integrate_is_iteration", "Verif.DynSys.C12_integrate_empty", "Verif.DynSys.C12_wrong_size_rejected", "Verif.DynSys.C12_zero_step", "Verif.Exponential.realises", "Verif.TimeSystem.realises", "Verif.SpringDamper.realises", "Verif.Sigmoid.realises", "Verif.Richards.realises", "Verif.DynSys.C12_integrate_start", "Verif.DynSys.C12_integrate_start_rejected", "Verif.DynSys.C12_integrate_step"], "note": "stated for every system whose differential_equation acts as a function; instances shown by the realises theorems"},
{"property": "C13", "status": "proved", "theorems": ["Verif.Exponential.C13_step_factor", "Verif.Exponential.C13_integrate_monotone", "Verif.Exponential.C13_local_error"], "note": ""},
{"property": "C14", "status": "proved", "theorems": ["Verif.Exponential.C14_decouple", "Verif.SpringDamper.C14_decouple", "Verif.Sigmoid.C14_decouple", "Verif.Richards.C14_decouple"], "note": ""},
{"property": "C15", "status": "proved", "theorems": ["Verif.Base.C15_init", "Verif.Base.C15_setXInit", "Verif.Base.C15_size_invariant", "Verif.Base.C15_setYInit", "Verif.C15_subclass_init"], "note": ""},
{"property": "C16", "status": "proved", "theorems": ["Verif.Dmp.C16_partition", "Verif.Dmp.C16_read", "Verif.Dmp.C16_trajectory", "Verif.Dmp.C16_size", "Verif.Dmp.C16_types"], "note": ""},
{"property": "C17", "status": "partial", "theorems": ["Verif.Dmp.C17_targets_invert_partial", "Verif.Dmp.C17_training_partial", "Verif.Dmp.C17_gpr", "Verif.Dmp.C17_computable", "Verif.Dmp.C17_refuted"], "note": "Proved for all trajectories, scalings, subsystems, masses, with and without damping system, except for dmp_types with scaled goal and goal_system=None, where the claim is false of the code (C17_refuted)."},
{"property": "C18", "status": "proved", "theorems": ["Verif.Dmp.C18_reproduces", "Verif.Dmp.C18_deviation", "Verif.Dmp.C18_gpr"], "note": "Exact reproduction of Euler-consistent demonstrations at rest; otherwise the deviation is the motion of a free spring-damper system disturbed by the residuals of the demonstration (Spec.Deviation)."},
{"property": "C19", "status": "proved", "theorems": ["Verif.Dmp.C19_converges", "Verif.Dmp.C19_defaults", "Verif.Dmp.C19_no_scaling", "Verif.Dmp.C24_motions", "Verif.Dmp.C19_example", "Verif.Dmp.C19_example_default"], "note": "General theorem for any subsystems (bounded outputs, gating to 0, goal to the attractor, positive damping in the limit); for the default subsystems all of these hypotheses are proved, after any history of assignments, training and queries. For NO_SCALING types: directly after the constructor. Motions are continuous with right derivatives, as the phase has a kink; explicit motions show that the hypotheses are met."},
{"property": "C20", "status": "partial", "theorems": ["Verif.Dmp.C20_only_speed_partial", "Verif.Dmp.C20_refuted", "Verif.Dmp.C20_damping_refuted"], "note": "Proved for Dmps whose gating and goal are not SigmoidSystems and which have no damping system; refuted for the default Dmp (sigmoid gating keeps its max_rate) and for Dmps with a damping system (the tau setter does not pass tau on to it)."},
{"property": "C21", "status": "partial", "theorems": ["Verif.Dmp.C21_translates_partial", "Verif.Dmp.C21_refuted"], "note": "Proved for scaled goal systems and for exponential or absent unscaled goal; refuted for a dmp_type with scaled goal constructed with goal_system=None."},
{"property": "C22", "status": "partial", "theorems": ["Verif.Dmp.C22_stretches_partial", "Verif.Dmp.C22_refuted"], "note": "Proved for scaled goal systems and for exponential or absent unscaled goal; refuted for a dmp_type with scaled goal constructed with goal_system=None."},
{"property": "C23", "status": "partial", "theorems": ["Verif.Dmp.C23_start_partial", "Verif.Dmp.C23_reads_old", "Verif.Dmp.C23_refuted"], "note": "Integration and analytical solution start at the assigned value with velocity zero, wrong sizes are rejected without effect; the property y_init returns the old value, because the setter does not update the base class (refuted)."},
{"property": "C24", "status": "partial", "theorems": ["Verif.Dmp.C24_heads_for_goal_partial", "Verif.Dmp.C24_motions", "Verif.Dmp.C24_refuted"], "note": "Analytical solution and exact motions of the differential equation, all reachable objects with default goal system; refuted for the dmp_types with NO_SCALING, whose goal system keeps the old attractor. For numerical integration see C75."},
{"property": "C25", "status": "partial", "theorems": ["Verif.Dmp.C25_no_side_effect_partial", "Verif.Dmp.C25_later_partial", "Verif.Dmp.C25_refuted"], "note": "All objects except those with a user-supplied exponential goal system that does not have the attractor of the Dmp; for these refuted, because differential_equation changes the attractor of the goal system."},
{"property": "C26", "status": "proved", "theorems": ["Verif.Dmp.C26_subsystems", "Verif.Dmp.C26_subsystems_loop", "Verif.Dmp.C26_dimensions", "Verif.Dmp.C26_dimensions_loop"], "note": "Steps of phase, gating, goal and damping are steps of these systems alone (goal system with the attractor of the Dmp); a dimension depends on parameters and state of that dimension only (plus phase and gating). Both methods, for one step and for the loop of integrate."},
{"property": "C27", "status": "proved", "theorems": ["Verif.Dmp.C27_roundtrip", "Verif.Dmp.C27_unselected", "Verif.Dmp.C27_select"], "note": "Sharing of memory between the given vector and the parameters is not modelled."},
{"property": "C28", "status": "partial", "theorems": ["Verif.Dmp.C28_length_partial", "Verif.Dmp.C28_goal_stays", "Verif.Dmp.C28_length_refuted", "Verif.Dmp.C28_undo_refuted"], "note": "Length equals size for every selection, but not before anything is selected; a selection of the goal cannot be undone."},
{"property": "C29", "status": "proved", "theorems": ["Verif.TaskSolverDmp.C29_same_result", "Verif.TaskSolverDmp.C29_original", "Verif.TaskSolverDmp.C29_result", "Verif.TaskSolverDmp.C29_init"], "note": "Dmps are kept in a memory with references, so that the deep copy matters. Results as data frame are not modelled."},
{"property": "C30", "status": "partial", "theorems": ["Verif.DmpWithSchedules.C30_partial", "Verif.DmpWithSchedules.C30_refuted", "Verif.DmpWithSchedules.C30_bounds", "Verif.DmpWithSchedules.C30_lists", "Verif.DmpWithSchedules.C30_arrays", "Verif.DmpWithSchedules.C30_single"], "note": "The full statement is false of the code: the bound 0 of a single schedule is taken for None (C30_refuted). Proved for all other bounds, for all values that are returned, after any calls of methods. For several schedules, bounds that are numbers or arrays raise ValueError (C30_arrays), and lists raise IndexError in integrate_start_sched and integrate_step_sched (C30_single); with lists, analytical_solution_sched always returns (C30_lists)."},
{"property": "C31", "status": "proved", "theorems": ["C31_activations", "C31_decreasing", "C31_decreasing_strict", "C31_normalized", "C31_ratio"], "note": "Non-zero widths; zero widths at the centre give nan, which the model reports."},
{"property": "C32", "status": "proved", "theorems": ["C32_equidistant", "C32_intersection", "C32_defined"], "note": "Height in (0,1), inputs not constant in dimensions with several basis functions."},
{"property": "C33", "status": "proved", "theorems": ["C33_grid", "C33_once", "C33_superfluous", "C33_succeeds"], "note": "C33_superfluous shows what happens if n_bfs_per_dim is too long."},
{"property": "C34", "status": "proved", "theorems": ["C34_linear", "C34_affine", "C34_recovers_linear", "C34_recovers_affine", "C34_succeeds", "C34_object"], "note": "Non-negative weights and regularisation."},
{"property": "C35", "status": "proved", "theorems": ["C35_minimises", "C35_reproduces", "C35_linear", "C35_object"], "note": "One number of basis functions per dimension (see C67)."},
{"property": "C36", "status": "proved", "theorems": ["C36_between", "C36_affine", "C36_object"], "note": "One number of basis functions per dimension (see C67)."},
{"property": "C37", "status": "partial", "theorems": ["C37_refuted", "C37_partial"], "note": "The code ignores the regularisation parameter, so the statement is refuted; the lines minimise the unregularised error."},
{"property": "C38", "status": "proved", "theorems": ["C38_interpolates", "C38_linear", "C38_gaussians", "C38_object"], "note": ""},
{"property": "C39", "status": "proved", "theorems": ["C39_batch", "C39_errors", "C39_train"], "note": ""},
{"property": "C40", "status": "proved", "theorems": ["Verif.Trajectory.C40_shape", "Verif.Trajectory.C40_init_rejects", "Verif.Trajectory.C40_init_rejects_misc", "Verif.Trajectory.C40_init_rejects_yds", "Verif.Trajectory.C40_init_rejects_ydds", "Verif.Trajectory.C40_setMisc_rejects"], "note": "invariant over every successful sequence of public operations"},
{"property": "C41", "status": "proved", "theorems": ["Verif.Trajectory.C41_matrix_roundtrip", "Verif.Trajectory.C41_trajectory_roundtrip", "Verif.Trajectory.C41_no_misc", "Verif.Trajectory.C41_has_misc"], "note": "both directions, with and without misc columns"},
{"property": "C42", "status": "partial", "theorems": ["Verif.Trajectory.C42_append", "Verif.Trajectory.C42_mean_step", "Verif.Trajectory.C42_prepend_partial", "Verif.Trajectory.C42_refuted"], "note": "append holds; prepend keeps times increasing iff the mean step of the OTHER trajectory is positive, and fails for a one-sample other trajectory (nan step); refuted as claimed"},
{"property": "C43", "status": "partial", "theorems": ["Verif.Trajectory.C43_crop_indices", "Verif.Trajectory.C43_crop_rejected", "Verif.Trajectory.C43_crop_times_partial", "Verif.Trajectory.C43_times_refuted"], "note": "index cropping proved; cropping by time never keeps the last sample nor the one at the stop time, and ignores intervals outside the trajectory: refuted as claimed, exact behaviour proved"},
{"property": "C44", "status": "partial", "theorems": ["Verif.Trajectory.C44_polynomial_partial", "Verif.Trajectory.C44_rejects", "Verif.Trajectory.C44_refuted", "Verif.Trajectory.C44_final_position"], "note": "refuted as claimed: velocities/accelerations are divided by T, T^2, and the final position is off by -a0/2 for initial acceleration a0; exact behaviour proved"},
{"property": "C45", "status": "partial", "theorems": ["Verif.Trajectory.C45_min_jerk_partial", "Verif.Trajectory.C45_refuted"], "note": "proved for times starting at 0; refuted for other start times"},
{"property": "C46", "status": "partial", "theorems": ["Verif.Trajectory.C46_constant_velocity_partial", "Verif.Trajectory.C46_constant_acceleration", "Verif.Trajectory.C46_recompute", "Verif.Trajectory.C46_refuted"], "note": "proved from three samples on; refuted for two samples"},
{"property": "C47", "status": "partial", "theorems": ["Verif.Trajectory.C47_pad_end", "Verif.Trajectory.C47_pad_front_partial", "Verif.Trajectory.C47_pad_front_one", "Verif.Trajectory.C47_refuted"], "note": "pad_end proved; pad_front proved for at least two samples; pad_front(1) gives nan times"},
{"property": "C48", "status": "partial", "theorems": ["Verif.C48_probability", "Verif.C48_total_only", "Verif.C48_pibb_order_partial", "Verif.C48_rank_order", "Verif.C48_order_refuted"], "note": "Weights are a probability vector that depends on the first cost only, for all three methods. Order: CEM and CMA-ES always, PI-BB for eliteness h >= 0. With h < 0 the order is reversed (refuted with a witness)."},
{"property": "C49", "status": "proved", "theorems": ["Verif.C49_scale_invariant", "Verif.C49_permutation", "Verif.C49_unknown_method"], "note": ""},
{"property": "C50", "status": "proved", "theorems": ["Verif.C50_convex", "Verif.C50_not_modified", "Verif.C50_mean_only", "Verif.C50_succeeds"], "note": ""},
{"property": "C51", "status": "proved", "theorems": ["Verif.C51_decay"], "note": ""},
{"property": "C52", "status": "partial", "theorems": ["Verif.C52_symmetric", "Verif.C52_psd_partial", "Verif.C52_diagonal_partial", "Verif.C52_refuted"], "note": "Symmetry holds for all settings. Positive semi-definiteness holds without diagonal_max, or with diag_only from a diagonal start. With diagonal_max and off-diagonal entries it fails (refuted with a witness)."},
{"property": "C53", "status": "proved", "theorems": ["Verif.C53_limits", "Verif.C53_learning_rate", "Verif.C53_init", "Verif.C53_short_limit"], "note": "diagonal_min wins if it exceeds diagonal_max."},
{"property": "C54", "status": "proved", "theorems": ["Verif.C54_samples", "Verif.C54_update", "Verif.C54_optimisation", "Verif.C54_optimisation_task", "Verif.C54_no_bounds", "Verif.C54_init"], "note": "Assumes lower bounds do not exceed upper bounds (otherwise no point is within the bounds)."},
{"property": "C55", "status": "proved", "theorems": ["Verif.C55_history", "Verif.C55_history_task", "Verif.C55_succeeds", "Verif.C55_succeeds_task"], "note": ""},
{"property": "C56", "status": "partial", "theorems": ["Verif.C56_cache_only", "Verif.C56_map_partial", "Verif.C56_files", "Verif.C56_refuted"], "note": "Holds for objects not modified between tell and ask and well-formed keys; the unrestricted statement is refuted by concrete witnesses."},
{"property": "C57", "status": "partial", "theorems": ["Verif.C57_reopen_partial", "Verif.C57_opens", "Verif.C57_refuted"], "note": "Re-opening returns the stored values when each key keeps one file kind; refuted otherwise because a stale json file is preferred to a newer txt file."},
{"property": "C58", "status": "partial", "theorems": ["Verif.C58_distinct_partial", "Verif.C58_layout", "Verif.C58_components", "Verif.C58_padding", "Verif.C58_collisions", "Verif.C58_files_collide", "Verif.C58_refuted"], "note": "Distinct for labels and names without underscores/slashes clashes; unrestricted statement refuted."},
{"property": "C59", "status": "partial", "theorems": ["Verif.C59_last_update_partial", "Verif.C59_run_partial", "Verif.C59_run_task_partial", "Verif.C59_refuted", "Verif.C59_stray"], "note": "get_n_updates returns N-1 (the number of the last update) instead of N; beyond 100000 updates with directory it returns 99999; the claim is refuted, the theorems state what is returned."},
{"property": "C60", "status": "proved", "theorems": ["Verif.C60_evaluations", "Verif.C60_means", "Verif.C60_increasing", "Verif.C60_run", "Verif.C60_before_after", "Verif.C60_before_after_run"], "note": "The number of rows is the one returned by get_n_updates (see C59)."},
{"property": "C61", "status": "proved", "theorems": ["C61_repeat"], "note": "Any database, any outcome of the run and any crash point between write operations (each file is written atomically in the model). The new process opens the session from its directory and uses the same random draw."},
{"property": "C62", "status": "proved", "theorems": ["C62_history", "C62_same", "C62_files"], "note": "The dmp object is abstract: setting parameters twice keeps the last ones, getting them returns those set, and the solver is the rollout of the dmp with the sample as parameters. Re-opening the session is allowed at every point unless there is one sample or one parameter only (np.loadtxt then returns arrays of lower dimension and update_step fails)."},
{"property": "C63", "status": "partial", "theorems": ["Verif.DmpContextual.C63_installs", "Verif.DmpContextual.C63_interpolates", "Verif.DmpContextual.C63_gpr", "Verif.DmpContextual.C63_means", "Verif.DmpContextual.C63_start_partial", "Verif.DmpContextual.C63_start_refuted", "Verif.DmpContextual.C63_fromDmp", "Verif.DmpContextual.C63_errors", "Verif.DmpContextual.C63_forced"], "note": "Installing predicted parameters and interpolation are proved. The start position after training is that of the constructor (first demonstration with from_trajs), not the mean: the y_init getter of a Dmp is not updated by training."},
{"property": "C64", "status": "partial", "theorems": ["Verif.TaskViapoint.C64_values", "Verif.TaskViapoint.C64_total", "Verif.TaskViapoint.C64_labels", "Verif.TaskViapoint.C64_viapoint", "Verif.TaskViapoint.C64_viapoint_any", "Verif.TaskViapoint.C64_succeeds", "Verif.TaskViapoint.C64_errors", "Verif.TaskViapoint.C64_rollout", "Verif.TaskViapoint.C64_init", "Verif.TaskViapoint.C64_defaults", "Verif.TaskViapoint.C64_weights_refuted", "Verif.TaskViapoint.C64_weights_partial"], "note": "First entry is the sum, entries are nonnegative, values of all components, which label belongs to which component, when the viapoint component is 0, when evaluation succeeds and how it fails. Refuted: that each component depends on its own weight only (the goal weight changes the number of time steps the acceleration cost is divided by); C64_weights_partial states what holds."},
{"property": "C65", "status": "partial", "theorems": ["Verif.Cpp.C65_systems_partial", "Verif.Cpp.C65_spring_partial", "Verif.Cpp.C65_refuted", "Verif.Cpp.C65_read", "Verif.Cpp.C65_read_spring_arrays", "Verif.Cpp.C65_step_size", "Verif.Cpp.C65_time_init", "Verif.Cpp.C65_spring_velocity", "Verif.Cpp.C65_spring_constant", "Verif.Cpp.C65_sigmoid_setYInit", "Verif.Cpp.C65_activations", "Verif.Cpp.C65_predict", "Verif.Cpp.C65_predictRealTime", "Verif.Cpp.C65_read_fa"], "note": "For objects read from what Python wrote and changed in the same way since then: initial states, rates of change, Euler and Runge-Kutta steps, integration and analytical solutions agree, and so do activations and predictions. Refuted for all times and step sizes (TimeSystem with unsorted times, step sizes that are not positive, initial states that are not read); the partial theorems need positive step sizes and, for TimeSystem, sorted times."},
{"property": "C66", "status": "partial", "theorems": ["Verif.Trajectory.C66_viapoint_partial", "Verif.Trajectory.C66_refuted"], "note": "end position reached only if viapoint acceleration is 0; refuted otherwise"},
{"property": "C67", "status": "partial", "theorems": ["C67_refuted", "C67_scalar", "C67_partial"], "note": "Refuted for one number of basis functions and several dimensions; holds with one number per dimension."},
{"property": "C68", "status": "proved", "theorems": ["Verif.DmpWithSchedules.C68_roundtrip", "Verif.DmpWithSchedules.C68_unselected", "Verif.DmpWithSchedules.C68_select"], "note": "Parameter vectors of a DmpWithSchedules whose Dmp is reachable from the constructor with default subsystems."},
{"property": "C69", "status": "proved", "theorems": ["Verif.DmpWithSchedules.C69_motion", "Verif.DmpWithSchedules.C69_train"], "note": "Targets with another number of rows than the demonstration are not modelled."},
{"property": "C70", "status": "partial", "theorems": ["Verif.Cpp.Dmp.C70_partial", "Verif.Cpp.Dmp.C70_executes", "Verif.Cpp.Dmp.C70_other_types", "Verif.Cpp.Dmp.C70_refuted", "Verif.Cpp.Dmp.C70_decoupled_refuted"], "note": "Types of 2012 and 2013 with default subsystems: read and usable exactly if prepared (scalar damping, initial state set, approximators trained). Refuted for the other types (no goal system) and after decouple_parameters (arrays)."},
{"property": "C71", "status": "partial", "theorems": ["Verif.Cpp.Dmp.C71_partial", "Verif.Cpp.Dmp.C71_reject", "Verif.Cpp.Dmp.C71_refuted"], "note": "Types of 2012 and 2013 with default subsystems, whatever was done before saving and whatever is set afterwards. Refuted for a transformation system that is not critically damped: the spring constant is not read."},
{"property": "C72", "status": "partial", "theorems": ["Verif.Cpp.Trajectory.C72_min_jerk", "Verif.Cpp.Trajectory.C72_polynomial", "Verif.Cpp.Trajectory.C72_viapoint_partial", "Verif.Cpp.Trajectory.C72_viapoint_rest_partial", "Verif.Cpp.Trajectory.C72_viapoint_halfway_partial", "Verif.Cpp.Trajectory.C72_viapoint_errors", "Verif.Cpp.Trajectory.C72_refuted", "Verif.Cpp.Trajectory.C72_same_viapoint_refuted"], "note": "Minimum-jerk and polynomial trajectories: complete. Viapoints: which calls succeed, and what the trajectory is at start, viapoint and end; requested velocities are scaled and mostly rejected by an assertion, hence the full claim is refuted and the claims for viapoints at rest or half way are partial."},
{"property": "C73", "status": "partial", "theorems": ["Verif.Cpp.Trajectory.C73_partial", "Verif.Cpp.Trajectory.C73_exact", "Verif.Cpp.Trajectory.C73_save", "Verif.Cpp.Trajectory.C73_save_in", "Verif.Cpp.Trajectory.C73_savetxt", "Verif.Cpp.Trajectory.C73_python_cpp_partial", "Verif.Cpp.Trajectory.C73_cpp_python_partial", "Verif.Cpp.Trajectory.C73_python_partial", "Verif.Cpp.Trajectory.C73_no_misc", "Verif.Cpp.Trajectory.C73_stable", "Verif.Cpp.Trajectory.C73_misc", "Verif.Cpp.Trajectory.C73_columns", "Verif.Cpp.Trajectory.C73_read_errors", "Verif.Cpp.Trajectory.C73_single", "Verif.Cpp.Trajectory.C73_refuted", "Verif.Cpp.Trajectory.C73_saved_refuted"], "note": "All round trips, up to rounding of every number to 6 or 7 decimals (exactness is refuted); failing file systems; saveToFile with a directory returns true even if nothing is written (refuted)."},
{"property": "C74", "status": "proved", "theorems": ["Verif.Cpp.Trajectory.C74_init", "Verif.Cpp.Trajectory.C74_ends", "Verif.Cpp.Trajectory.C74_range", "Verif.Cpp.Trajectory.C74_set_misc", "Verif.Cpp.Trajectory.C74_append", "Verif.Cpp.Trajectory.C74_append_kept", "Verif.Cpp.Trajectory.C74_append_assoc"], "note": "Associativity for at least two samples in the middle."},
{"property": "C75", "status": "proved", "theorems": ["Verif.Dmp.C75_small_steps", "Verif.Dmp.C75_integrate", "Verif.Dmp.C75_step_by_step", "Verif.Dmp.C75_step_length", "Verif.Dmp.C75_example", "Verif.Dmp.C75_large_steps_fail"], "note": "Exact real arithmetic; steps of one length; default subsystems (DefaultScaled). C75_example shows that such sequences exist; C75_large_steps_fail that long steps do not arrive."},
{"property": "C76", "status": "proved", "theorems": ["Verif.Arm2D.C76_positions", "Verif.Arm2D.C76_matrix", "Verif.Arm2D.C76_link_length", "Verif.Arm2D.C76_reach", "Verif.Arm2D.C76_bend", "Verif.Arm2D.C76_rotate"], "note": "Too few lengths are an IndexError. The joints are specified in Spec/Arm."},
{"property": "C77", "status": "partial", "theorems": ["Verif.ArmSolver.C77_default", "Verif.ArmSolver.C77_lengths_partial", "Verif.ArmSolver.C77_lengths_refuted", "Verif.ArmSolver.C77_init", "Verif.ArmSolver.C77_rollout", "Verif.ArmSolver.C77_same_result", "Verif.ArmTask.C77_task", "Verif.ArmTask.C77_reject", "Verif.ArmTask.C77_evaluate", "Verif.ArmTask.C77_costs"], "note": "Refuted for the link lengths: without link_lengths the constructor always fails (so does the demo), given lengths are replaced by 1/n. The acceleration cost is divided by 2 instead of the number of joints."},
{"property": "C78", "status": "partial", "theorems": ["Verif.ThrowBall.C78_simulation", "Verif.ThrowBall.C78_fails", "Verif.ThrowBall.C78_accelerations_partial", "Verif.ThrowBall.C78_accelerations_refuted", "Verif.ThrowBall.C78_floor", "Verif.ThrowBall.C78_parabola", "Verif.ThrowBall.C78_lands"], "note": "All of it is proved except for the recorded acceleration in the row of the release, which the code overwrites with gravity (refuted)."},
{"property": "C79", "status": "partial", "theorems": ["Verif.Cpp.C79_dmp", "Verif.Cpp.C79_negative", "Verif.Cpp.C79_wrong_size", "Verif.Cpp.C79_trajectory", "Verif.Cpp.C79_trajectory_short", "Verif.Cpp.C79_trajectory_size", "Verif.Cpp.C79_width", "Verif.Cpp.C79_trajectory_width", "Verif.Cpp.C79_same_partial", "Verif.Cpp.C79_same_landing", "Verif.Cpp.C79_same_refuted", "Verif.Cpp.C79_initial"], "note": "The simulation in C++ is proved in full. That the rows are those of Python is refuted (time column); proved for the other columns, except accelerations in the row of the release."},
{"property": "C80", "status": "proved", "theorems": ["Verif.ThrowBall.C80_costs", "Verif.ThrowBall.C80_fails", "Verif.ThrowBall.C80_components", "Verif.ThrowBall.C80_hit", "Verif.ThrowBall.C80_effort", "Verif.ThrowBall.C80_landing", "Verif.ThrowBall.C80_simulated"], "note": "Costs in closed form, error branches, and the landing site in C++ and Python."},
{"property": "C81", "status": "proved", "theorems": ["Verif.ForceField.C81_rollout", "Verif.ForceField.C81_total", "Verif.ForceField.C81_too_few", "Verif.ForceField.C81_gains", "Verif.ForceField.C81_proportional", "Verif.ForceField.C81_solver", "Verif.ForceField.C81_times"], "note": "Exact real arithmetic. Rollouts of constant and parametrised gains exist: Props/ForceFieldExamples."},
{"property": "C82", "status": "proved", "theorems": ["Verif.ForceField.C82_arrives", "Verif.ForceField.C82_small_steps", "Verif.ForceField.C82_example", "Verif.ForceField.C82_large_gains_fail"], "note": "Default subsystems (DefaultScaled), steps of one length; the bound on the gains is sharp."},
{"property": "C83", "status": "partial", "theorems": ["Verif.ForceField.C83_costs", "Verif.ForceField.C83_rollout", "Verif.ForceField.C83_matrix", "Verif.ForceField.C83_rejects", "Verif.ForceField.C83_defaults", "Verif.ForceField.C83_partial", "Verif.ForceField.C83_refuted"], "note": "Closed form of all costs; that gains at the minimum are free is refuted, with bounds of their cost instead."},
{"property": "C84", "status": "proved", "theorems": ["Verif.Dmp.C84_motion", "Verif.Dmp.C84_integrate", "Verif.Dmp.C84_analytical", "Verif.Dmp.C84_agree", "Verif.Dmp.C84_succeeds", "Verif.Dmp.C84_times", "Verif.Dmp.C84_example"], "note": "Default subsystems (not the NO_SCALING variants), exact arithmetic. Rates of change are compared for positions and velocities; those of the subsystems are those of their own differential equations."},
{"property": "C85", "status": "partial", "theorems": ["Verif.Dmp.C85_succeeds", "Verif.Dmp.C85_sets_partial", "Verif.Dmp.C85_keeps", "Verif.Dmp.C85_stops", "Verif.Dmp.C85_missing", "Verif.Dmp.C85_refuted", "Verif.Dmp.C85_ignored", "Verif.Dmp.C85_changed", "Verif.Dmp.C85_desynchronised", "Verif.Dmp.C85_fresh_refuted", "Verif.Dmp.C85_tuned"], "note": "Exactly when it succeeds, what is set and what is kept, also after exceptions. The full statement is refuted: phase and gating system are ignored, exceptions leave changes, cached values of a SigmoidSystem stay. Values of other types than those of the attributes are not modelled."},
{"property": "C86", "status": "partial", "theorems": ["Verif.C86_items", "Verif.C86_files", "Verif.C86_reopen_partial", "Verif.C86_refuted"], "note": "Keys that do not collide (C58). Colliding keys overwrite each other: refuted as stated."},
{"property": "C87", "status": "partial", "theorems": ["Verif.Dmp.C87_made", "Verif.Dmp.C87_curves", "Verif.Dmp.C87_arrives", "Verif.Dmp.C87_reproduces", "Verif.Dmp.C87_raises", "Verif.Dmp.C87_succeeds", "Verif.Dmp.C87_duration_partial", "Verif.Dmp.C87_refuted", "Verif.DmpWithSchedules.C87_sched"], "note": "The time constant is the last time of the demonstration, which is its duration only if it starts at time zero (C87_refuted); all other parts are proved without this assumption. C87_curves covers the default systems."},
{"property": "C88", "status": "partial", "theorems": ["Verif.C88_make", "Verif.Cpp.C88_setters", "Verif.Cpp.C88_order", "Verif.Cpp.C88_states", "Verif.Cpp.C88_solutions", "Verif.Cpp.C88_steps", "Verif.Cpp.C88_no_times", "Verif.Cpp.C88_numbers", "Verif.Cpp.C88_read_arrays", "Verif.Cpp.C88_read_spring", "Verif.Cpp.C88_read_untrained", "Verif.Cpp.C88_read_trained", "Verif.Cpp.C88_predict", "Verif.Cpp.Dmp.C88_read_goal", "Verif.Cpp.Dmp.C88_read_few", "Verif.Cpp.Dmp.C88_null", "Verif.Cpp.Dmp.C88_null_gating", "Verif.Cpp.Dmp.C88_no_times", "Verif.Cpp.Dmp.C88_scaling", "Verif.Cpp.Dmp.C88_make", "Verif.Cpp.C88_segments", "Verif.Cpp.Trajectory.C88_polynomial", "Verif.Cpp.Trajectory.C88_of_matrix", "Verif.Cpp.C88_load", "Verif.Dmp.C88_no_amplitudes", "Verif.Dmp.C88_no_start", "Verif.Dmp.C88_few_approximators", "Verif.Dmp.C88_no_times", "Verif.Dmp.C88_start", "Verif.Dmp.C88_train", "Verif.Dmp.C88_train_empty_list", "Verif.Dmp.C88_targets", "Verif.Dmp.C88_no_finite_targets", "Verif.Dmp.C88_set_params", "Verif.C88_get_params", "Verif.C88_size", "Verif.C88_set_params", "Verif.C88_set_first", "Verif.C88_gpr_covariance", "Verif.C88_set_refuted", "Verif.C88_wls", "Verif.C88_gpr", "Verif.C88_basis", "Verif.C88_one_number", "Verif.C88_no_basis", "Verif.C88_no_component", "Verif.C88_no_costs", "Verif.C88_eliteness_type", "Verif.C88_eliteness_zero", "Verif.C88_eliteness_negative", "Verif.C88_eliteness_large", "Verif.C88_update", "Verif.C88_update_nothing", "Verif.C88_limits", "Verif.C88_from_dir", "Verif.C88_no_updates", "Verif.C88_ratio", "Verif.C88_eval_costs", "Verif.C88_sample_costs", "Verif.C88_attractors", "Verif.C88_initial", "Verif.C88_steps", "Verif.C88_start", "Verif.C88_time", "Verif.C88_solver", "Verif.C88_rollout_steps", "Verif.C88_rollout", "Verif.C88_arm", "Verif.C88_links", "Verif.TaskViapoint.C88_no_rows", "Verif.TaskViapoint.C88_goal_time", "Verif.TaskViapoint.C88_sizes", "Verif.ForceField.C88_times", "Verif.ForceField.C88_not_numbers", "Verif.ForceField.C88_gains", "Verif.ForceField.C88_difference", "Verif.ThrowBall.C88_no_times", "Verif.ThrowBall.C88_one_dimension", "Verif.C88_other_class", "Verif.C88_ask", "Verif.C88_tell", "Verif.C88_diffnc", "Verif.Trajectory.C88_init", "Verif.Trajectory.C88_init_derivatives", "Verif.Trajectory.C88_empty", "Verif.Trajectory.C88_append", "Verif.Trajectory.C88_prepend", "Verif.Trajectory.C88_append_refuted", "Verif.Trajectory.C88_pad", "Verif.Trajectory.C88_factories", "Verif.Trajectory.C88_matrix", "Verif.DmpWithSchedules.C88_schedules", "Verif.DmpWithSchedules.C88_ambiguous", "Verif.DmpWithSchedules.C88_train_passes", "Verif.DmpWithSchedules.C88_from_empty", "Verif.DmpWithSchedules.C88_no_times", "Verif.DmpWithSchedules.C88_set_params", "Verif.DmpWithSchedules.C88_few_bounds", "Verif.DmpContextual.C88_from_nothing", "Verif.DmpContextual.C88_untrained", "Verif.DmpContextual.C88_several_tasks", "Verif.DmpContextual.C88_other_selection", "Verif.DmpContextual.C88_train"], "note": "Exact exception of each invalid call, with the object unchanged where that is true. The claim is refuted where the code changes the object before it raises: Trajectory.append with other miscellaneous columns, and set_param_vector with two selected parameters (C88_append_refuted, C88_set_refuted); train with another dimension has already changed the duration (C88_train). Errors of drawing and file formats are not modelled."},
{"property": "C89", "status": "partial", "theorems": ["Verif.Cpp.Dmp.C89_make", "Verif.Cpp.Dmp.C89_make_dims", "Verif.Cpp.Dmp.C89_make_type", "Verif.Cpp.Dmp.C89_make_type_dims", "Verif.Cpp.Dmp.C89_make_plain", "Verif.Cpp.Dmp.C89_needs_room", "Verif.Cpp.Dmp.C89_start_needs_room", "Verif.Cpp.Dmp.C89_solution_needs_room", "Verif.Cpp.Dmp.C89_assertion", "Verif.Cpp.Dmp.C89_with_room_partial", "Verif.Cpp.Dmp.C89_no_room", "Verif.Cpp.Dmp.C89_never", "Verif.Cpp.Dmp.C89_refuted", "Verif.Cpp.Dmp.C89_gate", "Verif.Cpp.Dmp.C89_gate_refuted", "Verif.Cpp.Dmp.C89_gate_set_tau", "Verif.Cpp.Dmp.C89_same_as_python"], "note": "All members after each constructor, and the first state and rate of change with room for the state (C89_with_room_partial). The claim is refuted: the four constructors that from_json does not use pass the order 1 and not the size of the state, so that integrateStart always violates an assertion (C89_refuted, C89_no_room); the gate is half closed at 0.9 tau squared and still open at the end of longer movements (C89_gate_refuted)."},
{"property": "C90", "status": "partial", "theorems": ["Verif.Cpp.C90_member", "Verif.Cpp.C90_vector", "Verif.Cpp.C90_matrix", "Verif.Cpp.C90_vector_error", "Verif.Cpp.C90_time_errors", "Verif.Cpp.C90_rbfn_assertions", "Verif.Cpp.C90_lwr_assertions", "Verif.Cpp.C90_time", "Verif.Cpp.C90_exponential", "Verif.Cpp.C90_sigmoid", "Verif.Cpp.C90_spring", "Verif.Cpp.C90_system", "Verif.Cpp.C90_rbfn", "Verif.Cpp.C90_lwr", "Verif.Cpp.C90_fa", "Verif.Cpp.C90_python_time", "Verif.Cpp.C90_python_exponential", "Verif.Cpp.C90_python_sigmoid", "Verif.Cpp.C90_python_spring", "Verif.Cpp.C90_python_system", "Verif.Cpp.C90_python_fa", "Verif.Cpp.C90_python_dmp", "Verif.Cpp.C90_other_members", "Verif.Cpp.C90_own_model", "Verif.Cpp.C90_same_motions", "Verif.Cpp.C90_fa_again", "Verif.Cpp.C90_fa_empty", "Verif.Cpp.C90_time_again", "Verif.Cpp.C90_written", "Verif.Cpp.C90_never", "Verif.Cpp.C90_dmp_written", "Verif.Cpp.C90_dmp_writes", "Verif.Cpp.C90_dmp_no_goal", "Verif.Cpp.C90_dmp_never", "Verif.Cpp.C90_refuted", "Verif.Cpp.C90_partial"], "note": "Reading is characterised for every json value (C90_system, C90_fa, C90_vector, C90_matrix), and the way from Python is proved for every Dmp (C90_python_dmp, C90_same_motions). The claim about what C++ writes is refuted: exponential, sigmoid and spring-damper systems and Dmps are written without members that reading needs, so reading always fails (C90_refuted, C90_never, C90_dmp_never); it holds for time systems (C90_partial) and function approximators (C90_fa_again)."},
{"property": "C91", "status": "partial", "theorems": ["Verif.C91_eigenvalues", "Verif.C91_max", "Verif.C91_defined", "Verif.C91_exploration", "Verif.C91_exploration_defined", "Verif.C91_exploration_nan", "Verif.C91_initial", "Verif.C91_decay", "Verif.C91_adaptation", "Verif.C91_rows", "Verif.C91_no_updates", "Verif.C91_curve_errors", "Verif.C91_run", "Verif.C91_decay_curve", "Verif.C91_mean_curve", "Verif.C91_refuted"], "note": "All values of the curve are proved. That every update is shown is refuted: because of get_n_updates (C59) the last one is missing (C91_refuted). The upper limit holds with diag_only."},
{"property": "C92", "status": "proved", "theorems": ["Verif.LowPass.C92_butter_error", "Verif.LowPass.C92_lowPass_error", "Verif.LowPass.C92_order", "Verif.LowPass.C92_gain", "Verif.LowPass.C92_dc", "Verif.LowPass.C92_cutoff", "Verif.LowPass.C92_nyquist", "Verif.LowPass.C92_decreasing", "Verif.LowPass.C92_stable", "Verif.LowPass.C92_oscillation", "Verif.LowPass.C92_filtered", "Verif.LowPass.C92_determined", "Verif.LowPass.C92_rejected", "Verif.LowPass.C92_linear", "Verif.LowPass.C92_constant", "Verif.LowPass.C92_translation", "Verif.Trajectory.C92_apply", "Verif.Trajectory.C92_apply_shape", "Verif.Trajectory.C92_apply_succeeds", "Verif.Trajectory.C92_apply_error", "Verif.Trajectory.C92_apply_times", "Verif.Trajectory.C92_apply_rest"], "note": "scipy's butter, filtfilt, lfilter and lfilter_zi are modelled after their published algorithm."},
{"property": "C93", "status": "proved", "theorems": ["Verif.TunableDmp.C93_laws", "Verif.TaskSolverDmp.C93_rollouts", "Verif.TunableDmp.C93_same", "Verif.TunableDmp.C93_files"], "note": "The laws that C62 assumes of an abstract dmp object are proved for Dmp; the task is the abstract user part. Files are exact (no rounding of numbers in json or txt)."},
{"property": "C94", "status": "proved", "theorems": ["Verif.TunableDmp.C94_explore", "Verif.TunableDmp.C94_explore_few", "Verif.TunableDmp.C94_explore_untrained", "Verif.TunableDmp.C94_explore_unreadable", "Verif.C94_rollout", "Verif.C94_unreadable", "Verif.TunableDmp.C94_demo"], "note": "Files are exact (no rounding of numbers in json or txt). Of plotting only what it needs of its data is modelled. Widths of basis functions must not be selected for optimisation (they could become zero or negative). Updaters are those whose covariance update does not fail (stated as hypothesis; decay satisfies it)."},
{"property": "C95", "status": "proved", "theorems": ["Verif.Cpp.C95_symmetric", "Verif.Cpp.C95_asymmetric", "Verif.Cpp.C95_continuous", "Verif.Cpp.C95_normalized", "Verif.Cpp.C95_meet", "Verif.Cpp.C95_zero_width", "Verif.Cpp.C95_covar", "Verif.Cpp.C95_covar_normalized", "Verif.Cpp.C95_covar_peak", "Verif.Cpp.C95_covar_affine", "Verif.Cpp.C95_covar_diagonal", "Verif.Cpp.C95_covar_rows_refuted", "Verif.Cpp.C95_covar_errors", "Verif.Cpp.C95_cosine", "Verif.Cpp.C95_cosine_period", "Verif.Cpp.C95_cosine_errors"], "note": "Sizes are given by types, except those that the functions assert. Finding: if one row of activations is zero, the rows of all other samples do not sum to 1 (C95_covar_rows_refuted)."},
{"property": "C96", "status": "proved", "theorems": ["Verif.C96_ellipse", "Verif.C96_level", "Verif.C96_one"], "note": "np.linalg.svd is any decomposition with the properties that numpy documents; the points of matplotlib's Ellipse patch are modelled as the scaled and rotated unit circle."},
{"property": "C97", "status": "partial", "theorems": ["Verif.C97_update_lines", "Verif.C97_update_texts", "Verif.C97_updates", "Verif.C97_max_refuted", "Verif.C97_max_partial", "Verif.C97_color", "Verif.C97_curve", "Verif.C97_labels", "Verif.C97_plot", "Verif.C97_plot_means", "Verif.C97_single_update", "Verif.C97_reloaded_costs", "Verif.C97_plot_run", "Verif.C97_update", "Verif.C97_updates_run", "Verif.C97_rollouts_update", "Verif.C97_rollouts_run"], "note": "Refuted in one part: plot_rollouts can list max_n_updates + 1 updates (C97_max_refuted); C97_max_partial states the bound that holds. The last update is missing because of C59. Only the data that is drawn is modelled, not axes and figures."},
{"property": "C98", "status": "partial", "theorems": ["Verif.C98_grid", "Verif.C98_box", "Verif.C98_predictions_grid", "Verif.C98_rbfn", "Verif.C98_gpr", "Verif.C98_lwr", "Verif.C98_model_parameters", "Verif.C98_lwr_errors", "Verif.C98_rbfn_errors", "Verif.C98_predictions", "Verif.C98_train", "Verif.C98_plot", "Verif.C98_plot_succeeds", "Verif.C98_no_targets", "Verif.C98_refuted", "Verif.C98_stale_refuted", "Verif.C98_partial"], "note": "All but the last sentence is proved; the last sentence is refuted (C98_refuted: TypeError if the training data were not saved; C98_stale_refuted: data of an earlier training are shown). C98_partial proves it if the data are saved. Only the drawn data are modelled."},
{"property": "C99", "status": "partial", "theorems": ["Verif.Trajectory.C99_trajectory", "Verif.Base.C99_states", "Verif.Base.C99_states_errors", "Verif.Sub.C99_plot", "Verif.SpringDamper.C99_spring", "Verif.Trajectory.C99_plot_none", "Verif.Dmp.C99_picture", "Verif.Dmp.C99_dmp", "Verif.Dmp.C99_dmp_states", "Verif.Dmp.C99_dmp_errors", "Verif.Dmp.C99_same_trajectory", "Verif.Dmp.C99_unforced", "Verif.Dmp.C99_comparison", "Verif.Dmp.C99_goal_partial", "Verif.Dmp.C99_goal_refuted", "Verif.DmpWithSchedules.C99_schedules"], "note": "All but the last sentence is proved, with the exceptions for missing times and axes. The last sentence is refuted for types of Dmps that scale the goal (C99_goal_refuted); C99_goal_partial proves it for all other types. Only the drawn data are modelled."}
]}
