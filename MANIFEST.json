{"claims": [
  {"property": "C01", "status": "proved", "theorems": ["EkfCal.C01_sizes_agree", "EkfCal.C01_counters_agree", "EkfCal.C01_messages"], "note": "Histories are lists of calls with well-formed sensor states (their size field as set by the setters)."},
  {"property": "C02", "status": "proved", "theorems": ["EkfCal.C02_indices_tile", "EkfCal.C02_ranges", "EkfCal.C02_messages"], "note": ""},
  {"property": "C03", "status": "partial", "theorems": ["EkfCal.C03_imu_partial", "EkfCal.C03_gps_partial", "EkfCal.C03_camera_partial", "EkfCal.C03_fiducial_partial", "EkfCal.C03_frame_partial", "EkfCal.C03_predict", "EkfCal.C03_order_violated", "EkfCal.C03_fiducial_violated", "EkfCal.C03_root_violated", "EkfCal.C03_root_drop", "EkfCal.C03_root_drop_violated"], "note": "Standard mode: registration in id order, cloning, dropping and pruning proved over every reachable state. Violated by the code for ids registered out of order (C03_order_violated), fiducials registered while clones exist (C03_fiducial_violated) and in square-root mode (C03_root_violated, C03_root_drop_violated; C03_root_drop gives the exact loss)."},
  {"property": "C04", "status": "proved", "theorems": ["EkfCal.C04_imu", "EkfCal.C04_gps", "EkfCal.C04_camera", "EkfCal.C04_fiducial", "EkfCal.C04_again"], "note": ""},
  {"property": "C05", "status": "partial", "theorems": ["EkfCal.C05_registered_partial", "EkfCal.C05_unknown_effect_partial", "EkfCal.C05_violated", "EkfCal.C05_full_false"], "note": "Violated by the code: getters insert unknown ids (C05_violated). Proved: registered ids are read without effect; exact effect for unknown ids."},
  {"property": "C06", "status": "proved", "theorems": ["EkfCal.C06_insert", "EkfCal.C06_insert_undefined_iff", "EkfCal.C06_remove", "EkfCal.C06_remove_undefined_iff", "EkfCal.C06_round_trip"], "note": "Eigen out-of-range block access is counted as undefined."},
  {"property": "C07", "status": "proved", "theorems": ["EkfCal.C07_standard", "EkfCal.C07_blocks", "EkfCal.C07_psd", "EkfCal.C07_root", "EkfCal.C07_undefined"], "note": "Also for the triangular factor of square-root mode."},
  {"property": "C08", "status": "proved", "theorems": ["EkfCal.C08_messages_psd", "EkfCal.C08_formula", "EkfCal.C08_then_cloning", "EkfCal.C08_step_psd", "EkfCal.C08_history_psd"], "note": "PSD preservation over whole histories in standard mode."},
  {"property": "C09", "status": "partial", "theorems": ["EkfCal.C09_actual", "EkfCal.C09_equal_partial", "EkfCal.C09_noise_violated", "EkfCal.C09_cross_violated"], "note": "C09_actual states exactly what square-root prediction computes. It equals the standard prediction when the noise-transport condition of C09_equal_partial holds. Violated in general: noise is added after the motion (C09_noise_violated) and cross blocks between the body and the rest are not kept (C09_cross_violated)."},
  {"property": "C10", "status": "proved", "theorems": ["EkfCal.C10_psd", "EkfCal.C10_update", "EkfCal.C10_reduction", "EkfCal.C10_decrease", "EkfCal.C10_variances", "EkfCal.C10_zero_residual"], "note": "The inverse is specified by InvLaw; invertibility of the innovation covariance is a hypothesis where used."},
  {"property": "C11", "status": "partial", "theorems": ["EkfCal.C11_actual", "EkfCal.C11_update_partial", "EkfCal.C11_standard_partial", "EkfCal.C11_noise_violated"], "note": "Proved for diagonal measurement noise (C11_standard_partial) and, for any noise, with the noise the code effectively uses (C11_update_partial). Violated for correlated noise because the entrywise square root is taken (C11_noise_violated)."},
  {"property": "C12", "status": "proved", "theorems": ["EkfCal.C12_past", "EkfCal.C12_exact", "EkfCal.C12_history", "EkfCal.C12_monotone", "EkfCal.C12_first_stamp"], "note": "The first stamp given to CalculateLocalTime, which fixes the time base, resets the clock and is excluded (C12_first_stamp)."},
  {"property": "C13", "status": "proved", "theorems": ["EkfCal.C13_offset", "EkfCal.C13_differences", "EkfCal.C13_explicit"], "note": ""},
  {"property": "C14", "status": "partial", "theorems": ["EkfCal.C14_frame", "EkfCal.C14_largest", "EkfCal.C14_bounded_partial", "EkfCal.C14_never_shrinks", "EkfCal.C14_bounded_violated", "EkfCal.C14_memory_iff", "EkfCal.C14_memory_violated"], "note": "Violated by the code: a lowered limit never shrinks a window and a limit of zero is undefined behaviour (C14_bounded_violated, C14_memory_violated). Proved: bounded when the limit is set before the first frame, always bounded by the largest limit ever configured, the oldest is the one dropped, and the exact condition for definedness."},
  {"property": "C15", "status": "proved", "theorems": ["EkfCal.C15_ordered", "EkfCal.C15_ordered_calls", "EkfCal.C15_pruning"], "note": "Assumes the filter clock is not set back by CalculateLocalTime's first stamp (Op.keepsClock), as stated in the theorem."},
  {"property": "C16", "status": "partial", "theorems": ["EkfCal.C16_found", "EkfCal.C16_history", "EkfCal.C16_immediately", "EkfCal.C16_unknown_violated"], "note": "Lookup of a cloned frame proved over whole histories. Violated for a frame that is not in the window: the caller receives a default clone with row index 0 (C16_unknown_violated)."},
  {"property": "C17", "status": "partial", "theorems": ["EkfCal.C17_between_partial", "EkfCal.C17_before", "EkfCal.C17_exact_partial", "EkfCal.C17_empty_violated", "EkfCal.C17_now_violated", "EkfCal.C17_violated"], "note": "Interpolation between enclosing clones and at recorded times proved. Violated by the code: empty window and a query at the newest recorded time are undefined (C17_empty_violated, C17_now_violated, C17_violated)."},
  {"property": "C18", "status": "proved", "theorems": ["EkfCal.C18_flags", "EkfCal.C18_flags_messages", "EkfCal.C18_motion", "EkfCal.C18_pose", "EkfCal.C18_cov", "EkfCal.C18_cov_timed"], "note": "Flags one-way over all call and message histories; pose and covariance preserved by flag changes. The covariance part with time cloning is stated for standard mode (C18_cov_timed)."},
  {"property": "C19", "status": "proved", "theorems": ["EkfCal.C19_recorded", "EkfCal.C19_positions", "EkfCal.C19_evidence", "EkfCal.C19_constant", "EkfCal.C19_frozen", "EkfCal.C19_constant_messages"], "note": "Evidence is stated in Spec/GpsEvidence.lean. The read of an unwritten angular error at standstill is recorded under C49 (C49_standstill_violated)."},
  {"property": "C20", "status": "partial", "theorems": ["EkfCal.C20_published", "EkfCal.C20_alignment", "EkfCal.C20_right_iff_partial", "EkfCal.C20_unrotated_partial", "EkfCal.C20_heading_violated", "EkfCal.C20_origin_violated"], "note": "The alignment recovers rotation and shift exactly (C20_alignment). The published reference is right exactly in the cases of C20_right_iff_partial; violated otherwise: the heading loses its sign (C20_heading_violated) and the origin is not rotated back (C20_origin_violated). Stated in the east-north-up frame of the averaged fixes."},
  {"property": "C21", "status": "proved", "theorems": ["EkfCal.C21_exact", "EkfCal.C21_messages", "EkfCal.C21_update", "EkfCal.C21_unestimated", "EkfCal.C21_unit", "EkfCal.C21_unit_history", "EkfCal.C21_unit_messages", "EkfCal.C21_real_unit", "EkfCal.C21_prim_unit"], "note": "All reachable filters and all vectors of at least GetStateSize() entries, by calls and by messages; unit orientations kept along histories given unit inputs and the unit law of RotVecToQuat (proved over the reals in C23)."},
  {"property": "C22", "status": "partial", "theorems": ["EkfCal.C22_export_partial", "EkfCal.C22_import", "EkfCal.C22_round_trip_partial", "EkfCal.C22_orientation", "EkfCal.C22_intrinsic_violated", "EkfCal.C22_clones_violated", "EkfCal.C22_clone_import_violated"], "note": "Import proved in full. Export and round trip proved without intrinsic-only IMUs, with as many clones as windows, and clones excepted; the three exceptions are violations with witnesses reached by calls."},
  {"property": "C23", "status": "proved", "theorems": ["EkfCal.C23_unit", "EkfCal.C23_rotation", "EkfCal.C23_small", "EkfCal.C23_zero", "EkfCal.C23_round_trip", "EkfCal.C23_isometry", "EkfCal.C23_list", "EkfCal.C23_list_other"], "note": "Over the reals; exact arithmetic instead of IEEE doubles."},
  {"property": "C24", "status": "partial", "theorems": ["EkfCal.C24_local", "EkfCal.C24_local_isometry", "EkfCal.C24_local_heading", "EkfCal.C24_enu", "EkfCal.C24_enu_isometry", "EkfCal.C24_enu_proper", "EkfCal.C24_origin", "EkfCal.C24_ellipsoid", "EkfCal.C24_surface", "EkfCal.C24_illegal_violated", "EkfCal.C24_m_to_deg"], "note": "Inverse isometries, origin, ellipsoid and outward normal proved. Violated: an illegal latitude or longitude gives an unwritten vector (C24_illegal_violated)."},
  {"property": "C25", "status": "proved", "theorems": ["EkfCal.C25_disabled", "EkfCal.C25_append", "EkfCal.C25_file", "EkfCal.C25_exact"], "note": "Every history of calls: nothing on file until logging is on, one header line, rows in call order, append only; exact content when no rate is set. Opening the file is assumed to succeed."},
  {"property": "C26", "status": "partial", "theorems": ["EkfCal.C26_partial", "EkfCal.C26_violated", "EkfCal.C26_unlimited"], "note": "The bound holds with one extra row for each call at time zero before the first non-zero time stamp; C26_violated shows those extra rows do occur, because time zero is also the mark for \"not started\". Fewer than 2^32 calls."},
  {"property": "C27", "status": "partial", "theorems": ["EkfCal.C27_truth_partial", "EkfCal.C27_truth_ids_violated", "EkfCal.C27_truth_endless_violated", "EkfCal.C27_body", "EkfCal.C27_clone", "EkfCal.C27_imu", "EkfCal.C27_stationary", "EkfCal.C27_gps", "EkfCal.C27_fiducial", "EkfCal.C27_msckf", "EkfCal.C27_triangulation", "EkfCal.C27_boards", "EkfCal.C27_features", "EkfCal.C27_sample"], "note": "Proved for the filter, clone, IMU (both kinds of row), GPS, fiducial, camera, triangulation, board and feature logs of every reachable filter: rows are defined, have the header's fields and the header's order. Truth file: proved when ids follow the order IMUs, cameras, GPS receivers from 1, as the simulation constructs them. Violated otherwise: an IMU with id 2 alone gives rows longer than the header (C27_truth_ids_violated), a camera constructed before an IMU makes the row loop run on until a 32-bit counter wraps (C27_truth_endless_violated)."},
  {"property": "C28", "status": "proved", "theorems": ["EkfCal.C28_level", "EkfCal.C28_log", "EkfCal.C28_once", "EkfCal.C28_monotone", "EkfCal.C28_history", "EkfCal.C28_set_level_defined"], "note": "The simulation logger, all levels and histories. C28_set_level_defined says when setting a level by number reads past the table of names."},
  {"property": "C29", "status": "partial", "theorems": ["EkfCal.C29_sublist", "EkfCal.C29_idempotent", "EkfCal.C29_one_per_cell", "EkfCal.C29_inside_partial", "EkfCal.C29_inside_violated", "EkfCal.C29_first_partial", "EkfCal.C29_first_violated"], "note": "Sublist, idempotence and one-per-cell hold in full. Violated: a key point with a coordinate in (-1,0) passes the bounds check by truncation (C29_inside_violated); the first key point of a cell in the strip beyond the last whole cell is dropped (C29_first_violated). Partial theorems cover non-negative coordinates and cells inside the image."},
  {"property": "C30", "status": "proved", "theorems": ["EkfCal.C30_symmetry", "EkfCal.C30_symmetry_injective", "EkfCal.C30_distance", "EkfCal.C30_ratio", "EkfCal.C30_ratio_symmetry", "EkfCal.C30_distance_keeps", "EkfCal.C30_distance_still"], "note": "For nearest-neighbour lists of at most two candidates, as knnMatch(k=2) returns. C30_distance_still records that a camera at rest (mean motion zero) loses every match."},
  {"property": "C31", "status": "partial", "theorems": ["EkfCal.C31_once", "EkfCal.C31_delivered", "EkfCal.C31_map_partial", "EkfCal.C31_map_violated", "EkfCal.C31_max_violated", "EkfCal.C31_sim"], "note": "Once-only delivery, length limits and increasing frame ids proved for the image tracker with maximum length at least two; the simulated tracker (C31_sim) satisfies the whole property. Violated: an image without key points leaves stale tracks in the map (C31_map_violated); with maximum length 1 delivered tracks have two observations (C31_max_violated)."},
  {"property": "C32", "status": "partial", "theorems": ["EkfCal.C32_increasing", "EkfCal.C32_count", "EkfCal.C32_positive_partial", "EkfCal.C32_positive_violated"], "note": "Increasing, distinct and one per request for all four kinds (C32_increasing, C32_count); at least 1 for sensors and trackers only (C32_positive_partial): frame and feature ids start at 0 (C32_positive_violated)."},
  {"property": "C33", "status": "partial", "theorems": ["EkfCal.C33_limits", "EkfCal.C33_primary", "EkfCal.C33_primary_stable", "EkfCal.C33_duration_partial", "EkfCal.C33_duration_violated"], "note": "Primary camera, frame period and cloning period proved. The track duration clause is violated by the code (C33_duration_violated): two functions use different formulas."},
  {"property": "C34", "status": "partial", "theorems": ["EkfCal.C34_times", "EkfCal.C34_times_partial", "EkfCal.C34_times_violated", "EkfCal.C34_stream", "EkfCal.C34_each"], "note": "Stream and delivery proved in full for any sort that meets the contract of std::sort (C34_stream, C34_each). Times proved without simulated errors (C34_times) and with errors below half a period (C34_times_partial); a larger drawn time error breaks order and range (C34_times_violated)."},
  {"property": "C35", "status": "partial", "theorems": ["EkfCal.C35_projection", "EkfCal.C35_distortion_partial", "EkfCal.C35_distortion_violated", "EkfCal.C35_distortion_iff"], "note": "The projection Jacobian is the derivative at every point with non-zero depth (C35_projection). The distortion Jacobian is the derivative of the distortion exactly for lenses with equal radial coefficients (C35_distortion_partial, C35_distortion_iff) and is wrong for every other lens (C35_distortion_violated): the distortion function uses the first coefficient in both radial terms."},
  {"property": "C36", "status": "partial", "theorems": ["EkfCal.C36_orthonormal_partial", "EkfCal.C36_symmetric_partial", "EkfCal.C36_defined", "EkfCal.C36_violated"], "note": "Jacobian and residual are multiplied by one matrix with orthonormal rows (C36_orthonormal_partial, C36_defined); the feature drops out when the orthogonal factor is symmetric (C36_symmetric_partial). In general it does not: the code uses rows of Q where it needs rows of its transpose, so the residual still depends on the feature for every lawful factorisation (C36_violated)."},
  {"property": "C37", "status": "partial", "theorems": ["EkfCal.C37_fat", "EkfCal.C37_bounded_partial", "EkfCal.C37_full_rank_partial", "EkfCal.C37_update", "EkfCal.C37_violated"], "note": "Stacks with the same information give the same update (C37_update). Fat stacks are unchanged (C37_fat), tall stacks of full column rank keep their information in one row per state (C37_full_rank_partial) and no stack gains information (C37_bounded_partial). Rank deficient tall stacks can lose all of it (C37_violated)."},
  {"property": "C38", "status": "proved", "theorems": ["EkfCal.C38_refuses", "EkfCal.C38_rotation", "EkfCal.C38_centroid", "EkfCal.C38_optimal", "EkfCal.C38_optimal_space"], "note": "JacobiSVD is specified by SvdLaw, shown satisfiable (exists_svdLaw)."},
  {"property": "C39", "status": "proved", "theorems": ["EkfCal.C39_skew", "EkfCal.C39_antisymmetric", "EkfCal.C39_min_bound", "EkfCal.C39_weighted", "EkfCal.C39_mean", "EkfCal.C39_range", "EkfCal.C39_equal", "EkfCal.C39_spread", "EkfCal.C39_jacobian_axis", "EkfCal.C39_jacobian_one"], "note": "Skew matrices, lower bounding, (weighted) means, spread and the Jacobian helper, each for all inputs."},
  {"property": "C40", "status": "partial", "theorems": ["EkfCal.C40_velocity", "EkfCal.C40_acceleration", "EkfCal.C40_rest", "EkfCal.C40_start_partial", "EkfCal.C40_start_violated"], "note": "Translation: velocity is the derivative of position at all times and acceleration that of velocity at all times but the start; the stationary phase is at rest; position and velocity never jump (C40_velocity, C40_acceleration, C40_rest, C40_start_partial). Violated: with an angular offset the orientation jumps when motion starts."},
  {"property": "C41", "status": "partial", "theorems": ["EkfCal.C41_interpolate_partial", "EkfCal.C41_derivative_partial", "EkfCal.C41_window_partial", "EkfCal.C41_query_partial", "EkfCal.C41_engine_partial", "EkfCal.C41_last_violated", "EkfCal.C41_max_violated", "EkfCal.C41_short_violated", "EkfCal.C41_end_violated", "EkfCal.C41_first_violated", "EkfCal.C41_window_violated"], "note": "Control points at increasing times, at least two samples and queries before the last table entry: C41_interpolate_partial, C41_derivative_partial, C41_window_partial, C41_query_partial, C41_engine_partial. Violated at the last table entry and at max_time (reads behind the table), by MaxAcceleration for all data with two or more entries, by Derivative on fewer than two values, by samples at the first control point (zero instead of the point) and by the zero padding of the sliding window."},
  {"property": "C42", "status": "partial", "theorems": ["EkfCal.C42_marker", "EkfCal.C42_gps", "EkfCal.C42_fiducial_partial", "EkfCal.C42_fiducial_iff", "EkfCal.C42_imu_partial", "EkfCal.C42_imu_velocity_iff", "EkfCal.C42_imu_acceleration_iff", "EkfCal.C42_imu_rate_iff", "EkfCal.C42_ops_wf", "EkfCal.C42_filter", "EkfCal.C42_imu_violated", "EkfCal.C42_fiducial_violated"], "note": "GPS proved (C42_gps: additive components; orientation is not additive). Fiducial: body and camera position right (C42_fiducial_partial); marker position columns are an identity block, right exactly when the camera axes are the local axes (C42_fiducial_iff, C42_fiducial_violated). IMU: biases, mounting position, angular acceleration and the gyroscope rows right (C42_imu_partial); the specific force is wrong with respect to velocity, acceleration and angular velocity except in the cases named (C42_imu_velocity_iff, C42_imu_acceleration_iff, C42_imu_rate_iff, C42_imu_violated)."},
  {"property": "C43", "status": "partial", "theorems": ["EkfCal.C43_score_stored", "EkfCal.C43_decision", "EkfCal.C43_effect", "EkfCal.C43_gravity", "EkfCal.C43_never_again", "EkfCal.C43_test_partial", "EkfCal.C43_root_violated"], "note": "Decision, effect, gravity and never-again proved for all messages and histories; the score is the innovation statistic in standard mode. In square-root mode the code scores with the factor in place of the covariance: C43_root_violated."},
  {"property": "C44", "status": "partial", "theorems": ["EkfCal.C44_gps_current", "EkfCal.C44_gps_frozen_partial", "EkfCal.C44_gps_forever", "EkfCal.C44_fid_current", "EkfCal.C44_fid_frozen_partial", "EkfCal.C44_fid_forever", "EkfCal.C44_cam_current", "EkfCal.C44_cam_frozen_partial", "EkfCal.C44_cam_forever", "EkfCal.C44_residual_violated"], "note": "Jacobians frozen for ever when enabled, current when disabled, for GPS, fiducial and camera. The residual is frozen too: C44_residual_violated."},
  {"property": "C45", "status": "partial", "theorems": ["EkfCal.C45_rows", "EkfCal.C45_sim", "EkfCal.C45_sim_pose", "EkfCal.C45_pos_vel_partial", "EkfCal.C45_noise_violated", "EkfCal.C45_pose_violated"], "note": "Holds for the simulation (C45_sim in both covariance modes, C45_sim_pose) and, in the ROS node, for position and velocity noise (C45_pos_vel_partial). Violated in the node for every parameter set: the orientation noise lands on the acceleration rows and rows 9-17 are never written (C45_noise_violated); the initial pose is not used (C45_pose_violated)."},
  {"property": "C46", "status": "partial", "theorems": ["EkfCal.C46_band_partial", "EkfCal.C46_exact_partial", "EkfCal.C46_dropped", "EkfCal.C46_all_dropped", "EkfCal.C46_default_violated", "EkfCal.C46_uninitialised_violated"], "note": "With the observations in use: accepted iff in the band, accepted position has that depth (C46_band_partial); exact observations give the point itself (C46_exact_partial); rejected features are not used (C46_dropped, C46_all_dropped). Violated as constructed: every feature is accepted and the position comes from the message (C46_default_violated), unwritten for the real tracker (C46_uninitialised_violated)."},
  {"property": "C47", "status": "partial", "theorems": ["EkfCal.C47_frame", "EkfCal.C47_inside_partial", "EkfCal.C47_identity_partial", "EkfCal.C47_identity_violated", "EkfCal.C47_inside_violated", "EkfCal.C47_body"], "note": "Proved: every frame is defined; a key point is reported under a feature's index exactly when the feature is in front of the camera and projects onto the image; ids strictly increase; with integer sensor sizes every pixel, rounded or not, is on the image; over every history of generation, frames and lookups of existing features a lookup gives the point the key point shows. Violated, with witnesses: rounding leaves a sensor of fractional width; looking up an unknown id shifts the ids of later features."},
  {"property": "C48", "status": "partial", "theorems": ["EkfCal.C48_sensors", "EkfCal.C48_clones", "EkfCal.C48_body_partial", "EkfCal.C48_in_force_partial", "EkfCal.C48_first_violated", "EkfCal.C48_set_violated"], "note": "Sensor groups and clones proved over histories. Body noise holds after the next registration. Violated: before the first registration and after a late SetBodyProcessNoise (C48_first_violated, C48_set_violated)."},
  {"property": "C49", "status": "partial", "theorems": ["EkfCal.C49_standstill_violated", "EkfCal.C49_history", "EkfCal.C49_next", "EkfCal.C49_predict"], "note": "Proved over histories that meet the obligations of Spec/Safe.lean. One obligation, a defined angular error of the GPS alignment, cannot be met by the caller: at standstill it is violated (C49_standstill_violated)."},
  {"property": "C50", "status": "partial", "theorems": ["EkfCal.C50_step", "EkfCal.C50_partial", "EkfCal.C50_error", "EkfCal.C50_position_violated", "EkfCal.C50_orientation_partial", "EkfCal.C50_slow_rotation", "EkfCal.C50_orientation_violated", "EkfCal.C50_others"], "note": "Velocity, acceleration and rates are exact; position is off by half the acceleration times the sum of squared intervals (closed form C50_partial, bound C50_error, witness C50_position_violated). Orientation is exact unless an interval turns the body by at most 1e-9 rad, in which case that rotation is lost (C50_slow_rotation, C50_orientation_violated). C50_others covers cloning by frame or none."},
  {"property": "C51", "status": "partial", "theorems": ["EkfCal.C51_imus", "EkfCal.C51_imu", "EkfCal.C51_clones", "EkfCal.C51_cams_partial", "EkfCal.C51_cams_violated", "EkfCal.C51_uncalibrated_violated"], "note": "IMUs and clones proved in full. Cameras: violated, every camera takes the first slice (C51_cams_violated) and uncalibrated cameras are moved (C51_uncalibrated_violated); right for one calibrated camera (C51_cams_partial)."},
  {"property": "C52", "status": "partial", "theorems": ["EkfCal.C52_partial", "EkfCal.C52_vector_order", "EkfCal.C52_order_violated", "EkfCal.C52_right_violated", "EkfCal.C52_window_violated", "EkfCal.C52_marker_violated"], "note": "Proved for a right operand that covers the left one (C52_partial). Violated: orientations are composed in the opposite order to corrections (C52_order_violated), the right operand gains missing sensors (C52_right_violated), shorter windows are read beyond their end (C52_window_violated), a missing marker is read uninitialised (C52_marker_violated). Operands that are the same object are not modelled."},
  {"property": "C53", "status": "partial", "theorems": ["EkfCal.C53_gps", "EkfCal.C53_gps_near", "EkfCal.C53_gps_update", "EkfCal.C53_board", "EkfCal.C53_board_update", "EkfCal.C53_imu_partial", "EkfCal.C53_imu_single_partial", "EkfCal.C53_bias_violated", "EkfCal.C53_acceleration_violated", "EkfCal.C53_rate_violated", "EkfCal.C53_velocity_violated", "EkfCal.C53_lever_violated"], "note": "GPS and fiducials proved (C53_gps, C53_board and their updates), GPS exactly where the geodetic conversion is exact and everywhere else to within two picometres (C53_gps_near), fiducial orientations above the 1e-9 rad threshold. IMUs: violated for biases, turned bodies, rates across the velocity, and a single IMU off the origin (C53_bias_violated, C53_acceleration_violated, C53_rate_violated, C53_velocity_violated, C53_lever_violated); the agreeing cases are C53_imu_partial and C53_imu_single_partial."},
  {"property": "C54", "status": "partial", "theorems": ["EkfCal.C54_imu_partial", "EkfCal.C54_imu_defined", "EkfCal.C54_bias_violated", "EkfCal.C54_camera_partial", "EkfCal.C54_gps_partial", "EkfCal.C54_board_partial", "EkfCal.C54_root_violated", "EkfCal.C54_assert_violated", "EkfCal.C54_sample_reachable", "EkfCal.C54_board_default_violated"], "note": "Holds in standard covariance mode for cameras, antennas, boards (no clones yet) and IMUs unless only the biases are calibrated (C54_*_partial), for ids larger than those already estimated (as in C03). Violated: bias-only IMU (C54_bias_violated), square-root mode squares variances (C54_root_violated), builds with assertions (C54_assert_violated), simulation default for boards (C54_board_default_violated)."},
  {"property": "C55", "status": "partial", "theorems": ["EkfCal.C55_rate_partial", "EkfCal.C55_acceleration_partial", "EkfCal.C55_acceleration_violated"], "note": "The angular rate is that of the orientation at all times but the start (there too without offset). The angular acceleration is proved for motion about one Euler angle and violated for two: the derivative of the Euler transform is missing."},
  {"property": "C56", "status": "partial", "theorems": ["EkfCal.C56_translation", "EkfCal.C56_acceleration_partial", "EkfCal.C56_rate_partial", "EkfCal.C56_rate_violated", "EkfCal.C56_start_violated"], "note": "Proved: velocity and acceleration are the derivatives of position at every covered time; angular acceleration is the derivative of the angular rate; for rotation about a single axis the rate describes the orientation. Violated, with witnesses: for general rotation the reported rate (the derivative of the Euler angles) is not the rate of the orientation; the position jumps when the stationary phase ends. Spline values and derivatives are inputs constrained by Curve.Law."},
  {"property": "C57", "status": "partial", "theorems": ["EkfCal.C57_count_partial", "EkfCal.C57_count_violated"], "note": "Proved for lenses without distortion, non-zero focal lengths and draws within the image: every frame holds at least the configured number of key points. Violated with radial distortion."},
  {"property": "C58", "status": "partial", "theorems": ["EkfCal.C58_body_partial", "EkfCal.C58_imu_partial", "EkfCal.C58_gps_partial", "EkfCal.C58_fiducial_partial", "EkfCal.C58_msckf_partial", "EkfCal.C58_root_bound", "EkfCal.C58_root_violated", "EkfCal.C58_stationary_violated"], "note": "Proved for filters that keep the full covariance, for all rows except those of detected stand-stills, which show the square of the variance (C58_stationary_violated). With a square root the squared diagonal of the root is shown: never more than the variance (C58_root_bound), and less as soon as quantities are correlated (C58_root_violated)."},
  {"property": "C59", "status": "partial", "theorems": ["EkfCal.C59_one_window", "EkfCal.C59_frame_partial", "EkfCal.C59_absent_violated", "EkfCal.C59_distortion_violated", "EkfCal.C59_before_partial", "EkfCal.C59_between_partial", "EkfCal.C59_stack", "EkfCal.C59_defined"], "note": "Proved for all reachable filters and all tracks: C59_frame_partial (frames cloned: rows of the clone of the observation's own frame), C59_between_partial and C59_before_partial (interpolated poses, incl. the body as newer pose), C59_stack (each accepted feature's projected rows at rows of its own, in order, nothing else), C59_defined (no undefined behaviour for simulated tracks of at least two observations), C59_one_window (side condition of the interpolated case holds whenever cameras are numbered from 1). Restrictions: no lens distortion, strictly increasing pose times, orientation columns not covered. Violated: C59_absent_violated (a frame no longer in the window gives rows in the body's columns although the default pose used does not depend on the body), C59_distortion_violated (with radial distortion an exact observation has a nonzero residual and the feature columns are not the derivative)."},
  {"property": "C60", "status": "partial", "theorems": ["EkfCal.C60_gps", "EkfCal.C60_board", "EkfCal.C60_imu", "EkfCal.C60_still", "EkfCal.C60_camera", "EkfCal.C60_single_violated", "EkfCal.C60_batch_violated", "EkfCal.C60_sim_imu", "EkfCal.C60_sim_board", "EkfCal.C60_board_iff", "EkfCal.C60_pixels", "EkfCal.C60_sim_gps", "EkfCal.C60_pixels_partial", "EkfCal.C60_pixels_iff", "EkfCal.C60_board_violated", "EkfCal.C60_pixels_violated"], "note": "The weight used is the message covariance for GPS fixes with known reference and for two or more IMUs, moving or at rest, the detection's errors as variances for markers, and the squared pixel error for camera tracks; simulated IMU and GPS messages carry the covariance of their errors. Violated: a single moving IMU ignores its covariances; the fixes that establish the reference are weighed with variance 1; simulated markers carry standard deviations that are used as variances; the pixel error weighs residuals that are in units of the focal length. In square-root form exact only for uncorrelated errors (C11). Errors enter by their second moments."},
  {"property": "C61", "status": "partial", "theorems": ["EkfCal.C61_turn", "EkfCal.C61_gps_iff", "EkfCal.C61_fiducial_body_iff", "EkfCal.C61_fiducial_camera_iff", "EkfCal.C61_rest_iff", "EkfCal.C61_rest_mounting_violated", "EkfCal.C61_imu_body_iff", "EkfCal.C61_imu_mounting_iff", "EkfCal.C61_clone_iff", "EkfCal.C61_clone_violated", "EkfCal.C61_clone_partial", "EkfCal.C61_camera_iff", "EkfCal.C61_gps_violated", "EkfCal.C61_fiducial_violated", "EkfCal.C61_imu_violated", "EkfCal.C61_camera_violated"], "note": "For each sensor an exact condition: the orientation block is the derivative iff the estimate is not turned or the lever arm vanishes (C61_gps_iff, C61_fiducial_body_iff, C61_fiducial_camera_iff, C61_rest_iff, C61_camera_iff), a cross-product condition for stored poses (C61_clone_iff, C61_clone_partial), no angular rate for the moving IMU (C61_imu_body_iff), an acceleration condition for its mounting (C61_imu_mounting_iff). Violated in reachable filters: C61_gps_violated, C61_fiducial_violated, C61_imu_violated, C61_camera_violated, and always for a calibrated IMU at rest (C61_rest_mounting_violated: the mounting columns are in the wrong place). Not covered: interpolated stored poses, lens distortion."},
  {"property": "C62", "status": "partial", "theorems": ["EkfCal.C62_residual_partial", "EkfCal.C62_columns_violated", "EkfCal.C62_away", "EkfCal.C62_away_violated"], "note": "Violated: C62_columns_violated (every state with a predicted turn above the small-angle threshold) and C62_away_violated (a reachable filter moves away from the observation by 2/3 of it). Proved: the exact residual after a turn of body, camera or marker (C62_residual_partial), and the size and direction of the correction for an unturned marker at the body with a diagonal covariance (C62_away). Missing: a property that holds is not available for the orientation part, since its sign is opposite to the columns."},
  {"property": "C63", "status": "partial", "theorems": ["EkfCal.C63_names", "EkfCal.C63_own_partial", "EkfCal.C63_others", "EkfCal.C63_boards_violated", "EkfCal.C63_trackers_violated", "EkfCal.C63_violated"], "note": "Violated when two boards or two feature trackers share a camera: the file name uses only the camera id, the later logger empties the file (C63_boards_violated, C63_trackers_violated for every such state, C63_violated concrete). Otherwise proved for every interleaving (C63_own_partial), with file names equal exactly for alike writers (C63_names) and other files untouched (C63_others). Positions count characters; failing to open a file is not modelled."},
  {"property": "C64", "status": "partial", "theorems": ["EkfCal.C64_baseline_partial", "EkfCal.C64_evidence_partial", "EkfCal.C64_violated", "EkfCal.C64_height_violated"], "note": "Violated: coordinates are truncated to whole metres and heights ignored (C64_violated, C64_height_violated, for every hull function). Proved: the value is within +sqrt 2 / -2 sqrt 2 metres of the greatest horizontal distance (C64_baseline_partial) and a reference set by baseline has fixes that far apart less sqrt 2 (C64_evidence_partial). cv::convexHull is assumed to return points whose convex hull contains all points."},
  {"property": "C65", "status": "proved", "theorems": ["EkfCal.C65_exact", "EkfCal.C65_every_point", "EkfCal.C65_constants", "EkfCal.C65_picometre", "EkfCal.C65_back", "EkfCal.C65_forth", "EkfCal.C65_enu", "EkfCal.C65_centre"], "note": "Every point more than 100 km from the centre has a legal answer that names it over the ellipsoid with the declared eccentricity (C65_every_point), and lla_to_ecef of it is the point to within a picometre (C65_back; the declared flattening and eccentricity differ by 6e-20, C65_constants). Conversely the coordinates come back exactly (C65_exact, C65_forth). Real arithmetic; the centre itself has no answer (C65_centre)."},
  {"property": "C66", "status": "partial", "theorems": ["EkfCal.C66_charuco_partial", "EkfCal.C66_nothing", "EkfCal.C66_aruco_violated", "EkfCal.C66_invalid_violated"], "note": "Proved for ChArUco boards whenever detected corners come with a pose, and for empty detections. Violated for plain ArUco boards (never used) and for corners without a pose (identity pose used)."},
  {"property": "C67", "status": "partial", "theorems": ["EkfCal.C67_textured_partial", "EkfCal.C67_sim", "EkfCal.C67_featureless_violated", "EkfCal.C67_length_violated"], "note": "Proved for simulated cameras whatever they see, and for real cameras as long as every image has key points, given that the filter keeps at least as many poses as a track may have observations. Violated after an image without key points and when tracks may be longer than the window."},
  {"property": "C68", "status": "partial", "theorems": ["EkfCal.C68_observed", "EkfCal.C68_pixel_partial", "EkfCal.C68_clock", "EkfCal.C68_sim", "EkfCal.C68_downsample_violated", "EkfCal.C68_sim_time_violated"], "note": "Id, time and pixel of every observation proved for real and simulated cameras over all event sequences; pixel of the received image only without down-sampling. Violated: with down-sampling observations are at places where the image shows nothing (full-size intrinsics are used); simulated observations carry message times, which differ from the filter's times if it was not initialised before the first message."},
  {"property": "C69", "status": "partial", "theorems": ["EkfCal.C69_local_partial", "EkfCal.C69_earth_partial", "EkfCal.C69_heading_violated"], "note": "Rotation, shift and position error proved to be independent of both origins. Violated for the angular error, for every list of fixes that does not fit exactly."},
  {"property": "C70", "status": "partial", "theorems": ["EkfCal.C70_time", "EkfCal.C70_delivered_partial", "EkfCal.C70_published", "EkfCal.C70_fix_violated", "EkfCal.C70_colour_violated"], "note": "Messages reach exactly the sensors on their topic with their content, times are ordered as stamps, images are published once. Violated for the covariance of GPS fixes (never assigned) and for colour images (refused); the error case of the refinement excepts these two."},
  {"property": "C71", "status": "partial", "theorems": ["EkfCal.C71_imu", "EkfCal.C71_camera", "EkfCal.C71_gps", "EkfCal.C71_board_partial", "EkfCal.C71_board_exact", "EkfCal.C71_messages", "EkfCal.C71_fixes", "EkfCal.C71_board_violated", "EkfCal.C71_file_violated", "EkfCal.C71_file_sample_violated", "EkfCal.C71_visible_violated"], "note": "Filter calibrations and truths proved for every configuration of IMUs, cameras and antennas (C71_imu, C71_camera, C71_gps) and boards watched without errors (C71_board_exact). Violated for boards: one truth per camera (C71_board_violated), ids of trackers in the board file (C71_file_violated, C71_file_sample_violated), detection behind the camera (C71_visible_violated)."},
  {"property": "C72", "status": "partial", "theorems": ["EkfCal.C72_history", "EkfCal.C72_imu", "EkfCal.C72_board", "EkfCal.C72_gps_partial", "EkfCal.C72_features_partial", "EkfCal.C72_created_imu", "EkfCal.C72_created_gps", "EkfCal.C72_created_camera", "EkfCal.C72_created_board", "EkfCal.C72_legal", "EkfCal.C72_run_safe", "EkfCal.C72_sample_law", "EkfCal.C72_single_violated"], "note": "Proved for all histories whose events keep the obligations of Spec/SafeCalls (C72_history); IMU messages and board detections carry none (C72_imu, C72_board), fixes need legal coordinates once the reference is known (C72_gps_partial), tracks need two observations (C72_features_partial), and registration suffices for creation (C72_created_*). The obligation on legal coordinates is exactly where the conversions are defined (C72_legal). Violated: a track with one observation, which the configuration can admit, is an access out of range (C72_single_violated). Missing: fixes before the reference is known need a defined fit (see C49_standstill_violated)."},
  {"property": "C73", "status": "partial", "theorems": ["EkfCal.C73_same_partial", "EkfCal.C73_starts", "EkfCal.C73_always_violated", "EkfCal.C73_flags_violated", "EkfCal.C73_type_violated", "EkfCal.C73_defaults_violated"], "note": "For every file that gives the values in which the defaults of the two programs differ (Spec/Params: Complete, Counts): if the node starts, so does the simulation, with equal filter parameters, IMUs and, up to the settings named in Setup.Like, equal cameras, trackers, boards and receivers (C73_same_partial); if the simulation starts, values are typed and names distinct, the node starts (C73_starts). Violated: process noise and track length for every file (C73_always_violated), calibration flags, down-sampling and feature distance (C73_flags_violated), the detector threshold of config/example.yaml (C73_type_violated), defaults (C73_defaults_violated). Assumes that rclcpp rejects a value whose type differs from the declared default."},
  {"property": "C74", "status": "partial", "theorems": ["EkfCal.C74_printed_partial", "EkfCal.C74_percent_violated", "EkfCal.C74_doubled_violated", "EkfCal.C74_announced_violated", "EkfCal.C74_documented_violated", "EkfCal.C74_fifth_violated", "EkfCal.C74_debug_violated"], "note": "C74_printed_partial: for plain messages and levels set by one of the five numbers, over any history. Violated: C74_percent_violated, C74_doubled_violated, C74_announced_violated, C74_documented_violated, C74_fifth_violated, C74_debug_violated."},
  {"property": "C75", "status": "partial", "theorems": ["EkfCal.C75_start_partial", "EkfCal.C75_exact_partial", "EkfCal.C75_yaw_violated", "EkfCal.C75_uncertainty_violated", "EkfCal.C75_type_violated", "EkfCal.C75_east_violated"], "note": "C75_start_partial, C75_exact_partial: position, roll, pitch, height, heading; exact without errors. Missing because violated: yaw (C75_yaw_violated), east (C75_east_violated), uncertainty (C75_uncertainty_violated), unknown kinds of truth (C75_type_violated)."},
  {"property": "C76", "status": "partial", "theorems": ["EkfCal.C76_sees", "EkfCal.C76_residual", "EkfCal.C76_distortion_violated", "EkfCal.C76_update_partial"], "note": "Proved for cameras without lens distortion, at the current linearisation point, in both forms of the filter. For other lenses the residual is computed in closed form and is not zero (C76_distortion_violated)."},
  {"property": "C77", "status": "partial", "theorems": ["EkfCal.C77_points", "EkfCal.C77_tabulated_partial", "EkfCal.C77_ends_violated", "EkfCal.C77_stationary_violated", "EkfCal.C77_count_violated", "EkfCal.C77_spline_partial", "EkfCal.C77_wait_violated", "EkfCal.C77_still_violated"], "note": "Control points are as configured (C77_points); inner waypoints on the sample grid are passed at their times (C77_tabulated_partial); the spline passes all its points in order given the library's law (C77_spline_partial). Violated: first and last waypoint (C77_ends_violated), waypoints before the stationary time (C77_stationary_violated), more times than waypoints (C77_count_violated), waiting at the first waypoint (C77_wait_violated), constant paths (C77_still_violated). Missing: times off the sample grid."},
  {"property": "C78", "status": "partial", "theorems": ["EkfCal.C78_error", "EkfCal.C78_zero", "EkfCal.C78_body_partial", "EkfCal.C78_sensor_partial", "EkfCal.C78_summary", "EkfCal.C78_missing_violated", "EkfCal.C78_rotation_violated", "EkfCal.C78_id_violated", "EkfCal.C78_rows_violated", "EkfCal.C78_reference_violated", "EkfCal.C78_heading_violated"], "note": "Proved for complete sets of runs, vector quantities, and ids below ten; for orientations the statistic is of three of the four quaternion numbers. Violated as listed in DESIGN.md."},
  {"property": "C79", "status": "partial", "theorems": ["EkfCal.C79_files", "EkfCal.C79_dirs", "EkfCal.C79_settings_partial", "EkfCal.C79_independent_partial", "EkfCal.C79_number_violated", "EkfCal.C79_time_violated", "EkfCal.C79_seed_violated", "EkfCal.C79_drawn_violated", "EkfCal.C79_path_violated"], "note": "Files, directories and settings proved for all sets; independence only for drawn seeds that differ and are not zero. Violated as listed in DESIGN.md."},
  {"property": "C80", "status": "partial", "theorems": ["EkfCal.C80_body", "EkfCal.C80_aug", "EkfCal.C80_imu", "EkfCal.C80_gps", "EkfCal.C80_msckf", "EkfCal.C80_fiducial", "EkfCal.C80_triangulation", "EkfCal.C80_scene", "EkfCal.C80_truth", "EkfCal.C80_id_violated"], "note": "All columns are found in all files for ids below ten; files of sensors with larger ids are not read (C80_id_violated)."},
  {"property": "C81", "status": "partial", "theorems": ["EkfCal.C81_unit_partial", "EkfCal.C81_single", "EkfCal.C81_variance_violated", "EkfCal.C81_unit_violated", "EkfCal.C81_angle_violated", "EkfCal.C81_axis_violated", "EkfCal.C81_board_violated"], "note": "The code violates it: proved right only where the error is zero or the variance one (C81_unit_partial, C81_single); the violations are proved for all consistent filters."},
  {"property": "C82", "status": "partial", "theorems": ["EkfCal.C82_event_partial", "EkfCal.C82_run", "EkfCal.C82_live_partial", "EkfCal.C82_stamped_partial", "EkfCal.C82_all_partial", "EkfCal.C82_trackless_partial", "EkfCal.C82_estimate_partial", "EkfCal.C82_displaced_violated", "EkfCal.C82_infinite_violated", "EkfCal.C82_blown_iff", "EkfCal.C82_origin_violated"], "note": "Proved for all histories without Initialize when tracks come from the feature tracker, whose observations carry times of the filter (any mode of cloning), and when observations carry stamps if the frames of their camera are cloned. Violated for stamped observations of other cameras: general formula for the displacement, and a history that works from time zero and is divided by zero a hundred seconds later. Initialize sets the time of the filter without a reference and is excluded."},
  {"property": "C83", "status": "partial", "theorems": ["EkfCal.C83_event_partial", "EkfCal.C83_run", "EkfCal.C83_origin_partial", "EkfCal.C83_interpolated_partial", "EkfCal.C83_trackless_partial", "EkfCal.C83_estimate_partial", "EkfCal.C83_missing_violated", "EkfCal.C83_expected_violated"], "note": "Proved for one event, for all histories after a start in which tracks speak of frames that have clones, for all histories where clones are made by time or by error, and for histories without tracks. The code violates the rest: a frame without a clone gets the origin of the local frame as its position. Histories with position fixes are excluded, because fixes measure positions in the local frame."},
  {"property": "C84", "status": "partial", "theorems": ["EkfCal.C84_value", "EkfCal.C84_order_partial", "EkfCal.C84_apart_partial", "EkfCal.C84_body_partial", "EkfCal.C84_ordered", "EkfCal.C84_triangulation_partial", "EkfCal.C84_late_violated", "EkfCal.C84_body_violated", "EkfCal.C84_triangulation_violated"], "note": "Proved: six digits read back to five parts in a million; order is kept; times are told apart that differ by more than the last digit. The code violates the rest: times are written with six significant digits (three in the triangulation file), so that late rows coincide."},
  {"property": "C85", "status": "proved", "theorems": ["EkfCal.C85_event", "EkfCal.C85_numbers", "EkfCal.C85_estimate", "EkfCal.C85_clone", "EkfCal.C85_tracker", "EkfCal.C85_fresh", "EkfCal.C85_simulated", "EkfCal.C85_camera"], "note": "For every injective renumbering of the frames of every history of messages and calls, from any state and from a new filter; for cameras and trackers for every increasing renumbering (they compare numbers for order). Examples show that both conditions are needed."},
  {"property": "C86", "status": "proved", "theorems": ["EkfCal.C86_innovation", "EkfCal.C86_gain", "EkfCal.C86_correction", "EkfCal.C86_information", "EkfCal.C86_least_squares", "EkfCal.C86_least_squares_all", "EkfCal.C86_order", "EkfCal.C86_orders", "EkfCal.C86_together"], "note": "For the contracts of QR, inverse and square root (met by real arithmetic). The Jacobian and residual are given: that the filter linearises is not judged here. In square-root form for diagonal noise; for other noise see C11_noise_violated."},
  {"property": "C87", "status": "proved", "theorems": ["EkfCal.C87_calls", "EkfCal.C87_messages", "EkfCal.C87_between", "EkfCal.C87_imu", "EkfCal.C87_gps", "EkfCal.C87_camera", "EkfCal.C87_board"], "note": "For an id the filter does not know yet. Reading an unregistered id creates an entry, after which registration is ignored (C05)."},
  {"property": "C88", "status": "partial", "theorems": ["EkfCal.C88_update", "EkfCal.C88_measurement", "EkfCal.C88_more_rows", "EkfCal.C88_clone", "EkfCal.C88_drop", "EkfCal.C88_history_partial", "EkfCal.C88_fork_partial", "EkfCal.C88_root_violated"], "note": "Updates in both forms, histories in standard form. Violated in square-root form (C88_root_violated): predicting after a measurement can leave less certainty than predicting without it."},
  {"property": "C89", "status": "partial", "theorems": ["EkfCal.C89_cov_partial", "EkfCal.C89_same_partial", "EkfCal.C89_all_same_partial", "EkfCal.C89_variance_partial", "EkfCal.C89_once_partial", "EkfCal.C89_violated"], "note": "Violated for position and position variance (C89_violated); proved exactly how the covariance depends on the splitting, bounds on the dependence, and equality of everything else. Missing: square-root form, clock-driven cloning."},
  {"property": "C90", "status": "partial", "theorems": ["EkfCal.C90_partial", "EkfCal.C90_acceleration", "EkfCal.C90_spread", "EkfCal.C90_history_partial", "EkfCal.C90_acceleration_violated", "EkfCal.C90_rate_violated"], "note": "Violated for deviations of acceleration and angular rate (C90_acceleration_violated, C90_rate_violated); proved for all other deviations, for single predictions and any series, without clock-driven cloning. Missing: clock-driven cloning."},
  {"property": "C91", "status": "partial", "theorems": ["EkfCal.C91_late_stamp_unused", "EkfCal.C91_gps_partial", "EkfCal.C91_in_time", "EkfCal.C91_imu", "EkfCal.C91_imu_partial", "EkfCal.C91_moving_wf", "EkfCal.C91_late_violated", "EkfCal.C91_turning_wf", "EkfCal.C91_imu_violated"], "note": "Late stamps are not used and IMU readings are turned before the step to their time (witnesses); fixes in time and readings without turning are proved."},
  {"property": "C92", "status": "partial", "theorems": ["EkfCal.C92_measurement", "EkfCal.C92_history_partial", "EkfCal.C92_runs_partial", "EkfCal.C92_fixes_partial", "EkfCal.C92_imu_violated"], "note": "Standard form; the run of the larger filter exists and agrees (C92_runs_partial). Missing: ids that sort before those already known; the square-root form of predictions; augmentation by time; messages of cameras, fiducials and IMUs (IMU: violated, as the updater counts the IMUs); the process noise has to be in force before the registration; that registering itself raises no error is assumed here (C49 gives it)."},
  {"property": "C93", "status": "partial", "theorems": ["EkfCal.C93_history_partial", "EkfCal.C93_station_partial", "EkfCal.C93_reported", "EkfCal.C93_estimates_partial", "EkfCal.C93_start_partial", "EkfCal.C93_pixel", "EkfCal.C93_first", "EkfCal.C93_violated"], "note": "C93_violated: the initial covariance of the body is fixed, so scaling every configured standard deviation changes the estimates. Proved: scaling commutes with every call in both forms and with every event in standard form (reference known, pixel error at least half a pixel, limit of the rest test scaled). Missing: readings in square-root form, where the rest test takes the square root for the covariance."},
  {"property": "C94", "status": "partial", "theorems": ["EkfCal.C94_listed_partial", "EkfCal.C94_detector", "EkfCal.C94_matcher", "EkfCal.C94_violated"], "note": "C94_violated: numbers that are not documented are accepted and end in a null pointer, at the first image or when features are seen twice in a row. Listed numbers select the listed methods with the configured sensitivity for every sequence of images."},
  {"property": "C95", "status": "partial", "theorems": ["EkfCal.C95_body", "EkfCal.C95_history_partial", "EkfCal.C95_fix_partial", "EkfCal.C95_violated"], "note": "Violated as stated (C95_violated). C95_body: the motion of the body is turned, for all headings and all states. C95_history_partial: for a filter in standard form without fiducials and clones and without clock-driven cloning, whose initial uncertainty and process noise are the same in both horizontal directions, all histories of predictions, restarts and measurements that are the same in both frames give turned estimates and a turned covariance. C95_fix_partial: position fixes of an antenna at the body origin are such measurements. Missing: fiducials, clones and the square-root form; the other measurement models."},
  {"property": "C96", "status": "partial", "theorems": ["EkfCal.C96_sim_partial", "EkfCal.C96_node_partial", "EkfCal.C96_unread", "EkfCal.C96_distance", "EkfCal.C96_violated"], "note": "Violated as stated (C96_violated; C96_unread and C96_distance hold for every file). C96_sim_partial: on every file the simulation starts on, everything the specification lists has the value given under its documented name. C96_node_partial: the same of the filter, the IMUs, the poses of cameras and the antennas of the node, for files without gaps. Missing: debug level and log directory, the type of a board and its lengths of tracks; names with dots. The parameters under sim_params are in C97."},
  {"property": "C97", "status": "partial", "theorems": ["EkfCal.C97_imu_partial", "EkfCal.C97_camera_partial", "EkfCal.C97_room", "EkfCal.C97_board", "EkfCal.C97_gps_partial", "EkfCal.C97_run_partial", "EkfCal.C97_starts", "EkfCal.C97_waypoints_violated", "EkfCal.C97_unread", "EkfCal.C97_gps_unread", "EkfCal.C97_clock_unread", "EkfCal.C97_seed_violated", "EkfCal.C97_rest_violated", "EkfCal.C97_angles_violated", "EkfCal.C97_violated"], "note": "Proved for the names the program reads: seed, length, time of rest, cyclic motion (period, range, offset) for all instants, waypoints in one list, initial errors and errors of all kinds of sensors; which files start (C97_starts). Refuted for documented nested waypoints, errors of the local frame, use_seed, decimal seeds, short rests, offset of angles at rest, position error of antennas and constant clock errors. Exceptions of yaml-cpp are modelled from its documentation."},
  {"property": "C98", "status": "partial", "theorems": ["EkfCal.C98_fixes_partial", "EkfCal.C98_violated"], "note": "Proved for two GPS fixes with the same time, from antennas at the origin of the body, in the standard form and without cloning by the clock: covariance and every estimate except orientations agree in both orders (C98_fixes_partial). Violated for an IMU reading and an image (C98_violated): the velocity depends on the order, and the sort by time leaves the order open. Missing: orientations after two fixes (their corrections compose as rotations, and no statement is proved about them), antennas with a lever arm or calibrated ones, other kinds of messages, the square-root form and cloning by the clock."},
  {"property": "C99", "status": "partial", "theorems": ["EkfCal.C99_remembered_partial", "EkfCal.C99_rig_partial", "EkfCal.C99_clock_partial"], "note": "Proved for poses remembered with images and for poses remembered by the clock or by the growth of the error, with corrections, settings, queries, fixes collected for the reference, time stamps and images of other cameras whose poses are not remembered in between, and for two cameras whose images are both remembered, where the window of the second has room; in the standard form for all corrections and any inverse, in square-root form for a factor that is triangular when the pose is remembered (by the clock: or once gravity is known) and for measurements with independent errors. Missing: square-root form otherwise (a factor that is not triangular because a covariance was registered that is not); registrations in between, and a further remembered image whose window is full; and, with poses remembered by the clock, a prediction to the present once more."},
  {"property": "C100", "status": "partial", "theorems": ["EkfCal.C100_due_partial", "EkfCal.C100_clock_partial"], "note": "Proved for every history, with the interval counted from the newest pose kept, which is shown to be the time the filter stores. Missing: that the filter's flag for images is set exactly by the images since the last pose was remembered; the statement is about the flag."}
]}
