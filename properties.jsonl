{"id": "C01", "title": "State size, covariance size and registered components always agree", "statement": "After any sequence of public filter calls that does not run into undefined behaviour, the value reported by GetStateSize() equals the covariance's number of rows, equals its number of columns, and equals 18 + 6 per IMU calibrated extrinsically + 6 per IMU calibrated intrinsically + 3 per calibrated GPS antenna + 6 per calibrated camera + 6 per calibrated fiducial + 6 per stored pose clone.", "quantifier": "every history of RegisterIMU/GPS/Camera/Fiducial, PredictModel, AugmentStateIfNeeded, getter calls, Kalman updates and setters, with any ids, flags, times and values, of any length", "why_tests_cant": "The size is kept in six separate counters changed by eleven functions; a test visits a handful of histories, while a counter drift needs a particular order of registering, cloning and pruning.", "anchors": ["src/ekf/ekf.cpp:RegisterIMU", "src/ekf/ekf.cpp:RegisterGPS", "src/ekf/ekf.cpp:RegisterCamera", "src/ekf/ekf.cpp:RegisterFiducial", "src/ekf/ekf.cpp:AugmentStateIfNeeded", "src/ekf/ekf.cpp:PredictModel", "src/ekf/update/updater.cpp:KalmanUpdate", "src/utility/math_helper.cpp:InsertInMatrix", "src/utility/math_helper.cpp:RemoveFromMatrix"]}
{"id": "C02", "title": "State indices tile the state vector", "statement": "After any operation that refreshes the layout, the index ranges of body, IMUs (extrinsic part before intrinsic part), GPS antennas, cameras, fiducials and pose clones are pairwise disjoint, follow each other without gap in that order (by increasing id inside a kind, by age inside a clone window) and together cover exactly [0, GetStateSize()).", "quantifier": "every reachable filter state", "why_tests_cant": "Overlaps or gaps only show for specific mixtures of flags and ids; the number of mixtures is unbounded.", "anchors": ["src/ekf/ekf.cpp:RefreshIndices", "src/ekf/ekf.cpp:GetImuStateStart", "src/ekf/ekf.cpp:GetAugStateStart"]}
{"id": "C03", "title": "Covariance rows stay attached to the component they describe", "statement": "Registering a further sensor, cloning the pose or dropping a clone leaves the joint covariance of every two components that survive the operation unchanged, when components are located through the published indices; a newly registered component gets the covariance passed by the caller and zero correlation with everything else.", "quantifier": "every reachable filter state and every next operation", "why_tests_cant": "The covariance is edited by position (registration order) while the indices follow id order; agreement of the two is a relation over histories, and a mismatch yields plausible numbers, not a crash.", "anchors": ["src/ekf/ekf.cpp:RegisterIMU", "src/ekf/ekf.cpp:RegisterFiducial", "src/ekf/ekf.cpp:RefreshIndices", "src/ekf/ekf.cpp:AugmentCovariance", "src/utility/math_helper.cpp:InsertInMatrix", "src/utility/math_helper.cpp:RemoveFromMatrix"]}
{"id": "C04", "title": "Registering an id twice changes nothing", "statement": "Registering an IMU, GPS, camera or fiducial whose id is already registered leaves state, covariance, sizes, indices, timing limits and primary camera untouched (only a warning is logged), so the first registration wins.", "quantifier": "every filter state, id, state argument and covariance argument", "why_tests_cant": "The guard must precede every side effect; a test compares a few fields of one filter.", "anchors": ["src/ekf/ekf.cpp:RegisterIMU", "src/ekf/ekf.cpp:RegisterGPS", "src/ekf/ekf.cpp:RegisterCamera", "src/ekf/ekf.cpp:RegisterFiducial"]}
{"id": "C05", "title": "Reading a sensor state does not alter the filter", "statement": "GetImuState/GetGpsState/GetCamState are observations: calling one, with any id, leaves later calls (counts, sizes, registrations) behaving as if it had not been made.", "quantifier": "every filter state and every id, registered or not", "why_tests_cant": "A test asks for registered ids; the claim is about all ids and all continuations.", "anchors": ["src/ekf/ekf.cpp:GetImuState", "src/ekf/ekf.cpp:GetGpsState", "src/ekf/ekf.cpp:GetCamState", "src/ekf/ekf.cpp:GetImuCount"]}
{"id": "C06", "title": "Matrix insert and remove are exact inverses", "statement": "InsertInMatrix places the sub-matrix at the requested position, keeps every entry of the original matrix at its shifted position and fills the rest with zero; RemoveFromMatrix deletes exactly the requested rows and columns and keeps every other entry; removing what was inserted gives back the original; a request outside the matrix is undefined behaviour and nothing else is.", "quantifier": "all matrix sizes, positions and entries", "why_tests_cant": "Sizes and positions are unbounded and the block arithmetic is unsigned.", "anchors": ["src/utility/math_helper.cpp:InsertInMatrix", "src/utility/math_helper.cpp:RemoveFromMatrix"]}
{"id": "C07", "title": "Pose cloning gives the exact joint covariance", "statement": "AugmentCovariance returns J P J^T where J duplicates the body position and orientation rows at the requested index: the clone has exactly the body pose's covariance with itself and with every other component and correlation one with the body pose. In square-root form the returned factor R' satisfies R'^T R' = J (R^T R) J^T for upper-triangular R. The result stays symmetric positive semidefinite.", "quantifier": "all covariances, sizes and insertion indices at or after the body block", "why_tests_cant": "The function is nine block copies with hand-written offsets; entries outside the tested size are never looked at.", "anchors": ["src/ekf/ekf.cpp:AugmentCovariance"]}
{"id": "C08", "title": "Prediction keeps the covariance a covariance", "statement": "PredictModel in standard form replaces the covariance P by F (P + Q dt) F^T with F the constant-velocity transition extended by the identity; symmetry and positive semidefiniteness are preserved for non-negative process noise.", "quantifier": "all states, covariances, time steps and process noises", "why_tests_cant": "Definiteness is a property of all directions x, and the four block assignments must combine to one congruence.", "anchors": ["src/ekf/ekf.cpp:PredictModel", "src/ekf/ekf.cpp:GetStateTransition"]}
{"id": "C09", "title": "Square-root prediction equals standard prediction", "statement": "In square-root mode PredictModel yields a factor R with R^T R equal to the covariance that standard mode would compute from the same start.", "quantifier": "all factors, sizes and time steps", "why_tests_cant": "Equality of the two modes is relational; tests exercise the two modes separately.", "anchors": ["src/ekf/ekf.cpp:PredictModel", "src/utility/math_helper.cpp:QR_r"]}
{"id": "C10", "title": "Measurement update keeps the covariance a covariance", "statement": "KalmanUpdate in standard form keeps the covariance symmetric positive semidefinite for every Jacobian, residual and positive semidefinite measurement noise for which it is defined, never increases the variance in any direction when the innovation is invertible, and moves the state by exactly gain times residual (so a zero residual leaves the estimate unchanged).", "quantifier": "all covariances, Jacobians, noises and residuals of any dimension", "why_tests_cant": "Definiteness quantifies over all directions and all matrices.", "anchors": ["src/ekf/update/updater.cpp:KalmanUpdate"]}
{"id": "C11", "title": "Square-root update equals standard update", "statement": "In square-root mode KalmanUpdate yields a factor R with R^T R equal to the covariance that standard mode would compute, and the same gain.", "quantifier": "all factors, Jacobians, noise matrices", "why_tests_cant": "Relational claim between two code paths over all noise matrices, including non-diagonal ones.", "anchors": ["src/ekf/update/updater.cpp:KalmanUpdate", "src/utility/math_helper.cpp:QR_r"]}
{"id": "C12", "title": "Filter time never runs backwards", "statement": "A prediction requested for a time before the current filter time changes nothing; otherwise the filter time becomes exactly the requested time. Hence along any history without re-initialisation the filter time is non-decreasing and equals the largest requested prediction time.", "quantifier": "every filter state and every sequence of requested times, in any order", "why_tests_cant": "Out-of-order arrival patterns are unbounded.", "anchors": ["src/ekf/ekf.cpp:PredictModel", "src/ekf/ekf.cpp:GetCurrentTime"]}
{"id": "C13", "title": "Local time is the offset from the first message", "statement": "The first time stamp presented to CalculateLocalTime maps to 0, and every later stamp maps to its difference to the first, so differences and order of stamps are preserved; if the filter was initialised explicitly the stamps are used as they are.", "quantifier": "every sequence of time stamps", "why_tests_cant": "Quantifies over all call sequences and their first element.", "anchors": ["src/ekf/ekf.cpp:CalculateLocalTime", "src/ekf/ekf.cpp:Initialize"]}
{"id": "C14", "title": "The clone window is bounded", "statement": "When every frame (or every primary-camera frame) is cloned, no camera ever holds more than the configured maximum track length of clones, once the window is full the oldest clone is the one that is dropped, and the filter never touches memory outside its vectors.", "quantifier": "every history of frames and registrations, every maximum track length", "why_tests_cant": "Requires arbitrarily long histories and all limits, including 0 and limits lowered at run time.", "anchors": ["src/ekf/ekf.cpp:AugmentStateIfNeeded", "src/ekf/ekf.cpp:SetMaxTrackLength"]}
{"id": "C15", "title": "Stored clones are ordered by time and pruning removes only stale ones", "statement": "In every reachable state the clone times of a window are non-decreasing and not later than the filter time; time-based pruning removes a clone only if the next younger clone is already older than the maximum track duration, removes every such clone, and always keeps the newest clone.", "quantifier": "every history of predictions and frames under time- or error-based cloning", "why_tests_cant": "The pruning loop mutates the vector it walks over; correctness depends on all window contents.", "anchors": ["src/ekf/ekf.cpp:AugmentStateIfNeeded"]}
{"id": "C16", "title": "A feature's frame finds its own clone", "statement": "With frame-based cloning, asking for the clone of a frame that was cloned and is still in the window returns the pose and time recorded at that frame and the row index of that very clone; asking for an unknown frame is reported to the caller.", "quantifier": "every history, camera and frame id", "why_tests_cant": "Unknown or dropped frames arise only from long tracks; the silent default result points at the body rows.", "anchors": ["src/ekf/ekf.cpp:GetAugState"]}
{"id": "C17", "title": "Interpolated clones lie between their neighbours", "statement": "With time-based cloning, for a query time between the oldest clone and the filter time the returned pose is the linear/spherical interpolation of the two bracketing poses with 0 <= alpha <= 1, is exact at clone times and carries the index of the older neighbour; no query leads to undefined behaviour or division by zero.", "quantifier": "every window, filter time and query time", "why_tests_cant": "Bracketing over all windows and boundary coincidences (query at a clone time, at the filter time, before the window, empty window).", "anchors": ["src/ekf/ekf.cpp:GetAugState"]}
{"id": "C18", "title": "Initialisation flags are one-way", "statement": "Gravity-initialised, reference-position-initialised and motion-detected, once true, stay true for the remaining life of the filter; before gravity is initialised predictions do not move the pose or the covariance.", "quantifier": "every history of calls", "why_tests_cant": "A latch is a statement about all continuations.", "anchors": ["src/ekf/ekf.cpp:InitializeGravity", "src/ekf/ekf.cpp:SetGpsReference", "src/ekf/ekf.cpp:PredictModel", "src/ekf/update/imu_updater.cpp:ZeroAccelerationUpdate"]}
{"id": "C19", "title": "GPS reference is set only on sufficient evidence", "statement": "The reference position is taken from GPS data only after at least four fixes have been collected and only when the configured criterion (baseline length, or both error thresholds) is met; with a constant reference it is never overwritten by data; every fix handed over is recorded, in order.", "quantifier": "every sequence of fixes and body positions, every configuration", "why_tests_cant": "Depends on all prefixes of the data stream and on a result that is never written on some paths.", "anchors": ["src/ekf/ekf.cpp:AttemptGpsInitialization", "src/utility/math_helper.cpp:kabsch_2d"]}
{"id": "C20", "title": "GPS initialisation recovers the true reference", "statement": "If the collected fixes are an exact planar rotation and shift of the body positions, the reference found by initialisation maps body positions back onto the fixes (correct origin and correct signed heading).", "quantifier": "all planar motions, headings and offsets", "why_tests_cant": "Unit tests use one heading; the claim is over all headings, including negative ones.", "anchors": ["src/ekf/ekf.cpp:AttemptGpsInitialization", "src/utility/math_helper.cpp:kabsch_2d", "src/utility/math_helper.cpp:affine_angle", "src/utility/gps_helper.cpp:local_to_enu"]}
{"id": "C21", "title": "A correction vector moves exactly the estimated components", "statement": "Adding a correction vector to the filter state moves every estimated quantity by exactly the slice of the vector at its published index (vectors additively, orientations by right multiplication with the slice's rotation), leaves quantities that are not estimated unchanged and keeps unit quaternions unit; corrections of length GetStateSize() never read outside the vector.", "quantifier": "all states and correction vectors", "why_tests_cant": "The walking offset must agree with the published indices for all flag combinations and clone counts.", "anchors": ["src/ekf/types.cpp:operator+=(State, VectorXd)", "src/ekf/types.cpp:operator+=(BodyState, VectorXd)", "src/ekf/ekf.cpp:RefreshIndices"]}
{"id": "C22", "title": "State vector export and import are inverse", "statement": "Exporting a state to a vector and importing the vector into a state of the same structure reproduces every estimated quantity; the exported vector has exactly the size reported for the state and its entries sit at the published indices.", "quantifier": "all state structures and values", "why_tests_cant": "Structures (which flags, how many clones) are unbounded.", "anchors": ["src/ekf/types.cpp:State::ToVector", "src/ekf/types.cpp:State::SetState", "src/ekf/types.cpp:State::GetStateSize"]}
{"id": "C23", "title": "Rotation vectors and quaternions convert faithfully", "statement": "RotVecToQuat always returns a unit quaternion; for |v| above 1e-9 it represents the rotation by |v| about v, below that it is the identity; for |v| between 1e-9 and pi converting back returns v; rotating by it preserves lengths; a zero vector gives the identity; StdToEigQuat returns a unit quaternion for every non-zero list of four numbers and the identity for lists of other lengths.", "quantifier": "all real vectors and lists", "why_tests_cant": "Continuum of inputs with a threshold branch.", "anchors": ["src/utility/type_helper.cpp:RotVecToQuat", "src/utility/type_helper.cpp:QuatToRotVec", "src/utility/type_helper.cpp:StdToEigQuat"]}
{"id": "C24", "title": "Frame conversions are inverse isometries", "statement": "enu_to_local and local_to_enu are inverse, ecef_to_enu and enu_to_ecef are inverse and preserve distances; the reference point itself maps to the origin; geodetic conversion of a legal latitude/longitude lands on the WGS84 ellipsoid at zero altitude; an illegal latitude or longitude is rejected.", "quantifier": "all points, headings and legal references", "why_tests_cant": "Identities over the reals in five variables; illegal input leaves an uninitialised result.", "anchors": ["src/utility/gps_helper.cpp:lla_to_ecef", "src/utility/gps_helper.cpp:ecef_to_enu", "src/utility/gps_helper.cpp:enu_to_ecef", "src/utility/gps_helper.cpp:local_to_enu", "src/utility/gps_helper.cpp:enu_to_local"]}
{"id": "C25", "title": "CSV logs start with one header and keep row order", "statement": "With logging enabled the file content is the header line followed by exactly the messages logged, in order, one per line; with logging disabled nothing is ever written; the header is written at most once over any history of enabling, logging and rate-limited logging.", "quantifier": "every sequence of logger calls", "why_tests_cant": "Histories are unbounded and interleave two logging functions.", "anchors": ["src/infrastructure/data_logger.cpp:Log", "src/infrastructure/data_logger.cpp:RateLimitedLog"]}
{"id": "C26", "title": "Rate-limited logging respects the rate", "statement": "With a non-zero rate r, after any sequence of rate-limited calls the number of rows written is at most r times the time since the first call plus one; with rate 0 every call is logged.", "quantifier": "every sequence of time stamps and every rate", "why_tests_cant": "A counting bound over all schedules, including calls at time 0.", "anchors": ["src/infrastructure/data_logger.cpp:RateLimitedLog"]}
{"id": "C27", "title": "Every CSV row has as many fields as its header", "statement": "For every logger of the system (body, clone, IMU, GPS, fiducial, MSCKF, triangulation, truth) each row written has exactly as many comma-separated fields as the header, for every combination of calibration flags and sensor counts.", "quantifier": "all flag combinations, sensor counts and values", "why_tests_cant": "Header and row are built in different functions from independently repeated conditions.", "anchors": ["src/utility/string_helper.cpp:EnumerateHeader", "src/utility/string_helper.cpp:VectorToCommaString", "src/ekf/update/imu_updater.cpp", "src/ekf/update/gps_updater.cpp", "src/ekf/update/fiducial_updater.cpp", "src/ekf/update/msckf_updater.cpp", "src/infrastructure/sim/truth_engine.cpp:WriteTruthData"]}
{"id": "C28", "title": "Debug messages are filtered by level only", "statement": "A debug message is emitted if and only if its level is at most the configured level; emission never depends on earlier messages, raising the level never hides a message, and each emitted message appears exactly once on exactly one stream.", "quantifier": "all levels and message sequences", "why_tests_cant": "All pairs of levels and all sequences.", "anchors": ["src/infrastructure/sim/sim_debug_logger.cpp", "src/infrastructure/debug_logger.hpp"]}
{"id": "C29", "title": "Grid filtering keeps at most one feature per cell", "statement": "GridFeatures returns a subsequence of its input containing at most one key point per 10-pixel cell and none outside the image; every occupied cell inside the image keeps its first key point; filtering twice equals filtering once.", "quantifier": "all key point lists and image sizes", "why_tests_cant": "Unbounded lists, boundary pixels.", "anchors": ["src/trackers/feature_tracker.cpp:GridFeatures"]}
{"id": "C30", "title": "Match filters accept exactly the intended matches", "statement": "RatioTest keeps a match list if and only if it has two candidates whose distance ratio passes (and empties it otherwise); SymmetryTest returns exactly the matches confirmed in both directions, each once, in forward order; DistanceTest keeps exactly the matches whose motion is below three times the mean.", "quantifier": "all match lists", "why_tests_cant": "Set-level claims over arbitrary lists.", "anchors": ["src/trackers/feature_tracker.cpp:RatioTest", "src/trackers/feature_tracker.cpp:SymmetryTest", "src/trackers/feature_tracker.cpp:DistanceTest"]}
{"id": "C31", "title": "Each feature track is delivered once and within length limits", "statement": "Every feature observation is part of at most one delivered track; a delivered track has between the minimum and the maximum number of observations, with strictly increasing frame ids; a track that reaches the maximum or is not seen in the current frame leaves the map in that frame, so the map holds only features seen in the latest frame.", "quantifier": "every sequence of frames with any matches", "why_tests_cant": "Track life spans several frames and depends on the whole matching history.", "anchors": ["src/trackers/feature_tracker.cpp:Track"]}
{"id": "C32", "title": "Sensor, tracker, feature and frame ids are unique", "statement": "Ids handed out to sensors, trackers, frames and features over the life of the process are pairwise distinct, increasing and at least 1, as long as the 32-bit counters do not wrap.", "quantifier": "every sequence of constructions", "why_tests_cant": "Uniqueness over unbounded sequences.", "anchors": ["src/sensors/sensor.cpp", "src/trackers/tracker.cpp", "src/sensors/camera.cpp:GenerateFrameID", "src/trackers/feature_tracker.cpp:GenerateFeatureID"]}
{"id": "C33", "title": "Camera timing limits follow the registered cameras", "statement": "After any registrations the primary camera is the first camera registered with a non-zero id and never changes afterwards, the longest frame period is the maximum and the minimum cloning period the minimum over all registered cameras (and 1 s), and the maximum track duration follows from the longest frame period and the maximum track length.", "quantifier": "every sequence of camera registrations and limit changes", "why_tests_cant": "A fold over histories; two functions compute the same limit.", "anchors": ["src/ekf/ekf.cpp:RegisterCamera", "src/ekf/ekf.cpp:SetMaxTrackLength"]}
{"id": "C34", "title": "Simulated measurements are delivered once and in time order", "statement": "A sensor of rate r simulated for T seconds gets floor(T r) strictly increasing measurement times in [0,T); the merged simulation stream is a time-sorted permutation of all sensors' messages, and each message is delivered to exactly the sensor that produced it.", "quantifier": "all rates, durations and sensor sets", "why_tests_cant": "Permutation/sortedness over unbounded lists.", "anchors": ["src/sensors/sim/sim_sensor.cpp:GenerateMeasurementTimes", "src/application/sim/simulation.cpp", "src/sensors/sensor.cpp:MessageCompare"]}
{"id": "C35", "title": "Projection and distortion Jacobians are the true derivatives", "statement": "The projection Jacobian used by the camera update is the derivative of the projection function, and the distortion Jacobian is the derivative of the distortion function, at every point in front of the camera and for all distortion coefficients.", "quantifier": "all points with non-zero depth and all intrinsics", "why_tests_cant": "Derivative over a continuum; finite differences at one point with all coefficients zero or equal do not tell.", "anchors": ["src/ekf/update/msckf_updater.cpp:Project", "src/ekf/update/msckf_updater.cpp:ProjectionJacobian", "src/ekf/update/msckf_updater.cpp:Distort", "src/ekf/update/msckf_updater.cpp:DistortionJacobian"]}
{"id": "C36", "title": "Feature elimination removes the feature exactly", "statement": "ApplyLeftNullspace multiplies Jacobian and residual by a matrix whose rows are orthonormal and annihilate the feature Jacobian, so the projected residual does not depend on the feature position.", "quantifier": "all feature Jacobians with more rows than columns", "why_tests_cant": "The unit test checks only output sizes.", "anchors": ["src/utility/math_helper.cpp:ApplyLeftNullspace"]}
{"id": "C37", "title": "Measurement compression loses no information", "statement": "CompressMeasurements replaces (H, r) by a smaller pair with the same H^T H and H^T r, so that a Kalman update with isotropic noise gives the same result; matrices with fewer rows than columns are left unchanged.", "quantifier": "all Jacobians and residuals", "why_tests_cant": "Rank-deficient shapes decide which rows survive; a test uses two shapes.", "anchors": ["src/utility/math_helper.cpp:CompressMeasurements"]}
{"id": "C38", "title": "Planar alignment is the optimal proper rotation", "statement": "kabsch_2d refuses fewer than four or unequally many points; otherwise it returns a proper rotation about the vertical axis (determinant one, never a reflection) and shift that minimise the squared planar error among all such transforms, and maps source centroid to target centroid.", "quantifier": "all point sets", "why_tests_cant": "Optimality is a claim against every competitor.", "anchors": ["src/utility/math_helper.cpp:kabsch_2d"]}
{"id": "C39", "title": "Small linear-algebra helpers meet their definitions", "statement": "SkewSymmetric(v) w equals the cross product v x w and is antisymmetric; MinBoundVector raises exactly the entries below the bound; averaging returns the weighted mean, is exact for equal vectors and lies within the coordinate-wise range for positive weights; the rotation Jacobian helper is the identity on the rotation axis.", "quantifier": "all vectors, weights and sizes", "why_tests_cant": "Continuum of inputs and list lengths, including the empty list.", "anchors": ["src/utility/math_helper.cpp:SkewSymmetric", "src/utility/math_helper.cpp:MinBoundVector", "src/utility/math_helper.cpp:average_vectors", "src/utility/math_helper.cpp:QuaternionJacobian", "src/utility/math_helper.cpp:mean_standard_deviation", "src/utility/math_helper.cpp:sign"]}
{"id": "C40", "title": "Simulated truth is kinematically consistent", "statement": "In the cyclic truth engine velocity is the time derivative of position and acceleration that of velocity at every time after the stationary phase, the pose is at rest during the stationary phase, and pose and velocity do not jump when motion starts.", "quantifier": "all amplitudes, frequencies, offsets and times", "why_tests_cant": "Derivative and continuity claims over real time.", "anchors": ["src/infrastructure/sim/truth_engine_cyclic.cpp"]}
{"id": "C41", "title": "Truth smoothing never reads outside its tables", "statement": "The smoothing and interpolation helpers of the simulated truth keep list lengths, return values between the neighbouring table entries and never read outside their tables for query times within the table.", "quantifier": "all tables, rates and query times", "why_tests_cant": "Index arithmetic at the table ends for all lengths.", "anchors": ["src/infrastructure/sim/truth_engine_smoother.cpp"]}
{"id": "C42", "title": "Local-frame measurement models and their Jacobians agree", "statement": "The Jacobians used by the IMU, GPS and fiducial updates are the derivatives of the corresponding predicted measurements with respect to the additive components of the state at the published columns, and all other columns are zero.", "quantifier": "all states, flags and layouts", "why_tests_cant": "Derivative at every state and column bookkeeping for all layouts.", "anchors": ["src/ekf/update/imu_updater.cpp:GetMeasurementJacobian", "src/ekf/update/gps_updater.cpp:GetMeasurementJacobian", "src/ekf/update/fiducial_updater.cpp:GetMeasurementJacobian"]}
{"id": "C43", "title": "Zero-motion detection is a one-way decision", "statement": "The zero-acceleration update is applied if and only if motion has not yet been detected and the test score does not exceed the threshold (or gravity is not yet initialised); after it is applied the body acceleration is gravity and the angular rate zero; once motion is detected it is never applied again.", "quantifier": "every sequence of IMU measurements", "why_tests_cant": "Decision over whole histories with three flags.", "anchors": ["src/ekf/update/imu_updater.cpp:ZeroAccelerationUpdate", "src/ekf/update/imu_updater.cpp:UpdateEKF"]}
{"id": "C44", "title": "First-estimate Jacobians freeze the linearisation point", "statement": "With first-estimate Jacobians enabled the Jacobian of each GPS, camera and fiducial updater is evaluated forever at the sensor calibration (antenna, camera, fiducial pose, intrinsics) found in its first update, while the residual keeps using the current estimates; with them disabled every update uses the calibration of that moment.", "quantifier": "every sequence of updates", "why_tests_cant": "A claim about all later calls.", "anchors": ["src/ekf/update/gps_updater.cpp:UpdateEKF", "src/ekf/update/msckf_updater.cpp:UpdateEKF", "src/ekf/update/fiducial_updater.cpp:UpdateEKF"]}
{"id": "C45", "title": "Configured parameters reach the filter", "statement": "The body process noise configured through the ROS node ends up in the slots of the quantities it is named after and nowhere else, every slot has a defined value, and the configured initial pose is the filter's initial pose.", "quantifier": "all parameter values", "why_tests_cant": "Slots 9-17 hold whatever memory contained; a test cannot see an uninitialised read reliably.", "anchors": ["src/application/ros/node/ekf_cal_node.cpp:LoadProcessNoise", "src/ekf/ekf.cpp:EKF"]}
{"id": "C46", "title": "Triangulation only accepts plausible features", "statement": "A feature is used for a camera update only if its triangulated position is defined by the observations and lies in the accepted distance band in front of the first camera; otherwise it is dropped and the filter is unchanged by it.", "quantifier": "all feature tracks and poses", "why_tests_cant": "In the default configuration the observations are ignored; tests set the simulated truth.", "anchors": ["src/ekf/update/msckf_updater.cpp:TriangulateFeature", "src/ekf/update/msckf_updater.cpp:UpdateEKF"]}
{"id": "C47", "title": "Simulated keypoints are visible and inside the image", "statement": "Every keypoint the simulated tracker reports lies inside the image, belongs to a feature in front of the camera, and carries that feature's id; features outside are never reported.", "quantifier": "all poses, feature sets and intrinsics", "why_tests_cant": "Geometric claim over all poses.", "anchors": ["src/trackers/sim/sim_feature_tracker.cpp:GetVisibleKeypoints", "src/trackers/sim/sim_feature_tracker.cpp:FilterInvisiblePoints"]}
{"id": "C48", "title": "Process noise drives the component it is configured for", "statement": "In every prediction the covariance of each body quantity and of each sensor's calibration grows by exactly the process noise configured for it times the elapsed time, from the first prediction on and as soon as it is configured.", "quantifier": "every history of registrations, noise settings and predictions", "why_tests_cant": "The noise table is rebuilt at re-indexing; whether a setting is in force depends on the call order.", "anchors": ["src/ekf/ekf.cpp:SetBodyProcessNoise", "src/ekf/ekf.cpp:PredictModel", "src/ekf/ekf.cpp:RefreshIndices"]}
{"id": "C49", "title": "Calls that keep their contract never run into undefined behaviour", "statement": "If every call in a history meets the obligations the interface places on its caller (matrix sizes that fit the state, a positive track length, a clone to interpolate from), then no call reads or writes outside a matrix or container, divides by zero, or otherwise has undefined behaviour.", "quantifier": "every history of calls, of any length and with any sensors", "why_tests_cant": "Out-of-range accesses in optimised builds go unnoticed, and only depend on rare histories.", "anchors": ["src/ekf/ekf.cpp", "src/ekf/types.cpp", "src/utility/math_helper.cpp:InsertInMatrix"]}
{"id": "C50", "title": "Prediction moves the body with its estimated acceleration and rate", "statement": "After gravity is initialised, predicting through any sequence of times gives the velocity, position and orientation of a body with the constant estimated acceleration (specific force minus gravity, zero when standstill is flagged) and constant angular rate, independent of how the time is divided into requests; acceleration, rates, sensors and clones are unchanged.", "quantifier": "every sequence of prediction requests and every body state", "why_tests_cant": "Independence of the division of time quantifies over all request sequences; slow rotation is only lost below a threshold no test reaches.", "anchors": ["src/ekf/ekf.cpp:PredictModel", "src/utility/type_helper.cpp:RotVecToQuat"]}
{"id": "C51", "title": "Corrections of sensor collections use consecutive slices", "statement": "Adding a vector to an IMU, a collection of IMUs, a collection of cameras or a window of clones moves each element, in order, by its own consecutive slice of the vector and leaves uncalibrated quantities unchanged.", "quantifier": "all collections, calibration flags and vectors", "why_tests_cant": "Slice arithmetic over collections of any size; the tests use at most one element.", "anchors": ["src/ekf/types.cpp:operator+="]}
{"id": "C52", "title": "The sum of two states", "statement": "Adding a state to another of compatible structure adds every vector and composes every orientation, gives the same result as adding the exported vector, leaves the right operand unchanged and never reads outside its windows or uninitialised members.", "quantifier": "all pairs of states", "why_tests_cant": "Silent insertion into the right operand and reads beyond a shorter window depend on the pair of structures.", "anchors": ["src/ekf/types.cpp:operator+=", "src/ekf/types.hpp:FidState"]}
{"id": "C53", "title": "Error-free simulated measurements agree with the filter at the true state", "statement": "When a filter's estimate equals the simulated truth, each measurement the simulation generates with errors disabled is the one the filter predicts for that sensor, so its residual is zero and the update leaves the estimate unchanged.", "quantifier": "all true body states, sensor calibrations, references and headings", "why_tests_cant": "Two independently written measurement models must coincide for every pose and motion; the tests run them at aligned, resting bodies.", "anchors": ["src/sensors/sim/sim_imu.cpp:GenerateMessage", "src/sensors/sim/sim_gps.cpp:GenerateMessage", "src/trackers/sim/sim_fiducial_tracker.cpp:GenerateMessage", "src/ekf/update/imu_updater.cpp:PredictMeasurement", "src/ekf/update/gps_updater.cpp:PredictMeasurement", "src/ekf/update/fiducial_updater.cpp:PredictMeasurement"]}
{"id": "C54", "title": "A constructed sensor starts with its configured calibration and uncertainty", "statement": "Constructing a sensor from a configuration stores the configured calibration values and flags in the filter, gives its estimated components the configured variances (bounded below where the code says so) in the documented order, uncorrelated with everything else, and works for every documented configuration.", "quantifier": "all reachable filters, all sensor configurations", "why_tests_cant": "The order of variances matters only for particular combinations of calibration flags and covariance modes; tests use equal variances throughout.", "anchors": ["src/sensors/imu.cpp:IMU", "src/sensors/camera.cpp:Camera", "src/sensors/gps.cpp:GPS", "src/trackers/fiducial_tracker.cpp:FiducialTracker", "src/utility/type_helper.cpp:StdToEigVec"]}
{"id": "C55", "title": "Simulated rotation is kinematically consistent", "statement": "In the cyclic truth engine the angular rate, taken in the body frame, is the rate of change of the orientation, and the angular acceleration is the time derivative of the angular rate, at every time after the stationary phase.", "quantifier": "all amplitudes, frequencies, offsets and times", "why_tests_cant": "Derivative claims over real time about a composition of three rotations.", "anchors": ["src/infrastructure/sim/truth_engine_cyclic.cpp:GetBodyAngularRate", "src/infrastructure/sim/truth_engine_cyclic.cpp:GetBodyAngularAcceleration", "src/infrastructure/sim/truth_engine_cyclic.cpp:EulerDerivativeTransform", "src/utility/type_helper.cpp:EigVecToQuat"]}
{"id": "C56", "title": "Spline truth is kinematically consistent", "statement": "In the spline truth engine velocity and acceleration are the time derivatives of position, and the angular rate and acceleration describe the reported orientation, at every time the engine covers; the motion starts without a jump.", "quantifier": "all splines, stationary times, durations and times", "why_tests_cant": "Derivative claims over real time; the tests compare a few sampled values with tolerances.", "anchors": ["src/infrastructure/sim/truth_engine_spline.cpp:GetBodyVelocity", "src/infrastructure/sim/truth_engine_spline.cpp:GetBodyAcceleration", "src/infrastructure/sim/truth_engine_spline.cpp:GetBodyAngularRate", "src/infrastructure/sim/truth_engine_spline.cpp:GetBodyAngularPosition"]}
{"id": "C57", "title": "The simulated tracker always reports the configured number of features", "statement": "Every simulated camera frame holds at least the configured number of key points, because the features generated to make up the number are seen by the camera they are generated for.", "quantifier": "all camera poses, intrinsics, feature counts, existing features and draws within the image", "why_tests_cant": "The generated points must project back into the image for every pose, focal length and lens; the tests only count features for one camera.", "anchors": ["src/trackers/sim/sim_feature_tracker.cpp:GetVisibleKeypoints", "src/infrastructure/sim/truth_engine.cpp:GenerateVisibleFeatures", "src/ekf/types.cpp:ToCameraMatrix"]}
{"id": "C58", "title": "Logged variances are the filter's variances", "statement": "Every variance written to a body, IMU, GPS, fiducial or camera log is the variance the filter holds for that quantity when the row is written, whichever form of covariance the filter keeps.", "quantifier": "all histories, calibrations and covariance forms, all logged rows", "why_tests_cant": "The value depends on correlations that build up over a history and on the covariance form; the tests never read the logs.", "anchors": ["src/ekf/ekf.cpp:LogBodyStateIfNeeded", "src/ekf/update/imu_updater.cpp:UpdateEKF", "src/ekf/update/imu_updater.cpp:ZeroAccelerationUpdate", "src/ekf/update/gps_updater.cpp:UpdateEKF", "src/ekf/update/fiducial_updater.cpp:UpdateEKF", "src/ekf/update/msckf_updater.cpp:UpdateEKF"]}
{"id": "C59", "title": "Camera-track measurements compare the observed with the predicted image, with true derivatives", "statement": "For every observation of every feature in a camera message, the residual is the observed minus the predicted image direction, the columns of the feature, of the camera position and of every stored pose position the prediction uses are the derivatives of the predicted image, other columns are zero, and each accepted feature gets rows of its own.", "quantifier": "all reachable filters, cloning modes, calibrations, messages and observation times", "why_tests_cant": "Which columns are touched depends on the window, on the time between poses and on which sensors are calibrated; tests check one row shape with one camera.", "anchors": ["src/ekf/update/msckf_updater.cpp:UpdateEKF", "src/ekf/update/msckf_updater.cpp:ProjectionJacobian", "src/ekf/update/msckf_updater.cpp:DistortionJacobian", "src/ekf/ekf.cpp:GetAugState"]}
{"id": "C60", "title": "Measurements are weighed with the covariance of their errors", "statement": "Every correction is the Kalman correction with the covariance that goes with the measurement: the covariances in a GPS or IMU message, the errors in a marker detection, the configured pixel error of a camera; for simulated sensors that covariance is the covariance of the errors actually drawn.", "quantifier": "all filters, messages and covariances; all error distributions with the configured first two moments", "why_tests_cant": "A wrong weight leaves every single run plausible; only the relation between the distribution of errors and the matrix used shows it.", "anchors": ["src/ekf/update/gps_updater.cpp:UpdateEKF", "src/ekf/update/imu_updater.cpp:UpdateEKF", "src/ekf/update/fiducial_updater.cpp:UpdateEKF", "src/ekf/update/msckf_updater.cpp:UpdateEKF", "src/trackers/sim/sim_fiducial_tracker.cpp:GenerateMessage", "src/sensors/sim/sim_imu.cpp:GenerateMessages", "src/utility/sim/sim_rng.cpp:VecNormRand"]}
{"id": "C61", "title": "Orientation columns are the derivatives with respect to the correction applied", "statement": "A correction turns an orientation by a small rotation on its own side; in every measurement the columns of the body, camera, IMU and stored-pose orientations are the derivatives of the prediction with respect to that rotation.", "quantifier": "all reachable filters, poses, lever arms, markers and features", "why_tests_cant": "The columns agree with the derivative at unturned poses, which is what the tests use; the claim is about every orientation.", "anchors": ["src/ekf/types.cpp:operator+=", "src/ekf/update/gps_updater.cpp:GetMeasurementJacobian", "src/ekf/update/fiducial_updater.cpp:GetMeasurementJacobian", "src/ekf/update/imu_updater.cpp:GetMeasurementJacobian", "src/ekf/update/imu_updater.cpp:GetZeroAccelerationJacobian", "src/ekf/update/msckf_updater.cpp:UpdateEKF", "src/utility/math_helper.cpp:QuaternionJacobian"]}
{"id": "C62", "title": "A marker's observed orientation pulls the estimate towards it", "statement": "When a marker is seen turned differently from what the filter predicts, the update turns the estimates of body, camera and marker so that the prediction comes closer to what was seen: the orientation columns are minus the derivatives of the residual.", "quantifier": "all filters, marker, camera and body orientations, observed orientations and covariances", "why_tests_cant": "A test that feeds the predicted orientation back sees a zero residual whatever its sign; the direction of the correction matters for every disagreement.", "anchors": ["src/ekf/update/fiducial_updater.cpp:UpdateEKF", "src/ekf/update/fiducial_updater.cpp:GetMeasurementJacobian", "src/ekf/update/fiducial_updater.cpp:PredictMeasurement", "src/ekf/types.cpp:operator+="]}
{"id": "C63", "title": "Every log file holds what its own logger wrote", "statement": "After any interleaving of logging by the filter, the sensors, the trackers and the truth engine into one directory, each log file holds the header and the rows of the logger it belongs to, complete and in order; nothing is lost to another logger and other files stay as they were.", "quantifier": "all sets of sensors, trackers and boards, all interleavings of their log calls", "why_tests_cant": "Which loggers share a file depends on the configuration; unit tests write with one logger at a time.", "anchors": ["src/infrastructure/data_logger.cpp:Log", "src/ekf/ekf.cpp:EKF", "src/ekf/update/imu_updater.cpp:ImuUpdater", "src/ekf/update/gps_updater.cpp:GpsUpdater", "src/ekf/update/msckf_updater.cpp:MsckfUpdater", "src/ekf/update/fiducial_updater.cpp:FiducialUpdater", "src/infrastructure/sim/truth_engine.cpp:WriteTruthData"]}
{"id": "C64", "title": "The GPS baseline is the greatest distance between fixes", "statement": "When the GPS reference is found by baseline, the distance compared with the configured one is the greatest distance between any two of the fixes collected so far.", "quantifier": "all lists of fixes", "why_tests_cant": "The maximum is taken over a convex hull of rounded points; whether it equals the greatest distance depends on every pair and on every fractional part.", "anchors": ["src/utility/math_helper.cpp:maximum_distance", "src/ekf/ekf.cpp:AttemptGpsInitialization"]}
{"id": "C65", "title": "Earth-fixed and geodetic coordinates convert into each other", "statement": "ecef_to_lla gives every earth-fixed point more than 100 km from the Earth's centre a legal latitude and longitude and an altitude that name that point: converting them with lla_to_ecef gives the point back, to within a picometre on each axis in exact arithmetic. Conversely, for every latitude short of the poles, every longitude and every altitude down to 98 % of the way to the centre, ecef_to_lla gives exactly those coordinates at a point within a picometre of the one lla_to_ecef gives. The reference position of the GPS initialisation is converted this way.", "quantifier": "all earth-fixed points more than 100 km from the centre; all latitudes, longitudes and altitudes", "why_tests_cant": "The conversion solves a quartic in closed form with a cube root, nested square roots, a sign choice and a Newton step; tests sample a few points, while a wrong branch shows only in part of the space.", "anchors": ["src/utility/gps_helper.cpp:ecef_to_lla", "src/utility/gps_helper.cpp:lla_to_ecef", "src/utility/gps_helper.cpp:enu_to_lla"]}
{"id": "C66", "title": "A board in view updates the filter with the pose that was found, and only then", "statement": "When an image shows a marker board whose pose was found, the board update uses exactly that pose; when no pose was found, the filter is left as it was. This holds for every supported kind of board.", "quantifier": "all boards of either kind, detections, filters and times", "why_tests_cant": "Image detection can stop at any stage: no markers, markers without corners, corners without a pose; tests run on images in which everything is found, or call the update directly.", "anchors": ["src/trackers/fiducial_tracker.cpp:Track", "src/trackers/fiducial_tracker.cpp:InterpolateCorners", "src/trackers/fiducial_tracker.cpp:EstimatePoseBoard", "src/sensors/camera.cpp:Callback"]}
{"id": "C67", "title": "Every observation handed to the filter still has the pose of its image", "statement": "Whenever a camera's feature trackers hand tracks to the filter, the filter still stores, for every observation in them, the pose at which that image was taken: asking it for the pose of the image answers with a stored pose of that very image.", "quantifier": "all sequences of images of a camera, whatever is detected in them, interleaved with any other calls on the filter; all numbers of trackers and all track lengths", "why_tests_cant": "Tracks and stored poses are dropped by two independent rules in two classes; that they agree depends on the whole history of detections and on two separately configured lengths.", "anchors": ["src/sensors/camera.cpp:Callback", "src/sensors/sim/sim_camera.cpp:Callback", "src/trackers/feature_tracker.cpp:Track", "src/trackers/sim/sim_feature_tracker.cpp:GenerateMessage", "src/ekf/ekf.cpp:AugmentStateIfNeeded", "src/ekf/ekf.cpp:GetAugState"]}
{"id": "C68", "title": "Every observation handed to the filter was seen where and when it says", "statement": "Each observation of a track handed to the filter names an image the camera was given; it is at a place where that image shows a detectable point to the tracker, and carries the time the filter had when it processed that image. For a simulated camera it is also a sighting of the very feature the track belongs to.", "quantifier": "all sequences of images of a camera, whatever is detected in them and however it is matched, interleaved with any other calls on the filter; all numbers of trackers", "why_tests_cant": "Observations are created one image late, from remembered key points, ids and times that several branches write; a mix-up needs a particular order of images, matches and updates.", "anchors": ["src/trackers/feature_tracker.cpp:Track", "src/trackers/feature_tracker.hpp:m_prev_frame_time", "src/sensors/camera.cpp:Callback", "src/trackers/sim/sim_feature_tracker.cpp:GenerateMessage", "src/ekf/ekf.cpp:CalculateLocalTime"]}
{"id": "C69", "title": "How well GPS fits is judged independently of the local origin", "statement": "The planar alignment of body positions with GPS fixes, and the position and angular errors reported with it, do not depend on where the origin of the local or of the east-north-up frame lies: moving an origin only moves the shift that is found.", "quantifier": "all lists of at least four positions and fixes, all moves of either origin", "why_tests_cant": "The reported errors decide whether a GPS reference is accepted; a test uses one origin, usually near the positions.", "anchors": ["src/utility/math_helper.cpp:kabsch_2d", "src/ekf/ekf.cpp:AttemptGpsInitialization"]}
{"id": "C70", "title": "A ROS message reaches exactly the sensors configured for its topic, with the content it was sent with", "statement": "Every message that arrives at the node is handed to each sensor configured for its topic and to no other, with its time stamp, values and covariances as they are in the message; messages are ordered in time as their stamps; every image is published once for each camera on its topic.", "quantifier": "all sets of configured sensors and topics, all sequences of configurations and messages of all types", "why_tests_cant": "A test sends a few messages to one sensor; sharing a topic, ids and member fields that nobody assigns show only in some combinations, and an unassigned covariance may hold a plausible value in a test.", "anchors": ["src/application/ros/node/ekf_cal_node.cpp:ImuCallback", "src/application/ros/node/ekf_cal_node.cpp:GpsCallback", "src/application/ros/node/ekf_cal_node.cpp:CameraCallback", "src/sensors/ros/ros_gps_message.cpp:RosGpsMessage", "src/utility/ros_helper.cpp:RosHeaderToTime"]}
{"id": "C71", "title": "A simulation starts from its configuration", "statement": "After loading any configuration, the filter holds every sensor with its configured calibration, and the truth engine holds for every sensor the configured calibration if errors are switched off and otherwise that calibration with errors of the configured standard deviations; loading further sensors changes neither. Messages are made from this truth. All cameras that watch a board see the same board, which board_truth.csv lists under its configured id, and they detect it only when it is in front of them.", "quantifier": "all configurations of IMUs, cameras with trackers and boards, and antennas, in any number and order; all draws", "why_tests_cant": "The truth is drawn from a hidden random sequence; ids of sensors, trackers and boards overlap in small tests, so a value kept under the wrong id is not noticed.", "anchors": ["src/sensors/sim/sim_imu.cpp:SimIMU", "src/sensors/sim/sim_camera.cpp:SimCamera", "src/sensors/sim/sim_gps.cpp:SimGPS", "src/trackers/sim/sim_fiducial_tracker.cpp:SimFiducialTracker", "src/infrastructure/sim/truth_engine.cpp:SetBoardPosition", "src/application/sim/simulation.cpp"]}
{"id": "C72", "title": "Messages that keep their contract never cause undefined behaviour", "statement": "Once its sensors are registered and created, a filter processes every interleaving of messages to the end without undefined behaviour: IMU messages and board detections whatever they contain, GPS fixes with legal coordinates, and feature tracks of any length that the configured minimum track length admits. Registering a sensor with its calibration flags is enough to create it.", "quantifier": "all interleavings of registrations, sensor creations, messages of all sensors and direct calls, of any length; all message contents; all numerics", "why_tests_cant": "Whether an index, a size or an unwritten value is hit depends on the whole history of registrations, clones and prunings before a message, and a wrong access often goes unnoticed in a test run.", "anchors": ["src/ekf/update/imu_updater.cpp:UpdateEKF", "src/ekf/update/gps_updater.cpp:UpdateEKF", "src/ekf/update/fiducial_updater.cpp:UpdateEKF", "src/ekf/update/msckf_updater.cpp:UpdateEKF", "src/utility/math_helper.cpp:ApplyLeftNullspace", "src/trackers/feature_tracker.cpp"]}
{"id": "C73", "title": "One configuration file means the same to the ROS node and to the simulation", "statement": "A configuration file on which the ROS node starts is accepted by the simulation as well, and vice versa. Both programs then start with the same filter parameters and the same sensors, trackers and boards, each with the same settings.", "quantifier": "all configuration files: any number and names of sensors, any values, any keys left out; all numerics", "why_tests_cant": "The two programs have separate loaders with about a hundred keys and defaults each; a test reads one file in one program, and a key that is not read or read under another name fails silently.", "anchors": ["src/application/ros/node/ekf_cal_node.cpp:Initialize", "src/application/ros/node/ekf_cal_node.cpp:DeclareSensors", "src/application/ros/node/ekf_cal_node.cpp:LoadSensors", "src/application/sim/simulation.cpp:main", "src/application/ros/node/ekf_cal_main.cpp", "config/example.yaml"]}
{"id": "C74", "title": "The debug messages of the ROS node are the ones asked for, as they were written", "statement": "The ROS node prints each debug message exactly as it was written, if and only if its severity is admitted by the configured level, whose numbers mean what the configuration file documents. A change of level is announced by the name of the new level. No message and no level makes the program undefined.", "quantifier": "all messages, all severities, all configured numbers, all histories of messages and changes of level, all thresholds of the ROS logger", "why_tests_cant": "Message texts contain sensor names and numbers known only at run time; a test prints a few fixed texts at one level and does not read the console.", "anchors": ["src/infrastructure/ros/ros_debug_logger.cpp:SetLogLevel", "src/infrastructure/ros/ros_debug_logger.cpp:Log", "src/infrastructure/debug_logger.hpp:DebugLogger", "config/example.yaml"]}
{"id": "C75", "title": "A simulated run starts off its configured pose and local reference by the configured errors", "statement": "The simulation starts the filter at the configured pose and the truth at the configured local reference, each coordinate and each angle off by its configured error times a standard normal draw; without errors the start is exact. The filter is as uncertain of its start as the configured errors say. A configuration it cannot simulate is rejected.", "quantifier": "all configured poses, references, errors and kinds of truth, all draws", "why_tests_cant": "A test runs a few configurations with a fixed seed; that one of the configured errors is never used, or scaled wrongly away from the equator, cannot be seen from a run that is random anyway.", "anchors": ["src/application/sim/simulation.cpp:main", "src/utility/gps_helper.cpp:wgs84_m_to_deg", "src/ekf/ekf.cpp:Initialize"]}
{"id": "C76", "title": "Error-free simulated camera tracks leave a filter at the truth unchanged", "statement": "In a simulation with errors disabled, each key point of a feature is the image that the filter predicts for it when its poses are the true ones, so its residual is zero. A message of such tracks leaves the estimate as predicted, whether the positions of the features are given with the tracks or triangulated, in both forms of the filter.", "quantifier": "all features, true motions and mountings of the camera, all lenses, all tracks of any number and length, all filters at the truth", "why_tests_cant": "A simulation without errors is compared with the truth only to within a tolerance, so a systematic residual of a fraction of a pixel is taken for noise; the key points depend on the whole chain from the body's pose to the pixel.", "anchors": ["src/trackers/sim/sim_feature_tracker.cpp:GenerateMessage", "src/ekf/update/msckf_updater.cpp:UpdateEKF", "src/ekf/update/msckf_updater.cpp:TriangulateFeature"]}
{"id": "C77", "title": "A simulated body goes through its configured waypoints", "statement": "A simulation that is configured with waypoints and their times moves the body through each waypoint at its time, in the configured position and orientation up to the configured random errors; a body configured with waypoints only passes all of them in order, from the first at the start of the motion to the last at the end.", "quantifier": "all lists of waypoints and times, all random draws and spreads, all stationary times, durations and sample rates", "why_tests_cant": "Tests evaluate the truth at a few times of one path that starts at the origin and has no stationary time; whether a waypoint is passed depends on where its time falls with respect to the sample grid, the stationary time and the ends of the path.", "anchors": ["src/infrastructure/sim/truth_engine_smoother.cpp:TruthEngineSmoother", "src/infrastructure/sim/truth_engine_smoother.cpp:InterpolateVectors", "src/infrastructure/sim/truth_engine_spline.cpp:TruthEngineSpline", "src/application/sim/simulation.cpp:main"]}
{"id": "C78", "title": "The error statistics of an evaluation are the errors of the runs", "statement": "For a set of simulated runs, each reported statistic has one number for each run, in their order: the root mean square, over the logged estimates of that run, of the distance of the estimate from the true value of the same run at the time of the estimate; the summary gives mean and standard deviation of these numbers. A statistic is zero exactly if the estimates are the truth.", "quantifier": "all numbers of runs, all contents and times of the log files, all sensors and ids, all logged quantities", "why_tests_cant": "No test runs the evaluation; whether a number belongs to its run depends on which files every run of the set left behind, and whether it is an error of the quantity on all values the logs can have.", "anchors": ["eval/stats.py:calc_sim_stats", "eval/stats.py:RMSE_from_vectors", "eval/stats.py:body_err_ang_pos", "eval/stats.py:gps_err_pos", "eval/stats.py:gps_err_ang", "eval/stats.py:write_summary", "eval/utilities.py:interpolate_error", "eval/utilities.py:find_and_read_data_frames"]}
{"id": "C79", "title": "A set of Monte Carlo runs is the one that is configured", "statement": "Running a configuration with several runs simulates as many runs as are configured or asked for, each with its own file and directory and its own random numbers, and otherwise with the configured settings and the number and length that are asked for; evaluating the same configuration with the same arguments reads the results of exactly these runs.", "quantifier": "all numbers of runs, all paths of configurations, all settings, seeds and arguments, all sequences of drawn seeds", "why_tests_cant": "No test runs the scripts; whether runs are independent, complete and found again depends on the number of runs, the seed and the path, not on one configuration.", "anchors": ["eval/run.py:generate_mc_from_yaml", "eval/run.py:run_sim", "eval/utilities.py:generate_mc_lists", "src/application/sim/simulation.cpp:main", "src/utility/sim/sim_rng.cpp:SetSeed"]}
{"id": "C80", "title": "The evaluation finds every column it reads", "statement": "Every column that the statistics and the report read, from each kind of log file and with or without estimated calibrations, is in the header that the simulation writes, under one name only; the truth has the columns of each IMU, camera and receiver under the id of its log file.", "quantifier": "all numbers of sensors, all ids, all combinations of estimated calibrations, all kinds of log files", "why_tests_cant": "Headers and the names that are read are text in two languages; no test reads a log back, and the names depend on the number and the ids of all sensors of a configuration.", "anchors": ["eval/stats.py:calc_sim_stats", "eval/report.py:plot_sim_results", "eval/tab_body.py:tab_body", "eval/tab_imu.py:tab_imu", "eval/tab_gps.py:tab_gps", "eval/tab_msckf.py:tab_msckf", "eval/tab_fiducial.py:tab_fiducial", "src/infrastructure/sim/truth_engine.cpp:WriteTruthData", "src/utility/string_helper.cpp:EnumerateHeader"]}
{"id": "C81", "title": "The normalised error of the report is the error in units of the reported uncertainty", "statement": "The report plots, for each logged row, the sum of the squared errors of the estimated quantities, each divided by the variance that the filter reports for it, so that a consistent filter stays within the plotted bounds whatever its accuracy; the value does not depend on the units, and the errors of orientations are those about the axes that the variances belong to.", "quantifier": "all truths, estimates and reported variances, all units, all orientations, all numbers of boards", "why_tests_cant": "No test evaluates the plots; a value within the bounds in one configuration does not show that the formula is the normalised error.", "anchors": ["eval/tab_body.py:plot_body_nees", "eval/tab_imu.py:plot_imu_nees", "eval/tab_gps.py:plot_gps_nees", "eval/tab_msckf.py:plot_cam_nees", "eval/tab_fiducial.py:plot_fid_nees", "eval/utilities.py:interpolate_quat_error"]}
{"id": "C82", "title": "The origin of the clock does not matter", "statement": "Adding the same amount to the time stamps of all messages changes nothing: every update succeeds or fails as before, and estimate, covariance, clones and calibration end up the same; only the stamp that counts as time zero moves with the clock.", "quantifier": "all histories of messages from IMUs, GPS receivers, boards and cameras, registrations and direct calls, all amounts, all modes of cloning", "why_tests_cant": "Tests and simulations start at time zero; recorded data start at a large stamp, and a place that mixes stamps with times of the filter shows only then.", "anchors": ["src/ekf/ekf.cpp:EKF::CalculateLocalTime", "src/ekf/ekf.cpp:EKF::GetAugState", "src/ekf/update/msckf_updater.cpp:MsckfUpdater::UpdateEKF", "src/trackers/sim/sim_feature_tracker.cpp:SimFeatureTracker::GenerateMessage", "src/trackers/feature_tracker.cpp:FeatureTracker::Track"]}
{"id": "C83", "title": "The origin of the local frame does not matter", "statement": "Without position fixes, a filter that starts at a displaced place, with the boards displaced alike, behaves the same: every update succeeds or fails as before, the estimated positions of body, boards and clones are displaced by the same amount, and orientations, velocities, calibration and covariance are the same.", "quantifier": "all histories of messages from IMUs, boards and cameras, registrations and direct calls after a start, all displacements, all modes of cloning", "why_tests_cant": "Tests start at the origin, where a default-constructed pose and the right one coincide.", "anchors": ["src/ekf/ekf.cpp:EKF::Initialize", "src/ekf/ekf.cpp:EKF::GetAugState", "src/ekf/update/msckf_updater.cpp:MsckfUpdater::UpdateEKF", "src/ekf/update/fiducial_updater.cpp:FiducialUpdater::UpdateEKF", "src/ekf/update/imu_updater.cpp:ImuUpdater::UpdateEKF"]}
{"id": "C84", "title": "Rows of a log can be told apart by their times", "statement": "Numbers in the log files read back right to their printed digits, times of later rows never read back as earlier, and rows written at different times read back with different times.", "quantifier": "all numbers, all pairs of rows of reachable filters and of triangulated features, all run lengths and rates", "why_tests_cant": "Test runs last seconds; a time with a fixed number of significant digits loses its fractions only in long runs.", "anchors": ["src/ekf/ekf.cpp:EKF::LogBodyStateIfNeeded", "src/ekf/update/msckf_updater.cpp:MsckfUpdater::TriangulateFeature", "src/utility/string_helper.cpp:VectorToCommaString", "eval/tab_msckf.py:plot_triangulation_error"]}
{"id": "C85", "title": "Frame numbers are only names", "statement": "If the frames of a history get other numbers, different frames different ones, then all estimates, the covariance and the outcome of the run are the same, and clones carry the other numbers; trackers and cameras deliver the same tracks, over the renumbered frames, if the numbers keep their order.", "quantifier": "all renumberings, all histories of messages and calls, all ways of cloning, all cameras and images", "why_tests_cant": "Tests number frames from zero; that no computation looks at the numbers otherwise is a statement about all numberings and all histories.", "anchors": ["src/ekf/ekf.cpp:EKF::AugmentStateIfNeeded", "src/ekf/ekf.cpp:EKF::GetAugState", "src/ekf/update/msckf_updater.cpp:MsckfUpdater::UpdateEKF", "src/trackers/feature_tracker.cpp:FeatureTracker::Track", "src/sensors/camera.cpp:Camera::Callback"]}
{"id": "C86", "title": "A measurement is weighed as well as it can be", "statement": "The correction by a measurement is the best compromise between the estimate and the measurement: it alone minimises the weighed squares of correction and remaining residual, no other gain leaves less variance in any direction, information adds up, and measurements with independent errors may be used in any order with the same covariance, and two of them together with the same covariance and the same total correction. In square-root form this is claimed for measurements with independent errors.", "quantifier": "all filters with a covariance (also singular ones), all Jacobians and residuals, all measurement covariances with an inverse (in square-root form: diagonal ones)", "why_tests_cant": "Tests compare one update with stored numbers; that no other correction or gain would do better is a statement about all of them.", "anchors": ["src/ekf/update/updater.cpp:Updater::KalmanUpdate"]}
{"id": "C87", "title": "What is not calibrated stays as configured", "statement": "Once the filter knows a sensor or a fiducial board, it never loses it, never changes which of its parts are calibrated or how fast they may drift, and every part that is not calibrated keeps exactly the configured value. The calibrated parts change in measurement updates only.", "quantifier": "all filters, all sensors, all histories of calls and messages of any kind, all numerical routines", "why_tests_cant": "A test sees some sensors for some seconds; that no later message of any other sensor touches a fixed mounting is a statement about all histories.", "anchors": ["src/ekf/types.cpp:State::operator+=", "src/ekf/ekf.cpp:EKF::RegisterIMU", "src/ekf/ekf.cpp:EKF::RegisterGPS", "src/ekf/ekf.cpp:EKF::RegisterCamera", "src/ekf/ekf.cpp:EKF::RegisterFiducial", "src/ekf/update/updater.cpp:Updater::KalmanUpdate"]}
{"id": "C88", "title": "Who knows more stays more certain", "statement": "Of two filters that go through the same predictions and measure the same quantities, the one that was more certain, drifts no faster, measures at least as accurately and perhaps has additional measurements is at least as certain as the other about everything afterwards, whatever the two read. In particular no measurement costs certainty, and nothing that follows turns the gain into a loss.", "quantifier": "all pairs of filters, all histories of predictions and measurements with invertible covariances, all directions in the space of estimated numbers", "why_tests_cant": "A test compares the variances of one filter before and after one update; here two filters are compared along all histories in all directions.", "anchors": ["src/ekf/update/updater.cpp:Updater::KalmanUpdate", "src/ekf/ekf.cpp:EKF::PredictModel", "src/ekf/ekf.cpp:EKF::AugmentCovariance"]}
{"id": "C89", "title": "How often the filter predicts in between does not matter", "statement": "The filter predicts to the time of every message of every sensor. Predicting to a time in one go or over any times in between, as the messages happen to come, leads to the same estimate and the same uncertainty at that time.", "quantifier": "all reachable filters, all lists of requested times (requests for the past included) over the same stretch of time, all pairs of estimated numbers", "why_tests_cant": "A test predicts over one interval or over a few of one length; the splitting of time is given by all sensors of a system together.", "anchors": ["src/ekf/ekf.cpp:EKF::PredictModel", "src/ekf/ekf.cpp:EKF::GetStateTransition"]}
{"id": "C90", "title": "Uncertainty is carried along the way the estimate is", "statement": "An estimate that is off by some deviation is, after a prediction, off by the deviation that the predicted covariance accounts for. In other words the uncertainty of every estimated number is passed on to exactly the numbers whose prediction uses it.", "quantifier": "all reachable filters, all deviations of the whole state, all times and all series of predictions", "why_tests_cant": "A test sees one state move; whether the covariance moves the same way is a statement about all deviations from it.", "anchors": ["src/ekf/ekf.cpp:EKF::PredictModel", "src/ekf/ekf.cpp:EKF::GetStateTransition", "src/ekf/types.cpp:operator+="]}
{"id": "C91", "title": "A reading is compared with the state of its time", "statement": "A message is compared with the estimate for the time it is stamped with: a reading that agrees exactly with the estimate of that time corrects nothing, and a reading taken in the frame of the body is turned into the local frame with the orientation of that time.", "quantifier": "all states, all messages of all sensors, all stamps, in time or late", "why_tests_cant": "A test has to choose the stamps; that a stamp is looked at in every state needs a statement about all of them.", "anchors": ["src/ekf/ekf.cpp:EKF::PredictModel", "src/ekf/update/gps_updater.cpp:GpsUpdater::UpdateEKF", "src/ekf/update/imu_updater.cpp:ImuUpdater::UpdateEKF", "src/ekf/update/fiducial_updater.cpp:FiducialUpdater::UpdateEKF", "src/ekf/update/msckf_updater.cpp:MsckfUpdater::UpdateEKF"]}
{"id": "C92", "title": "A sensor that does not report does not matter", "statement": "Registering a sensor that never reports changes nothing about the others: the pose of the body, the calibration of the other sensors and their variances and covariances stay what they would have been without it, whatever is predicted and measured afterwards.", "quantifier": "all histories before the registration, all sensors, all later predictions and measurements that do not ask for the new sensor", "why_tests_cant": "A test compares two runs; that two filters of different size never part needs a statement about all histories.", "anchors": ["src/ekf/ekf.cpp:EKF::RegisterIMU", "src/ekf/ekf.cpp:EKF::RegisterGPS", "src/ekf/ekf.cpp:EKF::RegisterCamera", "src/ekf/ekf.cpp:EKF::RegisterFiducial", "src/ekf/ekf.cpp:EKF::PredictModel", "src/ekf/update/updater.cpp:KalmanUpdate", "src/ekf/update/imu_updater.cpp:ImuUpdater::UpdateEKF", "src/ekf/update/gps_updater.cpp:GpsUpdater::UpdateEKF"]}
{"id": "C93", "title": "Only the ratios of the uncertainties matter", "statement": "If every standard deviation a user gives, those of the process, of the initial calibrations and of all measurements, is multiplied by one factor, then all estimates of poses and calibrations stay the same and every reported standard deviation is multiplied by that factor.", "quantifier": "all factors, all states, all histories of calls and events", "why_tests_cant": "A test tries one factor on one history; that the factor cancels in every gain of every update needs an argument for all of them.", "anchors": ["src/ekf/ekf.cpp:EKF::EKF", "src/ekf/ekf.cpp:EKF::PredictModel", "src/ekf/ekf.cpp:EKF::RefreshIndices", "src/ekf/update/updater.cpp:KalmanUpdate", "src/ekf/update/imu_updater.cpp:ImuUpdater::ZeroAccelerationUpdate", "src/ekf/update/gps_updater.cpp:GpsUpdater::UpdateEKF", "src/ekf/update/gps_updater.cpp:GpsUpdater::MultiUpdateEKF", "src/ekf/update/msckf_updater.cpp:MsckfUpdater::UpdateEKF"]}
{"id": "C94", "title": "A tracker uses the image methods its configuration names", "statement": "The numbers for detector, descriptor and matcher in a configuration select the methods the documentation lists for them, every sequence of images is worked on with exactly these, and a configuration with any other number is refused.", "quantifier": "all numbers in a configuration, all sequences of images", "why_tests_cant": "Tests construct trackers with named methods; numbers without a name are only met in configurations, and only some images then fail.", "anchors": ["src/trackers/feature_tracker.cpp:FeatureTracker::InitFeatureDetector", "src/trackers/feature_tracker.cpp:FeatureTracker::InitDescriptorExtractor", "src/trackers/feature_tracker.cpp:FeatureTracker::InitDescriptorMatcher", "src/trackers/feature_tracker.cpp:FeatureTracker::Track", "src/application/ros/node/ekf_cal_node.cpp:EkfCalNode::GetTrackerParameters", "docs/parameters.md"]}
{"id": "C95", "title": "The heading of the local frame does not matter", "statement": "The local frame has a vertical axis given by gravity and a heading that is a choice. Starting the filter with another heading and giving it the same predictions and the same measurements, with everything expressed in the turned frame, turns every vector it estimates by the same angle, leaves the estimates of the sensors as they are, and turns the uncertainty of the body accordingly.", "quantifier": "all headings, all parameter sets and start-up sequences, all histories of predictions and measurements", "why_tests_cant": "Tests start the filter with one heading and compare with expected numbers; no test runs the same history twice in frames turned against each other.", "anchors": ["src/ekf/ekf.cpp:EKF::PredictModel", "src/ekf/ekf.cpp:EKF::Initialize", "src/ekf/update/gps_updater.cpp:GpsUpdater::UpdateEKF", "src/utility/math_helper.cpp:QuaternionJacobian"]}
{"id": "C96", "title": "Values given under the documented names take effect", "statement": "Whatever configuration file a program starts on, the filter, the process noise, the IMUs, cameras, trackers, boards and antennas it starts with have the values the file gives under the names that the documentation lists, and the numbers for kinds of augmentation and of GPS initialisation mean what the documentation says.", "quantifier": "all configuration files, all numbers and names of sensors", "why_tests_cant": "Tests construct the parameters in code; the loading of files is not tested, and a name that no program reads is silently ignored.", "anchors": ["src/application/sim/simulation.cpp:main", "src/application/ros/node/ekf_cal_node.cpp:EkfCalNode::Initialize", "src/utility/type_helper.cpp:StdToEigVec", "docs/parameters.md", "src/ekf/types.hpp:AugmentationType"]}
{"id": "C97", "title": "The simulated run is the one the configuration describes", "statement": "Whatever simulation parameters a run starts on, its seed, its length, its time of rest, the motion of the body, the waypoints, the initial errors and the errors of every simulated sensor are those the parameters give: with cyclic truth every coordinate rests at its offset, then swings between its offset and its offset plus the amplitude at the given frequency.", "quantifier": "all blocks of simulation parameters, all instants, all frequencies, amplitudes and offsets, all lists of waypoints", "why_tests_cant": "Tests construct truth engines and sensors in code; the loading of simulation parameters is not tested, and a value under a name or in a form the program does not expect is silently replaced by a default.", "anchors": ["src/application/sim/simulation.cpp:main", "src/application/sim/simulation.cpp:LoadSimSensorParams", "src/infrastructure/sim/truth_engine_cyclic.cpp:TruthEngineCyclic::GetBodyPosition", "src/infrastructure/sim/truth_engine_cyclic.cpp:TruthEngineCyclic::GetBodyRollPitchYaw", "docs/parameters.md", "config/example.yaml"]}
{"id": "C98", "title": "Messages with the same time may come in any order", "statement": "Two messages with the same time leave the same estimate and covariance whichever of them is handled first; the program sorts its messages by time alone, which leaves the order of equal times open.", "quantifier": "all reachable filters, all pairs of messages with equal times, all measurements and covariances", "why_tests_cant": "Tests feed one sensor at a time or messages with distinct times; whether two corrections commute depends on every value of state, covariance and measurement.", "anchors": ["src/application/sim/simulation.cpp:main", "src/sensors/sensor.cpp:MessageCompare", "src/ekf/update/gps_updater.cpp:GpsUpdater::UpdateEKF", "src/ekf/update/imu_updater.cpp:ImuUpdater::UpdateEKF", "src/ekf/ekf.cpp:EKF::PredictModel"]}
{"id": "C99", "title": "Until time passes, the pose remembered for an image is the pose of the body", "statement": "After an image, or a prediction, at which the filter remembers its pose, and after any number of corrections and other calls that take no time, the newest pose remembered (for that camera, or by the clock) has the value of the estimated pose of the body, and with everything estimated it has the covariances of the body's pose.", "quantifier": "all reachable filters, all images of cameras whose poses are remembered, all histories of corrections and calls that take no time afterwards, all Jacobians, residuals and measurement covariances", "why_tests_cant": "A test compares the clone with the body directly after the image; that every later correction moves both alike is a statement about all Jacobians, residuals and covariances.", "anchors": ["src/ekf/ekf.cpp:EKF::AugmentStateIfNeeded", "src/ekf/ekf.cpp:EKF::AugmentCovariance", "src/ekf/update/updater.cpp:Updater::KalmanUpdate", "src/ekf/types.cpp:operator+=", "src/ekf/ekf.cpp:EKF::PredictModel"]}
{"id": "C100", "title": "By the clock, a pose is remembered when the interval is exceeded and an image has come", "statement": "When poses are remembered by the clock and one is kept, a prediction remembers the pose of the body, behind the poses kept, exactly if an image has come since the last pose was remembered and more than the configured interval has passed since then; otherwise it remembers nothing, and an image that has come stays noted.", "quantifier": "all filters that remember poses by the clock and keep one, all predictions to times that are not past", "why_tests_cant": "A test tries a few intervals; that nothing is remembered at the interval itself or before, and that no image gets lost, is a statement about all times.", "anchors": ["src/ekf/ekf.cpp:EKF::AugmentStateIfNeeded", "src/ekf/ekf.cpp:EKF::PredictModel"]}
