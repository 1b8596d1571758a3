# Formal model of ekf_cal: design

The subject is the C++ project in `/repo` (multi-sensor calibrating EKF). Nothing is built or run: the
model is a reading of the text, and every model definition cites the file and lines it models.

## Layout of the Lean project (`lean/Verif`)

* `Model/…` — the model, one file per group of C++ files, definitions only (plus the few instances needed).
* `Spec/…`  — small independent specifications used in the statements (what a "joint covariance by component"
  is, what "time-ordered" means, …). They never mention model helper functions where it can be avoided.
* `Lemmas/…` — helper lemmas.
* `Props/…` — the property theorems `C01…`, each followed by `example`s showing that concrete, non-trivial
  data meets its hypotheses; violated properties have a negation theorem (`…_violated`) with a concrete
  witness and a `…_partial` theorem for the part that holds.

## Modelling conventions

* **Numbers.** `double` is modelled by an exact ordered field: a generic `K` (`Field`, `LinearOrder`,
  `IsStrictOrderedRing`) where only arithmetic and comparison are used, `ℝ` where square roots, trigonometry
  or derivatives occur. Rounding, overflow to infinity and NaN are not modelled. `unsigned int` is `Nat`
  unless a property is about wrap-around; every unsigned subtraction in the code that could wrap is guarded
  in the model and the wrap is the outcome `ub`/explicitly discussed.
* **Undefined behaviour** is a distinct outcome: model functions that can run into it return
  `Except UB α`. Eigen block/segment accesses outside the matrix, size mismatches in Eigen assignments and
  products, `vector::operator[]` out of range, `back()` of an empty vector, reading an uninitialised variable
  are all `UB`. (Eigen asserts on some of these in debug builds and is undefined in release builds; the model does not
  distinguish the two.)
* **`std::map<unsigned, T>`** is a list of key/value pairs; the model's insert keeps it sorted by key, and the
  invariant "keys strictly increasing" is proved, not assumed. `operator[]` inserts a default entry.
* **Eigen matrices** are `Mat K`: rows, cols and an entry function; block reads and writes check bounds.
  Statements about definiteness use an elementary definition (`0 ≤ Σ x_i P_ij x_j`).
* **Mutable objects** become values; a method becomes a function returning the new object. Histories are lists of
  operations folded from the constructor's state.
* **External calls** (Householder QR, SVD, matrix inverse, OpenCV matching/undistortion/hull, `std::sqrt`,
  trigonometry over a generic field) are parameters of the model with their assumed contract stated in a
  structure; over `ℝ` an instance of the contract is proved to exist, so that the theorems are not vacuous.

## Trusted base

* Lean 4.33.0 kernel. Axioms: `propext`, `Classical.choice`, `Quot.sound` only. No `sorry`, no own axioms, no
  `native_decide`/`bv_decide`; concrete witnesses are checked with `rfl` or `decide +kernel`.
* Mathlib definitions used in statements (`HasDerivAt`, `Matrix`, `Real.sqrt`, `Real.sin`, linear maps, …).
* The faithfulness of the reading of the C++ text.
* The contracts of external calls, below.

### Contracts of external calls

| contract | stands for | shown satisfiable by |
|----------|-----------|----------------------|
| `Prim.QrLaw`, `Prim.SqrtLaw`, `Prim.InvLaw` | Householder QR (triangular factor), `cwiseSqrt`, `inverse()` of an invertible matrix | `realPrim` over `ℝ`; `Samples.adjPrim` (inverse by cofactors) over `ℚ` |
| `Prim.UnitLaw` | `RotVecToQuat`, `slerp` give unit quaternions | `C21_real_unit` |
| `Num.HqLaw` | the orthogonal factor of Householder QR | `realNum_hq` |
| `Num.OfMatLaw` | quaternion of a rotation matrix | `realNumOfMat` |
| `Num.SolveLaw` | `colPivHouseholderQr().solve` | `TriangulateSample.num` |
| `SvdLaw` | `JacobiSVD` of a 2×2 matrix | `exists_svdLaw` |
| `HullLaw` | `convexHull` returns some of the points, all lie in their convex hull | `hullLaw_id` |
| `KnnLists` | `knnMatch` with k = 2 returns at most two candidates per query | examples in C30 |
| `SortLaw` | `std::sort` | examples in C34 |
| `Curve.Law` | the spline library's derivatives are those of its values | examples in C56 |
| `Printer.Law` | printing a number gives text without separator | examples in C27 |

OpenCV's feature detection and matching enter as inputs.

### Assumptions on callers

* `Op.WF`, `Call.WF`: sensor states have the size field their setters maintain (the only way to build one).
* `Op.CovOK`, `Call.NoiseIsCov`: covariances passed in are covariances.
* `Op.Safe` (Spec/Safe): the obligations under which C49 proves definedness. One of them (a defined angular error of the
  GPS alignment) cannot be met at standstill; that is the violation recorded there.
* `Op.AngOK`: orientations passed in are unit. `TrackFrame.WF`, `Op.NumberedCamera`: as the trackers and the id counter
  produce them.
* Opening a log file succeeds.

### What is modelled

| model file | source |
|------------|--------|
| Base, Types, MathHelper, Linear3, Rotation | `ekf/types.*`, `utility/math_helper.*`, `utility/type_helper.*` |
| Prim, Ekf | `ekf/ekf.cpp`, all public members |
| ImuUpdater, GpsUpdater, FidUpdater, MsckfUpdater, Compress, Camera | `ekf/update/*`, `utility/…` helpers they use, `ekf/types.cpp` projection and distortion |
| Station | the filter with its updaters as one machine, driven by messages |
| StateVector | `ekf/types.cpp` vector conversions and `+=` |
| Gps, GpsInit | `utility/gps_helper.cpp`, `AttemptGpsInitialization` |
| Logger, LogRows, LogFiles | `infrastructure/data_logger.*`, `debug_logger.*`, headers and rows of every CSV file; the files on disk |
| RosLogger | `infrastructure/ros/ros_debug_logger.cpp`; `printf` without arguments: every conversion but `%%` is undefined |
| FeatureTracker, Ids | `trackers/feature_tracker.cpp` filters and map, id counters |
| CameraFrame | `sensors/camera`, `trackers/fiducial_tracker`, `sensors/sim/sim_camera`: the order of clone, feature and board updates in one image |
| RosNode | `application/ros/node/ekf_cal_node`, `sensors/ros/*`, `utility/ros_helper`: message conversion, registration of sensors, dispatch; one callback at a time |
| SimSetup | Constructors of `sensors/sim/*` and `trackers/sim/*`, calibrations kept by `infrastructure/sim/truth_engine`, loading loops of `application/sim/simulation.cpp`; standard draws are inputs, YAML is not modelled |
| SimStart | `application/sim/simulation.cpp:197-283`: initial pose of the filter, true local reference, choice of the truth engine; draws are inputs |
| Waypoints | `infrastructure/sim/truth_engine_smoother.cpp:188-239`, `truth_engine_spline.cpp:126-167`: constructors from flat lists of waypoints; draws are inputs; the spline library is a parameter with a documented law (`FitLaw`) |
| Eval | `eval/utilities.py:45-49, 187-204`, `eval/stats.py:39-367`: the error statistics of the evaluation scripts over tables of finite numbers; NumPy and pandas by their documented behaviour; not plots, not `gps_init_count`, `imu_duration` and `body_states` |
| MonteCarlo | `eval/run.py:84-133`, `eval/utilities.py:207-233`: names and contents of the files of a set of runs; the drawn seeds are inputs; not the process pool, not the file system |
| EvalReads | `eval/stats.py`, `eval/tab_*.py`: the names of the columns that are read from each kind of log file |
| Nees | `eval/tab_body.py:467-485`, `tab_imu.py:339-423`, `tab_gps.py:131-166`, `tab_msckf.py:289-330`, `tab_fiducial.py:225-275`, `utilities.py:52-89`: one row of the plots of normalised errors; Euler angles of SciPy by a law |
| Choices | `src/trackers/feature_tracker.cpp:50-52, 57-117, 184-207`, `ekf_cal_node.cpp:354-369`: selection and use of the image methods; what OpenCV finds in an image is an input |
| ConfigText | `ekf_cal_node.cpp:57-86, 164-460`, `simulation.cpp:67-125, 148-192, 287-471`: the names of the keys in a configuration file; paths with one component per name; not `sim_params` |
| SimText | `simulation.cpp:85-91, 198-285, 304-316, 347-350, 380-389, 422-426, 473-482`: the blocks `sim_params`; values are trees, elements of lists that do not convert throw; the text of numbers is not modelled; `number_of_runs` and `run_number` are read by the Python scripts only |
| Params | Parameter declaration and loading of `application/ros/node/ekf_cal_node.cpp`, parameter loading of `application/sim/simulation.cpp`; keys are structured names, directories, debug level and image detectors are left out; rclcpp is assumed to reject a value whose type differs from the declared default |
| Simulation, SimMeasure, SimNoise, SimFeatures | `application/sim`, `sensors/sim/*`, `trackers/sim/*`, `utility/sim/*` |
| Cyclic, SplineTruth, Smoother | truth engines and the smoothing table |
| Config | sensor construction and the ROS node's parameter plumbing |

Not modelled: rounding, overflow, inf and NaN of doubles (where a division by zero matters it is `UB.nonFinite`); the
unqualified `abs(double)` at ekf.cpp:451 is read as the floating-point overload; execution times; debug text; reading
parameters from YAML and ROS; image processing (detectors, descriptors, drawing); the ROS debug logger; threads; `State += State` with both
operands the same object. Random draws are inputs; statements about them quantify over all draws, or (C60) over all
distributions with the given second moments, an expectation being a linear functional.

## Violated properties

A property the code violates has status `partial`: its negation is proved for a concrete, reachable witness
(`…_violated`) and the part that holds is proved beside it. The note in `MANIFEST.json` names both. Violations are recorded for
C03 (ids out of order, late fiducials, square-root mode), C05, C09 (noise, cross blocks), C11 (correlated noise), C14, C16, C17, C20
(heading, origin), C22 (three), C24 (illegal coordinates), C26 (time zero), C27 (truth file), C29 (edges), C31 (empty image, length
one), C32 (ids from 0), C33 (duration), C34 (time error), C35 (k1 for k2), C36 (Q for its transpose), C37 (truncation), C40 (offset), C41 (six), C42
(IMU, fiducial), C43 (square root), C44 (frozen residual), C45 (node noise and pose), C46 (truth positions), C47 (rounding, ids), C48
(order of calls), C49 (standstill), C50 (half the acceleration term, slow rotation), C51 (cameras), C52 (four), C53 (five, IMU), C54
(four), C55 (angular acceleration), C56 (rate, start), C57 (distortion), C58 (square root, stand-still), C59 (absent frame, distortion), C60
(single IMU, first fixes, marker errors, pixel errors), C61 (turned estimates, IMU mounting),
C62 (sign of the marker's orientation residual), C63 (several boards or trackers on one camera), C64 (whole metres, no height),
C66 (plain ArUco boards, and boards without a pose),
C67 (images without key points, tracks longer than the window),
C68 (down-sampled images, simulated observation times),
C69 (angular error of the alignment),
C70 (covariance of GPS fixes, colour images),
C71 (two cameras on one board, ids in board_truth.csv, boards behind the camera),
C72 (tracks with one observation, which a minimum track length of 0 or 1 lets through),
C73 (the node never reads the calibration flag of a GPS antenna and does not pass that of a camera to its tracker and board, reads the least feature distance under another name, ignores down-sampling, leaves half of the process noise unwritten, refuses the detector threshold as the shipped files write it, and has other defaults),
C74 (a message is used as a `printf` format, so that a percent sign in the name of a sensor is undefined; a change of level is announced with the level that is left; each documented level lets the next severity through and the documented level 5 has no name, so that the next change of level reads past the table; with the threshold ROS starts with no configuration shows debug messages),
C75 (the configured error of the yaw angle is never used; the error towards east is scaled as on the equator, about half of it at a latitude of 60 degrees; the filter's covariance does not depend on the errors; an unknown kind of truth dereferences a null pointer),
C76 (with lens distortion the residual is the displacement by the lens, which the updater does not apply to its prediction, so that the residual of an exact image is not zero),
C77 (with the tabulated truth the body is at the origin when it should be at its first or last waypoint, and waypoints before the end of the stationary time are left out because the configured times are not counted from there; more times than waypoints are read outside the list; with the spline truth the body waits at the origin instead of at its first waypoint, and a constant position or orientation is replaced by the origin or by no turn at all),
C78 (a run without estimates shifts all later runs to the truth of another run; orientations are compared by three of the four numbers of their quaternions, so opposite turns about the vertical have no error and equal orientations can have the error two; the error of the GPS reference adds degrees and metres; heading errors have signs and whole turns in them; runs that never know the reference are left out; sensors with ids from ten have no statistics; with the default logging rate the truth has no rows and the evaluation ends with an error),
C79 (the numbers of the runs add up, so that the run k has the number k(k+1)/2; with the seed zero all runs are the same simulation, and the drawn seeds zero and 5489 are the same; the length given as an argument is ignored for a single run; configurations behind a directory with .yaml in its name write to the same files),
C80 (the files of sensors with ids from ten are not looked at),
C81 (errors are divided by the reported variance twice, so that errors of one standard deviation give any value and the unit of length matters; errors of orientations are in thousandths of a radian against variances in radians, and about the axes of the world against variances about those of the body; all boards are compared with the first),
C82 (observations that carry stamps, as simulated ones do, are compared with times of the filter when frames are not cloned: their poses are off by the origin of the clock, or divided by zero, unless the filter was told to start at time zero),
C83 (a frame that has no clone any more is given a default clone at the origin of the local frame: features are located, and their pixels expected, from there, wherever the body is),
C84 (times are written with six significant digits, in the triangulation file with three: after 1000 s rows 2.5 ms apart coincide, after 100 s the triangulated features of a whole second do, and however seldom rows are written, late enough some coincide),
C88 (In square-root form a prediction moves the wrong rows of the factor: a filter that has used one measurement more becomes less certain of a fixed antenna position than the filter that has not (`C88_root_violated`). `C88_update`, `C88_measurement` and `C88_more_rows` hold in both forms, `C88_history_partial` and `C88_fork_partial` in standard form without clock-driven cloning; cloning and dropping keep the order (`C88_clone`, `C88_drop`)),
C89 (The position and its variance depend on the splitting: over two seconds, one prediction and two give different positions when the body accelerates, and different position variances whenever velocity has noise (`C89_violated`). Exactly: velocity noise of density `q` adds between `q T³/3` and `q T³` to a position variance, the most when predicted at once (`C89_variance_partial`, `C89_once_partial`); everything else agrees (`C89_cov_partial`, `C89_same_partial`), and all of it does without acceleration or without velocity noise (`C89_all_same_partial`). Standard form, no clock-driven cloning),
C90 (The predicted velocity and position use the acceleration and the predicted orientation uses the angular rate, but the transition of the covariance couples neither: a wrong acceleration makes the velocity wrong without any added uncertainty (`C90_acceleration_violated`, exact size in `C90_acceleration`), a wrong rate turns the body without any (`C90_rate_violated`). For all other deviations, and for accelerations of a body told not to accelerate, prediction and deviation commute exactly (`C90_partial`, `C90_history_partial`), and the predicted covariance is the spread of the carried deviations plus noise (`C90_spread`, standard form)),
C91 (A late message is taken for a message of now: its stamp is not used at all (`C91_late_stamp_unused`), so a fix that agrees exactly with the estimate of its time moves the estimate (`C91_late_violated`). A reading of the only IMU of a moving body is turned with the orientation before the step to its time (`C91_imu`), so a turning body gets an acceleration in the wrong direction (`C91_imu_violated`). Fixes in time are compared with the predicted state (`C91_gps_partial`, `C91_in_time`), readings are right while the orientation does not turn (`C91_imu_partial`)),
C92 (A second IMU that never reports changes how the readings of the first are used, as the updater asks for the number of IMUs (`C92_imu_violated`). Predictions and measurements that do not ask for the new sensor keep everything that was estimated without it and raise no error that they would not raise without it (`C92_history_partial`, `C92_runs_partial`), and so do the fixes of an antenna (`C92_fixes_partial`)),
C93 (The covariance of the body starts at a fixed value that no parameter gives, so multiplying all configured standard deviations changes the estimates (`C93_violated`); pixel errors under half a pixel are not used (`C93_pixel`), nor are those of the fixes until the reference is known (`C93_first`). From a state whose covariance is multiplied as well, all histories of calls keep the estimates, in either form (`C93_history_partial`), and so do all kinds of events in standard form (`C93_station_partial`)),
C94 (Numbers that are not listed are accepted (`C94_violated`): an unlisted detector makes the first image a call through a null pointer (`C94_detector`), an unlisted matcher exactly the sequences with features in two images in a row (`C94_matcher`). Listed numbers select the listed methods for all images (`C94_listed_partial`)),
C95 (The rows of a position fix contain the quaternion Jacobian of the orientation in the local frame, so the correction from the same fix has another size under another heading unless the antenna is at the origin of the body (`C95_violated`: half a turn with an antenna one metre above the origin)),
C96 (The documented names for the position and heading of the local frame, `pos_l_in_g` and `ang_l_to_g`, are read by neither program, and the documented switch for logging is not either (`C96_violated`, `C96_unread`: for every file and every value); the simulation does not read the documented name of the least distance of features (`C96_distance`)),
C97 (Waypoints written as documented, one list for each, end the program with an exception (`C97_waypoints_violated`); the documented errors of the local frame and the switch for the seed are not read (`C97_unread`, `C97_violated`), nor the documented position error of an antenna (`C97_gps_unread`, also given under that name in config/regression/gps.yaml:93) or the constant errors of clocks (`C97_clock_unread`); a seed with a decimal point, as documented, becomes 1 (`C97_seed_violated`); a time of rest below 0.1 s becomes 0.1 s (`C97_rest_violated`); the angles rest at zero instead of their offset (`C97_angles_violated`)),
C98 (An IMU reading and an image of the same time: the reading sets the acceleration before it predicts to its time, so that the velocity afterwards depends on which of them came first, and sorting by time leaves that open (`C98_violated`)).

Scope limits that are not violations: C12 excludes the first stamp; C15 assumes the clock is not set back by it; the covariance part of
C18 with time cloning is for standard mode; C03's square-root witness for pruning is at function level; C20 is stated in the
east-north-up frame of the averaged fixes; C42 and C59 leave orientation columns to C61; C46 and C59 assume a lens without distortion; C53's
GPS part is exact where the geodetic conversion is, else within two picometres. C30_distance_still records an observation: a camera at rest loses every match.

## Testing the theorems

Seeded bugs: a scratch copy of the model is edited one definition at a time and rebuilt; `seeded/LOG.jsonl` records
the edit, the claim it breaks, the theorems that fail and the theorems tightened because none failed.
`theorems_failed` is what the build of the edited copy reported.  `property_files_importing_a_failed_module` was not
observed: it is read off the imports of the present modules, so it names files that were not built after the failure,
which may hold theorems that do not use the failed lemma, and files that are younger than the run.

## Plan per property

| id | modelled | proof method |
|----|----------|--------------|
| C01 | full EKF object (`Model/Ekf`): counters, maps, clone windows, covariance as `Mat` | invariant over all op histories |
| C02 | `RefreshIndices` | function → layout list, tiling proved by induction over the maps |
| C03 | register / clone / prune on EKF object, components located via indices | per-step refinement to an abstract "covariance by component" map; negations for out-of-order ids, late fiducials, square-root pruning |
| C04 | register functions | equality of whole object |
| C05 | getters with `operator[]` | negation witness; partial for registered ids |
| C06 | `InsertInMatrix`, `RemoveFromMatrix` | entrywise spec, round trip, UB iff out of range |
| C07 | `AugmentCovariance` both modes | entrywise = J P Jᵀ, PSD |
| C08 | `PredictModel` covariance part | block algebra to one congruence, PSD |
| C09 | square-root branch with `QR_r` contract | negation witness, partial for vanishing cross block |
| C10 | `KalmanUpdate` standard branch | Joseph form PSD; Loewner decrease |
| C11 | `KalmanUpdate` square-root branch | equality for diagonal noise; negation for non-diagonal |
| C12 | `PredictModel` time logic | induction over histories |
| C13 | `CalculateLocalTime`, `Initialize` | induction over histories |
| C14 | frame-driven cloning | invariant; UB witness for limit 0 |
| C15 | time/error-driven cloning and pruning | invariant, loop spec = filter |
| C16 | `GetAugState` frame branch | lookup spec; negation for unknown frame |
| C17 | `GetAugState` interpolation branch | bracketing; UB/0-division witnesses |
| C18 | flags in the EKF object and IMU updater | monotonicity over histories |
| C19 | `AttemptGpsInitialization` with numeric parts as parameters | decision logic |
| C20 | same with planar geometry over `ℝ` | negation (heading sign, origin), partial for zero rotation |
| C21 | `operator+=` | componentwise at published indices |
| C22 | `ToVector`, `SetState`, `GetStateSize` | partial round trip + negations |
| C23 | `RotVecToQuat`, `QuatToRotVec`, `StdToEigQuat` over `ℝ` | trigonometry |
| C24 | GPS helper functions over `ℝ` | matrix identities |
| C25–C26 | `DataLogger` as a state machine | induction over calls |
| C27 | header/row builders over symbolic fields | length equality for all flags |
| C28 | debug logger | decision logic |
| C29–C30 | `GridFeatures`, `RatioTest`, `SymmetryTest`, `DistanceTest` | list induction |
| C31 | `FeatureTracker::Track` map life cycle | invariant over frames |
| C32 | id counters | induction |
| C33 | `RegisterCamera`, `SetMaxTrackLength` | induction |
| C34 | `GenerateMeasurementTimes`, stream merge and dispatch | list/permutation lemmas |
| C35 | `Project`, `Distort` and Jacobians | `HasFDerivAt`/partial derivatives; negation for k1 ≠ k2 |
| C36 | `ApplyLeftNullspace` with QR contract | negation witness; what does hold |
| C37 | `CompressMeasurements` with Givens rotations over `ℝ` | orthogonality invariant of the loop; negation for truncation |
| C38 | `kabsch_2d` with SVD contract | optimality in SO(2) |
| C39 | helper functions | algebra |
| C40 | cyclic truth engine | `HasDerivAt` |
| C41 | smoother | index bounds; UB witnesses |
| C42 | IMU/GPS/fiducial measurement models | derivatives and column bookkeeping |
| C43 | zero-acceleration decision | state machine |
| C44 | first-estimate latch | state machine |
| C45 | node parameter plumbing | negation + partial |
| C46 | triangulation acceptance | decision logic, negation for uninitialised truth |
| C47 | simulated visibility filter | list/geometry |
| C48 | `SetBodyProcessNoise`, registration, noise matrix layout | invariant over histories; negation witnesses |
| C49 | every `Except UB` outcome of the filter's calls | progress theorem by induction over safe histories |
| C50 | `PredictModel` mean | closed form by induction over intervals; negation witnesses |
| C51 | `operator+=` of the collections | list induction over slices |
| C52 | `operator+=(State, State)` | componentwise; negation witnesses |
| C53 | simulated GPS, marker and IMU measurements at the true state | algebra of rotations; negation witnesses |
| C54 | sensor and tracker constructors | lookup in the registered filter, joint covariance of C03 |
| C55 | cyclic truth engine, rotation | `HasDerivAt` of quaternion products |
| C56 | spline truth engine | `HasDerivAt` with the spline contract |
| C57 | `GenerateVisibleFeatures` | inverse projection, induction over the draws |
| C58 | variance columns of the log rows | value at the published index; PSD bound for the root |
| C59 | rows of camera tracks | `IsJacobian` per block, loop induction for the stack |
| C60 | noise matrix of every update, simulated errors | reduction to C10/C11; linear expectation |
| C61 | orientation columns of every update | derivative of `q · exp(d)` at 0, compared with the code's block; an iff per block |
| C62 | orientation residual of the marker update | exact residual after a turn; columns compared with its derivative; one update computed in closed form |
| C63 | all data loggers with their file names, streams and the files on disk | invariant over interleavings; file names equal exactly for writers of the same sensor and kind |
| C64 | `maximum_distance` with a hull law (a subset whose convex hull contains all points) | diameter of a convex hull; bounds on what truncation does to a distance |
| C65 | `ecef_to_lla`, `lla_to_ecef` over ℝ; geodetic coordinates specified as foot on the ellipsoid plus altitude along its outward normal | Cardano's and Ferrari's formulas solve Olsen's quartic on the right branch; existence of the root by the intermediate value theorem; perturbation bound for the two declared constants |
| C66 | `Camera::Callback`, `FiducialTracker::Track`; detection by OpenCV is an input | Case analysis on what was detected; the board updater as in C59–C62. Violated for plain ArUco boards, which never reach the filter, and for corners without a pose, which update it with the identity pose (witnesses over ℚ that move the estimate) |
| C67 | A camera with its trackers, updaters and filter as one machine (`Camera.run`, `SimCamera.run`), other calls on the filter in between | Two invariants by induction over the events: the frame ids of every open track are a suffix of the images so far, and so are those in the window; suffixes of one list are comparable by length. Violated after an image without key points and for tracks longer than the window (witnesses) |
| C68 | The machine of C67, and where the detector's image shows a point of the received image (`shownAt`, `PointSight.ofImage`) | Induction over the events, images, matches: everything a tracker holds was seen in a named image at the filter's time then; updates at the same message time leave the clock alone (Lemmas/Clock). Violated with down-sampling, and for the times of simulated observations when the filter counts from the first message (witnesses) |
| C69 | `kabsch_2d` with its error figures, over ℝ; the singular value decomposition is any function | Means move with the points, so centred points, rotation and errors stay. Violated for the angular error, which is taken relative to a point of the other frame: for any fixes that do not fit exactly and any threshold there is an origin for which the reported angular error is below it |
| C70 | ROS node: message types, conversion, registration with ids, subscriptions, callbacks, publication of images | Refinement: by induction over every history the node runs in lockstep with a list of sensors that each listen to their topic; ids are distinct, so a callback changes only its own sensor. Violated: the covariance of a fix is never copied from the message, and a colour image is refused by a camera with trackers |
| C71 | Constructors of simulated sensors and trackers, setters of the truth engine, loading loops of the simulation, board file | Refinement: closed form of filter and truth after loading any list, by induction with fresh ids; sensor k of the configuration is found under number k. Violated: a board gets one truth per camera, under the tracker's number instead of its id, and is detected behind the camera |
| C72 | `Station` (filter with its updaters), obligations of messages in Spec/SafeCalls | Invariant (state tiles its rows, sizes fit, updaters match registered sensors, stored fixes pair up, reference legal) by induction over histories; each updater is then shown defined block by block. Violated: a track with a single observation gives two equations from which three are removed |
| C73 | Both loaders over one file (`Model/Params`): declaration and reading of ROS parameters, YAML reading with defaults | Invariant of the declared parameters by induction over declarations; then both loaders are shown equal field by field and lifted to lists of any length, in both directions. Violated: concrete files, and for the process noise every file |
| C74 | The node's `DebugLogger` (`Model/RosLogger`) with `printf` formats, unchecked table of names and the threshold of ROS | Induction over histories against a list of expected lines. Violated: for every text around a percent sign, every pair of levels, every documented number |
| C75 | `Model/SimStart`: initial pose of the filter and true reference over ℝ, draws as inputs | Algebra of the drawn rotations; chord between two points of one parallel bounded by the cosine of the latitude. Violated: for every configuration, draw and error |
| C76 | `Model/SimFeatures` and `Model/MsckfUpdater` joined by the true pose of the camera | Projection of the simulator = lens followed by the pixel grid; induction over observations, features, null-space projection and rotations: zeros stay zero. Violated: residual in closed form for every lens |
| C77 | `Model/Waypoints` (the constructors of both truths) | Induction over the loop that collects control points; table entries at sample times from C41; the spline library by its documented law, satisfied by polynomials through the points. Violated: ends, stationary time, constant paths |
| C78 | `Model/Eval` (evaluation scripts, over ℝ) | Induction over the rows of the truth (interpolation), over the estimates (root mean square) and over the runs. Violated: incomplete sets of runs, orientations, GPS reference, ids from ten, empty truth |
| C79 | `Model/MonteCarlo` | Induction over the loop; names by reading the digits back, directories by the ending occurring once. Violated: run numbers, seed zero, single run with a length, .yaml in a directory |
| C80 | `Model/EvalReads`, `Model/LogRows`, `Spec/Csv` | Names of the columns of each file as lists; fixed files by evaluation for all combinations of flags, the truth by induction over the sensors and injectivity of numbered names. Violated: ids from ten |
| C81 | `Model/Nees` (over ℝ; Euler angles of SciPy by a law, which is satisfiable) | Algebra for all lists of errors. Violated: variance squared, unit and axes of orientations, boards; right only for variances of one |
| C82 | `Model/Station` | Commutation of every function of the filter and the updaters with a change of the reference time, for all histories. Violated: stamped observations of cameras whose frames are not cloned |
| C83 | `Model/Station` | Commutation of every function of the filter and the updaters with a displacement of body, boards and clones, for all histories without fixes. Violated: tracks over frames without clones |
| C84 | `Model/LogRows` | Arithmetic of rounding to significant digits, for all numbers and precisions; the first field of every row. Violated: rows written late enough have the same time |
| C85 | `Model/Station`, `Model/FeatureTracker`, `Model/CameraFrame` | Every function of the filter, the updaters, the trackers and the camera commutes with an injective (for trackers: increasing) renumbering; induction over histories. That the renumbering must be injective, and increasing for trackers, is shown by examples |
| C86 | `Model/Ekf` (`kalmanUpdate`) | Matrix algebra over an ordered field: the innovation has an inverse because the noise has one; the updated covariance is `P (1 + Hᵀ R⁻¹ H P)⁻¹`, also for singular `P`; completing the square; two updates multiply these factors |
| C87 | `Model/Ekf`, `Model/Station` | Induction over the history of calls with the relation `State.Keeps` (`Spec/Kept`) between the states before and after; renumbering and inserting under new ids keep everything, an update keeps what its flags exclude; messages act on the filter through such calls |
| C88 | `Model/Ekf` (`kalmanUpdate`, `predictCov`, `augmentCovariance`, `removeFromMatrix`) | The gain of the less certain filter would keep the order, and the optimal gain (C86) is better still; congruences and sums keep the order; induction over the history of both filters |
| C89 | `Model/Ekf` (`predict`, `predictCov`) | Closed form of the covariance over any list of intervals (`Spec/Splits`), by induction over the requests; bounds by induction over the intervals; negation witness |
| C90 | `Model/Ekf` (`predict`, `predictBody`, `predictCov`), `Model/Types` (`addVec`) | Displacing the estimate (`Spec/Correct`, `Spec/Deviation`) commutes with prediction; induction over the requests; a covariance as the spread of a list of deviations; negation witnesses |
| C91 | `Model/Station`, `Model/ImuUpdater`, `Model/GpsUpdater`, `Model/FidUpdater`, `Model/MsckfUpdater` | Case analysis of the updaters with the forms of `Lemmas/UpdaterOps`; expected fix in `Spec/Stamps`; concrete runs for the negations |
| C92 | `Model/Ekf`, `Model/GpsUpdater`, `Model/ImuUpdater` | Renumbering of the columns in `Spec/Silent`; the large filter restricted to the old columns is the small one, by induction over predictions, measurements and fixes; a concrete pair of runs for the negation |
| C93 | `Model/Ekf`, all updaters, `Model/Station` | Scaled filters, calls and events in `Spec/Scaled`; every model function commutes with the scaling; a concrete pair of runs for the negation; Gram-Schmidt, square root and inverse over ℝ meet the law assumed of the numeric library |
| C94 | `Model/Choices` | Documented tables in `Spec/Choices`; induction over the images |
| C95 | `Model/Ekf`, `Model/GpsUpdater` | Turned frames in `Spec/Heading`; the covariance is turned by an orthogonal matrix that commutes with the state transition and the process noise; induction over the history; fixes of an antenna at the body origin are the same in both frames (`C95_fix_partial`) |
| C96 | `Model/ConfigText`: the names of the keys of `Model/Params` | What docs/parameters.md says in `Spec/ConfigText`; unfolding of the loaders, for the node through C73 |
| C97 | `Model/SimText`: the blocks `sim_params` of a file, read by name, with exceptions | What docs/parameters.md and config/example.yaml say in `Spec/SimText`; unfolding of the readers; addition theorem for the period of the motion |
| C98 | `Model/Station` and `Model/GpsUpdater` | `Spec/SameTime`: agreement of two filters up to orientations; two corrections in information form add their information, in either order; a prediction to the present time changes nothing |
| C99 | `Model/Ekf` | `Spec/Remembered`: newest clone and body agree in value, row and column; equal rows of the covariance give equal rows of the gain, by induction over the calls; the image of a second camera moves the first camera's rows as a block |
| C100 | `Model/Ekf` | the records of the window after a prediction, as in C15, and the test on the interval; the stored time is that of the newest pose, by induction over the calls |
