import Verif.Model.Params

/-!
# Model of the names in a configuration file

`Model/Params` reads a file by structured keys.  Here are the names of these keys in the file, which is a function from the path below
`/EkfCalNode/ros__parameters` to values.  Names of sensors are one component of a path; the node joins the components with dots, so names
with dots in them are not modelled.
-/

namespace EkfCal

/-- The block of parameters in a file. -/
abbrev ParamText (K : Type) := List String → Option (PVal K)

/-- ekf_cal_node.cpp:57-86, simulation.cpp:107-113, 148-152, 162-192 -/
def TopField.path : TopField → List String
  | .dataLogRate => ["data_log_rate"]
  | .augmentingType => ["augmenting_type"]
  | .augmentingDeltaTime => ["augmenting_delta_time"]
  | .augmentingPosError => ["augmenting_pos_error"]
  | .augmentingAngError => ["augmenting_ang_error"]
  | .noisePos => ["process_noise", "pos"]
  | .noiseVel => ["process_noise", "vel"]
  | .noiseAcc => ["process_noise", "acc"]
  | .noiseAngPos => ["process_noise", "ang_pos"]
  | .noiseAngVel => ["process_noise", "ang_vel"]
  | .noiseAngAcc => ["process_noise", "ang_acc"]
  | .posBInL => ["pos_b_in_l"]
  | .angBToL => ["ang_b_to_l"]
  | .posEInG => ["pos_e_in_g"]
  | .angLToE => ["ang_l_to_e"]
  | .gpsInitType => ["gps_init_type"]
  | .gpsInitBaselineDist => ["gps_init_baseline_dist"]
  | .gpsInitPosThresh => ["gps_init_pos_thresh"]
  | .gpsInitAngThresh => ["gps_init_ang_thresh"]
  | .motionDetectionChiSquared => ["motion_detection_chi_squared"]
  | .imuNoiseScaleFactor => ["imu_noise_scale_factor"]
  | .useRootCovariance => ["use_root_covariance"]
  | .useFirstEstimateJacobian => ["use_first_estimate_jacobian"]
  | .imuList => ["imu_list"]
  | .cameraList => ["camera_list"]
  | .trackerList => ["tracker_list"]
  | .fiducialList => ["fiducial_list"]
  | .gpsList => ["gps_list"]

/-- ekf_cal_node.cpp:211, 293, 337, 385, 439, simulation.cpp:288, 332, 360, 399, 462 -/
def PKind.name : PKind → String
  | .imu => "imu"
  | .camera => "camera"
  | .tracker => "tracker"
  | .fiducial => "fiducial"
  | .gps => "gps"

/-- ekf_cal_node.cpp:164-460, simulation.cpp:67-83, 287-471.  Trackers have no position and orientation, and antennas no orientation. -/
def PField.path (k : PKind) : PField → List String
  | .topic => ["topic"]
  | .rate => ["rate"]
  | .dataLogRate => ["data_log_rate"]
  | .isExtrinsic => ["is_extrinsic"]
  | .isIntrinsic => ["is_intrinsic"]
  | .variance => ["variance"]
  | .pos => match k with
    | .imu => ["pos_i_in_b"]
    | .camera => ["pos_c_in_b"]
    | .fiducial => ["pos_f_in_l"]
    | .gps => ["pos_a_in_b"]
    | .tracker => []
  | .ang => match k with
    | .imu => ["ang_i_to_b"]
    | .camera => ["ang_c_to_b"]
    | .fiducial => ["ang_f_to_l"]
    | .gps | .tracker => []
  | .accBias => ["acc_bias"]
  | .omgBias => ["omg_bias"]
  | .posStability => ["pos_stability"]
  | .angStability => ["ang_stability"]
  | .accBiasStability => ["acc_bias_stability"]
  | .omgBiasStability => ["omg_bias_stability"]
  | .tracker => ["tracker"]
  | .fiducial => ["fiducial"]
  | .fx => ["intrinsics", "f_x"]
  | .fy => ["intrinsics", "f_y"]
  | .k1 => ["intrinsics", "k_1"]
  | .k2 => ["intrinsics", "k_2"]
  | .p1 => ["intrinsics", "p_1"]
  | .p2 => ["intrinsics", "p_2"]
  | .pixelSize => ["intrinsics", "pixel_size"]
  | .width => ["intrinsics", "width"]
  | .height => ["intrinsics", "height"]
  | .featureDetector => ["feature_detector"]
  | .descriptorExtractor => ["descriptor_extractor"]
  | .descriptorMatcher => ["descriptor_matcher"]
  | .detectorThreshold => ["detector_threshold"]
  | .pixelError => ["pixel_error"]
  | .downSample => ["down_sample"]
  | .downSampleHeight => ["down_sample_height"]
  | .downSampleWidth => ["down_sample_width"]
  | .minFeatureDistance => ["min_feature_distance"]
  | .minFeatDist => ["min_feat_dist"]
  | .minTrackLength => ["min_track_length"]
  | .maxTrackLength => ["max_track_length"]
  | .fiducialType => ["fiducial_type"]
  | .squaresX => ["squares_x"]
  | .squaresY => ["squares_y"]
  | .squareLength => ["square_length"]
  | .markerLength => ["marker_length"]
  | .id => ["id"]

/-- A key as a path: `name`, or `kind.sensor.name` (the same lines) -/
def PKey.path : PKey → List String
  | .top t => t.path
  | .of k n f => k.name :: n :: f.path k

/-- The values the programs find under their keys (`YAML::Node::operator[]`, the parameters of a ROS node) -/
def ParamText.file {K : Type} (t : ParamText K) : ParamFile K := fun k => t k.path

end EkfCal
