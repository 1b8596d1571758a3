import Mathlib.Data.List.Forall2
import Verif.Model.SimText

/-!
# Specification: what the documentation says the parameters of the simulation mean

Names and meanings are those of docs/parameters.md:44-78 and of the blocks `sim_params` of the sensors there.
-/

namespace EkfCal
variable {K : Type} [Field K]

/-- The value is the number `x`, which may be written as an integer. -/
def YVal.Is (v : YVal K) (x : K) : Prop := v = .dec x ∨ ∃ i : Int, v = .int i ∧ x = i
/-- The value is the list `l` of numbers. -/
def YVal.AreAll (v : YVal K) (l : List K) : Prop := ∃ vs, v = .seq vs ∧ List.Forall₂ YVal.Is vs l
/-- The value is a list of points, each a list of three numbers. -/
def YVal.ArePoints (v : YVal K) (l : List (V3 K)) : Prop :=
  ∃ vs, v = .seq vs ∧ List.Forall₂ (fun v p => v.AreAll [p 0, p 1, p 2]) vs l

namespace YNode
variable (t : YNode K)

/-! What the block has under a name. -/

def HasNum (n : String) (x : K) : Prop := ∃ v, t n = some v ∧ v.Is x
def HasTriple (n : String) (x : V3 K) : Prop := ∃ v, t n = some v ∧ v.AreAll [x 0, x 1, x 2]
def HasList (n : String) (l : List K) : Prop := ∃ v, t n = some v ∧ v.AreAll l
def HasPoints (n : String) (l : List (V3 K)) : Prop := ∃ v, t n = some v ∧ v.ArePoints l
def HasFlag (n : String) (b : Bool) : Prop := t n = some (.bool b)
def HasCount (n : String) (m : Nat) : Prop := m < 2 ^ 32 ∧ t n = some (.int m)

/-! If it has a value of the type, it is the given one. -/

def Num (n : String) (x : K) : Prop := ∀ y, t.HasNum n y → x = y
def Triple (n : String) (x : V3 K) : Prop := ∀ y, t.HasTriple n y → x = y
def Numbers (n : String) (x : List K) : Prop := ∀ y, t.HasList n y → x = y
def Flag (n : String) (x : Bool) : Prop := ∀ y, t.HasFlag n y → x = y
def Count (n : String) (x : Nat) : Prop := ∀ y, t.HasCount n y → x = y

end YNode

/-- A coordinate that, from `start` on, swings between `offset` and `offset + amp` and back `freq` times in a unit of time. -/
structure Swings (x : ℝ → ℝ) (start offset amp freq : ℝ) : Prop where
  begins : x start = offset
  within : ∀ τ, start ≤ τ → ∃ u : ℝ, 0 ≤ u ∧ u ≤ 1 ∧ x τ = offset + u * amp
  reaches : 0 < freq → x (start + 1 / (2 * freq)) = offset + amp
  period : 0 < freq → ∀ τ, start ≤ τ → x (τ + 1 / freq) = x τ
  still : freq = 0 → ∀ τ, start ≤ τ → x τ = offset

/-- The same, and it rests before. -/
structure RestsThenSwings (x : ℝ → ℝ) (start offset amp freq : ℝ) : Prop extends Swings x start offset amp freq where
  rests : ∀ τ, τ < start → x τ = offset

/-- The cyclic motion the block describes (docs/parameters.md:56-61), but for the angles before it begins. -/
structure YNode.CyclicMotion (t : YNode ℝ) (e : CyclicTruth) (start : ℝ) : Prop where
  pos : ∀ f o a, t.HasTriple "pos_frequency" f → t.HasTriple "pos_offset" o → t.HasNum "pos_amplitude" a →
    ∀ i, RestsThenSwings (fun τ => e.position τ i) start (o i) a (f i)
  ang : ∀ f o a, t.HasTriple "ang_frequency" f → t.HasTriple "ang_offset" o → t.HasNum "ang_amplitude" a →
    ∀ i, Swings (fun τ => e.rollPitchYaw τ i) start (o i) a (f i)

/-- The waypoints as config/example.yaml:59-71 gives them, in one list. -/
structure YNode.FlatWaypoints (t : YNode K) (positions angles posErrs angErrs : List K) : Prop where
  positions : t.Numbers "positions" positions
  angles : t.Numbers "angles" angles
  posErrs : t.Numbers "pos_errors" posErrs
  angErrs : t.Numbers "ang_errors" angErrs

/-- The run the block describes.  The names of the errors of the local frame are those of config/example.yaml:73-74, the waypoints are
one list, and the body stands still for at least a tenth of a second. -/
structure YNode.Run (t : YNode ℝ) (w : WorldConfig ℝ) : Prop where
  seed : ∀ n, 0 < n → t.HasCount "seed" n → w.seed = some n
  maxTime : t.Num "max_time" w.maxTime
  stationary : ∀ s, 1 / 10 ≤ s → t.HasNum "stationary_time" s → w.stationary = s
  cyclic : t "truth_type" = some (.str "cyclic") → ∃ e, w.truth.cyclicTruth w.stationary = some e ∧ t.CyclicMotion e w.stationary
  spline : t "truth_type" = some (.str "spline") → ∃ p a pe ae, w.truth = .spline p a pe ae ∧ t.FlatWaypoints p a pe ae
  smoother : t "truth_type" = some (.str "smoother") → ∃ ts p a pe ae, w.truth = .smoother ts p a pe ae ∧
    t.Numbers "times" ts ∧ t.FlatWaypoints p a pe ae
  posErr : t.Triple "pos_b_in_l_error" w.posErr
  angErr : t.Triple "ang_b_to_l_error" fun i => w.angErr i
  refErr : t.Triple "pos_e_in_g_error" fun i => w.refErr i
  headingErr : t.Num "ang_l_to_e_error" w.headingErr

/-- What docs/parameters.md:44-78 says besides. -/
structure YNode.DocumentedRun (t : YNode ℝ) (w : WorldConfig ℝ) : Prop extends t.Run w where
  unseeded : t.HasFlag "use_seed" false → w.seed = none
  anyStationary : t.Num "stationary_time" w.stationary
  anglesRest : t "truth_type" = some (.str "cyclic") → ∀ o, t.HasTriple "ang_offset" o →
    ∀ e, w.truth.cyclicTruth w.stationary = some e → ∀ τ, τ < w.stationary → e.rollPitchYaw τ = o
  localPos : t.Triple "pos_l_in_g_error" fun i => w.refErr i
  localAng : t.Num "ang_l_to_g_error" w.headingErr

/-- docs/parameters.md:136-145, but for the constant error of the clock -/
structure YNode.Imu (t : YNode K) (s : ImuErrors K) : Prop where
  noErrors : t.Flag "no_errors" s.noErrors
  time : t.Num "time_error" s.time
  pos : t.Triple "pos_error" s.pos
  ang : t.Triple "ang_error" s.ang
  acc : t.Triple "acc_error" s.acc
  omg : t.Triple "omg_error" s.omg
  accBias : t.Triple "acc_bias_error" s.accBias
  omgBias : t.Triple "omg_bias_error" s.omgBias

/-- docs/parameters.md:184-189, but for the constant error of the clock -/
structure YNode.Camera (t : YNode K) (s : CamErrors K) : Prop where
  noErrors : t.Flag "no_errors" s.noErrors
  time : t.Num "time_error" s.time
  pos : t.Triple "pos_error" s.pos
  ang : t.Triple "ang_error" s.ang

/-- docs/parameters.md:221-224 -/
structure YNode.Room (t : YNode K) (s : RoomConfig K) : Prop where
  noErrors : t.Flag "no_errors" s.noErrors
  count : t.Count "feature_count" s.featureCount
  size : t.Num "room_size" s.roomSize

/-- docs/parameters.md:256-261 -/
structure YNode.Board (t : YNode K) (s : BoardErrors K) : Prop where
  noErrors : t.Flag "no_errors" s.noErrors
  pos : t.Triple "pos_error" s.pos
  ang : t.Triple "ang_error" s.ang
  tVec : t.Triple "t_vec_error" s.tVec
  rVec : t.Triple "r_vec_error" s.rVec

/-- docs/parameters.md:282-286 and, for the position, the name in simulation.cpp:479 -/
structure YNode.Gps (t : YNode K) (s : GpsErrors K) : Prop where
  noErrors : t.Flag "no_errors" s.noErrors
  time : t.Num "time_error" s.time
  lla : t.Triple "lla_error" s.lla
  pos : t.Triple "pos_a_in_b_error" s.pos

end EkfCal
