import Verif.Model.Cyclic
import Verif.Model.Params

/-!
# Model of how the simulation reads its own parameters (`sim_params`)

src/application/sim/simulation.cpp:85-91, 198-285 and the blocks `sim_params` of sensors and trackers (304-318, 347-355, 380-391,
422-426, 474-482).  A block is a function from names to values.  Values are trees, since the documentation has lists of lists.
-/

namespace EkfCal

/-- YAML values as yaml-cpp converts them: `1` is an integer, `1.0` is not. -/
inductive YVal (K : Type)
  | bool (b : Bool)
  | int (i : Int)
  | dec (x : K)
  | str (s : String)
  | seq (l : List (YVal K))

/-- A block of a YAML file. -/
abbrev YNode (K : Type) := String → Option (YVal K)

/-- How reading can fail: an exception of yaml-cpp, which nothing catches, or undefined behaviour. -/
inductive ReadErr
  | badConversion
  | ub (u : UB)
  deriving DecidableEq

/-- The result of reading. -/
abbrev Read (α : Type) := Except ReadErr α

/-- A call without exceptions. -/
def Read.lift {α : Type} : Res α → Read α
  | .ok a => .ok a
  | .error u => .error (.ub u)

section
variable {K : Type} [Field K] [LinearOrder K]

/-- Conversion of one value to `double` (yaml-cpp). -/
def YVal.num? : YVal K → Option K
  | .int i => some i
  | .dec x => some x
  | _ => none

/-- `node[name].as<double>(default)` (yaml-cpp): the default if there is no value or it does not convert. -/
def YNode.num (t : YNode K) (n : String) (d : K) : K := ((t n).bind YVal.num?).getD d

/-- `node[name].as<bool>(default)` -/
def YNode.flag (t : YNode K) (n : String) (d : Bool) : Bool :=
  match t n with
  | some (.bool b) => b
  | _ => d

/-- `node[name].as<unsigned int>(default)` -/
def YNode.count (t : YNode K) (n : String) (d : Nat) : Nat :=
  match t n with
  | some (.int i) => if 0 ≤ i ∧ i < 2 ^ 32 then i.toNat else d
  | _ => d

/-- `node[name].as<std::string>(default)`: the text of any value that is not a list.  How numbers are written is not modelled;
the text of a number or a truth value is not the name of a kind of truth. -/
def YNode.text (t : YNode K) (n : String) (d : String) : String :=
  match t n with
  | some (.str s) => s
  | some (.bool b) => toString b
  | some (.int i) => toString i
  | some (.dec _) => "number"
  | _ => d

/-- `node[name].as<std::vector<double>>(default)`: the default if there is no value or it is not a list; elements are converted
without a default, so one that does not convert throws. -/
def YNode.nums (t : YNode K) (n : String) (d : List K) : Read (List K) :=
  match t n with
  | some (.seq l) => l.mapM fun v => match v.num? with
    | some x => .ok x
    | none => .error .badConversion
  | _ => .ok d

/-- `StdToEigVec(node[name].as<std::vector<double>>(def_vec))` passed on as a `Vector3d` (simulation.cpp:158, type_helper.cpp:28-36) -/
def YNode.vec (t : YNode K) (n : String) : Read (V3 K) := do Read.lift (stdToV3 (← t.nums n [0, 0, 0]))

/-- The same as a `VectorXd` of which the first `m` entries are read (simulation.cpp:259-260, 264-265, 271-272, 276-280) -/
def YNode.entries (t : YNode K) (n : String) (m : Nat) : Read (Nat → K) := do
  let v ← Read.lift (stdToEigVec false (← t.nums n [0, 0, 0]))
  Read.lift (guardUB (m ≤ v.size) .outOfRange)
  pure v.get

/-- What the truth engine is constructed with (simulation.cpp:213-249). -/
inductive TruthConfig (K : Type)
  | cyclic (posFreq angFreq posOffset angOffset : V3 K) (posAmp angAmp : K)
  | smoother (times positions angles posErrs angErrs : List K)
  | spline (positions angles posErrs angErrs : List K)

/-- What is read from the block `sim_params` at the top. -/
structure WorldConfig (K : Type) where
  /-- the seed given to the generator of random numbers, if any -/
  seed : Option Nat
  maxTime : K
  stationary : K
  truth : TruthConfig K
  posErr : V3 K
  angErr : Nat → K
  refErr : Nat → K
  headingErr : K

/-- simulation.cpp:213-254: the truth.  For another kind the program logs an error and keeps a null pointer. -/
def readTruth (t : YNode K) : Read (Option (TruthConfig K)) :=
  match t.text "truth_type" "cyclic" with
  | "cyclic" => do
    let posFreq ← t.vec "pos_frequency"
    let angFreq ← t.vec "ang_frequency"
    let posOffset ← t.vec "pos_offset"
    let angOffset ← t.vec "ang_offset"
    pure (some (.cyclic posFreq angFreq posOffset angOffset (t.num "pos_amplitude" 1) (t.num "ang_amplitude" (1 / 10))))
  | "smoother" => do
    let times ← t.nums "times" [0, 0, 0]
    let positions ← t.nums "positions" [0, 0, 0]
    let angles ← t.nums "angles" [0, 0, 0]
    let posErrs ← t.nums "pos_errors" [0, 0, 0]
    let angErrs ← t.nums "ang_errors" [0, 0, 0]
    pure (some (.smoother times positions angles posErrs angErrs))
  | "spline" => do
    let positions ← t.nums "positions" [0, 0, 0]
    let angles ← t.nums "angles" [0, 0, 0]
    let posErrs ← t.nums "pos_errors" [0, 0, 0]
    let angErrs ← t.nums "ang_errors" [0, 0, 0]
    pure (some (.spline positions angles posErrs angErrs))
  | _ => pure none

/-- simulation.cpp:200-283: the parameters of the run.  The null pointer is dereferenced at 282. -/
def readWorld (t : YNode K) : Read (WorldConfig K) := do
  let seed := t.count "seed" 1
  let truth ← readTruth t
  let posErr ← t.vec "pos_b_in_l_error"
  let angErr ← t.entries "ang_b_to_l_error" 2
  let refErr ← t.entries "pos_e_in_g_error" 3
  match truth with
  | none => .error (.ub .uninitialised)
  | some truth => pure {
      seed := if 0 < seed then some seed else none
      maxTime := t.num "max_time" 10
      stationary := max (t.num "stationary_time" (1 / 10)) (1 / 10)
      truth := truth
      posErr := posErr
      angErr := angErr
      refErr := refErr
      headingErr := t.num "ang_l_to_e_error" 0 }

/-- The errors of a simulated IMU (simulation.cpp:85-91, 305-316). -/
structure ImuErrors (K : Type) where
  noErrors : Bool
  time : K
  acc : V3 K
  omg : V3 K
  pos : V3 K
  ang : V3 K
  accBias : V3 K
  omgBias : V3 K

/-- simulation.cpp:85-91, 305-316 -/
def readImu (t : YNode K) : Read (ImuErrors K) := do
  pure {
    noErrors := t.flag "no_errors" false
    time := t.num "time_error" 0
    acc := ← t.vec "acc_error"
    omg := ← t.vec "omg_error"
    pos := ← t.vec "pos_error"
    ang := ← t.vec "ang_error"
    accBias := ← t.vec "acc_bias_error"
    omgBias := ← t.vec "omg_bias_error" }

/-- The errors of a simulated camera (simulation.cpp:85-91, 423-426). -/
structure CamErrors (K : Type) where
  noErrors : Bool
  time : K
  pos : V3 K
  ang : V3 K

/-- simulation.cpp:85-91, 423-426 -/
def readCam (t : YNode K) : Read (CamErrors K) := do
  pure {
    noErrors := t.flag "no_errors" false
    time := t.num "time_error" 0
    pos := ← t.vec "pos_error"
    ang := ← t.vec "ang_error" }

/-- The features of a simulated tracker (simulation.cpp:347-350). -/
structure RoomConfig (K : Type) where
  featureCount : Nat
  roomSize : K
  noErrors : Bool

/-- simulation.cpp:347-350 -/
def readRoom (t : YNode K) : RoomConfig K where
  featureCount := t.count "feature_count" 100
  roomSize := t.num "room_size" 10
  noErrors := t.flag "no_errors" false

/-- The errors of a simulated board (simulation.cpp:380-389). -/
structure BoardErrors (K : Type) where
  pos : V3 K
  ang : V3 K
  tVec : V3 K
  rVec : V3 K
  noErrors : Bool

/-- simulation.cpp:380-389 -/
def readBoard (t : YNode K) : Read (BoardErrors K) := do
  pure {
    pos := ← t.vec "pos_error"
    ang := ← t.vec "ang_error"
    tVec := ← t.vec "t_vec_error"
    rVec := ← t.vec "r_vec_error"
    noErrors := t.flag "no_errors" false }

/-- The errors of a simulated antenna (simulation.cpp:85-91, 474-482); the errors of the local frame read at 480-482 are never used
and left out. -/
structure GpsErrors (K : Type) where
  noErrors : Bool
  time : K
  lla : V3 K
  pos : V3 K

/-- simulation.cpp:85-91, 474-482 -/
def readGps (t : YNode K) : Read (GpsErrors K) := do
  let lla ← t.vec "lla_error"
  let pos ← t.vec "pos_a_in_b_error"
  let _ ← t.vec "pos_e_in_g_error"
  pure {
    noErrors := t.flag "no_errors" false
    time := t.num "time_error" 0
    lla := lla
    pos := pos }
end

/-- simulation.cpp:218-230, truth_engine_cyclic.cpp:26-45: the cyclic truth of the run -/
def TruthConfig.cyclicTruth (stationary : ℝ) : TruthConfig ℝ → Option CyclicTruth
  | .cyclic posFreq angFreq posOffset angOffset posAmp angAmp =>
    some ⟨posFreq, angFreq, posOffset, angOffset, angAmp, posAmp, stationary⟩
  | _ => none

end EkfCal
