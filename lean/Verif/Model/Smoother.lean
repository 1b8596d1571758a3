import Verif.Model.FeatureTracker
import Mathlib.Algebra.Module.Pi

/-!
# Model of the tabulated truth (`src/infrastructure/sim/truth_engine_smoother.cpp`)

The disturbed control points are inputs (the draws of `SimRNG` are not modelled).  Loop counters are `unsigned int`: tables
are taken to have fewer than 2³² entries.
-/

namespace EkfCal

/-- `v[i]` of a `std::vector`. -/
def readAt {α : Type} (l : List α) (i : Nat) : Res α :=
  match l[i]? with
  | none => .error .outOfRange
  | some x => .ok x

section
variable {K : Type} [Field K] [LinearOrder K]

/-- truth_engine_smoother.cpp:122-124: the search for the interval of `t`.  `n` is `times.size() - j`, so the loop ends when
it is used up; the second comparison is only made when the first one fails. -/
def advance (times : List K) (t : K) : Nat → Nat → Res Nat
  | 0, j => .ok j
  | n + 1, j => do
    if t < (← readAt times j) then advance times t n (j + 1)
    else if (← readAt times (j + 1)) < t then advance times t n (j + 1)
    else pure j

/-- truth_engine_smoother.cpp:119-132: the loop over the sample times -/
def interpLoop (times : List K) (vectors : List (V3 K)) : List K → Nat → Res (List (V3 K))
  | [], _ => .ok []
  | t :: ts, j => do
    let first ← readAt times 0
    match times.getLast? with
    | none => .error .emptyVector
    | some last =>
      if first < t ∧ t < last then
        let j ← advance times t (times.length - j) j
        if times.length ≤ j then pure []
        else
          let t0 ← readAt times j
          let t1 ← readAt times (j + 1)
          guardUB (t1 - t0 ≠ 0) .nonFinite
          let alpha := (t1 - t) / (t1 - t0)
          let v0 ← readAt vectors j
          let v1 ← readAt vectors (j + 1)
          let rest ← interpLoop times vectors ts j
          pure ((alpha • v0 + (1 - alpha) • v1) :: rest)
      else
        let rest ← interpLoop times vectors ts j
        pure (0 :: rest)

/-- truth_engine_smoother.cpp:111-135 `InterpolateVectors` -/
def interpolateVectors (samples times : List K) (vectors : List (V3 K)) : Res (List (V3 K)) :=
  interpLoop times vectors samples 0

/-- truth_engine_smoother.cpp:143-145: the loop of `Derivative` from index `i` on -/
def derivLoop (times : List K) : Nat → List (V3 K) → Res (List (V3 K))
  | i, a :: b :: rest => do
    let t1 ← readAt times (i + 1)
    let t0 ← readAt times i
    guardUB (t1 - t0 ≠ 0) .nonFinite
    let ds ← derivLoop times (i + 1) (b :: rest)
    pure ((t1 - t0)⁻¹ • (b - a) :: ds)
  | _, _ => .ok []

/-- truth_engine_smoother.cpp:138-148 `Derivative`: without values `size() - 1` wraps and the first pass reads outside -/
def derivative (times : List K) (values : List (V3 K)) : Res (List (V3 K)) := do
  guardUB (values ≠ []) .outOfRange
  let ds ← derivLoop times 0 values
  match ds.getLast? with
  | none => .error .emptyVector
  | some d => pure (ds ++ [d])

/-- truth_engine_smoother.cpp:163-165: the sum of `n` consecutive entries from index `i` on -/
def windowSum (data : List (V3 K)) (i : Nat) : Nat → Res (V3 K)
  | 0 => .ok 0
  | n + 1 => do
    let s ← windowSum data i n
    let x ← readAt data (i + n)
    pure (s + x)

/-- truth_engine_smoother.cpp:150-171 `SlidingWindowFilter`: the result and the argument afterwards, which is padded -/
def slidingWindow (data : List (V3 K)) (buffer : Nat) : Res (List (V3 K) × List (V3 K)) := do
  let width := (2 * buffer + 1) % 2 ^ 32
  let padded := List.replicate buffer 0 ++ data ++ List.replicate buffer 0
  let out ← (List.range (padded.length - 2 * buffer % 2 ^ 32)).mapM fun i => do
    let s ← windowSum padded i width
    pure ((width : K)⁻¹ • s)
  pure (out, padded)

/-- truth_engine_smoother.cpp:178-182: the passes over the three components -/
def accelOf (a b c : V3 K) (dt m : K) : K :=
  let d (j : Fin 3) : K := (c j - 2 * b j + a j) / (dt / 2) ^ 2
  max (max (max m (d 0)) (d 1)) (d 2)

/-- truth_engine_smoother.cpp:177-183: the loop from index `i` on, `n` passes -/
def accelLoop (times : List K) (data : List (V3 K)) : Nat → Nat → K → Res K
  | 0, _, m => .ok m
  | n + 1, i, m => do
    let c ← readAt data (i + 1)
    let b ← readAt data i
    let a ← readAt data (i - 1)
    let t1 ← readAt times (i + 1)
    let t0 ← readAt times (i - 1)
    guardUB (t1 - t0 ≠ 0) .nonFinite
    accelLoop times data n (i + 1) (accelOf a b c (t1 - t0) m)

/-- truth_engine_smoother.cpp:173-186 `MaxAcceleration` -/
def maxAcceleration (times : List K) (data : List (V3 K)) : Res K := accelLoop times data (data.length - 1) 1 0

/-- The members of `TruthEngineSmoother` (truth_engine_smoother.hpp:103-111). -/
structure Smoother (K : Type) where
  stationary : K
  maxTime : K
  rate : K
  time : List K
  pos : List (V3 K)
  vel : List (V3 K)
  acc : List (V3 K)
  ang : List (V3 K)
  angVel : List (V3 K)
  angAcc : List (V3 K)

namespace Smoother
variable [FloorRing K]

/-- truth_engine_smoother.cpp:224-239: the rest of the constructor, given the control points (205-222) -/
def new (times : List K) (poses angles : List (V3 K)) (stationary maxTime rate : K) : Res (Smoother K) := do
  let n := ⌈maxTime * rate⌉
  guardUB (0 ≤ n ∧ n < 2 ^ 32) .badCast
  let time := (List.range n.toNat).map fun i : Nat => (i : K) / rate
  let pos ← interpolateVectors time times poses
  let ang ← interpolateVectors time times angles
  let vel ← derivative time pos
  let acc ← derivative time vel
  let angVel ← derivative time ang
  let angAcc ← derivative time angVel
  pure ⟨stationary, maxTime, rate, time, pos, vel, acc, ang, angVel, angAcc⟩

/-- truth_engine_smoother.cpp:26-35 `GetInterpolatedValue` -/
def interpolated (s : Smoother K) (time : K) (values : List (V3 K)) : Res (V3 K) := do
  let whole := truncInt (time * s.rate)
  let alpha := time * s.rate - (whole : K)
  guardUB (0 ≤ whole ∧ whole < 2 ^ 32) .badCast
  let v0 ← readAt values whole.toNat
  let v1 ← readAt values ((whole.toNat + 1) % 2 ^ 32)
  pure ((1 - alpha) • v0 + alpha • v1)

/-- truth_engine_smoother.cpp:241-244 `IsTimeInvalid` -/
def isTimeInvalid (s : Smoother K) (t : K) : Bool := decide (t < 0 ∨ t > s.maxTime)

/-- truth_engine_smoother.cpp:37-47, 49-59, 61-71, 86-96, 98-108: the getters of a vector, for its table -/
def body (s : Smoother K) (table : List (V3 K)) (time : K) : Res (V3 K) :=
  if s.isTimeInvalid (time - s.stationary) then .ok 0 else s.interpolated time table

/-- truth_engine_smoother.cpp:73-84 `GetBodyAngularPosition`; `toQuat` is `EigVecToQuat` -/
def bodyAngle (s : Smoother K) (toQuat : V3 K → Quat K) (time : K) : Res (Quat K) :=
  if s.isTimeInvalid (time - s.stationary) then .ok ⟨1, 0, 0, 0⟩
  else do pure (toQuat (← s.interpolated time s.ang))

end Smoother
end
end EkfCal
