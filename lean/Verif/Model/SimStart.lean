import Verif.Model.Config
import Verif.Model.Gps

/-!
# Model of how a simulated run starts: initial pose of the filter and true local reference

src/application/sim/simulation.cpp:209-283.  Standard normal draws are inputs; reading the values from YAML is modelled in
`Model/Params` as far as the filter is concerned.  The truth engines themselves are in `Model/Cyclic`, `Model/SplineTruth` and
`Model/Smoother`.
-/

namespace EkfCal

/-- simulation.cpp:257-260, 271-273: the configured errors of the start: position and angles of the body, local reference (metres)
and heading -/
structure StartErrors where
  pos : V3 ℝ
  ang : V3 ℝ
  ref : V3 ℝ
  heading : ℝ

/-- The standard normal numbers drawn, simulation.cpp:262-265 and 276-281. -/
structure StartDraws where
  pos : V3 ℝ
  roll : ℝ
  pitch : ℝ
  ref : V3 ℝ
  heading : ℝ

/-- The kinds of truth the program knows (simulation.cpp:213, 232, 242). -/
def truthTypes : List String := ["cyclic", "smoother", "spline"]

/-- simulation.cpp:197-283: the filter, and the local reference and heading given to the truth engine.  For another
`truth_type` the program only logs an error (250-254) and goes on with a null pointer, which it dereferences at 282. -/
noncomputable def simStart (N : Prim ℝ) (p : EkfParams ℝ) (noise : Vec ℝ) (hasTracker : Bool) (truthType : String)
    (err : StartErrors) (z : StartDraws) : Res (Ekf ℝ × V3 ℝ × ℝ) := do
  let e := simFilter N p noise hasTracker (fun i => err.pos i * z.pos i)
    ((Quat.ofAngleAxis (err.ang 0 * z.roll) ![1, 0, 0]).mul (Quat.ofAngleAxis (err.ang 1 * z.pitch) ![0, 1, 0]))
  guardUB (truthType ∈ truthTypes) .uninitialised
  pure (e,
    ![p.posEInG 0 + wgs84MToDeg (err.ref 0) * z.ref 0, p.posEInG 1 + wgs84MToDeg (err.ref 1) * z.ref 1,
      p.posEInG 2 + err.ref 2 * z.ref 2],
    p.angLToE + err.heading * z.heading)

end EkfCal
