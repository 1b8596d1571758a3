import Verif.Model.Linear3

/-!
# Model of the camera geometry in `src/ekf/update/msckf_updater.cpp`
-/

namespace EkfCal

/-- types.hpp:48-75 `Intrinsics` -/
structure Intrinsics (K : Type) where
  fx : K
  fy : K
  k1 : K
  k2 : K
  p1 : K
  p2 : K
  width : K
  height : K
  pixelSize : K

variable {K : Type} [Field K]

/-- `Eigen::Vector2d` -/
abbrev V2 (K : Type) := Fin 2 → K

/-- msckf_updater.cpp:160-172 `ProjectionJacobian` -/
def projectionJacobian (p : V3 K) : Matrix (Fin 2) (Fin 3) K :=
  !![1 / p 2, 0, -p 0 / (p 2 * p 2); 0, 1 / p 2, -p 1 / (p 2 * p 2)]

/-- msckf_updater.cpp:221-227 `Project` -/
def project (p : V3 K) : V2 K := ![p 0 / p 2, p 1 / p 2]

/-- msckf_updater.cpp:174-219 `DistortionJacobian`.  Line 181 takes a square root that line 182 squares again; the model
keeps the squared radius. -/
def distortionJacobian (v : V2 K) (c : Intrinsics K) : Matrix (Fin 2) (Fin 2) K :=
  let r2 := v 0 * v 0 + v 1 * v 1
  let r4 := r2 * r2
  let x2 := v 0 * v 0
  let y2 := v 1 * v 1
  let xy := v 0 * v 1
  !![(1 + c.k1 * r2 + c.k2 * r4) + (2 * c.k1 * x2 + 4 * c.k2 * x2 * r2) + (2 * c.p1 * v 1) + (2 * c.p2 * v 0) +
      (4 * c.p2 * v 0),
     (2 * c.k1 * xy) + (4 * c.k2 * xy * r2) + (2 * c.p1 * v 0) + (2 * c.p2 * v 1);
     (2 * c.k1 * xy) + (4 * c.k2 * xy * r2) + (2 * c.p1 * v 0) + (2 * c.p2 * v 1),
     (1 + c.k1 * r2 + c.k2 * r4) + (2 * c.k1 * y2) + (4 * c.k2 * y2 * r2) + (2 * c.p2 * v 0) + (2 * c.p1 * v 1) +
      (4 * c.p1 * v 1)]

/-- msckf_updater.cpp:229-246 `Distort` (both radial terms use `k_1`) -/
def distort (v : V2 K) (c : Intrinsics K) : V2 K :=
  let x2 := v 0 * v 0
  let y2 := v 1 * v 1
  let r2 := x2 + y2
  ![v 0 * (1 + c.k1 * r2 + c.k1 * r2 * r2) + 2 * c.p1 * v 0 * v 1 + c.p2 * (r2 + 2 * x2),
    v 1 * (1 + c.k1 * r2 + c.k1 * r2 * r2) + 2 * c.p2 * v 0 * v 1 + c.p1 * (r2 + 2 * y2)]

/-- msckf_updater.cpp:112-115 and 325-328: a pixel in normalised coordinates.  A zero focal length or pixel size gives IEEE
infinities; the model's division by zero is then meaningless. -/
def normalisePixel (c : Intrinsics K) (x y : K) : V2 K :=
  ![(x - c.width / 2) / (c.fx / c.pixelSize), (y - c.height / 2) / (c.fy / c.pixelSize)]

end EkfCal
