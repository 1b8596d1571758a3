import Verif.Model.Eval
import Verif.Model.Rotation

/-!
# Model of the normalised errors of the report (`eval/tab_*.py`), over `ℝ`

One row of the plots.  The errors are those of C78 (`interpolateError`) for vectors; a truth at the time of the row is an input
here.  `euler` is `as_euler('XYZ')` of SciPy.
-/

namespace EkfCal.Eval
open EkfCal

/-- tab_body.py:467-485, tab_imu.py:379-385 and 417-423, tab_gps.py:154-157, tab_msckf.py:324-330, tab_fiducial.py:269-275: errors
and the columns `…_cov_…`; a division by zero gives a value that is not a number -/
noncomputable def nees (l : List (ℝ × ℝ)) : Py ℝ :=
  if (l.map Prod.snd).all (fun c => decide (c ≠ 0)) then .ok (l.map fun p => p.1 * p.1 / p.2 / p.2).sum else .error .nan

/-- utilities.py:72-89 `interpolate_quat_error`, tab_fiducial.py:246-257: one row -/
noncomputable def quatErr (euler : Quat ℝ → V3 ℝ) (truth est : Quat ℝ) : V3 ℝ :=
  fun i => euler (truth.mul est.inverse) i * 1000

/-- Errors beside the columns of a vector. -/
def paired (e c : V3 ℝ) : List (ℝ × ℝ) := [(e 0, c 0), (e 1, c 1), (e 2, c 2)]

/-- tab_gps.py:131-166 `plot_gps_nees` -/
noncomputable def gpsNees (truth est c : V3 ℝ) : Py ℝ := nees (paired (est - truth) c)

/-- tab_imu.py:349-385, tab_msckf.py:289-330, tab_fiducial.py:229-275: the pose of a sensor or a board -/
noncomputable def poseNees (euler : Quat ℝ → V3 ℝ) (truth est : V3 ℝ × Quat ℝ) (cPos cAng : V3 ℝ) : Py ℝ :=
  nees (paired (est.1 - truth.1) cPos ++ paired (quatErr euler truth.2 est.2) cAng)

/-- tab_fiducial.py:229-241: the errors of the rows of a log, which are of all boards; the truth is always that of the first
board -/
noncomputable def boardErr (truths : List (V3 ℝ)) (rows : List (Nat × V3 ℝ)) : Py (List (V3 ℝ)) :=
  match truths with
  | [] => .error .keyError
  | t :: _ => .ok (rows.map fun r => r.2 - t)

end EkfCal.Eval
