import Verif.Model.Base
import Mathlib.Analysis.Real.Sqrt

/-!
# Model of the evaluation scripts (`eval/utilities.py`, `eval/stats.py`), over `ℝ`

Files are tables of finite numbers: rows that `pandas` drops because a value is missing or not a number (utilities.py:195) are
not part of them.  Of `numpy` and `pandas` the documented behaviour is modelled; NaN results are an outcome of their own.
-/

namespace EkfCal.Eval
open EkfCal

/-- How a script ends early; `nan` is a result that is not a number. -/
inductive PyErr where
  | keyError
  | valueError
  | nan
  deriving DecidableEq

abbrev Py := Except PyErr

/-- A table as `pandas.read_csv` gives it: named columns. -/
structure Frame where
  cols : List (String × List ℝ)

/-- `frame[name].to_list()` -/
def Frame.col (f : Frame) (name : String) : Py (List ℝ) :=
  match f.cols.lookup name with
  | none => .error .keyError
  | some c => .ok c

/-- The files of a directory by name. -/
abbrev Dir := List (String × Frame)

/-- utilities.py:187-204 `find_and_read_data_frames`: the entry of the result for one id, which is read from the file name; the
pattern `_[0-9].csv` matches a single digit -/
def readFrames (dirs : List Dir) (pre : String) (id : Nat) : List Frame :=
  dirs.flatMap fun d =>
    (if id = 0 then (d.lookup (pre ++ ".csv")).toList else []) ++
      (if id < 10 then (d.lookup (pre ++ "_" ++ toString id ++ ".csv")).toList else [])

/-- `np.interp(x, xp, fp)` (NumPy) for increasing `xp`: constant outside the points, linear between them -/
noncomputable def npInterp (x : ℝ) : List (ℝ × ℝ) → Py ℝ
  | [] => .error .valueError
  | [(_, f)] => .ok f
  | (t0, f0) :: (t1, f1) :: rest =>
    if x < t0 then .ok f0
    else if x < t1 then .ok ((f1 - f0) / (t1 - t0) * (x - t0) + f0)
    else npInterp x ((t1, f1) :: rest)

/-- utilities.py:45-49 `interpolate_error`; NumPy refuses truth lists of different lengths -/
noncomputable def interpolateError (trueT trueX estT estX : List ℝ) : Py (List ℝ) := do
  if trueT.length ≠ trueX.length then .error .valueError
  let interp ← estT.mapM fun t => npInterp t (trueT.zip trueX)
  pure (List.zipWith (fun e i => e - i) estX interp)

/-- `np.mean` (NumPy) -/
noncomputable def npMean (l : List ℝ) : Py ℝ := if l = [] then .error .nan else .ok (l.sum / l.length)

/-- `np.std` (NumPy) -/
noncomputable def npStd (l : List ℝ) : Py ℝ := do
  let m ← npMean l
  let v ← npMean (l.map fun x => (x - m) ^ 2)
  pure (Real.sqrt v)

/-- stats.py:39-45 `RMSE_from_vectors`; lists of different lengths do not occur (columns of one table) and are refused here -/
noncomputable def rmse (xs ys zs : List ℝ) : Py ℝ := do
  if xs.length ≠ ys.length ∨ xs.length ≠ zs.length then .error .valueError
  let m ← npMean ((xs.zip (ys.zip zs)).map fun p => p.1 * p.1 + p.2.1 * p.2.1 + p.2.2 * p.2.2)
  pure (Real.sqrt m)

/-- The loop body common to stats.py:51-65, 72-86, 93-107, 115-131, 138-152, 159-173, 188-203, 210-225 and 232-247; the names of
the three columns of the truth and of the estimate -/
noncomputable def columnsErr (truthCol estCol : Fin 3 → String) (est truth : Frame) : Py ℝ := do
  let tt ← truth.col "time"
  let t0 ← truth.col (truthCol 0)
  let t1 ← truth.col (truthCol 1)
  let t2 ← truth.col (truthCol 2)
  let et ← est.col "time"
  let e0 ← est.col (estCol 0)
  let e1 ← est.col (estCol 1)
  let e2 ← est.col (estCol 2)
  rmse (← interpolateError tt t0 et e0) (← interpolateError tt t1 et e1) (← interpolateError tt t2 et e2)

/-- The column `name_i`. -/
def indexed (name : String) (i : Fin 3) : String := name ++ "_" ++ toString (i : Nat)

/-- stats.py:48-174: `body_err_pos`, `body_err_vel`, `body_err_acc`, `body_err_ang_pos`, `body_err_ang_vel` and
`body_err_ang_acc`, for `name` among `body_pos`, `body_vel`, `body_acc`, `body_ang_pos`, `body_ang_vel` and `body_ang_acc` -/
noncomputable def bodyErr (name : String) (ests truths : List Frame) : Py (List ℝ) :=
  (ests.zip truths).mapM fun p => columnsErr (indexed name) (indexed name) p.1 p.2

/-- stats.py:185-248: `sensor_err_pos`, `sensor_err_ang` and `imu_err_bias`, for `name` among `<prefix>_pos`,
`<prefix>_ang_pos` and `imu_<type>_bias`, and the id of the file -/
noncomputable def sensorErr (name : String) (id : Nat) (ests truths : List Frame) : Py (List ℝ) :=
  (ests.zip truths).mapM fun p => columnsErr (indexed (name ++ "_" ++ toString id)) (indexed name) p.1 p.2

/-- `list[i]`, for a row that exists -/
def item (l : List ℝ) (i : Nat) : Py ℝ :=
  match l[i]? with
  | none => .error .keyError
  | some x => .ok x

/-- stats.py:268-269 and 287-288: the row behind the first one with the flag, if there is one -/
noncomputable def initRow (flags : List ℝ) : Option Nat :=
  match flags.findIdx? (fun x => decide (x ≠ 0)) with
  | none => none
  | some i => if i + 1 < flags.length then some (i + 1) else none

/-- stats.py:263-277: one turn of the loop of `gps_err_pos` -/
noncomputable def gpsErrPos1 (gps truth : Frame) : Py (Option ℝ) := do
  let lat ← item (← truth.col "ref_lat") 0
  let lon ← item (← truth.col "ref_lon") 0
  let alt ← item (← truth.col "ref_alt") 0
  match initRow (← gps.col "is_initialized") with
  | none => pure none
  | some k =>
    let elat ← item (← gps.col "ref_lat") k
    let elon ← item (← gps.col "ref_lon") k
    let ealt ← item (← gps.col "ref_alt") k
    let r ← rmse [elat - lat] [elon - lon] [ealt - alt]
    pure (some r)

/-- stats.py:260-278 `gps_err_pos` -/
noncomputable def gpsErrPos (gpss truths : List Frame) : Py (List ℝ) := do
  let l ← (gpss.zip truths).mapM fun p => gpsErrPos1 p.1 p.2
  pure (l.filterMap id)

/-- stats.py:284-290: one turn of the loop of `gps_err_ang` -/
noncomputable def gpsErrAng1 (gps truth : Frame) : Py (Option ℝ) := do
  let hdg ← item (← truth.col "ref_heading") 0
  match initRow (← gps.col "is_initialized") with
  | none => pure none
  | some k =>
    let ehdg ← item (← gps.col "ref_heading") k
    pure (some (ehdg - hdg))

/-- stats.py:281-292 `gps_err_ang` -/
noncomputable def gpsErrAng (gpss truths : List Frame) : Py (List ℝ) := do
  let l ← (gpss.zip truths).mapM fun p => gpsErrAng1 p.1 p.2
  pure (l.filterMap id)

/-- stats.py:303-312 `write_summary`: the two numbers of a line, before they are rounded to four decimals -/
noncomputable def summary (vals : List ℝ) : Py (ℝ × ℝ) := do
  let mu ← npMean vals
  let sig ← npStd vals
  pure (mu, sig)

/-- stats.py:327-337: the entry of `calc_sim_stats` for one quantity of the body; files without an id have the key 0 -/
noncomputable def bodyStat (dirs : List Dir) (name : String) : Py (List ℝ) :=
  bodyErr name (readFrames dirs "body_state" 0) (readFrames dirs "body_truth" 0)

/-- stats.py:340-354: the entry for one quantity of the sensor with an id; `pre` is `imu` or `msckf` -/
noncomputable def sensorStat (dirs : List Dir) (pre name : String) (id : Nat) : Py (List ℝ) :=
  sensorErr name id (readFrames dirs pre id) (readFrames dirs "body_truth" 0)

/-- stats.py:363-367: the entries for the receiver with an id -/
noncomputable def gpsStat (dirs : List Dir) (id : Nat) : Py (List ℝ × List ℝ) := do
  let pos ← gpsErrPos (readFrames dirs "gps" id) (readFrames dirs "body_truth" 0)
  let ang ← gpsErrAng (readFrames dirs "gps" id) (readFrames dirs "body_truth" 0)
  pure (pos, ang)

end EkfCal.Eval
