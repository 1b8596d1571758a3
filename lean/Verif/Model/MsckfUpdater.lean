import Verif.Model.Ekf
import Verif.Model.Camera
import Verif.Model.Compress

/-!
# Model of `src/ekf/update/msckf_updater.cpp`

Not modelled: log lines and the execution-time measurement.  The intrinsics stored with the camera are an argument
(`CamState` of the filter model leaves them out; nothing changes them after registration).
-/

namespace EkfCal

/-- types.hpp:279-284 `FeaturePoint`, with the pixel position of the key point -/
structure FeaturePoint (K : Type) where
  frameId : Nat
  time : K
  x : K
  y : K

/-- types.hpp:289-294 `FeatureTrack`; `truth` is unwritten (`none`) unless the simulator fills it in -/
structure FeatureTrack (K : Type) where
  track : List (FeaturePoint K)
  truth : Option (V3 K)

/-- msckf_updater.hpp:115-124: members (loggers omitted) -/
structure MsckfUpdater (K : Type) where
  id : Nat
  isCamExtrinsic : Bool
  minDist : K
  maxDist : K
  isFirst : Bool
  useTruth : Bool
  intr : Intrinsics K
  posC : V3 K
  angC : Quat K

namespace MsckfUpdater
variable {K : Type} [Field K] [LinearOrder K]

/-- msckf_updater.cpp:39-69 constructor, with the member initialisers of msckf_updater.hpp:115-124 and the default
intrinsics of types.hpp:66-74 -/
def new (id : Nat) (isExtrinsic : Bool) (minDist : K) : MsckfUpdater K :=
  { id := id, isCamExtrinsic := isExtrinsic, minDist := minDist, maxDist := 100, isFirst := true, useTruth := true
    intr := ⟨1 / 100, 1 / 100, 0, 0, 0, 0, 1920, 1080, 5 / 10 ^ 6⟩, posC := 0, angC := Quat.one }

/-- `ekf.m_state.cam_states[m_id]` as a value (msckf_updater.cpp:269-270, 282) -/
def camOf (u : MsckfUpdater K) (e : Ekf K) : CamState K := e.state.cams.getD u.id CamState.default

/-- msckf_updater.cpp:267-272: choice of the linearisation point -/
def refresh (u : MsckfUpdater K) (e : Ekf K) (intr : Intrinsics K) : MsckfUpdater K :=
  if e.useFirstEstimate = false ∨ u.isFirst = true then
    { u with intr := intr, posC := (u.camOf e).pos, angC := (u.camOf e).ang, isFirst := false }
  else u

/-- msckf_updater.cpp:104-124: contribution of one observation to the normal equations of the triangulation -/
def triangulateTerm (N : Num K) (u : MsckfUpdater K) (a0 ai : AugState K) (p : FeaturePoint K) : M3 K × V3 K :=
  let rB0L : M3 K := a0.ang.toMat
  let rCB : M3 K := u.angC.toMat
  let rBiL : M3 K := ai.ang.toMat
  let rCiC0 : M3 K := rCB.transpose * rB0L.transpose * rBiL * rCB
  let posCi : V3 K := (rCB.transpose * rB0L.transpose).mulVec
    ((rBiL.mulVec u.posC + ai.pos) - (rB0L.mulVec u.posC + a0.pos))
  let n := normalisePixel u.intr p.x p.y
  let b : V3 K := ![n 0, n 1, 1]
  let bi : V3 K := fun i => (rCiC0.mulVec b) i / norm3 N.toPrim b
  let A : M3 K := (skew bi).transpose * skew bi
  (A, A.mulVec posCi)

/-- msckf_updater.cpp:97-125: the loop of `TriangulateFeature` over the observations -/
def triangulateLoop (N : Num K) (u : MsckfUpdater K) (a0 : AugState K) :
    List (FeaturePoint K) → Ekf K → M3 K → V3 K → Res (M3 K × V3 K × Ekf K)
  | [], e, A, b => .ok (A, b, e)
  | p :: ps, e, A, b => do
    let (ai, e) ← e.getAugState N.toPrim u.id p.frameId p.time
    let t := u.triangulateTerm N a0 ai p
    triangulateLoop N u a0 ps e (A + t.1) (b + t.2)

/-- msckf_updater.cpp:71-158 `TriangulateFeature`: success, `pos_f_in_l` (if written) and the filter afterwards -/
def triangulate (N : Num K) (u : MsckfUpdater K) (e : Ekf K) (f : FeatureTrack K) :
    Res (Bool × Option (V3 K) × Ekf K) :=
  match f.track with
  | [] => .error .emptyVector                                                     -- 84: `track[0]`
  | p0 :: ps => do
    let (a0, e) ← e.getAugState N.toPrim u.id p0.frameId p0.time
    let (A, b, e) ← u.triangulateLoop N a0 (p0 :: ps) e 0 0
    let pos := N.solve A b
    if pos 2 < u.minDist ∨ u.maxDist < pos 2 then
      if u.useTruth then pure (true, f.truth, e) else pure (false, some 0, e)
    else
      let tri : V3 K := a0.ang.toMat.mulVec (u.angC.rotate pos + u.posC) + a0.pos
      if u.useTruth then pure (true, f.truth, e) else pure (true, some tri, e)

/-- A 2-row matrix where Eigen converts it to `MatrixXd`. -/
def toMat23 (m : Matrix (Fin 2) (Fin 3) K) : Mat K :=
  ⟨2, 3, fun i j => if h : i < 2 ∧ j < 3 then m ⟨i, h.1⟩ ⟨j, h.2⟩ else 0⟩

/-- `H_d * H_p * H_t` of msckf_updater.cpp:344-347 as a dynamic matrix: left three columns `a`, right three `b` -/
def cat23 (a b : Matrix (Fin 2) (Fin 3) K) : Mat K :=
  ⟨2, 6, fun i j => if j < 3 then (toMat23 a).get i j else (toMat23 b).get i (j - 3)⟩

/-- msckf_updater.cpp:312-372: residual, feature rows and state rows of observation `i` -/
def observe (N : Num K) (u : MsckfUpdater K) (stateSize camIndex i : Nat) (posF : V3 K) (a : AugState K)
    (p : FeaturePoint K) (s : Mat K × Mat K × Vec K) : Res (Mat K × Mat K × Vec K) := do
  let (Hf, Hc, res) := s
  let rCB : M3 K := u.angC.toMat
  let rBL : M3 K := a.ang.toMat
  let rBC : M3 K := rCB.transpose
  let rLC : M3 K := rBC * rBL.transpose
  let posC : V3 K := rCB.transpose.mulVec (rBL.transpose.mulVec (posF - a.pos) - u.posC)
  let meas := normalisePixel u.intr p.x p.y
  let r : V2 K := meas - project posC
  let Hp := projectionJacobian posC
  let Hd := distortionJacobian meas u.intr
  guardUB (2 * i + 2 ≤ res.size) .outOfRange
  let res : Vec K := ⟨res.size, fun k => if k = 2 * i then r 0 else if k = 2 * i + 1 then r 1 else res.get k⟩
  let Hf ← Hf.setBlock (2 * i) 0 2 3 (toMat23 (Hd * Hp * rLC))
  let Hc ← if u.isCamExtrinsic then do                                            -- 349-354
      let Hc ← Hc.setBlock (2 * i) (camIndex + 0) 2 3 (toMat23 (-Hd * Hp * rBC))
      Hc.setBlock (2 * i) (camIndex + 3) 2 3
        (toMat23 (Hd * Hp * rBC * skew (rBL.transpose.mulVec (posF - a.pos) - u.posC) * (N.quatJac u.angC).transpose))
    else pure Hc
  let Ht : Mat K := cat23 (Hd * Hp * (-rLC)) (Hd * Hp * (rLC * skew (posF - a.pos) * (N.quatJac a.ang).transpose))
  let Hc ← if a.alpha ≠ 0 then do                                                 -- 356-368
      let H0 := Ht.smul (1 - a.alpha)
      let H1 := Ht.smul a.alpha
      let Hc ← Hc.setBlock (2 * i) a.index 2 augSize H0
      if a.index + 2 * augSize > stateSize then do
        let Hc ← Hc.setBlock (2 * i) 0 2 3 (← H1.block 0 0 2 3)
        Hc.setBlock (2 * i) 9 2 3 (← H1.block 0 3 2 3)
      else Hc.setBlock (2 * i) (a.index + augSize) 2 augSize H1
    else Hc.setBlock (2 * i) a.index 2 augSize Ht                                 -- 369-372
  pure (Hf, Hc, res)

/-- msckf_updater.cpp:308-373: the loop over the observations of one feature -/
def observeLoop (N : Num K) (u : MsckfUpdater K) (stateSize camIndex : Nat) (posF : V3 K) :
    Nat → List (FeaturePoint K) → Ekf K → Mat K × Mat K × Vec K → Res (Ekf K × Mat K × Mat K × Vec K)
  | _, [], e, s => .ok (e, s)
  | i, p :: ps, e, s => do
    let (a, e) ← e.getAugState N.toPrim u.id p.frameId p.time
    let s ← u.observe N stateSize camIndex i posF a p s
    observeLoop N u stateSize camIndex posF (i + 1) ps e s

/-- msckf_updater.cpp:290-384: the loop over the features; `ct` is `ct_meas` -/
def featureLoop (N : Num K) (u : MsckfUpdater K) (stateSize camIndex : Nat) :
    List (FeatureTrack K) → Ekf K → Nat → Mat K → Vec K → Res (Ekf K × Nat × Mat K × Vec K)
  | [], e, ct, H, r => .ok (e, ct, H, r)
  | f :: fs, e, ct, H, r => do
    let (ok, posF, e) ← u.triangulate N e f
    if ok = false then featureLoop N u stateSize camIndex fs e ct H r
    else
      match posF with
      | none => .error .uninitialised
      | some posF => do
        let n := f.track.length
        let (e, Hf, Hc, res) ← u.observeLoop N stateSize camIndex posF 0 f.track e
          (Mat.zero (2 * n) 3, Mat.zero (2 * n) stateSize, ⟨2 * n, fun _ => 0⟩)
        let (Hc, res) ← applyLeftNullspace N Hf Hc res
        let H ← H.setBlock ct 0 Hc.rows Hc.cols Hc                                -- 380
        guardUB (ct + res.size ≤ r.size) .outOfRange                              -- 381
        let r : Vec K := ⟨r.size, fun k => if ct ≤ k ∧ k < ct + res.size then res.get (k - ct) else r.get k⟩
        featureLoop N u stateSize camIndex fs e (ct + Hc.rows) H r

/-- msckf_updater.cpp:274-402: `UpdateEKF` after the choice of the linearisation point, which is the one in `u` -/
def process (N : Num K) (u : MsckfUpdater K) (e : Ekf K) (fs : List (FeatureTrack K)) (pxError : K) : Res (Ekf K) := do
  let m := (fs.map fun f => 2 * f.track.length).sum                               -- 275-278
  let (e, ct, H, r) ← u.featureLoop N e.stateSize (u.camOf e).index fs e 0 (Mat.zero m e.stateSize) ⟨m, fun _ => 0⟩
  if ct = 0 then return e
  let (H, r) ← compressMeasurements N.toPrim H r
  if r.size ≤ 1 then return e
  let px := max pxError (1 / 2)
  e.kalmanUpdate N.toPrim H r ((Mat.identity r.size r.size).smul (px * px))

/-- msckf_updater.cpp:249-423 `UpdateEKF`: the updater and the filter afterwards -/
def update (N : Num K) (u : MsckfUpdater K) (e : Ekf K) (time : K) (intr : Intrinsics K) (fs : List (FeatureTrack K))
    (pxError : K) : Res (MsckfUpdater K × Ekf K) := do
  let (t, e) := e.calculateLocalTime time
  let e ← e.predict N.toPrim t
  if fs = [] then return (u, e)
  let e := (e.getCamState u.id).2                                                 -- 268: `operator[]`
  let u := u.refresh e intr
  pure (u, ← u.process N e fs pxError)

end MsckfUpdater
end EkfCal
