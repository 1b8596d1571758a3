import Verif.Lemmas.Turn
import Verif.Props.C42
import Verif.Props.C59
import Verif.Props.C53

/-!
# C61 — the orientation columns are the derivatives with respect to the correction that is applied

A correction `d` turns an orientation `q` into `q · RotVecToQuat(d)` (`C21`), that is `q.turn d` (`C61_turn`).  So the
columns of an orientation should be the derivative of the prediction at `d = 0` when `q.turn d` is put for `q`.
-/

set_option linter.unusedSectionVars false

namespace EkfCal
open Ekf CamRowsSample

/-- Above the threshold of `RotVecToQuat` the correction of an orientation is the turn. -/
theorem C61_turn (q : Quat ℝ) (d : V3 ℝ) (h : 1 / 10 ^ 9 < V3.norm d) : q.mul (rotVecToQuat d) = q.turn d := by
  rw [Quat.turn, expQuat_large h]

theorem expQuat_zero : expQuat 0 = Quat.one := by
  have h : V3.norm (0 : V3 ℝ) = 0 := norm_eq_zero_iff.2 rfl
  simp [expQuat, h, Quat.one]

theorem Quat.turn_zero (q : Quat ℝ) : q.turn 0 = q := by
  rw [Quat.turn, expQuat_zero]
  simp [Quat.mul, Quat.one]

theorem transpose_mul_cancel {q : Quat ℝ} (h : q.normSq = 1) {A B : M3 ℝ} : q.toMat.transpose * A = q.toMat.transpose * B ↔ A = B := by
  refine ⟨fun he => ?_, fun he => by rw [he]⟩
  have h1 : q.toMat * q.toMat.transpose = 1 := mul_eq_one_comm.1 (toMat_orthogonal h)
  have := congrArg (fun X => q.toMat * X) he
  simpa only [← Matrix.mul_assoc, h1, Matrix.one_mul] using this

theorem mul_cancel {q : Quat ℝ} (h : q.normSq = 1) {A B : M3 ℝ} : q.toMat * A = q.toMat * B ↔ A = B := by
  refine ⟨fun he => ?_, fun he => by rw [he]⟩
  have := congrArg (fun X => q.toMat.transpose * X) he
  simpa only [← Matrix.mul_assoc, toMat_orthogonal h, Matrix.one_mul] using this

/-- How the derivative with respect to a turn compares with one multiplied by the rotation Jacobian. -/
theorem isJacobian_iff_eq {n m : Nat} {f : (Fin n → ℝ) → Fin m → ℝ} {x : Fin n → ℝ} {A B : Matrix (Fin m) (Fin n) ℝ}
    (hf : IsJacobian f x A) : IsJacobian f x B ↔ B = A :=
  ⟨fun h => h.unique hf, fun h => h ▸ hf⟩

/-! ## GPS -/

/-- GPS: the columns of the body orientation are right exactly when the antenna is at the origin of the body frame or the
body is not turned.  Otherwise they are the derivative multiplied by a Jacobian that does not belong there. -/
theorem C61_gps_iff (N : Num ℝ) (hN : N.quatJac = quatJacobian) (u u' : GpsUpdater ℝ) (e : Ekf ℝ) (s : GpsState ℝ) (J : Mat ℝ)
    (h : u.measurementJacobian N e = .ok (J, u')) (hf : e.useFirstEstimate = false)
    (hs : e.state.gpss.find? u.id = some s) (hflag : u.isExtrinsic = s.isExtrinsic)
    (hT : Tiles e.state.blocks 0 e.stateSize) (hq : e.state.body.ang.normSq = 1) :
    IsJacobian (fun d => (u.predictMeasurement (e.withBody { e.state.body with ang := e.state.body.ang.turn d })).1) 0 (J.block3 0 9) ↔
      s.pos = 0 ∨ quatToRotVec e.state.body.ang = 0 := by
  have hg : u.gpsOf e = s := by simp [GpsUpdater.gpsOf, UMap.getD, hs]
  have hr : u.refresh e = { u with posAInB := s.pos, isFirst := false } := by
    simp [GpsUpdater.refresh, hf, hg]
  have hg' : ({ u with posAInB := s.pos, isFirst := false } : GpsUpdater ℝ).gpsOf e = s := hg
  have hcol := gps_columns hT hs
  simp only [GpsUpdater.measurementJacobian, bind_ok_iff, pure_res, Except.ok.injEq, Prod.mk.injEq] at h
  obtain ⟨J', h, rfl, rfl⟩ := h
  rw [hr] at h
  simp only [GpsUpdater.jacobianOf, bind_ok_iff, hg'] at h
  obtain ⟨J1, h1, J2, h2, h⟩ := h
  have hb : J'.block3 0 9 = -e.state.body.ang.toMat * skew s.pos * quatJacobian e.state.body.ang := by
    cases hx : s.isExtrinsic with
    | false =>
      rw [hflag, hx] at h
      simp only [Bool.false_eq_true, if_false, pure_res, Except.ok.injEq] at h
      subst h
      rw [block3_same h2, hN]
    | true =>
      have hcol := hcol hx
      rw [hflag, hx] at h
      simp only [if_true] at h
      rw [block3_ne h (by omega), block3_same h2, hN]
  have p1 : ∀ d, (u.predictMeasurement (e.withBody { e.state.body with ang := e.state.body.ang.turn d })).1 =
      e.state.body.pos + (e.state.body.ang.turn d).toMat.mulVec s.pos := by
    intro d
    have : u.refresh (e.withBody { e.state.body with ang := e.state.body.ang.turn d }) = { u with posAInB := s.pos, isFirst := false } := by
      rw [← hr]; rfl
    rw [← Quat.rotate_eq_mulVec]
    simp only [GpsUpdater.predictMeasurement, this]; rfl
  have d1 : IsJacobian (fun d => e.state.body.pos + (e.state.body.ang.turn d).toMat.mulVec s.pos) 0 (-(e.state.body.ang.toMat * skew s.pos)) :=
    ((isJacobian_const _ _).add (isJacobian_turn hq s.pos)).congr (zero_add _)
  simp only [p1]
  rw [isJacobian_iff_eq d1, hb, Matrix.neg_mul, mul_quatJacobian, ← Matrix.neg_mul, Matrix.mul_assoc, Matrix.neg_mul, neg_eq_zero]
  rw [show (0 : M3 ℝ) = e.state.body.ang.toMat * 0 by rw [Matrix.mul_zero], mul_cancel hq, skew_mul_skew]

/-! ## Fiducial markers -/

/-- The blocks of the fiducial Jacobian at the orientations of body and camera. -/
theorem fiducial_turn_blocks (N : Num ℝ) (u : FidUpdater ℝ) (e : Ekf ℝ) (s : CamState ℝ) (f : FidState ℝ) (J : Mat ℝ)
    (h : (u.refresh e f).jacobianOf N e f = .ok J) (hf : e.useFirstEstimate = false)
    (hs : e.state.cams.find? u.cameraId = some s) (hm : e.state.fids.find? u.id = some f)
    (hflag : u.isCamExtrinsic = s.isExtrinsic) (hflag' : u.isFidExtrinsic = f.isExtrinsic)
    (hT : Tiles e.state.blocks 0 e.stateSize) :
    J.block3 0 9 = s.ang.toMat.transpose * e.state.body.ang.toMat.transpose * skew (f.pos - e.state.body.pos) *
      (N.quatJac e.state.body.ang).transpose ∧
    J.block3 3 9 = -(s.ang.toMat.transpose * e.state.body.ang.toMat.transpose) * f.ang.toMat * (N.quatJac e.state.body.ang).transpose ∧
    (s.isExtrinsic = true → J.block3 0 (s.index + 3) = s.ang.toMat.transpose *
      skew (e.state.body.ang.toMat.transpose.mulVec (f.pos - e.state.body.pos) - s.pos) * (N.quatJac s.ang).transpose ∧
      J.block3 3 (s.index + 3) = -s.ang.toMat.transpose * (N.quatJac s.ang).transpose * e.state.body.ang.toMat.transpose * f.ang.toMat) ∧
    (f.isExtrinsic = true → J.block3 0 (f.index + 3) = 0 ∧ J.block3 3 (f.index + 3) = 1) := by
  have hg : u.camOf e = s := by simp [FidUpdater.camOf, UMap.getD, hs]
  have hr : u.refresh e f = { u with posC := s.pos, angC := s.ang, posF := f.pos, angF := f.ang, isFirst := false } := by
    simp [FidUpdater.refresh, hf, hg]
  have hg' : ({ u with posC := s.pos, angC := s.ang, posF := f.pos, angF := f.ang, isFirst := false } : FidUpdater ℝ).camOf e = s := hg
  obtain ⟨cc, cf, cd⟩ := cam_fid_columns hT hs hm
  rw [hr] at h
  simp only [FidUpdater.jacobianOf, bind_ok_iff, hg'] at h
  obtain ⟨J1, h1, J2, h2, J3, h3, h4⟩ := h
  have b1 : J3.block3 0 9 = s.ang.toMat.transpose * e.state.body.ang.toMat.transpose * skew (f.pos - e.state.body.pos) *
      (N.quatJac e.state.body.ang).transpose := by
    rw [block3_ne h3 (by omega), block3_same h2]
  have b2 := block3_same h3
  have bz : ∀ r c, 12 ≤ c → J3.block3 r c = 0 := fun r c hc => by
    rw [block3_ne h3 (by omega), block3_ne h2 (by omega), block3_ne h1 (by omega)]; rfl
  obtain ⟨J4, k, h5⟩ : ∃ J4 : Mat ℝ,
      (J4.block3 0 9 = s.ang.toMat.transpose * e.state.body.ang.toMat.transpose * skew (f.pos - e.state.body.pos) *
        (N.quatJac e.state.body.ang).transpose ∧
      J4.block3 3 9 = -(s.ang.toMat.transpose * e.state.body.ang.toMat.transpose) * f.ang.toMat * (N.quatJac e.state.body.ang).transpose ∧
      (s.isExtrinsic = true → J4.block3 0 (s.index + 3) = s.ang.toMat.transpose *
        skew (e.state.body.ang.toMat.transpose.mulVec (f.pos - e.state.body.pos) - s.pos) * (N.quatJac s.ang).transpose ∧
        J4.block3 3 (s.index + 3) = -s.ang.toMat.transpose * (N.quatJac s.ang).transpose * e.state.body.ang.toMat.transpose * f.ang.toMat) ∧
      (f.isExtrinsic = true → J4.block3 0 (f.index + 3) = 0)) ∧
      (if u.isFidExtrinsic = true then do
        let jac ← J4.setBlock 0 (f.index + 0) 3 3 (M3.toMat 1)
        jac.setBlock 3 (f.index + 3) 3 3 (M3.toMat 1)
      else pure J4) = .ok J := by
    cases hx : s.isExtrinsic with
    | false =>
      rw [hflag, hx] at h4
      simp only [Bool.false_eq_true, if_false] at h4
      exact ⟨J3, ⟨b1, b2, by simp, fun hfe => bz _ _ (by have := cf hfe; omega)⟩, h4⟩
    | true =>
      have cc := cc hx
      rw [hflag, hx] at h4
      simp only [if_true, bind_ok_iff] at h4
      obtain ⟨J5, g1, J6, g2, J4, g3, h5⟩ := h4
      rw [Nat.add_zero] at g1
      refine ⟨J4, ⟨?_, ?_, fun _ => ⟨?_, ?_⟩, fun hfe => ?_⟩, h5⟩
      · rw [block3_ne g3 (by omega), block3_ne g2 (by omega), block3_ne g1 (by omega), b1]
      · rw [block3_ne g3 (by omega), block3_ne g2 (by omega), block3_ne g1 (by omega), b2]
      · rw [block3_ne g3 (by omega), block3_same g2]
      · rw [block3_same g3]
      · have := cf hfe
        have := cd hx hfe
        rw [block3_ne g3 (by omega), block3_ne g2 (by omega), block3_ne g1 (by omega), bz _ _ (by omega)]
  clear h4 b1 b2 bz h1 h2 h3
  obtain ⟨k1, k2, k3, k4⟩ := k
  cases hx : f.isExtrinsic with
  | false =>
    rw [hflag', hx] at h5
    simp only [Bool.false_eq_true, if_false, pure_res, Except.ok.injEq] at h5
    subst h5
    exact ⟨k1, k2, k3, by simp⟩
  | true =>
    have cf := cf hx
    rw [hflag', hx] at h5
    simp only [if_true, bind_ok_iff, Nat.add_zero] at h5
    obtain ⟨J7, g1, g2⟩ := h5
    refine ⟨?_, ?_, fun he => ?_, fun _ => ⟨?_, block3_same g2⟩⟩
    · rw [block3_ne g2 (by omega), block3_ne g1 (by omega), k1]
    · rw [block3_ne g2 (by omega), block3_ne g1 (by omega), k2]
    · have := cd he hx
      refine ⟨?_, ?_⟩
      · rw [block3_ne g2 (by omega), block3_ne g1 (by omega), (k3 he).1]
      · rw [block3_ne g2 (by omega), block3_ne g1 (by omega), (k3 he).2]
    · rw [block3_ne g2 (by omega), block3_ne g1 (by omega), k4 hx]

/-- Fiducial markers: where the marker is seen.  The columns of the body orientation are right exactly when the marker is at
the origin of the body frame or the body is not turned. -/
theorem C61_fiducial_body_iff (N : Num ℝ) (hN : N.quatJac = quatJacobian) (u : FidUpdater ℝ) (e : Ekf ℝ) (s : CamState ℝ) (f : FidState ℝ)
    (J : Mat ℝ) (h : (u.refresh e f).jacobianOf N e f = .ok J) (hf : e.useFirstEstimate = false)
    (hs : e.state.cams.find? u.cameraId = some s) (hm : e.state.fids.find? u.id = some f)
    (hflag : u.isCamExtrinsic = s.isExtrinsic) (hflag' : u.isFidExtrinsic = f.isExtrinsic)
    (hT : Tiles e.state.blocks 0 e.stateSize) (hq : e.state.body.ang.normSq = 1) (hc : s.ang.normSq = 1)
    (hv : quatToRotVec e.state.body.ang = 0 ∨ 1 / 10 ^ 9 ≤ V3.norm (quatToRotVec e.state.body.ang)) :
    IsJacobian (fun d => (u.pred N (e.withBody { e.state.body with ang := e.state.body.ang.turn d }) f).1) 0 (J.block3 0 9) ↔
      f.pos = e.state.body.pos ∨ quatToRotVec e.state.body.ang = 0 := by
  have hb := (fiducial_turn_blocks N u e s f J h hf hs hm hflag hflag' hT).1
  have hg : u.camOf e = s := by simp [FidUpdater.camOf, UMap.getD, hs]
  have hr : u.refresh e f = { u with posC := s.pos, angC := s.ang, posF := f.pos, angF := f.ang, isFirst := false } := by
    simp [FidUpdater.refresh, hf, hg]
  have p1 : ∀ d, (u.pred N (e.withBody { e.state.body with ang := e.state.body.ang.turn d }) f).1 =
      s.ang.toMat.transpose.mulVec ((e.state.body.ang.turn d).toMat.transpose.mulVec (f.pos - e.state.body.pos) - s.pos) := by
    intro d
    have : u.refresh (e.withBody { e.state.body with ang := e.state.body.ang.turn d }) f =
        { u with posC := s.pos, angC := s.ang, posF := f.pos, angF := f.ang, isFirst := false } := by
      rw [← hr]; rfl
    simp only [FidUpdater.pred, FidUpdater.predictOf, this]; rfl
  have d1 := (((isJacobian_turn_transpose hq (f.pos - e.state.body.pos)).sub (isJacobian_const s.pos _)).mulLeft s.ang.toMat.transpose).congr
    (by rw [sub_zero])
  simp only [p1]
  rw [isJacobian_iff_eq d1, hb, hN, quatJacobian_transpose hq hv, Matrix.mul_assoc s.ang.toMat.transpose, transpose_skew hq,
    Matrix.mul_assoc s.ang.toMat.transpose, transpose_mul_cancel hc, Matrix.mul_assoc, ← Matrix.mul_assoc e.state.body.ang.toMat.transpose,
    toMat_orthogonal hq, Matrix.one_mul, mul_quatJacobian, skew_mul_skew]
  have : e.state.body.ang.toMat.transpose.mulVec (f.pos - e.state.body.pos) = 0 ↔ f.pos = e.state.body.pos := by
    constructor
    · intro h0
      have := congrArg (fun x => e.state.body.ang.toMat.mulVec x) h0
      simp only [Matrix.mulVec_mulVec, mul_eq_one_comm.1 (toMat_orthogonal hq), Matrix.one_mulVec, Matrix.mulVec_zero] at this
      exact sub_eq_zero.1 this
    · intro h0; rw [h0, sub_self, Matrix.mulVec_zero]
  rw [this]

/-- Fiducial markers: where the marker is seen.  The columns of the camera orientation are right exactly when the marker is at
the camera's centre or the camera is not turned against the body. -/
theorem C61_fiducial_camera_iff (N : Num ℝ) (hN : N.quatJac = quatJacobian) (u : FidUpdater ℝ) (e : Ekf ℝ) (s : CamState ℝ) (f : FidState ℝ)
    (J : Mat ℝ) (h : (u.refresh e f).jacobianOf N e f = .ok J) (hf : e.useFirstEstimate = false)
    (hs : e.state.cams.find? u.cameraId = some s) (hm : e.state.fids.find? u.id = some f)
    (hflag : u.isCamExtrinsic = s.isExtrinsic) (hflag' : u.isFidExtrinsic = f.isExtrinsic)
    (hT : Tiles e.state.blocks 0 e.stateSize) (hx : s.isExtrinsic = true) (hc : s.ang.normSq = 1)
    (hv : quatToRotVec s.ang = 0 ∨ 1 / 10 ^ 9 ≤ V3.norm (quatToRotVec s.ang)) :
    IsJacobian (fun d => (u.pred N (e.withCam u.cameraId { s with ang := s.ang.turn d }) f).1) 0 (J.block3 0 (s.index + 3)) ↔
      (u.pred N e f).1 = 0 ∨ quatToRotVec s.ang = 0 := by
  have hb := ((fiducial_turn_blocks N u e s f J h hf hs hm hflag hflag' hT).2.2.1 hx).1
  have hg : u.camOf e = s := by simp [FidUpdater.camOf, UMap.getD, hs]
  have hr : u.refresh e f = { u with posC := s.pos, angC := s.ang, posF := f.pos, angF := f.ang, isFirst := false } := by
    simp [FidUpdater.refresh, hf, hg]
  have p0 : (u.pred N e f).1 = s.ang.toMat.transpose.mulVec (e.state.body.ang.toMat.transpose.mulVec (f.pos - e.state.body.pos) - s.pos) := by
    simp only [FidUpdater.pred, FidUpdater.predictOf, hr]
  have p1 : ∀ d, (u.pred N (e.withCam u.cameraId { s with ang := s.ang.turn d }) f).1 =
      (s.ang.turn d).toMat.transpose.mulVec (e.state.body.ang.toMat.transpose.mulVec (f.pos - e.state.body.pos) - s.pos) := by
    intro d
    have : u.refresh (e.withCam u.cameraId { s with ang := s.ang.turn d }) f =
        { u with posC := s.pos, angC := s.ang.turn d, posF := f.pos, angF := f.ang, isFirst := false } := by
      simp [FidUpdater.refresh, hf, FidUpdater.camOf, Ekf.withCam]
    simp only [FidUpdater.pred, FidUpdater.predictOf, this]; rfl
  have d1 := isJacobian_turn_transpose hc (e.state.body.ang.toMat.transpose.mulVec (f.pos - e.state.body.pos) - s.pos)
  simp only [p1]
  rw [isJacobian_iff_eq d1, hb, hN, quatJacobian_transpose hc hv, transpose_skew hc, Matrix.mul_assoc, ← Matrix.mul_assoc s.ang.toMat.transpose,
    toMat_orthogonal hc, Matrix.one_mul, mul_quatJacobian, skew_mul_skew, p0]

/-! ## IMU at rest -/

theorem gravityInImu_eq (u : ImuUpdater) (e : Ekf ℝ) (s : ImuState ℝ) (hs : u.imuOf e = s) (hq : e.state.body.ang.normSq = 1)
    (hi : s.ang.normSq = 1) : u.gravityInImu e = s.ang.toMat.transpose.mulVec (e.state.body.ang.toMat.transpose.mulVec gravity) := by
  rw [ImuUpdater.gravityInImu, hs, Quat.mul_rotate (Quat.inverse_unit hi) (Quat.inverse_unit hq), Quat.rotate_eq_mulVec, Quat.rotate_eq_mulVec,
    Quat.toMat_inverse hi, Quat.toMat_inverse hq]

theorem gravity_ne : (gravity : V3 ℝ) ≠ 0 := fun h => by
  have := congrFun h 2
  simp [gravity, Matrix.cons_val] at this

theorem transpose_mulVec_eq_zero {q : Quat ℝ} (h : q.normSq = 1) {v : V3 ℝ} : q.toMat.transpose.mulVec v = 0 ↔ v = 0 := by
  constructor
  · intro h0
    have := congrArg (fun x => q.toMat.mulVec x) h0
    simpa only [Matrix.mulVec_mulVec, mul_eq_one_comm.1 (toMat_orthogonal h), Matrix.one_mulVec, Matrix.mulVec_zero] using this
  · intro h0; rw [h0, Matrix.mulVec_zero]

/-- The blocks of the Jacobian at rest. -/
theorem rest_blocks (N : Num ℝ) (u : ImuUpdater) (e : Ekf ℝ) (s : ImuState ℝ) (J : Mat ℝ) (h : u.zeroAccJacobian N e = .ok J)
    (hs : e.state.imus.find? u.id = some s) (hE : u.isExtrinsic = s.isExtrinsic) (hI : u.isIntrinsic = s.isIntrinsic)
    (hT : Tiles e.state.blocks 0 e.stateSize) :
    J.block3 0 9 = -skew (u.gravityInImu e) * (N.quatJac e.state.body.ang).transpose ∧
    (s.isExtrinsic = true → J.block3 0 s.indexExtrinsic = -skew (u.gravityInImu e) ∧ J.block3 0 (s.indexExtrinsic + 3) = 0) := by
  have hg : u.imuOf e = s := by simp [ImuUpdater.imuOf, UMap.getD, hs]
  obtain ⟨ce, ci, cd⟩ := imu_columns hT hs
  simp only [ImuUpdater.zeroAccJacobian, bind_ok_iff, hg, Nat.add_zero, hE, hI] at h
  obtain ⟨J1, h1, h⟩ := h
  obtain ⟨J2, h2, h3⟩ : ∃ J2, (if s.isExtrinsic = true then J1.setBlock 0 s.indexExtrinsic 3 3 (M3.toMat (-skew (u.gravityInImu e)))
      else pure J1) = .ok J2 ∧ (if s.isIntrinsic = true then do
        let jac ← J2.setBlock 0 s.indexIntrinsic 3 3 (M3.toMat (-1))
        jac.setBlock 3 (s.indexIntrinsic + 3) 3 3 (M3.toMat (-1))
      else pure J2) = .ok J := by
    cases hx : s.isExtrinsic with
    | false =>
      rw [hx] at h
      exact ⟨J1, rfl, h⟩
    | true =>
      rw [hx] at h
      obtain ⟨J2, h2, h3⟩ := bind_ok_iff.1 h
      exact ⟨J2, h2, h3⟩
  have b1 := block3_same h1
  obtain ⟨k1, k2⟩ : J2.block3 0 9 = -skew (u.gravityInImu e) * (N.quatJac e.state.body.ang).transpose ∧
      (s.isExtrinsic = true → J2.block3 0 s.indexExtrinsic = -skew (u.gravityInImu e) ∧ J2.block3 0 (s.indexExtrinsic + 3) = 0) := by
    cases hx : s.isExtrinsic with
    | false =>
      rw [hx] at h2
      simp only [Bool.false_eq_true, if_false, pure_res, Except.ok.injEq] at h2
      subst h2
      exact ⟨b1, by simp⟩
    | true =>
      have ce := ce hx
      rw [hx] at h2
      simp only [if_true] at h2
      refine ⟨by rw [block3_ne h2 (by omega), b1], fun _ => ⟨block3_same h2, ?_⟩⟩
      rw [block3_ne h2 (by omega), block3_ne h1 (by omega)]; rfl
  cases hx : s.isIntrinsic with
  | false =>
    rw [hx] at h3
    simp only [Bool.false_eq_true, if_false, pure_res, Except.ok.injEq] at h3
    subst h3
    exact ⟨k1, k2⟩
  | true =>
    have ci := ci hx
    rw [hx] at h3
    simp only [if_true, bind_ok_iff] at h3
    obtain ⟨J4, g1, g2⟩ := h3
    refine ⟨by rw [block3_ne g2 (by omega), block3_ne g1 (by omega), k1], fun he => ?_⟩
    have := cd he hx
    obtain ⟨q1, q2⟩ := k2 he
    exact ⟨by rw [block3_ne g2 (by omega), block3_ne g1 (by omega), q1], by rw [block3_ne g2 (by omega), block3_ne g1 (by omega), q2]⟩

/-- The first three entries of the residual at rest. -/
theorem rest_residual (u : ImuUpdater) (e : Ekf ℝ) (acc omg : V3 ℝ) :
    (u.zeroAccResidual e acc omg).part3 0 = -(acc - (u.imuOf e).accBias - u.gravityInImu e) := by
  funext i
  have hi := i.2
  unfold ImuUpdater.zeroAccResidual
  dsimp only
  split <;> simp [Vec.part3, Vec.of6, Vec.of3]

/-- IMU at rest, mounted without a turn: the residual falls as the columns of the body orientation say exactly when the body
is not turned either. -/
theorem C61_rest_iff (N : Num ℝ) (hN : N.quatJac = quatJacobian) (u : ImuUpdater) (e : Ekf ℝ) (s : ImuState ℝ) (J : Mat ℝ) (acc omg : V3 ℝ)
    (h : u.zeroAccJacobian N e = .ok J) (hs : e.state.imus.find? u.id = some s) (hE : u.isExtrinsic = s.isExtrinsic)
    (hI : u.isIntrinsic = s.isIntrinsic) (hT : Tiles e.state.blocks 0 e.stateSize) (hq : e.state.body.ang.normSq = 1)
    (hi : s.ang.normSq = 1) (hi0 : quatToRotVec s.ang = 0) :
    IsJacobian (fun d => (u.zeroAccResidual (e.withBody { e.state.body with ang := e.state.body.ang.turn d }) acc omg).part3 0) 0
      (-J.block3 0 9) ↔ quatToRotVec e.state.body.ang = 0 := by
  have hg : u.imuOf e = s := by simp [ImuUpdater.imuOf, UMap.getD, hs]
  have hone := toMat_of_rotVec_zero hi hi0
  have p1 : ∀ d, (u.zeroAccResidual (e.withBody { e.state.body with ang := e.state.body.ang.turn d }) acc omg).part3 0 =
      (e.state.body.ang.turn d).toMat.transpose.mulVec gravity - (acc - s.accBias) := by
    intro d
    have hg' : u.imuOf (e.withBody { e.state.body with ang := e.state.body.ang.turn d }) = s := hg
    rw [rest_residual, gravityInImu_eq u _ s hg' (Quat.turn_unit hq d) hi, hg', hone, Matrix.transpose_one, Matrix.one_mulVec, neg_sub]
    rfl
  have d1 := ((isJacobian_turn_transpose hq gravity).sub (isJacobian_const (acc - s.accBias) _)).congr (sub_zero _)
  simp only [p1]
  rw [isJacobian_iff_eq d1, (rest_blocks N u e s J h hs hE hI hT).1, gravityInImu_eq u e s hg hq hi, hone, Matrix.transpose_one,
    Matrix.one_mulVec, hN, Matrix.neg_mul, neg_neg, mul_quatJacobian_transpose, skew_mul_skew, transpose_mulVec_eq_zero hq]
  exact or_iff_right gravity_ne

/-- **Violated for every IMU whose mounting is estimated**: at rest, the columns of the mounting orientation are zero although
the residual depends on it, and the columns of the mounting position are not, although the residual does not depend on it. -/
theorem C61_rest_mounting_violated (N : Num ℝ) (u : ImuUpdater) (e : Ekf ℝ) (s : ImuState ℝ) (J : Mat ℝ) (acc omg : V3 ℝ)
    (h : u.zeroAccJacobian N e = .ok J) (hs : e.state.imus.find? u.id = some s) (hE : u.isExtrinsic = s.isExtrinsic)
    (hI : u.isIntrinsic = s.isIntrinsic) (hT : Tiles e.state.blocks 0 e.stateSize) (hq : e.state.body.ang.normSq = 1)
    (hi : s.ang.normSq = 1) (hx : s.isExtrinsic = true) :
    ¬ IsJacobian (fun d => (u.zeroAccResidual (e.withImu u.id { s with ang := s.ang.turn d }) acc omg).part3 0) 0
      (-J.block3 0 (s.indexExtrinsic + 3)) ∧
    ¬ IsJacobian (fun x => (u.zeroAccResidual (e.withImu u.id { s with pos := x }) acc omg).part3 0) s.pos (-J.block3 0 s.indexExtrinsic) := by
  have hg : u.imuOf e = s := by simp [ImuUpdater.imuOf, UMap.getD, hs]
  obtain ⟨b1, b2⟩ := (rest_blocks N u e s J h hs hE hI hT).2 hx
  have hgz : u.gravityInImu e ≠ 0 := by
    rw [gravityInImu_eq u e s hg hq hi]
    intro h0
    exact gravity_ne ((transpose_mulVec_eq_zero hq).1 ((transpose_mulVec_eq_zero hi).1 h0))
  constructor
  · have p1 : ∀ d, (u.zeroAccResidual (e.withImu u.id { s with ang := s.ang.turn d }) acc omg).part3 0 =
        (s.ang.turn d).toMat.transpose.mulVec (e.state.body.ang.toMat.transpose.mulVec gravity) - (acc - s.accBias) := by
      intro d
      rw [rest_residual, gravityInImu_eq u _ _ (imuOf_withImu u e _) hq (Quat.turn_unit hi d), imuOf_withImu, neg_sub, withImu_body]
    have d1 := ((isJacobian_turn_transpose hi (e.state.body.ang.toMat.transpose.mulVec gravity)).sub
      (isJacobian_const (acc - s.accBias) _)).congr (sub_zero _)
    simp only [p1]
    rw [isJacobian_iff_eq d1, b2, neg_zero, ← gravityInImu_eq u e s hg hq hi]
    exact fun h0 => hgz (skew_eq_zero h0.symm)
  · have p1 : ∀ x, (u.zeroAccResidual (e.withImu u.id { s with pos := x }) acc omg).part3 0 =
        s.ang.toMat.transpose.mulVec (e.state.body.ang.toMat.transpose.mulVec gravity) - (acc - s.accBias) := by
      intro x
      rw [rest_residual, gravityInImu_eq u _ { s with pos := x } (imuOf_withImu u e _) hq hi, imuOf_withImu, neg_sub, withImu_body]
    simp only [p1]
    rw [isJacobian_iff_eq (isJacobian_const _ _), b1, neg_neg]
    exact fun h0 => hgz (skew_eq_zero h0)

/-! ## Moving IMU -/

/-- The blocks of the IMU Jacobian at the orientations. -/
theorem imu_turn_blocks (u : ImuUpdater) (e : Ekf ℝ) (s : ImuState ℝ) (J : Mat ℝ) (h : u.measurementJacobian e = .ok J)
    (hs : e.state.imus.find? u.id = some s) (hE : u.isExtrinsic = s.isExtrinsic) (hI : u.isIntrinsic = s.isIntrinsic)
    (hT : Tiles e.state.blocks 0 e.stateSize) :
    J.block3 0 9 = 0 ∧ J.block3 3 9 = 0 ∧
    (s.isExtrinsic = true → J.block3 0 (s.indexExtrinsic + 3) = skew (s.ang.inverse.rotate (V3.cross e.state.body.angAcc s.pos +
        V3.cross e.state.body.angVel (V3.cross e.state.body.angVel s.pos) + e.state.body.ang.inverse.rotate e.state.body.acc)) ∧
      J.block3 3 (s.indexExtrinsic + 3) = skew ((s.ang.inverse.mul e.state.body.ang.inverse).rotate e.state.body.angVel)) := by
  have hg : u.imuOf e = s := by simp [ImuUpdater.imuOf, UMap.getD, hs]
  obtain ⟨ce, ci, cd⟩ := imu_columns hT hs
  simp only [ImuUpdater.measurementJacobian, bind_ok_iff, hg, Nat.add_zero, hE, hI] at h
  obtain ⟨J1, h1, J2, h2, J3, h3, J4, h4, h⟩ := h
  obtain ⟨J5, h5, h6⟩ : ∃ J5, (if s.isExtrinsic = true then do
        let jac ← J4.setBlock 0 s.indexExtrinsic 3 3
          (M3.toMat (s.ang.inverse.toMat * (skew e.state.body.angAcc + skew e.state.body.angVel * skew e.state.body.angVel)))
        let jac ← jac.setBlock 0 (s.indexExtrinsic + 3) 3 3
          (M3.toMat (skew (s.ang.inverse.rotate (V3.cross e.state.body.angAcc s.pos +
            V3.cross e.state.body.angVel (V3.cross e.state.body.angVel s.pos) + e.state.body.ang.inverse.rotate e.state.body.acc))))
        jac.setBlock 3 (s.indexExtrinsic + 3) 3 3
          (M3.toMat (skew ((s.ang.inverse.mul e.state.body.ang.inverse).rotate e.state.body.angVel)))
      else pure J4) = .ok J5 ∧ (if s.isIntrinsic = true then do
        let jac ← J5.setBlock 0 s.indexIntrinsic 3 3 (M3.toMat 1)
        jac.setBlock 3 (s.indexIntrinsic + 3) 3 3 (M3.toMat 1)
      else pure J5) = .ok J := by
    cases hx : s.isExtrinsic with
    | false =>
      rw [hx] at h
      exact ⟨J4, rfl, h⟩
    | true =>
      rw [hx] at h
      obtain ⟨J6, g1, h⟩ := bind_ok_iff.1 h
      obtain ⟨J7, g2, h⟩ := bind_ok_iff.1 h
      obtain ⟨J8, g3, h⟩ := bind_ok_iff.1 h
      exact ⟨J8, bind_ok_iff.2 ⟨J6, g1, bind_ok_iff.2 ⟨J7, g2, g3⟩⟩, h⟩
  have z0 : ∀ r, J4.block3 r 9 = 0 := fun r => by
    rw [block3_ne h4 (by omega), block3_ne h3 (by omega), block3_ne h2 (by omega), block3_ne h1 (by omega)]; rfl
  obtain ⟨k1, k2⟩ : (∀ r, J5.block3 r 9 = 0) ∧
      (s.isExtrinsic = true → J5.block3 0 (s.indexExtrinsic + 3) = skew (s.ang.inverse.rotate (V3.cross e.state.body.angAcc s.pos +
        V3.cross e.state.body.angVel (V3.cross e.state.body.angVel s.pos) + e.state.body.ang.inverse.rotate e.state.body.acc)) ∧
      J5.block3 3 (s.indexExtrinsic + 3) = skew ((s.ang.inverse.mul e.state.body.ang.inverse).rotate e.state.body.angVel)) := by
    cases hx : s.isExtrinsic with
    | false =>
      rw [hx] at h5
      simp only [Bool.false_eq_true, if_false, pure_res, Except.ok.injEq] at h5
      subst h5
      exact ⟨z0, by simp⟩
    | true =>
      have ce := ce hx
      rw [hx] at h5
      simp only [if_true, bind_ok_iff] at h5
      obtain ⟨J6, g1, J7, g2, g3⟩ := h5
      refine ⟨fun r => ?_, fun _ => ⟨?_, block3_same g3⟩⟩
      · rw [block3_ne g3 (by omega), block3_ne g2 (by omega), block3_ne g1 (by omega), z0]
      · rw [block3_ne g3 (by omega), block3_same g2]
  cases hx : s.isIntrinsic with
  | false =>
    rw [hx] at h6
    simp only [Bool.false_eq_true, if_false, pure_res, Except.ok.injEq] at h6
    subst h6
    exact ⟨k1 0, k1 3, k2⟩
  | true =>
    have ci := ci hx
    rw [hx] at h6
    simp only [if_true, bind_ok_iff] at h6
    obtain ⟨J8, g1, g2⟩ := h6
    refine ⟨by rw [block3_ne g2 (by omega), block3_ne g1 (by omega), k1], by rw [block3_ne g2 (by omega), block3_ne g1 (by omega), k1],
      fun he => ?_⟩
    have := cd he hx
    exact ⟨by rw [block3_ne g2 (by omega), block3_ne g1 (by omega), (k2 he).1], by rw [block3_ne g2 (by omega), block3_ne g1 (by omega), (k2 he).2]⟩

/-- Moving IMU, body orientation: the rows of the specific force are right (the prediction does not use it); those of the
angular rate are right exactly when the body does not turn: the code leaves them zero. -/
theorem C61_imu_body_iff (u : ImuUpdater) (e : Ekf ℝ) (s : ImuState ℝ) (J : Mat ℝ) (h : u.measurementJacobian e = .ok J)
    (hs : e.state.imus.find? u.id = some s) (hE : u.isExtrinsic = s.isExtrinsic) (hI : u.isIntrinsic = s.isIntrinsic)
    (hT : Tiles e.state.blocks 0 e.stateSize) (hq : e.state.body.ang.normSq = 1) (hi : s.ang.normSq = 1) :
    IsJacobian (fun d => u.predAcc (e.withBody { e.state.body with ang := e.state.body.ang.turn d })) 0 (J.block3 0 9) ∧
    (IsJacobian (fun d => u.predGyro (e.withBody { e.state.body with ang := e.state.body.ang.turn d })) 0 (J.block3 3 9) ↔
      e.state.body.angVel = 0) := by
  have hg : u.imuOf e = s := by simp [ImuUpdater.imuOf, UMap.getD, hs]
  obtain ⟨b1, b2, _⟩ := imu_turn_blocks u e s J h hs hE hI hT
  constructor
  · have p1 : ∀ d, u.predAcc (e.withBody { e.state.body with ang := e.state.body.ang.turn d }) = u.predAcc e := by
      intro d; rw [predAcc_eq, predAcc_eq]; rfl
    simp only [p1, b1]
    exact isJacobian_const _ _
  · have p1 : ∀ d, u.predGyro (e.withBody { e.state.body with ang := e.state.body.ang.turn d }) =
        s.omgBias + s.ang.toMat.transpose.mulVec ((e.state.body.ang.turn d).toMat.transpose.mulVec e.state.body.angVel) := by
      intro d
      have hg' : u.imuOf (e.withBody { e.state.body with ang := e.state.body.ang.turn d }) = s := hg
      rw [predGyro_eq, hg', withBody_body, Quat.toMat_inverse hi, Quat.toMat_inverse (Quat.turn_unit hq d), Matrix.mulVec_mulVec]
    have d1 := ((isJacobian_const s.omgBias _).add ((isJacobian_turn_transpose hq e.state.body.angVel).mulLeft s.ang.toMat.transpose)).congr (zero_add _)
    simp only [p1]
    rw [isJacobian_iff_eq d1, b2, show (0 : M3 ℝ) = s.ang.toMat.transpose * 0 by rw [Matrix.mul_zero], transpose_mul_cancel hi]
    constructor
    · intro h0
      exact (transpose_mulVec_eq_zero hq).1 (skew_eq_zero h0.symm)
    · intro h0
      rw [h0, Matrix.mulVec_zero, skew_zero]

/-- Moving IMU, mounting orientation: the rows of the angular rate are right; those of the specific force are right exactly
when the body acceleration taken into the body frame is the body acceleration plus the Coriolis term the prediction has. -/
theorem C61_imu_mounting_iff (u : ImuUpdater) (e : Ekf ℝ) (s : ImuState ℝ) (J : Mat ℝ) (h : u.measurementJacobian e = .ok J)
    (hs : e.state.imus.find? u.id = some s) (hE : u.isExtrinsic = s.isExtrinsic) (hI : u.isIntrinsic = s.isIntrinsic)
    (hT : Tiles e.state.blocks 0 e.stateSize) (hq : e.state.body.ang.normSq = 1) (hi : s.ang.normSq = 1) (hx : s.isExtrinsic = true) :
    IsJacobian (fun d => u.predGyro (e.withImu u.id { s with ang := s.ang.turn d })) 0 (J.block3 3 (s.indexExtrinsic + 3)) ∧
    (IsJacobian (fun d => u.predAcc (e.withImu u.id { s with ang := s.ang.turn d })) 0 (J.block3 0 (s.indexExtrinsic + 3)) ↔
      e.state.body.ang.inverse.rotate e.state.body.acc =
        e.state.body.acc + (2 : ℝ) • V3.cross e.state.body.angVel e.state.body.vel) := by
  obtain ⟨_, _, hb⟩ := imu_turn_blocks u e s J h hs hE hI hT
  obtain ⟨b1, b2⟩ := hb hx
  constructor
  · have p1 : ∀ d, u.predGyro (e.withImu u.id { s with ang := s.ang.turn d }) =
        s.omgBias + (s.ang.turn d).toMat.transpose.mulVec (e.state.body.ang.inverse.rotate e.state.body.angVel) := by
      intro d
      rw [predGyro_eq, imuOf_withImu, withImu_body, Quat.toMat_inverse (Quat.turn_unit hi d), ← Matrix.mulVec_mulVec, Quat.rotate_eq_mulVec]
    have d1 := ((isJacobian_const s.omgBias _).add (isJacobian_turn_transpose hi (e.state.body.ang.inverse.rotate e.state.body.angVel))).congr (zero_add _)
    simp only [p1]
    rw [isJacobian_iff_eq d1, b2, Quat.mul_rotate (Quat.inverse_unit hi) (Quat.inverse_unit hq), Quat.rotate_eq_mulVec s.ang.inverse,
      Quat.toMat_inverse hi]
  · obtain ⟨X, hX⟩ : ∃ X, X = V3.cross e.state.body.angAcc s.pos + V3.cross e.state.body.angVel (V3.cross e.state.body.angVel s.pos) := ⟨_, rfl⟩
    rw [← hX] at b1
    have p1 : ∀ d, u.predAcc (e.withImu u.id { s with ang := s.ang.turn d }) =
        s.accBias + (s.ang.turn d).toMat.transpose.mulVec (X + (e.state.body.acc + (2 : ℝ) • V3.cross e.state.body.angVel e.state.body.vel)) := by
      intro d
      rw [predAcc_eq, imuOf_withImu, withImu_body, Quat.toMat_inverse (Quat.turn_unit hi d), hX]
      congr 2
      abel
    have d1 := ((isJacobian_const s.accBias _).add (isJacobian_turn_transpose hi
      (X + (e.state.body.acc + (2 : ℝ) • V3.cross e.state.body.angVel e.state.body.vel)))).congr (zero_add _)
    simp only [p1]
    rw [isJacobian_iff_eq d1, b1, Quat.rotate_eq_mulVec s.ang.inverse, Quat.toMat_inverse hi]
    constructor
    · intro h0
      have h1 : s.ang.toMat.transpose.mulVec (e.state.body.ang.inverse.rotate e.state.body.acc -
          (e.state.body.acc + (2 : ℝ) • V3.cross e.state.body.angVel e.state.body.vel)) = 0 := by
        refine skew_eq_zero ?_
        have : ∀ a b : V3 ℝ, skew (a - b) = skew a - skew b := fun a b => by
          ext i j; fin_cases i <;> fin_cases j <;> simp [skew] <;> ring
        rw [Matrix.mulVec_sub _ (e.state.body.ang.inverse.rotate e.state.body.acc), this]
        rw [Matrix.mulVec_add _ X, Matrix.mulVec_add _ X] at h0
        have hadd : ∀ a b : V3 ℝ, skew (a + b) = skew a + skew b := fun a b => by
          ext i j; fin_cases i <;> fin_cases j <;> simp [skew] <;> ring
        rw [hadd, hadd] at h0
        exact sub_eq_zero.2 (add_left_cancel h0)
      exact sub_eq_zero.1 ((transpose_mulVec_eq_zero hi).1 h1)
    · intro h0; rw [h0]

/-! ## Camera tracks -/

theorem projection_mul_eq_zero {z : V3 ℝ} (hz : z 2 ≠ 0) (A : M3 ℝ) : projectionJacobian z * A = 0 ↔ skew z * A = 0 := by
  have key : ∀ a b c : ℝ, (1 / z 2 * a + -(z 0) / (z 2 * z 2) * c = 0 ∧ 1 / z 2 * b + -(z 1) / (z 2 * z 2) * c = 0) ↔
      (z 2 * a = z 0 * c ∧ z 2 * b = z 1 * c) := by
    intro a b c
    have h1 : ∀ p q : ℝ, 1 / z 2 * p + -q / (z 2 * z 2) * c = 0 ↔ z 2 * p = q * c := by
      intro p q
      rw [show 1 / z 2 * p + -q / (z 2 * z 2) * c = (z 2 * p - q * c) / (z 2 * z 2) by field_simp; ring,
        div_eq_zero_iff, or_iff_left (mul_ne_zero hz hz), sub_eq_zero]
    rw [h1, h1]
  constructor
  · intro h
    have k : ∀ j, z 2 * A 0 j = z 0 * A 2 j ∧ z 2 * A 1 j = z 1 * A 2 j := by
      intro j
      rw [← key]
      have h0 := congrFun (congrFun h 0) j
      have h1 := congrFun (congrFun h 1) j
      simp [projectionJacobian, Matrix.mul_apply, Fin.sum_univ_three] at h0 h1
      constructor
      · rw [← h0]; simp; try ring
      · rw [← h1]; simp; try ring
    ext i j
    obtain ⟨k0, k1⟩ := k j
    fin_cases i <;> simp [skew, Matrix.mul_apply, Fin.sum_univ_three]
    · linarith
    · linarith
    · refine (mul_eq_zero.1 (?_ : z 2 * _ = 0)).resolve_left hz
      linear_combination -z 1 * k0 + z 0 * k1
  · intro h
    have k : ∀ j, z 2 * A 0 j = z 0 * A 2 j ∧ z 2 * A 1 j = z 1 * A 2 j := by
      intro j
      have h0 := congrFun (congrFun h 0) j
      have h1 := congrFun (congrFun h 1) j
      simp [skew, Matrix.mul_apply, Fin.sum_univ_three] at h0 h1
      constructor <;> linarith
    ext i j
    obtain ⟨k0, k1⟩ := (key _ _ _).2 (k j)
    fin_cases i <;> simp [projectionJacobian, Matrix.mul_apply, Fin.sum_univ_three]
    · rw [← k0]; try simp; try ring
    · rw [← k1]; try simp; try ring

theorem rotate_skew {q : Quat ℝ} (h : q.normSq = 1) (x : V3 ℝ) :
    skew (q.toMat.transpose.mulVec x) = q.toMat.transpose * skew x * q.toMat := by
  rw [transpose_skew h, Matrix.mul_assoc, toMat_orthogonal h, Matrix.mul_one]

theorem mul_left_eq_zero {q : Quat ℝ} (h : q.normSq = 1) {A : M3 ℝ} : q.toMat.transpose * A = 0 ↔ A = 0 := by
  rw [show (0 : M3 ℝ) = q.toMat.transpose * 0 by rw [Matrix.mul_zero], transpose_mul_cancel h, Matrix.mul_zero]

/-- How the image moves with a turn of the body. -/
theorem clone_turn (u : MsckfUpdater ℝ) (a : AugState ℝ) (F : V3 ℝ) (ha : a.ang.normSq = 1) (hz : u.inCamera a F 2 ≠ 0) :
    IsJacobian (fun d => u.predicted { a with ang := a.ang.turn d } F) 0
      (projectionJacobian (u.inCamera a F) * (u.angC.toMat.transpose * skew (a.ang.toMat.transpose.mulVec (F - a.pos)))) := by
  have h : ∀ d, u.inCamera { a with ang := a.ang.turn d } F =
      u.angC.toMat.transpose.mulVec ((a.ang.turn d).toMat.transpose.mulVec (F - a.pos) - u.posC) := fun d =>
    (inCamera_steps (u := u) (a := { a with ang := a.ang.turn d }) (Quat.turn_unit ha d) F).symm
  have h0 : u.inCamera { a with ang := a.ang.turn 0 } F = u.inCamera a F := by rw [Quat.turn_zero]
  refine IsJacobian.comp (f := project) (g := fun d => u.inCamera { a with ang := a.ang.turn d } F) (x := 0)
    (by rw [h0]; exact C35_projection _ hz) ?_
  simp only [h]
  exact (((isJacobian_turn_transpose ha (F - a.pos)).sub (isJacobian_const _ _)).mulLeft _).congr (by rw [sub_zero])

/-- How the image moves with a turn of the camera. -/
theorem camera_turn (u : MsckfUpdater ℝ) (a : AugState ℝ) (F : V3 ℝ) (ha : a.ang.normSq = 1) (hu : u.angC.normSq = 1)
    (hz : u.inCamera a F 2 ≠ 0) :
    IsJacobian (fun d => MsckfUpdater.predicted { u with angC := u.angC.turn d } a F) 0
      (projectionJacobian (u.inCamera a F) * skew (u.inCamera a F)) := by
  have h : ∀ d, MsckfUpdater.inCamera { u with angC := u.angC.turn d } a F =
      (u.angC.turn d).toMat.transpose.mulVec (a.ang.toMat.transpose.mulVec (F - a.pos) - u.posC) := fun d =>
    (inCamera_steps (u := { u with angC := u.angC.turn d }) ha F).symm
  have h0 : MsckfUpdater.inCamera { u with angC := u.angC.turn 0 } a F = u.inCamera a F := by rw [Quat.turn_zero]
  refine IsJacobian.comp (f := project) (g := fun d => MsckfUpdater.inCamera { u with angC := u.angC.turn d } a F) (x := 0)
    (by rw [h0]; exact C35_projection _ hz) ?_
  simp only [h]
  exact (isJacobian_turn_transpose hu _).congr (by rw [inCamera_steps ha F])

section tracks
variable (N : Num ℝ) (e : Ekf ℝ) (u : MsckfUpdater ℝ) (g : CamState ℝ) (f : FeatureTrack ℝ) (F : V3 ℝ)
  (out : Ekf ℝ × Mat ℝ × Mat ℝ × Vec ℝ)

/-- Camera tracks (frame-based cloning, no lens distortion): the columns of the orientation of an observation's clone are
right exactly when `y × (x × (v × d))` is zero for every `d`: `x` is the feature as seen from the body, `y` as seen from the
camera, both in the axes of the body, and `v` is the rotation vector of the clone. -/
theorem C61_clone_iff (hN : N.quatJac = quatJacobian) (hr : e.Reachable N.toPrim) (e1 : Ekf ℝ) (hl : e.Looked e1)
    (hg : e.state.cams.find? u.id = some g) (hx : u.isCamExtrinsic = true → g.isExtrinsic = true) (hp : u.intr.Pinhole)
    (h : u.observeLoop N e.stateSize (u.camOf e).index F 0 f.track e1 (blankRows f.track.length e.stateSize) = .ok out)
    (hc : e.ClonesFrame u.id) (hu : u.angC.normSq = 1) (j : Nat) (p : FeaturePoint ℝ) (hj : f.track[j]? = some p) (a : AugState ℝ)
    (hw : a ∈ e.window u.id) (ha : e.poseFor N.toPrim u.id p = .ok a) (hua : a.ang.normSq = 1) (hz : u.inCamera a F 2 ≠ 0)
    (hv : quatToRotVec a.ang = 0 ∨ 1 / 10 ^ 9 ≤ V3.norm (quatToRotVec a.ang)) :
    IsJacobian (fun d => u.predicted { a with ang := a.ang.turn d } F) 0 (out.2.2.1.block23 (2 * j) (a.index + 3)) ↔
      ∀ d, V3.cross (a.ang.toMat.transpose.mulVec (F - a.pos) - u.posC)
        (V3.cross (a.ang.toMat.transpose.mulVec (F - a.pos)) (V3.cross (quatToRotVec a.ang) d)) = 0 := by
  obtain ⟨a', ha', hf, _⟩ := frame_rows N e u g f F out hr e1 hl hg hx h hc j p hj
  rw [ha] at ha'
  cases ha'
  have hw0 : writtenAt e.stateSize a = [(a.index, a.index + 3, 1)] := by rw [writtenAt, if_pos (hr.alpha hw)]
  have hb : out.2.2.1.block23 (2 * j) (a.index + 3) = projectionJacobian (u.inCamera a F) *
      (u.angC.toMat.transpose * skew (a.ang.toMat.transpose.mulVec (F - a.pos)) * quatJacobian a.ang) := by
    have e4 := hf.poseAng (a.index, a.index + 3, 1) (by rw [hw0]; exact List.mem_cons_self ..)
    refine e4.trans ?_
    rw [inCamera_steps hua F, pinhole_jacobian hp, Matrix.one_mul, one_smul, hN, quatJacobian_transpose hua hv,
      Matrix.mul_assoc u.angC.toMat.transpose, transpose_skew hua]
    simp only [Matrix.mul_assoc]
    rw [← Matrix.mul_assoc a.ang.toMat.transpose, toMat_orthogonal hua, Matrix.one_mul]
  rw [isJacobian_iff_eq (clone_turn u a F hua hz), hb, ← Matrix.mul_assoc, mul_quatJacobian, Matrix.mul_assoc, projection_mul_eq_zero hz,
    ← inCamera_steps hua F, rotate_skew hu]
  generalize a.ang.toMat.transpose.mulVec (F - a.pos) = x
  rw [show u.angC.toMat.transpose * skew (x - u.posC) * u.angC.toMat * (u.angC.toMat.transpose * skew x * skew (quatToRotVec a.ang)) =
      u.angC.toMat.transpose * (skew (x - u.posC) * (u.angC.toMat * u.angC.toMat.transpose) * skew x * skew (quatToRotVec a.ang)) by
    simp only [Matrix.mul_assoc], mul_eq_one_comm.1 (toMat_orthogonal hu), Matrix.mul_one, mul_left_eq_zero hu]
  simp only [cross_eq_mulVec, Matrix.mulVec_mulVec]
  constructor
  · intro h0 d
    rw [← Matrix.mul_assoc, h0, Matrix.zero_mulVec]
  · intro h0
    ext i k
    have := congrFun (h0 (Pi.single k 1)) i
    rw [Matrix.mulVec_single_one, ← Matrix.mul_assoc] at this
    exact this

theorem cross_chain {x y v : V3 ℝ} (hy : y ≠ 0) (hxv : x 0 * v 0 + x 1 * v 1 + x 2 * v 2 ≠ 0) :
    ¬ ∀ d, V3.cross y (V3.cross x (V3.cross v d)) = 0 := by
  intro h
  have E : ∀ k i, V3.cross y (V3.cross x (V3.cross v (Pi.single k 1))) i = 0 := fun k i => by rw [h]; rfl
  have t : x 0 * v 0 + x 1 * v 1 + x 2 * v 2 ≠ 0 := hxv
  have E00 := E 0 0; have E01 := E 0 1; have E02 := E 0 2
  have E10 := E 1 0; have E11 := E 1 1; have E12 := E 1 2
  have E20 := E 2 0; have E21 := E 2 1; have E22 := E 2 2
  simp [V3.cross, Matrix.cons_val] at E00 E01 E02 E10 E11 E12 E20 E21 E22
  apply hy
  suffices hg : y 0 = 0 ∧ y 1 = 0 ∧ y 2 = 0 by
    funext i; fin_cases i; exacts [hg.1, hg.2.1, hg.2.2]
  clear h E hy
  generalize x 0 = a at *
  generalize x 1 = b at *
  generalize x 2 = c at *
  generalize y 0 = p at *
  generalize y 1 = q at *
  generalize y 2 = r at *
  generalize v 0 = l at *
  generalize v 1 = m at *
  generalize v 2 = n at *
  refine ⟨?_, ?_, ?_⟩ <;> grind

/-- **Violated for turned clones**: if the feature, seen from the body, is not at right angles to the axis about which the
clone is turned, the columns of its orientation are wrong. -/
theorem C61_clone_violated (hN : N.quatJac = quatJacobian) (hr : e.Reachable N.toPrim) (e1 : Ekf ℝ) (hl : e.Looked e1)
    (hg : e.state.cams.find? u.id = some g) (hx : u.isCamExtrinsic = true → g.isExtrinsic = true) (hp : u.intr.Pinhole)
    (h : u.observeLoop N e.stateSize (u.camOf e).index F 0 f.track e1 (blankRows f.track.length e.stateSize) = .ok out)
    (hc : e.ClonesFrame u.id) (hu : u.angC.normSq = 1) (j : Nat) (p : FeaturePoint ℝ) (hj : f.track[j]? = some p) (a : AugState ℝ)
    (hw : a ∈ e.window u.id) (ha : e.poseFor N.toPrim u.id p = .ok a) (hua : a.ang.normSq = 1) (hz : u.inCamera a F 2 ≠ 0)
    (hv : 1 / 10 ^ 9 ≤ V3.norm (quatToRotVec a.ang))
    (hxv : dotProduct (a.ang.toMat.transpose.mulVec (F - a.pos)) (quatToRotVec a.ang) ≠ 0) :
    ¬ IsJacobian (fun d => u.predicted { a with ang := a.ang.turn d } F) 0 (out.2.2.1.block23 (2 * j) (a.index + 3)) := by
  rw [C61_clone_iff N e u g f F out hN hr e1 hl hg hx hp h hc hu j p hj a hw ha hua hz (.inr hv)]
  refine cross_chain ?_ (by simpa only [dotProduct, Fin.sum_univ_three] using hxv)
  intro h0
  apply hz
  rw [← inCamera_steps hua F, h0, Matrix.mulVec_zero]; rfl

/-- Camera tracks: for a clone that is not turned, its orientation's columns are right. -/
theorem C61_clone_partial (hN : N.quatJac = quatJacobian) (hr : e.Reachable N.toPrim) (e1 : Ekf ℝ) (hl : e.Looked e1)
    (hg : e.state.cams.find? u.id = some g) (hx : u.isCamExtrinsic = true → g.isExtrinsic = true) (hp : u.intr.Pinhole)
    (h : u.observeLoop N e.stateSize (u.camOf e).index F 0 f.track e1 (blankRows f.track.length e.stateSize) = .ok out)
    (hc : e.ClonesFrame u.id) (hu : u.angC.normSq = 1) (j : Nat) (p : FeaturePoint ℝ) (hj : f.track[j]? = some p) (a : AugState ℝ)
    (hw : a ∈ e.window u.id) (ha : e.poseFor N.toPrim u.id p = .ok a) (hua : a.ang.normSq = 1) (hz : u.inCamera a F 2 ≠ 0)
    (hv : quatToRotVec a.ang = 0) :
    IsJacobian (fun d => u.predicted { a with ang := a.ang.turn d } F) 0 (out.2.2.1.block23 (2 * j) (a.index + 3)) := by
  rw [C61_clone_iff N e u g f F out hN hr e1 hl hg hx hp h hc hu j p hj a hw ha hua hz (.inl hv)]
  intro d
  rw [hv, cross_eq_mulVec 0 d, skew_zero, Matrix.zero_mulVec, cross_eq_mulVec _ 0, Matrix.mulVec_zero, cross_eq_mulVec _ 0,
    Matrix.mulVec_zero]

/-- Camera tracks (frame-based cloning, no lens distortion): the columns of the camera's mounting orientation are right
exactly when the camera is not turned against the body. -/
theorem C61_camera_iff (hN : N.quatJac = quatJacobian) (hr : e.Reachable N.toPrim) (e1 : Ekf ℝ) (hl : e.Looked e1)
    (hg : e.state.cams.find? u.id = some g) (hx : u.isCamExtrinsic = true → g.isExtrinsic = true) (hp : u.intr.Pinhole)
    (h : u.observeLoop N e.stateSize (u.camOf e).index F 0 f.track e1 (blankRows f.track.length e.stateSize) = .ok out)
    (hc : e.ClonesFrame u.id) (hu : u.angC.normSq = 1) (hcal : u.isCamExtrinsic = true) (j : Nat) (p : FeaturePoint ℝ)
    (hj : f.track[j]? = some p) (a : AugState ℝ) (ha : e.poseFor N.toPrim u.id p = .ok a) (hua : a.ang.normSq = 1)
    (hz : u.inCamera a F 2 ≠ 0) (hv : quatToRotVec u.angC = 0 ∨ 1 / 10 ^ 9 ≤ V3.norm (quatToRotVec u.angC)) :
    IsJacobian (fun d => MsckfUpdater.predicted { u with angC := u.angC.turn d } a F) 0 (out.2.2.1.block23 (2 * j) (g.index + 3)) ↔
      quatToRotVec u.angC = 0 := by
  obtain ⟨a', ha', hf, _⟩ := frame_rows N e u g f F out hr e1 hl hg hx h hc j p hj
  rw [ha] at ha'
  cases ha'
  have hb : out.2.2.1.block23 (2 * j) (g.index + 3) = projectionJacobian (u.inCamera a F) * skew (u.inCamera a F) * quatJacobian u.angC := by
    rw [hf.cameraAng hcal, inCamera_steps hua F, pinhole_jacobian hp, Matrix.one_mul, hN, quatJacobian_transpose hu hv,
      Matrix.mul_assoc (projectionJacobian _) u.angC.toMat.transpose, transpose_skew hu, inCamera_steps hua F]
    simp only [Matrix.mul_assoc]
    rw [← Matrix.mul_assoc u.angC.toMat.transpose, toMat_orthogonal hu, Matrix.one_mul]
  rw [isJacobian_iff_eq (camera_turn u a F hua hu hz), hb, mul_quatJacobian, Matrix.mul_assoc, projection_mul_eq_zero hz]
  have hne : u.inCamera a F ≠ 0 := fun h0 => hz (by rw [h0]; rfl)
  constructor
  · intro h0
    have h1 : skew (u.inCamera a F) * (skew (u.inCamera a F) * (skew (u.inCamera a F) * skew (quatToRotVec u.angC))) = 0 := by
      rw [h0, Matrix.mul_zero]
    rw [← Matrix.mul_assoc (skew (u.inCamera a F)) (skew (u.inCamera a F)) (skew (quatToRotVec u.angC)),
      ← Matrix.mul_assoc (skew (u.inCamera a F)), skew_cube, Matrix.smul_mul] at h1
    rcases smul_eq_zero.1 h1 with h2 | h2
    · have : V3.norm (u.inCamera a F) = 0 := by
        rw [neg_eq_zero] at h2
        exact mul_self_eq_zero.1 h2
      exact absurd (norm_eq_zero_iff.1 this) hne
    · exact (skew_mul_skew.1 h2).resolve_left hne
  · intro h0; rw [h0, skew_zero, Matrix.mul_zero, Matrix.mul_zero]

end tracks

/-! ## Witnesses -/

/-- Half a turn about the vertical axis. -/
noncomputable def halfTurn : Quat ℝ := ⟨0, 0, 0, 1⟩

theorem halfTurn_unit : halfTurn.normSq = 1 := by simp [halfTurn, Quat.normSq]

theorem halfTurn_rotVec : quatToRotVec halfTurn = ![0, 0, Real.pi] := by
  have h := quatToRotVec_ofAngleAxis Real.pi ![0, 0, 1] (by simp [Matrix.cons_val]) Real.pi_pos le_rfl
  have hq : Quat.ofAngleAxis Real.pi ![0, 0, 1] = halfTurn := by
    simp [Quat.ofAngleAxis, halfTurn, Matrix.cons_val]
  rw [hq] at h
  rw [h]
  funext i
  fin_cases i <;> simp

theorem halfTurn_ne : quatToRotVec halfTurn ≠ 0 := fun h => by
  have := congrFun h 2
  rw [halfTurn_rotVec] at this
  simp [Matrix.cons_val, Real.pi_ne_zero] at this

theorem halfTurn_large : 1 / 10 ^ 9 ≤ V3.norm (quatToRotVec halfTurn) := by
  have h2 : V3.norm (quatToRotVec halfTurn) * V3.norm (quatToRotVec halfTurn) = Real.pi * Real.pi := by
    rw [V3.norm_sq, halfTurn_rotVec]; simp [Matrix.cons_val]
  have h3 : V3.norm (quatToRotVec halfTurn) = Real.pi := by
    rcases mul_self_eq_mul_self_iff.1 h2 with h | h
    · exact h
    · have := V3.norm_nonneg (quatToRotVec halfTurn)
      have := Real.pi_pos
      linarith
  rw [h3]
  have := Real.two_le_pi
  norm_num
  linarith

namespace TurnSample

noncomputable def camera : CamState ℝ := { (CamState.default : CamState ℝ).setIsExtrinsic true with ang := halfTurn }

/-- Everything turned and with lever arms: calibrated IMU 3, antenna 7, camera 1 and marker 4, and one frame. -/
noncomputable def ops : List (Ekf.Op ℝ) :=
  [.registerIMU 3 (((ImuState.default : ImuState ℝ).setIsExtrinsic true).setIsIntrinsic true) (Mat.zero 12 12),
   .registerGPS 7 { (GpsState.default : GpsState ℝ).setIsExtrinsic true with pos := ![1, 0, 0] } (Mat.zero 3 3),
   .registerCamera 1 camera (Mat.zero 6 6),
   .registerFiducial ((⟨0, ![0, 0, 5], Quat.one, 1, 1, 0, 0, 4, false⟩ : FidState ℝ).setIsExtrinsic true) (Mat.zero 6 6),
   .initializeAt 0 C42_body, .frame 1 5]

theorem ops_wf : ∀ op ∈ ops, op.WF := by
  intro op ho
  simp only [ops, List.mem_cons, List.not_mem_nil, or_false] at ho
  rcases ho with rfl | rfl | rfl | rfl | rfl | rfl <;> first | rfl | trivial

theorem filter : ∃ e, Ekf.run realPrim (Ekf.init realPrim (CamRowsSample.params .all)) ops = .ok e ∧ e.useFirstEstimate = false ∧
    e.augType = .all ∧ e.state.body = C42_body ∧ e.stateSize = 51 ∧
    (∃ s, e.state.imus.find? 3 = some s ∧ s.isExtrinsic = true ∧ s.isIntrinsic = true ∧ s.ang = Quat.one ∧ s.indexExtrinsic = 18 ∧
      s.indexIntrinsic = 24) ∧
    (∃ s, e.state.gpss.find? 7 = some s ∧ s.isExtrinsic = true ∧ s.index = 30 ∧ s.pos = ![1, 0, 0]) ∧
    (∃ s, e.state.cams.find? 1 = some s ∧ s.isExtrinsic = true ∧ s.ang = halfTurn ∧ s.index = 33 ∧ s.pos = 0) ∧
    (∃ s, e.state.fids.find? 4 = some s ∧ s.isExtrinsic = true ∧ s.index = 39 ∧ s.pos = ![0, 0, 5]) ∧
    (∃ a, e.window 1 = [a] ∧ a.frameId = 5 ∧ a.pos = 0 ∧ a.ang = halfTurn) := by
  obtain ⟨e, h1, h2, h2', h3, h4, h5, h6, h7, h8, h9⟩ : ∃ e, Ekf.run realPrim (Ekf.init realPrim (CamRowsSample.params .all)) ops = .ok e ∧
      e.useFirstEstimate = false ∧ e.augType = .all ∧ e.state.body = C42_body ∧ e.stateSize = 51 ∧
      (e.state.imus.find? 3).map (fun s => (s.isExtrinsic, s.isIntrinsic, s.ang, s.indexExtrinsic, s.indexIntrinsic)) =
        some (true, true, Quat.one, 18, 24) ∧
      (e.state.gpss.find? 7).map (fun s => (s.isExtrinsic, s.index, s.pos)) = some (true, 30, ![1, 0, 0]) ∧
      (e.state.cams.find? 1).map (fun s => (s.isExtrinsic, s.ang, s.index, s.pos)) = some (true, halfTurn, 33, 0) ∧
      (e.state.fids.find? 4).map (fun s => (s.isExtrinsic, s.index, s.pos)) = some (true, 39, ![0, 0, 5]) ∧
      (e.window 1).map (fun a => (a.frameId, a.pos, a.ang)) = [(5, 0, halfTurn)] := by
    have hrun : Ekf.run realPrim (Ekf.init realPrim (CamRowsSample.params .all)) ops = (do
        let e ← Ekf.run realPrim (Ekf.init realPrim (CamRowsSample.params .all)) (ops.take 2)
        let e ← e.registerCamera realPrim 1 camera (Mat.zero 6 6)
        Ekf.run realPrim e (ops.drop 3)) := rfl
    rw [hrun]
    simp only [fun e => registerCamera_rate e 1 camera (Mat.zero 6 6) one_ne_zero]
    exact ⟨_, rfl, rfl, rfl, rfl, rfl, rfl, rfl, rfl, rfl, rfl⟩
  obtain ⟨s5, f5, g5⟩ := some_of_map h5
  obtain ⟨s6, f6, g6⟩ := some_of_map h6
  obtain ⟨s7, f7, g7⟩ := some_of_map h7
  obtain ⟨s8, f8, g8⟩ := some_of_map h8
  obtain ⟨a, l, ha, g9, hl⟩ := List.map_eq_cons_iff.1 h9
  rw [List.map_eq_nil_iff.1 hl] at ha
  simp only [Prod.mk.injEq] at g5 g6 g7 g8 g9
  exact ⟨e, h1, h2, h2', h3, h4, ⟨s5, f5, g5⟩, ⟨s6, f6, g6⟩, ⟨s7, f7, g7⟩, ⟨s8, f8, g8⟩, ⟨a, ha, g9⟩⟩

end TurnSample

theorem reachable_tiles {N : Prim ℝ} {e : Ekf ℝ} (h : e.Reachable N) : Tiles e.state.blocks 0 e.stateSize := h.inv.tiles

/-- The GPS part fails in a reachable filter. -/
theorem C61_gps_violated : ∃ (e : Ekf ℝ) (u u' : GpsUpdater ℝ) (s : GpsState ℝ) (J : Mat ℝ), e.Reachable realNum.toPrim ∧
    e.state.gpss.find? u.id = some s ∧ u.isExtrinsic = s.isExtrinsic ∧ u.measurementJacobian realNum e = .ok (J, u') ∧
    ¬ IsJacobian (fun d => (u.predictMeasurement (e.withBody { e.state.body with ang := e.state.body.ang.turn d })).1) 0 (J.block3 0 9) := by
  obtain ⟨e, he, hf, _, hb, hn, _, ⟨s, hs, hE, hi, hpos⟩, _⟩ := TurnSample.filter
  have hr : e.Reachable realNum.toPrim := ⟨_, _, TurnSample.ops_wf, he⟩
  let u : GpsUpdater ℝ := GpsUpdater.new 7 true
  have hg : u.gpsOf e = s := by simp [u, GpsUpdater.new, GpsUpdater.gpsOf, UMap.getD, hs]
  obtain ⟨J, hJ⟩ : ∃ J, (u.refresh e).jacobianOf realNum e = .ok J := by
    have hg' : (u.refresh e).gpsOf e = s := by
      unfold GpsUpdater.refresh; split <;> exact hg
    unfold GpsUpdater.jacobianOf
    rw [hg', hi, hn, show (u.refresh e).isExtrinsic = true by unfold GpsUpdater.refresh; split <;> rfl]
    exact ⟨_, rfl⟩
  have hJ' : u.measurementJacobian realNum e = .ok (J, u.refresh e) := by simp only [GpsUpdater.measurementJacobian, hJ]; rfl
  have hang : e.state.body.ang = halfTurn := by rw [hb]; rfl
  refine ⟨e, u, u.refresh e, s, J, hr, hs, hE.symm, hJ', ?_⟩
  rw [C61_gps_iff realNum rfl u _ e s J hJ' hf hs hE.symm (reachable_tiles hr) (by rw [hang]; exact halfTurn_unit), hang, hpos]
  rintro (h | h)
  · have := congrFun h 0
    simp at this
  · exact halfTurn_ne h

/-- The fiducial part fails in a reachable filter, for the body and for the camera. -/
theorem C61_fiducial_violated : ∃ (e : Ekf ℝ) (u : FidUpdater ℝ) (s : CamState ℝ) (f : FidState ℝ) (J : Mat ℝ), e.Reachable realNum.toPrim ∧
    e.state.cams.find? u.cameraId = some s ∧ e.state.fids.find? u.id = some f ∧ u.isCamExtrinsic = s.isExtrinsic ∧
    u.isFidExtrinsic = f.isExtrinsic ∧ (u.refresh e f).jacobianOf realNum e f = .ok J ∧
    ¬ IsJacobian (fun d => (u.pred realNum (e.withBody { e.state.body with ang := e.state.body.ang.turn d }) f).1) 0 (J.block3 0 9) ∧
    ¬ IsJacobian (fun d => (u.pred realNum (e.withCam u.cameraId { s with ang := s.ang.turn d }) f).1) 0 (J.block3 0 (s.index + 3)) := by
  obtain ⟨e, he, hf, _, hb, hn, _, _, ⟨s, hs, hE, ha, hi, hps⟩, ⟨f, hm, hx, hi', hpf⟩, _⟩ := TurnSample.filter
  have hr : e.Reachable realNum.toPrim := ⟨_, _, TurnSample.ops_wf, he⟩
  have hT := reachable_tiles hr
  let u : FidUpdater ℝ := FidUpdater.new 4 1 true true
  have hg : u.camOf e = s := by simp [u, FidUpdater.new, FidUpdater.camOf, UMap.getD, hs]
  have hr' : u.refresh e f = { u with posC := s.pos, angC := s.ang, posF := f.pos, angF := f.ang, isFirst := false } := by
    simp [FidUpdater.refresh, hf, hg]
  obtain ⟨J, hJ⟩ : ∃ J, (u.refresh e f).jacobianOf realNum e f = .ok J := by
    have hg' : ({ u with posC := s.pos, angC := s.ang, posF := f.pos, angF := f.ang, isFirst := false } : FidUpdater ℝ).camOf e = s := hg
    rw [hr']
    unfold FidUpdater.jacobianOf
    rw [hg', hi, hi', hn]
    exact ⟨_, rfl⟩
  have hang : e.state.body.ang = halfTurn := by rw [hb]; rfl
  have hbp : e.state.body.pos = 0 := by rw [hb]; rfl
  refine ⟨e, u, s, f, J, hr, hs, hm, hE.symm, hx.symm, hJ, ?_, ?_⟩
  · rw [C61_fiducial_body_iff realNum rfl u e s f J hJ hf hs hm hE.symm hx.symm hT (by rw [hang]; exact halfTurn_unit)
      (by rw [ha]; exact halfTurn_unit) (.inr (by rw [hang]; exact halfTurn_large)), hang, hpf, hbp]
    rintro (h | h)
    · have := congrFun h 2
      simp [Matrix.cons_val] at this
    · exact halfTurn_ne h
  · rw [C61_fiducial_camera_iff realNum rfl u e s f J hJ hf hs hm hE.symm hx.symm hT hE
      (by rw [ha]; exact halfTurn_unit) (.inr (by rw [ha]; exact halfTurn_large)), ha]
    rintro (h | h)
    · have h2 : (u.pred realNum e f).1 = s.ang.toMat.transpose.mulVec (e.state.body.ang.toMat.transpose.mulVec (f.pos - e.state.body.pos) - s.pos) := by
        simp only [FidUpdater.pred, FidUpdater.predictOf, hr']
      rw [h2, hps, sub_zero, ha, hang, transpose_mulVec_eq_zero halfTurn_unit, transpose_mulVec_eq_zero halfTurn_unit, hpf, hbp, sub_zero] at h
      have := congrFun h 2
      simp [Matrix.cons_val] at this
    · exact halfTurn_ne h

/-- The IMU part fails in a reachable filter: at rest for the body orientation and for the mounting, and in motion for the
body orientation and for the mounting orientation. -/
theorem C61_imu_violated : ∃ (e : Ekf ℝ) (u : ImuUpdater) (s : ImuState ℝ) (R J : Mat ℝ), e.Reachable realNum.toPrim ∧
    e.state.imus.find? u.id = some s ∧ u.isExtrinsic = s.isExtrinsic ∧ u.isIntrinsic = s.isIntrinsic ∧
    u.zeroAccJacobian realNum e = .ok R ∧ u.measurementJacobian e = .ok J ∧
    (∀ acc omg, ¬ IsJacobian (fun d => (u.zeroAccResidual (e.withBody { e.state.body with ang := e.state.body.ang.turn d }) acc omg).part3 0) 0
      (-R.block3 0 9)) ∧
    (∀ acc omg, ¬ IsJacobian (fun d => (u.zeroAccResidual (e.withImu u.id { s with ang := s.ang.turn d }) acc omg).part3 0) 0
      (-R.block3 0 (s.indexExtrinsic + 3))) ∧
    (∀ acc omg, ¬ IsJacobian (fun x => (u.zeroAccResidual (e.withImu u.id { s with pos := x }) acc omg).part3 0) s.pos
      (-R.block3 0 s.indexExtrinsic)) ∧
    ¬ IsJacobian (fun d => u.predGyro (e.withBody { e.state.body with ang := e.state.body.ang.turn d })) 0 (J.block3 3 9) ∧
    ¬ IsJacobian (fun d => u.predAcc (e.withImu u.id { s with ang := s.ang.turn d })) 0 (J.block3 0 (s.indexExtrinsic + 3)) := by
  obtain ⟨e, he, hf, _, hb, hn, ⟨s, hs, hE, hI, ha, hi1, hi2⟩, _⟩ := TurnSample.filter
  have hr : e.Reachable realNum.toPrim := ⟨_, _, TurnSample.ops_wf, he⟩
  have hT := reachable_tiles hr
  let u : ImuUpdater := ⟨3, true, true, true⟩
  have hg : u.imuOf e = s := by simp [u, ImuUpdater.imuOf, UMap.getD, hs]
  obtain ⟨J, hJ⟩ : ∃ J, u.measurementJacobian e = .ok J := by
    unfold ImuUpdater.measurementJacobian
    rw [hg]
    dsimp only
    rw [hi1, hi2, hn]
    exact ⟨_, rfl⟩
  obtain ⟨R, hR⟩ : ∃ R, u.zeroAccJacobian realNum e = .ok R := by
    unfold ImuUpdater.zeroAccJacobian
    rw [hg]
    dsimp only
    rw [hi1, hi2, hn]
    exact ⟨_, rfl⟩
  have hang : e.state.body.ang = halfTurn := by rw [hb]; rfl
  have hq : e.state.body.ang.normSq = 1 := by rw [hang]; exact halfTurn_unit
  have hi : s.ang.normSq = 1 := by rw [ha]; simp [Quat.one, Quat.normSq]
  refine ⟨e, u, s, R, J, hr, hs, hE.symm, hI.symm, hR, hJ, fun acc omg => ?_, fun acc omg => ?_, fun acc omg => ?_, ?_, ?_⟩
  · rw [C61_rest_iff realNum rfl u e s R acc omg hR hs hE.symm hI.symm hT hq hi (by rw [ha]; exact quatToRotVec_one.1), hang]
    exact halfTurn_ne
  · exact (C61_rest_mounting_violated realNum u e s R acc omg hR hs hE.symm hI.symm hT hq hi hE).1
  · exact (C61_rest_mounting_violated realNum u e s R acc omg hR hs hE.symm hI.symm hT hq hi hE).2
  · rw [(C61_imu_body_iff u e s J hJ hs hE.symm hI.symm hT hq hi).2, hb]
    intro h
    have := congrFun h 2
    simp [C42_body, Matrix.cons_val] at this
  · rw [(C61_imu_mounting_iff u e s J hJ hs hE.symm hI.symm hT hq hi hE).2, hang, hb]
    intro h
    have := congrFun h 1
    rw [show C42_body.acc = 0 from rfl, Quat.rotate_zero] at this
    simp [C42_body, V3.cross, Matrix.cons_val] at this

/-- The camera part fails in a reachable filter: for the clone's orientation and for the camera's. -/
theorem C61_camera_violated : ∃ (e : Ekf ℝ) (u : MsckfUpdater ℝ) (g : CamState ℝ) (f : FeatureTrack ℝ) (F : V3 ℝ)
    (out : Ekf ℝ × Mat ℝ × Mat ℝ × Vec ℝ) (a : AugState ℝ), e.Reachable realNum.toPrim ∧ e.ClonesFrame u.id ∧
    e.state.cams.find? u.id = some g ∧ u.isCamExtrinsic = g.isExtrinsic ∧ u.angC = g.ang ∧ u.intr.Pinhole ∧
    u.observeLoop realNum e.stateSize (u.camOf e).index F 0 f.track e (blankRows f.track.length e.stateSize) = .ok out ∧
    (∃ p, f.track = [p] ∧ e.poseFor realNum.toPrim u.id p = .ok a) ∧ a ∈ e.window u.id ∧
    ¬ IsJacobian (fun d => u.predicted { a with ang := a.ang.turn d } F) 0 (out.2.2.1.block23 0 (a.index + 3)) ∧
    ¬ IsJacobian (fun d => MsckfUpdater.predicted { u with angC := u.angC.turn d } a F) 0 (out.2.2.1.block23 0 (g.index + 3)) := by
  obtain ⟨e, he, hf, ht, hb, hn, _, _, ⟨g, hg, hE, hga, hi, hps⟩, _, ⟨a, hw, a1, a2, a3⟩⟩ := TurnSample.filter
  have hr : e.Reachable realNum.toPrim := ⟨_, _, TurnSample.ops_wf, he⟩
  have hT := reachable_tiles hr
  let u : MsckfUpdater ℝ := { CamRowsSample.updater 0 with angC := halfTurn }
  let p : FeaturePoint ℝ := ⟨5, 0, 320, 240⟩
  have hwin : a ∈ e.window 1 := by rw [hw]; simp
  have hcl : e.ClonesFrame u.id := .inl ht
  have hpose : e.poseFor realNum.toPrim 1 p = .ok a := by
    obtain ⟨e', h1, _⟩ := C16_found realNum.toPrim e 1 p.frameId p.time hcl [] [] a hw a1 (by simp)
    exact getAugState_pose h1
  have hcam : u.camOf e = g := camOf_eq hg
  obtain ⟨out, ho⟩ := observeLoop_defined realNum u e.stateSize (u.camOf e).index ![2, 0, 5] (by omega)
    (fun _ => by rw [hcam]; exact (cam_columns hT hg hE).2) [p] 0 e (Mat.zero 2 3) (Mat.zero 2 e.stateSize) ⟨2, fun _ => 0⟩
    (fun q hq => by rw [List.mem_singleton] at hq; subst hq; exact ⟨a, hpose, (aug_columns hT (find_of_window hwin) hwin).2⟩)
    (by show _ ≤ 2; simp) ⟨by show _ ≤ 2; simp, le_refl 3⟩ ⟨by show _ ≤ 2; simp, rfl⟩
  have hua : a.ang.normSq = 1 := by rw [a3]; exact halfTurn_unit
  have hx : a.ang.toMat.transpose.mulVec (![2, 0, 5] - a.pos) = ![-2, 0, 5] := by
    rw [a2, a3, sub_zero]
    funext i
    fin_cases i <;> simp [halfTurn, Quat.toMat, Matrix.mulVec, dotProduct, Fin.sum_univ_three, Matrix.cons_val]
  have hz : u.inCamera a ![2, 0, 5] 2 ≠ 0 := by
    rw [← inCamera_steps hua, hx, show u.posC = 0 from rfl, sub_zero, show u.angC = halfTurn from rfl]
    simp [halfTurn, Quat.toMat, Matrix.mulVec, dotProduct, Fin.sum_univ_three, Matrix.cons_val]
  have hpin : u.intr.Pinhole := ⟨⟨by simp [u, CamRowsSample.updater], by simp [u, CamRowsSample.updater], by simp [u, CamRowsSample.updater]⟩, rfl, rfl, rfl, rfl⟩
  refine ⟨e, u, g, ⟨[p], none⟩, ![2, 0, 5], out, a, hr, hcl, hg, hE.symm, hga.symm, hpin, ho, ⟨p, rfl, hpose⟩, hwin, ?_, ?_⟩
  · refine C61_clone_violated realNum e u g ⟨[p], none⟩ ![2, 0, 5] out rfl hr e (.refl _) hg (fun _ => hE) hpin ho hcl halfTurn_unit 0 p rfl a hwin hpose
      hua hz (by rw [a3]; exact halfTurn_large) ?_
    rw [hx, a3, halfTurn_rotVec]
    simp [dotProduct, Fin.sum_univ_three, Matrix.cons_val, Real.pi_ne_zero]
  · have := C61_camera_iff realNum e u g ⟨[p], none⟩ ![2, 0, 5] out rfl hr e (.refl _) hg (fun _ => hE) hpin ho hcl halfTurn_unit rfl 0 p rfl a hpose
      hua hz (.inr halfTurn_large)
    exact fun h => halfTurn_ne (this.1 h)

/-- The hypotheses of `C61_clone_partial` are met by the clones of the sample filter of C59, which are not turned. -/
example : ∃ (e : Ekf ℝ) (a : AugState ℝ), e.Reachable realNum.toPrim ∧ e.ClonesFrame 1 ∧ a ∈ e.window 1 ∧
    e.poseFor realNum.toPrim 1 ⟨6, 0, 320, 240⟩ = .ok a ∧ quatToRotVec a.ang = 0 ∧ a.ang.normSq = 1 ∧ a.pos ≠ 0 := by
  obtain ⟨e, he, ht, hn, _, hw⟩ := CamRowsSample.filter
  obtain ⟨a, b, hw, ⟨a1, a2, a3⟩, ⟨b1, b2, b3⟩⟩ := window_of_map hw
  refine ⟨e, b, ⟨params .all, CamRowsSample.ops, CamRowsSample.ops_wf, he⟩, .inl ht, by rw [hw]; simp, poses ht hw a1 b1 _, by rw [b3]; exact quatToRotVec_one.1,
    by rw [b3]; exact one_unit, ?_⟩
  rw [b2]
  intro h
  have := congrFun h 0
  simp at this

end EkfCal
