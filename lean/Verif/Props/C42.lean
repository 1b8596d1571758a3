import Verif.Spec.Perturb
import Verif.Lemmas.Columns
import Verif.Model.ImuUpdater
import Verif.Model.GpsUpdater
import Verif.Model.FidUpdater
import Verif.Lemmas.RealPrim
import Verif.Props.C02
import Verif.Props.C11
import Mathlib.Tactic.LinearCombination
import Mathlib.Tactic.Abel
import Mathlib.Tactic.NormNum

/-!
# C42 — the IMU, GPS and fiducial Jacobians are derivatives of the predicted measurements

The layout hypothesis `Tiles e.state.blocks 0 e.stateSize` holds in every reachable filter (`C02`).
-/

set_option linter.unusedSectionVars false

namespace EkfCal
section Blocks
variable {K : Type} [Zero K]

theorem block3_same {J out : Mat K} {r c : Nat} {m : M3 K} (h : J.setBlock r c 3 3 (M3.toMat m) = .ok out) :
    out.block3 r c = m := by
  obtain ⟨_, _, rfl⟩ := Mat.setBlock_ok_iff.1 h
  funext i j
  have hi := i.2; have hj := j.2
  simp only [Mat.block3]
  rw [if_pos (by omega)]
  simp [M3.toMat]

theorem get_ne {J out s : Mat K} {r c a b : Nat} (h : J.setBlock r c 3 3 s = .ok out)
    (hd : ¬ (r ≤ a ∧ a < r + 3 ∧ c ≤ b ∧ b < c + 3)) : out.get a b = J.get a b := by
  obtain ⟨_, _, rfl⟩ := Mat.setBlock_ok_iff.1 h
  exact if_neg hd

theorem block3_ne {J out s : Mat K} {r c r' c' : Nat} (h : J.setBlock r c 3 3 s = .ok out)
    (hd : r + 3 ≤ r' ∨ r' + 3 ≤ r ∨ c + 3 ≤ c' ∨ c' + 3 ≤ c) : out.block3 r' c' = J.block3 r' c' := by
  funext i j
  have hi := i.2; have hj := j.2
  exact get_ne h (by omega)

theorem block3_zero (m n r c : Nat) : (Mat.zero m n : Mat K).block3 r c = 0 := rfl

end Blocks

/-! ## GPS -/

/-- GPS: the position columns are the derivative with respect to the body position, the columns published for the antenna
are the derivative with respect to the antenna position, and all columns other than these and the body orientation are
zero. -/
theorem C42_gps (N : Num ℝ) (u u' : GpsUpdater ℝ) (e : Ekf ℝ) (s : GpsState ℝ) (J : Mat ℝ)
    (h : u.measurementJacobian N e = .ok (J, u')) (hf : e.useFirstEstimate = false)
    (hs : e.state.gpss.find? u.id = some s) (hflag : u.isExtrinsic = s.isExtrinsic)
    (hT : Tiles e.state.blocks 0 e.stateSize) :
    IsJacobian (fun x => (u.predictMeasurement (e.withBody { e.state.body with pos := x })).1) e.state.body.pos (J.block3 0 0) ∧
    (s.isExtrinsic = true →
      IsJacobian (fun x => (u.predictMeasurement (e.withGps u.id { s with pos := x })).1) s.pos (J.block3 0 s.index)) ∧
    (∀ i c, i < 3 → ¬ InCols c 0 3 → ¬ InCols c 9 3 → (s.isExtrinsic = true → ¬ InCols c s.index 3) → J.get i c = 0) := by
  have hg : u.gpsOf e = s := by simp [GpsUpdater.gpsOf, UMap.getD, hs]
  have hr : u.refresh e = { u with posAInB := s.pos, isFirst := false } := by
    simp [GpsUpdater.refresh, hf, hg]
  have hg' : ({ u with posAInB := s.pos, isFirst := false } : GpsUpdater ℝ).gpsOf e = s := hg
  have hcol := gps_columns hT hs
  simp only [GpsUpdater.measurementJacobian, bind_ok_iff, pure_res, Except.ok.injEq, Prod.mk.injEq] at h
  obtain ⟨J', h, rfl, rfl⟩ := h
  rw [hr] at h
  simp only [GpsUpdater.jacobianOf, bind_ok_iff, hg'] at h
  obtain ⟨J1, h1, J2, h2, h⟩ := h
  have p1 : ∀ x, (u.predictMeasurement (e.withBody { e.state.body with pos := x })).1 =
      x + e.state.body.ang.rotate s.pos := by
    intro x
    have : u.refresh (e.withBody { e.state.body with pos := x }) = { u with posAInB := s.pos, isFirst := false } := by
      rw [← hr]; rfl
    simp only [GpsUpdater.predictMeasurement, this]; rfl
  have p2 : ∀ x, (u.predictMeasurement (e.withGps u.id { s with pos := x })).1 =
      e.state.body.pos + e.state.body.ang.rotate x := by
    intro x
    have : u.refresh (e.withGps u.id { s with pos := x }) = { u with posAInB := x, isFirst := false } := by
      simp [GpsUpdater.refresh, hf, GpsUpdater.gpsOf, Ekf.withGps]
    simp only [GpsUpdater.predictMeasurement, this]; rfl
  have d1 : IsJacobian (fun x => x + e.state.body.ang.rotate s.pos) e.state.body.pos 1 :=
    ((isJacobian_id _).add (isJacobian_const _ _)).congr (add_zero _)
  have d2 : IsJacobian (fun x => e.state.body.pos + e.state.body.ang.rotate x) s.pos e.state.body.ang.toMat := by
    simp only [Quat.rotate_eq_mulVec]
    exact ((isJacobian_const _ _).add (isJacobian_linear _ _)).congr (zero_add _)
  simp only [p1, p2]
  cases hx : s.isExtrinsic with
  | false =>
    rw [hflag, hx] at h
    simp only [Bool.false_eq_true, if_false, pure_res, Except.ok.injEq] at h
    subst h
    refine ⟨d1.congr ?_, by simp, fun i c hi c1 c2 _ => ?_⟩
    · rw [block3_ne h2 (by omega), block3_same h1]
    · unfold InCols at *
      rw [get_ne h2 (by omega), get_ne h1 (by omega)]; rfl
  | true =>
    have hcol := hcol hx
    rw [hflag, hx] at h
    simp only [if_true] at h
    refine ⟨d1.congr ?_, fun _ => d2.congr ?_, fun i c hi c1 c2 c3 => ?_⟩
    · rw [block3_ne h (by omega), block3_ne h2 (by omega), block3_same h1]
    · rw [block3_same h]
    · have c3 := c3 rfl
      unfold InCols at *
      rw [get_ne h (by omega), get_ne h2 (by omega), get_ne h1 (by omega)]; rfl

/-! ## Fiducial -/

/-- The updater as it linearises, for a registered marker `f`. -/
noncomputable def FidUpdater.pred (N : Num ℝ) (u : FidUpdater ℝ) (e : Ekf ℝ) (f : FidState ℝ) : V3 ℝ × V3 ℝ := (u.refresh e f).predictOf N e

theorem fiducial_jacobian (N : Num ℝ) (u : FidUpdater ℝ) (e : Ekf ℝ) (s : CamState ℝ) (f : FidState ℝ) (J : Mat ℝ)
    (h : (u.refresh e f).jacobianOf N e f = .ok J) (hf : e.useFirstEstimate = false)
    (hs : e.state.cams.find? u.cameraId = some s) (hm : e.state.fids.find? u.id = some f)
    (hflag : u.isCamExtrinsic = s.isExtrinsic) (hflag' : u.isFidExtrinsic = f.isExtrinsic)
    (hT : Tiles e.state.blocks 0 e.stateSize) :
    IsJacobian (fun x => (u.pred N (e.withBody { e.state.body with pos := x }) f).1) e.state.body.pos (J.block3 0 0) ∧
    IsJacobian (fun x => (u.pred N (e.withBody { e.state.body with pos := x }) f).2) e.state.body.pos (J.block3 3 0) ∧
    (s.isExtrinsic = true →
      IsJacobian (fun x => (u.pred N (e.withCam u.cameraId { s with pos := x }) f).1) s.pos (J.block3 0 s.index) ∧
      IsJacobian (fun x => (u.pred N (e.withCam u.cameraId { s with pos := x }) f).2) s.pos (J.block3 3 s.index)) ∧
    (f.isExtrinsic = true →
      IsJacobian (fun x => (u.pred N e { f with pos := x }).2) f.pos (J.block3 3 f.index)) ∧
    (∀ i c, i < 6 → ¬ InCols c 0 3 → ¬ InCols c 9 3 → (s.isExtrinsic = true → ¬ InCols c s.index 6) →
      (f.isExtrinsic = true → ¬ InCols c f.index 6) → J.get i c = 0) ∧
    (f.isExtrinsic = true →
      (IsJacobian (fun x => (u.pred N e { f with pos := x }).1) f.pos (J.block3 0 f.index) ↔
        s.ang.toMat.transpose * e.state.body.ang.toMat.transpose = 1)) := by
  have hg : u.camOf e = s := by simp [FidUpdater.camOf, UMap.getD, hs]
  have hr : ∀ f', u.refresh e f' = { u with posC := s.pos, angC := s.ang, posF := f'.pos, angF := f'.ang, isFirst := false } := by
    intro f'; simp [FidUpdater.refresh, hf, hg]
  have hg' : ({ u with posC := s.pos, angC := s.ang, posF := f.pos, angF := f.ang, isFirst := false } : FidUpdater ℝ).camOf e = s := hg
  obtain ⟨cc, cf, cd⟩ := cam_fid_columns hT hs hm
  rw [hr] at h
  simp only [FidUpdater.jacobianOf, bind_ok_iff, hg'] at h
  obtain ⟨J1, h1, J2, h2, J3, h3, h4⟩ := h
  have p1 : ∀ x, u.pred N (e.withBody { e.state.body with pos := x }) f =
      (s.ang.toMat.transpose.mulVec (e.state.body.ang.toMat.transpose.mulVec (f.pos - x) - s.pos),
        N.quatToRotVec ((N.ofMat (s.ang.toMat.transpose * e.state.body.ang.toMat.transpose)).mul f.ang)) := by
    intro x
    have : u.refresh (e.withBody { e.state.body with pos := x }) f =
        { u with posC := s.pos, angC := s.ang, posF := f.pos, angF := f.ang, isFirst := false } := by
      rw [← hr]; rfl
    simp only [FidUpdater.pred, FidUpdater.predictOf, this]; rfl
  have p2 : ∀ x, u.pred N (e.withCam u.cameraId { s with pos := x }) f =
      (s.ang.toMat.transpose.mulVec (e.state.body.ang.toMat.transpose.mulVec (f.pos - e.state.body.pos) - x),
        N.quatToRotVec ((N.ofMat (s.ang.toMat.transpose * e.state.body.ang.toMat.transpose)).mul f.ang)) := by
    intro x
    have : u.refresh (e.withCam u.cameraId { s with pos := x }) f =
        { u with posC := x, angC := s.ang, posF := f.pos, angF := f.ang, isFirst := false } := by
      simp [FidUpdater.refresh, hf, FidUpdater.camOf, Ekf.withCam]
    simp only [FidUpdater.pred, FidUpdater.predictOf, this]; rfl
  have p3 : ∀ x, u.pred N e { f with pos := x } =
      (s.ang.toMat.transpose.mulVec (e.state.body.ang.toMat.transpose.mulVec (x - e.state.body.pos) - s.pos),
        N.quatToRotVec ((N.ofMat (s.ang.toMat.transpose * e.state.body.ang.toMat.transpose)).mul f.ang)) := by
    intro x
    simp [FidUpdater.pred, FidUpdater.predictOf, hr]
  simp only [p1, p2, p3]
  have d1 : IsJacobian (fun x => s.ang.toMat.transpose.mulVec (e.state.body.ang.toMat.transpose.mulVec (f.pos - x) - s.pos))
      e.state.body.pos (-(s.ang.toMat.transpose * e.state.body.ang.toMat.transpose)) :=
    (((((isJacobian_const _ _).sub (isJacobian_id _)).mulLeft _).sub (isJacobian_const _ _)).mulLeft _).congr (by simp)
  have d2 : IsJacobian (fun x => s.ang.toMat.transpose.mulVec
      (e.state.body.ang.toMat.transpose.mulVec (f.pos - e.state.body.pos) - x)) s.pos (-s.ang.toMat.transpose) :=
    (((isJacobian_const _ _).sub (isJacobian_id _)).mulLeft _).congr (by simp)
  have d3 : IsJacobian (fun x => s.ang.toMat.transpose.mulVec
      (e.state.body.ang.toMat.transpose.mulVec (x - e.state.body.pos) - s.pos)) f.pos
      (s.ang.toMat.transpose * e.state.body.ang.toMat.transpose) :=
    (((((isJacobian_id _).sub (isJacobian_const _ _)).mulLeft _).sub (isJacobian_const _ _)).mulLeft _).congr (by simp)
  have b30 : J3.block3 0 0 = -(s.ang.toMat.transpose * e.state.body.ang.toMat.transpose) := by
    rw [block3_ne h3 (by omega), block3_ne h2 (by omega), block3_same h1]
  have b33 : J3.block3 3 0 = 0 := by
    rw [block3_ne h3 (by omega), block3_ne h2 (by omega), block3_ne h1 (by omega)]; rfl
  have bz : ∀ i c, 12 ≤ c → J3.get i c = 0 := by
    intro i c hc
    rw [get_ne h3 (by omega), get_ne h2 (by omega), get_ne h1 (by omega)]; rfl
  have bz' : ∀ i c, ¬ InCols c 0 3 → ¬ InCols c 9 3 → J3.get i c = 0 := by
    intro i c hc hc'
    unfold InCols at *
    rw [get_ne h3 (by omega), get_ne h2 (by omega), get_ne h1 (by omega)]; rfl
  have bzz : ∀ r c, 12 ≤ c → J3.block3 r c = 0 := fun r c hc => by
    funext i j; exact bz _ _ (by omega)
  clear h1 h2 h3 p1 p2 p3
  -- after the camera columns
  obtain ⟨J4, ⟨k1, k2, k3, kz⟩, h5⟩ : ∃ J4 : Mat ℝ,
      (J4.block3 0 0 = -(s.ang.toMat.transpose * e.state.body.ang.toMat.transpose) ∧ J4.block3 3 0 = 0 ∧
      (s.isExtrinsic = true → J4.block3 0 s.index = -s.ang.toMat.transpose ∧ J4.block3 3 s.index = 0) ∧
      (∀ i c, ¬ InCols c 0 3 → ¬ InCols c 9 3 → (s.isExtrinsic = true → ¬ InCols c s.index 6) → J4.get i c = 0)) ∧
      (if u.isFidExtrinsic = true then do
        let jac ← J4.setBlock 0 (f.index + 0) 3 3 (M3.toMat 1)
        jac.setBlock 3 (f.index + 3) 3 3 (M3.toMat 1)
      else pure J4) = .ok J := by
    cases hx : s.isExtrinsic with
    | false =>
      rw [hflag, hx] at h4
      simp only [Bool.false_eq_true, if_false] at h4
      exact ⟨J3, ⟨b30, b33, by simp, fun i c a b _ => bz' i c a b⟩, h4⟩
    | true =>
      have cc := cc hx
      rw [hflag, hx] at h4
      simp only [if_true, bind_ok_iff] at h4
      obtain ⟨J5, g1, J6, g2, J4, g3, h5⟩ := h4
      rw [Nat.add_zero] at g1
      refine ⟨J4, ⟨?_, ?_, fun _ => ⟨?_, ?_⟩, fun i c a b d => ?_⟩, h5⟩
      · rw [block3_ne g3 (by omega), block3_ne g2 (by omega), block3_ne g1 (by omega), b30]
      · rw [block3_ne g3 (by omega), block3_ne g2 (by omega), block3_ne g1 (by omega), b33]
      · rw [block3_ne g3 (by omega), block3_ne g2 (by omega), block3_same g1]
      · rw [block3_ne g3 (by omega), block3_ne g2 (by omega), block3_ne g1 (by omega), bzz _ _ (by omega)]
      · have d := d rfl
        rw [get_ne g3 (by unfold InCols at *; omega), get_ne g2 (by unfold InCols at *; omega),
          get_ne g1 (by unfold InCols at *; omega), bz' _ _ a b]
  clear h4 b30 b33 bz bz' bzz
  cases hx : f.isExtrinsic with
  | false =>
    rw [hflag', hx] at h5
    simp only [Bool.false_eq_true, if_false, pure_res, Except.ok.injEq] at h5
    subst h5
    refine ⟨d1.congr k1.symm, (isJacobian_const _ _).congr k2.symm,
      fun he => ⟨d2.congr (k3 he).1.symm, (isJacobian_const _ _).congr (k3 he).2.symm⟩, by simp, fun i c _ a b d _ => kz i c a b d, by simp⟩
  | true =>
    have cf := cf hx
    rw [hflag', hx] at h5
    simp only [if_true, bind_ok_iff, Nat.add_zero] at h5
    obtain ⟨J7, g1, g2⟩ := h5
    have hfz : J4.block3 3 f.index = 0 := by
      funext i j
      refine kz _ _ (by unfold InCols; omega) (by unfold InCols; omega) (fun he => ?_)
      have := cd he hx
      unfold InCols; omega
    refine ⟨d1.congr ?_, (isJacobian_const _ _).congr ?_, fun he => ?_, fun _ => (isJacobian_const _ _).congr ?_, fun i c _ a b d d' => ?_, fun _ => ?_⟩
    · rw [block3_ne g2 (by omega), block3_ne g1 (by omega), k1]
    · rw [block3_ne g2 (by omega), block3_ne g1 (by omega), k2]
    · have := cd he hx
      refine ⟨d2.congr ?_, (isJacobian_const _ _).congr ?_⟩
      · rw [block3_ne g2 (by omega), block3_ne g1 (by omega), (k3 he).1]
      · rw [block3_ne g2 (by omega), block3_ne g1 (by omega), (k3 he).2]
    · rw [block3_ne g2 (by omega), block3_ne g1 (by omega), hfz]
    · have d' := d' rfl
      rw [get_ne g2 (by unfold InCols at *; omega), get_ne g1 (by unfold InCols at *; omega), kz _ _ a b d]
    · rw [block3_ne g2 (by omega), block3_same g1]
      exact ⟨fun hJ => isJacobian_unique d3 hJ, fun he => he ▸ d3⟩

/-- Fiducial: the columns of the body position and of the camera position are the derivatives of the predicted relative
position and of the predicted rotation, the rotation rows of the marker position columns are right, and the columns of
everything other than body, camera and marker pose are zero.  What is missing is how the predicted position changes with
the marker position, see `C42_fiducial_iff`. -/
theorem C42_fiducial_partial (N : Num ℝ) (u : FidUpdater ℝ) (e : Ekf ℝ) (s : CamState ℝ) (f : FidState ℝ) (J : Mat ℝ)
    (h : (u.refresh e f).jacobianOf N e f = .ok J) (hf : e.useFirstEstimate = false)
    (hs : e.state.cams.find? u.cameraId = some s) (hm : e.state.fids.find? u.id = some f)
    (hflag : u.isCamExtrinsic = s.isExtrinsic) (hflag' : u.isFidExtrinsic = f.isExtrinsic)
    (hT : Tiles e.state.blocks 0 e.stateSize) :
    IsJacobian (fun x => (u.pred N (e.withBody { e.state.body with pos := x }) f).1) e.state.body.pos (J.block3 0 0) ∧
    IsJacobian (fun x => (u.pred N (e.withBody { e.state.body with pos := x }) f).2) e.state.body.pos (J.block3 3 0) ∧
    (s.isExtrinsic = true →
      IsJacobian (fun x => (u.pred N (e.withCam u.cameraId { s with pos := x }) f).1) s.pos (J.block3 0 s.index) ∧
      IsJacobian (fun x => (u.pred N (e.withCam u.cameraId { s with pos := x }) f).2) s.pos (J.block3 3 s.index)) ∧
    (f.isExtrinsic = true →
      IsJacobian (fun x => (u.pred N e { f with pos := x }).2) f.pos (J.block3 3 f.index)) ∧
    (∀ i c, i < 6 → ¬ InCols c 0 3 → ¬ InCols c 9 3 → (s.isExtrinsic = true → ¬ InCols c s.index 6) →
      (f.isExtrinsic = true → ¬ InCols c f.index 6) → J.get i c = 0) := by
  obtain ⟨h1, h2, h3, h4, h5, _⟩ := fiducial_jacobian N u e s f J h hf hs hm hflag hflag' hT
  exact ⟨h1, h2, h3, h4, h5⟩

/-- Fiducial: the columns published for the marker position are the derivative of the predicted relative position exactly
when the camera axes are the local axes (the code writes an identity block there). -/
theorem C42_fiducial_iff (N : Num ℝ) (u : FidUpdater ℝ) (e : Ekf ℝ) (s : CamState ℝ) (f : FidState ℝ) (J : Mat ℝ)
    (h : (u.refresh e f).jacobianOf N e f = .ok J) (hf : e.useFirstEstimate = false)
    (hs : e.state.cams.find? u.cameraId = some s) (hm : e.state.fids.find? u.id = some f)
    (hflag : u.isCamExtrinsic = s.isExtrinsic) (hflag' : u.isFidExtrinsic = f.isExtrinsic)
    (hT : Tiles e.state.blocks 0 e.stateSize) (hx : f.isExtrinsic = true) :
    IsJacobian (fun x => (u.pred N e { f with pos := x }).1) f.pos (J.block3 0 f.index) ↔
      s.ang.toMat.transpose * e.state.body.ang.toMat.transpose = 1 :=
  (fiducial_jacobian N u e s f J h hf hs hm hflag hflag' hT).2.2.2.2.2 hx

/-! ## IMU -/

/-- Predicted specific force. -/
noncomputable def ImuUpdater.predAcc (u : ImuUpdater) (e : Ekf ℝ) : V3 ℝ := (u.predictMeasurement e).part3 0
/-- Predicted angular rate. -/
noncomputable def ImuUpdater.predGyro (u : ImuUpdater) (e : Ekf ℝ) : V3 ℝ := (u.predictMeasurement e).part3 3

theorem predAcc_eq (u : ImuUpdater) (e : Ekf ℝ) :
    u.predAcc e = (u.imuOf e).accBias + (u.imuOf e).ang.inverse.toMat.mulVec (e.state.body.acc + V3.cross e.state.body.angAcc (u.imuOf e).pos +
      V3.cross e.state.body.angVel (V3.cross e.state.body.angVel (u.imuOf e).pos) + (2 : ℝ) • V3.cross e.state.body.angVel e.state.body.vel) := by
  rw [← Quat.rotate_eq_mulVec]
  funext i
  have hi := i.2
  simp [ImuUpdater.predAcc, ImuUpdater.predictMeasurement, Vec.part3, Vec.of6]

theorem predGyro_eq (u : ImuUpdater) (e : Ekf ℝ) :
    u.predGyro e = (u.imuOf e).omgBias + ((u.imuOf e).ang.inverse.toMat * e.state.body.ang.inverse.toMat).mulVec e.state.body.angVel := by
  rw [← Matrix.mulVec_mulVec, ← Quat.rotate_eq_mulVec, ← Quat.rotate_eq_mulVec]
  funext i
  have hi := i.2
  simp [ImuUpdater.predGyro, ImuUpdater.predictMeasurement, Vec.part3, Vec.of6]

theorem imuOf_withImu (u : ImuUpdater) (e : Ekf ℝ) (s : ImuState ℝ) : u.imuOf (e.withImu u.id s) = s := by
  simp [ImuUpdater.imuOf, Ekf.withImu]

theorem withBody_body (e : Ekf ℝ) (b : BodyState ℝ) : (e.withBody b).state.body = b := rfl
theorem withImu_body (e : Ekf ℝ) (k : Nat) (s : ImuState ℝ) : (e.withImu k s).state.body = e.state.body := rfl

theorem inverse_unit {q : Quat ℝ} (h : q.normSq = 1) : q.inverse = ⟨q.w, -q.x, -q.y, -q.z⟩ := by
  simp [Quat.inverse, h]

/-- The rotation matrix of a unit quaternion has its transpose as inverse. -/
theorem toMat_orthogonal {q : Quat ℝ} (h : q.normSq = 1) : q.toMat.transpose * q.toMat = 1 := by
  unfold Quat.normSq at h
  funext i j
  fin_cases i <;> fin_cases j <;> simp [Quat.toMat, Matrix.mul_apply, Fin.sum_univ_three]
  · linear_combination (4 * (q.y * q.y + q.z * q.z)) * h
  · linear_combination (-4 * q.x * q.y) * h
  · linear_combination (-4 * q.x * q.z) * h
  · linear_combination (-4 * q.x * q.y) * h
  · linear_combination (4 * (q.x * q.x + q.z * q.z)) * h
  · linear_combination (-4 * q.y * q.z) * h
  · linear_combination (-4 * q.x * q.z) * h
  · linear_combination (-4 * q.y * q.z) * h
  · linear_combination (4 * (q.x * q.x + q.y * q.y)) * h

theorem inverse_orthogonal {q : Quat ℝ} (h : q.normSq = 1) : q.inverse.toMat.transpose * q.inverse.toMat = 1 := by
  rw [inverse_unit h]
  refine toMat_orthogonal ?_
  rw [← h]; simp [Quat.normSq]

theorem mul_left_cancel_unit {q : Quat ℝ} (h : q.normSq = 1) {A B : M3 ℝ} (he : q.inverse.toMat * A = q.inverse.toMat * B) :
    A = B := by
  have := congrArg (fun X => q.inverse.toMat.transpose * X) he
  simpa only [← Matrix.mul_assoc, inverse_orthogonal h, Matrix.one_mul] using this

theorem skew_transpose (v : V3 ℝ) : (skew v).transpose = -skew v := by
  funext i j
  fin_cases i <;> fin_cases j <;> simp [skew]

theorem skew_eq_zero {v : V3 ℝ} (h : skew v = 0) : v = 0 := by
  funext i
  have h1 := congrFun (congrFun h 2) 1
  have h2 := congrFun (congrFun h 0) 2
  have h3 := congrFun (congrFun h 1) 0
  simp [skew] at h1 h2 h3
  fin_cases i <;> simp [h1, h2, h3]

theorem skew_zero : skew (0 : V3 ℝ) = 0 := by
  funext i j
  fin_cases i <;> fin_cases j <;> simp [skew]

/-- The blocks of the IMU Jacobian. -/
theorem imu_blocks (u : ImuUpdater) (e : Ekf ℝ) (s : ImuState ℝ) (J : Mat ℝ) (h : u.measurementJacobian e = .ok J)
    (hs : e.state.imus.find? u.id = some s) (hE : u.isExtrinsic = s.isExtrinsic) (hI : u.isIntrinsic = s.isIntrinsic)
    (hT : Tiles e.state.blocks 0 e.stateSize) :
    J.block3 0 6 = s.ang.inverse.toMat * e.state.body.ang.inverse.toMat ∧
    J.block3 0 12 = s.ang.inverse.toMat * (skew e.state.body.angVel * (skew s.pos).transpose +
      (skew (V3.cross e.state.body.angVel s.pos)).transpose) ∧
    J.block3 0 15 = -s.ang.inverse.toMat * skew s.pos ∧
    J.block3 3 12 = s.ang.inverse.toMat * e.state.body.ang.inverse.toMat ∧
    (s.isExtrinsic = true → J.block3 0 s.indexExtrinsic = s.ang.inverse.toMat *
      (skew e.state.body.angAcc + skew e.state.body.angVel * skew e.state.body.angVel)) ∧
    (s.isIntrinsic = true → J.block3 0 s.indexIntrinsic = 1 ∧ J.block3 3 (s.indexIntrinsic + 3) = 1) ∧
    (∀ i c, i < 3 → ¬ InCols c 6 3 → ¬ InCols c 12 6 → (s.isExtrinsic = true → ¬ InCols c s.indexExtrinsic 6) →
      (s.isIntrinsic = true → ¬ InCols c s.indexIntrinsic 3) → J.get i c = 0) ∧
    (∀ i c, 3 ≤ i → i < 6 → ¬ InCols c 12 3 → (s.isExtrinsic = true → ¬ InCols c (s.indexExtrinsic + 3) 3) →
      (s.isIntrinsic = true → ¬ InCols c (s.indexIntrinsic + 3) 3) → J.get i c = 0) := by
  have hg : u.imuOf e = s := by simp [ImuUpdater.imuOf, UMap.getD, hs]
  obtain ⟨ce, ci, cd⟩ := imu_columns hT hs
  simp only [ImuUpdater.measurementJacobian, bind_ok_iff, hg, Nat.add_zero] at h
  obtain ⟨J1, h1, J2, h2, J3, h3, J4, h4, h5⟩ := h
  have z4 : ∀ i c, i < 3 → ¬ InCols c 6 3 → ¬ InCols c 12 6 → J4.get i c = 0 := by
    intro i c hi hc hc'
    unfold InCols at *
    rw [get_ne h4 (by omega), get_ne h3 (by omega), get_ne h2 (by omega), get_ne h1 (by omega)]; rfl
  have z4' : ∀ i c, 3 ≤ i → ¬ InCols c 12 3 → J4.get i c = 0 := by
    intro i c hi hc
    unfold InCols at *
    rw [get_ne h4 (by omega), get_ne h3 (by omega), get_ne h2 (by omega), get_ne h1 (by omega)]; rfl
  have b1 : J4.block3 0 6 = s.ang.inverse.toMat * e.state.body.ang.inverse.toMat := by
    rw [block3_ne h4 (by omega), block3_ne h3 (by omega), block3_ne h2 (by omega), block3_same h1]
  have b2 : J4.block3 0 12 = s.ang.inverse.toMat * (skew e.state.body.angVel * (skew s.pos).transpose +
      (skew (V3.cross e.state.body.angVel s.pos)).transpose) := by
    rw [block3_ne h4 (by omega), block3_ne h3 (by omega), block3_same h2]
  have b3 : J4.block3 0 15 = -s.ang.inverse.toMat * skew s.pos := by
    rw [block3_ne h4 (by omega), block3_same h3]
  have b4 : J4.block3 3 12 = s.ang.inverse.toMat * e.state.body.ang.inverse.toMat := by rw [block3_same h4]
  clear h1 h2 h3 h4
  obtain ⟨J5, ⟨k1, k2, k3, k4, k5, kz, kz'⟩, h6⟩ : ∃ J5 : Mat ℝ,
      (J5.block3 0 6 = J4.block3 0 6 ∧ J5.block3 0 12 = J4.block3 0 12 ∧ J5.block3 0 15 = J4.block3 0 15 ∧
        J5.block3 3 12 = J4.block3 3 12 ∧
        (s.isExtrinsic = true → J5.block3 0 s.indexExtrinsic = s.ang.inverse.toMat *
          (skew e.state.body.angAcc + skew e.state.body.angVel * skew e.state.body.angVel)) ∧
        (∀ i c, i < 3 → ¬ InCols c 6 3 → ¬ InCols c 12 6 → (s.isExtrinsic = true → ¬ InCols c s.indexExtrinsic 6) → J5.get i c = 0) ∧
        (∀ i c, 3 ≤ i → ¬ InCols c 12 3 → (s.isExtrinsic = true → ¬ InCols c (s.indexExtrinsic + 3) 3) → J5.get i c = 0)) ∧
      (if u.isIntrinsic = true then do
        let jac ← J5.setBlock 0 s.indexIntrinsic 3 3 (M3.toMat 1)
        jac.setBlock 3 (s.indexIntrinsic + 3) 3 3 (M3.toMat 1)
      else pure J5) = .ok J := by
    cases hx : s.isExtrinsic with
    | false =>
      rw [hE, hx] at h5
      simp only [Bool.false_eq_true, if_false] at h5
      exact ⟨J4, ⟨rfl, rfl, rfl, rfl, by simp, fun i c hi a b _ => z4 i c hi a b, fun i c hi a _ => z4' i c hi a⟩, h5⟩
    | true =>
      have ce := ce hx
      rw [hE, hx] at h5
      simp only [if_true, bind_ok_iff] at h5
      obtain ⟨J6, g1, J7, g2, J5, g3, h6⟩ := h5
      refine ⟨J5, ⟨?_, ?_, ?_, ?_, fun _ => ?_, fun i c hi a b d => ?_, fun i c hi a d => ?_⟩, h6⟩
      · rw [block3_ne g3 (by omega), block3_ne g2 (by omega), block3_ne g1 (by omega)]
      · rw [block3_ne g3 (by omega), block3_ne g2 (by omega), block3_ne g1 (by omega)]
      · rw [block3_ne g3 (by omega), block3_ne g2 (by omega), block3_ne g1 (by omega)]
      · rw [block3_ne g3 (by omega), block3_ne g2 (by omega), block3_ne g1 (by omega)]
      · rw [block3_ne g3 (by omega), block3_ne g2 (by omega), block3_same g1]
      · have d := d rfl
        rw [get_ne g3 (by unfold InCols at *; omega), get_ne g2 (by unfold InCols at *; omega),
          get_ne g1 (by unfold InCols at *; omega), z4 _ _ hi a b]
      · have d := d rfl
        rw [get_ne g3 (by unfold InCols at *; omega), get_ne g2 (by unfold InCols at *; omega),
          get_ne g1 (by unfold InCols at *; omega), z4' _ _ hi a]
  clear h5 z4 z4'
  cases hx : s.isIntrinsic with
  | false =>
    rw [hI, hx] at h6
    simp only [Bool.false_eq_true, if_false, pure_res, Except.ok.injEq] at h6
    subst h6
    exact ⟨k1.trans b1, k2.trans b2, k3.trans b3, k4.trans b4, k5, by simp, fun i c hi a b d _ => kz i c hi a b d,
      fun i c hi _ a d _ => kz' i c hi a d⟩
  | true =>
    have ci := ci hx
    rw [hI, hx] at h6
    simp only [if_true, bind_ok_iff] at h6
    obtain ⟨J6, g1, g2⟩ := h6
    refine ⟨?_, ?_, ?_, ?_, fun he => ?_, fun _ => ⟨?_, ?_⟩, fun i c hi a b d d' => ?_, fun i c hi _ a d d' => ?_⟩
    · rw [block3_ne g2 (by omega), block3_ne g1 (by omega), k1, b1]
    · rw [block3_ne g2 (by omega), block3_ne g1 (by omega), k2, b2]
    · rw [block3_ne g2 (by omega), block3_ne g1 (by omega), k3, b3]
    · rw [block3_ne g2 (by omega), block3_ne g1 (by omega), k4, b4]
    · have := cd he hx
      rw [block3_ne g2 (by omega), block3_ne g1 (by omega), k5 he]
    · rw [block3_ne g2 (by omega), block3_same g1]
    · rw [block3_same g2]
    · have d' := d' rfl
      rw [get_ne g2 (by unfold InCols at *; omega), get_ne g1 (by unfold InCols at *; omega), kz _ _ hi a b d]
    · have d' := d' rfl
      rw [get_ne g2 (by unfold InCols at *; omega), get_ne g1 (by unfold InCols at *; omega), kz' _ _ hi a d]

/-- IMU: the columns of body position, angular acceleration, mounting position and both biases are the derivatives of
predicted specific force and predicted angular rate; the angular rate rows are right for velocity, acceleration and
angular velocity too; everything outside the listed columns is zero.  What is missing is how the specific force changes
with velocity, acceleration and angular velocity, see `C42_imu_velocity_iff`, `C42_imu_acceleration_iff`,
`C42_imu_rate_iff`. -/
theorem C42_imu_partial (u : ImuUpdater) (e : Ekf ℝ) (s : ImuState ℝ) (J : Mat ℝ) (h : u.measurementJacobian e = .ok J)
    (hs : e.state.imus.find? u.id = some s) (hE : u.isExtrinsic = s.isExtrinsic) (hI : u.isIntrinsic = s.isIntrinsic)
    (hT : Tiles e.state.blocks 0 e.stateSize) :
    -- body
    (IsJacobian (fun x => u.predAcc (e.withBody { e.state.body with pos := x })) e.state.body.pos (J.block3 0 0) ∧
     IsJacobian (fun x => u.predGyro (e.withBody { e.state.body with pos := x })) e.state.body.pos (J.block3 3 0)) ∧
    IsJacobian (fun x => u.predGyro (e.withBody { e.state.body with vel := x })) e.state.body.vel (J.block3 3 3) ∧
    IsJacobian (fun x => u.predGyro (e.withBody { e.state.body with acc := x })) e.state.body.acc (J.block3 3 6) ∧
    IsJacobian (fun x => u.predGyro (e.withBody { e.state.body with angVel := x })) e.state.body.angVel (J.block3 3 12) ∧
    (IsJacobian (fun x => u.predAcc (e.withBody { e.state.body with angAcc := x })) e.state.body.angAcc (J.block3 0 15) ∧
     IsJacobian (fun x => u.predGyro (e.withBody { e.state.body with angAcc := x })) e.state.body.angAcc (J.block3 3 15)) ∧
    -- mounting position
    (s.isExtrinsic = true →
      IsJacobian (fun x => u.predAcc (e.withImu u.id { s with pos := x })) s.pos (J.block3 0 s.indexExtrinsic) ∧
      IsJacobian (fun x => u.predGyro (e.withImu u.id { s with pos := x })) s.pos (J.block3 3 s.indexExtrinsic)) ∧
    -- biases
    (s.isIntrinsic = true →
      IsJacobian (fun x => u.predAcc (e.withImu u.id { s with accBias := x })) s.accBias (J.block3 0 s.indexIntrinsic) ∧
      IsJacobian (fun x => u.predGyro (e.withImu u.id { s with accBias := x })) s.accBias (J.block3 3 s.indexIntrinsic) ∧
      IsJacobian (fun x => u.predAcc (e.withImu u.id { s with omgBias := x })) s.omgBias (J.block3 0 (s.indexIntrinsic + 3)) ∧
      IsJacobian (fun x => u.predGyro (e.withImu u.id { s with omgBias := x })) s.omgBias (J.block3 3 (s.indexIntrinsic + 3))) ∧
    -- everything else
    (∀ i c, i < 6 → ¬ InCols c 6 3 → ¬ InCols c 12 6 → (s.isExtrinsic = true → ¬ InCols c s.indexExtrinsic 6) →
      (s.isIntrinsic = true → ¬ InCols c s.indexIntrinsic 6) → J.get i c = 0) := by
  have hg : u.imuOf e = s := by simp [ImuUpdater.imuOf, UMap.getD, hs]
  obtain ⟨ce, ci, cd⟩ := imu_columns hT hs
  obtain ⟨b1, b2, b3, b4, b5, b6, z1, z2⟩ := imu_blocks u e s J h hs hE hI hT
  have hb : ∀ b, u.imuOf (e.withBody b) = s := fun b => hg
  have zero1 : ∀ c, c + 3 ≤ 6 ∨ (9 ≤ c ∧ c + 3 ≤ 12) → J.block3 0 c = 0 := by
    intro c hc
    funext i j
    have hi := i.2; have hj := j.2
    refine z1 _ _ (by omega) (by unfold InCols; omega) (by unfold InCols; omega) (fun he => ?_) (fun he => ?_)
    · have := ce he; unfold InCols; omega
    · have := ci he; unfold InCols; omega
  have zero2 : ∀ c, c + 3 ≤ 12 ∨ c = 15 → J.block3 3 c = 0 := by
    intro c hc
    funext i j
    have hi := i.2; have hj := j.2
    refine z2 _ _ (by omega) (by omega) (by unfold InCols; omega) (fun he => ?_) (fun he => ?_)
    · have := ce he; unfold InCols; omega
    · have := ci he; unfold InCols; omega
  simp only [predAcc_eq, predGyro_eq, hb, imuOf_withImu, withBody_body, withImu_body]
  refine ⟨⟨?_, ?_⟩, ?_, ?_, ?_, ⟨?_, ?_⟩, fun he => ⟨?_, ?_⟩, fun hi => ⟨?_, ?_, ?_, ?_⟩, fun i c hi a b d d' => ?_⟩
  · rw [zero1 0 (by omega)]; exact isJacobian_const _ _
  · rw [zero2 0 (by omega)]; exact isJacobian_const _ _
  · rw [zero2 3 (by omega)]; exact isJacobian_const _ _
  · rw [zero2 6 (by omega)]; exact isJacobian_const _ _
  · rw [b4]
    exact ((isJacobian_const _ _).add (isJacobian_linear _ _)).congr (zero_add _)
  · rw [b3]
    refine ((isJacobian_const _ _).add (((((isJacobian_const _ _).add ((isJacobian_id _).cross (isJacobian_const _ _))).add
      (isJacobian_const _ _)).add (isJacobian_const _ _)).mulLeft _)).congr ?_
    simp
  · rw [zero2 15 (by omega)]; exact isJacobian_const _ _
  · rw [b5 he]
    refine ((isJacobian_const _ _).add (((((isJacobian_const _ _).add ((isJacobian_const _ _).cross (isJacobian_id _))).add
      ((isJacobian_const _ _).cross ((isJacobian_const _ _).cross (isJacobian_id _)))).add (isJacobian_const _ _)).mulLeft _)).congr ?_
    simp
  · have : J.block3 3 s.indexExtrinsic = 0 := by
      have := ce he
      funext i j
      have hi := i.2; have hj := j.2
      refine z2 _ _ (by omega) (by omega) (by unfold InCols; omega) (fun _ => by unfold InCols; omega) (fun hi => ?_)
      have := cd he hi; unfold InCols; omega
    rw [this]; exact isJacobian_const _ _
  · rw [(b6 hi).1]
    exact ((isJacobian_id _).add (isJacobian_const _ _)).congr (add_zero _)
  · have : J.block3 3 s.indexIntrinsic = 0 := by
      have := ci hi
      funext i j
      have hi' := i.2; have hj := j.2
      refine z2 _ _ (by omega) (by omega) (by unfold InCols; omega) (fun he => ?_) (fun _ => by unfold InCols; omega)
      have := cd he hi; unfold InCols; omega
    rw [this]; exact isJacobian_const _ _
  · have : J.block3 0 (s.indexIntrinsic + 3) = 0 := by
      have := ci hi
      funext i j
      have hi' := i.2; have hj := j.2
      refine z1 _ _ (by omega) (by unfold InCols; omega) (by unfold InCols; omega) (fun he => ?_) (fun _ => by unfold InCols; omega)
      have := cd he hi; unfold InCols; omega
    rw [this]; exact isJacobian_const _ _
  · rw [(b6 hi).2]
    exact ((isJacobian_id _).add (isJacobian_const _ _)).congr (add_zero _)
  · unfold InCols at *
    by_cases h3 : i < 3
    · exact z1 i c h3 a b d (fun h => by have := d' h; omega)
    · exact z2 i c (by omega) hi (by omega) (fun h => by have := d h; omega) (fun h => by have := d' h; omega)

/-- IMU: the velocity columns are the derivative of the predicted specific force exactly when the body does not rotate
(the columns are zero, but the prediction contains `2 ω × v`). -/
theorem C42_imu_velocity_iff (u : ImuUpdater) (e : Ekf ℝ) (s : ImuState ℝ) (J : Mat ℝ) (h : u.measurementJacobian e = .ok J)
    (hs : e.state.imus.find? u.id = some s) (hE : u.isExtrinsic = s.isExtrinsic) (hI : u.isIntrinsic = s.isIntrinsic)
    (hT : Tiles e.state.blocks 0 e.stateSize) (hq : s.ang.normSq = 1) :
    IsJacobian (fun x => u.predAcc (e.withBody { e.state.body with vel := x })) e.state.body.vel (J.block3 0 3) ↔
      e.state.body.angVel = 0 := by
  have hg : u.imuOf e = s := by simp [ImuUpdater.imuOf, UMap.getD, hs]
  obtain ⟨ce, ci, cd⟩ := imu_columns hT hs
  obtain ⟨_, _, _, _, _, _, z1, _⟩ := imu_blocks u e s J h hs hE hI hT
  have hb : ∀ b, u.imuOf (e.withBody b) = s := fun b => hg
  have hz : J.block3 0 3 = 0 := by
    funext i j
    have hi := i.2; have hj := j.2
    refine z1 _ _ (by omega) (by unfold InCols; omega) (by unfold InCols; omega) (fun he => ?_) (fun he => ?_)
    · have := ce he; unfold InCols; omega
    · have := ci he; unfold InCols; omega
  simp only [predAcc_eq, hb, withBody_body, hz]
  have d : IsJacobian (fun x : V3 ℝ => s.accBias + s.ang.inverse.toMat.mulVec (e.state.body.acc + V3.cross e.state.body.angAcc s.pos +
      V3.cross e.state.body.angVel (V3.cross e.state.body.angVel s.pos) + (2 : ℝ) • V3.cross e.state.body.angVel x)) e.state.body.vel
      (s.ang.inverse.toMat * ((2 : ℝ) • skew e.state.body.angVel)) := by
    refine ((isJacobian_const _ _).add ((((isJacobian_const _ _)).add (((isJacobian_const _ _).cross (isJacobian_id _)).smul 2)).mulLeft _)).congr ?_
    simp
  constructor
  · intro hJ
    have he := isJacobian_unique d hJ
    have he : s.ang.inverse.toMat * ((2 : ℝ) • skew e.state.body.angVel) = s.ang.inverse.toMat * 0 := by rw [he, Matrix.mul_zero]
    have := mul_left_cancel_unit hq he
    exact skew_eq_zero ((smul_eq_zero_iff_right (by norm_num : (2 : ℝ) ≠ 0)).1 this)
  · intro hz
    rw [hz, skew_zero, smul_zero, Matrix.mul_zero] at d
    rw [← hz] at d
    exact d

/-- IMU: the acceleration columns are the derivative of the predicted specific force exactly when the body axes are the
local axes (the columns rotate the local acceleration into the body frame, the prediction does not). -/
theorem C42_imu_acceleration_iff (u : ImuUpdater) (e : Ekf ℝ) (s : ImuState ℝ) (J : Mat ℝ) (h : u.measurementJacobian e = .ok J)
    (hs : e.state.imus.find? u.id = some s) (hE : u.isExtrinsic = s.isExtrinsic) (hI : u.isIntrinsic = s.isIntrinsic)
    (hT : Tiles e.state.blocks 0 e.stateSize) (hq : s.ang.normSq = 1) :
    IsJacobian (fun x => u.predAcc (e.withBody { e.state.body with acc := x })) e.state.body.acc (J.block3 0 6) ↔
      e.state.body.ang.inverse.toMat = 1 := by
  have hg : u.imuOf e = s := by simp [ImuUpdater.imuOf, UMap.getD, hs]
  obtain ⟨b1, _⟩ := imu_blocks u e s J h hs hE hI hT
  have hb : ∀ b, u.imuOf (e.withBody b) = s := fun b => hg
  simp only [predAcc_eq, hb, withBody_body, b1]
  have d : IsJacobian (fun x : V3 ℝ => s.accBias + s.ang.inverse.toMat.mulVec (x + V3.cross e.state.body.angAcc s.pos +
      V3.cross e.state.body.angVel (V3.cross e.state.body.angVel s.pos) + (2 : ℝ) • V3.cross e.state.body.angVel e.state.body.vel)) e.state.body.acc
      (s.ang.inverse.toMat) := by
    refine ((isJacobian_const _ _).add (((((isJacobian_id _).add (isJacobian_const _ _)).add (isJacobian_const _ _)).add (isJacobian_const _ _)).mulLeft _)).congr ?_
    simp
  constructor
  · intro hJ
    have he := isJacobian_unique hJ d
    exact mul_left_cancel_unit hq (he.trans (Matrix.mul_one _).symm)
  · intro hz
    rw [hz, Matrix.mul_one]
    exact d

/-- IMU: the angular velocity columns are the derivative of the predicted specific force exactly when the body has no
velocity (the prediction contains `2 ω × v`, the columns do not). -/
theorem C42_imu_rate_iff (u : ImuUpdater) (e : Ekf ℝ) (s : ImuState ℝ) (J : Mat ℝ) (h : u.measurementJacobian e = .ok J)
    (hs : e.state.imus.find? u.id = some s) (hE : u.isExtrinsic = s.isExtrinsic) (hI : u.isIntrinsic = s.isIntrinsic)
    (hT : Tiles e.state.blocks 0 e.stateSize) (hq : s.ang.normSq = 1) :
    IsJacobian (fun x => u.predAcc (e.withBody { e.state.body with angVel := x })) e.state.body.angVel (J.block3 0 12) ↔
      e.state.body.vel = 0 := by
  have hg : u.imuOf e = s := by simp [ImuUpdater.imuOf, UMap.getD, hs]
  obtain ⟨_, b2, _⟩ := imu_blocks u e s J h hs hE hI hT
  have hb : ∀ b, u.imuOf (e.withBody b) = s := fun b => hg
  simp only [predAcc_eq, hb, withBody_body, b2]
  have d : IsJacobian (fun x : V3 ℝ => s.accBias + s.ang.inverse.toMat.mulVec (e.state.body.acc + V3.cross e.state.body.angAcc s.pos +
      V3.cross x (V3.cross x s.pos) + (2 : ℝ) • V3.cross x e.state.body.vel)) e.state.body.angVel
      (s.ang.inverse.toMat * ((skew e.state.body.angVel * (skew s.pos).transpose +
      (skew (V3.cross e.state.body.angVel s.pos)).transpose) - (2 : ℝ) • skew e.state.body.vel)) := by
    refine ((isJacobian_const _ _).add ((((isJacobian_const _ _).add ((isJacobian_id _).cross ((isJacobian_id _).cross (isJacobian_const _ _)))).add
      (((isJacobian_id _).cross (isJacobian_const _ _)).smul 2)).mulLeft _)).congr ?_
    simp only [zero_add, Matrix.mul_one, Matrix.mul_zero, add_zero, skew_transpose, Matrix.mul_neg, smul_neg]
    congr 1
    abel
  constructor
  · intro hJ
    have := mul_left_cancel_unit hq (isJacobian_unique d hJ)
    rw [sub_eq_self] at this
    exact skew_eq_zero ((smul_eq_zero_iff_right (by norm_num : (2 : ℝ) ≠ 0)).1 this)
  · intro hz
    rw [hz, skew_zero, smul_zero, sub_zero] at d
    rw [hz]
    exact d

/-! ## Witnesses -/

/-- A moving and turning body, half a turn about the vertical axis away from the local axes. -/
noncomputable def C42_body : BodyState ℝ :=
  { pos := 0, vel := ![1, 0, 0], acc := 0, ang := ⟨0, 0, 0, 1⟩, angVel := ![0, 0, 1], angAcc := 0, index := 0 }

/-- Calibrated IMU 3, antenna 7, camera 1 and marker 4. -/
noncomputable def C42_ops : List (Ekf.Op ℝ) :=
  [.registerIMU 3 (((ImuState.default : ImuState ℝ).setIsExtrinsic true).setIsIntrinsic true) (Mat.zero 12 12),
   .registerGPS 7 ((GpsState.default : GpsState ℝ).setIsExtrinsic true) (Mat.zero 3 3),
   .registerCamera 1 ((CamState.default : CamState ℝ).setIsExtrinsic true) (Mat.zero 6 6),
   .registerFiducial ((⟨0, 0, Quat.one, 1, 1, 0, 0, 4, false⟩ : FidState ℝ).setIsExtrinsic true) (Mat.zero 6 6),
   .initializeAt 0 C42_body]

theorem C42_ops_wf : ∀ op ∈ C42_ops, op.WF := by
  intro op ho
  simp only [C42_ops, List.mem_cons, List.not_mem_nil, or_false] at ho
  rcases ho with rfl | rfl | rfl | rfl | rfl <;> rfl

/-- Standard-mode parameters. -/
def C42_params : EkfParams ℝ := { C11_params with useRoot := false }

theorem some_of_map {α β : Type} {o : Option α} {g : α → β} {b : β} (h : o.map g = some b) : ∃ a, o = some a ∧ g a = b := by
  cases o with
  | none => cases h
  | some a => exact ⟨a, rfl, Option.some.inj h⟩

/-- `RegisterCamera` for a non-zero rate, without the division check. -/
noncomputable def registerCameraRate (e : Ekf ℝ) (id : Nat) (s : CamState ℝ) (covariance : Mat ℝ) : Res (Ekf ℝ) := do
  if (e.state.cams.find? id).isSome then return e
  let period := max e.maxFramePeriod (1 / s.rate)
  let e := { e with
    maxFramePeriod := period
    maxTrackDuration := period * ((e.maxTrackLength : ℝ) + 1)
    minAugPeriod := min e.minAugPeriod (1 / s.rate) }
  let camEnd := bodySize + e.imuStateSize + e.gpsStateSize + e.camStateSize
  let e := if e.primaryCameraId = 0 then { e with primaryCameraId := id } else e
  let e := { e with state := { e.state with cams := e.state.cams.insert id s } }
  let e ← if s.isExtrinsic then do
      let c ← insertInMatrix (← covariance.block 0 0 s.size s.size) e.cov camEnd camEnd
      pure { e with
        cov := c
        stateSize := e.stateSize + camExtSize
        camStateSize := e.camStateSize + camExtSize }
    else pure e
  Ekf.refreshIndices realPrim e

theorem registerCamera_rate (e : Ekf ℝ) (id : Nat) (s : CamState ℝ) (c : Mat ℝ) (h : s.rate ≠ 0) :
    e.registerCamera realPrim id s c = registerCameraRate e id s c := by
  unfold Ekf.registerCamera registerCameraRate
  rw [guardUB_true h]
  rfl

theorem C42_filter : ∃ e, Ekf.run realPrim (Ekf.init realPrim C42_params) C42_ops = .ok e ∧ e.useFirstEstimate = false ∧
    e.state.body = C42_body ∧ e.stateSize = 45 ∧
    (∃ s, e.state.imus.find? 3 = some s ∧ s.isExtrinsic = true ∧ s.isIntrinsic = true ∧ s.ang = Quat.one ∧ s.indexExtrinsic = 18 ∧
      s.indexIntrinsic = 24) ∧
    (∃ s, e.state.gpss.find? 7 = some s ∧ s.isExtrinsic = true ∧ s.index = 30) ∧
    (∃ s, e.state.cams.find? 1 = some s ∧ s.isExtrinsic = true ∧ s.ang = Quat.one ∧ s.index = 33) ∧
    (∃ s, e.state.fids.find? 4 = some s ∧ s.isExtrinsic = true ∧ s.index = 39) := by
  obtain ⟨e, h1, h2, h3, h4, h5, h6, h7, h8⟩ : ∃ e, Ekf.run realPrim (Ekf.init realPrim C42_params) C42_ops = .ok e ∧
      e.useFirstEstimate = false ∧ e.state.body = C42_body ∧ e.stateSize = 45 ∧
      (e.state.imus.find? 3).map (fun s => (s.isExtrinsic, s.isIntrinsic, s.ang, s.indexExtrinsic, s.indexIntrinsic)) =
        some (true, true, Quat.one, 18, 24) ∧
      (e.state.gpss.find? 7).map (fun s => (s.isExtrinsic, s.index)) = some (true, 30) ∧
      (e.state.cams.find? 1).map (fun s => (s.isExtrinsic, s.ang, s.index)) = some (true, Quat.one, 33) ∧
      (e.state.fids.find? 4).map (fun s => (s.isExtrinsic, s.index)) = some (true, 39) := by
    have hrun : Ekf.run realPrim (Ekf.init realPrim C42_params) C42_ops = (do
        let e ← Ekf.run realPrim (Ekf.init realPrim C42_params) (C42_ops.take 2)
        let e ← e.registerCamera realPrim 1 ((CamState.default : CamState ℝ).setIsExtrinsic true) (Mat.zero 6 6)
        Ekf.run realPrim e (C42_ops.drop 3)) := rfl
    rw [hrun]
    simp only [fun e => registerCamera_rate e 1 ((CamState.default : CamState ℝ).setIsExtrinsic true) (Mat.zero 6 6) one_ne_zero]
    exact ⟨_, rfl, rfl, rfl, rfl, rfl, rfl, rfl, rfl⟩
  obtain ⟨s5, f5, g5⟩ := some_of_map h5
  obtain ⟨s6, f6, g6⟩ := some_of_map h6
  obtain ⟨s7, f7, g7⟩ := some_of_map h7
  obtain ⟨s8, f8, g8⟩ := some_of_map h8
  simp only [Prod.mk.injEq] at g5 g6 g7 g8
  exact ⟨e, h1, h2, h3, h4, ⟨s5, f5, g5⟩, ⟨s6, f6, g6⟩, ⟨s7, f7, g7⟩, ⟨s8, f8, g8⟩⟩

/-- The IMU part fails in a reachable filter: with a body that moves, turns and is not aligned with the local axes, three of
the blocks are not the derivative. -/
theorem C42_imu_violated : ∃ (p : EkfParams ℝ) (ops : List (Ekf.Op ℝ)) (e : Ekf ℝ) (u : ImuUpdater) (s : ImuState ℝ) (J : Mat ℝ),
    (∀ op ∈ ops, op.WF) ∧ Ekf.run realPrim (Ekf.init realPrim p) ops = .ok e ∧ e.state.imus.find? u.id = some s ∧
    u.isExtrinsic = s.isExtrinsic ∧ u.isIntrinsic = s.isIntrinsic ∧ u.measurementJacobian e = .ok J ∧
    ¬ IsJacobian (fun x => u.predAcc (e.withBody { e.state.body with vel := x })) e.state.body.vel (J.block3 0 3) ∧
    ¬ IsJacobian (fun x => u.predAcc (e.withBody { e.state.body with acc := x })) e.state.body.acc (J.block3 0 6) ∧
    ¬ IsJacobian (fun x => u.predAcc (e.withBody { e.state.body with angVel := x })) e.state.body.angVel (J.block3 0 12) := by
  obtain ⟨e, he, hf, hb, hn, ⟨s, hs, hE, hI, ha, hi1, hi2⟩, _⟩ := C42_filter
  have hT := (C02_indices_tile realPrim C42_params C42_ops C42_ops_wf e he).1
  obtain ⟨J, hJ⟩ : ∃ J, (⟨3, true, true, true⟩ : ImuUpdater).measurementJacobian e = .ok J := by
    have hg : (⟨3, true, true, true⟩ : ImuUpdater).imuOf e = s := by simp [ImuUpdater.imuOf, UMap.getD, hs]
    unfold ImuUpdater.measurementJacobian
    rw [hg]
    dsimp only
    rw [hi1, hi2, hn]
    exact ⟨_, rfl⟩
  have hq : s.ang.normSq = 1 := by rw [ha]; simp [Quat.one, Quat.normSq]
  refine ⟨C42_params, C42_ops, e, ⟨3, true, true, true⟩, s, J, C42_ops_wf, he, hs, hE.symm, hI.symm, hJ, ?_, ?_, ?_⟩
  · rw [C42_imu_velocity_iff _ e s J hJ hs hE.symm hI.symm hT hq, hb]
    intro h
    simpa [C42_body] using congrFun h 2
  · rw [C42_imu_acceleration_iff _ e s J hJ hs hE.symm hI.symm hT hq, hb]
    intro h
    have := congrFun (congrFun h 0) 0
    rw [inverse_unit (by simp [C42_body, Quat.normSq])] at this
    norm_num [C42_body, Quat.toMat] at this
  · rw [C42_imu_rate_iff _ e s J hJ hs hE.symm hI.symm hT hq, hb]
    intro h
    simpa [C42_body] using congrFun h 0

/-- The fiducial part fails in a reachable filter: with a body turned away from the local axes, the marker position columns
are not the derivative of the predicted relative position. -/
theorem C42_fiducial_violated (N : Num ℝ) : ∃ (p : EkfParams ℝ) (ops : List (Ekf.Op ℝ)) (e : Ekf ℝ) (u : FidUpdater ℝ) (s : CamState ℝ)
    (f : FidState ℝ) (J : Mat ℝ),
    (∀ op ∈ ops, op.WF) ∧ Ekf.run realPrim (Ekf.init realPrim p) ops = .ok e ∧ e.state.cams.find? u.cameraId = some s ∧
    e.state.fids.find? u.id = some f ∧ u.isCamExtrinsic = s.isExtrinsic ∧ u.isFidExtrinsic = f.isExtrinsic ∧
    (u.refresh e f).jacobianOf N e f = .ok J ∧
    ¬ IsJacobian (fun x => (u.pred N e { f with pos := x }).1) f.pos (J.block3 0 f.index) := by
  obtain ⟨e, he, hf, hb, hn, _, _, ⟨s, hs, hE, ha, hi⟩, ⟨f, hm, hx, hi'⟩⟩ := C42_filter
  have hT := (C02_indices_tile realPrim C42_params C42_ops C42_ops_wf e he).1
  let u : FidUpdater ℝ := FidUpdater.new 4 1 true true
  have hg : u.camOf e = s := by simp [u, FidUpdater.new, FidUpdater.camOf, UMap.getD, hs]
  obtain ⟨J, hJ⟩ : ∃ J, (u.refresh e f).jacobianOf N e f = .ok J := by
    have hr : u.refresh e f = { u with posC := s.pos, angC := s.ang, posF := f.pos, angF := f.ang, isFirst := false } := by
      simp [FidUpdater.refresh, hf, hg]
    have hg' : ({ u with posC := s.pos, angC := s.ang, posF := f.pos, angF := f.ang, isFirst := false } : FidUpdater ℝ).camOf e = s := hg
    rw [hr]
    unfold FidUpdater.jacobianOf
    rw [hg', hi, hi', hn]
    exact ⟨_, rfl⟩
  refine ⟨C42_params, C42_ops, e, u, s, f, J, C42_ops_wf, he, hs, hm, hE.symm, hx.symm, hJ, ?_⟩
  rw [C42_fiducial_iff N u e s f J hJ hf hs hm hE.symm hx.symm hT hx, hb, ha]
  intro h
  have := congrFun (congrFun h 0) 0
  simp [C42_body, Quat.toMat, Quat.one, Matrix.mul_apply, Fin.sum_univ_three, Matrix.cons_val] at this
  norm_num at this

/-- The hypotheses of `C42_gps` are met by the same filter, with a calibrated antenna. -/
example (N : Num ℝ) : ∃ (e : Ekf ℝ) (u u' : GpsUpdater ℝ) (s : GpsState ℝ) (J : Mat ℝ),
    u.measurementJacobian N e = .ok (J, u') ∧ e.useFirstEstimate = false ∧ e.state.gpss.find? u.id = some s ∧
    u.isExtrinsic = s.isExtrinsic ∧ Tiles e.state.blocks 0 e.stateSize ∧ s.isExtrinsic = true ∧ e.state.body.ang ≠ Quat.one := by
  obtain ⟨e, he, hf, hb, hn, _, ⟨s, hs, hE, hi⟩, _⟩ := C42_filter
  have hT := (C02_indices_tile realPrim C42_params C42_ops C42_ops_wf e he).1
  let u : GpsUpdater ℝ := GpsUpdater.new 7 true
  have hg : u.gpsOf e = s := by simp [u, GpsUpdater.new, GpsUpdater.gpsOf, UMap.getD, hs]
  obtain ⟨J, hJ⟩ : ∃ J, (u.refresh e).jacobianOf N e = .ok J := by
    have hg' : (u.refresh e).gpsOf e = s := by
      unfold GpsUpdater.refresh; split <;> exact hg
    unfold GpsUpdater.jacobianOf
    rw [hg', hi, hn, show (u.refresh e).isExtrinsic = true by unfold GpsUpdater.refresh; split <;> rfl]
    exact ⟨_, rfl⟩
  refine ⟨e, u, u.refresh e, s, J, ?_, hf, hs, hE.symm, hT, hE, ?_⟩
  · simp only [GpsUpdater.measurementJacobian, hJ]; rfl
  · rw [hb]; simp [C42_body, Quat.one]

end EkfCal
