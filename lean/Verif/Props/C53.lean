import Verif.Props.C65
import Verif.Spec.Truth
import Verif.Spec.Samples
import Verif.Lemmas.Geodetic
import Verif.Lemmas.UpdaterOps
import Verif.Lemmas.Reduce
import Verif.Props.C10
import Verif.Props.C22
import Verif.Props.C24
import Verif.Props.C44

/-!
# C53: error-free simulated measurements agree with the filter at the true state
-/

namespace EkfCal
open Ekf
variable {K : Type} [Field K] [LinearOrder K]

/-! ### GPS -/

/-- **GPS**: when the estimate is the truth, the error-free fix, brought into the local frame, is the position the filter
predicts for its antenna.  The conversion of the antenna's position to geodetic coordinates must be exact at that
point (`hexact`); see C54 for where it is. -/
theorem C53_gps (b : TruthBody ℝ) (posA ref err lla : V3 ℝ) (heading : ℝ) (u : GpsUpdater ℝ) (e : Ekf ℝ) (href : LegalLla ref)
    (hpos : e.state.body.pos = b.pos) (hang : e.state.body.ang = b.ang) (hant : (u.gpsOf e).pos = posA)
    (hcur : e.useFirstEstimate = false ∨ u.isFirst = true)
    (hfix : simGps true b posA ref heading err = .ok lla)
    (hexact : llaToEcef lla = enuToEcef (localToEnu (b.pos + b.ang.rotate posA) heading) ref) :
    ∃ enu, llaToEnu lla ref = .ok enu ∧ enuToLocal enu heading = (u.predictMeasurement e).1 := by
  obtain ⟨y, h1, h2⟩ := (C24_enu (localToEnu (b.pos + b.ang.rotate posA) heading) ref href).2
  refine ⟨_, by simp only [llaToEnu, hexact, h1, ok_bind, h2]; rfl, ?_⟩
  rw [(C24_local _ _).2]
  simp only [GpsUpdater.predictMeasurement, GpsUpdater.refresh, if_pos hcur, hpos, hang, hant]

/-- Without that assumption, for an antenna anywhere more than 100 km from the Earth's centre, there is a fix, and its
distance from the prediction is below two picometres (its square below `3 · 10⁻²⁴` square metres). -/
theorem C53_gps_near (b : TruthBody ℝ) (posA ref err p : V3 ℝ) (heading : ℝ) (u : GpsUpdater ℝ) (e : Ekf ℝ) (href : LegalLla ref)
    (hpos : e.state.body.pos = b.pos) (hang : e.state.body.ang = b.ang) (hant : (u.gpsOf e).pos = posA)
    (hcur : e.useFirstEstimate = false ∨ u.isFirst = true)
    (hp : enuToEcef (localToEnu (b.pos + b.ang.rotate posA) heading) ref = .ok p)
    (hfar : (100000 : ℝ) ^ 2 < p 0 ^ 2 + p 1 ^ 2 + p 2 ^ 2) :
    ∃ lla enu, simGps true b posA ref heading err = .ok lla ∧ llaToEnu lla ref = .ok enu ∧
      distSq (enuToLocal enu heading) (u.predictMeasurement e).1 ≤ 3 / 10 ^ 24 := by
  obtain ⟨lla, enu, h1, h2, h3⟩ := C65_enu _ ref href p hp hfar
  refine ⟨lla, enu, h1, h2, ?_⟩
  have e1 : (u.predictMeasurement e).1 = enuToLocal (localToEnu (b.pos + b.ang.rotate posA) heading) heading := by
    rw [(C24_local _ _).2]
    simp only [GpsUpdater.predictMeasurement, GpsUpdater.refresh, if_pos hcur, hpos, hang, hant]
  rw [e1, (C24_local_isometry _ _ _).1]
  exact h3

/-- A body 3 m east and 4 m north of the reference at (0°, 0°), its antenna 2 m above it, is such a case. -/
example : ∃ p : V3 ℝ, enuToEcef (localToEnu (![3, 4, 0] + (Quat.one : Quat ℝ).rotate ![0, 0, 2]) 0) 0 = .ok p ∧
    (100000 : ℝ) ^ 2 < p 0 ^ 2 + p 1 ^ 2 + p 2 ^ 2 := by
  have hl : localToEnu (![3, 4, 0] + (Quat.one : Quat ℝ).rotate ![0, 0, 2]) 0 = ![3, 4, 2] := by
    rw [Quat.one_rotate]
    funext i; fin_cases i <;> simp [localToEnu]
  have hr : llaToEcef 0 = .ok ![wgs84A, 0, 0] := by
    simp [llaToEcef, degToRad]
  have he : enuToEcef ![3, 4, 2] 0 = .ok ![wgs84A + 2, 3, 4] := by
    simp only [enuToEcef, hr, ok_bind, pure_res]
    congr 1
    funext i
    fin_cases i <;> simp [ecefRotation, degToRad]
  refine ⟨_, by rw [hl]; exact he, ?_⟩
  simp [wgs84A]
  norm_num

/-- Such a fix leaves the estimate as predicted (covariance in standard form). -/
theorem C53_gps_update (N : Num ℝ) (hN : N.rotVecToQuat 0 = Quat.one) (G : GpsNum ℝ) (hG1 : G.llaToEnu = llaToEnu)
    (hG2 : G.enuToLocal = enuToLocal) (b : TruthBody ℝ) (posA err lla : V3 ℝ) (u : GpsUpdater ℝ) (e e1 : Ekf ℝ) (time : ℝ)
    (cov : Mat ℝ) (r : GpsUpdater ℝ × Ekf ℝ) (h : u.update N G e time lla cov = .ok r) (h1 : e.AtMessage N time e1)
    (hroot : e1.useRoot = false) (hinit : e1.isLlaInitialized = true) (href : LegalLla e1.posEInG)
    (hpos : e1.state.body.pos = b.pos) (hang : e1.state.body.ang = b.ang) (hant : e1.antenna u.id = posA)
    (hcur : e1.useFirstEstimate = false ∨ u.isFirst = true)
    (hfix : simGps true b posA e1.posEInG e1.angLToE err = .ok lla)
    (hexact : llaToEcef lla = enuToEcef (localToEnu (b.pos + b.ang.rotate posA) e1.angLToE) e1.posEInG) :
    r.2.state = (e1.getGpsState u.id).2.state := by
  obtain ⟨e1', h1', h⟩ := GpsUpdater.update_form h
  unfold Ekf.AtMessage at h1
  rw [h1] at h1'
  cases h1'
  rcases h with ⟨hl, _⟩ | ⟨_, e2, enu, jac, rfl, henu, hr, hj, hk⟩
  · rw [hinit] at hl; cases hl
  obtain ⟨enu', g1, g2⟩ := C53_gps b posA e1.posEInG err lla e1.angLToE u (e1.getGpsState u.id).2 href hpos hang
    (by rw [← hant, ← getD_getGps]; rfl) hcur hfix hexact
  rw [hG1] at henu
  have henu' : llaToEnu lla e1.posEInG = .ok enu := henu
  rw [henu'] at g1
  cases g1
  refine C10_zero_residual N.toPrim hN _ _ jac _ cov hroot (fun a => ?_) hk
  have hz : G.enuToLocal enu (e1.getGpsState u.id).2.angLToE - ((e1.getGpsState u.id).2.state.body.pos +
      (e1.getGpsState u.id).2.state.body.ang.rotate r.1.posAInB) = 0 := by
    rw [hG2, hr, sub_eq_zero]
    exact g2
  rw [hz]
  simp [Vec.of3]

/-- An antenna 2 m above the reference point (0°, 0°), the body at rest there, aligned with the earth: the simulated fix
is (0°, 0°, 2 m) and exact. -/
example : simGps true ⟨0, 0, 0, Quat.one, 0, 0⟩ ![0, 0, 2] 0 0 0 = .ok ![0, 0, 2] ∧
    llaToEcef ![0, 0, 2] = enuToEcef (localToEnu (0 + (Quat.one : Quat ℝ).rotate ![0, 0, 2]) 0) 0 ∧
    LegalLla (0 : V3 ℝ) := by
  have hl : localToEnu (0 + (Quat.one : Quat ℝ).rotate ![0, 0, 2]) 0 = ![0, 0, 2] := by
    rw [zero_add, Quat.one_rotate]
    funext i; fin_cases i <;> simp [localToEnu]
  have hr : llaToEcef 0 = .ok ![wgs84A, 0, 0] := by
    simp [llaToEcef, degToRad]
  have he : enuToEcef ![0, 0, 2] 0 = .ok ![wgs84A + 2, 0, 0] := by
    simp only [enuToEcef, hr, ok_bind, pure_res]
    congr 1
    funext i
    fin_cases i <;> simp [ecefRotation, degToRad]
  have hA : 0 < wgs84A := by norm_num [wgs84A]
  have hE : 0 < wgs84E := by norm_num [wgs84E]
  refine ⟨?_, ?_, ?_⟩
  · show enuToLla (localToEnu (0 + (Quat.one : Quat ℝ).rotate ![0, 0, 2]) 0) 0 = _
    rw [hl, enuToLla, he]
    simp only [ok_bind]
    rw [ecefToLla, ecefToLlaOf_equator hA hE (w := wgs84A + 2) (by norm_num [wgs84A, wgs84E]) _ (by simp) (by simp)]
    congr 1
    have : atan2 0 (wgs84A + 2) = 0 := by
      unfold atan2
      exact Complex.arg_ofReal_of_nonneg (by positivity)
    funext i
    fin_cases i <;> simp [this]
  · rw [hl, he]
    simp [llaToEcef, degToRad]
  · refine ⟨?_, ?_, ?_, ?_⟩ <;> norm_num

/-! ### Fiducials -/

theorem quatToRotVec_one : quatToRotVec Quat.one = 0 ∧ quatToRotVec (Quat.one : Quat ℝ).opp = 0 := by
  constructor <;> funext i <;> simp [quatToRotVec, Quat.toAngleAxis, Quat.one, Quat.opp, V3.norm]

theorem board_quat (N : Num ℝ) (hof : N.OfMatLaw) {c q f : Quat ℝ} (hc : c.normSq = 1) (hq : q.normSq = 1) :
    (N.ofMat (c.toMat.transpose * q.toMat.transpose)).mul f = (c.inverse.mul q.inverse).mul f ∨
    (N.ofMat (c.toMat.transpose * q.toMat.transpose)).mul f = ((c.inverse.mul q.inverse).mul f).opp := by
  rw [← Quat.toMat_inverse hc, ← Quat.toMat_inverse hq, Quat.toMat_mul (Quat.inverse_unit hc) (Quat.inverse_unit hq)]
  rcases hof (c.inverse.mul q.inverse)
    (by rw [Quat.normSq_mul, Quat.inverse_unit hc, Quat.inverse_unit hq, _root_.mul_one]) with h | h
  · left; rw [h]
  · right; rw [h, Quat.opp_mul]

theorem rotVec_round (q : Quat ℝ) (hq : q.normSq = 1) (ha : 1 / 10 ^ 9 < 2 * atan2 (V3.norm ![q.x, q.y, q.z]) |q.w|) :
    rotVecToQuat (quatToRotVec q) = q ∨ rotVecToQuat (quatToRotVec q) = q.opp := by
  rw [C22_orientation q hq ha]
  split
  · exact .inr rfl
  · exact .inl rfl

/-- **Fiducials**: when the estimate is the truth, the error-free board detection has a zero residual in position, and in
orientation provided the board is turned against the camera by more than 1e-9 rad. -/
theorem C53_board (N : Num ℝ) (hof : N.OfMatLaw) (h1 : N.rotVecToQuat = rotVecToQuat) (h2 : N.quatToRotVec = quatToRotVec)
    (b : TruthBody ℝ) (camPos posF posErr angErr : V3 ℝ) (camAng angF : Quat ℝ) (u : FidUpdater ℝ) (e : Ekf ℝ)
    (hpos : e.state.body.pos = b.pos) (hang : e.state.body.ang = b.ang) (hcp : u.posC = camPos) (hca : u.angC = camAng)
    (hfp : u.posF = posF) (hfa : u.angF = angF) (uq : b.ang.normSq = 1) (uc : camAng.normSq = 1) (uf : angF.normSq = 1)
    (d : BoardDetection ℝ) (hd : d = simBoard b camPos camAng posF angF posErr angErr)
    (hturn : 1 / 10 ^ 9 < 2 * atan2 (V3.norm ![d.ang.x, d.ang.y, d.ang.z]) |d.ang.w|) :
    d.pos - (u.predictOf N e).1 = 0 ∧
    N.quatToRotVec ((N.rotVecToQuat (u.predictOf N e).2).mul d.ang.inverse) = 0 := by
  have hdu : d.ang.normSq = 1 := by
    rw [hd]
    simp only [simBoard, Quat.normSq_mul, Quat.inverse_unit uc, Quat.inverse_unit uq, uf, _root_.mul_one]
  constructor
  · rw [hd]
    simp only [simBoard, FidUpdater.predictOf, hpos, hang, hcp, hca, hfp, sub_self]
  have hda : d.ang = (camAng.inverse.mul b.ang.inverse).mul angF := by rw [hd]; rfl
  have hP : (N.ofMat (u.angC.toMat.transpose * e.state.body.ang.toMat.transpose)).mul u.angF = d.ang ∨
      (N.ofMat (u.angC.toMat.transpose * e.state.body.ang.toMat.transpose)).mul u.angF = d.ang.opp := by
    rw [hca, hang, hfa, hda]
    exact board_quat N hof uc uq
  have hR : rotVecToQuat (quatToRotVec ((N.ofMat (u.angC.toMat.transpose * e.state.body.ang.toMat.transpose)).mul u.angF)) =
      d.ang ∨
      rotVecToQuat (quatToRotVec ((N.ofMat (u.angC.toMat.transpose * e.state.body.ang.toMat.transpose)).mul u.angF)) =
      d.ang.opp := by
    rcases hP with hP | hP
    · rw [hP]; exact rotVec_round d.ang hdu hturn
    · rw [hP]
      have := rotVec_round d.ang.opp (Quat.opp_unit hdu) (by
        have hn : V3.norm ![d.ang.opp.x, d.ang.opp.y, d.ang.opp.z] = V3.norm ![d.ang.x, d.ang.y, d.ang.z] := by
          simp [V3.norm, Quat.opp]
        rw [hn]
        simpa [Quat.opp] using hturn)
      rw [Quat.opp_opp] at this
      exact this.symm
  rw [h1, h2]
  show quatToRotVec ((rotVecToQuat (N.quatToRotVec _)).mul d.ang.inverse) = 0
  rw [h2]
  rcases hR with hR | hR
  · rw [hR, Quat.mul_inverse_self hdu]; exact quatToRotVec_one.1
  · rw [hR, Quat.opp_mul, Quat.mul_inverse_self hdu]; exact quatToRotVec_one.2

/-- Such a detection leaves the estimate as predicted (covariance in standard form, current linearisation point). -/
theorem C53_board_update (N : Num ℝ) (hN : N.rotVecToQuat 0 = Quat.one) (hof : N.OfMatLaw)
    (h1 : N.rotVecToQuat = rotVecToQuat) (h2 : N.quatToRotVec = quatToRotVec)
    (b : TruthBody ℝ) (camPos posF posErr angErr : V3 ℝ) (camAng angF : Quat ℝ) (u : FidUpdater ℝ) (e e1 : Ekf ℝ) (time : ℝ)
    (d : BoardDetection ℝ) (r : FidUpdater ℝ × Ekf ℝ) (h : u.update N e time d = .ok r) (hm : e.AtMessage N time e1)
    (hroot : e1.useRoot = false) (hcur : e1.useFirstEstimate = false ∨ u.isFirst = true)
    (hpos : e1.state.body.pos = b.pos) (hang : e1.state.body.ang = b.ang)
    (hcam : e1.cameraPose u.cameraId = (camPos, camAng)) (hfid : e1.fiducialPose u.id = some (posF, angF))
    (uq : b.ang.normSq = 1) (uc : camAng.normSq = 1) (uf : angF.normSq = 1)
    (hd : d = simBoard b camPos camAng posF angF posErr angErr)
    (hturn : 1 / 10 ^ 9 < 2 * atan2 (V3.norm ![d.ang.x, d.ang.y, d.ang.z]) |d.ang.w|) :
    r.2.state = (e1.getCamState u.cameraId).2.state := by
  obtain ⟨e1', e2, f, jac, noise, h1', rfl, hf, hr, hj, hn, hk⟩ := FidUpdater.update_form h
  unfold Ekf.AtMessage at hm
  rw [hm] at h1'
  cases h1'
  have hf' : e1.state.fids.find? u.id = some f := hf
  have hfp : (f.pos, f.ang) = (posF, angF) := by
    unfold Ekf.fiducialPose at hfid
    rw [hf'] at hfid
    simpa using hfid
  have hcp : ((u.camOf (e1.getCamState u.cameraId).2).pos, (u.camOf (e1.getCamState u.cameraId).2).ang) = (camPos, camAng) := by
    rw [← hcam, ← getD_getCam]; rfl
  have hr' : r.1 = { u with posC := camPos, angC := camAng, posF := posF, angF := angF, isFirst := false } := by
    rw [hr, FidUpdater.refresh, if_pos (by exact hcur)]
    simp only [Prod.mk.injEq] at hfp hcp
    rw [hfp.1, hfp.2, hcp.1, hcp.2]
  obtain ⟨z1, z2⟩ := C53_board N hof h1 h2 b camPos posF posErr angErr camAng angF r.1 (e1.getCamState u.cameraId).2 hpos hang
    (by rw [hr']) (by rw [hr']) (by rw [hr']) (by rw [hr']) uq uc uf d hd hturn
  refine C10_zero_residual N.toPrim hN _ _ jac _ noise hroot (fun a => ?_) hk
  rw [z1, z2]
  simp [Vec.of6]

open Classical in
/-- The conversions of `realNum`, with a conversion from rotation matrices that meets its law. -/
noncomputable def realNumOfMat : Num ℝ :=
  { realNum with ofMat := fun M => if h : ∃ q : Quat ℝ, q.normSq = 1 ∧ q.toMat = M then Classical.choose h else Quat.one }

theorem realNumOfMat_law : realNumOfMat.OfMatLaw := by
  intro q hq
  have h : ∃ p : Quat ℝ, p.normSq = 1 ∧ p.toMat = q.toMat := ⟨q, hq, rfl⟩
  have he : realNumOfMat.ofMat q.toMat = Classical.choose h := dif_pos h
  rw [he]
  obtain ⟨g1, g2⟩ := Classical.choose_spec h
  exact Quat.toMat_inj g1 hq g2

/-- A board half a turn about the vertical away from a camera at the body's origin, two metres ahead. -/
example : ∃ d : BoardDetection ℝ, d = simBoard ⟨0, 0, 0, Quat.one, 0, 0⟩ 0 Quat.one ![2, 0, 0] ⟨0, 0, 0, 1⟩ 1 1 ∧
    1 / 10 ^ 9 < 2 * atan2 (V3.norm ![d.ang.x, d.ang.y, d.ang.z]) |d.ang.w| ∧
    realNumOfMat.rotVecToQuat = rotVecToQuat ∧ realNumOfMat.quatToRotVec = quatToRotVec := by
  refine ⟨_, rfl, ?_, rfl, rfl⟩
  have h1 : (simBoard ⟨0, 0, 0, Quat.one, 0, 0⟩ 0 Quat.one ![2, 0, 0] ⟨0, 0, 0, 1⟩ 1 1 : BoardDetection ℝ).ang = ⟨0, 0, 0, 1⟩ := by
    simp [simBoard, Quat.one, Quat.inverse, Quat.normSq, Quat.mul]
  rw [h1]
  have h2 : V3.norm ![0, 0, 1] = 1 := by simp [V3.norm]
  have h3 : atan2 1 |0| = Real.pi / 2 := by
    have : (⟨|0|, 1⟩ : ℂ) = Complex.I := by apply Complex.ext <;> simp
    unfold atan2
    rw [this, Complex.arg_I]
  simp only [h2, h3]
  linarith [Real.two_le_pi]

/-! ### IMUs -/

/-- **IMUs, when the body is aligned with the local frame** (in its effect on acceleration and rate), the rotation rate
is along the velocity and the biases are zero: the error-free measurement is the predicted one.  Missing from the full
property: other orientations, rates across the velocity, and biases; see the violations below. -/
theorem C53_imu_partial [IsStrictOrderedRing K] (b : TruthBody K) (t : TruthImu K) (u : ImuUpdater) (e : Ekf K)
    (accErr omgErr : V3 K) (he : e.AtTruth b) (hs : (u.imuOf e).AtTruth t)
    (hacc : b.ang.inverse.rotate (b.acc + gravity) = b.acc + gravity) (homg : b.ang.inverse.rotate b.angVel = b.angVel)
    (hvel : V3.cross b.angVel b.vel = 0) (hba : t.accBias = 0) (hbw : t.omgBias = 0) :
    u.predictMeasurement e = Vec.of6 (simImu true b t accErr omgErr).1 (simImu true b t accErr omgErr).2 := by
  have h0 : ((2 : K) • (0 : V3 K)) = 0 := smul_zero _
  simp only [ImuUpdater.predictMeasurement, simImu, he.acc, he.ang, he.angVel, he.angAcc, he.vel, hs.pos, hs.ang, hs.accBias,
    hs.omgBias, hacc, homg, hvel, hba, hbw, h0, if_true, add_zero, zero_add]

/-- **One IMU at the body's origin, without bias**: the measurement is taken over as the body's acceleration and rate, and
these are the truth if the rotation keeps the rate vector.  Missing: an IMU off the origin (see the violation). -/
theorem C53_imu_single_partial [IsStrictOrderedRing K] (b : TruthBody K) (t : TruthImu K) (accErr omgErr : V3 K)
    (hp : t.pos = 0) (hq : b.ang.normSq = 1) (hi : t.ang.normSq = 1) (homg : b.ang.rotate b.angVel = b.angVel)
    (hba : t.accBias = 0) (hbw : t.omgBias = 0) :
    (b.ang.mul t.ang).rotate ((simImu true b t accErr omgErr).1 - t.accBias) = b.acc + gravity ∧
    (b.ang.mul t.ang).rotate ((simImu true b t accErr omgErr).2 - t.omgBias) = b.angVel := by
  have hc : ∀ w : V3 K, V3.cross w 0 = 0 := fun w => by
    funext i; fin_cases i <;> simp [V3.cross]
  constructor
  · simp only [simImu, if_true, hp, hc, hba, sub_zero, add_zero, Quat.mul_rotate hq hi, Quat.rotate_inverse_rotate hi,
      Quat.rotate_inverse_rotate hq]
  · simp only [simImu, if_true, hbw, sub_zero, Quat.mul_rotate hq hi, Quat.rotate_inverse_rotate hi, homg]

namespace MeasureSample
open Samples

/-- A filter holding one IMU of the given calibration, with the given body state. -/
def filter (b : BodyState ℚ) (s : ImuState ℚ) : Ekf ℚ :=
  let e := Ekf.init Samples.prim (Samples.params .none false)
  { e with state := { e.state with body := b, imus := [(1, s)] } }

def body (b : TruthBody ℚ) : BodyState ℚ := ⟨b.pos, b.vel, b.acc + gravity, b.ang, b.angVel, b.angAcc, 0⟩

def imu (t : TruthImu ℚ) : ImuState ℚ := ⟨0, 0, 0, 0, t.pos, t.ang, t.accBias, t.omgBias, 0, 0, 0, 0, false, false⟩

def updater : ImuUpdater := ImuUpdater.new 1 false false

theorem filter_truth (b : TruthBody ℚ) (t : TruthImu ℚ) : (filter (body b) (imu t)).AtTruth b ∧
    (updater.imuOf (filter (body b) (imu t))).AtTruth t := ⟨⟨rfl, rfl, rfl, rfl, rfl, rfl⟩, ⟨rfl, rfl, rfl, rfl⟩⟩

end MeasureSample
open MeasureSample

/-- The property for IMUs: at the true state the error-free measurement is the predicted one. -/
def C53ImuAgrees (b : TruthBody ℚ) (t : TruthImu ℚ) : Prop :=
  ∀ (u : ImuUpdater) (e : Ekf ℚ), e.AtTruth b → (u.imuOf e).AtTruth t →
    ∀ i < 6, (u.predictMeasurement e).get i = (Vec.of6 (simImu true b t 0 0).1 (simImu true b t 0 0).2).get i

/-- **The bias is missing from error-free measurements** though it is registered as true: a resting, aligned body with an
accelerometer bias. -/
theorem C53_bias_violated : ∃ (b : TruthBody ℚ) (t : TruthImu ℚ), b.ang = Quat.one ∧ b.angVel = 0 ∧ b.vel = 0 ∧
    ¬ C53ImuAgrees b t := by
  refine ⟨⟨0, 0, 0, Quat.one, 0, 0⟩, ⟨0, Quat.one, ![1, 0, 0], 0⟩, rfl, rfl, rfl, fun h => ?_⟩
  obtain ⟨h1, h2⟩ := filter_truth ⟨0, 0, 0, Quat.one, 0, 0⟩ ⟨0, Quat.one, ![1, 0, 0], 0⟩
  exact absurd (h _ _ h1 h2 0 (by decide)) (by decide +kernel)

/-- **The predicted acceleration is not turned into the body frame**: a body turned half round, accelerating along x. -/
theorem C53_acceleration_violated : ∃ (b : TruthBody ℚ) (t : TruthImu ℚ), t.accBias = 0 ∧ t.omgBias = 0 ∧ b.angVel = 0 ∧
    b.vel = 0 ∧ ¬ C53ImuAgrees b t := by
  refine ⟨⟨0, 0, ![1, 0, 0], ⟨0, 0, 0, 1⟩, 0, 0⟩, ⟨0, Quat.one, 0, 0⟩, rfl, rfl, rfl, rfl, fun h => ?_⟩
  obtain ⟨h1, h2⟩ := filter_truth ⟨0, 0, ![1, 0, 0], ⟨0, 0, 0, 1⟩, 0, 0⟩ ⟨0, Quat.one, 0, 0⟩
  exact absurd (h _ _ h1 h2 0 (by decide)) (by decide +kernel)

/-- **The rate is turned by the body's orientation in the prediction only**: a body turned half round about the vertical,
rolling about x, its acceleration aligned with gravity. -/
theorem C53_rate_violated : ∃ (b : TruthBody ℚ) (t : TruthImu ℚ), t.accBias = 0 ∧ t.omgBias = 0 ∧ b.acc = 0 ∧ b.vel = 0 ∧
    b.ang.inverse.rotate gravity = gravity ∧ ¬ C53ImuAgrees b t := by
  refine ⟨⟨0, 0, 0, ⟨0, 0, 0, 1⟩, ![1, 0, 0], 0⟩, ⟨0, Quat.one, 0, 0⟩, rfl, rfl, rfl, rfl, by decide +kernel, fun h => ?_⟩
  obtain ⟨h1, h2⟩ := filter_truth ⟨0, 0, 0, ⟨0, 0, 0, 1⟩, ![1, 0, 0], 0⟩ ⟨0, Quat.one, 0, 0⟩
  exact absurd (h _ _ h1 h2 3 (by decide)) (by decide +kernel)

/-- **The prediction has a term twice rate cross velocity which the measurement has not**: an aligned body moving along x
while yawing. -/
theorem C53_velocity_violated : ∃ (b : TruthBody ℚ) (t : TruthImu ℚ), t.accBias = 0 ∧ t.omgBias = 0 ∧ b.ang = Quat.one ∧
    ¬ C53ImuAgrees b t := by
  refine ⟨⟨0, ![1, 0, 0], 0, Quat.one, ![0, 0, 1], 0⟩, ⟨0, Quat.one, 0, 0⟩, rfl, rfl, rfl, fun h => ?_⟩
  obtain ⟨h1, h2⟩ := filter_truth ⟨0, ![1, 0, 0], 0, Quat.one, ![0, 0, 1], 0⟩ ⟨0, Quat.one, 0, 0⟩
  exact absurd (h _ _ h1 h2 1 (by decide)) (by decide +kernel)

/-- **A single IMU off the origin puts the lever-arm acceleration into the body's**: an aligned body yawing at 1 rad/s
with its IMU one metre ahead. -/
theorem C53_lever_violated : ∃ (b : TruthBody ℚ) (t : TruthImu ℚ), b.ang = Quat.one ∧ t.ang = Quat.one ∧ t.accBias = 0 ∧
    t.omgBias = 0 ∧ (b.ang.mul t.ang).rotate ((simImu true b t 0 0).1 - t.accBias) ≠ b.acc + gravity := by
  refine ⟨⟨0, 0, 0, Quat.one, ![0, 0, 1], 0⟩, ⟨![1, 0, 0], Quat.one, 0, 0⟩, rfl, rfl, rfl, rfl, fun h => ?_⟩
  exact absurd (congrFun h 0) (by decide +kernel)

/-- An aligned body accelerating along its spin axis, with an IMU off the origin, agrees. -/
example : ∃ (b : TruthBody ℚ) (t : TruthImu ℚ) (u : ImuUpdater) (e : Ekf ℚ), e.AtTruth b ∧ (u.imuOf e).AtTruth t ∧
    b.ang.inverse.rotate (b.acc + gravity) = b.acc + gravity ∧ b.ang.inverse.rotate b.angVel = b.angVel ∧
    V3.cross b.angVel b.vel = 0 ∧ b.angVel ≠ 0 ∧ t.pos ≠ 0 ∧ t.ang ≠ Quat.one :=
  ⟨⟨0, ![0, 0, 2], ![0, 0, 1], Quat.one, ![0, 0, 1], 0⟩, ⟨![1, 0, 0], ⟨0, 0, 0, 1⟩, 0, 0⟩, updater,
    filter (body ⟨0, ![0, 0, 2], ![0, 0, 1], Quat.one, ![0, 0, 1], 0⟩) (imu ⟨![1, 0, 0], ⟨0, 0, 0, 1⟩, 0, 0⟩),
    (filter_truth _ _).1, (filter_truth _ _).2, by decide +kernel, by decide +kernel, by decide +kernel,
    by decide +kernel, by decide +kernel, by decide +kernel⟩

end EkfCal
