import Verif.Model.SimNoise
import Verif.Spec.LawSamples
import Mathlib.Algebra.BigOperators.Fin
import Mathlib.Algebra.Module.LinearMap.Basic
import Verif.Spec.Weights
import Verif.Props.C10
import Verif.Props.C11
import Verif.Props.C44

/-!
# C60 — measurements are weighed with the covariance of their errors
-/

set_option linter.unusedSectionVars false

namespace EkfCal
open Ekf Finset
variable {K : Type} [Field K] [LinearOrder K] [IsStrictOrderedRing K]

/-- When the update of a filter is the exact Kalman update (C10, C11): the covariance is in standard form, or it is in
square-root form and the noise is diagonal. -/
def Ekf.Weighs (N : Prim K) (e : Ekf K) (R : Mat K) : Prop :=
  e.useRoot = false ∨
    (e.useRoot = true ∧ N.QrLaw ∧ N.SqrtLaw ∧ R.rows = R.cols ∧ R.Diagonal ∧ ∀ i, i < R.rows → 0 ≤ R.get i i)

theorem kalmanStep_of {N : Prim K} (hN : N.InvLaw) {e e' : Ekf K} {H : Mat K} {r : Vec K} {R : Mat K} (hw : e.Weighs N R)
    (h : kalmanUpdate N e H r R = .ok e') : KalmanStep N e e' H r R := by
  intro B hB
  rcases hw with hu | ⟨hu, hq, hs, hsq, hd, h0⟩
  · have hP : e.P = e.cov.get := by funext i j; simp [Ekf.P, hu]
    rw [hP] at hB ⊢
    obtain ⟨h1, h2, h3, h4, h5⟩ := C10_update N hN e e' H r R hu h B hB
    refine ⟨h1, fun i j _ _ => ?_⟩
    have hu' : e'.useRoot = false := by rw [h5]; exact hu
    rw [← h4 i j]
    simp [Ekf.P, hu']
  · have hP : e.P = gram e.cov := by funext i j; simp [Ekf.P, hu]
    rw [hP] at hB ⊢
    obtain ⟨h1, h2, h3, h4, h5, h6⟩ := C11_update_partial N hq hN hs e e' H r R hu hsq hd h0 h B hB
    refine ⟨h1, fun i j hi hj => ?_⟩
    have hu' : e'.useRoot = true := by rw [h6]; exact hu
    rw [← h5 i j hi hj]
    simp [Ekf.P, hu']

/-! ## What each update uses -/

/-- **GPS, reference known**: the update is the Kalman update with the covariance of the message. -/
theorem C60_gps (N : Num K) (hN : N.toPrim.InvLaw) (G : GpsNum K) (u : GpsUpdater K) (e e1 : Ekf K) (time : K) (lla : V3 K)
    (cov : Mat K) (r : GpsUpdater K × Ekf K) (h : u.update N G e time lla cov = .ok r) (h1 : e.AtMessage N time e1)
    (hinit : e1.isLlaInitialized = true) (hw : e1.Weighs N.toPrim cov) :
    ∃ e2 enu jac, e2 = (e1.getGpsState u.id).2 ∧ G.llaToEnu lla e1.posEInG = .ok enu ∧ r.1.jacobianOf N e2 = .ok jac ∧
      KalmanStep N.toPrim e2 r.2 jac (Vec.of3 (G.enuToLocal enu e1.angLToE -
        (e2.state.body.pos + e2.state.body.ang.rotate r.1.posAInB))) cov := by
  obtain ⟨e1', h1', h⟩ := GpsUpdater.update_form h
  unfold Ekf.AtMessage at h1
  rw [h1] at h1'
  cases h1'
  rcases h with ⟨hl, _⟩ | ⟨_, e2, enu, jac, rfl, henu, hr, hj, hk⟩
  · rw [hinit] at hl; cases hl
  · exact ⟨_, enu, jac, rfl, henu, hj, kalmanStep_of hN hw hk⟩

theorem measurementNoise_blocks {A B : M3 K} {R : Mat K} (h : ImuUpdater.measurementNoise A B = .ok R) : IsBlocks6 R A B := by
  simp only [ImuUpdater.measurementNoise, bind_ok_iff, Mat.setBlock_ok_iff] at h
  obtain ⟨n, ⟨_, _, rfl⟩, _, _, rfl⟩ := h
  refine ⟨rfl, rfl, ?_, ?_, ?_, ?_⟩ <;> intro i j <;> fin_cases i <;> fin_cases j <;> rfl

theorem fidNoise_blocks {d : BoardDetection K} {R : Mat K} (h : FidUpdater.noiseOf d = .ok R) :
    IsBlocks6 R (Matrix.diagonal d.posError) (Matrix.diagonal d.angError) := by
  simp only [FidUpdater.noiseOf, bind_ok_iff, Mat.setBlock_ok_iff] at h
  obtain ⟨n, ⟨_, _, rfl⟩, _, _, rfl⟩ := h
  refine ⟨rfl, rfl, ?_, ?_, ?_, ?_⟩ <;> intro i j <;> fin_cases i <;> fin_cases j <;> rfl

theorem zeroNoise_blocks {u : ImuUpdater} {A B : M3 K} {R : Mat K} (h : u.zeroAccNoise A B = .ok R) :
    (u.isIntrinsic = true → IsBlocks6 R A B) ∧ (u.isIntrinsic = false → IsBlock3 R A) := by
  constructor <;> intro hu <;> simp only [ImuUpdater.zeroAccNoise, hu, bind_ok_iff, Mat.setBlock_ok_iff, if_true, if_false,
    Bool.false_eq_true, pure_res, Except.ok.injEq] at h
  · obtain ⟨n, ⟨_, _, rfl⟩, _, _, rfl⟩ := h
    refine ⟨rfl, rfl, ?_, ?_, ?_, ?_⟩ <;> intro i j <;> fin_cases i <;> fin_cases j <;> rfl
  · obtain ⟨n, ⟨_, _, rfl⟩, rfl⟩ := h
    refine ⟨rfl, rfl, ?_⟩; intro i j; fin_cases i <;> fin_cases j <;> rfl

/-- A covariance in square-root form is only weighed exactly with uncorrelated errors; a covariance in standard form always. -/
def Ekf.WeighsBlocks (N : Prim K) (e : Ekf K) (A B : M3 K) : Prop :=
  e.useRoot = false ∨ (N.QrLaw ∧ N.SqrtLaw ∧ ∃ a b : V3 K, A = Matrix.diagonal a ∧ B = Matrix.diagonal b ∧ 0 ≤ a ∧ 0 ≤ b)

theorem weighs_of_blocks {N : Prim K} {e : Ekf K} {A B : M3 K} {R : Mat K} (hb : IsBlocks6 R A B) (hw : e.WeighsBlocks N A B) :
    e.Weighs N R := by
  rcases hw with h | ⟨hq, hs, a, b, rfl, rfl, ha, hbn⟩
  · exact .inl h
  cases hu : e.useRoot with
  | false => exact .inl hu
  | true =>
    have split : ∀ i : Nat, i < 6 → (∃ k : Fin 3, i = k.1) ∨ ∃ k : Fin 3, i = 3 + k.1 := fun i hi => by
      rcases Nat.lt_or_ge i 3 with h | h
      · exact .inl ⟨⟨i, h⟩, rfl⟩
      · exact .inr ⟨⟨i - 3, by omega⟩, by simp; omega⟩
    refine .inr ⟨hu, hq, hs, by rw [hb.rows, hb.cols], ?_, ?_⟩
    · intro i j hi hj hij
      rw [hb.rows] at hi; rw [hb.cols] at hj
      rcases split i hi with ⟨k, rfl⟩ | ⟨k, rfl⟩ <;> rcases split j hj with ⟨l, rfl⟩ | ⟨l, rfl⟩
      · rw [hb.upper, Matrix.diagonal_apply_ne]; rintro rfl; exact hij rfl
      · exact hb.right k l
      · exact hb.left k l
      · rw [hb.lower, Matrix.diagonal_apply_ne]; rintro rfl; exact hij rfl
    · intro i hi
      rw [hb.rows] at hi
      rcases split i hi with ⟨k, rfl⟩ | ⟨k, rfl⟩
      · rw [hb.upper, Matrix.diagonal_apply_eq]; exact ha k
      · rw [hb.lower, Matrix.diagonal_apply_eq]; exact hbn k

/-- **Markers**: the update is the Kalman update whose noise has the position and orientation errors of the detection on its
diagonal, used as variances. -/
theorem C60_board (N : Num K) (hN : N.toPrim.InvLaw) (u : FidUpdater K) (e e1 : Ekf K) (time : K) (d : BoardDetection K)
    (r : FidUpdater K × Ekf K) (h : u.update N e time d = .ok r) (h1 : e.AtMessage N time e1)
    (hw : e1.WeighsBlocks N.toPrim (Matrix.diagonal d.posError) (Matrix.diagonal d.angError)) :
    ∃ e2 f jac R, e2 = (e1.getCamState u.cameraId).2 ∧ e2.state.fids.find? u.id = some f ∧ r.1.jacobianOf N e2 f = .ok jac ∧
      IsBlocks6 R (Matrix.diagonal d.posError) (Matrix.diagonal d.angError) ∧
      KalmanStep N.toPrim e2 r.2 jac (Vec.of6 (d.pos - (r.1.predictOf N e2).1)
        (N.quatToRotVec ((N.rotVecToQuat (r.1.predictOf N e2).2).mul d.ang.inverse))) R := by
  obtain ⟨e1', e2, f, jac, noise, h1', rfl, hf, hr, hj, hn, hk⟩ := FidUpdater.update_form h
  unfold Ekf.AtMessage at h1
  rw [h1] at h1'
  cases h1'
  exact ⟨_, f, jac, noise, rfl, hf, hj, fidNoise_blocks hn, kalmanStep_of hN (weighs_of_blocks (fidNoise_blocks hn) hw) hk⟩

theorem getImu_registered {e : Ekf K} {i : Nat} {s : ImuState K} (h : e.state.imus.find? i = some s) : (e.getImuState i).2 = e := by
  simp only [getImuState, UMap.touch, h]

theorem localTime_state (e : Ekf K) (t : K) : (e.calculateLocalTime t).2.state = e.state ∧
    (e.calculateLocalTime t).2.useRoot = e.useRoot := by
  unfold calculateLocalTime; split <;> exact ⟨rfl, rfl⟩

/-- **Two or more IMUs, moving**: the update is the Kalman update with the two covariances of the message as blocks, followed by
the prediction to the time of the message. -/
theorem C60_imu (N : Num K) (hN : N.toPrim.InvLaw) (u : ImuUpdater) (e : Ekf K) (time : K) (acc omg : V3 K) (accCov omgCov : M3 K)
    (r : ImuUpdater × Ekf K) (h : u.update N e time acc accCov omg omgCov = .ok r) (hm : r.1.motionDetected = true)
    (s : ImuState K) (hs : e.state.imus.find? u.id = some s) (hl : e.state.imus.length ≠ 1)
    (hw : e.WeighsBlocks N.toPrim accCov omgCov) :
    ∃ e2 e3 jac R, e2 = (e.calculateLocalTime time).2.setZeroAcceleration false ∧
      r.1.measurementJacobian e2 = .ok jac ∧ IsBlocks6 R accCov omgCov ∧
      KalmanStep N.toPrim e2 e3 jac ⟨6, fun i => (Vec.of6 acc omg).get i - (r.1.predictMeasurement e2).get i⟩ R ∧
      e3.predict N.toPrim (e.calculateLocalTime time).1 = .ok r.2 := by
  obtain ⟨b, u', e1, hz, hu, h⟩ := ImuUpdater.update_form h
  obtain ⟨hst, hro⟩ := localTime_state e time
  have hs' : (e.calculateLocalTime time).2.state.imus.find? u.id = some s := by rw [hst]; exact hs
  have hkey : b = false ∧ u'.id = u.id ∧ e1 = (e.calculateLocalTime time).2 := by
    cases hz with
    | late hm => exact ⟨rfl, rfl, rfl⟩
    | moved e0 jac noise sc _ h0 => exact ⟨rfl, rfl, h0.trans (getImu_registered hs')⟩
    | still e0 e1 e2 e3 jac jac' noise sc hm' => rw [hu, hm'] at hm; cases hm
  obtain ⟨rfl, hid, rfl⟩ := hkey
  rcases h with ⟨h, _⟩ | ⟨_, e2, e3, h2, h3, h4⟩
  · cases h
  have hs2 : ((e.calculateLocalTime time).2.setZeroAcceleration false).state.imus.find? u'.id = some s := by rw [hid]; exact hs'
  rw [getImu_registered hs2] at h2
  subst h2
  rcases h3 with ⟨hl', _⟩ | ⟨_, jac, noise, hj, hn, hk⟩
  · have : (e.calculateLocalTime time).2.state.imus.length = 1 := hl'
    rw [hst] at this; exact absurd this hl
  · rw [hu]
    refine ⟨_, e3, jac, noise, rfl, hj, measurementNoise_blocks hn, kalmanStep_of hN (weighs_of_blocks (measurementNoise_blocks hn) ?_)
      hk, h4⟩
    rcases hw with hw | hw
    · exact .inl (hro.trans hw)
    · exact .inr hw

/-- **At a stand-still**: the update is the Kalman update with the covariance of the acceleration, and that of the rate as second
block if the biases are estimated; then the body's motion is set to rest. -/
theorem C60_still (N : Num K) (hN : N.toPrim.InvLaw) (u : ImuUpdater) (e : Ekf K) (time : K) (acc omg : V3 K)
    (accCov omgCov : M3 K) (r : ImuUpdater × Ekf K) (h : u.update N e time acc accCov omg omgCov = .ok r)
    (hm : r.1.motionDetected = false) (s : ImuState K) (hs : e.state.imus.find? u.id = some s) (hroot : e.useRoot = false) :
    ∃ e1 e2 e3 jac R, (e1 = (e.calculateLocalTime time).2 ∨ e1 = (e.calculateLocalTime time).2.initializeGravity) ∧
      e1.predict N.toPrim (e.calculateLocalTime time).1 = .ok e2 ∧ u.zeroAccJacobian N e2 = .ok jac ∧
      (u.isIntrinsic = true → IsBlocks6 R accCov omgCov) ∧ (u.isIntrinsic = false → IsBlock3 R accCov) ∧
      KalmanStep N.toPrim e2 e3 jac (u.zeroAccResidual (e.calculateLocalTime time).2 acc omg) R ∧
      r.2 = ({ e3 with state := { e3.state with body := { e3.state.body with acc := gravity, angVel := 0, angAcc := 0 } } } :
        Ekf K).setZeroAcceleration true := by
  obtain ⟨b, u', e1, hz, hu, h⟩ := ImuUpdater.update_form h
  obtain ⟨hst, hro⟩ := localTime_state e time
  have hs' : (e.calculateLocalTime time).2.state.imus.find? u.id = some s := by rw [hst]; exact hs
  cases hz with
  | late hm' => rw [hu, hm'] at hm; cases hm
  | moved e0 jac noise sc _ h0 => rw [hu] at hm; cases hm
  | still e0 e1 e2 e3 jac jac' noise sc hm' h0 hj hn hsc hle h1 h2 hj' h3 =>
    rcases h with ⟨_, h⟩ | ⟨h, _⟩
    · rw [getImu_registered hs'] at h0
      subst h0
      have hr2 : e2.useRoot = false := by
        have hc := (step_config (op := .predict (e.calculateLocalTime time).1) h2).useRoot
        rw [hc, h1]
        split <;> exact hro.trans hroot
      refine ⟨e1, e2, e3, jac', noise, ?_, h2, hj', (zeroNoise_blocks hn).1, (zeroNoise_blocks hn).2,
        kalmanStep_of hN (.inl hr2) h3, h⟩
      rw [h1]; split
      · exact .inr rfl
      · exact .inl rfl
    · cases h

theorem via_root {N : Prim K} {Q : Mat K → Prop} {a b : Ekf K} (h : Via N Q a b) : b.useRoot = a.useRoot := by
  obtain ⟨ops, h, _⟩ := h
  exact (run_induct (N := N) (P := fun _ => True) (R := SameConfig) SameConfig.refl (fun _ _ _ => SameConfig.trans)
    (fun _ _ _ _ h => step_config h) (fun _ _ => trivial) h).useRoot

/-- **Camera tracks**: features are taken as they come, and an update that corrects the filter is the Kalman update of the
compressed stack with the same variance for every row: the square of the configured pixel error, at least 1/4. -/
theorem C60_camera (N : Num K) (hN : N.toPrim.InvLaw) (u : MsckfUpdater K) (e : Ekf K) (fs : List (FeatureTrack K)) (px : K)
    (e' : Ekf K) (h : u.process N e fs px = .ok e')
    (hw : e.useRoot = false ∨ (N.toPrim.QrLaw ∧ N.toPrim.SqrtLaw)) :
    ∃ e2 ct H0 r0, u.featureLoop N e.stateSize (u.camOf e).index fs e 0
        (Mat.zero (fs.map fun f => 2 * f.track.length).sum e.stateSize) ⟨(fs.map fun f => 2 * f.track.length).sum, fun _ => 0⟩ =
          .ok (e2, ct, H0, r0) ∧
      (e' = e2 ∨ ∃ H r R, compressMeasurements N.toPrim H0 r0 = .ok (H, r) ∧ R.rows = r.size ∧ R.cols = r.size ∧
        (∀ i j, i < r.size → j < r.size → R.get i j = if i = j then max px (1 / 2) * max px (1 / 2) else 0) ∧
        KalmanStep N.toPrim e2 e' H r R) := by
  unfold MsckfUpdater.process at h
  simp only [bind_ok_iff] at h
  obtain ⟨⟨e2, ct, H0, r0⟩, hf, h⟩ := h
  refine ⟨e2, ct, H0, r0, hf, ?_⟩
  dsimp only at h
  split at h
  · cases h; exact .inl rfl
  obtain ⟨⟨H, r⟩, hc, h⟩ := bind_ok_iff.1 h
  dsimp only at h
  split at h
  · cases h; exact .inl rfl
  refine .inr ⟨H, r, _, hc, rfl, rfl, ?_, kalmanStep_of hN ?_ h⟩
  · intro i j _ _
    show (if i = j then (1 : K) else 0) * _ = _
    split <;> simp
  · have hr : e2.useRoot = e.useRoot := via_root (Q := fun _ => True) (MsckfUpdater.featureLoop_via hf)
    rcases hw with hw | ⟨hq, hs⟩
    · exact .inl (hr.trans hw)
    cases hu : e2.useRoot with
    | false => exact .inl hu
    | true =>
      refine .inr ⟨hu, hq, hs, rfl, fun i j _ _ hij => ?_, fun i _ => ?_⟩
      · show (if i = j then (1 : K) else 0) * _ = _
        rw [if_neg hij, zero_mul]
      · show 0 ≤ (if i = i then (1 : K) else 0) * _
        rw [if_pos rfl, one_mul]
        exact mul_self_nonneg _

/-- **A single IMU**: its covariances are not used at all; whatever they are, the readings replace the body's acceleration and
rate. -/
theorem C60_single_violated (N : Num K) (u : ImuUpdater) (e : Ekf K) (time : K) (acc omg : V3 K) (hm : u.motionDetected = true)
    (s : ImuState K) (hs : e.state.imus.find? u.id = some s) (hl : e.state.imus.length = 1) (accCov omgCov accCov' omgCov' : M3 K) :
    u.update N e time acc accCov omg omgCov = u.update N e time acc accCov' omg omgCov' := by
  obtain ⟨hst, _⟩ := localTime_state e time
  have hs2 : ((e.calculateLocalTime time).2.setZeroAcceleration false).state.imus.find? u.id = some s := by
    show (e.calculateLocalTime time).2.state.imus.find? u.id = some s
    rw [hst]; exact hs
  have hl2 : ((e.calculateLocalTime time).2.setZeroAcceleration false).state.imus.length = 1 := by
    show (e.calculateLocalTime time).2.state.imus.length = 1
    rw [hst]; exact hl
  have key : ∀ A B, u.zeroAccUpdate N (e.calculateLocalTime time).2 (e.calculateLocalTime time).1 acc A omg B =
      .ok (false, u, (e.calculateLocalTime time).2) := fun A B => by
    simp only [ImuUpdater.zeroAccUpdate, hm, if_true]; rfl
  simp only [ImuUpdater.update, key, ok_bind, Bool.false_eq_true, if_false, getImu_registered hs2, hl2, if_true]

/-- **The fixes that establish the reference**: while the reference is unknown the covariance of a fix is not used; the stored
fixes are all weighed with variance 1. -/
theorem C60_batch_violated (N : Num K) (G : GpsNum K) (u : GpsUpdater K) (e : Ekf K) (time : K) (lla : V3 K)
    (hinit : e.isLlaInitialized = false) (cov cov' : Mat K) : u.update N G e time lla cov = u.update N G e time lla cov' := by
  unfold GpsUpdater.update
  dsimp only
  cases h1 : (e.calculateLocalTime time).2.predict N.toPrim (e.calculateLocalTime time).1 with
  | error x => rfl
  | ok e1 =>
    have : e1.isLlaInitialized = false := ((atMessage_config (t := time) h1).2).trans hinit
    simp only [ok_bind, this, if_true]

/-! ## Simulated errors -/

section Sim
variable {Ω : Type} (E : (Ω → K) →ₗ[K] K)

theorem scaled_covariance {n : Nat} {z : Ω → Fin n → K} (hz : IsStandard E z) (s : Fin n → K) :
    HasCovariance E (fun w i => s i * z w i) (Matrix.diagonal fun i => s i * s i) := by
  intro i j
  have : (fun w => s i * z w i * (s j * z w j)) = (s i * s j) • fun w => z w i * z w j := by
    funext w; simp only [Pi.smul_apply, smul_eq_mul]; ring
  rw [this, map_smul, hz i j, Matrix.diagonal_apply]
  split
  · rename_i h; subst h; simp
  · simp

/-- **Simulated IMU**: a reading is the error-free reading plus bias plus an error whose covariance is the one in the message. -/
theorem C60_sim_imu (b : TruthBody K) (t : TruthImu K) (accError omgError : V3 K) (zAcc zOmg : Ω → V3 K)
    (ha : IsStandard E zAcc) (ho : IsStandard E zOmg) :
    ∃ (x y : Ω → V3 K) (A B : M3 K), HasCovariance E x A ∧ HasCovariance E y B ∧ ∀ w,
      simImuMessage false b t accError omgError (zAcc w) (zOmg w) =
        ⟨(simImu true b t 0 0).1 + (t.accBias + x w), A, (simImu true b t 0 0).2 + (t.omgBias + y w), B⟩ :=
  ⟨_, _, _, _, scaled_covariance E ha accError, scaled_covariance E ho omgError, fun _ => rfl⟩

/-- **Simulated markers**: a detected position is the true one plus an error of covariance diag(σ²), but the detection carries σ,
which the update (C60_board) uses as variance. -/
theorem C60_sim_board (N : Prim K) (halfPi : K) (b : TruthBody K) (camPos : V3 K) (camAng : Quat K) (posF : V3 K) (angF : Quat K)
    (tVec rVec : V3 K) (zPos zAng : Ω → V3 K) (hz : IsStandard E zPos) :
    ∃ (x : Ω → V3 K), HasCovariance E x (Matrix.diagonal fun i => tVec i * tVec i) ∧ ∀ w,
      (simBoardMessage N halfPi false b camPos camAng posF angF tVec rVec (zPos w) (zAng w)).pos =
        (simBoard b camPos camAng posF angF tVec rVec).pos + x w ∧
      (simBoardMessage N halfPi false b camPos camAng posF angF tVec rVec (zPos w) (zAng w)).posError = tVec :=
  ⟨_, scaled_covariance E hz tVec, fun _ => ⟨rfl, rfl⟩⟩

/-- The weight of a simulated marker position is right only if every configured standard deviation is 0 or 1. -/
theorem C60_board_iff (N : Prim K) (halfPi : K) (b : TruthBody K) (camPos : V3 K) (camAng : Quat K) (posF : V3 K) (angF : Quat K)
    (tVec rVec : V3 K) (zPos zAng : Ω → V3 K) (hz : IsStandard E zPos) (w0 : Ω) :
    HasCovariance E (fun w => (simBoardMessage N halfPi false b camPos camAng posF angF tVec rVec (zPos w) (zAng w)).pos -
        (simBoard b camPos camAng posF angF tVec rVec).pos)
      (Matrix.diagonal (simBoardMessage N halfPi false b camPos camAng posF angF tVec rVec (zPos w0) (zAng w0)).posError) ↔
    ∀ i, tVec i = 0 ∨ tVec i = 1 := by
  have h : (fun w => (simBoardMessage N halfPi false b camPos camAng posF angF tVec rVec (zPos w) (zAng w)).pos -
      (simBoard b camPos camAng posF angF tVec rVec).pos) = fun w i => tVec i * zPos w i := by
    funext w i
    show (simBoard b camPos camAng posF angF tVec rVec).pos i + tVec i * zPos w i - _ = _
    ring
  rw [h]
  show HasCovariance E _ (Matrix.diagonal tVec) ↔ _
  have h2 := scaled_covariance E hz tVec
  have key : ∀ a : K, a * a = a ↔ a = 0 ∨ a = 1 := fun a => by
    rw [← sub_eq_zero, show a * a - a = a * (a - 1) by ring, mul_eq_zero, sub_eq_zero]
  constructor
  · intro g i
    have := (h2 i i).symm.trans (g i i)
    rw [Matrix.diagonal_apply_eq, Matrix.diagonal_apply_eq] at this
    exact (key _).1 this
  · intro g i j
    rw [h2 i j, Matrix.diagonal_apply, Matrix.diagonal_apply]
    split
    · exact (key _).2 (g i)
    · rfl

/-- **Pixels**: an error of `px` pixels in the two coordinates is an error of `px · pixel size / focal length` in the residual
rows; its covariance is compared here with the variance used for every row (C60_camera). -/
theorem C60_pixels (c : Intrinsics K) (x y px : K) (z : Ω → V2 K) (hz : IsStandard E z) :
    HasCovariance E (fun w => normalisePixel c (x + px * z w 0) (y + px * z w 1) - normalisePixel c x y)
      (Matrix.diagonal ![(px * (c.fx / c.pixelSize)⁻¹) ^ 2, (px * (c.fy / c.pixelSize)⁻¹) ^ 2]) := by
  have h : (fun w => normalisePixel c (x + px * z w 0) (y + px * z w 1) - normalisePixel c x y) =
      fun w i => (![px * (c.fx / c.pixelSize)⁻¹, px * (c.fy / c.pixelSize)⁻¹] : V2 K) i * z w i := by
    funext w i
    fin_cases i
    · show (x + px * z w 0 - c.width / 2) / (c.fx / c.pixelSize) - (x - c.width / 2) / (c.fx / c.pixelSize) =
        px * (c.fx / c.pixelSize)⁻¹ * z w 0
      rw [div_eq_mul_inv (x + _ - _), div_eq_mul_inv (x - _)]; ring
    · show (y + px * z w 1 - c.height / 2) / (c.fy / c.pixelSize) - (y - c.height / 2) / (c.fy / c.pixelSize) =
        px * (c.fy / c.pixelSize)⁻¹ * z w 1
      rw [div_eq_mul_inv (y + _ - _), div_eq_mul_inv (y - _)]; ring
  rw [h]
  have h2 := scaled_covariance E hz (![px * (c.fx / c.pixelSize)⁻¹, px * (c.fy / c.pixelSize)⁻¹] : V2 K)
  have h3 : (fun i => (![px * (c.fx / c.pixelSize)⁻¹, px * (c.fy / c.pixelSize)⁻¹] : V2 K) i *
      (![px * (c.fx / c.pixelSize)⁻¹, px * (c.fy / c.pixelSize)⁻¹] : V2 K) i) =
      ![(px * (c.fx / c.pixelSize)⁻¹) ^ 2, (px * (c.fy / c.pixelSize)⁻¹) ^ 2] := by
    funext i; fin_cases i <;> simp [pow_two]
  rw [h3] at h2
  exact h2

end Sim

/-- **Simulated GPS**: a fix is the error-free fix of an antenna displaced, in the local frame, by an error whose covariance is the
one in the message. -/
theorem C60_sim_gps {Ω : Type} (E : (Ω → ℝ) →ₗ[ℝ] ℝ) (b : TruthBody ℝ) (posA ref : V3 ℝ) (heading : ℝ) (llaError : V3 ℝ)
    (z : Ω → V3 ℝ) (hz : IsStandard E z) :
    ∃ (x : Ω → V3 ℝ) (C : M3 ℝ), HasCovariance E x C ∧ ∀ w,
      simGpsMessage false b posA ref heading llaError (z w) =
        (simGps true { b with pos := b.pos + x w } posA ref heading 0).map fun lla => (lla, M3.toMat C) := by
  refine ⟨_, _, scaled_covariance E hz llaError, fun w => ?_⟩
  have h : simGps false b posA ref heading (fun i => 0 + llaError i * z w i) =
      simGps true { b with pos := b.pos + fun i => llaError i * z w i } posA ref heading 0 := by
    unfold simGps
    simp only [zero_add, if_true, Bool.false_eq_true, if_false]
    rw [add_right_comm]
  unfold simGpsMessage
  rw [h]
  cases simGps true { b with pos := b.pos + fun i => llaError i * z w i } posA ref heading 0 <;> rfl

/-- The variance used is never below that of the residual when the focal length is at least one pixel: such tracks are weighed
too little, not too much. -/
theorem C60_pixels_partial (f px : K) (hf : 1 ≤ f) (hpx : 0 ≤ px) : (px * f⁻¹) ^ 2 ≤ max px (1 / 2) * max px (1 / 2) := by
  have h0 : 0 < f := lt_of_lt_of_le one_pos hf
  have h1 : px * f⁻¹ ≤ px := mul_le_of_le_one_right hpx (inv_le_one_of_one_le₀ hf)
  have h2 : 0 ≤ px * f⁻¹ := mul_nonneg hpx (inv_nonneg.2 h0.le)
  rw [pow_two]
  exact mul_self_le_mul_self h2 (h1.trans (le_max_left _ _))

/-- For a configured error of half a pixel or more the variance is right exactly for a focal length of one pixel. -/
theorem C60_pixels_iff (f px : K) (hf : 0 < f) (hpx : 1 / 2 ≤ px) :
    (px * f⁻¹) ^ 2 = max px (1 / 2) * max px (1 / 2) ↔ f = 1 := by
  have h0 : 0 < px := lt_of_lt_of_le (by norm_num) hpx
  rw [max_eq_left hpx, ← pow_two, pow_left_inj₀ (by positivity) h0.le (by norm_num)]
  constructor
  · intro h
    have : f⁻¹ = 1 := by simpa [h0.ne'] using h
    exact inv_eq_one.1 this
  · rintro rfl; simp

/-! ## Witnesses -/

namespace WeightSample

/-- The average over four equally likely outcomes. -/
def mean : (Fin 4 → ℚ) →ₗ[ℚ] ℚ where
  toFun f := (f 0 + f 1 + f 2 + f 3) / 4
  map_add' f g := by simp only [Pi.add_apply]; ring
  map_smul' c f := by simp only [Pi.smul_apply, smul_eq_mul, RingHom.id_apply]; ring

/-- Uncorrelated draws of mean 0 and variance 1. -/
def draws : Fin 4 → V3 ℚ := ![![1, 1, 1], ![1, -1, -1], ![-1, 1, -1], ![-1, -1, 1]]

theorem standard : IsStandard mean draws := by
  intro i j; fin_cases i <;> fin_cases j <;> decide +kernel

def draws2 : Fin 4 → V2 ℚ := ![![1, 1], ![1, -1], ![-1, 1], ![-1, -1]]

theorem standard2 : IsStandard mean draws2 := by
  intro i j; fin_cases i <;> fin_cases j <;> decide +kernel

/-- A camera with a focal length of 2000 pixels. -/
def lens : Intrinsics ℚ := ⟨1 / 100, 1 / 100, 0, 0, 0, 0, 640, 480, 1 / 200000⟩

end WeightSample
open WeightSample

/-- Marker positions simulated with a standard deviation of 0.1 m are weighed with a standard deviation of about 0.32 m. -/
theorem C60_board_violated : ∃ (tVec rVec : V3 ℚ) (b : TruthBody ℚ), (∀ i, tVec i = 1 / 10) ∧
    ¬ HasCovariance mean (fun w => (simBoardMessage Samples.prim 2 false b 0 Quat.one ![2, 0, 0] Quat.one tVec rVec (draws w)
        (draws w)).pos - (simBoard b 0 Quat.one ![2, 0, 0] Quat.one tVec rVec).pos)
      (Matrix.diagonal (simBoardMessage Samples.prim 2 false b 0 Quat.one ![2, 0, 0] Quat.one tVec rVec (draws 0)
        (draws 0)).posError) := by
  refine ⟨fun _ => 1 / 10, fun _ => 1 / 10, ⟨0, 0, 0, Quat.one, 0, 0⟩, fun _ => rfl, fun h => ?_⟩
  have := (C60_board_iff mean Samples.prim 2 ⟨0, 0, 0, Quat.one, 0, 0⟩ 0 Quat.one ![2, 0, 0] Quat.one (fun _ => 1 / 10)
    (fun _ => 1 / 10) draws draws standard 0).1 h 0
  norm_num at this

/-- One pixel of error at a focal length of 2000 pixels: the residual rows err by 1/2000 but are weighed with variance 1. -/
theorem C60_pixels_violated : ∃ (c : Intrinsics ℚ) (px : ℚ), c.fx / c.pixelSize = 2000 ∧ c.fy / c.pixelSize = 2000 ∧ px = 1 ∧
    ¬ HasCovariance mean (fun w => normalisePixel c (320 + px * draws2 w 0) (240 + px * draws2 w 1) - normalisePixel c 320 240)
      (Matrix.diagonal fun _ => max px (1 / 2) * max px (1 / 2)) := by
  refine ⟨lens, 1, by norm_num [lens], by norm_num [lens], rfl, fun h => ?_⟩
  have h1 := (C60_pixels mean lens 320 240 1 draws2 standard2 0 0).symm.trans (h 0 0)
  rw [Matrix.diagonal_apply_eq, Matrix.diagonal_apply_eq] at h1
  norm_num [lens] at h1

/-! ## The hypotheses can be met -/

/-- Two IMUs, an antenna, a camera with two cloned frames and a marker. -/
def C60_ops : List (Op ℚ) :=
  [.registerIMU 2 (Samples.imu true true) (Samples.cov 12), .registerIMU 3 (Samples.imu true true) (Samples.cov 12),
   .registerGPS 7 Samples.gps (Samples.cov 3), .registerCamera 1 Samples.cam (Samples.cov 6),
   .registerFiducial (Samples.fid 4) (Samples.cov 6), .setGpsReference 0 0, .localTime 10, .initializeGravity]

/-- GPS, marker and IMU messages of such a filter are accepted, with noise that is not the identity. -/
example : ∃ e r1 r2 r3, Ekf.run Samples.adjPrim (Ekf.init Samples.adjPrim (Samples.params .none false)) C60_ops = .ok e ∧
    e.useRoot = false ∧ e.isLlaInitialized = true ∧ (∃ s, e.state.imus.find? 3 = some s) ∧ e.state.imus.length = 2 ∧
    (GpsUpdater.new 7 true).update Samples.adjNum Samples.gpsNum e 10 ![1, 0, 0] ((Samples.cov 3).smul 2) = .ok r1 ∧
    (FidUpdater.new 4 1 true true).update Samples.adjNum e 10 ⟨![1, 0, 0], Quat.one, ![1, 2, 3], ![1, 1, 2]⟩ = .ok r2 ∧
    ({ ImuUpdater.new 3 true true with motionDetected := true } : ImuUpdater).update Samples.adjNum e 10 ![1, 0, 0]
      (Matrix.diagonal ![1, 2, 3]) 0 (Matrix.diagonal ![1, 2, 2]) = .ok r3 ∧ r3.1.motionDetected = true := by
  let c : Res (Ekf ℚ × (GpsUpdater ℚ × Ekf ℚ) × (FidUpdater ℚ × Ekf ℚ) × (ImuUpdater × Ekf ℚ)) := do
    let e ← Ekf.run Samples.adjPrim (Ekf.init Samples.adjPrim (Samples.params .none false)) C60_ops
    let r1 ← (GpsUpdater.new 7 true).update Samples.adjNum Samples.gpsNum e 10 ![1, 0, 0] ((Samples.cov 3).smul 2)
    let r2 ← (FidUpdater.new 4 1 true true).update Samples.adjNum e 10 ⟨![1, 0, 0], Quat.one, ![1, 2, 3], ![1, 1, 2]⟩
    let r3 ← ({ ImuUpdater.new 3 true true with motionDetected := true } : ImuUpdater).update Samples.adjNum e 10 ![1, 0, 0]
      (Matrix.diagonal ![1, 2, 3]) 0 (Matrix.diagonal ![1, 2, 2])
    pure (e, r1, r2, r3)
  obtain ⟨⟨e, r1, r2, r3⟩, h, h1, h2, h3, h4, h5⟩ := Samples.ok_of_check (r := c)
    (P := fun x => x.1.useRoot = false ∧ x.1.isLlaInitialized = true ∧ (x.1.state.imus.find? 3).isSome = true ∧
      x.1.state.imus.length = 2 ∧ x.2.2.2.1.motionDetected = true) (by decide +kernel)
  simp only [c, bind_ok_iff] at h
  obtain ⟨e', g0, r1', g1, r2', g2, r3', g3, h⟩ := h
  cases h
  exact ⟨e, r1, r2, r3, g0, h1, h2, Option.isSome_iff_exists.1 h3, h4, g1, g2, g3, h5⟩

/-- A stand-still: the update of a calm message is defined and is taken for rest. -/
example : ∃ e r, Ekf.run Samples.adjPrim (Ekf.init Samples.adjPrim (Samples.params .none false))
      [.registerIMU 3 (Samples.imu false false) ⟨0, 0, fun _ _ => 0⟩, .initializeGravity] = .ok e ∧
    (ImuUpdater.new 3 false false).update Samples.adjNum e 1 ![1 / 10, 0, 980665 / 100000] (Matrix.diagonal ![1, 2, 3]) 0 1 =
      .ok r ∧ r.1.motionDetected = false ∧ (∃ s, e.state.imus.find? 3 = some s) ∧ e.useRoot = false := by
  let c : Res (Ekf ℚ × (ImuUpdater × Ekf ℚ)) := do
    let e ← Ekf.run Samples.adjPrim (Ekf.init Samples.adjPrim (Samples.params .none false))
      [.registerIMU 3 (Samples.imu false false) ⟨0, 0, fun _ _ => 0⟩, .initializeGravity]
    let r ← (ImuUpdater.new 3 false false).update Samples.adjNum e 1 ![1 / 10, 0, 980665 / 100000] (Matrix.diagonal ![1, 2, 3]) 0 1
    pure (e, r)
  obtain ⟨⟨e, r⟩, h, h1, h2, h3⟩ := Samples.ok_of_check (r := c)
    (P := fun x => x.2.1.motionDetected = false ∧ (x.1.state.imus.find? 3).isSome = true ∧ x.1.useRoot = false)
    (by decide +kernel)
  simp only [c, bind_ok_iff] at h
  obtain ⟨e', g0, r', g1, h⟩ := h
  cases h
  exact ⟨e, r, g0, g1, h1, Option.isSome_iff_exists.1 h2, h3⟩

/-- A single moving IMU, and a fix before the reference is known: the updates are defined. -/
example : ∃ e r1 r2, Ekf.run Samples.adjPrim (Ekf.init Samples.adjPrim { Samples.params .none false with gpsInitType := .baselineDist })
      [.registerIMU 3 (Samples.imu true true) (Samples.cov 12), .registerGPS 7 Samples.gps (Samples.cov 3),
       .localTime 10] = .ok e ∧
    (∃ s, e.state.imus.find? 3 = some s) ∧ e.state.imus.length = 1 ∧ e.isLlaInitialized = false ∧
    ({ ImuUpdater.new 3 true true with motionDetected := true } : ImuUpdater).update Samples.adjNum e 11 ![1, 0, 0] 1 0 1 =
      .ok r1 ∧
    (GpsUpdater.new 7 true).update Samples.adjNum Samples.gpsNum e 11 ![1, 0, 0] (Samples.cov 3) = .ok r2 := by
  let c : Res (Ekf ℚ × (ImuUpdater × Ekf ℚ) × (GpsUpdater ℚ × Ekf ℚ)) := do
    let e ← Ekf.run Samples.adjPrim (Ekf.init Samples.adjPrim { Samples.params .none false with gpsInitType := .baselineDist })
      [.registerIMU 3 (Samples.imu true true) (Samples.cov 12), .registerGPS 7 Samples.gps (Samples.cov 3), .localTime 10]
    let r1 ← ({ ImuUpdater.new 3 true true with motionDetected := true } : ImuUpdater).update Samples.adjNum e 11 ![1, 0, 0] 1 0 1
    let r2 ← (GpsUpdater.new 7 true).update Samples.adjNum Samples.gpsNum e 11 ![1, 0, 0] (Samples.cov 3)
    pure (e, r1, r2)
  obtain ⟨⟨e, r1, r2⟩, h, h1, h2, h3⟩ := Samples.ok_of_check (r := c)
    (P := fun x => (x.1.state.imus.find? 3).isSome = true ∧ x.1.state.imus.length = 1 ∧ x.1.isLlaInitialized = false)
    (by decide +kernel)
  simp only [c, bind_ok_iff] at h
  obtain ⟨e', g0, r1', g1, r2', g2, h⟩ := h
  cases h
  exact ⟨e, r1, r2, g0, Option.isSome_iff_exists.1 h1, h2, h3, g1, g2⟩

/-- A track of three observations with known truth: the stack of six rows is projected and used. -/
example : ∃ e e', Ekf.run Samples.adjPrim (Ekf.init Samples.adjPrim (Samples.params .primary false))
      [.registerCamera 0 Samples.cam (Samples.cov 6), .frame 0 1, .frame 0 2, .frame 0 3] = .ok e ∧
    e.useRoot = false ∧
    (MsckfUpdater.new 0 true 1).process Samples.adjNum e
      [⟨[⟨1, 0, 1000, 500⟩, ⟨2, 0, 1010, 500⟩, ⟨3, 0, 1020, 510⟩], some ![0, 0, 5]⟩] 1 = .ok e' := by
  let c : Res (Ekf ℚ × Ekf ℚ) := do
    let e ← Ekf.run Samples.adjPrim (Ekf.init Samples.adjPrim (Samples.params .primary false))
      [.registerCamera 0 Samples.cam (Samples.cov 6), .frame 0 1, .frame 0 2, .frame 0 3]
    let e' ← (MsckfUpdater.new 0 true 1).process Samples.adjNum e
      [⟨[⟨1, 0, 1000, 500⟩, ⟨2, 0, 1010, 500⟩, ⟨3, 0, 1020, 510⟩], some ![0, 0, 5]⟩] 1
    pure (e, e')
  obtain ⟨⟨e, e'⟩, h, h1⟩ := Samples.ok_of_check (r := c) (P := fun x => x.1.useRoot = false) (by decide +kernel)
  simp only [c, bind_ok_iff] at h
  obtain ⟨_, g0, _, g1, h⟩ := h
  cases h
  exact ⟨e, e', g0, h1, g1⟩

end EkfCal
