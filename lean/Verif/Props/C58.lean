import Verif.Props.C27
import Verif.Props.C09
import Verif.Spec.LawSamples

/-!
# C58 — logged variances are the filter's variances
-/

set_option linter.unusedSectionVars false

namespace EkfCal
open Ekf Finset
variable {K : Type} [Field K] [LinearOrder K]

theorem shown_full (e : Ekf K) (hu : e.useRoot = false) : e.shownVariance = fun i => e.P i i := by
  funext i
  simp [Ekf.shownVariance, Ekf.P, hu]

/-! ## A filter that keeps its covariance -/

/-- The body log shows the variances of the body. -/
theorem C58_body_partial (N : Prim K) (P : Printer K) (hP : P.Law) (e : Ekf K) (hr : e.Reachable N) (hu : e.useRoot = false) (d : Int) :
    ∃ row, bodyRow P e d = .ok row ∧ (bodyColumns e (fun i => e.P i i) d).Writes P bodyHeader row := by
  obtain ⟨row, h1, _, h2⟩ := C27_body N P hP e hr d
  rw [shown_full e hu] at h2
  exact ⟨row, h1, h2⟩

/-- The rows of ordinary IMU updates show the variances of the IMU's pose and of its biases. -/
theorem C58_imu_partial (N : Prim K) (P : Printer K) (hP : P.Law) (e : Ekf K) (hr : e.Reachable N) (hu : e.useRoot = false)
    (u : ImuUpdater) (s : ImuState K) (hs : e.state.imus.find? u.id = some s) (he : s.isExtrinsic = u.isExtrinsic)
    (hn : s.isIntrinsic = u.isIntrinsic) (t : K) (acc omg resAcc resOmg : V3 K) (d : Int) :
    ∃ row, u.row P e t acc omg resAcc resOmg d = .ok row ∧
      (imuColumns s (fun i => e.P i i) t 0 e.motionDetectionChiSquared acc omg resAcc resOmg d).Writes P u.header row := by
  obtain ⟨row, h1, _, h2⟩ := C27_imu N P hP e hr u s hs he hn t acc omg resAcc resOmg d
  rw [shown_full e hu] at h2
  exact ⟨row, h1, h2⟩

/-- GPS. -/
theorem C58_gps_partial (N : Prim K) (P : Printer K) (hP : P.Law) (e : Ekf K) (hr : e.Reachable N) (hu : e.useRoot = false)
    (u : GpsUpdater K) (s : GpsState K) (hs : e.state.gpss.find? u.id = some s) (he : s.isExtrinsic = u.isExtrinsic) (t : K)
    (lla loc ref : V3 K) (heading' : K) (resid : V3 K) (d : Int) :
    ∃ row, u.row P e t lla loc ref heading' resid d = .ok row ∧
      (gpsColumns s (fun i => e.P i i) t lla loc ref heading' e.isLlaInitialized resid d).Writes P u.header row := by
  obtain ⟨row, h1, _, h2⟩ := C27_gps N P hP e hr u s hs he t lla loc ref heading' resid d
  rw [shown_full e hu] at h2
  exact ⟨row, h1, h2⟩

/-- Fiducial boards. -/
theorem C58_fiducial_partial (N : Prim K) (P : Printer K) (hP : P.Law) (e : Ekf K) (hr : e.Reachable N) (hu : e.useRoot = false)
    (u : FidUpdater K) (c : CamState K) (f : FidState K) (hc : e.state.cams.find? u.cameraId = some c)
    (hf : e.state.fids.find? u.id = some f) (he : c.isExtrinsic = u.isCamExtrinsic) (hfe : f.isExtrinsic = u.isFidExtrinsic) (t : K)
    (pos : V3 K) (ang : Quat K) (resPos resAng : V3 K) (d : Int) :
    ∃ row, u.row P e f t pos ang resPos resAng d = .ok row ∧
      (fidColumns u.id c f (fun i => e.P i i) t pos ang resPos resAng d).Writes P u.header row := by
  obtain ⟨row, h1, _, h2⟩ := C27_fiducial N P hP e hr u c f hc hf he hfe t pos ang resPos resAng d
  rw [shown_full e hu] at h2
  exact ⟨row, h1, h2⟩

/-- Cameras. -/
theorem C58_msckf_partial (N : Prim K) (P : Printer K) (hP : P.Law) (e : Ekf K) (hr : e.Reachable N) (hu : e.useRoot = false)
    (u : MsckfUpdater K) (c : CamState K) (hc : e.state.cams.find? u.id = some c) (he : c.isExtrinsic = u.isCamExtrinsic) (t : K)
    (tracks : Nat) (d : Int) :
    ∃ row, u.row P e t tracks d = .ok row ∧ (msckfColumns c (fun i => e.P i i) t tracks d).Writes P u.header row := by
  obtain ⟨row, h1, _, h2⟩ := C27_msckf N P hP e hr u c hc he t tracks d
  rw [shown_full e hu] at h2
  exact ⟨row, h1, h2⟩

/-! ## A filter that keeps a root -/

/-- What is shown is the variance less the squares of the other entries of the column, hence never more than the variance. -/
theorem C58_root_bound [IsStrictOrderedRing K] (N : Prim K) (e : Ekf K) (hr : e.Reachable N) (hu : e.useRoot = true) (i : Nat)
    (hi : i < e.stateSize) :
    e.P i i = e.shownVariance i + ∑ k ∈ (range e.stateSize).erase i, e.cov.get k i * e.cov.get k i ∧ e.shownVariance i ≤ e.P i i := by
  have h : e.P i i = e.shownVariance i + ∑ k ∈ (range e.stateSize).erase i, e.cov.get k i * e.cov.get k i := by
    simp only [Ekf.P, Ekf.shownVariance, hu, if_true, gram, hr.inv.covRows]
    rw [add_sum_erase _ (fun k => e.cov.get k i * e.cov.get k i) (mem_range.2 hi)]
  refine ⟨h, ?_⟩
  rw [h]
  exact le_add_of_nonneg_right (sum_nonneg fun k _ => mul_self_nonneg _)

/-- A root filter after one prediction: position and velocity are correlated, and the variance shown for the velocity
(`body_cov_3`) is smaller than the one the filter holds. -/
theorem C58_root_violated : ∃ e : Ekf ℝ, e.Reachable realPrim ∧ e.useRoot = true ∧ e.shownVariance 3 < e.P 3 3 := by
  obtain ⟨e, he, hc, hu, hg, ha, ht, hq⟩ : ∃ e, run realPrim (init realPrim C11_params) [.initializeGravity] = .ok e ∧
      e.cov = (init realPrim C11_params).cov ∧ e.useRoot = true ∧ e.isGravityInitialized = true ∧ e.augType = .none ∧
      e.currentTime = 0 ∧ e.processNoise = Mat.zero 18 18 :=
    ⟨_, rfl, rfl, rfl, rfl, rfl, rfl, rfl⟩
  have hrow : e.cov.rows = 18 := by rw [hc]; rfl
  have hw : ∀ op ∈ [(.initializeGravity : Op ℝ)], op.WF := by
    intro op ho
    rw [List.mem_singleton.1 ho]; trivial
  have hi := inv_run (inv_init realPrim C11_params) hw he
  have ha' : e.augType ≠ .time ∧ e.augType ≠ .error := by rw [ha]; exact ⟨by simp, by simp⟩
  obtain ⟨c, h1, h2, h3, h4, h5⟩ := predict_root realPrim realPrim_qr realPrim_sqrt e hi hu hg ha' 1 (by rw [ht]; norm_num)
  have hr : ({ e with
      state := { e.state with body := predictBody realPrim e.isZeroAcceleration e.state.body (1 - e.currentTime) }
      cov := c
      currentTime := 1 } : Ekf ℝ).Reachable realPrim := by
    refine ⟨C11_params, [.initializeGravity] ++ [.predict 1], ?_, ?_⟩
    · intro op ho
      rcases List.mem_append.1 ho with ho | ho
      · exact hw op ho
      · rw [List.mem_singleton.1 ho]; trivial
    · rw [run_append, he]
      simp only [ok_bind, run, step, h1]
  refine ⟨_, hr, hu, ?_⟩
  have hsz : e.stateSize = 18 := hi.covRows.symm.trans hrow
  obtain ⟨g1, g2⟩ := C58_root_bound realPrim _ hr hu 3 (by show 3 < e.stateSize; omega)
  refine lt_of_le_of_ne g2 fun heq => ?_
  rw [heq] at g1
  have hz : ∑ k ∈ (range e.stateSize).erase 3, c.get k 3 * c.get k 3 = 0 := by
    have := g1
    exact (left_eq_add.1 this)
  have hz0 : ∀ k ∈ (range e.stateSize).erase 3, c.get k 3 = 0 := fun k hk =>
    mul_self_eq_zero.1 ((sum_eq_zero_iff_of_nonneg fun k _ => mul_self_nonneg _).1 hz k hk)
  have h30 : c.get 3 0 = 0 := h4 3 0 (by omega) (by omega) (by omega)
  have hg0 : gram c 0 3 = 0 := by
    unfold gram
    refine sum_eq_zero fun k hk => ?_
    by_cases hk3 : k = 3
    · rw [hk3, h30, zero_mul]
    · rw [hz0 k (mem_erase.2 ⟨hk3, by rw [h2, hrow] at hk; rwa [hsz]⟩), mul_zero]
  have := h5 0 3 (by omega) (by omega)
  rw [hg0, hq, gram_rootMoved _ e.cov (by omega) (by intro i j; omega) (by intro i j; omega) 0 3 (by omega) (by omega), hrow, ht,
    congr_transition (by omega) _ _ (by omega) (by omega)] at this
  have hm : ∀ i j, e.cov.get i j = if i = j then Real.sqrt (1 / 100) else 0 := by
    intro i j
    rw [hc]
    show Real.sqrt ((if i = j then 1 else 0) * (1 / 100)) = _
    split <;> simp
  have hgr : ∀ i j, i < 18 → j < 18 → gram e.cov i j = if i = j then 1 / 100 else 0 := by
    intro i j hi hj
    rw [gram_diag e.cov (fun i j hi hj hij => by rw [hm, if_neg hij]) (by rw [hc]; rfl) (by omega) (by omega), hm, if_pos rfl,
      Real.mul_self_sqrt (by norm_num)]
  have hz18 : gram (Mat.zero 18 18 : Mat ℝ) 0 3 = 0 := by simp [gram, Mat.zero]
  rw [hz18] at this
  simp [tr, hgr 0 3 (by omega) (by omega), hgr 3 3 (by omega) (by omega)] at this

/-- A reachable filter that keeps its covariance: a row of a stand-still shows the square of the variance. -/
theorem C58_stationary_violated : ∃ (e : Ekf ℚ) (s : ImuState ℚ), e.Reachable Samples.prim ∧ e.useRoot = false ∧
    e.state.imus.find? 3 = some s ∧ e.P s.indexExtrinsic s.indexExtrinsic = 2 ∧
    ∀ (P : Printer ℚ), P.Law → ∀ (t score : ℚ) (acc omg : V3 ℚ) (e0 : Ekf ℚ) (d : Int), ∃ row ra ro,
      (ImuUpdater.new 3 true true).zeroRow P e t score acc omg ((ImuUpdater.new 3 true true).zeroAccResidual e0 acc omg) d = .ok row ∧
      ∃ var, var s.indexExtrinsic = 4 ∧ (imuColumns s var t 1 score acc omg ra ro d).Writes P (ImuUpdater.new 3 true true).header row := by
  obtain ⟨e, h, hu, s, hs, h1, h2, hp⟩ : ∃ e, run Samples.prim (init Samples.prim (Samples.params .all false))
      [.registerIMU 3 (Samples.imu true true) (Samples.cov 12)] = .ok e ∧ e.useRoot = false ∧ ∃ s, e.state.imus.find? 3 = some s ∧
      s.isExtrinsic = true ∧ s.isIntrinsic = true ∧ e.cov.get s.indexExtrinsic s.indexExtrinsic = 2 :=
    ⟨_, rfl, rfl, _, rfl, rfl, rfl, by decide +kernel⟩
  have hr : e.Reachable Samples.prim := by
    refine ⟨_, _, ?_, h⟩
    intro op hop
    rcases List.mem_singleton.1 hop with rfl
    rfl
  refine ⟨e, s, hr, hu, hs, by simp [Ekf.P, hu, hp], fun P hP t score acc omg e0 d => ?_⟩
  obtain ⟨row, ra, ro, g1, _, g2⟩ := C27_stationary Samples.prim P hP e hr (ImuUpdater.new 3 true true) s hs h1 h2 t score acc omg e0 d
  exact ⟨row, ra, ro, g1, _, by rw [hp]; norm_num, g2⟩

end EkfCal
