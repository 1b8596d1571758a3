import Verif.Spec.Stamps
import Verif.Spec.LawSamples
import Verif.Lemmas.Station
import Verif.Lemmas.Forms
import Verif.Props.C21
import Verif.Props.C44
import Verif.Props.C76
import Verif.Lemmas.Window

/-!
# C91 — a reading is compared with the state of its time

Violated: a message that comes late is taken for a message of now, and a reading of an IMU is used before the filter has moved
to its time.
-/

set_option linter.unusedSectionVars false

namespace EkfCal
open Ekf
variable {K : Type} [Field K] [LinearOrder K]

theorem Ekf.predict_late (N : Prim K) {e : Ekf K} {t : K} (h : t < e.currentTime) : predict N e t = .ok e := by
  unfold predict; rw [if_pos h]; rfl

theorem Ekf.localTime_started {e : Ekf K} (h : e.timeInitialized = true) (t : K) :
    e.calculateLocalTime t = (t - e.referenceTime, e) := by
  unfold calculateLocalTime; rw [if_pos h]

theorem bind_same_of_ok {X Y : Type} {x : Res X} {f g : X → Res Y} (h : ∀ a, x = .ok a → f a = g a) :
    (x >>= f) = (x >>= g) := by
  cases x with
  | error u => rfl
  | ok a => exact h a rfl

theorem Ekf.getImuState_time (e : Ekf K) (id : Nat) : (e.getImuState id).2.currentTime = e.currentTime :=
  rfl

theorem Ekf.kalman_time {N : Prim K} {e e' : Ekf K} {j : Mat K} {r : Vec K} {n : Mat K}
    (h : kalmanUpdate N e j r n = .ok e') : e'.currentTime = e.currentTime := by
  obtain ⟨st, c, _, rfl, _⟩ := kalmanUpdate_form h
  rfl

/-- The stationary update does not look at a late stamp. -/
theorem ImuUpdater.zeroAccUpdate_late (N : Num K) (u : ImuUpdater) (e : Ekf K) (t1 t2 : K) (h1 : t1 < e.currentTime)
    (h2 : t2 < e.currentTime) (a : V3 K) (ac : M3 K) (w : V3 K) (wc : M3 K) :
    u.zeroAccUpdate N e t1 a ac w wc = u.zeroAccUpdate N e t2 a ac w wc := by
  have ht := e.getImuState_time u.id
  have k1 : ∀ c : Prop, [Decidable c] → predict N.toPrim (if c then (e.getImuState u.id).2.initializeGravity
      else (e.getImuState u.id).2) t1 = .ok (if c then (e.getImuState u.id).2.initializeGravity else (e.getImuState u.id).2) :=
    fun c _ => predict_late _ (by split <;> first | exact (by rw [ht]; exact h1) | exact (show t1 < (e.getImuState u.id).2.currentTime by rw [ht]; exact h1))
  have k2 : ∀ c : Prop, [Decidable c] → predict N.toPrim (if c then (e.getImuState u.id).2.initializeGravity
      else (e.getImuState u.id).2) t2 = .ok (if c then (e.getImuState u.id).2.initializeGravity else (e.getImuState u.id).2) :=
    fun c _ => predict_late _ (by split <;> first | exact (by rw [ht]; exact h2) | exact (show t2 < (e.getImuState u.id).2.currentTime by rw [ht]; exact h2))
  unfold zeroAccUpdate
  simp only [k1, k2]

/-- A reading of an IMU: a late stamp is not looked at. -/
theorem ImuUpdater.update_late (N : Num K) (u : ImuUpdater) (e : Ekf K) (t1 t2 : K) (h1 : e.IsLate t1) (h2 : e.IsLate t2)
    (a : V3 K) (ac : M3 K) (w : V3 K) (wc : M3 K) : u.update N e t1 a ac w wc = u.update N e t2 a ac w wc := by
  obtain ⟨h0, h1⟩ := h1
  obtain ⟨_, h2⟩ := h2
  unfold update
  simp only [localTime_started h0]
  rw [zeroAccUpdate_late N u e _ _ h1 h2]
  refine bind_same_of_ok fun r hr => ?_
  obtain ⟨b, u', e1⟩ := r
  cases b with
  | true => rfl
  | false =>
    have he : e1.currentTime = e.currentTime := by
      generalize hb : false = b at hr
      have := zeroAccUpdate_form hr
      dsimp only at this
      cases this with
      | late => rfl
      | moved e0 _ _ _ _ h0 => rw [h0]; exact getImuState_time e u.id
      | still => cases hb
    have he' : (((e1.setZeroAcceleration false).getImuState u'.id).2).currentTime = e.currentTime := by
      rw [getImuState_time]; exact he
    dsimp only
    rw [if_neg Bool.false_ne_true, if_neg Bool.false_ne_true]
    generalize ((e1.setZeroAcceleration false).getImuState u'.id).2 = f at he'
    have last : ∀ e3 : Ekf K, e3.currentTime = e.currentTime → ∀ g : Ekf K → Res (ImuUpdater × Ekf K),
        (predict N.toPrim e3 (t1 - e.referenceTime) >>= g) = (predict N.toPrim e3 (t2 - e.referenceTime) >>= g) := by
      intro e3 h3 g
      rw [predict_late _ (by rw [h3]; exact h1), predict_late _ (by rw [h3]; exact h2)]
    split
    · simp only [pure_res, ok_bind]
      exact last _ (by exact he') _
    · refine bind_same_of_ok fun _ _ => bind_same_of_ok fun _ _ => bind_same_of_ok fun e3 h3 => ?_
      exact last e3 (by rw [kalman_time h3]; exact he') _

/-- **The stamp of a late message is not used**: whatever it is, as long as it lies before the time of the filter, the message
does the same. (While the GPS reference is not known yet, stamps of fixes are stored.) -/
theorem C91_late_stamp_unused (N : Num K) (G : GpsNum K) (s : Station K) (c : Call K) (t1 t2 : K)
    (h1 : s.ekf.IsLate t1) (h2 : s.ekf.IsLate t2) (hl : s.ekf.isLlaInitialized = true) :
    s.step N G (c.stamped t1) = s.step N G (c.stamped t2) := by
  obtain ⟨h0, h1⟩ := h1
  obtain ⟨_, h2⟩ := h2
  cases c with
  | imu k t a ac w wc =>
    show Station.step N G s (.imu k t1 a ac w wc) = Station.step N G s (.imu k t2 a ac w wc)
    unfold Station.step
    dsimp only
    split
    · rfl
    · rw [ImuUpdater.update_late N _ s.ekf t1 t2 ⟨h0, h1⟩ ⟨h0, h2⟩]
  | gps k t x c =>
    show Station.step N G s (.gps k t1 x c) = Station.step N G s (.gps k t2 x c)
    simp only [Station.step, GpsUpdater.update, localTime_started h0, predict_late _ h1, predict_late _ h2, ok_bind, hl,
      Bool.true_eq_false, if_false]
  | fid k t d =>
    show Station.step N G s (.fid k t1 d) = Station.step N G s (.fid k t2 d)
    simp only [Station.step, FidUpdater.update, localTime_started h0, predict_late _ h1, predict_late _ h2, ok_bind]
  | cam k t i fs px =>
    show Station.step N G s (.cam k t1 i fs px) = Station.step N G s (.cam k t2 i fs px)
    simp only [Station.step, MsckfUpdater.update, localTime_started h0, predict_late _ h1, predict_late _ h2, ok_bind]
  | filter _ => rfl
  | newImu _ _ _ _ => rfl
  | newGps _ _ _ => rfl
  | newFid _ _ _ _ _ => rfl
  | newCam _ _ _ _ => rfl

/-! ## Fixes -/

/-- **A fix that comes in time is compared with the state of its time**: a fix that is exactly where the filter, moved to the
time of the fix, expects the antenna leaves the estimate as it was moved. -/
theorem C91_gps_partial [IsStrictOrderedRing K] [FloorRing K] (N : Num K) (hN : N.rotVecToQuat 0 = Quat.one) (G : GpsNum K) (u : GpsUpdater K) (e e1 : Ekf K)
    (time : K) (lla : V3 K) (cov : Mat K) (r : GpsUpdater K × Ekf K) (h : u.update N G e time lla cov = .ok r)
    (h1 : e.AtMessage N time e1) (hinit : e1.isLlaInitialized = true)
    (hcur : e1.useFirstEstimate = false ∨ u.isFirst = true) (hx : e1.Agrees G u.id lla) :
    r.2.state = (e1.getGpsState u.id).2.state := by
  obtain ⟨e1', h1', h⟩ := GpsUpdater.update_form h
  unfold Ekf.AtMessage at h1
  rw [h1] at h1'
  cases h1'
  rcases h with ⟨hl, _⟩ | ⟨_, e2, enu, jac, rfl, henu, hr, hj, hk⟩
  · rw [hinit] at hl; cases hl
  obtain ⟨enu', g1, g2⟩ := hx
  have henu' : G.llaToEnu lla e1.posEInG = .ok enu := henu
  rw [henu'] at g1
  cases g1
  refine kalman_zero hN (fun a => ?_) hk
  have hp : r.1.posAInB = (e1.getGpsState u.id).2.antenna u.id := by
    rw [hr, GpsUpdater.refresh, if_pos]
    · rfl
    · rcases hcur with hcur | hcur
      · exact .inl (by exact hcur)
      · exact .inr hcur
  have hz : G.enuToLocal enu (e1.getGpsState u.id).2.angLToE - ((e1.getGpsState u.id).2.state.body.pos +
      (e1.getGpsState u.id).2.state.body.ang.rotate r.1.posAInB) = 0 := by
    rw [hp, getD_getGps, sub_eq_zero]
    exact g2
  rw [hz]
  simp [Vec.of3]

/-- In time: the filter has been moved to the time of the message. -/
theorem C91_in_time {N : Num K} {e e1 : Ekf K} {time : K} (h0 : e.timeInitialized = true) (h1 : e.AtMessage N time e1)
    (ht : e.currentTime ≤ time - e.referenceTime) : e1.currentTime = time - e.referenceTime := by
  unfold Ekf.AtMessage at h1
  rw [localTime_started h0] at h1
  obtain ⟨hlt, _⟩ | ⟨_, b, out, _, hp⟩ := predict_form h1
  · exact absurd hlt (not_lt.2 ht)
  · exact (frame2_augmentTimed hp).toFrame.currentTime

/-! ## Readings of an IMU -/

theorem UMap.touch_found {V : Type} {m : UMap V} {k : Nat} {v d : V} (h : m.find? k = some v) : m.touch k d = m := by
  unfold UMap.touch; rw [h]

/-- **A reading of the only IMU of a moving body is turned with the orientation before the step to its time**: only then the
orientation moves on. -/
theorem C91_imu (N : Num K) (u : ImuUpdater) (e : Ekf K) (time : K) (a : V3 K) (ac : M3 K) (w : V3 K) (wc : M3 K)
    (r : ImuUpdater × Ekf K) (s : ImuState K) (h : u.update N e time a ac w wc = .ok r)
    (hs : e.state.imus.find? u.id = some s) (hl : e.state.imus.length = 1) (hz : r.2.isZeroAcceleration = false)
    (hg : e.isGravityInitialized = true) (h0 : e.timeInitialized = true) (ht : e.currentTime ≤ time - e.referenceTime) :
    r.2.state.body.acc = (e.state.body.ang.mul s.ang).rotate (a - s.accBias) ∧
    r.2.state.body.angVel = (e.state.body.ang.mul s.ang).rotate (w - s.omgBias) ∧
    r.2.state.body.ang = (N.rotVecToQuat ((time - e.referenceTime - e.currentTime) • r.2.state.body.angVel)).mul
      e.state.body.ang := by
  obtain ⟨b, u', e1, ho, _, h⟩ := ImuUpdater.update_form h
  obtain ⟨rfl, h⟩ | ⟨rfl, e2, e3, h2, h3, hp⟩ := h
  · rw [h] at hz; cases hz
  rw [localTime_started h0] at ho hp
  have he1 : u'.id = u.id ∧ e1 = e := by
    generalize hb : false = b at ho
    cases ho with
    | late => exact ⟨rfl, rfl⟩
    | moved e0 _ _ _ _ h0 =>
      refine ⟨rfl, h0.trans ?_⟩
      unfold getImuState
      rw [UMap.touch_found (by exact hs)]
    | still => cases hb
  obtain ⟨hid, he1⟩ := he1
  rw [he1] at h2
  clear ho he1
  have he2 : e2 = ({ e with isZeroAcceleration := false } : Ekf K) := by
    rw [h2]
    unfold getImuState setZeroAcceleration
    rw [UMap.touch_found (by rw [hid]; exact hs)]
  have hi : u'.imuOf e2 = s := by
    rw [he2]; unfold ImuUpdater.imuOf UMap.getD; rw [hid]; exact congrArg (fun o : Option (ImuState K) => o.getD ImuState.default) hs
  clear h2
  subst he2
  rcases h3 with ⟨_, he3⟩ | ⟨hn, _⟩
  · rw [hi] at he3
    subst he3
    obtain ⟨hlt, _⟩ | ⟨_, b, out, hc, hp⟩ := predict_form hp
    · exact absurd hlt (not_lt.2 ht)
    rcases hc with ⟨hgf, _⟩ | ⟨_, rfl, _⟩
    · exact absurd (hg.symm.trans (by exact hgf)) (by decide)
    rw [augmentTimed_body hp]
    refine ⟨rfl, rfl, ?_⟩
    show (N.rotVecToQuat _).mul _ = _
    congr 2
    funext i
    fin_cases i <;> exact mul_comm _ _
  · exact absurd hl (by exact hn)

/-- **With the orientation not turning in between, the reading is turned with the orientation of its time.** -/
theorem C91_imu_partial (N : Num K) (u : ImuUpdater) (e : Ekf K) (time : K) (a : V3 K) (ac : M3 K) (w : V3 K) (wc : M3 K)
    (r : ImuUpdater × Ekf K) (s : ImuState K) (h : u.update N e time a ac w wc = .ok r)
    (hs : e.state.imus.find? u.id = some s) (hl : e.state.imus.length = 1) (hz : r.2.isZeroAcceleration = false)
    (hg : e.isGravityInitialized = true) (h0 : e.timeInitialized = true) (ht : e.currentTime ≤ time - e.referenceTime)
    (hw : N.rotVecToQuat ((time - e.referenceTime - e.currentTime) • r.2.state.body.angVel) = Quat.one) :
    r.2.state.body.acc = (r.2.state.body.ang.mul s.ang).rotate (a - s.accBias) ∧
    r.2.state.body.angVel = (r.2.state.body.ang.mul s.ang).rotate (w - s.omgBias) := by
  obtain ⟨h1, h2, h3⟩ := C91_imu N u e time a ac w wc r s h hs hl hz hg h0 ht
  rw [hw] at h3
  have : r.2.state.body.ang = e.state.body.ang := by
    rw [h3]; simp [Quat.mul, Quat.one]
  rw [this]
  exact ⟨h1, h2⟩

/-! ## Where it fails -/

open Samples in
/-- A body moving with speed 1, with one receiver. -/
def C91_moving : List (Call ℚ) :=
  [.filter (.registerGPS 7 gps (cov 3)), .filter (.setGpsReference 0 0),
   .filter (.initializeAt 0 { BodyState.default with vel := ![1, 0, 0] }), .filter .initializeGravity, .newGps 2 7 true,
   .filter (.predict 1)]

theorem C91_moving_wf : ∀ c ∈ C91_moving, c.WF := by
  intro c h
  simp only [C91_moving, List.mem_cons, List.not_mem_nil, or_false] at h
  rcases h with rfl | rfl | rfl | rfl | rfl | rfl <;> first | trivial | rfl

open Samples in
/-- **A late fix moves the estimate although it agrees with the estimate of its time**: one second late, at speed 1. -/
theorem C91_late_violated : ¬ ∀ (cs : List (Call ℚ)) (s1 s2 s3 : Station ℚ) (k : Nat) (u : GpsUpdater ℚ) (t : ℚ) (x : V3 ℚ)
    (c : Mat ℚ), (∀ c ∈ cs, c.WF) → Station.run diagNum gpsNum (Station.init diagNum (params .none false)) cs = .ok s1 →
    s1.gpss.find? k = some u → s1.ekf.isLlaInitialized = true → s1.ekf.Agrees gpsNum u.id x →
    s1.step diagNum gpsNum (.filter (.predict t)) = .ok s2 →
    s2.step diagNum gpsNum (.gps k (s1.ekf.currentTime + s1.ekf.referenceTime) x c) = .ok s3 →
    s3.ekf.state.body.pos = s2.ekf.state.body.pos := by
  intro h
  obtain ⟨p, hr, hp⟩ := ok_of_check (r := do
      let s1 ← Station.run diagNum gpsNum (Station.init diagNum (params .none false)) C91_moving
      let s2 ← s1.step diagNum gpsNum (.filter (.predict 2))
      let s3 ← s2.step diagNum gpsNum (.gps 2 (s1.ekf.currentTime + s1.ekf.referenceTime) ![1, 0, 0] (cov 3))
      pure (s1, s2, s3))
    (P := fun p : Station ℚ × Station ℚ × Station ℚ => ((p.1.gpss.find? 2).map (·.id)) = some 7 ∧
      p.1.ekf.isLlaInitialized = true ∧
      ![1, 0, 0] - p.1.ekf.posEInG = p.1.ekf.expectedFix 7 ∧
      p.2.2.ekf.state.body.pos 0 ≠ p.2.1.ekf.state.body.pos 0) (by decide +kernel)
  simp only [bind_ok_iff, pure_res, Except.ok.injEq] at hr
  obtain ⟨s1, h1, s2, h2, s3, h3, rfl⟩ := hr
  obtain ⟨p1, p2, p3, p4⟩ := hp
  obtain ⟨u, hu, hid⟩ := Option.map_eq_some_iff.1 p1
  have := h C91_moving s1 s2 s3 2 u 2 ![1, 0, 0] (cov 3) C91_moving_wf h1 hu p2 ⟨_, rfl, by rw [hid]; exact p3⟩ h2 h3
  exact p4 (congrFun this 0)

/-- Numerics in which a rotation vector of length one turns half around. -/
def C91_num : Num ℚ := { Samples.diagNum with
  rotVecToQuat := fun v => let n := v 0 * v 0 + v 1 * v 1 + v 2 * v 2; ⟨(1 - n) / (1 + n), 2 * v 0 / (1 + n), 2 * v 1 / (1 + n), 2 * v 2 / (1 + n)⟩ }

theorem turningNum_inv : C91_num.toPrim.InvLaw := Samples.diagNum_inv

theorem turningNum_zero : C91_num.rotVecToQuat 0 = Quat.one := by
  simp [C91_num, Quat.one]

open Samples in
/-- A body turning half around per second, with one IMU. -/
def C91_turning : List (Call ℚ) :=
  [.filter (.registerIMU 3 (imu false false) (cov 0)),
   .filter (.initializeAt 0 { BodyState.default with angVel := ![0, 0, 1] }), .filter .initializeGravity, .newImu 1 3 false false]

theorem C91_turning_wf : ∀ c ∈ C91_turning, c.WF := by
  intro c h
  simp only [C91_turning, List.mem_cons, List.not_mem_nil, or_false] at h
  rcases h with rfl | rfl | rfl | rfl <;> trivial

set_option synthInstance.maxSize 2000 in
open Samples in
/-- **A reading is turned with an orientation that is not that of its time**: the body turns half around from the last message
to the reading, and the acceleration points the wrong way. -/
theorem C91_imu_violated : ¬ ∀ (cs : List (Call ℚ)) (s1 s2 : Station ℚ) (k : Nat) (u : ImuUpdater) (t : ℚ) (a w : V3 ℚ)
    (ac wc : M3 ℚ) (i : ImuState ℚ), (∀ c ∈ cs, c.WF) →
    Station.run C91_num gpsNum (Station.init C91_num (params .none false)) cs = .ok s1 →
    s1.imus.find? k = some u → s1.ekf.state.imus.find? u.id = some i → s1.ekf.isGravityInitialized = true →
    s1.ekf.currentTime ≤ t - s1.ekf.referenceTime → s1.step C91_num gpsNum (.imu k t a ac w wc) = .ok s2 →
    s2.ekf.isZeroAcceleration = false →
    s2.ekf.state.body.acc = (s2.ekf.state.body.ang.mul i.ang).rotate (a - i.accBias) := by
  intro h
  obtain ⟨p, hr, hp⟩ := ok_of_check (r := do
      let s1 ← Station.run C91_num gpsNum (Station.init C91_num (params .none false)) C91_turning
      let s2 ← s1.step C91_num gpsNum (.imu 1 1 ![1000, 0, 0] 1 ![0, 0, 1] 1)
      pure (s1, s2))
    (P := fun p : Station ℚ × Station ℚ => ((p.1.imus.find? 1).map (·.id)) = some 3 ∧
      ((p.1.ekf.state.imus.find? 3).map fun i => (i.ang.w, i.ang.x, i.ang.y, i.ang.z, i.accBias)) = some (1, 0, 0, 0, 0) ∧
      p.1.ekf.isGravityInitialized = true ∧ p.1.ekf.currentTime ≤ 1 - p.1.ekf.referenceTime ∧
      p.2.ekf.isZeroAcceleration = false ∧
      p.2.ekf.state.body.acc 0 ≠ (p.2.ekf.state.body.ang.mul ⟨1, 0, 0, 0⟩).rotate (![1000, 0, 0] - 0) 0) (by decide +kernel)
  simp only [bind_ok_iff, pure_res, Except.ok.injEq] at hr
  obtain ⟨s1, h1, s2, h2, rfl⟩ := hr
  obtain ⟨p1, p2, p3, p4, p5, p6⟩ := hp
  obtain ⟨u, hu, hid⟩ := Option.map_eq_some_iff.1 p1
  obtain ⟨i, hi, hii⟩ := Option.map_eq_some_iff.1 p2
  have hq : i.ang = ⟨1, 0, 0, 0⟩ ∧ i.accBias = 0 := by
    simp only [Prod.mk.injEq] at hii
    obtain ⟨q1, q2, q3, q4, q5⟩ := hii
    exact ⟨by cases hx : i.ang; simp_all, q5⟩
  have := h C91_turning s1 s2 1 u 1 ![1000, 0, 0] ![0, 0, 1] 1 1 i C91_turning_wf h1 hu (by rw [hid]; exact hi) p3 p4 h2 p5
  rw [hq.1, hq.2] at this
  exact p6 (congrFun this 0)

open Samples in
/-- The moving body, a fix in time: one second later the body is one further, and so is the fix. A fix for the time before that
would be late. -/
example : ∃ s : Station ℚ, Station.run diagNum gpsNum (Station.init diagNum (params .none false))
    (C91_moving ++ [.gps 2 2 ![2, 0, 0] (cov 3)]) = .ok s ∧ s.ekf.state.body.pos 0 = 2 ∧ s.ekf.currentTime = 2 ∧
    s.ekf.isLlaInitialized = true ∧ s.ekf.timeInitialized = true ∧ (1 : ℚ) - s.ekf.referenceTime < s.ekf.currentTime :=
  ok_of_check (P := fun s : Station ℚ => s.ekf.state.body.pos 0 = 2 ∧ s.ekf.currentTime = 2 ∧
    s.ekf.isLlaInitialized = true ∧ s.ekf.timeInitialized = true ∧ (1 : ℚ) - s.ekf.referenceTime < s.ekf.currentTime)
    (by decide +kernel)

end EkfCal
