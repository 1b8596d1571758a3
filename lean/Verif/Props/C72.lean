import Verif.Lemmas.StationDefined
import Verif.Model.Gps
import Verif.Spec.StationSamples

/-!
# C72 — messages that keep their contract never run into undefined behaviour

C49 says this about direct calls on the filter; here it is said about the sensor messages, which reach the filter through
the updaters.
-/

namespace EkfCal
open Ekf
variable {K : Type} [Field K] [LinearOrder K]

/-- Every history of sensor creations, messages and direct calls, each of which keeps the stated obligations in the
situation in which it happens, is processed to the end: no access outside a vector or matrix, no size mismatch, no read of
an unwritten variable, no division by zero. -/
theorem C72_history (N : Num K) (G : GpsNum K) (Legal : V3 K → Prop) (hG : G.LegalLaw Legal) (p : EkfParams K)
    (hp : p.processNoise.size = 18) (hl : p.gpsInitType = .constant → Legal p.posEInG) (cs : List (Call K))
    (h : (Station.init N p).SafeHistory N G Legal cs) : ∃ s, (Station.init N p).run N G cs = .ok s := by
  obtain ⟨s, h1, _⟩ := Station.run_defined hG (Station.ready_init N Legal p hp hl) h
  exact ⟨s, h1⟩

/-- The situations that such histories lead to. -/
def Station.SafelyReached (N : Num K) (G : GpsNum K) (Legal : V3 K → Prop) (s : Station K) : Prop :=
  ∃ p cs, p.processNoise.size = 18 ∧ (p.gpsInitType = .constant → Legal p.posEInG) ∧
    (Station.init N p).SafeHistory N G Legal cs ∧ (Station.init N p).run N G cs = .ok s

theorem Station.SafelyReached.ready {N : Num K} {G : GpsNum K} {Legal : V3 K → Prop} (hG : G.LegalLaw Legal) {s : Station K}
    (h : s.SafelyReached N G Legal) : s.Ready Legal := by
  obtain ⟨p, cs, h1, h2, h3, h4⟩ := h
  obtain ⟨s', h5, h6⟩ := Station.run_defined hG (Station.ready_init N Legal p h1 h2) h3
  rw [h4] at h5
  cases h5
  exact h6

/-- Afterwards every IMU message has a defined effect, whatever it contains and whenever it comes. -/
theorem C72_imu (N : Num K) (G : GpsNum K) (Legal : V3 K → Prop) (hG : G.LegalLaw Legal) (s : Station K)
    (h : s.SafelyReached N G Legal) (k : Nat) (t : K) (a : V3 K) (ac : M3 K) (w : V3 K) (wc : M3 K) :
    ∃ s', s.step N G (.imu k t a ac w wc) = .ok s' := by
  obtain ⟨s', h1, _⟩ := Station.step_defined (c := .imu k t a ac w wc) hG (h.ready hG) trivial
  exact ⟨s', h1⟩

/-- So has every detection of a board. -/
theorem C72_board (N : Num K) (G : GpsNum K) (Legal : V3 K → Prop) (hG : G.LegalLaw Legal) (s : Station K)
    (h : s.SafelyReached N G Legal) (k : Nat) (t : K) (d : BoardDetection K) :
    ∃ s', s.step N G (.fid k t d) = .ok s' := by
  obtain ⟨s', h1, _⟩ := Station.step_defined (c := .fid k t d) hG (h.ready hG) trivial
  exact ⟨s', h1⟩

/-- Once the reference is known, a fix needs legal coordinates and a 3×3 covariance, nothing more. -/
theorem fix_safe (N : Num K) (G : GpsNum K) (Legal : V3 K → Prop) (s : Station K) (hi : s.ekf.isLlaInitialized = true)
    (k : Nat) (t : K) (x : V3 K) (c : Mat K) (hx : Legal x) (hc : c.rows = 3 ∧ c.cols = 3) :
    (Call.gps k t x c).Safe N G Legal s := by
  refine ⟨hx, hc.1, hc.2, fun e1 y h1 h2 _ => ?_⟩
  have := gpsData_predicted h1
  simp only [Ekf.gpsData, Ekf.reference, Prod.mk.injEq] at this
  rw [this.2.2.2.2.2, hi] at h2
  cases h2

theorem C72_gps_partial (N : Num K) (G : GpsNum K) (Legal : V3 K → Prop) (hG : G.LegalLaw Legal) (s : Station K)
    (h : s.SafelyReached N G Legal) (hi : s.ekf.isLlaInitialized = true) (k : Nat) (t : K) (x : V3 K) (c : Mat K)
    (hx : Legal x) (hc : c.rows = 3 ∧ c.cols = 3) : ∃ s', s.step N G (.gps k t x c) = .ok s' := by
  obtain ⟨s', h1, _⟩ := Station.step_defined hG (h.ready hG) (fix_safe N G Legal s hi k t x c hx hc)
  exact ⟨s', h1⟩

theorem augType_predicted {N : Prim K} {e e1 : Ekf K} {t : K} (h : e.PredictedTo N t e1) : e1.augType = e.augType := by
  have h0 : (e.calculateLocalTime t).2.augType = e.augType := by unfold calculateLocalTime; split <;> rfl
  rw [← h0]
  have := step_frame (N := N) (op := .predict (e.calculateLocalTime t).1) h
  simp only [StepFrame] at this
  split at this
  · rw [this]
  · exact this.augType

/-- If the filter keeps the pose of every frame of every camera, tracks need two observations or more and, if the true
position is to be used, that position. -/
theorem C72_features_partial (N : Num K) (G : GpsNum K) (Legal : V3 K → Prop) (hG : G.LegalLaw Legal) (s : Station K)
    (h : s.SafelyReached N G Legal) (ha : s.ekf.augType = .all) (k : Nat) (t : K) (i : Intrinsics K)
    (fs : List (FeatureTrack K)) (px : K) (hlen : ∀ f ∈ fs, 2 ≤ f.track.length)
    (ht : ∀ u, s.cams.find? k = some u → u.useTruth = true → ∀ f ∈ fs, ∃ F, f.truth = some F) :
    ∃ s', s.step N G (.cam k t i fs px) = .ok s' := by
  obtain ⟨s', h1, _⟩ := Station.step_defined (N := N) (G := G) (c := .cam k t i fs px) hG (h.ready hG)
    (fun u e1 hu hp f hf => ⟨hlen f hf, fun hx => ht u hu hx f hf,
      fun p _ hn => absurd (.inl ((augType_predicted hp).trans ha)) hn⟩)
  exact ⟨s', h1⟩

/-! ## Creating sensors

The obligation of a sensor's creation is met by registering the sensor with the same calibration flags first, as the
constructors of the sensors do. -/

theorem station_flags {N : Num K} {G : GpsNum K} {cs : List (Call K)} {s s' : Station K} (h : s.run N G cs = .ok s') :
    FlagsLE s.ekf.state s'.ekf.state := by
  obtain ⟨ops, h1⟩ := Station.filter_moves h
  exact flagsLE_run h1

theorem step_filter {N : Num K} {G : GpsNum K} {s s1 : Station K} {op : Op K} (h : s.step N G (.filter op) = .ok s1) :
    Ekf.step N.toPrim s.ekf op = .ok s1.ekf := by
  simp only [Station.step, bind_ok_iff, pure_res, Except.ok.injEq] at h
  obtain ⟨e, h1, rfl⟩ := h
  exact h1

theorem C72_created_imu (N : Num K) (G : GpsNum K) (Legal : V3 K → Prop) (s s1 s2 : Station K) (id : Nat) (i : ImuState K)
    (c : Mat K) (hn : s.ekf.state.imus.find? id = none) (h1 : s.step N G (.filter (.registerIMU id i c)) = .ok s1)
    (cs : List (Call K)) (h2 : s1.run N G cs = .ok s2) (k : Nat) :
    (Call.newImu k id i.isExtrinsic i.isIntrinsic).Safe N G Legal s2 := by
  rcases registerIMU_form (step_filter h1) with ⟨h, _⟩ | ⟨_, out, _, h⟩
  · rw [hn] at h; cases h
  · obtain ⟨v, hv, hf⟩ := ((flagsLE_refresh h).trans (station_flags h2)).imus id i (UMap.find?_insert_self _ _ _)
    simp only [Prod.mk.injEq] at hf
    exact ⟨fun hx => ⟨v, hv, hf.1.trans hx⟩, fun hx => ⟨v, hv, hf.2.trans hx⟩⟩

theorem C72_created_gps (N : Num K) (G : GpsNum K) (Legal : V3 K → Prop) (s s1 s2 : Station K) (id : Nat) (i : GpsState K)
    (c : Mat K) (hn : s.ekf.state.gpss.find? id = none) (h1 : s.step N G (.filter (.registerGPS id i c)) = .ok s1)
    (cs : List (Call K)) (h2 : s1.run N G cs = .ok s2) (k : Nat) :
    (Call.newGps k id i.isExtrinsic).Safe N G Legal s2 := by
  rcases registerGPS_form (step_filter h1) with ⟨h, _⟩ | ⟨_, out, _, h⟩
  · rw [hn] at h; cases h
  · obtain ⟨v, hv, hf⟩ := ((flagsLE_refresh h).trans (station_flags h2)).gpss id i (UMap.find?_insert_self _ _ _)
    exact fun hx => ⟨v, hv, hf.trans hx⟩

theorem registered_camera {N : Num K} {G : GpsNum K} {s s1 s2 : Station K} {id : Nat} {i : CamState K}
    {c : Mat K} (hn : s.ekf.state.cams.find? id = none) (h1 : s.step N G (.filter (.registerCamera id i c)) = .ok s1)
    {cs : List (Call K)} (h2 : s1.run N G cs = .ok s2) :
    ∃ v, s2.ekf.state.cams.find? id = some v ∧ v.isExtrinsic = i.isExtrinsic := by
  rcases registerCamera_form (step_filter h1) with ⟨h, _⟩ | ⟨_, _, out, _, h⟩
  · rw [hn] at h; cases h
  · exact ((flagsLE_refresh h).trans (station_flags h2)).cams id i (UMap.find?_insert_self _ _ _)

theorem C72_created_camera (N : Num K) (G : GpsNum K) (Legal : V3 K → Prop) (s s1 s2 : Station K) (id : Nat) (i : CamState K)
    (c : Mat K) (hn : s.ekf.state.cams.find? id = none) (h1 : s.step N G (.filter (.registerCamera id i c)) = .ok s1)
    (cs : List (Call K)) (h2 : s1.run N G cs = .ok s2) (k : Nat) (d : K) :
    (Call.newCam k id i.isExtrinsic d).Safe N G Legal s2 := by
  obtain ⟨v, hv, hf⟩ := registered_camera hn h1 h2
  exact fun hx => ⟨v, hv, hf.trans hx⟩

theorem C72_created_board (N : Num K) (G : GpsNum K) (Legal : V3 K → Prop) (s s1 s2 s3 s4 : Station K) (i : CamState K)
    (id : Nat) (c : Mat K) (hn : s.ekf.state.cams.find? id = none)
    (h1 : s.step N G (.filter (.registerCamera id i c)) = .ok s1) (cs : List (Call K)) (h2 : s1.run N G cs = .ok s2)
    (f : FidState K) (c' : Mat K) (hn' : s2.ekf.state.fids.find? f.id = none)
    (h3 : s2.step N G (.filter (.registerFiducial f c')) = .ok s3) (cs' : List (Call K)) (h4 : s3.run N G cs' = .ok s4)
    (k : Nat) : (Call.newFid k f.id id f.isExtrinsic i.isExtrinsic).Safe N G Legal s4 := by
  obtain ⟨v, hv, hf⟩ := registered_camera hn h1 h2
  have h23 := flagsLE_step (N := N.toPrim) (op := .registerFiducial f c') (step_filter h3)
  obtain ⟨v', hv', hf'⟩ := (h23.trans (station_flags h4)).cams id v hv
  refine ⟨?_, fun hx => ⟨v', hv', (hf'.trans hf).trans hx⟩⟩
  rcases registerFiducial_form (step_filter h3) with ⟨h, _⟩ | ⟨_, out, _, h⟩
  · rw [hn'] at h; cases h
  · obtain ⟨w, hw, hg⟩ := ((flagsLE_refresh h).trans (station_flags h4)).fids f.id f (UMap.find?_insert_self _ _ _)
    exact ⟨w, hw, fun hx => hg.trans hx⟩

/-! ## The obligations can be met -/

/-- Latitude and longitude in their ranges. -/
def InRangeLla (x : V3 ℝ) : Prop := -90 ≤ x 0 ∧ x 0 ≤ 90 ∧ -180 ≤ x 1 ∧ x 1 ≤ 180

/-- The coordinate conversions of the code are defined exactly there. -/
theorem C72_legal (fit : List (V3 ℝ) → List (V3 ℝ) → GpsFit ℝ) :
    GpsNum.LegalLaw ⟨llaToEcef, llaToEnu, ecefToEnu, enuToLocal, fit⟩ InRangeLla ∧
    ∀ x, (∃ y, llaToEcef x = .ok y) ↔ InRangeLla x := by
  have key : ∀ x, (∃ y, llaToEcef x = .ok y) ↔ InRangeLla x := by
    intro x
    unfold llaToEcef InRangeLla
    constructor
    · rintro ⟨y, hy⟩
      split at hy
      · cases hy
      · rename_i h
        push Not at h
        exact h
    · intro h
      rw [if_neg (by push Not; exact h)]
      exact ⟨_, rfl⟩
  refine ⟨⟨fun x hx => (key x).2 hx, fun x r hx hr => ?_, fun x r hr => ?_⟩, key⟩
  · obtain ⟨y, hy⟩ := (key x).2 hx
    obtain ⟨z, hz⟩ := (key r).2 hr
    exact ⟨_, by simp only [llaToEnu, ecefToEnu, hy, hz, ok_bind, pure_res]; rfl⟩
  · obtain ⟨z, hz⟩ := (key r).2 hr
    exact ⟨_, by simp only [ecefToEnu, hz, ok_bind, pure_res]; rfl⟩

/-- A run with an IMU, a GPS antenna, a camera with features and a board meets the obligations: messages of all kinds,
among them one that no sensor listens to and tracks of two frames. -/
def C72_run : List (Call ℚ) :=
  [.filter (.registerCamera 1 Samples.cam (Samples.cov 6)), .filter (.registerFiducial (Samples.fid 4) (Samples.cov 6)),
   .newFid 3 4 1 true true, .newCam 4 1 true 1, .filter (.registerIMU 3 (Samples.imu true true) (Samples.cov 12)),
   .newImu 1 3 true true, .filter (.registerGPS 7 Samples.gps (Samples.cov 3)), .newGps 2 7 true,
   .imu 1 10 ![1000, 0, 0] 1 ![0, 0, 0] 1, .fid 3 11 ⟨![1, 0, 0], Quat.one, ![1, 1, 1], ![1, 1, 1]⟩,
   .imu 1 12 ![0, 0, 49 / 5] 1 ![0, 0, 0] 1, .imu 9 13 0 1 0 1, .filter (.setGpsReference 0 0),
   .gps 2 13 ![0, 0, 0] (Samples.cov 3)]

theorem C72_run_safe : (Station.init Samples.num (Samples.params .all false)).SafeHistory Samples.num Samples.gpsNum
    (fun _ => True) C72_run := by
  refine ⟨⟨rfl, .inr ⟨by decide, by decide, by decide⟩, trivial⟩, fun s1 h1 => ⟨⟨rfl, .inr ⟨by decide, by decide⟩, trivial⟩,
    fun s2 h2 => ⟨?_, fun s3 h3 => ⟨?_, fun s4 h4 => ⟨⟨rfl, .inr ⟨by decide, by decide⟩, trivial⟩, fun s5 h5 => ⟨?_,
    fun s6 h6 => ⟨⟨rfl, .inr ⟨by decide, by decide⟩, trivial⟩, fun s7 h7 => ⟨?_, fun s8 h8 => ⟨trivial, fun s9 h9 =>
    ⟨trivial, fun s10 h10 => ⟨trivial, fun s11 h11 => ⟨trivial, fun s12 h12 => ⟨⟨trivial, trivial, trivial⟩, fun s13 h13 =>
    ⟨?_, fun _ _ => trivial⟩⟩⟩⟩⟩⟩⟩⟩⟩⟩⟩⟩⟩⟩
  · have n1 : s1.ekf.state.fids.find? 4 = none := by
      obtain ⟨x, hx, hp⟩ := Samples.ok_of_check
        (r := (Station.init Samples.num (Samples.params .all false)).run Samples.num Samples.gpsNum (C72_run.take 1))
        (P := fun x : Station ℚ => (x.ekf.state.fids.find? 4).isNone = true) (by decide +kernel)
      have : (Station.init Samples.num (Samples.params .all false)).run Samples.num Samples.gpsNum (C72_run.take 1) = .ok s1 := by
        simp only [C72_run, List.take, Station.run, h1, ok_bind]
      rw [this] at hx
      cases hx
      exact Option.isNone_iff_eq_none.1 hp
    exact C72_created_board _ _ _ _ s1 s1 s2 s2 Samples.cam 1 _ rfl h1 [] rfl (Samples.fid 4) _ n1 h2 [] rfl 3
  · exact C72_created_camera _ _ _ _ s1 s3 1 Samples.cam _ rfl h1
      [.filter (.registerFiducial (Samples.fid 4) (Samples.cov 6)), .newFid 3 4 1 true true]
      (by simp only [Station.run, h2, h3, ok_bind]) 4 1
  · have n4 : s4.ekf.state.imus.find? 3 = none := by
      obtain ⟨x, hx, hp⟩ := Samples.ok_of_check
        (r := (Station.init Samples.num (Samples.params .all false)).run Samples.num Samples.gpsNum (C72_run.take 4))
        (P := fun x : Station ℚ => (x.ekf.state.imus.find? 3).isNone = true) (by decide +kernel)
      have : (Station.init Samples.num (Samples.params .all false)).run Samples.num Samples.gpsNum (C72_run.take 4) = .ok s4 := by
        simp only [C72_run, List.take, Station.run, h1, h2, h3, h4, ok_bind]
      rw [this] at hx
      cases hx
      exact Option.isNone_iff_eq_none.1 hp
    exact C72_created_imu _ _ _ s4 s5 s5 3 (Samples.imu true true) _ n4 h5 [] rfl 1
  · have n6 : s6.ekf.state.gpss.find? 7 = none := by
      obtain ⟨x, hx, hp⟩ := Samples.ok_of_check
        (r := (Station.init Samples.num (Samples.params .all false)).run Samples.num Samples.gpsNum (C72_run.take 6))
        (P := fun x : Station ℚ => (x.ekf.state.gpss.find? 7).isNone = true) (by decide +kernel)
      have : (Station.init Samples.num (Samples.params .all false)).run Samples.num Samples.gpsNum (C72_run.take 6) = .ok s6 := by
        simp only [C72_run, List.take, Station.run, h1, h2, h3, h4, h5, h6, ok_bind]
      rw [this] at hx
      cases hx
      exact Option.isNone_iff_eq_none.1 hp
    exact C72_created_gps _ _ _ s6 s7 s7 7 Samples.gps _ n6 h7 [] rfl 2
  · have : s13.ekf.isLlaInitialized = true := by
      have := step_filter h13
      simp only [Ekf.step, pure_res, Except.ok.injEq] at this
      rw [← this]; rfl
    exact fix_safe _ _ _ s13 this 2 13 _ _ trivial ⟨rfl, rfl⟩

theorem C72_sample_law : Samples.gpsNum.LegalLaw (fun _ => True) :=
  ⟨fun x _ => ⟨x, rfl⟩, fun x r _ _ => ⟨x - r, rfl⟩, fun x r _ => ⟨x - r, rfl⟩⟩

/-- `C72_history` applies to it. -/
example : ∃ s, (Station.init Samples.num (Samples.params .all false)).run Samples.num Samples.gpsNum C72_run = .ok s :=
  C72_history _ _ _ C72_sample_law _ rfl (fun _ => trivial) _ C72_run_safe

/-- A situation as in the theorems about single messages and in the violation below: the reference is known, the filter keeps
the pose of every frame, and there is a camera, which uses true positions. -/
example : ∃ s : Station ℚ, s.SafelyReached Samples.num Samples.gpsNum (fun _ => True) ∧
    s.ekf.augType = .all ∧ s.ekf.isLlaInitialized = true ∧ ∃ u, s.cams.find? 4 = some u ∧ u.useTruth = true := by
  let cs : List (Call ℚ) := [.filter (.registerCamera 1 Samples.cam (Samples.cov 6)), .newCam 4 1 true 1,
    .filter (.setGpsReference 0 0)]
  obtain ⟨s, hs, h1, h2, h3⟩ := Samples.ok_of_check
    (r := (Station.init Samples.num (Samples.params .all false)).run Samples.num Samples.gpsNum cs)
    (P := fun s : Station ℚ => s.ekf.augType = .all ∧ s.ekf.isLlaInitialized = true ∧
      ((s.cams.find? 4).any fun u => u.useTruth) = true) (by decide +kernel)
  refine ⟨s, ⟨Samples.params .all false, cs, rfl, fun _ => trivial, ?_, hs⟩, h1, h2, by simpa [Option.any_eq_true] using h3⟩
  exact ⟨⟨rfl, .inr ⟨by decide, by decide, by decide⟩, trivial⟩, fun s1 g1 =>
    ⟨C72_created_camera _ _ _ _ s1 s1 1 Samples.cam _ rfl g1 [] rfl 4 1, fun s2 _ => ⟨⟨trivial, trivial, trivial⟩, fun _ _ => trivial⟩⟩⟩

/-! ## Violations -/

/-- A track with a single observation, which a configured minimum track length of zero or one lets through: the update
reads outside its matrices, in every situation reached by a safe history.  The observation leaves two equations for three
coordinates, and the code removes three. -/
theorem C72_single_violated (N : Num K) (G : GpsNum K) (Legal : V3 K → Prop) (hG : G.LegalLaw Legal) (s : Station K)
    (h : s.SafelyReached N G Legal) (ha : s.ekf.augType = .all) (k : Nat) (u : MsckfUpdater K)
    (hu : s.cams.find? k = some u) (ht : u.useTruth = true) (t : K) (i : Intrinsics K) (p : FeaturePoint K) (F : V3 K)
    (fs : List (FeatureTrack K)) (px : K) :
    s.step N G (.cam k t i (⟨[p], some F⟩ :: fs) px) = .error .outOfRange := by
  have hr := h.ready hG
  have hv0 : Via N.toPrim (fun _ => True) s.ekf (s.ekf.calculateLocalTime t).2 := Via.localTime s.ekf t
  obtain ⟨e1, h1, hr1, hfl⟩ := (hv0.ready hr.filter).predict (N := N.toPrim) (s.ekf.calculateLocalTime t).1
  obtain ⟨e2, h2⟩ : ∃ z, z = (e1.getCamState u.id).2 := ⟨_, rfl⟩
  have hv2 : Via N.toPrim (fun _ => True) e1 e2 := h2 ▸ Via.getCam e1 _
  have hr2 := hv2.ready hr1
  obtain ⟨k1, k2, k3⟩ := u.refresh_keeps e2 i
  obtain ⟨v, hv⟩ : ∃ v, v = u.refresh e2 i := ⟨_, rfl⟩
  have hf2 : v.Fits e2.state := hv ▸ (hr.cams k u hu).mono ((hv0.flags.trans hfl).trans hv2.flags) k1 k2
  have ha2 : e2.augType = .all := by
    rw [h2]
    exact (augType_predicted h1).trans ha
  have hpose : ∃ a, e2.poseFor N.toPrim v.id p = .ok a ∧ a.index + 6 ≤ e2.stateSize := by
    obtain ⟨⟨a, e'⟩, hq⟩ := getAug_defined N.toPrim e2 v.id p.frameId p.time (fun hn => absurd (.inl ha2) hn)
    have := getAugState_pose hq
    exact ⟨a, this, pose_index hr2 this⟩
  have hcam : v.isCamExtrinsic = true → (v.camOf e2).index + 6 ≤ e2.stateSize := fun hx => by
    obtain ⟨c, c1, c2⟩ := hf2 hx
    have : v.camOf e2 = c := by simp only [MsckfUpdater.camOf, UMap.getD, c1, Option.getD_some]
    rw [this]; exact (cam_columns hr2.inv.tiles c1 c2).2
  obtain ⟨e3, h3, hl⟩ := triangulate_truth N v e2 ⟨[p], some F⟩ (by rw [hv, k3]; exact ht) (by simp) (fun q hq => by
    simp only [List.mem_singleton] at hq
    obtain ⟨a, ha, _⟩ := hpose
    exact ⟨a, hq ▸ ha⟩)
  obtain ⟨⟨e4, Hf, Hc, res⟩, h4, ⟨s1, s2⟩, _, _⟩ := observeLoop_sized N v e2.stateSize (v.camOf e2).index F hr2.size hcam [p] 0 e3
    (Mat.zero 2 3) (Mat.zero 2 e2.stateSize) ⟨2, fun _ => 0⟩
    (fun q hq => by
      simp only [List.mem_singleton] at hq
      obtain ⟨a, ha, hi⟩ := hpose
      exact ⟨a, by rw [poseFor_looked N.toPrim hl, hq]; exact ha, hi⟩)
    (by simp) ⟨by simp [Mat.zero], le_refl 3⟩ ⟨by simp [Mat.zero], rfl⟩
  have h5 : applyLeftNullspace N Hf Hc res = .error .outOfRange := by
    dsimp only [Mat.zero] at s1 s2
    unfold applyLeftNullspace
    rw [s1, s2]
    rfl
  have h6 : v.process N e2 (⟨[p], some F⟩ :: fs) px = .error .outOfRange := by
    unfold MsckfUpdater.process MsckfUpdater.featureLoop
    dsimp only
    rw [h3, ok_bind]
    dsimp only [List.length_cons, List.length_nil]
    rw [if_neg Bool.false_ne_true.symm]
    rw [h4, ok_bind]
    dsimp only
    rw [h5]
    rfl
  unfold Ekf.PredictedTo at *
  simp only [Station.step, hu, MsckfUpdater.update, h1, ok_bind, reduceCtorEq, if_false, ← h2, ← hv, h6]
  rfl

end EkfCal
