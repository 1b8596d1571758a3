import Verif.Lemmas.SimSetup
import Verif.Props.C54
import Verif.Spec.Samples

/-!
# C71: a simulation starts from its configuration

Every simulated sensor gets a true calibration of its own, the configured one or that one with the configured errors; the filter
starts at the configured one, and sensors loaded later change neither.  Messages are made from that truth.

False for boards: two cameras that watch the same board see two different true boards, the file of true boards lists them under
the numbers of the trackers, and a board is detected wherever it is.
-/

namespace EkfCal
open Ekf
variable {K : Type} [Field K] [LinearOrder K]

/-- A filter with no sensors yet. -/
def Ekf.NoSensors (e : Ekf K) : Prop := e.state.imus = [] ∧ e.state.cams = [] ∧ e.state.gpss = [] ∧ e.state.fids = []

/-- The filter the simulation starts with has no sensors. -/
theorem simFilter_noSensors (N : Prim K) (p : EkfParams K) (noise : Vec K) (b : Bool) (dp : V3 K) (dq : Quat K) :
    (simFilter N p noise b dp dq).NoSensors := ⟨rfl, rfl, rfl, rfl⟩

theorem start_fresh {e : Ekf K} (he : e.NoSensors) : (SimWorld.start e).Fresh := by
  obtain ⟨h1, h2, h3, h4⟩ := he
  refine ⟨fun k _ => ?_, fun k _ => ?_, fun k _ => ?_, fun _ _ => rfl, fun _ _ => rfl, fun _ _ => rfl, fun _ _ => rfl⟩
  · show (UMap.find? e.state.imus k).map _ = none
    rw [h1]; rfl
  · show (UMap.find? e.state.cams k).map _ = none
    rw [h2]; rfl
  · show (UMap.find? e.state.gpss k).map _ = none
    rw [h3]; rfl

theorem started {N : Prim K} {halfPi : K} {e : Ekf K} {xs : List (SimItem K)} {w : SimWorld K} (he : e.NoSensors)
    (hn : xs.length < 2 ^ 32) (ht : trackersIn xs < 2 ^ 32) (h : (SimWorld.start e).loadAll N halfPi xs = .ok w) :
    (SimWorld.start e).AddsAll N halfPi xs w :=
  loadAll_adds (start_fresh he) (by rw [show (SimWorld.start e).ids.sensor = 0 from rfl]; omega)
    (by rw [show (SimWorld.start e).ids.tracker = 0 from rfl]; omega) h

/-- The value stored under the id of a sensor, from the lemma on all sensors. -/
theorem at_id {α β : Type} {xs : List α} {k : Nat} {x : α} (hk : xs[k]? = some x) {o o' : Option β} {v : α → Option β}
    (h : o = if k + 1 ≤ 0 then o' else xs[k + 1 - 0 - 1]?.bind v) : o = v x := by
  rw [h, if_neg (by omega), show k + 1 - 0 - 1 = k by omega, hk]
  rfl

theorem turned (N : Prim K) (limit : K) (x : Quat K) (std z : V3 K) :
    Turned N limit std z x (quatNormRand N limit x std z) := by
  simp [Turned, quatNormRand]

theorem SimImuConfig.truth_is (N : Prim K) (halfPi : K) (c : SimImuConfig K) : c.TrueIs N halfPi (c.truth N halfPi) := by
  unfold SimImuConfig.TrueIs SimImuConfig.truth
  split
  · exact ⟨rfl, rfl, rfl, rfl⟩
  · exact ⟨fun _ => rfl, turned _ _ _ _ _, fun _ => rfl, fun _ => rfl⟩

theorem SimCamConfig.truth_is (N : Prim K) (halfPi : K) (c : SimCamConfig K) : c.TrueIs N halfPi (c.truth N halfPi) := by
  unfold SimCamConfig.TrueIs SimCamConfig.truth
  split
  · rfl
  · exact ⟨fun _ => rfl, turned _ _ _ _ _⟩

theorem SimGpsConfig.truth_is (c : SimGpsConfig K) : c.TrueIs c.truth := by
  unfold SimGpsConfig.TrueIs SimGpsConfig.truth
  split
  · rfl
  · exact fun _ => rfl

theorem SimFidConfig.truth_is (N : Prim K) (halfPi : K) (f : SimFidConfig K) (b : Bool) :
    f.TrueIs N halfPi b (f.truth N halfPi (f.noErrors || b)) := by
  unfold SimFidConfig.TrueIs SimFidConfig.truth
  cases f.noErrors <;> cases b
  · exact ⟨fun _ => rfl, turned _ _ _ _ _⟩
  all_goals rfl

/-- **IMUs.**  The sensor with the number `k + 1` is the one at place `k` of the configuration. -/
theorem C71_imu (N : Prim K) (halfPi : K) (e : Ekf K) (he : e.NoSensors) (xs : List (SimItem K)) (w : SimWorld K)
    (hn : xs.length < 2 ^ 32) (ht : trackersIn xs < 2 ^ 32) (h : (SimWorld.start e).loadAll N halfPi xs = .ok w)
    (k : Nat) (c : SimImuConfig K) (hk : xs[k]? = some (.imu c)) :
    (∃ s, w.ekf.state.imus.find? (k + 1) = some s ∧ c.config.Stored s) ∧
    ∃ t, w.truth.imus.find? (k + 1) = some t ∧ c.TrueIs N halfPi t := by
  have a := started he hn ht h
  constructor
  · have h1 := at_id hk (a.imu (k + 1))
    rw [Ekf.imuAt] at h1
    obtain ⟨s, hs, h2⟩ := Option.map_eq_some_iff.1 h1
    refine ⟨s, hs, ?_⟩
    have hf : ∀ s : ImuState K, c.config.Stored (s.reindex 0) → c.config.Stored s := fun _ h => h
    refine hf s ?_
    rw [h2]
    exact ⟨rfl, rfl, rfl, rfl, rfl, rfl, rfl, rfl, rfl, rfl⟩
  · exact ⟨_, at_id hk (a.imuT (k + 1)), c.truth_is N halfPi⟩

/-- **Cameras**, with their intrinsics. -/
theorem C71_camera (N : Prim K) (halfPi : K) (e : Ekf K) (he : e.NoSensors) (xs : List (SimItem K)) (w : SimWorld K)
    (hn : xs.length < 2 ^ 32) (ht : trackersIn xs < 2 ^ 32) (h : (SimWorld.start e).loadAll N halfPi xs = .ok w)
    (k : Nat) (c : SimCamConfig K) (hk : xs[k]? = some (.cam c)) :
    (∃ s, w.ekf.state.cams.find? (k + 1) = some s ∧ s.rate = c.config.calib.rate ∧ s.pos = c.config.calib.pos ∧
      s.ang = c.config.calib.ang ∧ s.isExtrinsic = c.config.isExtrinsic) ∧
    (∃ t, w.truth.cams.find? (k + 1) = some t ∧ c.TrueIs N halfPi t) ∧ w.intrinsics.find? (k + 1) = some c.intrinsics := by
  have a := started he hn ht h
  refine ⟨?_, ⟨_, at_id hk (a.camT (k + 1)), c.truth_is N halfPi⟩, at_id hk (a.lens (k + 1))⟩
  · have h1 := at_id hk (a.cam (k + 1))
    rw [Ekf.camAt] at h1
    obtain ⟨s, hs, h2⟩ := Option.map_eq_some_iff.1 h1
    refine ⟨s, hs, ?_⟩
    have hf : ∀ s : CamState K, ((s.reindex 0).rate = c.config.calib.rate ∧ (s.reindex 0).pos = c.config.calib.pos ∧
      (s.reindex 0).ang = c.config.calib.ang ∧ (s.reindex 0).isExtrinsic = c.config.isExtrinsic) →
      s.rate = c.config.calib.rate ∧ s.pos = c.config.calib.pos ∧
      s.ang = c.config.calib.ang ∧ s.isExtrinsic = c.config.isExtrinsic := fun _ h => h
    refine hf s ?_
    rw [h2]
    exact ⟨rfl, rfl, rfl, rfl⟩

/-- **Antennas.** -/
theorem C71_gps (N : Prim K) (halfPi : K) (e : Ekf K) (he : e.NoSensors) (xs : List (SimItem K)) (w : SimWorld K)
    (hn : xs.length < 2 ^ 32) (ht : trackersIn xs < 2 ^ 32) (h : (SimWorld.start e).loadAll N halfPi xs = .ok w)
    (k : Nat) (c : SimGpsConfig K) (hk : xs[k]? = some (.gps c)) :
    (∃ s, w.ekf.state.gpss.find? (k + 1) = some s ∧ s.pos = c.config.pos ∧ s.isExtrinsic = c.config.isExtrinsic) ∧
    ∃ t, w.truth.gpss.find? (k + 1) = some t ∧ c.TrueIs t := by
  have a := started he hn ht h
  refine ⟨?_, ⟨_, at_id hk (a.gpsT (k + 1)), c.truth_is⟩⟩
  · have h1 := at_id hk (a.gps (k + 1))
    rw [Ekf.gpsAt] at h1
    obtain ⟨s, hs, h2⟩ := Option.map_eq_some_iff.1 h1
    refine ⟨s, hs, ?_⟩
    have hf : ∀ s : GpsState K, ((s.reindex 0).pos = c.config.pos ∧ (s.reindex 0).isExtrinsic = c.config.isExtrinsic) →
      s.pos = c.config.pos ∧ s.isExtrinsic = c.config.isExtrinsic := fun _ h => h
    refine hf s ?_
    rw [h2]
    exact ⟨rfl, rfl⟩

theorem findSome_first {k : Nat} : ∀ {xs : List (SimItem K)}, (∃ x ∈ xs, ∃ f, x.board = some f ∧ f.config.id = k) →
    ∃ g, FirstBoard xs k g ∧ (xs.findSome? fun x => x.boardFor k) = some (g.config.state.reindex 0)
  | [], ⟨x, hx, _⟩ => by cases hx
  | y :: ys, h => by
    by_cases hy : ∃ f, y.board = some f ∧ f.config.id = k
    · obtain ⟨f, h1, h2⟩ := hy
      refine ⟨f, ⟨[], y, ys, rfl, h1, h2, fun _ hz => by cases hz⟩, ?_⟩
      rw [List.findSome?_cons]
      simp [SimItem.boardFor, Option.filter, h1, h2]
    · obtain ⟨x, hx, hf⟩ := h
      rcases List.mem_cons.1 hx with rfl | hx
      · exact absurd hf hy
      · obtain ⟨g, ⟨pre, z, post, rfl, h1, h2, h3⟩, h4⟩ := findSome_first ⟨x, hx, hf⟩
        refine ⟨g, ⟨y :: pre, z, post, rfl, h1, h2, fun z' hz f hf => ?_⟩, ?_⟩
        · rcases List.mem_cons.1 hz with rfl | hz
          · exact fun hk => hy ⟨f, hf, hk⟩
          · exact h3 z' hz f hf
        · rw [List.findSome?_cons, h4]
          cases hb : y.board with
          | none => simp [SimItem.boardFor, hb]
          | some f =>
            have : f.config.id ≠ k := fun hk => hy ⟨f, hb, hk⟩
            simp [SimItem.boardFor, Option.filter, hb, this]

/-- **Boards.**  The tracker of a camera that watches a board has the number of trackers before it, plus one; under that number
the truth engine has the board's true pose.  The filter has one board for each configured id, the first of that id. -/
theorem C71_board_partial (N : Prim K) (halfPi : K) (e : Ekf K) (he : e.NoSensors) (pre post : List (SimItem K))
    (c : SimCamConfig K) (f : SimFidConfig K) (hf : c.board = some f) (w : SimWorld K)
    (hn : (pre ++ .cam c :: post).length < 2 ^ 32) (ht : trackersIn (pre ++ .cam c :: post) < 2 ^ 32)
    (h : (SimWorld.start e).loadAll N halfPi (pre ++ .cam c :: post) = .ok w) :
    (∃ t, w.boards.find? (trackersIn pre + (if c.tracker then 1 else 0) + 1) = some t ∧ f.TrueIs N halfPi c.noErrors t) ∧
    ∃ g s, FirstBoard (pre ++ .cam c :: post) f.config.id g ∧ w.ekf.state.fids.find? f.config.id = some s ∧
      s.pos = g.config.pos ∧ s.ang = g.config.ang ∧ s.isExtrinsic = g.config.isExtrinsic := by
  have a := started he hn ht h
  have e0 : (SimItem.cam c).board = some f := hf
  constructor
  · have h1 := a.board pre (.cam c) post rfl (by rw [e0]; rfl)
    have e1 : (SimWorld.start e).ids.tracker + trackersIn pre + (SimItem.cam c).trackers =
        trackersIn pre + (if c.tracker then 1 else 0) + 1 := by
      rw [show (SimWorld.start e).ids.tracker = 0 from rfl]
      simp [SimItem.trackers, hf]
      omega
    rw [e1] at h1
    refine ⟨f.truth N halfPi (f.noErrors || c.noErrors), h1.trans (by simp [SimItem.boardTruth, hf]), f.truth_is N halfPi c.noErrors⟩
  · obtain ⟨g, hg, h2⟩ := findSome_first (k := f.config.id)
      ⟨_, List.mem_append_right pre (List.mem_cons_self (l := post)), f, e0, rfl⟩
    have h1 := a.fid f.config.id
    rw [h2, show (SimWorld.start e).ekf.fidAt f.config.id = none by
      show (UMap.find? e.state.fids _).map _ = none
      rw [he.2.2.2]; rfl] at h1
    rw [Ekf.fidAt, Option.none_or] at h1
    obtain ⟨s, hs, h3⟩ := Option.map_eq_some_iff.1 h1
    refine ⟨g, s, hg, hs, ?_⟩
    have hf : ∀ s : FidState K, ((s.reindex 0).pos = g.config.pos ∧ (s.reindex 0).ang = g.config.ang ∧
      (s.reindex 0).isExtrinsic = g.config.isExtrinsic) →
      s.pos = g.config.pos ∧ s.ang = g.config.ang ∧ s.isExtrinsic = g.config.isExtrinsic := fun _ h => h
    refine hf s ?_
    rw [h3]
    exact ⟨rfl, rfl, rfl⟩

/-- **No errors.**  If boards with the same id are configured at the same pose, a board watched without errors truly is where the
filter believes it to be. -/
theorem C71_board_exact (N : Prim K) (halfPi : K) (e : Ekf K) (he : e.NoSensors) (pre post : List (SimItem K))
    (c : SimCamConfig K) (f : SimFidConfig K) (hf : c.board = some f) (hne : f.noErrors = true ∨ c.noErrors = true)
    (hsame : ∀ x ∈ pre ++ .cam c :: post, ∀ g, x.board = some g → g.config.id = f.config.id →
      g.config.pos = f.config.pos ∧ g.config.ang = f.config.ang) (w : SimWorld K)
    (hn : (pre ++ .cam c :: post).length < 2 ^ 32) (ht : trackersIn (pre ++ .cam c :: post) < 2 ^ 32)
    (h : (SimWorld.start e).loadAll N halfPi (pre ++ .cam c :: post) = .ok w) :
    ∃ s, w.ekf.state.fids.find? f.config.id = some s ∧
      w.boards.find? (trackersIn pre + (if c.tracker then 1 else 0) + 1) = some (s.pos, s.ang) := by
  obtain ⟨⟨t, h1, h2⟩, g, s, ⟨p, x, q, hx, hg, hid, _⟩, h3, h4, h5, _⟩ := C71_board_partial N halfPi e he pre post c f hf w hn ht h
  refine ⟨s, h3, ?_⟩
  obtain ⟨e1, e2⟩ := hsame x (by rw [hx]; simp) g hg hid
  unfold SimFidConfig.TrueIs at h2
  rw [if_pos hne] at h2
  rw [h1, h2, h4, h5, e1, e2]

/-- **Messages** are made from the truth of the sensor's own number. -/
theorem C71_messages (N : Prim K) (halfPi : K) (w : SimWorld K) (id tid : Nat) (noErrors : Bool) (b : TruthBody K)
    (t : TruthImu K) (c f : V3 K × Quat K) (hi : w.truth.imus.find? id = some t) (hc : w.truth.cams.find? id = some c)
    (hf : w.boards.find? tid = some f) (e1 e2 z1 z2 : V3 K) :
    w.imuMessage id noErrors b e1 e2 z1 z2 = simImuMessage noErrors b t e1 e2 z1 z2 ∧
    w.boardMessage N halfPi id tid noErrors b e1 e2 z1 z2 =
      some (simBoardMessage N halfPi noErrors b c.1 c.2 f.1 f.2 e1 e2 z1 z2) := by
  unfold SimWorld.imuMessage SimWorld.boardMessage UMap.getD
  rw [hi, hc, hf]
  exact ⟨rfl, rfl⟩

/-- **Fixes** are made from the true place of the antenna with the number of the receiver. -/
theorem C71_fixes (N : Prim ℝ) (halfPi : ℝ) (e : Ekf ℝ) (he : e.NoSensors) (xs : List (SimItem ℝ)) (w : SimWorld ℝ)
    (hn : xs.length < 2 ^ 32) (ht : trackersIn xs < 2 ^ 32) (h : (SimWorld.start e).loadAll N halfPi xs = .ok w)
    (k : Nat) (c : SimGpsConfig ℝ) (hk : xs[k]? = some (.gps c)) (noErrors : Bool) (b : TruthBody ℝ) (ref : V3 ℝ) (heading : ℝ)
    (llaError z : V3 ℝ) :
    ∃ t, c.TrueIs t ∧ w.gpsMessage (k + 1) noErrors b ref heading llaError z = simGpsMessage noErrors b t ref heading llaError z := by
  obtain ⟨-, t, h1, h2⟩ := C71_gps N halfPi e he xs w hn ht h k c hk
  refine ⟨t, h2, ?_⟩
  unfold SimWorld.gpsMessage UMap.getD
  rw [h1]
  rfl

/-! ### Violations -/

/-- Two cameras watch the same board, with errors, and the draws for its position differ: they see two different boards, and the
filter's single board is wrong for at least one of them. -/
theorem C71_board_violated (N : Prim K) (halfPi : K) (e : Ekf K) (he : e.NoSensors) (c1 c2 : SimCamConfig K)
    (f : SimFidConfig K) (z : V3 K) (h1 : c1.board = some f) (h2 : c2.board = some { f with zPos := z })
    (hne : f.noErrors = false ∧ c1.noErrors = false ∧ c2.noErrors = false) (i : Fin 3) (hstd : f.posError i ≠ 0)
    (hz : f.zPos i ≠ z i) (w : SimWorld K) (h : (SimWorld.start e).loadAll N halfPi [.cam c1, .cam c2] = .ok w) :
    ∃ tid1 tid2 t1 t2, w.boards.find? tid1 = some t1 ∧ w.boards.find? tid2 = some t2 ∧ f.TrueIs N halfPi c1.noErrors t1 ∧
      ({ f with zPos := z } : SimFidConfig K).TrueIs N halfPi c2.noErrors t2 ∧ t1.1 ≠ t2.1 ∧
      ∀ s, w.ekf.state.fids.find? f.config.id = some s → s.pos ≠ t1.1 ∨ s.pos ≠ t2.1 := by
  have hn : ([.cam c1, .cam c2] : List (SimItem K)).length < 2 ^ 32 := by simp
  have ht : trackersIn ([.cam c1, .cam c2] : List (SimItem K)) < 2 ^ 32 := by
    have : ∀ x : SimItem K, x.trackers ≤ 2 := by
      intro x
      cases x <;> simp only [SimItem.trackers] <;> (try split) <;> (try split) <;> omega
    have q1 := this (.cam c1)
    have q2 := this (.cam c2)
    simp only [trackersIn, List.map_cons, List.map_nil, List.sum_cons, List.sum_nil]
    omega
  obtain ⟨⟨t1, a1, a2⟩, _⟩ := C71_board_partial N halfPi e he [] [.cam c2] c1 f h1 w hn ht h
  obtain ⟨⟨t2, b1, b2⟩, _⟩ := C71_board_partial N halfPi e he [.cam c1] [] c2 _ h2 w hn ht h
  have hd : t1.1 ≠ t2.1 := by
    intro hc
    have q1 := a2
    have q2 := b2
    unfold SimFidConfig.TrueIs at q1 q2
    rw [if_neg (by simp [hne.1, hne.2.1])] at q1
    rw [if_neg (by simp [hne.1, hne.2.2])] at q2
    have q3 := q1.1 i
    rw [hc, q2.1 i] at q3
    have q4 : f.posError i * z i = f.posError i * f.zPos i := add_left_cancel q3
    exact hz (mul_left_cancel₀ hstd q4).symm
  refine ⟨_, _, t1, t2, a1, b1, a2, b2, hd, fun s _ => ?_⟩
  by_cases hs : s.pos = t1.1
  · right
    rw [hs]
    exact hd
  · exact .inl hs

/-- The file of true boards lists boards under the numbers 1 to n of the trackers: no board is ever listed under the default
id, 0. -/
theorem C71_file_violated (N : Prim K) (halfPi : K) (e : Ekf K) (he : e.NoSensors) (xs : List (SimItem K)) (w : SimWorld K)
    (hn : xs.length < 2 ^ 32) (ht : trackersIn xs < 2 ^ 32) (h : (SimWorld.start e).loadAll N halfPi xs = .ok w)
    (id : Nat) (hid : id = 0 ∨ trackersIn xs < id) : w.boards.find? id = none := by
  have a := started he hn ht h
  rcases hid with rfl | hid
  · exact a.low 0 (Nat.zero_le _)
  · exact a.high id (by rw [show (SimWorld.start e).ids.tracker = 0 from rfl]; omega)

namespace SetupSample

/-- A board with id 7, five metres along the axis of `z`; the draws are 1. -/
def board (z : ℚ) (noErrors : Bool) : SimFidConfig ℚ :=
  ⟨⟨true, 7, ![0, 0, z], Quat.one, ⟨6, fun _ => 1⟩⟩, noErrors, ![1, 1, 1], ![0, 0, 0], ![1, 1, 1], ![0, 0, 0]⟩

/-- A camera at the origin of the body, with a feature tracker. -/
def cam (noErrors : Bool) (f : Option (SimFidConfig ℚ)) : SimCamConfig ℚ :=
  ⟨⟨true, { (CamState.default : CamState ℚ) with rate := 10 }, ⟨6, fun _ => 1⟩⟩, ⟨1, 1, 0, 0, 0, 0, 640, 480, 1⟩, noErrors,
    ![1, 1, 1], ![0, 0, 0], ![1, 2, 3], ![0, 0, 0], true, f⟩

/-- An IMU without errors. -/
def imu : SimImuConfig ℚ := ⟨C54_imu true true, true, 0, 0, 0, 0, 0, 0, 0, 0⟩

/-- An antenna with errors. -/
def gps : SimGpsConfig ℚ := ⟨⟨true, ![1, 0, 0], 1, ![1, 1, 1]⟩, false, ![1, 1, 1], ![2, 2, 2]⟩

/-- The filter. -/
def ekf : Ekf ℚ := init Samples.prim (Samples.params .all false)

/-- A body at rest at the origin. -/
def body : TruthBody ℚ := ⟨0, 0, 0, Quat.one, 0, 0⟩

end SetupSample

open SetupSample

/-- The hypotheses of the theorems above are met: one sensor of each kind, two cameras watching one board. -/
example : ekf.NoSensors ∧ ∃ w : SimWorld ℚ, (SimWorld.start ekf).loadAll Samples.prim 2
      [.imu imu, .cam (cam false (some (board 5 false))), .cam (cam false (some { board 5 false with zPos := ![2, 2, 2] })),
        .gps gps] = .ok w ∧
    ((w.boards.find? 2).map Prod.fst = some ![1, 1, 6] ∧ (w.boards.find? 4).map Prod.fst = some ![2, 2, 7] ∧
      (w.ekf.state.fids.find? 7).map (fun s => s.pos) = some ![0, 0, 5] ∧ w.truth.gpss.find? 4 = some ![3, 2, 2]) :=
  ⟨⟨rfl, rfl, rfl, rfl⟩, Samples.ok_of_check (P := fun w : SimWorld ℚ =>
    (w.boards.find? 2).map Prod.fst = some ![1, 1, 6] ∧ (w.boards.find? 4).map Prod.fst = some ![2, 2, 7] ∧
      (w.ekf.state.fids.find? 7).map (fun s => s.pos) = some ![0, 0, 5] ∧ w.truth.gpss.find? 4 = some ![3, 2, 2])
    (by decide +kernel)⟩

/-- A configuration with a single board, of id 7: the filter has a board 7, the file of true boards only a row of board 2. -/
theorem C71_file_sample_violated : ∃ w : SimWorld ℚ,
    (SimWorld.start ekf).loadAll Samples.prim 2 [.cam (cam true (some (board 5 true)))] = .ok w ∧
    (w.ekf.state.fids.map Prod.fst = [7] ∧ w.boards.map Prod.fst = [2]) :=
  Samples.ok_of_check (P := fun w : SimWorld ℚ => w.ekf.state.fids.map Prod.fst = [7] ∧ w.boards.map Prod.fst = [2])
    (by decide +kernel)

/-- A board five metres behind a camera is detected there. -/
theorem C71_visible_violated : ∃ w : SimWorld ℚ,
    (SimWorld.start ekf).loadAll Samples.prim 2 [.cam (cam true (some (board (-5) true)))] = .ok w ∧
    ((w.boardMessage Samples.prim 2 1 2 true body 0 0 0 0).map fun d => d.pos) = some ![0, 0, -5] :=
  Samples.ok_of_check (P := fun w : SimWorld ℚ =>
    ((w.boardMessage Samples.prim 2 1 2 true body 0 0 0 0).map fun d => d.pos) = some ![0, 0, -5]) (by decide +kernel)

end EkfCal
