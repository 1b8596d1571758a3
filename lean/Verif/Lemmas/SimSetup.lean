import Verif.Lemmas.Forms
import Verif.Lemmas.Window
import Verif.Spec.SimSetup

/-!
# Lemmas for C71: what each constructor adds to the filter and to the truth
-/

namespace EkfCal
open Ekf
variable {K : Type} [Field K] [LinearOrder K]

/-! ### The filter without its indices -/

theorem ImuState.reindex_reindex (s : ImuState K) (i j : Nat) : (s.reindex i).reindex j = s.reindex j := by
  unfold ImuState.reindex
  cases s.isExtrinsic <;> cases s.isIntrinsic <;> rfl

/-- An IMU of the filter, with its index fields reset. -/
def Ekf.imuAt (e : Ekf K) (k : Nat) : Option (ImuState K) := (e.state.imus.find? k).map fun s => s.reindex 0
/-- A camera of the filter, with its index field reset. -/
def Ekf.camAt (e : Ekf K) (k : Nat) : Option (CamState K) := (e.state.cams.find? k).map fun s => s.reindex 0
/-- An antenna of the filter, with its index field reset. -/
def Ekf.gpsAt (e : Ekf K) (k : Nat) : Option (GpsState K) := (e.state.gpss.find? k).map fun s => s.reindex 0
/-- A board of the filter, with its index field reset. -/
def Ekf.fidAt (e : Ekf K) (k : Nat) : Option (FidState K) := (e.state.fids.find? k).map fun s => s.reindex 0

theorem accum_view {α : Type} (g : α → Nat → α) (dim : α → Nat) (hg : ∀ a i j, g (g a i) j = g a j) (m : UMap α) (i k : Nat) :
    (UMap.find? (accumIdx g dim m i) k).map (fun a => g a 0) = (UMap.find? m k).map fun a => g a 0 := by
  obtain ⟨j, hj⟩ := find?_accumIdx g dim m i k
  rw [hj, Option.map_map]
  congr 1
  funext a
  exact hg a j 0

theorem insert_view {α : Type} (v : α → α) (m : UMap α) (id : Nat) (s : α) (k : Nat) :
    (UMap.find? (m.insert id s) k).map v = if k = id then some (v s) else (UMap.find? m k).map v := by
  by_cases hk : k = id
  · subst hk
    rw [if_pos rfl, UMap.find?_insert_self]
    rfl
  · rw [if_neg hk, UMap.find?_insert_ne _ _ hk]

/-- Two filters with the same sensors, apart from indices. -/
structure Ekf.SameViews (e e' : Ekf K) : Prop where
  imu : ∀ k, e'.imuAt k = e.imuAt k
  cam : ∀ k, e'.camAt k = e.camAt k
  gps : ∀ k, e'.gpsAt k = e.gpsAt k
  fid : ∀ k, e'.fidAt k = e.fidAt k

theorem refresh_views {N : Prim K} {e e' : Ekf K} (h : refreshIndices N e = .ok e') : e.SameViews e' := by
  have hs := refreshIndices_state h
  refine ⟨fun k => ?_, fun k => ?_, fun k => ?_, fun k => ?_⟩
  · unfold Ekf.imuAt
    rw [hs]
    exact accum_view ImuState.reindex ImuState.dim ImuState.reindex_reindex _ _ k
  · unfold Ekf.camAt
    rw [hs]
    exact accum_view CamState.reindex CamState.dim (fun _ _ _ => rfl) _ _ k
  · unfold Ekf.gpsAt
    rw [hs]
    exact accum_view GpsState.reindex GpsState.dim (fun _ _ _ => rfl) _ _ k
  · unfold Ekf.fidAt
    rw [hs]
    exact accum_view FidState.reindex FidState.dim (fun _ _ _ => rfl) _ _ k

theorem newImu_views {N : Prim K} {e e' : Ekf K} {id : Nat} {p : ImuConfig K} (h : newImuSensor N e id p = .ok e')
    (hn : e.imuAt id = none) :
    (∀ k, e'.imuAt k = if k = id then some (p.state.reindex 0) else e.imuAt k) ∧ (∀ k, e'.camAt k = e.camAt k) ∧
    (∀ k, e'.gpsAt k = e.gpsAt k) ∧ ∀ k, e'.fidAt k = e.fidAt k := by
  unfold newImuSensor at h
  rw [bind_ok_iff] at h
  obtain ⟨c, _, h⟩ := h
  rcases registerIMU_form h with ⟨hf, _⟩ | ⟨_, out, _, hr⟩
  · rw [Ekf.imuAt, Option.map_eq_none_iff] at hn
    rw [hn] at hf
    cases hf
  · have v := refresh_views hr
    exact ⟨fun k => (v.imu k).trans (insert_view _ _ _ _ k), v.cam, v.gps, v.fid⟩

theorem newCamera_views {N : Prim K} {e e' : Ekf K} {id : Nat} {p : CamConfig K} (h : newCameraSensor N e id p = .ok e')
    (hn : e.camAt id = none) :
    (∀ k, e'.imuAt k = e.imuAt k) ∧ (∀ k, e'.camAt k = if k = id then some (p.state.reindex 0) else e.camAt k) ∧
    (∀ k, e'.gpsAt k = e.gpsAt k) ∧ ∀ k, e'.fidAt k = e.fidAt k := by
  unfold newCameraSensor at h
  rcases registerCamera_form h with ⟨hf, _⟩ | ⟨_, _, out, _, hr⟩
  · rw [Ekf.camAt, Option.map_eq_none_iff] at hn
    rw [hn] at hf
    cases hf
  · have v := refresh_views hr
    exact ⟨v.imu, fun k => (v.cam k).trans (insert_view _ _ _ _ k), v.gps, v.fid⟩

theorem newGps_views {N : Prim K} {e e' : Ekf K} {id : Nat} {p : GpsConfig K} (h : newGpsSensor N e id p = .ok e')
    (hn : e.gpsAt id = none) :
    (∀ k, e'.imuAt k = e.imuAt k) ∧ (∀ k, e'.camAt k = e.camAt k) ∧
    (∀ k, e'.gpsAt k = if k = id then some (p.state.reindex 0) else e.gpsAt k) ∧ ∀ k, e'.fidAt k = e.fidAt k := by
  unfold newGpsSensor at h
  rcases registerGPS_form h with ⟨hf, _⟩ | ⟨_, out, _, hr⟩
  · rw [Ekf.gpsAt, Option.map_eq_none_iff] at hn
    rw [hn] at hf
    cases hf
  · have v := refresh_views hr
    exact ⟨v.imu, v.cam, fun k => (v.gps k).trans (insert_view _ _ _ _ k), v.fid⟩

/-- A board is added under its configured id unless there is one already. -/
theorem newBoard_views {N : Prim K} {e e' : Ekf K} {p : FidConfig K} (h : newFiducialTracker N e p = .ok e') :
    (∀ k, e'.imuAt k = e.imuAt k) ∧ (∀ k, e'.camAt k = e.camAt k) ∧ (∀ k, e'.gpsAt k = e.gpsAt k) ∧
    ∀ k, e'.fidAt k = if k = p.id then some ((e.fidAt k).getD (p.state.reindex 0)) else e.fidAt k := by
  unfold newFiducialTracker at h
  simp only [bind_ok_iff, guardUB_ok_iff] at h
  obtain ⟨_, _, h⟩ := h
  have hid : p.state.id = p.id := rfl
  rcases registerFiducial_form h with ⟨hf, rfl⟩ | ⟨hf, out, _, hr⟩
  · refine ⟨fun _ => rfl, fun _ => rfl, fun _ => rfl, fun k => ?_⟩
    split
    · rename_i hk
      subst hk
      obtain ⟨s, hs⟩ := Option.isSome_iff_exists.1 hf
      rw [hid] at hs
      simp [Ekf.fidAt, hs]
    · rfl
  · have v := refresh_views hr
    refine ⟨v.imu, v.cam, v.gps, fun k => (v.fid k).trans ((insert_view _ _ _ _ k).trans ?_)⟩
    rw [hid]
    split
    · rename_i hk
      subst hk
      rw [hid] at hf
      simp [Ekf.fidAt, hf]
    · rfl

end EkfCal

namespace EkfCal
open Ekf
variable {K : Type} [Field K] [LinearOrder K]

/-! ### One sensor -/

/-- The IMU a sensor of the configuration is. -/
def SimItem.imu? : SimItem K → Option (SimImuConfig K)
  | .imu c => some c
  | _ => none
/-- The camera a sensor of the configuration is. -/
def SimItem.cam? : SimItem K → Option (SimCamConfig K)
  | .cam c => some c
  | _ => none
/-- The antenna a sensor of the configuration is. -/
def SimItem.gps? : SimItem K → Option (SimGpsConfig K)
  | .gps c => some c
  | _ => none

/-- The true pose of the board a sensor watches. -/
def SimItem.boardTruth (N : Prim K) (halfPi : K) : SimItem K → Option (V3 K × Quat K)
  | .cam c => c.board.map fun f => f.truth N halfPi (f.noErrors || c.noErrors)
  | _ => none

/-- The board a sensor watches, if it has the id `k`, as the filter stores it. -/
def SimItem.boardFor (k : Nat) (x : SimItem K) : Option (FidState K) :=
  (x.board.filter fun f => f.config.id = k).map fun f => f.config.state.reindex 0

/-- No sensor has an id that was not handed out. -/
structure SimWorld.Fresh (w : SimWorld K) : Prop where
  imu : ∀ k, w.ids.sensor < k → w.ekf.imuAt k = none
  cam : ∀ k, w.ids.sensor < k → w.ekf.camAt k = none
  gps : ∀ k, w.ids.sensor < k → w.ekf.gpsAt k = none
  imuT : ∀ k, w.ids.sensor < k → w.truth.imus.find? k = none
  camT : ∀ k, w.ids.sensor < k → w.truth.cams.find? k = none
  gpsT : ∀ k, w.ids.sensor < k → w.truth.gpss.find? k = none
  lens : ∀ k, w.ids.sensor < k → w.intrinsics.find? k = none

/-- What loading `x` does. -/
structure SimWorld.Adds (N : Prim K) (halfPi : K) (w : SimWorld K) (x : SimItem K) (w' : SimWorld K) : Prop where
  sensor : w'.ids.sensor = w.ids.sensor + 1
  tracker : w'.ids.tracker = w.ids.tracker + x.trackers
  imu : ∀ k, w'.ekf.imuAt k = if k = w.ids.sensor + 1 then x.imu?.map fun c => c.config.state.reindex 0 else w.ekf.imuAt k
  cam : ∀ k, w'.ekf.camAt k = if k = w.ids.sensor + 1 then x.cam?.map fun c => c.config.state.reindex 0 else w.ekf.camAt k
  gps : ∀ k, w'.ekf.gpsAt k = if k = w.ids.sensor + 1 then x.gps?.map fun c => c.config.state.reindex 0 else w.ekf.gpsAt k
  imuT : ∀ k, w'.truth.imus.find? k = if k = w.ids.sensor + 1 then x.imu?.map fun c => c.truth N halfPi
    else w.truth.imus.find? k
  camT : ∀ k, w'.truth.cams.find? k = if k = w.ids.sensor + 1 then x.cam?.map fun c => c.truth N halfPi
    else w.truth.cams.find? k
  gpsT : ∀ k, w'.truth.gpss.find? k = if k = w.ids.sensor + 1 then x.gps?.map fun c => c.truth else w.truth.gpss.find? k
  lens : ∀ k, w'.intrinsics.find? k = if k = w.ids.sensor + 1 then x.cam?.map fun c => c.intrinsics else w.intrinsics.find? k
  fid : ∀ k, w'.ekf.fidAt k = (w.ekf.fidAt k).or (x.boardFor k)
  board : ∀ k, w'.boards.find? k =
    if k = w.ids.tracker + x.trackers ∧ x.board.isSome = true then x.boardTruth N halfPi else w.boards.find? k

theorem succ32_eq {n : Nat} (h : n + 1 < 2 ^ 32) : succ32 n = n + 1 := Nat.mod_eq_of_lt h

theorem find_insert {α : Type} (m : UMap α) (id : Nat) (s : α) (k : Nat) :
    UMap.find? (m.insert id s) k = if k = id then some s else UMap.find? m k := by
  have := insert_view (fun a : α => a) m id s k
  simpa using this

theorem ite_none {α : Type} {o : Option α} {k j : Nat} (h : k = j → o = none) : o = if k = j then none else o := by
  split
  · exact h ‹_›
  · rfl

theorem load_adds {N : Prim K} {halfPi : K} {w w' : SimWorld K} {x : SimItem K} (hw : w.Fresh)
    (hs : w.ids.sensor + 1 < 2 ^ 32) (ht : w.ids.tracker + x.trackers < 2 ^ 32) (h : w.load N halfPi x = .ok w') :
    w.Adds N halfPi x w' := by
  have hlt : w.ids.sensor < w.ids.sensor + 1 := Nat.lt_succ_self _
  cases x with
  | imu c =>
    simp only [SimWorld.load, SimWorld.addImu, IdCounters.next, succ32_eq hs, bind_ok_iff, pure_res, Except.ok.injEq] at h
    obtain ⟨e1, h1, rfl⟩ := h
    obtain ⟨v1, v2, v3, v4⟩ := newImu_views h1 (hw.imu _ hlt)
    exact ⟨rfl, rfl, v1, fun k => (v2 k).trans (ite_none fun hk => hw.cam k (by omega)),
      fun k => (v3 k).trans (ite_none fun hk => hw.gps k (by omega)), fun k => find_insert _ _ _ _,
      fun k => ite_none fun hk => hw.camT k (by omega), fun k => ite_none fun hk => hw.gpsT k (by omega),
      fun k => ite_none fun hk => hw.lens k (by omega),
      fun k => (v4 k).trans (by simp [SimItem.boardFor, SimItem.board]),
      fun k => by simp [SimItem.board]⟩
  | gps c =>
    simp only [SimWorld.load, SimWorld.addGps, IdCounters.next, succ32_eq hs, bind_ok_iff, pure_res, Except.ok.injEq] at h
    obtain ⟨e1, h1, rfl⟩ := h
    obtain ⟨v1, v2, v3, v4⟩ := newGps_views h1 (hw.gps _ hlt)
    exact ⟨rfl, rfl, fun k => (v1 k).trans (ite_none fun hk => hw.imu k (by omega)),
      fun k => (v2 k).trans (ite_none fun hk => hw.cam k (by omega)), v3,
      fun k => ite_none fun hk => hw.imuT k (by omega), fun k => ite_none fun hk => hw.camT k (by omega),
      fun k => find_insert _ _ _ _, fun k => ite_none fun hk => hw.lens k (by omega),
      fun k => (v4 k).trans (by simp [SimItem.boardFor, SimItem.board]),
      fun k => by simp [SimItem.board]⟩
  | cam c =>
    simp only [SimWorld.load, SimWorld.addCam, IdCounters.next, succ32_eq hs, bind_ok_iff, pure_res, Except.ok.injEq] at h
    obtain ⟨w1, ⟨e1, h1, rfl⟩, h⟩ := h
    obtain ⟨v1, v2, v3, v4⟩ := newCamera_views h1 (hw.cam _ hlt)
    have htr : w.ids.tracker + (if c.tracker then 1 else 0) < 2 ^ 32 := by
      have : (SimItem.cam c).trackers = (if c.tracker then 1 else 0) + if c.board.isSome then 1 else 0 := rfl
      omega
    generalize hw2 : (if c.tracker = true then _ else _ : SimWorld K) = w2 at h
    have q1 : w2.ids.tracker = w.ids.tracker + (if c.tracker then 1 else 0) := by
      rw [← hw2]
      split
      · rename_i hc
        rw [if_pos hc] at htr
        exact succ32_eq htr
      · rfl
    have q2 : w2.ids.sensor = w.ids.sensor + 1 := by rw [← hw2]; split <;> rfl
    have q3 : w2.ekf = e1 := by rw [← hw2]; split <;> rfl
    have q4 : w2.truth = { w.truth with cams := w.truth.cams.insert (w.ids.sensor + 1) (c.truth N halfPi) } := by
      rw [← hw2]; split <;> rfl
    have q5 : w2.intrinsics = w.intrinsics.insert (w.ids.sensor + 1) c.intrinsics := by rw [← hw2]; split <;> rfl
    have q6 : w2.boards = w.boards := by rw [← hw2]; split <;> rfl
    clear hw2
    have g1 : ∀ k, w2.truth.imus.find? k = if k = w.ids.sensor + 1 then none else w.truth.imus.find? k := fun k => by
      rw [q4]
      exact ite_none fun hk => hw.imuT k (by omega)
    have g2 : ∀ k, w2.truth.cams.find? k = if k = w.ids.sensor + 1 then some (c.truth N halfPi) else w.truth.cams.find? k :=
      fun k => by
        rw [q4]
        exact find_insert _ _ _ _
    have g3 : ∀ k, w2.truth.gpss.find? k = if k = w.ids.sensor + 1 then none else w.truth.gpss.find? k := fun k => by
      rw [q4]
      exact ite_none fun hk => hw.gpsT k (by omega)
    have g4 : ∀ k, w2.intrinsics.find? k = if k = w.ids.sensor + 1 then some c.intrinsics else w.intrinsics.find? k :=
      fun k => by
        rw [q5]
        exact find_insert _ _ _ _
    cases hb : c.board with
    | none =>
      have e0 : (SimItem.cam c).board = none := hb
      have e2 : (SimItem.cam c).trackers = if c.tracker then 1 else 0 := by simp [SimItem.trackers, hb]
      rw [hb] at h
      simp only [Except.ok.injEq] at h
      subst h
      refine ⟨q2, by rw [e2]; exact q1, ?_, ?_, ?_, g1, g2, g3, g4, ?_, ?_⟩
      all_goals intro k
      · rw [q3]
        exact (v1 k).trans (ite_none fun hk => hw.imu k (by omega))
      · rw [q3]
        exact v2 k
      · rw [q3]
        exact (v3 k).trans (ite_none fun hk => hw.gps k (by omega))
      · rw [q3, v4 k]
        simp [SimItem.boardFor, e0]
      · rw [e0, q6]
        simp
    | some f =>
      have e0 : (SimItem.cam c).board = some f := hb
      have e2 : (SimItem.cam c).trackers = (if c.tracker then 1 else 0) + 1 := by simp [SimItem.trackers, hb]
      rw [e2] at ht
      rw [hb] at h
      simp only at h
      simp only [SimWorld.addBoard, IdCounters.next, bind_ok_iff, pure_res, Except.ok.injEq] at h
      rw [succ32_eq (by omega)] at h
      obtain ⟨e3, h3, rfl⟩ := h
      rw [q3] at h3
      obtain ⟨u1, u2, u3, u4⟩ := newBoard_views h3
      refine ⟨q2, ?_, ?_, ?_, ?_, g1, g2, g3, g4, ?_, ?_⟩
      · rw [e2]
        show w2.ids.tracker + 1 = _
        omega
      all_goals intro k
      · exact (u1 k).trans ((v1 k).trans (ite_none fun hk => hw.imu k (by omega)))
      · exact (u2 k).trans (v2 k)
      · exact (u3 k).trans ((v3 k).trans (ite_none fun hk => hw.gps k (by omega)))
      · refine (u4 k).trans ?_
        rw [v4 k]
        simp only [SimItem.boardFor, e0]
        by_cases hk : k = f.config.id
        · subst hk
          cases w.ekf.fidAt f.config.id <;> simp
        · rw [if_neg hk]
          cases w.ekf.fidAt k <;> simp [Ne.symm hk]
      · show UMap.find? (w2.boards.insert _ _) k = _
        rw [q6, find_insert, e2, e0, q1]
        simp only [Option.isSome_some, and_true]
        rw [show (SimItem.cam c).boardTruth N halfPi = some (f.truth N halfPi (f.noErrors || c.noErrors)) by
          simp [SimItem.boardTruth, hb], Nat.add_assoc]

theorem Adds.fresh {N : Prim K} {halfPi : K} {w w' : SimWorld K} {x : SimItem K} (hw : w.Fresh)
    (h : w.Adds N halfPi x w') : w'.Fresh := by
  have hs := h.sensor
  refine ⟨fun k hk => ?_, fun k hk => ?_, fun k hk => ?_, fun k hk => ?_, fun k hk => ?_, fun k hk => ?_, fun k hk => ?_⟩
  · rw [h.imu, if_neg (by omega), hw.imu k (by omega)]
  · rw [h.cam, if_neg (by omega), hw.cam k (by omega)]
  · rw [h.gps, if_neg (by omega), hw.gps k (by omega)]
  · rw [h.imuT, if_neg (by omega), hw.imuT k (by omega)]
  · rw [h.camT, if_neg (by omega), hw.camT k (by omega)]
  · rw [h.gpsT, if_neg (by omega), hw.gpsT k (by omega)]
  · rw [h.lens, if_neg (by omega), hw.lens k (by omega)]

/-! ### All sensors -/

/-- What loading the whole list does. -/
structure SimWorld.AddsAll (N : Prim K) (halfPi : K) (w : SimWorld K) (xs : List (SimItem K)) (w' : SimWorld K) : Prop where
  imu : ∀ k, w'.ekf.imuAt k = if k ≤ w.ids.sensor then w.ekf.imuAt k
    else xs[k - w.ids.sensor - 1]?.bind fun x => x.imu?.map fun c => c.config.state.reindex 0
  cam : ∀ k, w'.ekf.camAt k = if k ≤ w.ids.sensor then w.ekf.camAt k
    else xs[k - w.ids.sensor - 1]?.bind fun x => x.cam?.map fun c => c.config.state.reindex 0
  gps : ∀ k, w'.ekf.gpsAt k = if k ≤ w.ids.sensor then w.ekf.gpsAt k
    else xs[k - w.ids.sensor - 1]?.bind fun x => x.gps?.map fun c => c.config.state.reindex 0
  imuT : ∀ k, w'.truth.imus.find? k = if k ≤ w.ids.sensor then w.truth.imus.find? k
    else xs[k - w.ids.sensor - 1]?.bind fun x => x.imu?.map fun c => c.truth N halfPi
  camT : ∀ k, w'.truth.cams.find? k = if k ≤ w.ids.sensor then w.truth.cams.find? k
    else xs[k - w.ids.sensor - 1]?.bind fun x => x.cam?.map fun c => c.truth N halfPi
  gpsT : ∀ k, w'.truth.gpss.find? k = if k ≤ w.ids.sensor then w.truth.gpss.find? k
    else xs[k - w.ids.sensor - 1]?.bind fun x => x.gps?.map fun c => c.truth
  lens : ∀ k, w'.intrinsics.find? k = if k ≤ w.ids.sensor then w.intrinsics.find? k
    else xs[k - w.ids.sensor - 1]?.bind fun x => x.cam?.map fun c => c.intrinsics
  fid : ∀ k, w'.ekf.fidAt k = (w.ekf.fidAt k).or (xs.findSome? fun x => x.boardFor k)
  low : ∀ k, k ≤ w.ids.tracker → w'.boards.find? k = w.boards.find? k
  board : ∀ pre x post, xs = pre ++ x :: post → x.board.isSome = true →
    w'.boards.find? (w.ids.tracker + trackersIn pre + x.trackers) = x.boardTruth N halfPi
  high : ∀ k, w.ids.tracker + trackersIn xs < k → w'.boards.find? k = w.boards.find? k

theorem later {α β : Type} {w n : Nat} {f g h : Nat → Option β} {x : α} {xs : List α} {v : α → Option β} {k : Nat}
    (hn : n = w + 1) (h1 : ∀ k, g k = if k = w + 1 then v x else f k)
    (h2 : ∀ k, h k = if k ≤ n then g k else xs[k - n - 1]?.bind v) :
    h k = if k ≤ w then f k else (x :: xs)[k - w - 1]?.bind v := by
  subst hn
  rw [h2, h1]
  rcases Nat.lt_trichotomy k (w + 1) with hk | hk | hk
  · rw [if_pos (by omega), if_neg (by omega), if_pos (by omega)]
  · subst hk
    rw [if_pos (by omega), if_pos rfl, if_neg (by omega)]
    simp
  · rw [if_neg (by omega), if_neg (by omega)]
    rw [show k - w - 1 = (k - (w + 1) - 1) + 1 by omega, List.getElem?_cons_succ]

omit [Field K] [LinearOrder K] in
theorem SimItem.board_pos {x : SimItem K} (h : x.board.isSome = true) : 0 < x.trackers := by
  cases x with
  | cam c =>
    have : c.board.isSome = true := h
    simp [SimItem.trackers, this]
  | imu c => cases h
  | gps c => cases h

theorem loadAll_adds {N : Prim K} {halfPi : K} : ∀ {xs : List (SimItem K)} {w w' : SimWorld K}, w.Fresh →
    w.ids.sensor + xs.length < 2 ^ 32 → w.ids.tracker + trackersIn xs < 2 ^ 32 → w.loadAll N halfPi xs = .ok w' →
    w.AddsAll N halfPi xs w'
  | [], w, w', hw, _, _, h => by
    cases h
    have e : ∀ {α : Type} {o : Option α} {k : Nat}, (w.ids.sensor < k → o = none) → o = if k ≤ w.ids.sensor then o else none := by
      intro α o k ho
      split
      · rfl
      · exact ho (by omega)
    exact ⟨fun k => e (hw.imu k), fun k => e (hw.cam k), fun k => e (hw.gps k), fun k => e (hw.imuT k), fun k => e (hw.camT k),
      fun k => e (hw.gpsT k), fun k => e (hw.lens k), fun k => by simp, fun _ _ => rfl,
      fun pre x post hx => (by
        cases pre <;> cases hx), fun _ _ => rfl⟩
  | x :: xs, w, w', hw, hs, ht, h => by
    simp only [SimWorld.loadAll, bind_ok_iff] at h
    obtain ⟨w1, h1, h⟩ := h
    have et : trackersIn (x :: xs) = x.trackers + trackersIn xs := by simp [trackersIn]
    rw [et] at ht
    rw [List.length_cons] at hs
    have a := load_adds hw (by omega) (by omega) h1
    have hs1 := a.sensor
    have ht1 := a.tracker
    have r := loadAll_adds (Adds.fresh hw a) (by omega) (by omega) h
    refine ⟨fun k => later a.sensor a.imu r.imu, fun k => later a.sensor a.cam r.cam, fun k => later a.sensor a.gps r.gps,
      fun k => later a.sensor a.imuT r.imuT, fun k => later a.sensor a.camT r.camT, fun k => later a.sensor a.gpsT r.gpsT,
      fun k => later a.sensor a.lens r.lens, fun k => ?_, fun k hk => ?_, fun pre y post hy hb => ?_, fun k hk => ?_⟩
    · rw [r.fid, a.fid, List.findSome?_cons]
      cases w.ekf.fidAt k <;> cases x.boardFor k <;> simp
    · rw [r.low k (by omega), a.board, if_neg]
      rintro ⟨h1, h2⟩
      have := SimItem.board_pos h2
      omega
    · cases pre with
      | nil =>
        obtain ⟨rfl, rfl⟩ := List.cons.inj hy
        have e0 : w.ids.tracker + trackersIn ([] : List (SimItem K)) + x.trackers = w.ids.tracker + x.trackers := by
          simp [trackersIn]
        rw [e0, r.low _ (by omega), a.board, if_pos ⟨rfl, hb⟩]
      | cons z pre =>
        obtain ⟨rfl, rfl⟩ := List.cons.inj hy
        have := r.board pre y post rfl hb
        rw [ht1] at this
        rw [show trackersIn (x :: pre) = x.trackers + trackersIn pre by simp [trackersIn], ← Nat.add_assoc]
        exact this
    · rw [et] at hk
      rw [r.high k (by omega), a.board, if_neg]
      rintro ⟨h1, h2⟩
      omega

end EkfCal
