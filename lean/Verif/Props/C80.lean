import Verif.Model.EvalReads
import Verif.Spec.Csv
import Mathlib.Data.List.Nodup
import Mathlib.Data.List.Basic

/-!
# C80: the evaluation finds every column it reads

The names of the columns of the files are those of `Spec/Csv`, which the headers spell out by C27.
-/

namespace EkfCal.Eval
open EkfCal

variable {K : Type} [Field K] [LinearOrder K]

/-! ### Helpers -/

/-- The names of columns. -/
abbrev names (cols : Columns K) : List String := cols.map Prod.fst

theorem group_names (name : String) (n : Nat) (f : Nat → K) (p : Nat) : names (group name n f p) = numberedNames name n := by
  simp [names, group, numberedNames]

theorem group3_names (name : String) (v : V3 K) (p : Nat) : names (group3 name v p) = numberedNames name 3 := by
  simp only [names, group3, numberedNames, List.map_cons, List.map_nil, String.append_assoc]
  rfl

theorem group4_names (name : String) (q : Quat K) : names (group4 name q) = numberedNames name 4 := by
  simp only [names, group4, numberedNames, List.map_cons, List.map_nil, String.append_assoc]
  rfl

theorem mem_ite_nil {p : Prop} [Decidable p] {x : String} {l : List String} (h : x ∈ if p then l else []) : x ∈ l ∧ p := by
  split at h
  · exact ⟨h, ‹_›⟩
  · cases h

/-- Lookup of a name that occurs once among the names. -/
theorem lookup_found {f : Frame} {name : String} (h : name ∈ f.cols.map Prod.fst) : ∃ c, f.col name = .ok c := by
  obtain ⟨⟨n, c⟩, hm, rfl⟩ := List.mem_map.1 h
  rw [Frame.col]
  have : (f.cols.lookup n).isSome := by
    clear h
    revert hm
    generalize f.cols = l
    intro hm
    induction l with
    | nil => cases hm
    | cons p l ih =>
      rw [List.lookup]
      split
      · rfl
      · next hb =>
        rcases List.mem_cons.1 hm with rfl | hm
        · simp at hb
        · exact ih hm
  obtain ⟨c', hc'⟩ := Option.isSome_iff_exists.1 this
  exact ⟨c', by rw [hc']⟩

/-- A table whose header has the given names, none twice, and in it all columns that are read are found. -/
def Finds (names reads : List String) : Prop :=
  names.Nodup ∧ ∀ f : Frame, f.cols.map Prod.fst = names → ∀ name ∈ reads, ∃ c, f.col name = .ok c

theorem finds_of {ns rs : List String} (h1 : ns.Nodup) (h2 : ∀ r ∈ rs, r ∈ ns) : Finds ns rs :=
  ⟨h1, fun _ hf _ hr => lookup_found (hf ▸ h2 _ hr)⟩

/-! ### Files of the filter -/

theorem body_names (e : Ekf K) (var : Nat → K) (d : Int) : names (bodyColumns e var d) = bodyReads := by
  simp only [names, bodyColumns, List.map_cons, List.map_append, bodyReads, bodyMotionReads, List.cons_append, List.append_assoc,
    List.map_nil]
  simp only [← names.eq_def, group_names, group3_names, group4_names]

theorem C80_body (e : Ekf K) (var : Nat → K) (d : Int) : Finds (names (bodyColumns e var d)) bodyReads := by
  rw [body_names]
  exact finds_of (by decide +kernel) fun _ h => h

theorem C80_aug (e : Ekf K) : Finds (names (augColumns e)) augReads := by
  have h : names (augColumns e) = augReads := by
    simp only [names, augColumns, List.map_cons, List.map_append, augReads]
    simp only [← names.eq_def, group3_names, group4_names]
  rw [h]
  exact finds_of (by decide +kernel) fun _ h => h

/-- The names of the columns of an IMU file. -/
def imuNames (ext int : Bool) : List String :=
  "time" :: (["stationary", "score"] ++ numberedNames "imu_pos" 3 ++ numberedNames "imu_ang_pos" 4 ++
    numberedNames "imu_acc_bias" 3 ++ numberedNames "imu_gyr_bias" 3 ++ (if ext then numberedNames "imu_ext_cov" 6 else []) ++
    (if int then numberedNames "imu_int_cov" 6 else []) ++ numberedNames "acc" 3 ++ numberedNames "omg" 3 ++
    numberedNames "residual" 6 ++ ["duration_0"])

theorem imu_names (s : ImuState K) (var : Nat → K) (t : K) (b : Nat) (score : K) (acc omg resAcc resOmg : V3 K) (d : Int) :
    names (imuColumns s var t b score acc omg resAcc resOmg d) = imuNames s.isExtrinsic s.isIntrinsic := by
  cases he : s.isExtrinsic <;> cases hi : s.isIntrinsic <;>
  · simp only [names, imuColumns, List.map_cons, List.map_append, imuNames, he, hi, Bool.false_eq_true, if_true, if_false,
      List.map_nil]
    simp only [← names.eq_def, group_names, group3_names, group4_names]

theorem C80_imu (s : ImuState K) (var : Nat → K) (t : K) (b : Nat) (score : K) (acc omg resAcc resOmg : V3 K) (d : Int) :
    Finds (names (imuColumns s var t b score acc omg resAcc resOmg d))
      (imuReads (names (imuColumns s var t b score acc omg resAcc resOmg d))) := by
  rw [imu_names]
  have h : ∀ ext int : Bool, (imuNames ext int).Nodup ∧ ∀ r ∈ imuReads (imuNames ext int), r ∈ imuNames ext int := by
    decide +kernel
  exact finds_of (h _ _).1 (h _ _).2

/-- The names of the columns of a GPS file. -/
def gpsNames (ext : Bool) : List String :=
  "time" :: (["lat", "lon", "alt", "x", "y", "z", "ref_lat", "ref_lon", "ref_alt", "ref_heading", "is_initialized"] ++
    (if ext then numberedNames "ant_pos" 3 ++ numberedNames "gps_cov" 3 else []) ++ numberedNames "residual" 3 ++ ["duration_0"])

theorem gps_names (s : GpsState K) (var : Nat → K) (t : K) (lla loc ref : V3 K) (heading : K) (b : Bool) (resid : V3 K) (d : Int) :
    names (gpsColumns s var t lla loc ref heading b resid d) = gpsNames s.isExtrinsic := by
  cases he : s.isExtrinsic <;>
  · simp only [names, gpsColumns, List.map_cons, List.map_append, gpsNames, he, Bool.false_eq_true, if_true, if_false,
      List.map_nil]
    simp only [← names.eq_def, group_names, group3_names]

theorem C80_gps (s : GpsState K) (var : Nat → K) (t : K) (lla loc ref : V3 K) (heading : K) (b : Bool) (resid : V3 K) (d : Int) :
    Finds (names (gpsColumns s var t lla loc ref heading b resid d))
      (gpsReads (names (gpsColumns s var t lla loc ref heading b resid d))) := by
  rw [gps_names]
  have h : ∀ ext : Bool, (gpsNames ext).Nodup ∧ ∀ r ∈ gpsReads (gpsNames ext), r ∈ gpsNames ext := by decide +kernel
  exact finds_of (h _).1 (h _).2

/-- The names of the columns of a camera file. -/
def msckfNames (ext : Bool) : List String :=
  "time" :: (numberedNames "cam_pos" 3 ++ numberedNames "cam_ang_pos" 4 ++ (if ext then numberedNames "cam_cov" 6 else []) ++
    ["FeatureTracks", "duration_0"])

theorem msckf_names (c : CamState K) (var : Nat → K) (t : K) (n : Nat) (d : Int) :
    names (msckfColumns c var t n d) = msckfNames c.isExtrinsic := by
  cases he : c.isExtrinsic <;>
  · simp only [names, msckfColumns, List.map_cons, List.map_append, msckfNames, he, Bool.false_eq_true, if_true, if_false,
      List.map_nil]
    simp only [← names.eq_def, group_names, group3_names, group4_names]

theorem C80_msckf (c : CamState K) (var : Nat → K) (t : K) (n : Nat) (d : Int) :
    Finds (names (msckfColumns c var t n d)) (msckfReads (names (msckfColumns c var t n d))) := by
  rw [msckf_names]
  have h : ∀ ext : Bool, (msckfNames ext).Nodup ∧ ∀ r ∈ msckfReads (msckfNames ext), r ∈ msckfNames ext := by decide +kernel
  exact finds_of (h _).1 (h _).2

/-- The names of the columns of a fiducial file. -/
def fiducialNames (fid cam : Bool) : List String :=
  "time" :: (["board"] ++ numberedNames "board_meas_pos" 3 ++ numberedNames "board_meas_ang" 4 ++ numberedNames "cam_pos" 3 ++
    numberedNames "cam_ang_pos" 4 ++ numberedNames "residual" 6 ++
    (if fid then numberedNames "fid_pos" 3 ++ numberedNames "fid_ang" 4 ++ numberedNames "fid_cov" 6 else []) ++
    (if cam then numberedNames "cam_cov" 6 else []) ++ ["duration_0"])

theorem fiducial_names (id : Nat) (c : CamState K) (f : FidState K) (var : Nat → K) (t : K) (pos : V3 K) (ang : Quat K)
    (resPos resAng : V3 K) (d : Int) :
    names (fidColumns id c f var t pos ang resPos resAng d) = fiducialNames f.isExtrinsic c.isExtrinsic := by
  cases he : f.isExtrinsic <;> cases hc : c.isExtrinsic <;>
  · simp only [names, fidColumns, List.map_cons, List.map_append, fiducialNames, he, hc, Bool.false_eq_true, if_true, if_false,
      List.map_nil]
    simp only [← names.eq_def, group_names, group3_names, group4_names]

theorem C80_fiducial (id : Nat) (c : CamState K) (f : FidState K) (var : Nat → K) (t : K) (pos : V3 K) (ang : Quat K)
    (resPos resAng : V3 K) (d : Int) :
    Finds (names (fidColumns id c f var t pos ang resPos resAng d))
      (fiducialReads (names (fidColumns id c f var t pos ang resPos resAng d))) := by
  rw [fiducial_names]
  have h : ∀ fid cam : Bool, (fiducialNames fid cam).Nodup ∧
      ∀ r ∈ fiducialReads (fiducialNames fid cam), r ∈ fiducialNames fid cam := by decide +kernel
  exact finds_of (h _ _).1 (h _ _).2

theorem C80_triangulation (t : K) (feature : Int) (p : V3 K) :
    Finds (names (triangulationColumns t feature p)) triangulationReads := by
  have h : names (triangulationColumns t feature p) = triangulationReads := rfl
  rw [h]
  exact finds_of (by decide +kernel) fun _ h => h

/-- `board_truth.csv` and `feature_points.csv` -/
theorem C80_scene :
    (∃ ns, boardHeader = csv ns ∧ Finds ns boardReads) ∧ ∃ ns, featureHeader = csv ns ∧ Finds ns featureReads :=
  ⟨⟨"board" :: boardReads, by decide +kernel, finds_of (by decide +kernel) fun _ h => List.mem_cons_of_mem _ h⟩,
    ⟨"Feature" :: featureReads, by decide +kernel, finds_of (by decide +kernel) fun _ h => List.mem_cons_of_mem _ h⟩⟩

/-! ### Truth of the body and the sensors -/

theorem last_split {a a' d d' : List Char} (h : a ++ '_' :: d = a' ++ '_' :: d') (hd : '_' ∉ d) (hd' : '_' ∉ d') :
    a = a' ∧ d = d' := by
  rcases List.append_eq_append_iff.1 h with ⟨c, rfl, h2⟩ | ⟨c, rfl, h2⟩ <;> rcases c with _ | ⟨x, c⟩
  · simp at h2; exact ⟨by simp, h2⟩
  · simp only [List.cons_append, List.cons.injEq] at h2
    exact absurd (by rw [h2.2]; simp) hd
  · simp at h2; exact ⟨by simp, h2.symm⟩
  · simp only [List.cons_append, List.cons.injEq] at h2
    exact absurd (by rw [h2.2]; simp) hd'

/-- The name of the column `i` of the quantity `kind` of the sensor `n`. -/
def code (p : String × Nat × Nat) : String := p.1 ++ "_" ++ toString p.2.1 ++ "_" ++ toString p.2.2

theorem code_toList (p : String × Nat × Nat) :
    (code p).toList = (p.1.toList ++ '_' :: Nat.toDigits 10 p.2.1) ++ '_' :: Nat.toDigits 10 p.2.2 := by
  have h1 (n : Nat) : (toString n).toList = Nat.toDigits 10 n := Nat.toList_repr
  simp only [code, String.toList_append, h1]
  simp

theorem code_inj {p p' : String × Nat × Nat} (h : code p = code p') : p = p' := by
  have h1 := congrArg String.toList h
  rw [code_toList, code_toList] at h1
  have hd (n : Nat) : '_' ∉ Nat.toDigits 10 n := Nat.underscore_not_in_toDigits
  obtain ⟨h2, h3⟩ := last_split h1 (hd _) (hd _)
  obtain ⟨h4, h5⟩ := last_split h2 (hd _) (hd _)
  have hn {a b : Nat} (h : Nat.toDigits 10 a = Nat.toDigits 10 b) : a = b := by
    rw [← Nat.ofDigitChars_ten_toDigits (n := a), h, Nat.ofDigitChars_ten_toDigits]
  exact Prod.ext (String.toList_injective h4) (Prod.ext (hn h5) (hn h3))

/-- The columns of the sensors `ns` of one sort, which have the quantities `kinds`. -/
def coded (kinds : List (String × Nat)) (ns : List Nat) : List (String × Nat × Nat) :=
  ns.flatMap fun n => kinds.flatMap fun k => (List.range k.2).map fun i => (k.1, n, i)

theorem mem_coded {kinds : List (String × Nat)} {ns : List Nat} {p : String × Nat × Nat} (h : p ∈ coded kinds ns) :
    p.1 ∈ kinds.map Prod.fst ∧ p.2.1 ∈ ns := by
  simp only [coded, List.mem_flatMap, List.mem_map] at h
  obtain ⟨n, hn, k, hk, i, -, rfl⟩ := h
  exact ⟨List.mem_map.2 ⟨k, hk, rfl⟩, hn⟩

theorem coded_nodup {kinds : List (String × Nat)} (hk : (kinds.map Prod.fst).Nodup) {ns : List Nat} (hn : ns.Nodup) :
    (coded kinds ns).Nodup := by
  rw [coded, List.nodup_flatMap]
  refine ⟨fun n _ => ?_, hn.imp fun hne => ?_⟩
  · rw [List.nodup_flatMap]
    refine ⟨fun k _ => List.nodup_range.map fun i j h => (by simpa using h), ?_⟩
    refine (List.pairwise_map.1 hk).imp fun hne => ?_
    intro p h1 h2
    obtain ⟨i, -, rfl⟩ := List.mem_map.1 h1
    obtain ⟨j, -, h3⟩ := List.mem_map.1 h2
    exact hne (congrArg Prod.fst h3).symm
  · intro p h1 h2
    simp only [List.mem_flatMap, List.mem_map] at h1 h2
    obtain ⟨k, -, i, -, rfl⟩ := h1
    obtain ⟨k', -, j, -, h3⟩ := h2
    exact hne (congrArg (fun q => q.2.1) h3).symm

/-- The quantities of an IMU, a camera and a receiver. -/
def imuKinds : List (String × Nat) := [("imu_pos", 3), ("imu_ang_pos", 4), ("imu_acc_bias", 3), ("imu_gyr_bias", 3)]
def camKinds : List (String × Nat) := [("cam_pos", 3), ("cam_ang_pos", 4)]
def gpsKinds : List (String × Nat) := [("gps_pos", 3)]

theorem coded_names (kinds : List (String × Nat)) (ns : List Nat) :
    (coded kinds ns).map code = ns.flatMap fun n => kinds.flatMap fun k => numberedNames (k.1 ++ "_" ++ toString n) k.2 := by
  simp only [coded, List.map_flatMap, List.map_map, numberedNames]
  rfl

theorem sensor_names {α : Type} (one : Nat → α → Columns K) (g : Nat → List String) (h : ∀ n s, names (one n s) = g n) (start : Nat)
    (l : List α) : names (sensorColumns one start l) = (List.range' (start + 1) l.length).flatMap g := by
  induction l generalizing start with
  | nil => rfl
  | cons s l ih =>
    rw [sensorColumns, List.length_cons, List.range'_succ, List.flatMap_cons, ← ih, ← h (start + 1) s]
    exact List.map_append

theorem imu_truth_names (n : Nat) (s : TruthImu K) :
    names (truthImuColumns n s) = imuKinds.flatMap fun k => numberedNames (k.1 ++ "_" ++ toString n) k.2 := by
  simp only [names, truthImuColumns, List.map_append]
  simp only [← names.eq_def, group3_names, group4_names, imuKinds, List.flatMap_cons, List.flatMap_nil, List.append_nil,
    List.append_assoc]
  rfl

theorem cam_truth_names (n : Nat) (s : V3 K × Quat K) :
    names (truthCamColumns n s) = camKinds.flatMap fun k => numberedNames (k.1 ++ "_" ++ toString n) k.2 := by
  simp only [names, truthCamColumns, List.map_append]
  simp only [← names.eq_def, group3_names, group4_names, camKinds, List.flatMap_cons, List.flatMap_nil, List.append_nil]
  rfl

theorem gps_truth_names (n : Nat) (s : V3 K) :
    names (truthGpsColumns n s) = gpsKinds.flatMap fun k => numberedNames (k.1 ++ "_" ++ toString n) k.2 := by
  simp only [truthGpsColumns, group3_names, gpsKinds, List.flatMap_cons, List.flatMap_nil, List.append_nil]
  rfl

/-- The columns of all sensors: `a` IMUs, `b` cameras and `c` receivers, numbered in this order. -/
def allCoded (a b c : Nat) : List (String × Nat × Nat) :=
  coded imuKinds (List.range' 1 a) ++ coded camKinds (List.range' (a + 1) b) ++ coded gpsKinds (List.range' (a + b + 1) c)

/-- The columns of the reference. -/
def refNames (c : Nat) : List String := if c = 0 then [] else ["ref_lat", "ref_lon", "ref_alt", "ref_heading"]

theorem truth_names (imus : List (TruthImu K)) (cams : List (V3 K × Quat K)) (gpss : List (V3 K)) (t : K) (b : TruthBody K)
    (ref : V3 K) (heading : K) :
    names (truthColumns imus cams gpss t b ref heading) =
      bodyMotionReads ++ ((allCoded imus.length cams.length gpss.length).map code ++ refNames gpss.length) := by
  have hr : names (if gpss.isEmpty then [] else [("ref_lat", (.num (ref 0) : Cell K)), ("ref_lon", .num (ref 1)),
      ("ref_alt", .num (ref 2)), ("ref_heading", .num heading)]) = refNames gpss.length := by
    cases gpss <;> simp [names, refNames]
  rw [allCoded, List.map_append, List.map_append, coded_names, coded_names, coded_names,
    ← sensor_names truthImuColumns _ imu_truth_names 0 imus, ← sensor_names truthCamColumns _ cam_truth_names _ cams,
    ← sensor_names truthGpsColumns _ gps_truth_names _ gpss, ← hr]
  simp only [truthColumns, names, List.map_cons, List.map_append, bodyMotionReads, List.cons_append, List.append_assoc]
  simp only [← names.eq_def, group3_names, group4_names]

theorem allCoded_nodup (a b c : Nat) : (allCoded a b c).Nodup := by
  have hd {k k' : List (String × Nat)} {l l' : List Nat} (h : ∀ x ∈ k.map Prod.fst, x ∉ k'.map Prod.fst) :
      ∀ p ∈ coded k l, ∀ q ∈ coded k' l', p ≠ q := by
    rintro p h1 q h2 rfl
    exact h _ (mem_coded h1).1 (mem_coded h2).1
  rw [allCoded, List.nodup_append, List.nodup_append]
  refine ⟨⟨coded_nodup (by decide) List.nodup_range', coded_nodup (by decide) List.nodup_range', hd (by decide)⟩,
    coded_nodup (by decide) List.nodup_range', ?_⟩
  intro p h1 q h2
  rcases List.mem_append.1 h1 with h1 | h1
  · exact hd (by decide) p h1 q h2
  · exact hd (by decide) p h1 q h2

theorem allCoded_head {a b c : Nat} {p : String × Nat × Nat} (h : p ∈ allCoded a b c) :
    (code p).toList.head? ∈ [some 'i', some 'c', some 'g'] := by
  have h1 : p.1 ∈ (imuKinds ++ camKinds ++ gpsKinds).map Prod.fst := by
    rw [List.map_append, List.map_append]
    rcases List.mem_append.1 h with h | h
    · rcases List.mem_append.1 h with h | h
      · exact List.mem_append_left _ (List.mem_append_left _ (mem_coded h).1)
      · exact List.mem_append_left _ (List.mem_append_right _ (mem_coded h).1)
    · exact List.mem_append_right _ (mem_coded h).1
  have h2 : ∀ k ∈ (imuKinds ++ camKinds ++ gpsKinds).map Prod.fst, k.toList.head? ∈ [some 'i', some 'c', some 'g'] := by
    decide +kernel
  have h3 := h2 _ h1
  rw [code_toList, List.append_assoc]
  rcases hl : p.1.toList with _ | ⟨x, l⟩
  · rw [hl] at h3; exact absurd h3 (by decide)
  · rw [hl] at h3; exact h3

theorem truth_nodup (a b c : Nat) : (bodyMotionReads ++ ((allCoded a b c).map code ++ refNames c)).Nodup := by
  have h1 : ∀ x ∈ bodyMotionReads, x.toList.head? ∉ [some 'i', some 'c', some 'g'] ∧ x.toList.head? ≠ some 'r' := by decide +kernel
  have h2 : ∀ x ∈ refNames c, x.toList.head? ∉ [some 'i', some 'c', some 'g'] ∧ x.toList.head? = some 'r' := by
    rw [refNames]
    split
    · simp
    · decide +kernel
  have h3 : (refNames c).Nodup := by
    rw [refNames]
    split <;> decide +kernel
  have h4 : ∀ x ∈ (allCoded a b c).map code, x.toList.head? ∈ [some 'i', some 'c', some 'g'] := by
    intro x hx
    obtain ⟨p, hp, rfl⟩ := List.mem_map.1 hx
    exact allCoded_head hp
  rw [List.nodup_append, List.nodup_append]
  refine ⟨by decide +kernel, ⟨(allCoded_nodup a b c).map fun _ _ h => code_inj h, h3, ?_⟩, ?_⟩
  · rintro x hx y hy rfl
    exact (h2 x hy).1 (h4 x hx)
  · rintro x hx y hy rfl
    rcases List.mem_append.1 hy with hy | hy
    · exact (h1 x hx).1 (h4 x hy)
    · exact (h1 x hx).2 (h2 x hy).2

/-- `body_truth.csv`: the truth of the body, and of the IMU, camera or receiver with each id that the simulation gives out. -/
theorem C80_truth (imus : List (TruthImu K)) (cams : List (V3 K × Quat K)) (gpss : List (V3 K)) (t : K) (b : TruthBody K)
    (ref : V3 K) (heading : K) :
    Finds (names (truthColumns imus cams gpss t b ref heading)) bodyMotionReads ∧
    (∀ id ∈ (numbered 0 imus).map Prod.fst, Finds (names (truthColumns imus cams gpss t b ref heading)) (imuTruthReads id)) ∧
    (∀ id ∈ (numbered imus.length cams).map Prod.fst,
      Finds (names (truthColumns imus cams gpss t b ref heading)) (camTruthReads id)) ∧
    (∀ id ∈ (numbered (imus.length + cams.length) gpss).map Prod.fst,
      Finds (names (truthColumns imus cams gpss t b ref heading)) (gpsTruthReads id)) := by
  have hnum {α : Type} (start : Nat) (l : List α) : (numbered start l).map Prod.fst = List.range' (start + 1) l.length := by
    induction l generalizing start with
    | nil => rfl
    | cons s l ih => rw [numbered, List.map_cons, ih, List.length_cons, List.range'_succ]
  rw [truth_names, hnum, hnum, hnum]
  have hn := truth_nodup imus.length cams.length gpss.length
  have hin {kinds : List (String × Nat)} {ns : List Nat} {id : Nat} (hid : id ∈ ns) {x : String}
      (hx : x ∈ kinds.flatMap fun k => numberedNames (k.1 ++ "_" ++ toString id) k.2) : x ∈ (coded kinds ns).map code := by
    rw [coded_names]
    exact List.mem_flatMap.2 ⟨id, hid, hx⟩
  refine ⟨finds_of hn fun x hx => List.mem_append_left _ hx, fun id hid => finds_of hn fun x hx => ?_,
    fun id hid => finds_of hn fun x hx => ?_, fun id hid => finds_of hn fun x hx => ?_⟩
  · refine List.mem_append_right _ (List.mem_append_left _ ?_)
    rw [allCoded, List.map_append, List.map_append]
    refine List.mem_append_left _ (List.mem_append_left _ (hin (Nat.zero_add 1 ▸ hid) ?_))
    simpa [imuTruthReads, imuKinds] using hx
  · refine List.mem_append_right _ (List.mem_append_left _ ?_)
    rw [allCoded, List.map_append, List.map_append]
    refine List.mem_append_left _ (List.mem_append_right _ (hin hid ?_))
    simpa [camTruthReads, camKinds] using hx
  · rw [gpsTruthReads] at hx
    rcases List.mem_append.1 hx with hx | hx
    · refine List.mem_append_right _ (List.mem_append_left _ ?_)
      rw [allCoded, List.map_append, List.map_append]
      refine List.mem_append_right _ (hin hid ?_)
      simpa [gpsKinds] using hx
    · refine List.mem_append_right _ (List.mem_append_right _ ?_)
      rw [refNames, if_neg]
      · exact hx
      · intro h0
        rw [h0] at hid
        simp at hid

/-- Files of sensors with ids from ten are not looked at. -/
theorem C80_id_violated (dirs : List Dir) (pre : String) (id : Nat) (h : 10 ≤ id) : readFrames dirs pre id = [] := by
  rw [readFrames, List.flatMap_eq_nil_iff]
  intro d _
  rw [if_neg (by omega), if_neg (by omega)]
  rfl

/-! ### Concrete cases -/

/-- Two IMUs, a camera and a receiver: the ids are 1, 2, 3 and 4, and the columns of the receiver are found. -/
example (i : TruthImu ℚ) (c : V3 ℚ × Quat ℚ) (g : V3 ℚ) (b : TruthBody ℚ) :
    Finds (names (truthColumns [i, i] [c] [g] 0 b 0 0)) ["gps_pos_4_0", "gps_pos_4_1", "gps_pos_4_2", "ref_lat", "ref_lon", "ref_alt",
      "ref_heading"] := by
  have h := (C80_truth [i, i] [c] [g] 0 b 0 0).2.2.2 4 (by simp [numbered])
  have e : gpsTruthReads 4 = ["gps_pos_4_0", "gps_pos_4_1", "gps_pos_4_2", "ref_lat", "ref_lon", "ref_alt", "ref_heading"] := by
    decide +kernel
  rwa [e] at h

/-- A table that `C80_triangulation` speaks about. -/
example : ∃ c, (Frame.mk [("time", [0, 1]), ("feature", [3, 3]), ("x", [1, 1]), ("y", [0, 0]), ("z", [2, 2])]).col "feature" = .ok c :=
  (C80_triangulation (K := ℚ) 0 3 0).2 _ rfl "feature" (by decide)

end EkfCal.Eval
