import Verif.Lemmas.Csv
import Verif.Lemmas.Placed
import Verif.Lemmas.Columns
import Verif.Props.C03

/-!
# C27 — every CSV row has as many fields as its header
-/

set_option linter.unusedSectionVars false

namespace EkfCal
open Ekf
variable {K : Type} [Field K] [LinearOrder K]

theorem Ekf.Reachable.placed {N : Prim K} {e : Ekf K} (h : e.Reachable N) : e.state.Placed := by
  obtain ⟨p, ops, hw, hr⟩ := h
  exact placed_run (by exact ⟨fun x hx => absurd hx List.not_mem_nil⟩) hw hr

/-! ## Pieces -/

theorem loggedVariance_ok {e : Ekf K} (hi : Inv e) {i n : Nat} (h : i + n ≤ e.stateSize) :
    e.loggedVariance i n = .ok ⟨n, fun k => e.shownVariance (i + k)⟩ := by
  have hb : e.cov.block i i n n = .ok ⟨n, n, fun a b => e.cov.get (i + a) (i + b)⟩ := by
    rw [Mat.block, if_pos ⟨by rw [hi.covRows]; exact h, by rw [hi.covCols]; exact h⟩]
  simp only [Ekf.loggedVariance, Mat.blockDiag, hb, ok_bind, pure_res]
  congr 1
  cases hu : e.useRoot
  · simp [shownVariance, hu]
  · simp [shownVariance, hu, Vec.square]

theorem square_ok {e : Ekf K} (hi : Inv e) {i n : Nat} (h : i + n ≤ e.stateSize) :
    e.cov.blockDiag i n = .ok ⟨n, fun k => e.cov.get (i + k) (i + k)⟩ := by
  have hb : e.cov.block i i n n = .ok ⟨n, n, fun a b => e.cov.get (i + a) (i + b)⟩ := by
    rw [Mat.block, if_pos ⟨by rw [hi.covRows]; exact h, by rw [hi.covCols]; exact h⟩]
  simp only [Mat.blockDiag, hb, ok_bind, pure_res]

/-- The header of columns. -/
def heading (cols : Columns K) : String := csv (cols.map Prod.fst)
/-- The row of columns. -/
def line (P : Printer K) (cols : Columns K) : String := csv (cols.map fun c => c.2.show P)
theorem heading_cons (c : String × Cell K) (cols : Columns K) : heading (c :: cols) = c.1 ++ heads cols := rfl
theorem line_cons (P : Printer K) (c : String × Cell K) (cols : Columns K) : line P (c :: cols) = c.2.show P ++ cells P cols := rfl

/-- What each theorem of this file says about a log. -/
theorem written {P : Printer K} (hP : P.Law) {cols : Columns K} {header : String} {r : Res String} (hc : cols ≠ [])
    (hn : cols.Named) (hh : header = heading cols) (hr : r = .ok (line P cols)) :
    ∃ row, r = .ok row ∧ fieldCount row = fieldCount header ∧ cols.Writes P header row := by
  have hw : cols.Writes P header (line P cols) := ⟨hh, rfl⟩
  have := hw.count hP hc hn
  exact ⟨_, hr, by rw [this.1, this.2], hw⟩

macro "named_tac" : tactic => `(tactic| ((repeat' with_reducible first
  | apply named_append | apply named_cons | apply named_ite | exact named_nil | apply named_group3 | apply named_group4
  | apply named_group)))
macro "heads_tac" : tactic => `(tactic| (simp only [heads_append, heads_cons, heads_nil, heads_ite, ← enumerateHeader_three,
  ← enumerateHeader_four, ← enumerateHeader_eq, String.append_assoc, String.append_empty, -String.reduceAppend] <;> first | done | rfl))
macro "cells_tac" : tactic => `(tactic| (simp only [cells_append, cells_cons, cells_nil, cells_ite, v3Text_eq, ← quatText_eq,
  Cell.show, String.append_assoc, String.append_empty, -String.reduceAppend] <;> first | done | rfl))

theorem duration_header : enumerateHeader "duration" 1 = "," ++ "duration_0" := by decide

/-- A vector of variances is shown as a group of columns. -/
theorem var_text (P : Printer K) (name : String) (n : Nat) (f : Nat → K) :
    vecText P ⟨n, f⟩ = cells P (group name n f) := vecText_of P name ⟨n, f⟩ n f 6 rfl fun _ _ => rfl

theorem pair_text (P : Printer K) (name : String) (a b : V3 K) :
    vecText P (Vec.of6 a b) = cells P (group name 6 fun i => if h : i < 3 then a ⟨i, h⟩ else if h : i < 6 then b ⟨i - 3, by omega⟩ else 0) := by
  refine vecText_of P name _ 6 _ 6 rfl fun i hi => ?_
  simp only [Vec.of6]
  split_ifs <;> first | rfl | omega

/-! ## The filter -/

/-- `body_state.csv`: the row of any reachable filter is defined, has the fields of the header, in the order of the header. -/
theorem C27_body (N : Prim K) (P : Printer K) (hP : P.Law) (e : Ekf K) (hr : e.Reachable N) (d : Int) :
    ∃ row, bodyRow P e d = .ok row ∧ fieldCount row = fieldCount bodyHeader ∧ (bodyColumns e e.shownVariance d).Writes P bodyHeader row := by
  have hi := hr.inv
  have h18 : 0 + bodySize ≤ e.stateSize := by
    obtain ⟨_, _, _, _, h1, h2, h3, h4, h5, _⟩ := State.tiles_kinds hi.tiles
    have := h1.le'; have := h2.le'; have := h3.le'; have := h4.le'; have := h5.le'
    simp only [bodySize]; omega
  refine written hP (cols := bodyColumns e e.shownVariance d) (r := bodyRow P e d) ?_ ?_ ?_ ?_
  · simp only [bodyColumns]; exact List.cons_ne_nil _ _
  · rw [bodyColumns]
    named_tac
    all_goals decide +kernel
  · rw [bodyColumns, heading_cons]
    have h1 : ",state_size" = "," ++ "state_size" := by decide
    simp only [bodyHeader, duration_header, h1, -String.reduceAppend]
    heads_tac
  · rw [bodyColumns, line_cons]
    simp only [bodyRow, loggedVariance_ok hi h18, ok_bind, pure_res, Nat.zero_add, var_text P "body_cov"]
    cells_tac

/-- `aug_state.csv` -/
theorem C27_clone (P : Printer K) (hP : P.Law) (e : Ekf K) :
    fieldCount (augRow P e) = fieldCount augHeader ∧ (augColumns e).Writes P augHeader (augRow P e) := by
  obtain ⟨row, h, h1⟩ := written hP (cols := augColumns e) (header := augHeader) (r := .ok (augRow P e))
    (by rw [augColumns]; exact List.cons_ne_nil _ _)
    (by
      rw [augColumns]
      named_tac
      all_goals decide +kernel)
    (by
      rw [augColumns, heading_cons, augHeader]
      heads_tac)
    (by
      rw [augColumns, line_cons, augRow]
      cells_tac)
  cases h
  exact h1

/-! ## IMU -/

theorem imu_header (u : ImuUpdater) (s : ImuState K) (he : s.isExtrinsic = u.isExtrinsic) (hn : s.isIntrinsic = u.isIntrinsic)
    (var : Nat → K) (t : K) (b : Nat) (score : K) (acc omg resAcc resOmg : V3 K) (d : Int) :
    u.header = heading (imuColumns s var t b score acc omg resAcc resOmg d) := by
  have h1 : imuHeaderStart = "time" ++ ("," ++ ("stationary" ++ ("," ++ "score"))) := by decide +kernel
  rw [imuColumns, heading_cons, he, hn]
  simp only [ImuUpdater.header, duration_header, h1, imuExtSize, imuIntSize, -String.reduceAppend]
  heads_tac

theorem imu_named (s : ImuState K) (var : Nat → K) (t : K) (b : Nat) (score : K) (acc omg resAcc resOmg : V3 K) (d : Int) :
    (imuColumns s var t b score acc omg resAcc resOmg d).Named := by
  rw [imuColumns]
  named_tac
  all_goals decide +kernel

theorem vecText_append (P : Printer K) (f : Nat → K) (a b : Nat) :
    vecText P ⟨a + b, f⟩ = vecText P ⟨a, f⟩ ++ vecText P ⟨b, fun i => f (a + i)⟩ := by
  simp only [vecText, List.range_add, List.map_append, join_append, List.map_map]
  rfl

/-- `imu_<id>.csv`, rows of ordinary updates: the IMU is registered with the calibration of its updater. -/
theorem C27_imu (N : Prim K) (P : Printer K) (hP : P.Law) (e : Ekf K) (hr : e.Reachable N) (u : ImuUpdater) (s : ImuState K)
    (hs : e.state.imus.find? u.id = some s) (he : s.isExtrinsic = u.isExtrinsic) (hn : s.isIntrinsic = u.isIntrinsic)
    (t : K) (acc omg resAcc resOmg : V3 K) (d : Int) :
    ∃ row, u.row P e t acc omg resAcc resOmg d = .ok row ∧ fieldCount row = fieldCount u.header ∧
      (imuColumns s e.shownVariance t 0 e.motionDetectionChiSquared acc omg resAcc resOmg d).Writes P u.header row := by
  have hi := hr.inv
  have hp := hr.placed.imus _ (UMap.mem_of_find? hs)
  have hb := imu_columns hi.tiles hs
  have ho : u.imuOf e = s := by rw [ImuUpdater.imuOf, UMap.getD, hs]; rfl
  refine written hP (by rw [imuColumns]; exact List.cons_ne_nil _ _) (imu_named _ _ _ _ _ _ _ _ _ _) (imu_header u s he hn ..) ?_
  rw [imuColumns, line_cons]
  have h0 : ",0," = "," ++ ("0" ++ ",") := by decide +kernel
  simp only [ImuUpdater.row, ImuUpdater.poseText, ho, h0, ← he, ← hn, pair_text P "residual"]
  have hz := hp.size
  have hx := hp.ext
  have hy := hp.int
  rw [ImuState.dim] at hz
  cases h1 : s.isExtrinsic <;> cases h2 : s.isIntrinsic <;>
    simp only [h1, h2, Bool.or_self, Bool.or_true, Bool.or_false, Bool.false_eq_true, if_false, if_true, ok_bind, pure_res, forall_const, Nat.add_zero, Nat.zero_add, false_imp_iff] at hz hx hy hb ⊢
  · cells_tac
  · rw [loggedVariance_ok hi (by omega), ok_bind, hz, hy, var_text P "imu_int_cov"]
    cells_tac
  · rw [loggedVariance_ok hi (by omega), ok_bind, hz, hx, var_text P "imu_ext_cov"]
    cells_tac
  · rw [loggedVariance_ok hi (by omega), ok_bind, hz, hx, hy, vecText_append P _ 6 6, var_text P "imu_ext_cov", var_text P "imu_int_cov"]
    simp only [Nat.add_assoc]
    cells_tac

/-- `imu_<id>.csv`, rows of detected stand-stills: the residual has three or six entries, the row always shows six. -/
theorem C27_stationary (N : Prim K) (P : Printer K) (hP : P.Law) (e : Ekf K) (hr : e.Reachable N) (u : ImuUpdater) (s : ImuState K)
    (hs : e.state.imus.find? u.id = some s) (he : s.isExtrinsic = u.isExtrinsic) (hn : s.isIntrinsic = u.isIntrinsic)
    (t score : K) (acc omg : V3 K) (e0 : Ekf K) (d : Int) :
    ∃ row resAcc resOmg, u.zeroRow P e t score acc omg (u.zeroAccResidual e0 acc omg) d = .ok row ∧
      fieldCount row = fieldCount u.header ∧
      (imuColumns s (fun i => e.cov.get i i * e.cov.get i i) t 1 score acc omg resAcc resOmg d).Writes P u.header row := by
  have hi := hr.inv
  have hb := imu_columns hi.tiles hs
  have ho : u.imuOf e = s := by rw [ImuUpdater.imuOf, UMap.getD, hs]; rfl
  refine (?_ : ∃ resAcc resOmg row, _) |> fun ⟨a, b, r, h⟩ => ⟨r, a, b, h⟩
  let ra : V3 K := -(acc - (u.imuOf e0).accBias - u.gravityInImu e0)
  let ro : V3 K := if u.isIntrinsic then -(omg - (u.imuOf e0).omgBias) else 0
  have hres : vecText P (u.zeroAccResidual e0 acc omg) ++ (if u.isIntrinsic then "" else v3Text P (0 : V3 K)) =
      vecText P (Vec.of6 ra ro) := by
    simp only [ImuUpdater.zeroAccResidual, ra, ro]
    cases u.isIntrinsic
    · show vecText P (Vec.of3 _) ++ vecText P (Vec.of3 (0 : V3 K)) = vecText P (Vec.of6 _ 0)
      have := vecText_append P (Vec.of6 (-(acc - (u.imuOf e0).accBias - u.gravityInImu e0)) (0 : V3 K)).get 3 3
      exact this.symm
    · show vecText P (Vec.of6 _ _) ++ "" = vecText P (Vec.of6 _ _)
      exact String.append_empty
  refine ⟨ra, ro, written hP (by rw [imuColumns]; exact List.cons_ne_nil _ _) (imu_named _ _ _ _ _ _ _ _ _ _) (imu_header u s he hn ..) ?_⟩
  rw [imuColumns, line_cons]
  have h0 : ",1," = "," ++ ("1" ++ ",") := by decide +kernel
  have hrow : u.zeroRow P e t score acc omg (u.zeroAccResidual e0 acc omg) d = (do
      let ext ← if s.isExtrinsic then pure (vecText P (← e.cov.blockDiag s.indexExtrinsic 6).square) else pure ""
      let int ← if s.isIntrinsic then pure (vecText P (← e.cov.blockDiag s.indexIntrinsic 6).square) else pure ""
      pure (P.num 6 t ++ ",1," ++ P.num 6 score ++ u.poseText P e ++ ext ++ int ++ v3Text P acc ++ v3Text P omg ++
        vecText P (Vec.of6 ra ro) ++ "," ++ toString d)) := by
    simp only [ImuUpdater.zeroRow, ho, he, hn, ← hres, String.append_assoc]
  simp only [hrow, ImuUpdater.poseText, ho, h0, pair_text P "residual"]
  cases h1 : s.isExtrinsic <;> cases h2 : s.isIntrinsic <;>
    simp only [h1, h2, Bool.false_eq_true, if_false, if_true, ok_bind, pure_res, forall_const, false_imp_iff] at hb ⊢
  · cells_tac
  · rw [square_ok hi (by omega)]
    simp only [ok_bind, Vec.square, var_text P "imu_int_cov"]
    cells_tac
  · rw [square_ok hi (by omega)]
    simp only [ok_bind, Vec.square, var_text P "imu_ext_cov"]
    cells_tac
  · rw [square_ok hi (by omega), square_ok hi (by omega)]
    simp only [ok_bind, Vec.square, var_text P "imu_int_cov"]
    cells_tac

/-! ## GPS -/

/-- `gps_<id>.csv` -/
theorem C27_gps (N : Prim K) (P : Printer K) (hP : P.Law) (e : Ekf K) (hr : e.Reachable N) (u : GpsUpdater K) (s : GpsState K)
    (hs : e.state.gpss.find? u.id = some s) (he : s.isExtrinsic = u.isExtrinsic) (t : K) (lla loc ref : V3 K) (heading' : K)
    (resid : V3 K) (d : Int) :
    ∃ row, u.row P e t lla loc ref heading' resid d = .ok row ∧ fieldCount row = fieldCount u.header ∧
      (gpsColumns s e.shownVariance t lla loc ref heading' e.isLlaInitialized resid d).Writes P u.header row := by
  have hi := hr.inv
  have ho : u.gpsOf e = s := by rw [GpsUpdater.gpsOf, UMap.getD, hs]; rfl
  refine written hP (by rw [gpsColumns]; exact List.cons_ne_nil _ _) ?_ ?_ ?_
  · rw [gpsColumns]
    named_tac
    all_goals decide +kernel
  · have h1 : gpsHeaderStart = "time" ++ ("," ++ ("lat" ++ ("," ++ ("lon" ++
        ("," ++ ("alt" ++ ("," ++ ("x" ++ ("," ++ ("y" ++ ("," ++ ("z" ++ ("," ++ ("ref_lat" ++ ("," ++ ("ref_lon" ++ ("," ++ ("ref_alt" ++
        ("," ++ ("ref_heading" ++ ("," ++ "is_initialized"))))))))))))))))))))) := by decide +kernel
    rw [gpsColumns, heading_cons, he]
    simp only [GpsUpdater.header, duration_header, h1, gpsExtSize, -String.reduceAppend]
    heads_tac
  · rw [gpsColumns, line_cons]
    have h1 : (if e.isLlaInitialized then "1" else "0") = toString (if e.isLlaInitialized then 1 else 0 : Nat) := by
      cases e.isLlaInitialized <;> decide
    have ht : ∀ (v : V3 K) (p : Nat), v3Text P v p = "," ++ (P.num p (v 0) ++ ("," ++ (P.num p (v 1) ++ ("," ++ P.num p (v 2))))) := by
      intro v p
      rw [v3Text_eq P "v", group3]
      cells_tac
    simp only [GpsUpdater.row, ho, ← he, h1]
    cases h2 : s.isExtrinsic <;> simp only [Bool.false_eq_true, if_false, if_true, ok_bind, pure_res]
    · simp only [ht lla, ht loc, ht ref]
      cells_tac
    · have hb := gps_columns hi.tiles hs h2
      rw [loggedVariance_ok hi (by rw [gpsExtSize]; omega)]
      simp only [ok_bind, gpsExtSize, var_text P "gps_cov", ht lla, ht loc, ht ref]
      cells_tac

/-! ## Fiducial boards -/

/-- `fiducial_<camera>.csv` -/
theorem C27_fiducial (N : Prim K) (P : Printer K) (hP : P.Law) (e : Ekf K) (hr : e.Reachable N) (u : FidUpdater K) (c : CamState K)
    (f : FidState K) (hc : e.state.cams.find? u.cameraId = some c) (hf : e.state.fids.find? u.id = some f)
    (he : c.isExtrinsic = u.isCamExtrinsic) (hfe : f.isExtrinsic = u.isFidExtrinsic) (t : K) (pos : V3 K) (ang : Quat K)
    (resPos resAng : V3 K) (d : Int) :
    ∃ row, u.row P e f t pos ang resPos resAng d = .ok row ∧ fieldCount row = fieldCount u.header ∧
      (fidColumns u.id c f e.shownVariance t pos ang resPos resAng d).Writes P u.header row := by
  have hi := hr.inv
  have ho : u.camOf e = c := by rw [FidUpdater.camOf, UMap.getD, hc]; rfl
  have hb := cam_fid_columns hi.tiles hc hf
  refine written hP (by rw [fidColumns]; exact List.cons_ne_nil _ _) ?_ ?_ ?_
  · rw [fidColumns]
    named_tac
    all_goals decide +kernel
  · have h1 : fidHeaderStart = "time" ++ ("," ++ "board") := by decide +kernel
    rw [fidColumns, heading_cons, he, hfe]
    simp only [FidUpdater.header, duration_header, h1, camExtSize, -String.reduceAppend]
    heads_tac
  · rw [fidColumns, line_cons]
    simp only [FidUpdater.row, ho, ← he, ← hfe, pair_text P "residual"]
    cases h1 : c.isExtrinsic <;> cases h2 : f.isExtrinsic <;>
      simp only [h1, h2, Bool.false_eq_true, if_false, if_true, ok_bind, pure_res, forall_const, false_imp_iff, camExtSize, fidExtSize] at hb ⊢
    · cells_tac
    · rw [loggedVariance_ok hi (by omega)]
      simp only [ok_bind, var_text P "fid_cov"]
      cells_tac
    · rw [loggedVariance_ok hi (by omega)]
      simp only [ok_bind, var_text P "cam_cov"]
      cells_tac
    · rw [loggedVariance_ok hi (by omega), loggedVariance_ok hi (by omega)]
      simp only [ok_bind, var_text P "cam_cov"]
      cells_tac

/-! ## Cameras -/

/-- `msckf_<camera>.csv` -/
theorem C27_msckf (N : Prim K) (P : Printer K) (hP : P.Law) (e : Ekf K) (hr : e.Reachable N) (u : MsckfUpdater K) (c : CamState K)
    (hc : e.state.cams.find? u.id = some c) (he : c.isExtrinsic = u.isCamExtrinsic) (t : K) (tracks : Nat) (d : Int) :
    ∃ row, u.row P e t tracks d = .ok row ∧ fieldCount row = fieldCount u.header ∧
      (msckfColumns c e.shownVariance t tracks d).Writes P u.header row := by
  have hi := hr.inv
  have ho : u.camOf e = c := by rw [MsckfUpdater.camOf, UMap.getD, hc]; rfl
  refine written hP (by rw [msckfColumns]; exact List.cons_ne_nil _ _) ?_ ?_ ?_
  · rw [msckfColumns]
    named_tac
    all_goals decide +kernel
  · have h1 : ",FeatureTracks" = "," ++ "FeatureTracks" := by decide +kernel
    rw [msckfColumns, heading_cons, he]
    simp only [MsckfUpdater.header, duration_header, h1, camExtSize, -String.reduceAppend]
    heads_tac
  · rw [msckfColumns, line_cons]
    simp only [MsckfUpdater.row, ho, ← he]
    cases h1 : c.isExtrinsic <;> simp only [Bool.false_eq_true, if_false, if_true, ok_bind, pure_res]
    · cells_tac
    · have hb := cam_columns hi.tiles hc h1
      rw [loggedVariance_ok hi (by rw [camExtSize]; omega)]
      simp only [ok_bind, camExtSize, var_text P "cam_cov"]
      cells_tac

/-- `triangulation_<camera>.csv` -/
theorem C27_triangulation (P : Printer K) (hP : P.Law) (t : K) (feature : Int) (p : V3 K) :
    fieldCount (triangulationRow P t feature p) = fieldCount triangulationHeader ∧
      (triangulationColumns t feature p).Writes P triangulationHeader (triangulationRow P t feature p) := by
  obtain ⟨row, h, h1⟩ := written hP (cols := triangulationColumns t feature p) (header := triangulationHeader)
    (r := .ok (triangulationRow P t feature p))
    (by rw [triangulationColumns]; exact List.cons_ne_nil _ _)
    (by
      rw [triangulationColumns]
      named_tac
      all_goals decide +kernel)
    (by
      rw [triangulationColumns]
      show _ = csv ["time", "feature", "x", "y", "z"]
      decide +kernel)
    (by
      rw [triangulationColumns, line_cons, triangulationRow, v3Text_eq P "v", group3]
      cells_tac)
  cases h
  exact h1

/-! ## Truth -/

/-- `board_truth.csv` and `feature_points.csv`: eight and four fields. -/
theorem C27_boards (P : Printer K) (hP : P.Law) (id : Nat) (pos : V3 K) (ang : Quat K) :
    fieldCount (boardRow P id pos ang) = fieldCount boardHeader ∧ fieldCount boardHeader = 8 := by
  have h8 : fieldCount boardHeader = 8 := by decide +kernel
  refine ⟨?_, h8⟩
  rw [h8]
  obtain ⟨_, h⟩ := Columns.Writes.count hP (cols := ("board", .nat id) :: (group3 "pos" pos ++ group4 "quat" ang))
    (header := _) (row := _) ⟨rfl, rfl⟩ (List.cons_ne_nil _ _) (by
      named_tac
      all_goals decide +kernel)
  have : boardRow P id pos ang = line P (("board", .nat id) :: (group3 "pos" pos ++ group4 "quat" ang)) := by
    rw [line_cons, boardRow, v3Text_eq P "pos"]
    cells_tac
  rw [this]
  exact h

theorem C27_features (P : Printer K) (hP : P.Law) (i : Nat) (p : V3 K) :
    fieldCount (featureRow P i p) = fieldCount featureHeader ∧ fieldCount featureHeader = 4 := by
  have h4 : fieldCount featureHeader = 4 := by decide +kernel
  refine ⟨?_, h4⟩
  rw [h4]
  obtain ⟨_, h⟩ := Columns.Writes.count hP (cols := ("Feature", .nat i) :: group3 "p" p)
    (header := _) (row := _) ⟨rfl, rfl⟩ (List.cons_ne_nil _ _) (by
      named_tac
      all_goals decide +kernel)
  have : featureRow P i p = line P (("Feature", .nat i) :: group3 "p" p) := by
    rw [line_cons, featureRow, group3]
    cells_tac
  rw [this]
  exact h

/-! ## A case that meets the hypotheses -/

/-- Print a fraction. -/
def fractionPrinter : Printer ℚ := ⟨fun _ x => toString x.num ++ "/" ++ toString x.den⟩

theorem fractionPrinter_law : fractionPrinter.Law := fun _ x =>
  comma_append (comma_append (comma_int x.num) (by decide)) (comma_nat x.den)

/-- A filter with an IMU, a GPS receiver, a camera and a board, all calibrated, and their updaters. -/
theorem C27_sample : ∃ e : Ekf ℚ, e.Reachable Samples.prim ∧ e.useRoot = false ∧
    (∃ s, e.state.imus.find? (ImuUpdater.new 3 true true).id = some s ∧ s.isExtrinsic = true ∧ s.isIntrinsic = true) ∧
    (∃ s, e.state.gpss.find? (GpsUpdater.new 7 true : GpsUpdater ℚ).id = some s ∧ s.isExtrinsic = true) ∧
    (∃ c f, e.state.cams.find? 1 = some c ∧ e.state.fids.find? 4 = some f ∧ c.isExtrinsic = true ∧ f.isExtrinsic = true) := by
  obtain ⟨e, he, h⟩ : ∃ e, run Samples.prim (init Samples.prim (Samples.params .all false)) (Samples.ops.take 5) = .ok e ∧
      (e.useRoot = false ∧
      (∃ s, e.state.imus.find? (ImuUpdater.new 3 true true).id = some s ∧ s.isExtrinsic = true ∧ s.isIntrinsic = true) ∧
      (∃ s, e.state.gpss.find? (GpsUpdater.new 7 true : GpsUpdater ℚ).id = some s ∧ s.isExtrinsic = true) ∧
      (∃ c f, e.state.cams.find? 1 = some c ∧ e.state.fids.find? 4 = some f ∧ c.isExtrinsic = true ∧ f.isExtrinsic = true)) :=
    ⟨_, rfl, rfl, ⟨_, rfl, rfl, rfl⟩, ⟨_, rfl, rfl⟩, ⟨_, _, rfl, rfl, rfl, rfl⟩⟩
  refine ⟨e, ⟨_, _, ?_, he⟩, h⟩
  intro op ho
  simp only [Samples.ops, List.take, List.mem_cons, List.not_mem_nil, or_false] at ho
  rcases ho with rfl | rfl | rfl | rfl | rfl <;> first | rfl | trivial

/-- Its IMU log has 41 fields per line: time, flag, score, pose, biases, twelve variances, measurement, residual, duration. -/
example : ∃ (e : Ekf ℚ) (row : String), e.Reachable Samples.prim ∧
    (ImuUpdater.new 3 true true).row fractionPrinter e 1 0 0 0 0 5 = .ok row ∧
    fieldCount row = fieldCount (ImuUpdater.new 3 true true).header ∧ fieldCount (ImuUpdater.new 3 true true).header = 41 := by
  obtain ⟨e, hr, _, ⟨s, h1, h2, h3⟩, _⟩ := C27_sample
  obtain ⟨row, h4, h5, h6⟩ := C27_imu Samples.prim fractionPrinter fractionPrinter_law e hr (ImuUpdater.new 3 true true) s h1 h2 h3 1
    0 0 0 0 5
  refine ⟨e, row, hr, h4, h5, ?_⟩
  rw [(h6.count fractionPrinter_law (by rw [imuColumns]; exact List.cons_ne_nil _ _) (imu_named _ _ _ _ _ _ _ _ _ _)).1, imuColumns, h2, h3]
  simp [group, group3, group4]

end EkfCal
