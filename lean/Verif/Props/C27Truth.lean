import Verif.Props.C27
import Mathlib.Algebra.Field.Rat
import Mathlib.Algebra.Order.Ring.Rat

/-!
# C27 — the truth file
-/

set_option linter.unusedSectionVars false

namespace EkfCal
open Ekf
variable {K : Type} [Field K] [LinearOrder K]

/-! ## Loops -/

theorem find?_numbered {α : Type} (pre : UMap α) (n : Nat) (s : α) (l : UMap α) (hp : ∀ x ∈ pre, x.1 ≤ n) :
    UMap.find? (pre ++ (n + 1, s) :: l) (n + 1) = some s := by
  induction pre with
  | nil => simp [UMap.find?]
  | cons y ys ih =>
    obtain ⟨k, v⟩ := y
    have : k ≠ n + 1 := by have := hp (k, v) (by simp); dsimp only at this; omega
    rw [List.cons_append, UMap.find?, if_neg this]
    exact ih fun x hx => hp x (by simp [hx])

theorem numbered_length {α : Type} (n : Nat) (l : List α) : (numbered n l).length = l.length := by
  induction l generalizing n with
  | nil => rfl
  | cons s l ih => simp [numbered, ih]

theorem rowLoop_numbered {α : Type} (text : α → String) (d : α) (l : List α) (pre : UMap α) (fuel n : Nat) (hf : l.length ≤ fuel)
    (hp : ∀ x ∈ pre, x.1 ≤ n) :
    rowLoop text d fuel pre.length n (pre ++ numbered n l) =
      some (String.join (l.map text), n + l.length, pre ++ numbered n l) := by
  induction l generalizing pre fuel n with
  | nil => cases fuel <;> simp [rowLoop, numbered]
  | cons s l ih =>
    cases fuel with
    | zero => simp at hf
    | succ fuel =>
      have hlt : pre.length < (pre ++ numbered n (s :: l)).length := by simp [numbered]
      have hfd := find?_numbered pre n s (numbered (n + 1) l) hp
      have hs : pre ++ numbered n (s :: l) = (pre ++ [(n + 1, s)]) ++ numbered (n + 1) l := by simp [numbered]
      rw [rowLoop, if_pos hlt]
      have ht : (pre ++ numbered n (s :: l)).touch (n + 1) d = pre ++ numbered n (s :: l) := by
        simp only [UMap.touch, numbered, hfd]
      have hg : UMap.getD (pre ++ numbered n (s :: l)) (n + 1) d = s := by
        simp only [UMap.getD, numbered, hfd, Option.getD_some]
      rw [ht, hg]
      have hlen : pre.length + 1 = (pre ++ [(n + 1, s)]).length := by simp
      rw [hs, hlen, ih (pre ++ [(n + 1, s)]) fuel (n + 1) (by simpa using hf) (by
        intro x hx
        rcases List.mem_append.1 hx with h | h
        · exact (hp x h).trans (Nat.le_succ n)
        · rw [List.mem_singleton.1 h])]
      simp only [Option.map_some, List.map_cons, join_cons, List.length_cons]
      congr 3
      omega

theorem rowLoop_start {α : Type} (text : α → String) (d : α) (l : List α) (fuel n : Nat) (hf : l.length ≤ fuel) :
    rowLoop text d fuel 0 n (numbered n l) = some (String.join (l.map text), n + l.length, numbered n l) :=
  rowLoop_numbered text d l [] fuel n hf fun _ h => absurd h List.not_mem_nil

theorem cells_sensors {α : Type} (P : Printer K) (one : Nat → α → Columns K) (text : α → String)
    (h : ∀ n s, cells P (one n s) = text s) (start : Nat) (l : List α) :
    cells P (sensorColumns one start l) = String.join (l.map text) := by
  induction l generalizing start with
  | nil => rfl
  | cons s l ih => rw [sensorColumns, cells_append, h, ih, List.map_cons, join_cons]

theorem heads_sensors {α : Type} (one : Nat → α → Columns K) (text : Nat → String) (h : ∀ n s, heads (one n s) = text n)
    (start : Nat) (l : List α) : heads (sensorColumns one start l) = headerLoop text start l.length := by
  induction l generalizing start with
  | nil => rfl
  | cons s l ih =>
    rw [sensorColumns, heads_append, h, ih, headerLoop, headerLoop, List.length_cons, List.range_succ_eq_map, List.map_cons,
      join_cons, List.map_map]
    congr 3
    funext i
    show text (start + 1 + i + 1) = text (start + (i + 1) + 1)
    congr 1; omega

theorem named_sensors {α : Type} (one : Nat → α → Columns K) (h : ∀ n s, (one n s).Named) (start : Nat) (l : List α) :
    (sensorColumns one start l).Named := by
  induction l generalizing start with
  | nil => exact named_nil
  | cons s l ih => exact named_append (h _ _) (ih _)

/-! ## The file -/

theorem comma_numbered {name : String} (h : ',' ∉ name.toList) (n : Nat) : ',' ∉ (name ++ toString n).toList :=
  comma_append h (comma_nat n)

theorem truth_named (imus : List (TruthImu K)) (cams : List (V3 K × Quat K)) (gpss : List (V3 K)) (t : K) (b : TruthBody K) (ref : V3 K)
    (h : K) : (truthColumns imus cams gpss t b ref h).Named := by
  rw [truthColumns]
  refine named_cons (by decide +kernel) (named_append (named_append (named_append (named_append ?_ ?_) ?_) ?_) ?_)
  · named_tac
    all_goals decide +kernel
  · refine named_sensors _ (fun n s => ?_) _ _
    refine named_append (named_append (named_append (named_group3 ?_ _ _) (named_group4 ?_ _)) (named_group3 ?_ _ _)) (named_group3 ?_ _ _)
    all_goals exact comma_numbered (by decide +kernel) n
  · refine named_sensors _ (fun n s => ?_) _ _
    refine named_append (named_group3 ?_ _ _) (named_group4 ?_ _)
    all_goals exact comma_numbered (by decide +kernel) n
  · exact named_sensors _ (fun n s => named_group3 (comma_numbered (by decide +kernel) n) _ _) _ _
  · named_tac
    all_goals decide +kernel

theorem truth_heading (imus : List (TruthImu K)) (cams : List (V3 K × Quat K)) (gpss : List (V3 K)) (t : K) (b : TruthBody K) (ref : V3 K)
    (h : K) :
    truthHeader (⟨numbered 0 imus, numbered imus.length cams, numbered (imus.length + cams.length) gpss⟩ : TruthSensors K) =
      heading (truthColumns imus cams gpss t b ref h) := by
  have h1 : ",ref_lat,ref_lon,ref_alt,ref_heading" =
      "," ++ ("ref_lat" ++ ("," ++ ("ref_lon" ++ ("," ++ ("ref_alt" ++ ("," ++ "ref_heading")))))) := by decide +kernel
  have he : (numbered (imus.length + cams.length) gpss).isEmpty = gpss.isEmpty := by cases gpss <;> rfl
  have hl : (if gpss.isEmpty then "" else ",ref_lat,ref_lon,ref_alt,ref_heading") = heads (if gpss.isEmpty then ([] : Columns K) else
      [("ref_lat", .num (ref 0)), ("ref_lon", .num (ref 1)), ("ref_alt", .num (ref 2)), ("ref_heading", .num h)]) := by
    cases gpss
    · rfl
    · refine h1.trans ?_
      rw [if_neg (by simp)]
      simp only [heads_cons, heads_nil, String.append_assoc, String.append_empty, -String.reduceAppend]
  rw [truthColumns, heading_cons]
  simp only [truthHeader, numbered_length, he, hl, heads_append]
  rw [heads_sensors truthImuColumns truthImuHeader fun n s => by
      simp only [truthImuHeader, truthImuColumns, heads_append, ← enumerateHeader_three, ← enumerateHeader_four],
    heads_sensors truthCamColumns truthCamHeader fun n s => by
      simp only [truthCamHeader, truthCamColumns, heads_append, ← enumerateHeader_three, ← enumerateHeader_four],
    heads_sensors truthGpsColumns truthGpsHeader fun n s => by
      simp only [truthGpsHeader, truthGpsColumns, ← enumerateHeader_three]]
  simp only [← enumerateHeader_three, ← enumerateHeader_four, String.append_assoc, -String.reduceAppend]

/-- `body_truth.csv`, with the sensors numbered in the order of construction (IMUs, cameras, GPS receivers): every row is
written, has the fields of the header in its order, and the calibrations are left as they were. -/
theorem C27_truth_partial (P : Printer K) (hP : P.Law) (imus : List (TruthImu K)) (cams : List (V3 K × Quat K)) (gpss : List (V3 K))
    (fuel : Nat) (hf : imus.length + cams.length + gpss.length ≤ fuel) (t : K) (b : TruthBody K) (ref : V3 K) (h : K)
    (s : TruthSensors K) (hs : s = ⟨numbered 0 imus, numbered imus.length cams, numbered (imus.length + cams.length) gpss⟩) :
    ∃ row, truthRow P fuel s t b ref h = some (row, s) ∧ fieldCount row = fieldCount (truthHeader s) ∧
      (truthColumns imus cams gpss t b ref h).Writes P (truthHeader s) row := by
  subst hs
  have hc : (truthColumns imus cams gpss t b ref h).Writes P
      (truthHeader ⟨numbered 0 imus, numbered imus.length cams, numbered (imus.length + cams.length) gpss⟩)
      (line P (truthColumns imus cams gpss t b ref h)) := ⟨truth_heading .., rfl⟩
  have hn := hc.count hP (by rw [truthColumns]; exact List.cons_ne_nil _ _) (truth_named _ _ _ _ _ _ _)
  refine ⟨_, ?_, by rw [hn.1, hn.2], hc⟩
  have he : (numbered (imus.length + cams.length) gpss).isEmpty = gpss.isEmpty := by cases gpss <;> rfl
  have h0 : rowLoop (truthImuText P) ⟨0, Quat.one, 0, 0⟩ fuel 0 0 (numbered 0 imus) = _ := rowLoop_start _ _ _ _ _ (by omega)
  have h1 : rowLoop (truthCamText P) (0, Quat.one) fuel 0 imus.length (numbered imus.length cams) = _ :=
    rowLoop_start _ _ _ _ _ (by omega)
  have h2 : rowLoop (v3Text P) 0 fuel 0 (imus.length + cams.length) (numbered (imus.length + cams.length) gpss) = _ :=
    rowLoop_start _ _ _ _ _ (by omega)
  have hl : (if gpss.isEmpty then "" else v3Text P ref ++ "," ++ P.num 6 h) = cells P (if gpss.isEmpty then ([] : Columns K) else
      [("ref_lat", .num (ref 0)), ("ref_lon", .num (ref 1)), ("ref_alt", .num (ref 2)), ("ref_heading", .num h)]) := by
    cases gpss
    · rfl
    · show v3Text P ref ++ "," ++ P.num 6 h = cells P _
      rw [v3Text_eq P "v", group3]
      cells_tac
  rw [truthRow]
  simp only [h0, h1, h2, Option.bind_eq_bind, Option.bind_some, Nat.zero_add, he, hl]
  rw [truthColumns, line_cons]
  simp only [cells_append]
  rw [cells_sensors P truthImuColumns (truthImuText P) fun n s => by
      simp only [truthImuText, truthImuColumns, cells_append, ← v3Text_eq, ← quatText_eq],
    cells_sensors P truthCamColumns (truthCamText P) fun n s => by
      simp only [truthCamText, truthCamColumns, cells_append, ← v3Text_eq, ← quatText_eq],
    cells_sensors P truthGpsColumns (v3Text P) fun n s => by simp only [truthGpsColumns, ← v3Text_eq]]
  simp only [← v3Text_eq, ← quatText_eq, Cell.show, String.append_assoc]

theorem truth_fields (P : Printer K) (hP : P.Law) (imus : List (TruthImu K)) (cams : List (V3 K × Quat K)) (gpss : List (V3 K))
    (t : K) (b : TruthBody K) (ref : V3 K) (h : K) :
    fieldCount (truthHeader (⟨numbered 0 imus, numbered imus.length cams, numbered (imus.length + cams.length) gpss⟩ : TruthSensors K)) =
      (truthColumns imus cams gpss t b ref h).length := by
  have hc : (truthColumns imus cams gpss t b ref h).Writes P
      (truthHeader ⟨numbered 0 imus, numbered imus.length cams, numbered (imus.length + cams.length) gpss⟩)
      (line P (truthColumns imus cams gpss t b ref h)) := ⟨truth_heading .., rfl⟩
  exact (hc.count hP (by rw [truthColumns]; exact List.cons_ne_nil _ _) (truth_named _ _ _ _ _ _ _)).1

/-- Two IMUs, a camera and a GPS receiver. -/
example : ∃ row, truthRow fractionPrinter 4 ⟨[(1, ⟨0, Quat.one, 0, 0⟩), (2, ⟨0, Quat.one, 0, 0⟩)], [(3, 0, Quat.one)], [(4, 0)]⟩ 1
      ⟨0, 0, 0, Quat.one, 0, 0⟩ 0 2 =
    some (row, ⟨[(1, ⟨0, Quat.one, 0, 0⟩), (2, ⟨0, Quat.one, 0, 0⟩)], [(3, 0, Quat.one)], [(4, 0)]⟩) ∧ fieldCount row = 60 := by
  obtain ⟨row, h1, h2, _⟩ := C27_truth_partial fractionPrinter fractionPrinter_law [⟨0, Quat.one, 0, 0⟩, ⟨0, Quat.one, 0, 0⟩] [(0, Quat.one)]
    [0] 4 (Nat.le_refl 4) 1 ⟨0, 0, 0, Quat.one, 0, 0⟩ 0 2 _ rfl
  refine ⟨row, h1, h2.trans ?_⟩
  rw [truth_fields fractionPrinter fractionPrinter_law _ _ _ 1 ⟨0, 0, 0, Quat.one, 0, 0⟩ 0 2]
  rfl

/-! ## Violations -/

/-- A truth engine that knows IMU 2 only (another sensor was constructed before it): the row shows two IMUs, the header one. -/
theorem C27_truth_ids_violated (P : Printer K) (hP : P.Law) (a : TruthImu K) (t : K) (b : TruthBody K) (ref : V3 K) (h : K) :
    ∃ row s', truthRow P 2 ⟨[(2, a)], [], []⟩ t b ref h = some (row, s') ∧
      fieldCount row = fieldCount (truthHeader (⟨[(2, a)], [], []⟩ : TruthSensors K)) + 13 := by
  obtain ⟨row, h1, h2, _⟩ := C27_truth_partial P hP [⟨0, Quat.one, 0, 0⟩, a] [] [] 2 (by simp) t b ref h _ rfl
  refine ⟨row, ⟨[(1, ⟨0, Quat.one, 0, 0⟩), (2, a)], [], []⟩, h1, ?_⟩
  rw [h2, truth_fields P hP _ _ _ t b ref h]
  have e1 := truth_fields P hP [a] [] [] t b ref h
  have e2 : fieldCount (truthHeader (⟨[(2, a)], [], []⟩ : TruthSensors K)) = fieldCount (truthHeader (⟨numbered 0 [a],
    numbered [a].length [], numbered ([a].length + ([] : List (V3 K × Quat K)).length) []⟩ : TruthSensors K)) := rfl
  rw [e2, e1]
  simp [truthColumns, sensorColumns, truthImuColumns, group3, group4]

theorem insert_last {α : Type} (m : UMap α) (k : Nat) (v : α) (h : ∀ x ∈ m, x.1 < k) : m.insert k v = m ++ [(k, v)] := by
  induction m with
  | nil => rfl
  | cons y ys ih =>
    obtain ⟨k', v'⟩ := y
    have h1 : k' < k := h (k', v') (by simp)
    have h2 : ¬ k = k' := by omega
    have h3 : ¬ k < k' := by omega
    simp only [UMap.insert, List.cons_append]
    rw [← ih fun x hx => h x (by simp [hx])]
    simp [h2, h3]

theorem rowLoop_endless {α : Type} (text : α → String) (d : α) (fuel j n : Nat) (m : UMap α) (hj : j < m.length)
    (h : ∀ x ∈ m, x.1 ≤ n) : rowLoop text d fuel j n m = none := by
  induction fuel generalizing j n m with
  | zero => rw [rowLoop, if_pos hj]
  | succ fuel ih =>
    have hn : m.find? (n + 1) = none := UMap.find?_eq_none_iff.2 fun hk => by
      obtain ⟨x, hx, he⟩ := List.mem_map.1 hk
      have := h x hx; omega
    have ht : m.touch (n + 1) d = m ++ [(n + 1, d)] := by
      rw [UMap.touch, hn]
      exact insert_last m (n + 1) d fun x hx => Nat.lt_succ_of_le (h x hx)
    rw [rowLoop, if_pos hj, ht, ih (j + 1) (n + 1) _ (by simpa using hj)]
    · rfl
    · intro x hx
      rcases List.mem_append.1 hx with hx | hx
      · exact (h x hx).trans (Nat.le_succ n)
      · rw [List.mem_singleton.1 hx]

/-- A camera constructed before an IMU (ids 1 and 2): the loop over the cameras asks for cameras 3, 4, …, which inserts a
camera at every turn, and the row is not finished as long as the 32-bit counter does not wrap. -/
theorem C27_truth_endless_violated (P : Printer K) (a : TruthImu K) (c : V3 K × Quat K) (g : UMap (V3 K)) (fuel : Nat)
    (_ : fuel < 2 ^ 32 - 2) (t : K) (b : TruthBody K) (ref : V3 K) (h : K) :
    truthRow P fuel ⟨[(2, a)], [(1, c)], g⟩ t b ref h = none := by
  have hi : ∀ r, rowLoop (truthImuText P) ⟨0, Quat.one, 0, 0⟩ fuel 0 0 [(2, a)] = some r → r.2.1 = 2 := by
    intro r hr
    match fuel, hr with
    | 0, hr => simp [rowLoop] at hr
    | 1, hr => simp [rowLoop, UMap.touch, UMap.find?, UMap.insert] at hr
    | n + 2, hr =>
      have h3 : ∀ n (m : UMap (TruthImu K)), m.length = 2 →
          rowLoop (truthImuText P) ⟨0, Quat.one, 0, 0⟩ n 2 2 m = some ("", 2, m) := by
        intro n m hm
        cases n <;> simp [rowLoop, hm]
      simp [rowLoop, UMap.touch, UMap.find?, UMap.insert, h3] at hr
      rw [← hr]
  rw [truthRow]
  cases hr : rowLoop (truthImuText P) ⟨0, Quat.one, 0, 0⟩ fuel 0 0 [(2, a)] with
  | none => rfl
  | some r =>
    obtain ⟨x, n, m⟩ := r
    obtain rfl : n = 2 := hi _ hr
    simp only [Option.bind_eq_bind, Option.bind_some]
    rw [rowLoop_endless _ _ fuel 0 2 [(1, c)] (by simp) (by simp)]
    rfl

end EkfCal
