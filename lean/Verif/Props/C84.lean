import Verif.Spec.Digits
import Verif.Props.C27
import Verif.Props.C63
import Mathlib.Algebra.Order.Archimedean.Basic
import Mathlib.Algebra.Order.Round
import Mathlib.Data.Rat.Floor
import Mathlib.Data.Rat.Encodable
import Mathlib.Tactic.Positivity
import Mathlib.Tactic.NormNum

/-!
# C84: rows of a log can be told apart by their times
-/

set_option linter.unusedSectionVars false

namespace EkfCal
open Ekf
variable {K : Type} [Field K] [LinearOrder K] [IsStrictOrderedRing K]

theorem ten_zpow_pos (e : ℤ) : (0 : K) < 10 ^ e := by positivity

theorem ten_zpow_lt {a b : ℤ} (h : (10 : K) ^ a < 10 ^ b) : a < b := (zpow_lt_zpow_iff_right₀ (by norm_num : (1 : K) < 10)).1 h

theorem ten_zpow_le {a b : ℤ} (h : a ≤ b) : (10 : K) ^ a ≤ 10 ^ b := zpow_le_zpow_right₀ (by norm_num) h

/-- A power of ten from the last digit on is a multiple of it. -/
theorem ten_multiple (u : ℤ) (k : Nat) : (10 : K) ^ (u + k) = ((10 ^ k : ℤ) : K) * 10 ^ u := by
  rw [zpow_add₀ (by norm_num), zpow_natCast]
  push_cast
  ring

theorem Rounds.pos {p : Nat} {x y : K} (h : Rounds p x y) (hx : 0 < x) : ∃ e n : ℤ, (10 : K) ^ e ≤ x ∧ x < (10 : K) ^ (e + 1) ∧
    y = n * (10 : K) ^ (e + 1 - p) ∧ |y - x| ≤ (10 : K) ^ (e + 1 - p) / 2 := by
  rcases h with ⟨h, _⟩ | h
  · exact absurd h hx.ne'
  · rwa [abs_of_pos hx] at h

/-- **A logged number is right to its digits**: with six of them to five parts in a million. -/
theorem C84_value (P : Printer K) (read : String → Option K) (h : P.Digits read) (x : K) :
    ∃ y, read (P.num 6 x) = some y ∧ |y - x| ≤ 5 / 1000000 * |x| := by
  obtain ⟨y, hy, hr⟩ := h 6 x (by norm_num)
  refine ⟨y, hy, ?_⟩
  rcases hr with ⟨h1, h2⟩ | ⟨e, n, h1, _, _, h4⟩
  · rw [h1, h2]; simp
  · refine h4.trans ?_
    have : (10 : K) ^ (e + 1 - (6 : Nat)) = 10 ^ e * (1 / 100000) := by
      rw [show e + 1 - ((6 : Nat) : ℤ) = e + (-5 : ℤ) by push_cast; ring, zpow_add₀ (by norm_num)]
      norm_num
    rw [this]
    linarith

/-- Rounding keeps the order. -/
theorem C84_order_partial (p : Nat) (hp : 0 < p) (x x' y y' : K) (hx : 0 < x) (hlt : x < x') (h : Rounds p x y) (h' : Rounds p x' y') :
    y ≤ y' := by
  obtain ⟨e, n, h1, h2, h3, h4⟩ := h.pos hx
  obtain ⟨e', n', h1', h2', h3', h4'⟩ := h'.pos (hx.trans hlt)
  rw [abs_le] at h4 h4'
  have hee : e < e' + 1 := ten_zpow_lt ((h1.trans_lt hlt).trans h2')
  have hu : (0 : K) < 10 ^ (e + 1 - p) := ten_zpow_pos _
  have hu' : (0 : K) < 10 ^ (e' + 1 - p) := ten_zpow_pos _
  rcases (Int.lt_add_one_iff.1 hee).lt_or_eq with hlt' | rfl
  · have hB : (10 : K) ^ (e + 1) = ((10 ^ p : ℤ) : K) * 10 ^ (e + 1 - p) := by
      rw [← ten_multiple]; congr 1; ring
    have hB' : (10 : K) ^ e' = ((10 ^ (p - 1) : ℤ) : K) * 10 ^ (e' + 1 - p) := by
      rw [← ten_multiple]; congr 1
      rw [Nat.cast_sub hp]; push_cast; ring
    have hy : y ≤ 10 ^ (e + 1) := by
      rw [hB, h3]
      refine mul_le_mul_of_nonneg_right ?_ hu.le
      refine Int.cast_le.2 (not_lt.1 fun hn => ?_)
      have hn : (10 ^ p : ℤ) + 1 ≤ n := hn
      have hn' : ((10 ^ p : ℤ) : K) + 1 ≤ n := by exact_mod_cast hn
      have := mul_le_mul_of_nonneg_right hn' hu.le
      rw [add_mul, ← hB, ← h3] at this
      linarith [h4.2]
    have hy' : (10 : K) ^ e' ≤ y' := by
      rw [hB', h3']
      refine mul_le_mul_of_nonneg_right ?_ hu'.le
      refine Int.cast_le.2 (not_lt.1 fun hn => ?_)
      have hn : n' + 1 ≤ (10 ^ (p - 1) : ℤ) := hn
      have hn' : (n' : K) + 1 ≤ ((10 ^ (p - 1) : ℤ) : K) := by exact_mod_cast hn
      have := mul_le_mul_of_nonneg_right hn' hu'.le
      rw [add_mul, ← hB', ← h3'] at this
      linarith [h4'.1]
    exact hy.trans ((ten_zpow_le (by omega)).trans hy')
  · by_contra hc
    have hn : n' < n := by
      by_contra hn
      refine hc ?_
      rw [h3, h3']
      exact mul_le_mul_of_nonneg_right (by exact_mod_cast not_lt.1 hn) hu.le
    have hn' : (n' : K) + 1 ≤ n := by exact_mod_cast hn
    have := mul_le_mul_of_nonneg_right hn' hu.le
    rw [add_mul, ← h3, ← h3'] at this
    linarith [h4.2, h4'.1]

/-- Rounding keeps times apart that differ by more than the last digit. -/
theorem C84_apart_partial (p : Nat) (k : ℤ) (x x' y y' : K) (hx : 0 < x) (hk : x' < 10 ^ k) (hlt : (10 : K) ^ (k - p) < x' - x)
    (h : Rounds p x y) (h' : Rounds p x' y') : y < y' := by
  have hxx : x < x' := by linarith [ten_zpow_pos (K := K) (k - p)]
  obtain ⟨e, n, h1, h2, h3, h4⟩ := h.pos hx
  obtain ⟨e', n', h1', h2', h3', h4'⟩ := h'.pos (hx.trans hxx)
  rw [abs_le] at h4 h4'
  have he : e < k := ten_zpow_lt ((h1.trans_lt hxx).trans hk)
  have he' : e' < k := ten_zpow_lt (h1'.trans_lt hk)
  have hu : (10 : K) ^ (e + 1 - p) ≤ 10 ^ (k - p) := ten_zpow_le (by omega)
  have hu' : (10 : K) ^ (e' + 1 - p) ≤ 10 ^ (k - p) := ten_zpow_le (by omega)
  linarith [h4.2, h4'.1]

/-- Times close to the same number of `p` digits are rounded to it. -/
theorem rounds_same (p : Nat) (e m : ℤ) (x y : K) (h1 : (10 : K) ^ e ≤ x) (h2 : x < 10 ^ (e + 1))
    (hm : |x - m * (10 : K) ^ (e + 1 - p)| < 10 ^ (e + 1 - p) / 2) (h : Rounds p x y) : y = m * (10 : K) ^ (e + 1 - p) := by
  obtain ⟨e', n, h1', h2', h3, h4⟩ := h.pos ((ten_zpow_pos e).trans_le h1)
  have hee : e' = e := le_antisymm (Int.lt_add_one_iff.1 (ten_zpow_lt (h1'.trans_lt h2))) (Int.lt_add_one_iff.1 (ten_zpow_lt (h1.trans_lt h2')))
  subst hee
  have hu : (0 : K) < 10 ^ (e' + 1 - p) := ten_zpow_pos _
  rw [abs_le] at h4
  rw [abs_lt] at hm
  have hlow : ((m - 1 : ℤ) : K) * 10 ^ (e' + 1 - p) < n * 10 ^ (e' + 1 - p) := by
    rw [← h3]; push_cast; linarith [h4.1, hm.1]
  have hhigh : (n : K) * 10 ^ (e' + 1 - p) < ((m + 1 : ℤ) : K) * 10 ^ (e' + 1 - p) := by
    rw [← h3]; push_cast; linarith [h4.2, hm.2]
  have a : m - 1 < n := by exact_mod_cast lt_of_mul_lt_mul_right hlow hu.le
  have b : n < m + 1 := by exact_mod_cast lt_of_mul_lt_mul_right hhigh hu.le
  have : n = m := by omega
  rw [h3, this]

/-! ## Rows -/

theorem takeWhile_append_comma (a b : List Char) (h : ',' ∉ a) : (a ++ ',' :: b).takeWhile (· ≠ ',') = a := by
  induction a with
  | nil => simp
  | cons c a ih =>
    have hc : c ≠ ',' := fun hc => h (by rw [hc]; exact List.mem_cons_self ..)
    rw [List.cons_append, List.takeWhile_cons_of_pos (by simpa using hc), ih fun h' => h (List.mem_cons_of_mem _ h')]

theorem takeWhile_no_comma (a : List Char) (h : ',' ∉ a) : a.takeWhile (· ≠ ',') = a := by
  induction a with
  | nil => rfl
  | cons c a ih =>
    have hc : c ≠ ',' := fun hc => h (by rw [hc]; exact List.mem_cons_self ..)
    rw [List.takeWhile_cons_of_pos (by simpa using hc), ih fun h' => h (List.mem_cons_of_mem _ h')]

/-- The first field of a row is its first cell. -/
theorem firstField_line {P : Printer K} (hP : P.Law) (name : String) (t : K) (p : Nat) (cols : Columns K) {header row : String}
    (h : Columns.Writes P ((name, Cell.num t p) :: cols) header row) : firstField row = P.num p t := by
  rw [h.2]
  unfold firstField
  cases cols with
  | nil =>
    show String.ofList (List.takeWhile _ (P.num p t ++ String.join []).toList) = _
    have : String.join ([] : List String) = "" := rfl
    rw [this, String.append_empty, takeWhile_no_comma _ (hP p t), String.ofList_toList]
  | cons c cols =>
    show String.ofList (List.takeWhile _ (P.num p t ++ String.join (("," ++ c.2.show P) :: _)).toList) = _
    rw [String.join_cons, String.toList_append, String.toList_append, String.toList_append]
    have : (",").toList = [','] := rfl
    rw [this, List.append_assoc, List.cons_append, List.nil_append, takeWhile_append_comma _ _ (hP p t), String.ofList_toList]

/-- **Two rows of `body_state.csv`** of filters before `10 ^ k` seconds whose times differ by more than `10 ^ (k - 6)` seconds are told
apart, in the right order.  (Before 1000 s: rows more than a millisecond apart.) -/
theorem C84_body_partial (N : Prim K) (P : Printer K) (hP : P.Law) (read : String → Option K) (hd : P.Digits read) (e e' : Ekf K)
    (hr : e.Reachable N) (hr' : e'.Reachable N) (d d' : Int) (k : ℤ) (h0 : 0 < e.currentTime) (hk : e'.currentTime < 10 ^ k)
    (hlt : (10 : K) ^ (k - 6) < e'.currentTime - e.currentTime) :
    ∃ row row' t t', bodyRow P e d = .ok row ∧ bodyRow P e' d' = .ok row' ∧ rowTime read row = some t ∧ rowTime read row' = some t' ∧
      t < t' := by
  obtain ⟨row, h1, _, h2⟩ := C27_body N P hP e hr d
  obtain ⟨row', h1', _, h2'⟩ := C27_body N P hP e' hr' d'
  obtain ⟨t, h3, h4⟩ := hd 6 e.currentTime (by norm_num)
  obtain ⟨t', h3', h4'⟩ := hd 6 e'.currentTime (by norm_num)
  refine ⟨row, row', t, t', h1, h1', ?_, ?_, C84_apart_partial 6 k _ _ t t' h0 hk (by exact_mod_cast hlt) h4 h4'⟩
  · unfold rowTime
    rw [firstField_line hP _ _ _ _ h2, h3]
  · unfold rowTime
    rw [firstField_line hP _ _ _ _ h2', h3']

/-- Rows of `body_state.csv` never go back in time. -/
theorem C84_ordered (N : Prim K) (P : Printer K) (hP : P.Law) (read : String → Option K) (hd : P.Digits read) (e e' : Ekf K)
    (hr : e.Reachable N) (hr' : e'.Reachable N) (d d' : Int) (h0 : 0 < e.currentTime) (hlt : e.currentTime < e'.currentTime) :
    ∃ row row' t t', bodyRow P e d = .ok row ∧ bodyRow P e' d' = .ok row' ∧ rowTime read row = some t ∧ rowTime read row' = some t' ∧
      t ≤ t' := by
  obtain ⟨row, h1, _, h2⟩ := C27_body N P hP e hr d
  obtain ⟨row', h1', _, h2'⟩ := C27_body N P hP e' hr' d'
  obtain ⟨t, h3, h4⟩ := hd 6 e.currentTime (by norm_num)
  obtain ⟨t', h3', h4'⟩ := hd 6 e'.currentTime (by norm_num)
  refine ⟨row, row', t, t', h1, h1', ?_, ?_, C84_order_partial 6 (by norm_num) _ _ t t' h0 hlt h4 h4'⟩
  · unfold rowTime
    rw [firstField_line hP _ _ _ _ h2, h3]
  · unfold rowTime
    rw [firstField_line hP _ _ _ _ h2', h3']

/-- Rows of `triangulation_<camera>.csv`, whose times have three digits: apart if they differ by more than `10 ^ (k - 3)` seconds.
(Before 100 s: more than a tenth of a second.) -/
theorem C84_triangulation_partial (P : Printer K) (hP : P.Law) (read : String → Option K) (hd : P.Digits read) (t t' : K) (f f' : Int)
    (x x' : V3 K) (k : ℤ) (h0 : 0 < t) (hk : t' < 10 ^ k) (hlt : (10 : K) ^ (k - 3) < t' - t) :
    ∃ s s', rowTime read (triangulationRow P t f x) = some s ∧ rowTime read (triangulationRow P t' f' x') = some s' ∧ s < s' := by
  obtain ⟨s, h3, h4⟩ := hd 3 t (by norm_num)
  obtain ⟨s', h3', h4'⟩ := hd 3 t' (by norm_num)
  refine ⟨s, s', ?_, ?_, C84_apart_partial 3 k _ _ s s' h0 hk (by exact_mod_cast hlt) h4 h4'⟩
  · unfold rowTime
    rw [firstField_line hP _ _ _ _ (C27_triangulation P hP t f x).2, h3]
  · unfold rowTime
    rw [firstField_line hP _ _ _ _ (C27_triangulation P hP t' f' x').2, h3']

/-! ## Rows that cannot be told apart -/

/-- **However seldom rows are written, late enough two of them have the same time**, whatever the number of digits. -/
theorem C84_late_violated [Archimedean K] (p : Nat) (hp : 0 < p) (dt : K) (hdt : 0 < dt) :
    ∃ t : K, 0 < t ∧ ∀ y y', Rounds p t y → Rounds p (t + dt) y' → y = y' := by
  obtain ⟨m, hm⟩ := pow_unbounded_of_one_lt (2 * dt) (by norm_num : (1 : K) < 10)
  have hm : 2 * dt < (10 : K) ^ ((m : ℤ)) := by rw [zpow_natCast]; exact hm
  have hk : (m : ℤ) = ((m : ℤ) + p - 1) + 1 - p := by ring
  have h10 : (10 : K) ^ ((m : ℤ) + p - 1) = ((10 ^ (p - 1) : ℤ) : K) * 10 ^ (((m : ℤ) + p - 1) + 1 - p) := by
    rw [← hk, ← ten_multiple]
    congr 1
    rw [Nat.cast_sub hp]
    push_cast
    ring
  have hle : (10 : K) ^ (m : ℤ) ≤ 10 ^ ((m : ℤ) + p - 1) := ten_zpow_le (by omega)
  have hs : (10 : K) ^ ((m : ℤ) + p - 1 + 1) = 10 ^ ((m : ℤ) + p - 1) * 10 := zpow_add_one₀ (by norm_num) _
  have hpos := ten_zpow_pos (K := K) ((m : ℤ) + p - 1)
  refine ⟨10 ^ ((m : ℤ) + p - 1), hpos, fun y y' h h' => ?_⟩
  rw [rounds_same p ((m : ℤ) + p - 1) (10 ^ (p - 1)) _ y le_rfl (by rw [hs]; linarith) (by rw [← h10, sub_self, abs_zero]; positivity) h,
    rounds_same p ((m : ℤ) + p - 1) (10 ^ (p - 1)) _ y' (by linarith) (by rw [hs]; linarith)
      (by rw [← h10, add_sub_cancel_left, abs_of_pos hdt, ← hk]; linarith) h']

/-- **After a thousand seconds** two rows of `body_state.csv`, a message apart of an IMU that sends four hundred a second, have the
same time. -/
theorem C84_body_violated (N : Prim K) (P : Printer K) (hP : P.Law) (read : String → Option K) (hd : P.Digits read) (e e' : Ekf K)
    (hr : e.Reachable N) (hr' : e'.Reachable N) (d d' : Int) (ht : e.currentTime = 1000 + 1 / 1000)
    (ht' : e'.currentTime = 1000 + 1 / 1000 + 1 / 400) :
    ∃ row row', bodyRow P e d = .ok row ∧ bodyRow P e' d' = .ok row' ∧ rowTime read row = some 1000 ∧ rowTime read row' = some 1000 := by
  obtain ⟨row, h1, _, h2⟩ := C27_body N P hP e hr d
  obtain ⟨row', h1', _, h2'⟩ := C27_body N P hP e' hr' d'
  obtain ⟨t, h3, h4⟩ := hd 6 e.currentTime (by norm_num)
  obtain ⟨t', h3', h4'⟩ := hd 6 e'.currentTime (by norm_num)
  have a := rounds_same 6 3 100000 _ t (by rw [ht]; norm_num) (by rw [ht]; norm_num) (by rw [ht]; norm_num [abs_lt]) h4
  have b := rounds_same 6 3 100000 _ t' (by rw [ht']; norm_num) (by rw [ht']; norm_num) (by rw [ht']; norm_num [abs_lt]) h4'
  refine ⟨row, row', h1, h1', ?_, ?_⟩
  · unfold rowTime
    rw [firstField_line hP _ _ _ _ h2, h3, a]
    norm_num
  · unfold rowTime
    rw [firstField_line hP _ _ _ _ h2', h3', b]
    norm_num

/-- **After a hundred seconds** triangulated features of the frames of a whole second have the same time, however fast the camera. -/
theorem C84_triangulation_violated (P : Printer K) (hP : P.Law) (read : String → Option K) (hd : P.Digits read) (s : ℤ)
    (hs : 100 < s) (hs' : s < 1000) (t t' : K) (ht : |t - s| < 1 / 2) (ht' : |t' - s| < 1 / 2) (f f' : Int) (x x' : V3 K) :
    rowTime read (triangulationRow P t f x) = rowTime read (triangulationRow P t' f' x') := by
  have key : ∀ (t : K), |t - s| < 1 / 2 → ∀ (f : Int) (x : V3 K), rowTime read (triangulationRow P t f x) = some (s : K) := by
    intro t ht f x
    obtain ⟨y, h1, h2⟩ := hd 3 t (by norm_num)
    unfold rowTime
    rw [firstField_line hP _ _ _ _ (C27_triangulation P hP t f x).2, h1]
    have hu : (10 : K) ^ ((2 : ℤ) + 1 - (3 : Nat)) = 1 := by norm_num
    have hl : ((101 : ℤ) : K) ≤ s := by exact_mod_cast hs
    have hr : ((s : ℤ) : K) ≤ ((999 : ℤ) : K) := by exact_mod_cast Int.le_sub_one_of_lt hs'
    rw [abs_lt] at ht
    push_cast at hl hr
    have := rounds_same 3 2 s t y (by norm_num; linarith [ht.1]) (by norm_num; linarith [ht.2]) (by rw [hu, mul_one, abs_lt]; exact ht) h2
    rw [this, hu, mul_one]
  rw [key t ht f x, key t' ht' f' x']

/-! ## A printer that meets the hypotheses -/

namespace DigitsSample

/-- Rounding to `p` digits can be done. -/
theorem rounds_exists (p : Nat) (x : ℚ) : ∃ y, Rounds p x y := by
  by_cases hx : x = 0
  · exact ⟨0, .inl ⟨hx, rfl⟩⟩
  · obtain ⟨e, h1, h2⟩ := exists_mem_Ico_zpow (abs_pos.2 hx) (by norm_num : (1 : ℚ) < 10)
    have hu : (0 : ℚ) < 10 ^ (e + 1 - p) := ten_zpow_pos _
    refine ⟨round (x / 10 ^ (e + 1 - p)) * 10 ^ (e + 1 - p), .inr ⟨e, _, h1, h2, rfl, ?_⟩⟩
    have h := abs_sub_round (x / (10 : ℚ) ^ (e + 1 - p))
    have : (round (x / (10 : ℚ) ^ (e + 1 - p)) : ℚ) * 10 ^ (e + 1 - p) - x =
        -((x / 10 ^ (e + 1 - p) - round (x / (10 : ℚ) ^ (e + 1 - p))) * 10 ^ (e + 1 - p)) := by
      field_simp
      ring
    rw [this, abs_neg, abs_mul, abs_of_pos hu]
    calc _ ≤ 1 / 2 * (10 : ℚ) ^ (e + 1 - p) := mul_le_mul_of_nonneg_right h hu.le
      _ = _ := by ring

/-- Print the rounded number as the number of its place in a list of all fractions. -/
noncomputable def printer : Printer ℚ := ⟨fun p x => Nat.repr (Encodable.encode (rounds_exists p x).choose)⟩

open Classical in
/-- Look it up there. -/
noncomputable def reader (s : String) : Option ℚ := if h : ∃ y : ℚ, s = Nat.repr (Encodable.encode y) then some h.choose else none

theorem printer_digits : printer.Digits reader := by
  intro p x _
  refine ⟨(rounds_exists p x).choose, ?_, (rounds_exists p x).choose_spec⟩
  have h : ∃ y : ℚ, printer.num p x = Nat.repr (Encodable.encode y) := ⟨_, rfl⟩
  unfold reader
  rw [dif_pos h]
  have := h.choose_spec
  exact congrArg some (Encodable.encode_injective (repr_inj this)).symm

theorem printer_law : printer.Law := fun _ _ => comma_nat _

end DigitsSample

/-- A filter that has got to some time. -/
theorem DigitsSample.reached (t : ℚ) (ht : ¬ t < 0) : ∃ e : Ekf ℚ, e.Reachable Samples.prim ∧ e.currentTime = t := by
  refine ⟨{ Ekf.init Samples.prim (Samples.params .none false) with currentTime := t }, ⟨Samples.params .none false, [.predict t], ?_, ?_⟩, rfl⟩
  · intro op h
    rw [List.mem_singleton] at h
    subst h
    trivial
  · show (Ekf.predict Samples.prim (Ekf.init Samples.prim (Samples.params .none false)) t >>= Except.ok) = _
    have ht' : ¬ t < (Ekf.init Samples.prim (Samples.params .none false)).currentTime := ht
    unfold Ekf.predict
    rw [if_neg ht']
    rfl

/-- Two reachable filters a second apart meet the hypotheses of `C84_body_partial`. -/
example : ∃ (e e' : Ekf ℚ) (row row' : String) (t t' : ℚ), bodyRow DigitsSample.printer e 0 = .ok row ∧
    bodyRow DigitsSample.printer e' 0 = .ok row' ∧ rowTime DigitsSample.reader row = some t ∧
    rowTime DigitsSample.reader row' = some t' ∧ t < t' := by
  obtain ⟨e, hr, h1⟩ := DigitsSample.reached 1 (by norm_num)
  obtain ⟨e', hr', h1'⟩ := DigitsSample.reached 2 (by norm_num)
  obtain ⟨row, row', t, t', h⟩ := C84_body_partial Samples.prim DigitsSample.printer DigitsSample.printer_law DigitsSample.reader
    DigitsSample.printer_digits e e' hr hr' 0 0 3 (by rw [h1]; norm_num) (by rw [h1']; norm_num) (by rw [h1, h1']; norm_num)
  exact ⟨e, e', row, row', t, t', h⟩

/-- Two others meet those of `C84_body_violated`. -/
example : ∃ (e e' : Ekf ℚ) (row row' : String), e.currentTime < e'.currentTime ∧ bodyRow DigitsSample.printer e 0 = .ok row ∧
    bodyRow DigitsSample.printer e' 0 = .ok row' ∧ rowTime DigitsSample.reader row = some 1000 ∧
    rowTime DigitsSample.reader row' = some 1000 := by
  obtain ⟨e, hr, h1⟩ := DigitsSample.reached (1000 + 1 / 1000) (by norm_num)
  obtain ⟨e', hr', h1'⟩ := DigitsSample.reached (1000 + 1 / 1000 + 1 / 400) (by norm_num)
  obtain ⟨row, row', h⟩ := C84_body_violated Samples.prim DigitsSample.printer DigitsSample.printer_law DigitsSample.reader
    DigitsSample.printer_digits e e' hr hr' 0 0 h1 h1'
  exact ⟨e, e', row, row', by rw [h1, h1']; norm_num, h⟩

/-- Frames at 200.0 s and 200.3 s: the hypotheses of `C84_triangulation_violated`. -/
example : |(2000 / 10 : ℚ) - (200 : ℤ)| < 1 / 2 ∧ |(2003 / 10 : ℚ) - (200 : ℤ)| < 1 / 2 := by
  constructor <;> norm_num [abs_lt]

end EkfCal
