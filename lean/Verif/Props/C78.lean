import Mathlib.Analysis.SpecialFunctions.Trigonometric.Basic
import Verif.Spec.Eval
import Verif.Lemmas.Mat
import Mathlib.Tactic.Linarith
import Mathlib.Tactic.Ring
import Mathlib.Tactic.FieldSimp
import Mathlib.Tactic.FinCases

/-!
# C78: the error statistics of an evaluation are the errors of the runs
-/

namespace EkfCal.Eval

theorem py_ok_bind {α β : Type} (a : α) (f : α → Py β) : (Except.ok a >>= f : Py β) = f a := rfl

theorem npInterp_recorded (x : ℝ) (ts fs : List ℝ) (hl : ts.length = fs.length) (hs : ts.Pairwise (· < ·)) (h0 : ts ≠ []) :
    ∃ v, npInterp x (ts.zip fs) = .ok v ∧ RecordedAt ts fs x v := by
  induction ts generalizing fs with
  | nil => exact absurd rfl h0
  | cons t0 ts ih =>
    cases fs with
    | nil => simp at hl
    | cons f0 fs =>
      cases ts with
      | nil =>
        cases fs with
        | cons _ _ => simp at hl
        | nil =>
          refine ⟨f0, rfl, ?_⟩
          rcases lt_or_ge x t0 with h | h
          · exact .inl ⟨t0, rfl, h, rfl⟩
          · exact .inr (.inl ⟨t0, rfl, h, rfl⟩)
      | cons t1 ts =>
        cases fs with
        | nil => simp at hl
        | cons f1 fs =>
          simp only [List.zip_cons_cons, npInterp]
          split_ifs with h1 h2
          · exact ⟨f0, rfl, .inl ⟨t0, rfl, h1, rfl⟩⟩
          · refine ⟨_, rfl, .inr (.inr ⟨0, t0, t1, f0, f1, rfl, rfl, rfl, rfl, not_lt.1 h1, h2, ?_⟩)⟩
            have h3 : t1 - t0 ≠ 0 := sub_ne_zero.2 (List.rel_of_pairwise_cons hs (by simp)).ne'
            field_simp
            ring
          · obtain ⟨v, hv, hr⟩ := ih (f1 :: fs) (by simpa using hl) (List.Pairwise.of_cons hs) (by simp)
            refine ⟨v, hv, ?_⟩
            rcases hr with ⟨t, ht, hlt, -⟩ | ⟨t, ht, hle, hx⟩ | ⟨j, a, b, c, d, h3, h4, h5, h6, h7⟩
            · rw [List.getElem?_cons_zero, Option.some.injEq] at ht
              exact absurd (ht ▸ hlt) h2
            · exact .inr (.inl ⟨t, by rw [List.getLast?_cons_cons]; exact ht, hle,
                by rw [List.getLast?_cons_cons]; exact hx⟩)
            · exact .inr (.inr ⟨j + 1, a, b, c, d, h3, h4, h5, h6, h7⟩)

theorem mapM_py {α β : Type} (f : α → Py β) (l : List α) (h : ∀ a ∈ l, ∃ b, f a = .ok b) :
    ∃ bs, l.mapM f = .ok bs ∧ bs.length = l.length ∧ ∀ (k : Nat) (a : α) (b : β), l[k]? = some a → bs[k]? = some b → f a = .ok b := by
  induction l with
  | nil => exact ⟨[], rfl, rfl, fun k a b h => by simp at h⟩
  | cons a l ih =>
    obtain ⟨b, hb⟩ := h a (by simp)
    obtain ⟨bs, hbs, hl, hk⟩ := ih fun a ha => h a (by simp [ha])
    refine ⟨b :: bs, by rw [List.mapM_cons, hb, py_ok_bind, hbs]; rfl, by simp [hl], ?_⟩
    intro k x y hx hy
    cases k with
    | zero =>
      simp only [List.getElem?_cons_zero, Option.some.injEq] at hx hy
      rw [← hx, ← hy, hb]
    | succ k => exact hk k x y (by simpa using hx) (by simpa using hy)

theorem interpolateError_ok (tt tx et ex : List ℝ) (hl : tx.length = tt.length) (he : ex.length = et.length)
    (hs : tt.Pairwise (· < ·)) (h0 : tt ≠ []) :
    ∃ v : Nat → ℝ, interpolateError tt tx et ex = .ok ((List.range et.length).map fun k => ex.getD k 0 - v k) ∧
      ∀ k τ, et[k]? = some τ → RecordedAt tt tx τ (v k) := by
  obtain ⟨vs, hv, hvl, hk⟩ := mapM_py (fun t => npInterp t (tt.zip tx)) et fun t _ =>
    (npInterp_recorded t tt tx hl.symm hs h0).imp fun _ h => h.1
  refine ⟨fun k => vs.getD k 0, ?_, ?_⟩
  · rw [interpolateError, if_neg (by simp [hl])]
    show (List.mapM _ et >>= _) = _
    rw [hv, py_ok_bind]
    show Except.ok _ = Except.ok _
    congr 1
    apply List.ext_getElem
    · simp [hvl, he]
    · intro k h1 h2
      simp only [List.length_map, List.length_range] at h2
      simp [List.getD_eq_getElem?_getD, List.getElem?_eq_getElem (show k < ex.length by omega),
        List.getElem?_eq_getElem (show k < vs.length by omega)]
  · intro k τ hτ
    obtain ⟨v, hv', hr⟩ := npInterp_recorded τ tt tx hl.symm hs h0
    have hkl := (List.getElem?_eq_some_iff.1 hτ).1
    have := hk k τ vs[k] hτ (List.getElem?_eq_getElem (by omega))
    rw [hv'] at this
    cases this
    simpa [List.getD_eq_getElem?_getD, List.getElem?_eq_getElem (show k < vs.length by omega)] using hr

theorem list_sum_range (f : Nat → ℝ) (n : Nat) : ((List.range n).map f).sum = ∑ k ∈ Finset.range n, f k := by
  induction n with
  | zero => simp
  | succ n ih => rw [List.range_succ, List.map_append, List.sum_append, ih, Finset.sum_range_succ]; simp

theorem rmse_ok (f g h : Nat → ℝ) (n : Nat) (hn : n ≠ 0) :
    ∃ r, rmse ((List.range n).map f) ((List.range n).map g) ((List.range n).map h) = .ok r ∧ 0 ≤ r ∧
      r ^ 2 * n = ∑ k ∈ Finset.range n, (f k ^ 2 + g k ^ 2 + h k ^ 2) := by
  have hz : (((List.range n).map f).zip (((List.range n).map g).zip ((List.range n).map h))).map
      (fun p => p.1 * p.1 + p.2.1 * p.2.1 + p.2.2 * p.2.2) = (List.range n).map fun k => f k ^ 2 + g k ^ 2 + h k ^ 2 := by
    apply List.ext_getElem
    · simp
    · intro k h1 h2
      simp
      ring
  have hn' : (0 : ℝ) < n := by exact_mod_cast Nat.pos_of_ne_zero hn
  refine ⟨Real.sqrt (((List.range n).map fun k => f k ^ 2 + g k ^ 2 + h k ^ 2).sum /
    ((List.range n).map fun k => f k ^ 2 + g k ^ 2 + h k ^ 2).length), ?_, Real.sqrt_nonneg _, ?_⟩
  · rw [rmse, if_neg (by simp), hz, npMean, if_neg (by simp [hn])]
    rfl
  · rw [List.length_map, List.length_range, list_sum_range, Real.sq_sqrt]
    · exact div_mul_cancel₀ _ hn'.ne'
    · exact div_nonneg (Finset.sum_nonneg fun k _ => by positivity) hn'.le

theorem col_ok {f : Frame} {name : String} {c : List ℝ} (h : f.Has name c) : f.col name = .ok c := by
  rw [Frame.col, h]

/-- The number computed for a run is the root mean square distance of the estimates from the recorded truth. -/
theorem C78_error (truthName estName : Fin 3 → String) (est truth : Frame) (h : Usable truthName estName est truth) :
    ∃ r, columnsErr truthName estName est truth = .ok r ∧ RmseOf truthName estName est truth r := by
  obtain ⟨tt, tx, et, ex, ht, he, hs, h0, hne⟩ := h
  obtain ⟨v0, h0', hv0⟩ := interpolateError_ok tt (tx 0) et (ex 0) (ht.length 0) (he.length 0) hs h0
  obtain ⟨v1, h1', hv1⟩ := interpolateError_ok tt (tx 1) et (ex 1) (ht.length 1) (he.length 1) hs h0
  obtain ⟨v2, h2', hv2⟩ := interpolateError_ok tt (tx 2) et (ex 2) (ht.length 2) (he.length 2) hs h0
  obtain ⟨r, hr, hr0, hsum⟩ := rmse_ok (fun k => (ex 0).getD k 0 - v0 k) (fun k => (ex 1).getD k 0 - v1 k)
    (fun k => (ex 2).getD k 0 - v2 k) et.length (by simpa using hne)
  refine ⟨r, ?_, tt, tx, et, ex, ht, he, ![v0, v1, v2], ?_, hr0, ?_⟩
  · rw [columnsErr, col_ok ht.time, py_ok_bind, col_ok (ht.value 0), py_ok_bind, col_ok (ht.value 1), py_ok_bind,
      col_ok (ht.value 2), py_ok_bind, col_ok he.time, py_ok_bind, col_ok (he.value 0), py_ok_bind, col_ok (he.value 1),
      py_ok_bind, col_ok (he.value 2), py_ok_bind, h0', py_ok_bind, h1', py_ok_bind, h2', py_ok_bind]
    exact hr
  · intro i k τ hτ
    fin_cases i
    · exact hv0 k τ hτ
    · exact hv1 k τ hτ
    · exact hv2 k τ hτ
  · rw [hsum]
    refine Finset.sum_congr rfl fun k _ => ?_
    rw [Fin.sum_univ_three]
    rfl

theorem pairwise_get {l : List ℝ} (hs : l.Pairwise (· < ·)) {i j : Nat} {a b : ℝ} (hi : l[i]? = some a) (hj : l[j]? = some b)
    (h : i < j) : a < b := by
  obtain ⟨h1, rfl⟩ := List.getElem?_eq_some_iff.1 hi
  obtain ⟨h2, rfl⟩ := List.getElem?_eq_some_iff.1 hj
  exact List.pairwise_iff_getElem.1 hs i j h1 h2 h

theorem pairwise_get_le {l : List ℝ} (hs : l.Pairwise (· < ·)) {i j : Nat} {a b : ℝ} (hi : l[i]? = some a)
    (hj : l[j]? = some b) (h : i ≤ j) : a ≤ b := by
  rcases Nat.lt_or_eq_of_le h with h | rfl
  · exact (pairwise_get hs hi hj h).le
  · rw [hi] at hj; cases hj; exact le_rfl

/-- At increasing times the recorded value is one. -/
theorem recorded_unique {ts xs : List ℝ} (hs : ts.Pairwise (· < ·)) {τ v w : ℝ} (hv : RecordedAt ts xs τ v)
    (hw : RecordedAt ts xs τ w) : v = w := by
  have hlast {t : ℝ} (h : ts.getLast? = some t) {j : Nat} {a : ℝ} (hj : ts[j]? = some a) : a ≤ t := by
    rw [List.getLast?_eq_getElem?] at h
    have := (List.getElem?_eq_some_iff.1 hj).1
    exact pairwise_get_le hs hj h (by omega)
  rcases hv with ⟨t, ht, hlt, hx⟩ | ⟨t, ht, hle, hx⟩ | ⟨j, a, b, c, d, h1, h2, h3, h4, h5, h6, h7⟩ <;>
    rcases hw with ⟨t', ht', hlt', hx'⟩ | ⟨t', ht', hle', hx'⟩ | ⟨j', a', b', c', d', h1', h2', h3', h4', h5', h6', h7'⟩
  · rw [hx] at hx'; exact Option.some.inj hx'
  · exact absurd (hlast ht' ht) (not_le.2 (hle'.trans_lt hlt))
  · exact absurd (pairwise_get_le hs ht h1' (Nat.zero_le _)) (not_le.2 (h5'.trans_lt hlt))
  · exact absurd (hlast ht ht') (not_le.2 (hle.trans_lt hlt'))
  · rw [hx] at hx'; exact Option.some.inj hx'
  · exact absurd (hlast ht h2') (not_le.2 (hle.trans_lt h6'))
  · exact absurd (pairwise_get_le hs ht' h1 (Nat.zero_le _)) (not_le.2 (h5.trans_lt hlt'))
  · exact absurd (hlast ht' h2) (not_le.2 (hle'.trans_lt h6))
  · have hjj : j = j' := by
      rcases lt_trichotomy j j' with h | h | h
      · exact absurd (pairwise_get_le hs h2 h1' h) (not_le.2 (h5'.trans_lt h6))
      · exact h
      · exact absurd (pairwise_get_le hs h2' h1 h) (not_le.2 (h5.trans_lt h6'))
    subst hjj
    rw [h1] at h1'; rw [h2] at h2'; rw [h3] at h3'; rw [h4] at h4'
    cases h1'; cases h2'; cases h3'; cases h4'
    have : b - a ≠ 0 := sub_ne_zero.2 (h5.trans_lt h6).ne'
    have h8 := mul_left_cancel₀ this (h7.trans h7'.symm)
    linarith

/-- A root mean square error is zero exactly if every estimate is the recorded truth of its time. -/
theorem C78_zero (tt et : List ℝ) (tx ex : Fin 3 → List ℝ) (r : ℝ) (h : IsRmse tt tx et ex r) (hs : tt.Pairwise (· < ·))
    (h0 : et ≠ []) : r = 0 ↔ ∀ i k τ, et[k]? = some τ → RecordedAt tt (tx i) τ ((ex i).getD k 0) := by
  obtain ⟨v, hv, hr, hsum⟩ := h
  constructor
  · rintro rfl i k τ hτ
    rw [zero_pow two_ne_zero, zero_mul, eq_comm, Finset.sum_eq_zero_iff_of_nonneg
      fun k _ => Finset.sum_nonneg fun i _ => sq_nonneg _] at hsum
    have h1 := hsum k (Finset.mem_range.2 (List.getElem?_eq_some_iff.1 hτ).1)
    rw [Finset.sum_eq_zero_iff_of_nonneg fun i _ => sq_nonneg _] at h1
    have h2 := h1 i (Finset.mem_univ i)
    rw [pow_eq_zero_iff two_ne_zero, sub_eq_zero] at h2
    rw [h2]
    exact hv i k τ hτ
  · intro hall
    have hz : r ^ 2 * et.length = 0 := by
      rw [hsum]
      refine Finset.sum_eq_zero fun k hk => Finset.sum_eq_zero fun i _ => ?_
      have hkl := Finset.mem_range.1 hk
      have hτ := List.getElem?_eq_getElem hkl
      rw [recorded_unique hs (hall i k _ hτ) (hv i k _ hτ), sub_self, zero_pow two_ne_zero]
    have hne : (et.length : ℝ) ≠ 0 := by exact_mod_cast (by simpa using h0 : et.length ≠ 0)
    rcases mul_eq_zero.1 hz with h | h
    · exact pow_eq_zero_iff two_ne_zero |>.1 h
    · exact absurd h hne

/-! ### Runs -/

theorem readFrames_named (dirs : List Dir) (pre : String) (frames : List Frame)
    (h : List.Forall₂ (fun d f => List.lookup (pre ++ ".csv") d = some f ∧ List.lookup (pre ++ "_" ++ toString 0 ++ ".csv") d = none)
      dirs frames) : readFrames dirs pre 0 = frames := by
  induction h with
  | nil => rfl
  | cons h _ ih =>
    rw [readFrames, List.flatMap_cons, if_pos rfl, if_pos (by norm_num), h.1, h.2]
    rw [readFrames] at ih
    rw [ih]
    rfl

theorem readFrames_numbered (dirs : List Dir) (pre : String) (id : Nat) (h0 : id ≠ 0) (h9 : id < 10) (frames : List Frame)
    (h : List.Forall₂ (fun d f => List.lookup (pre ++ "_" ++ toString id ++ ".csv") d = some f) dirs frames) :
    readFrames dirs pre id = frames := by
  induction h with
  | nil => rfl
  | cons h _ ih =>
    rw [readFrames, List.flatMap_cons, if_neg h0, if_pos h9, h]
    rw [readFrames] at ih
    rw [ih]
    rfl

theorem mapM_errors (truthName estName : Fin 3 → String) (runs : List (Frame × Frame))
    (h : ∀ p ∈ runs, Usable truthName estName p.1 p.2) :
    ∃ rs, (runs.mapM fun p => columnsErr truthName estName p.1 p.2) = .ok rs ∧
      List.Forall₂ (fun p r => RmseOf truthName estName p.1 p.2 r) runs rs := by
  induction runs with
  | nil => exact ⟨[], rfl, .nil⟩
  | cons p runs ih =>
    obtain ⟨r, hr, hR⟩ := C78_error truthName estName p.1 p.2 (h p (by simp))
    obtain ⟨rs, hrs, hRs⟩ := ih fun p hp => h p (by simp [hp])
    exact ⟨r :: rs, by rw [List.mapM_cons, hr, py_ok_bind, hrs]; rfl, .cons hR hRs⟩

/-- A complete set of runs: the statistic of a quantity of the body has one number for each run, in their order, each the root
mean square error of the run's own files.  For orientations the quantity is the first three numbers of the quaternion. -/
theorem C78_body_partial (dirs : List Dir) (runs : List (Frame × Frame)) (name : String)
    (hc : List.Forall₂ (fun d p => Complete d "body_state.csv" p.1 p.2) dirs runs)
    (hu : ∀ p ∈ runs, Usable (indexed name) (indexed name) p.1 p.2) :
    ∃ rs, bodyStat dirs name = .ok rs ∧
      List.Forall₂ (fun p r => RmseOf (indexed name) (indexed name) p.1 p.2 r) runs rs := by
  have he : readFrames dirs "body_state" 0 = runs.map Prod.fst :=
    readFrames_named dirs "body_state" _ (by
      rw [List.forall₂_map_right_iff]
      exact hc.imp fun _ _ h => ⟨h.est, h.single'⟩)
  have ht : readFrames dirs "body_truth" 0 = runs.map Prod.snd :=
    readFrames_named dirs "body_truth" _ (by
      rw [List.forall₂_map_right_iff]
      exact hc.imp fun _ _ h => ⟨h.truth, h.single⟩)
  have hz : (runs.map Prod.fst).zip (runs.map Prod.snd) = runs := by
    rw [List.zip_map']; exact List.map_id _
  rw [bodyStat, bodyErr, he, ht, hz]
  exact mapM_errors _ _ runs hu

/-- The same for a sensor with an id from 1 to 9: its estimated calibration against the true one. -/
theorem C78_sensor_partial (dirs : List Dir) (runs : List (Frame × Frame)) (pre name : String) (id : Nat) (h0 : id ≠ 0)
    (h9 : id < 10) (hc : List.Forall₂ (fun d p => Complete d (pre ++ "_" ++ toString id ++ ".csv") p.1 p.2) dirs runs)
    (hu : ∀ p ∈ runs, Usable (indexed (name ++ "_" ++ toString id)) (indexed name) p.1 p.2) :
    ∃ rs, sensorStat dirs pre name id = .ok rs ∧
      List.Forall₂ (fun p r => RmseOf (indexed (name ++ "_" ++ toString id)) (indexed name) p.1 p.2 r) runs rs := by
  have he : readFrames dirs pre id = runs.map Prod.fst :=
    readFrames_numbered dirs pre id h0 h9 _ (by
      rw [List.forall₂_map_right_iff]
      exact hc.imp fun _ _ h => h.est)
  have ht : readFrames dirs "body_truth" 0 = runs.map Prod.snd :=
    readFrames_named dirs "body_truth" _ (by
      rw [List.forall₂_map_right_iff]
      exact hc.imp fun _ _ h => ⟨h.truth, h.single⟩)
  have hz : (runs.map Prod.fst).zip (runs.map Prod.snd) = runs := by
    rw [List.zip_map']; exact List.map_id _
  rw [sensorStat, sensorErr, he, ht, hz]
  exact mapM_errors _ _ runs hu

/-- The two numbers of a line of the summary: mean and standard deviation over the runs. -/
theorem C78_summary (vals : List ℝ) (h : vals ≠ []) :
    ∃ mu sig, summary vals = .ok (mu, sig) ∧ mu * vals.length = vals.sum ∧ 0 ≤ sig ∧
      sig ^ 2 * vals.length = (vals.map fun x => (x - mu) ^ 2).sum := by
  have hn : (0 : ℝ) < vals.length := by exact_mod_cast List.length_pos_iff.2 h
  refine ⟨vals.sum / vals.length, Real.sqrt ((vals.map fun x => (x - vals.sum / vals.length) ^ 2).sum /
    (vals.map fun x => (x - vals.sum / vals.length) ^ 2).length), ?_, div_mul_cancel₀ _ hn.ne', Real.sqrt_nonneg _, ?_⟩
  · rw [summary, npStd, npMean, if_neg h]
    simp only [py_ok_bind]
    rw [npMean, if_neg (by simpa using h)]
    rfl
  · rw [Real.sq_sqrt, List.length_map]
    · exact div_mul_cancel₀ _ hn.ne'
    · refine div_nonneg (List.sum_nonneg ?_) (Nat.cast_nonneg _)
      intro x hx
      obtain ⟨y, -, rfl⟩ := List.mem_map.1 hx
      exact sq_nonneg _

/-! ### Where the numbers are not the errors of the runs -/

/-- Tables of one row: the statistic is the distance of the two rows. -/
theorem columnsErr_single (tn en : Fin 3 → String) (est truth : Frame) (tt et : ℝ) (a b : Fin 3 → ℝ)
    (ht : truth.Gives tn [tt] fun i => [a i]) (he : est.Gives en [et] fun i => [b i]) :
    columnsErr tn en est truth = .ok (Real.sqrt ((b 0 - a 0) ^ 2 + (b 1 - a 1) ^ 2 + (b 2 - a 2) ^ 2)) := by
  have e0 (x y : ℝ) : interpolateError [tt] [x] [et] [y] = .ok [y - x] := rfl
  rw [columnsErr, col_ok ht.time, col_ok (ht.value 0), col_ok (ht.value 1), col_ok (ht.value 2), col_ok he.time,
    col_ok (he.value 0), col_ok (he.value 1), col_ok (he.value 2)]
  simp only [py_ok_bind, e0]
  have : rmse [b 0 - a 0] [b 1 - a 1] [b 2 - a 2] =
      .ok (Real.sqrt (((b 0 - a 0) * (b 0 - a 0) + (b 1 - a 1) * (b 1 - a 1) + (b 2 - a 2) * (b 2 - a 2) + 0) / (1 : ℕ))) := by
    rw [rmse, npMean, if_neg (by simp), if_neg (by simp)]
    rfl
  rw [this]
  congr 2
  push_cast
  ring

/-- A table of one row, at the time zero, with three columns. -/
def row3 (name : String) (x y z : ℝ) : Frame :=
  ⟨[("time", [0]), (indexed name 0, [x]), (indexed name 1, [y]), (indexed name 2, [z])]⟩

theorem row3_pos (x y z : ℝ) : (row3 "body_pos" x y z).Gives (indexed "body_pos") [0] fun i => [![x, y, z] i] :=
  ⟨rfl, fun i => by fin_cases i <;> rfl, fun i => rfl⟩

theorem bodyStat_one (dirs : List Dir) (name : String) (est truth : Frame) (truths : List Frame)
    (he : readFrames dirs "body_state" 0 = [est]) (ht : readFrames dirs "body_truth" 0 = truth :: truths) (r : ℝ)
    (h : columnsErr (indexed name) (indexed name) est truth = .ok r) : bodyStat dirs name = .ok [r] := by
  rw [bodyStat, bodyErr, he, ht]
  simp only [List.zip_cons_cons, List.zip_nil_left]
  rw [List.mapM_cons, h]
  rfl

/-- The directories of two runs: the first ended before it wrote its estimates, the second has exactly its truth. -/
def lostDirs (x : ℝ) : List Dir :=
  [[("body_truth.csv", row3 "body_pos" 0 0 0)],
   [("body_truth.csv", row3 "body_pos" x 0 0), ("body_state.csv", row3 "body_pos" x 0 0)]]

/-- A run without estimates shifts all runs behind it: their estimates are compared with the truth of another run.  The only
estimates here are exact, and the reported error is any number. -/
theorem C78_missing_violated (x : ℝ) (h : 0 ≤ x) :
    (∃ d ∈ lostDirs x, ∃ est truth, Complete d "body_state.csv" est truth ∧
      RmseOf (indexed "body_pos") (indexed "body_pos") est truth 0) ∧
    bodyStat (lostDirs x) "body_pos" = .ok [x] := by
  refine ⟨⟨_, List.mem_cons_of_mem _ (List.mem_singleton_self _), row3 "body_pos" x 0 0, row3 "body_pos" x 0 0, ⟨rfl, rfl, rfl, rfl⟩, [0], _, [0], _, row3_pos x 0 0, row3_pos x 0 0, ?_⟩,
    ?_⟩
  · refine ⟨fun i _ => ![x, 0, 0] i, ?_, le_rfl, ?_⟩
    · intro i k τ hτ
      rcases k with _ | k
      · simp only [List.getElem?_cons_zero, Option.some.injEq] at hτ
        subst hτ
        exact .inr (.inl ⟨0, rfl, le_rfl, rfl⟩)
      · simp at hτ
    · simp
  · have h1 := columnsErr_single (indexed "body_pos") (indexed "body_pos") (row3 "body_pos" x 0 0) (row3 "body_pos" 0 0 0) 0 0
      ![0, 0, 0] ![x, 0, 0] (row3_pos 0 0 0) (row3_pos x 0 0)
    have h2 : Real.sqrt ((![x, 0, 0] (0 : Fin 3) - ![(0 : ℝ), 0, 0] 0) ^ 2 + (![x, 0, 0] (1 : Fin 3) - ![(0 : ℝ), 0, 0] 1) ^ 2 +
        (![x, 0, 0] (2 : Fin 3) - ![(0 : ℝ), 0, 0] 2) ^ 2) = x := by
      simp [Real.sqrt_sq h]
    rw [h2] at h1
    exact bodyStat_one _ _ _ _ _ rfl rfl x h1

/-- The directory of a run with one row of the orientation each. -/
def turnDir (w x y z w' x' y' z' : ℝ) : Dir :=
  [("body_truth.csv", ⟨[("time", [0]), ("body_ang_pos_0", [w]), ("body_ang_pos_1", [x]), ("body_ang_pos_2", [y]),
      ("body_ang_pos_3", [z])]⟩),
    ("body_state.csv", ⟨[("time", [0]), ("body_ang_pos_0", [w']), ("body_ang_pos_1", [x']), ("body_ang_pos_2", [y']),
      ("body_ang_pos_3", [z'])]⟩)]

theorem turn_stat (w x y z w' x' y' z' : ℝ) :
    bodyStat [turnDir w x y z w' x' y' z'] "body_ang_pos" = .ok [Real.sqrt ((w' - w) ^ 2 + (x' - x) ^ 2 + (y' - y) ^ 2)] := by
  refine bodyStat_one _ _ _ _ _ rfl rfl _ (columnsErr_single _ _ _ _ 0 0 ![w, x, y] ![w', x', y'] ?_ ?_)
  · exact ⟨rfl, fun i => by fin_cases i <;> rfl, fun i => rfl⟩
  · exact ⟨rfl, fun i => by fin_cases i <;> rfl, fun i => rfl⟩

/-- The error of the orientation is not one of orientations: it takes the first three numbers of the quaternion.  A body turned
by `2 a` about the vertical and estimated as turned by `-2 a` has no error, a body estimated exactly can have the error two, as
the opposite quaternion is the same orientation. -/
theorem C78_rotation_violated :
    (∀ a, bodyStat [turnDir (Real.cos a) 0 0 (Real.sin a) (Real.cos a) 0 0 (-Real.sin a)] "body_ang_pos" = .ok [0]) ∧
    bodyStat [turnDir 1 0 0 0 (-1) 0 0 0] "body_ang_pos" = .ok [2] := by
  refine ⟨fun a => ?_, ?_⟩
  · rw [turn_stat]; simp
  · rw [turn_stat]
    have : ((-1 - 1 : ℝ) ^ 2 + (0 - 0) ^ 2 + (0 - 0) ^ 2) = 2 ^ 2 := by norm_num
    rw [this, Real.sqrt_sq (by norm_num)]

/-- A sensor whose id has two digits has no error statistics, whatever its files are. -/
theorem C78_id_violated (dirs : List Dir) (pre name : String) (id : Nat) (h : 10 ≤ id) :
    sensorStat dirs pre name id = .ok [] ∧ gpsStat dirs id = .ok ([], []) := by
  have h1 (pre : String) : readFrames dirs pre id = [] := by
    rw [readFrames, List.flatMap_eq_nil_iff]
    intro d _
    rw [if_neg (by omega), if_neg (by omega)]
    rfl
  constructor
  · rw [sensorStat, h1, sensorErr]; rfl
  · rw [gpsStat, h1]; rfl

/-- A truth file without rows, as one is written with the default rate of logging, ends the evaluation. -/
theorem C78_rows_violated (name : String) (est truth : Frame) (et : List ℝ) (ex : Fin 3 → List ℝ)
    (ht : truth.Gives (indexed name) [] fun _ => []) (he : est.Gives (indexed name) et ex) (hne : et ≠ []) :
    bodyErr name [est] [truth] = .error .valueError := by
  obtain ⟨τ, et', rfl⟩ := List.exists_cons_of_ne_nil hne
  have h1 : columnsErr (indexed name) (indexed name) est truth = .error .valueError := by
    rw [columnsErr, col_ok ht.time, col_ok (ht.value 0), col_ok (ht.value 1), col_ok (ht.value 2), col_ok he.time,
      col_ok (he.value 0), col_ok (he.value 1), col_ok (he.value 2)]
    simp only [py_ok_bind]
    have h2 (x : List ℝ) : interpolateError [] [] (τ :: et') x = .error .valueError := by
      rw [interpolateError, List.mapM_cons]
      rfl
    rw [h2]
    rfl
  rw [bodyErr]
  simp only [List.zip_cons_cons, List.zip_nil_left]
  rw [List.mapM_cons, h1]
  rfl

/-- The directory of a run with a true reference and the log of a receiver that knew the reference from its row `k` on. -/
def gpsDir (lat lon alt hdg : ℝ) (flags elat elon ealt ehdg : List ℝ) : Dir :=
  [("body_truth.csv", ⟨[("time", [0]), ("ref_lat", [lat]), ("ref_lon", [lon]), ("ref_alt", [alt]), ("ref_heading", [hdg])]⟩),
    ("gps_1.csv", ⟨[("is_initialized", flags), ("ref_lat", elat), ("ref_lon", elon), ("ref_alt", ealt),
      ("ref_heading", ehdg)]⟩)]

/-- The directory of a run whose receiver knew the reference from its first row on and kept it. -/
def knownDir (lat lon alt hdg elat elon ealt ehdg : ℝ) : Dir :=
  gpsDir lat lon alt hdg [1, 1] [elat, elat] [elon, elon] [ealt, ealt] [ehdg, ehdg]

theorem initRow_known : initRow [1, 1] = some 1 := by
  simp [initRow, List.findIdx?_cons]

theorem known_pos (lat lon alt hdg elat elon ealt ehdg : ℝ) (gps truth : Frame)
    (hg : (knownDir lat lon alt hdg elat elon ealt ehdg).lookup "gps_1.csv" = some gps)
    (ht : (knownDir lat lon alt hdg elat elon ealt ehdg).lookup "body_truth.csv" = some truth) :
    gpsErrPos1 gps truth = .ok (some (Real.sqrt ((elat - lat) ^ 2 + (elon - lon) ^ 2 + (ealt - alt) ^ 2))) ∧
    gpsErrAng1 gps truth = .ok (some (ehdg - hdg)) := by
  cases hg
  cases ht
  have hr (x y z : ℝ) : rmse [x] [y] [z] = .ok (Real.sqrt (x ^ 2 + y ^ 2 + z ^ 2)) := by
    have : rmse [x] [y] [z] = .ok (Real.sqrt ((x * x + y * y + z * z + 0) / (1 : ℕ))) := by
      rw [rmse, npMean, if_neg (by simp), if_neg (by simp)]
      rfl
    rw [this]
    congr 2
    push_cast
    ring
  constructor
  · rw [gpsErrPos1]
    simp only [Frame.col, List.lookup, py_ok_bind, beq_self_eq_true, String.reduceBEq, item, List.getElem?_cons_zero,
      List.getElem?_cons_succ, initRow_known, hr]
    rfl
  · rw [gpsErrAng1]
    simp only [Frame.col, List.lookup, py_ok_bind, beq_self_eq_true, String.reduceBEq, item, List.getElem?_cons_zero,
      List.getElem?_cons_succ, initRow_known]
    rfl

/-- The error of the reference position adds the squares of degrees and of metres: one degree of latitude, more than a hundred
kilometres, counts like one metre of height. -/
theorem C78_reference_violated (lat lon alt hdg : ℝ) :
    gpsStat [knownDir lat lon alt hdg (lat + 1) lon alt hdg] 1 = .ok ([1], [0]) ∧
    gpsStat [knownDir lat lon alt hdg lat lon (alt + 1) hdg] 1 = .ok ([1], [0]) := by
  constructor
  · obtain ⟨h1, h2⟩ := known_pos lat lon alt hdg (lat + 1) lon alt hdg _ _ rfl rfl
    have h3 : gpsStat [knownDir lat lon alt hdg (lat + 1) lon alt hdg] 1 =
        .ok ([Real.sqrt ((lat + 1 - lat) ^ 2 + (lon - lon) ^ 2 + (alt - alt) ^ 2)], [hdg - hdg]) := by
      rw [gpsStat, gpsErrPos, gpsErrAng]
      change ((do
        let pos ← (do let l ← List.mapM (fun p : Frame × Frame => gpsErrPos1 p.1 p.2) [(_, _)]; pure (l.filterMap id))
        let ang ← (do let l ← List.mapM (fun p : Frame × Frame => gpsErrAng1 p.1 p.2) [(_, _)]; pure (l.filterMap id))
        pure (pos, ang)) : Py (List ℝ × List ℝ)) = _
      rw [List.mapM_cons, List.mapM_cons]
      simp only [h1, h2]
      rfl
    rw [h3]; simp
  · obtain ⟨h1, h2⟩ := known_pos lat lon alt hdg lat lon (alt + 1) hdg _ _ rfl rfl
    have h3 : gpsStat [knownDir lat lon alt hdg lat lon (alt + 1) hdg] 1 =
        .ok ([Real.sqrt ((lat - lat) ^ 2 + (lon - lon) ^ 2 + (alt + 1 - alt) ^ 2)], [hdg - hdg]) := by
      rw [gpsStat, gpsErrPos, gpsErrAng]
      change ((do
        let pos ← (do let l ← List.mapM (fun p : Frame × Frame => gpsErrPos1 p.1 p.2) [(_, _)]; pure (l.filterMap id))
        let ang ← (do let l ← List.mapM (fun p : Frame × Frame => gpsErrAng1 p.1 p.2) [(_, _)]; pure (l.filterMap id))
        pure (pos, ang)) : Py (List ℝ × List ℝ)) = _
      rw [List.mapM_cons, List.mapM_cons]
      simp only [h1, h2]
      rfl
    rw [h3]; simp

/-- The errors of the heading have signs and are not brought to one turn: two runs that are off by `h` in opposite directions
have the mean error zero, and an exact heading can have the error `2 π`.  A run that never knows the reference is left out. -/
theorem C78_heading_violated (lat lon alt h : ℝ) :
    (gpsErrAng (readFrames [knownDir lat lon alt 0 lat lon alt h, knownDir lat lon alt 0 lat lon alt (-h)] "gps" 1)
      (readFrames [knownDir lat lon alt 0 lat lon alt h, knownDir lat lon alt 0 lat lon alt (-h)] "body_truth" 0) =
        .ok [h, -h] ∧
      ∃ sig, summary [h, -h] = .ok (0, sig)) ∧
    gpsErrAng (readFrames [knownDir lat lon alt 0 lat lon alt (2 * Real.pi)] "gps" 1)
      (readFrames [knownDir lat lon alt 0 lat lon alt (2 * Real.pi)] "body_truth" 0) = .ok [2 * Real.pi] ∧
    gpsStat [gpsDir lat lon alt 0 [0, 0] [lat, lat] [lon, lon] [alt, alt] [h, h]] 1 = .ok ([], []) := by
  have h1 (h : ℝ) := (known_pos lat lon alt 0 lat lon alt h _ _ rfl rfl).2
  refine ⟨⟨?_, ?_⟩, ?_, ?_⟩
  · rw [gpsErrAng]
    change ((do let l ← List.mapM (fun p : Frame × Frame => gpsErrAng1 p.1 p.2) [(_, _), (_, _)]; pure (l.filterMap id)) :
      Py (List ℝ)) = _
    rw [List.mapM_cons, List.mapM_cons]
    simp only [h1]
    simp only [sub_zero]
    rfl
  · obtain ⟨mu, sig, h2, h3, -⟩ := C78_summary [h, -h] (by simp)
    refine ⟨sig, ?_⟩
    have : mu = 0 := by simpa using h3
    rw [h2, this]
  · rw [gpsErrAng]
    change ((do let l ← List.mapM (fun p : Frame × Frame => gpsErrAng1 p.1 p.2) [(_, _)]; pure (l.filterMap id)) :
      Py (List ℝ)) = _
    rw [List.mapM_cons]
    simp only [h1]
    simp only [sub_zero]
    rfl
  · have h4 : initRow [0, 0] = none := by simp [initRow, List.findIdx?_cons]
    rw [gpsStat, gpsErrPos, gpsErrAng]
    change ((do
      let pos ← (do let l ← List.mapM (fun p : Frame × Frame => gpsErrPos1 p.1 p.2) [(_, _)]; pure (l.filterMap id))
      let ang ← (do let l ← List.mapM (fun p : Frame × Frame => gpsErrAng1 p.1 p.2) [(_, _)]; pure (l.filterMap id))
      pure (pos, ang)) : Py (List ℝ × List ℝ)) = _
    rw [List.mapM_cons, List.mapM_cons, gpsErrPos1, gpsErrAng1]
    simp only [Frame.col, List.lookup, py_ok_bind, beq_self_eq_true, String.reduceBEq, item, List.getElem?_cons_zero, h4]
    rfl

/-! ### Concrete cases -/

/-- Two runs: one estimate is off by 5, the other is between two rows of the truth and exact. -/
def twoRuns : List (Frame × Frame) :=
  [(row3 "body_pos" 3 4 0, row3 "body_pos" 0 0 0),
   (⟨[("time", [1]), ("body_pos_0", [1]), ("body_pos_1", [2]), ("body_pos_2", [3])]⟩,
    ⟨[("time", [0, 2]), ("body_pos_0", [0, 2]), ("body_pos_1", [0, 4]), ("body_pos_2", [0, 6])]⟩)]

/-- The directories of the two runs. -/
def twoDirs : List Dir := twoRuns.map fun p => [("body_state.csv", p.1), ("body_truth.csv", p.2)]

theorem twoRuns_usable : ∀ p ∈ twoRuns, Usable (indexed "body_pos") (indexed "body_pos") p.1 p.2 := by
  intro p hp
  simp only [twoRuns, List.mem_cons, List.not_mem_nil, or_false] at hp
  rcases hp with rfl | rfl
  · exact ⟨[0], _, [0], _, row3_pos 0 0 0, row3_pos 3 4 0, by simp, by simp, by simp⟩
  · exact ⟨[0, 2], ![[0, 2], [0, 4], [0, 6]], [1], ![[1], [2], [3]], ⟨rfl, fun i => by fin_cases i <;> rfl, fun i => by fin_cases i <;> rfl⟩,
      ⟨rfl, fun i => by fin_cases i <;> rfl, fun i => by fin_cases i <;> rfl⟩, by simp, by simp, by simp⟩

/-- `C78_body_partial`, `C78_error` and `C78_zero` apply. -/
example : ∃ rs, bodyStat twoDirs "body_pos" = .ok rs ∧
    List.Forall₂ (fun p r => RmseOf (indexed "body_pos") (indexed "body_pos") p.1 p.2 r) twoRuns rs :=
  C78_body_partial twoDirs twoRuns "body_pos" (.cons ⟨rfl, rfl, rfl, rfl⟩ (.cons ⟨rfl, rfl, rfl, rfl⟩ .nil)) twoRuns_usable

/-- `C78_sensor_partial` applies: an inertial unit with the id 3 and the position of its calibration. -/
example : ∃ rs, sensorStat [[("imu_3.csv", row3 "imu_pos" 1 0 0), ("body_truth.csv", row3 "imu_pos_3" 0 0 0)]] "imu" "imu_pos" 3 = .ok rs ∧
    List.Forall₂ (fun p r => RmseOf (indexed "imu_pos_3") (indexed "imu_pos") p.1 p.2 r)
      [(row3 "imu_pos" 1 0 0, row3 "imu_pos_3" 0 0 0)] rs := by
  refine C78_sensor_partial _ [(row3 "imu_pos" 1 0 0, row3 "imu_pos_3" 0 0 0)] "imu" "imu_pos" 3 (by norm_num) (by norm_num)
    (.cons ⟨rfl, rfl, rfl, rfl⟩ .nil) ?_
  intro p hp
  obtain rfl := List.mem_singleton.1 hp
  exact ⟨[0], fun _ => [0], [0], ![[1], [0], [0]], ⟨rfl, fun i => by fin_cases i <;> rfl, fun i => rfl⟩,
    ⟨rfl, fun i => by fin_cases i <;> rfl, fun i => by fin_cases i <;> rfl⟩, by simp, by simp, by simp⟩

/-- `C78_summary` and `C78_rows_violated` apply. -/
example : ∃ mu sig, summary [1, 3] = .ok (mu, sig) ∧ mu * (2 : ℕ) = 4 ∧ 0 ≤ sig ∧
    sig ^ 2 * (2 : ℕ) = ([1, 3].map fun x => (x - mu) ^ 2).sum := by
  obtain ⟨mu, sig, h1, h2, h3⟩ := C78_summary [1, 3] (by simp)
  exact ⟨mu, sig, h1, h2.trans (by norm_num), h3⟩

example : bodyErr "body_pos" [row3 "body_pos" 3 4 0]
    [⟨[("time", []), ("body_pos_0", []), ("body_pos_1", []), ("body_pos_2", [])]⟩] = .error .valueError :=
  C78_rows_violated "body_pos" _ _ [0] _ ⟨rfl, fun i => by fin_cases i <;> rfl, fun _ => rfl⟩ (row3_pos 3 4 0) (by simp)

end EkfCal.Eval
