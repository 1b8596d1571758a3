import Mathlib.Analysis.SpecialFunctions.Trigonometric.Basic
import Verif.Model.SimText
import Verif.Spec.SimText

/-!
# C97: the simulated run is the one the configuration describes
-/

namespace EkfCal
section
variable {K : Type} [Field K] [LinearOrder K]

theorem read_bind_iff {α β : Type} {x : Read α} {f : α → Read β} {b : β} :
    (x >>= f) = .ok b ↔ ∃ a, x = .ok a ∧ f a = .ok b := by
  cases x with
  | error e => simp [bind, Except.bind]
  | ok a => simp [bind, Except.bind]

theorem read_lift_iff {α : Type} {x : Res α} {a : α} : Read.lift x = .ok a ↔ x = .ok a := by
  cases x <;> simp [Read.lift]

theorem read_pure {α : Type} (a : α) : (pure a : Read α) = .ok a := rfl

theorem YVal.is_num {v : YVal K} {x : K} (h : v.Is x) : v.num? = some x := by
  obtain rfl | ⟨i, rfl, rfl⟩ := h <;> rfl

variable {t : YNode K} {n : String}

theorem YNode.has_num {x d : K} (h : t.HasNum n x) : t.num n d = x := by
  obtain ⟨v, h1, h2⟩ := h
  simp [YNode.num, h1, YVal.is_num h2]

theorem YNode.has_flag {b d : Bool} (h : t.HasFlag n b) : t.flag n d = b := by
  unfold YNode.HasFlag at h
  simp [YNode.flag, h]

theorem YNode.has_count {m d : Nat} (h : t.HasCount n m) : t.count n d = m := by
  obtain ⟨h1, h2⟩ := h
  unfold YNode.count
  rw [h2]
  dsimp only
  rw [if_pos ⟨by omega, by omega⟩]; rfl

theorem YNode.mapM_nums : ∀ {vs : List (YVal K)} {l : List K}, List.Forall₂ YVal.Is vs l →
    (vs.mapM fun v => match v.num? with
      | some x => (.ok x : Read K)
      | none => .error .badConversion) = .ok l
  | _, _, .nil => rfl
  | _, _, .cons h hs => by
    rw [List.mapM_cons, YVal.is_num h, YNode.mapM_nums hs]
    rfl

theorem YNode.has_list {l d : List K} (h : t.HasList n l) : t.nums n d = .ok l := by
  obtain ⟨_, h1, vs, rfl, h2⟩ := h
  unfold YNode.nums
  rw [h1]
  exact YNode.mapM_nums h2

theorem YNode.says_num (d : K) : t.Num n (t.num n d) := fun _ h => YNode.has_num h
theorem YNode.says_flag (d : Bool) : t.Flag n (t.flag n d) := fun _ h => YNode.has_flag h
theorem YNode.says_count (d : Nat) : t.Count n (t.count n d) := fun _ h => YNode.has_count h
theorem YNode.says_numbers {d x : List K} (h : t.nums n d = .ok x) : t.Numbers n x := fun _ h' =>
  Except.ok.inj (h.symm.trans (YNode.has_list h'))

theorem YNode.has_vec {x : V3 K} (h : t.HasTriple n x) : t.vec n = .ok x := by
  have : t.nums n [0, 0, 0] = .ok [x 0, x 1, x 2] := YNode.has_list h
  unfold YNode.vec
  rw [this]
  show Read.lift (stdToV3 [x 0, x 1, x 2]) = _
  have h2 : stdToV3 [x 0, x 1, x 2] = .ok (fun i : Fin 3 => [x 0, x 1, x 2].getD i 0) := rfl
  rw [h2]
  show Except.ok _ = _
  congr 1
  funext i; fin_cases i <;> rfl

theorem YNode.says_triple {x : V3 K} (h : t.vec n = .ok x) : t.Triple n x := fun _ h' =>
  Except.ok.inj (h.symm.trans (YNode.has_vec h'))

theorem YNode.says_entries {m : Nat} {x : Nat → K} (h : t.entries n m = .ok x) : t.Triple n fun i => x i := fun y h' => by
  have h1 : t.nums n [0, 0, 0] = .ok [y 0, y 1, y 2] := YNode.has_list h'
  unfold YNode.entries at h
  rw [h1] at h
  obtain ⟨l, hl, h⟩ := read_bind_iff.1 h
  obtain rfl := Except.ok.inj hl
  obtain ⟨v, hv, h⟩ := read_bind_iff.1 h
  obtain ⟨_, -, h⟩ := read_bind_iff.1 h
  obtain rfl := Except.ok.inj h
  have h2 : stdToEigVec false [y 0, y 1, y 2] = .ok ⟨3, fun i => [y 0, y 1, y 2].getD i 0⟩ := rfl
  obtain rfl := Except.ok.inj ((read_lift_iff.1 hv).symm.trans h2)
  funext i; fin_cases i <;> rfl

/-- Elements that are lists do not convert. -/
theorem YNode.mapM_points : ∀ {vs : List (YVal K)} {l : List (V3 K)}, l ≠ [] →
    List.Forall₂ (fun v p => v.AreAll [p 0, p 1, p 2]) vs l →
    (vs.mapM fun v => match v.num? with
      | some x => (.ok x : Read K)
      | none => .error .badConversion) = .error .badConversion
  | _, _, h, .nil => absurd rfl h
  | _, _, _, .cons h _ => by
    obtain ⟨_, rfl, -⟩ := h
    rw [List.mapM_cons]
    rfl

theorem YNode.nums_points {l : List (V3 K)} {d : List K} (h : t.HasPoints n l) (h0 : l ≠ []) : t.nums n d = .error .badConversion := by
  obtain ⟨_, h1, vs, rfl, h2⟩ := h
  unfold YNode.nums
  rw [h1]
  exact YNode.mapM_points h0 h2

theorem YNode.num_congr {t' : YNode K} (h : t n = t' n) (d : K) : t.num n d = t'.num n d := by unfold YNode.num; rw [h]
theorem YNode.flag_congr {t' : YNode K} (h : t n = t' n) (d : Bool) : t.flag n d = t'.flag n d := by unfold YNode.flag; rw [h]
theorem YNode.count_congr {t' : YNode K} (h : t n = t' n) (d : Nat) : t.count n d = t'.count n d := by unfold YNode.count; rw [h]
theorem YNode.text_congr {t' : YNode K} (h : t n = t' n) (d : String) : t.text n d = t'.text n d := by unfold YNode.text; rw [h]
theorem YNode.nums_congr {t' : YNode K} (h : t n = t' n) (d : List K) : t.nums n d = t'.nums n d := by unfold YNode.nums; rw [h]
theorem YNode.vec_congr {t' : YNode K} (h : t n = t' n) : t.vec n = t'.vec n := by unfold YNode.vec; rw [YNode.nums_congr h]
theorem YNode.entries_congr {t' : YNode K} (h : t n = t' n) (m : Nat) : t.entries n m = t'.entries n m := by
  unfold YNode.entries; rw [YNode.nums_congr h]

/-- The errors of the IMU are those of its block. -/
theorem C97_imu_partial {s : ImuErrors K} (h : readImu t = .ok s) : t.Imu s := by
  unfold readImu at h
  obtain ⟨a, ha, h⟩ := read_bind_iff.1 h
  obtain ⟨b, hb, h⟩ := read_bind_iff.1 h
  obtain ⟨c, hc, h⟩ := read_bind_iff.1 h
  obtain ⟨d, hd, h⟩ := read_bind_iff.1 h
  obtain ⟨e, he, h⟩ := read_bind_iff.1 h
  obtain ⟨f, hf, h⟩ := read_bind_iff.1 h
  obtain rfl := Except.ok.inj h
  exact ⟨YNode.says_flag _, YNode.says_num _, YNode.says_triple hc, YNode.says_triple hd, YNode.says_triple ha, YNode.says_triple hb,
    YNode.says_triple he, YNode.says_triple hf⟩

/-- The errors of the camera are those of its block. -/
theorem C97_camera_partial {s : CamErrors K} (h : readCam t = .ok s) : t.Camera s := by
  unfold readCam at h
  obtain ⟨a, ha, h⟩ := read_bind_iff.1 h
  obtain ⟨b, hb, h⟩ := read_bind_iff.1 h
  obtain rfl := Except.ok.inj h
  exact ⟨YNode.says_flag _, YNode.says_num _, YNode.says_triple ha, YNode.says_triple hb⟩

/-- The features of the tracker are those of its block. -/
theorem C97_room (t : YNode K) : t.Room (readRoom t) := ⟨YNode.says_flag _, YNode.says_count _, YNode.says_num _⟩

/-- The errors of the board are those of its block. -/
theorem C97_board {s : BoardErrors K} (h : readBoard t = .ok s) : t.Board s := by
  unfold readBoard at h
  obtain ⟨a, ha, h⟩ := read_bind_iff.1 h
  obtain ⟨b, hb, h⟩ := read_bind_iff.1 h
  obtain ⟨c, hc, h⟩ := read_bind_iff.1 h
  obtain ⟨d, hd, h⟩ := read_bind_iff.1 h
  obtain rfl := Except.ok.inj h
  exact ⟨YNode.says_flag _, YNode.says_triple ha, YNode.says_triple hb, YNode.says_triple hc, YNode.says_triple hd⟩

/-- The errors of the antenna are those of its block, if its position error is not called as documented. -/
theorem C97_gps_partial {s : GpsErrors K} (h : readGps t = .ok s) : t.Gps s := by
  unfold readGps at h
  obtain ⟨a, ha, h⟩ := read_bind_iff.1 h
  obtain ⟨b, hb, h⟩ := read_bind_iff.1 h
  obtain ⟨_, -, h⟩ := read_bind_iff.1 h
  obtain rfl := Except.ok.inj h
  exact ⟨YNode.says_flag _, YNode.says_num _, YNode.says_triple ha, YNode.says_triple hb⟩

end

/-! ## The motion -/

/-- A coordinate of the cyclic truth. -/
theorem swings_of {x : ℝ → ℝ} {s o a f : ℝ}
    (h : ∀ τ, s ≤ τ → x τ = a / 2 * (1 - Real.cos (f * 2 * Real.pi * (τ - s))) + o) : Swings x s o a f where
  begins := by rw [h s le_rfl]; simp
  within := fun τ hτ => ⟨(1 - Real.cos (f * 2 * Real.pi * (τ - s))) / 2, by linarith [Real.cos_le_one (f * 2 * Real.pi * (τ - s))],
    by linarith [Real.neg_one_le_cos (f * 2 * Real.pi * (τ - s))], by rw [h τ hτ]; ring⟩
  reaches := fun hf => by
    have h0 : 0 < 1 / (2 * f) := by positivity
    rw [h _ (by linarith), show f * 2 * Real.pi * (s + 1 / (2 * f) - s) = Real.pi by field_simp; ring, Real.cos_pi]
    ring
  period := fun hf τ hτ => by
    have h0 : 0 < 1 / f := by positivity
    rw [h _ (by linarith), h _ hτ, show f * 2 * Real.pi * (τ + 1 / f - s) = f * 2 * Real.pi * (τ - s) + 2 * Real.pi by field_simp; ring,
      Real.cos_add_two_pi]
  still := fun hf τ hτ => by rw [h τ hτ, hf]; simp

section
variable {t : YNode ℝ}

/-- The run is the one its block describes. -/
theorem C97_run_partial {w : WorldConfig ℝ} (h : readWorld t = .ok w) : t.Run w := by
  unfold readWorld at h
  obtain ⟨o, ho, h⟩ := read_bind_iff.1 h
  obtain ⟨pe, hpe, h⟩ := read_bind_iff.1 h
  obtain ⟨ae, hae, h⟩ := read_bind_iff.1 h
  obtain ⟨re, hre, h⟩ := read_bind_iff.1 h
  cases o with
  | none => exact absurd h (by simp)
  | some tr =>
    obtain rfl := Except.ok.inj h
    refine ⟨fun n h0 hn => ?_, YNode.says_num _, fun s hs h1 => ?_, fun hc => ?_, fun hc => ?_, fun hc => ?_, YNode.says_triple hpe,
      YNode.says_entries hae, YNode.says_entries hre, YNode.says_num _⟩
    · simp only [YNode.has_count hn, h0, if_true]
    · simp only [YNode.has_num h1]; exact max_eq_left hs
    · unfold readTruth YNode.text at ho
      rw [hc] at ho
      obtain ⟨pf, hpf, ho⟩ := read_bind_iff.1 ho
      obtain ⟨af, haf, ho⟩ := read_bind_iff.1 ho
      obtain ⟨po, hpo, ho⟩ := read_bind_iff.1 ho
      obtain ⟨ao, hao, ho⟩ := read_bind_iff.1 ho
      obtain rfl := Option.some.inj (Except.ok.inj ho)
      refine ⟨_, rfl, fun f o a hf ho ha i => ?_, fun f o a hf ho ha i => ?_⟩
      · obtain rfl := YNode.says_triple hpf _ hf
        obtain rfl := YNode.says_triple hpo _ ho
        obtain rfl := YNode.says_num (n := "pos_amplitude") 1 _ ha
        refine ⟨swings_of fun τ hτ => ?_, fun τ hτ => ?_⟩
        · simp only [CyclicTruth.position]
          rw [if_neg (by linarith)]
        · simp only [CyclicTruth.position]
          rw [if_pos (by linarith)]
      · obtain rfl := YNode.says_triple haf _ hf
        obtain rfl := YNode.says_triple hao _ ho
        obtain rfl := YNode.says_num (n := "ang_amplitude") (1 / 10) _ ha
        refine swings_of fun τ hτ => ?_
        simp only [CyclicTruth.rollPitchYaw]
        rw [if_neg (by linarith)]
    · unfold readTruth YNode.text at ho
      rw [hc] at ho
      obtain ⟨p, hp, ho⟩ := read_bind_iff.1 ho
      obtain ⟨a, ha, ho⟩ := read_bind_iff.1 ho
      obtain ⟨pe, hpe, ho⟩ := read_bind_iff.1 ho
      obtain ⟨ae, hae, ho⟩ := read_bind_iff.1 ho
      obtain rfl := Option.some.inj (Except.ok.inj ho)
      exact ⟨_, _, _, _, rfl, YNode.says_numbers hp, YNode.says_numbers ha, YNode.says_numbers hpe, YNode.says_numbers hae⟩
    · unfold readTruth YNode.text at ho
      rw [hc] at ho
      obtain ⟨ts, hts, ho⟩ := read_bind_iff.1 ho
      obtain ⟨p, hp, ho⟩ := read_bind_iff.1 ho
      obtain ⟨a, ha, ho⟩ := read_bind_iff.1 ho
      obtain ⟨pe, hpe, ho⟩ := read_bind_iff.1 ho
      obtain ⟨ae, hae, ho⟩ := read_bind_iff.1 ho
      obtain rfl := Option.some.inj (Except.ok.inj ho)
      exact ⟨_, _, _, _, _, rfl, YNode.says_numbers hts, YNode.says_numbers hp, YNode.says_numbers ha, YNode.says_numbers hpe,
        YNode.says_numbers hae⟩

/-! ## When the program starts -/

/-- Nothing, or three numbers. -/
def YNode.FitsTriple (t : YNode ℝ) (n : String) : Prop := t n = none ∨ ∃ x, t.HasTriple n x
/-- Nothing, or a list of numbers. -/
def YNode.FitsList (t : YNode ℝ) (n : String) : Prop := t n = none ∨ ∃ l, t.HasList n l

theorem YNode.fits_list {n : String} (d : List ℝ) (h : t.FitsList n) : ∃ l, t.nums n d = .ok l := by
  obtain h | ⟨l, h⟩ := h
  · exact ⟨d, by simp [YNode.nums, h]⟩
  · exact ⟨l, YNode.has_list h⟩

theorem YNode.fits_nums {n : String} (h : t.FitsTriple n) : ∃ x : V3 ℝ, t.nums n [0, 0, 0] = .ok [x 0, x 1, x 2] := by
  obtain h | ⟨x, h⟩ := h
  · exact ⟨0, by simp [YNode.nums, h]⟩
  · exact ⟨x, YNode.has_list h⟩

theorem YNode.fits_vec {n : String} (h : t.FitsTriple n) : ∃ x, t.vec n = .ok x := by
  obtain ⟨x, hx⟩ := YNode.fits_nums h
  exact ⟨_, by unfold YNode.vec; rw [hx]; rfl⟩

theorem YNode.fits_entries {n : String} {m : Nat} (hm : m ≤ 3) (h : t.FitsTriple n) : ∃ x, t.entries n m = .ok x := by
  obtain ⟨x, hx⟩ := YNode.fits_nums h
  refine ⟨fun i => [x 0, x 1, x 2].getD i 0, ?_⟩
  unfold YNode.entries
  rw [hx]
  show (Read.lift (guardUB (m ≤ 3) .outOfRange) >>= fun _ => _) = _
  rw [guardUB, if_pos hm]
  rfl

/-- The program starts if the kind of truth is known, errors, frequencies and offsets have three entries and lists are lists of numbers. -/
theorem C97_starts (ht : t "truth_type" = none ∨ ∃ s ∈ ["cyclic", "spline", "smoother"], t "truth_type" = some (.str s))
    (h3 : ∀ n ∈ ["pos_frequency", "ang_frequency", "pos_offset", "ang_offset", "pos_b_in_l_error", "ang_b_to_l_error", "pos_e_in_g_error"],
      t.FitsTriple n)
    (hl : ∀ n ∈ ["times", "positions", "angles", "pos_errors", "ang_errors"], t.FitsList n) : ∃ w, readWorld t = .ok w := by
  have hT : ∃ o, readTruth t = .ok (some o) := by
    obtain ⟨a, ha⟩ := YNode.fits_vec (h3 "pos_frequency" (by simp))
    obtain ⟨b, hb⟩ := YNode.fits_vec (h3 "ang_frequency" (by simp))
    obtain ⟨c, hc⟩ := YNode.fits_vec (h3 "pos_offset" (by simp))
    obtain ⟨d, hd⟩ := YNode.fits_vec (h3 "ang_offset" (by simp))
    obtain ⟨e, he⟩ := YNode.fits_list [0, 0, 0] (hl "times" (by simp))
    obtain ⟨f, hf⟩ := YNode.fits_list [0, 0, 0] (hl "positions" (by simp))
    obtain ⟨g, hg⟩ := YNode.fits_list [0, 0, 0] (hl "angles" (by simp))
    obtain ⟨k, hk⟩ := YNode.fits_list [0, 0, 0] (hl "pos_errors" (by simp))
    obtain ⟨l, hl⟩ := YNode.fits_list [0, 0, 0] (hl "ang_errors" (by simp))
    unfold readTruth YNode.text
    obtain h | ⟨s, hs, h⟩ := ht
    · rw [h]
      exact ⟨_, by dsimp only; rw [ha, hb, hc, hd]; rfl⟩
    · rw [h]
      simp only [List.mem_cons, List.not_mem_nil, or_false] at hs
      obtain rfl | rfl | rfl := hs
      · exact ⟨_, by dsimp only; rw [ha, hb, hc, hd]; rfl⟩
      · exact ⟨_, by dsimp only; rw [hf, hg, hk, hl]; rfl⟩
      · exact ⟨_, by dsimp only; rw [he, hf, hg, hk, hl]; rfl⟩
  obtain ⟨o, ho⟩ := hT
  obtain ⟨a, ha⟩ := YNode.fits_vec (h3 "pos_b_in_l_error" (by simp))
  obtain ⟨b, hb⟩ := YNode.fits_entries (m := 2) (by simp) (h3 "ang_b_to_l_error" (by simp))
  obtain ⟨c, hc⟩ := YNode.fits_entries (m := 3) (by simp) (h3 "pos_e_in_g_error" (by simp))
  unfold readWorld
  rw [ho, ha, hb, hc]
  exact ⟨_, rfl⟩

/-! ## What the documentation says and the program does not do -/

/-- Waypoints written as documented, one list for each, end the simulation before it begins. -/
theorem C97_waypoints_violated {ps : List (V3 ℝ)} (h : t.HasPoints "positions" ps) (h0 : ps ≠ [])
    (ht : t "truth_type" = some (.str "spline")) : readWorld t = .error .badConversion := by
  have hT : readTruth t = .error .badConversion := by
    unfold readTruth YNode.text
    rw [ht]
    dsimp only
    rw [YNode.nums_points h h0]
    rfl
  unfold readWorld
  rw [hT]
  rfl

/-- The names the program looks up at the top. -/
def worldNames : List String := ["seed", "max_time", "truth_type", "stationary_time", "pos_frequency", "ang_frequency", "pos_offset",
  "ang_offset", "pos_amplitude", "ang_amplitude", "times", "positions", "angles", "pos_errors", "ang_errors", "pos_b_in_l_error",
  "ang_b_to_l_error", "pos_e_in_g_error", "ang_l_to_e_error"]

/-- Values under other names have no effect; among them are four that are documented. -/
theorem C97_unread (t t' : YNode ℝ) (h : ∀ n ∈ worldNames, t n = t' n) : readWorld t = readWorld t' ∧
    ∀ n ∈ ["use_seed", "pos_l_in_g_error", "ang_l_to_g_error", "run_number"], n ∉ worldNames := by
  refine ⟨?_, by decide⟩
  have hT : readTruth t = readTruth t' := by
    unfold readTruth
    rw [YNode.text_congr (h "truth_type" (by decide)), YNode.vec_congr (h "pos_frequency" (by decide)),
      YNode.vec_congr (h "ang_frequency" (by decide)), YNode.vec_congr (h "pos_offset" (by decide)),
      YNode.vec_congr (h "ang_offset" (by decide)), YNode.num_congr (h "pos_amplitude" (by decide)),
      YNode.num_congr (h "ang_amplitude" (by decide)), YNode.nums_congr (h "times" (by decide)),
      YNode.nums_congr (h "positions" (by decide)), YNode.nums_congr (h "angles" (by decide)),
      YNode.nums_congr (h "pos_errors" (by decide)), YNode.nums_congr (h "ang_errors" (by decide))]
  unfold readWorld
  rw [hT, YNode.count_congr (h "seed" (by decide)), YNode.vec_congr (h "pos_b_in_l_error" (by decide)),
    YNode.entries_congr (h "ang_b_to_l_error" (by decide)), YNode.entries_congr (h "pos_e_in_g_error" (by decide)),
    YNode.num_congr (h "max_time" (by decide)), YNode.num_congr (h "stationary_time" (by decide)),
    YNode.num_congr (h "ang_l_to_e_error" (by decide))]

/-- The position error of an antenna has no effect under its documented name, nor has the constant error of its clock. -/
theorem C97_gps_unread (t : YNode ℝ) (a b : Option (YVal ℝ)) :
    readGps (Function.update (Function.update t "pos_a_in_b_err" a) "time_bias_error" b) = readGps t := by
  have h : ∀ n, n ≠ "pos_a_in_b_err" → n ≠ "time_bias_error" →
      Function.update (Function.update t "pos_a_in_b_err" a) "time_bias_error" b n = t n := fun n h1 h2 => by
    rw [Function.update_of_ne h2, Function.update_of_ne h1]
  simp only [readGps, YNode.vec, YNode.nums, YNode.num, YNode.flag, h "no_errors" (by decide) (by decide),
    h "time_error" (by decide) (by decide), h "lla_error" (by decide) (by decide), h "pos_a_in_b_error" (by decide) (by decide),
    h "pos_e_in_g_error" (by decide) (by decide)]

/-- Nor has that of the clocks of cameras and IMUs. -/
theorem C97_clock_unread (t : YNode ℝ) (b : Option (YVal ℝ)) :
    readImu (Function.update t "time_bias_error" b) = readImu t ∧ readCam (Function.update t "time_bias_error" b) = readCam t := by
  have h : ∀ n, n ≠ "time_bias_error" → Function.update t "time_bias_error" b n = t n := fun n h1 => Function.update_of_ne h1 _ _
  constructor
  · simp only [readImu, YNode.vec, YNode.nums, YNode.num, YNode.flag, h "no_errors" (by decide), h "time_error" (by decide),
      h "acc_error" (by decide), h "omg_error" (by decide), h "pos_error" (by decide), h "ang_error" (by decide),
      h "acc_bias_error" (by decide), h "omg_bias_error" (by decide)]
  · simp only [readCam, YNode.vec, YNode.nums, YNode.num, YNode.flag, h "no_errors" (by decide), h "time_error" (by decide),
      h "pos_error" (by decide), h "ang_error" (by decide)]

theorem readWorld_form {w : WorldConfig ℝ} (h : readWorld t = .ok w) :
    w.seed = (if 0 < t.count "seed" 1 then some (t.count "seed" 1) else none) ∧
    w.stationary = max (t.num "stationary_time" (1 / 10)) (1 / 10) ∧ w.headingErr = t.num "ang_l_to_e_error" 0 := by
  unfold readWorld at h
  obtain ⟨o, ho, h⟩ := read_bind_iff.1 h
  obtain ⟨pe, hpe, h⟩ := read_bind_iff.1 h
  obtain ⟨ae, hae, h⟩ := read_bind_iff.1 h
  obtain ⟨re, hre, h⟩ := read_bind_iff.1 h
  cases o with
  | none => exact absurd h (by simp)
  | some tr =>
    obtain rfl := Except.ok.inj h
    exact ⟨rfl, rfl, rfl⟩

/-- A seed written as the documentation writes it, with a decimal point, is taken to be 1. -/
theorem C97_seed_violated {w : WorldConfig ℝ} (h : readWorld t = .ok w) {x : ℝ} (hs : t "seed" = some (.dec x)) : w.seed = some 1 := by
  rw [(readWorld_form h).1]
  have : t.count "seed" 1 = 1 := by simp [YNode.count, hs]
  rw [this]; rfl

/-- A shorter time of rest is prolonged. -/
theorem C97_rest_violated {w : WorldConfig ℝ} (h : readWorld t = .ok w) {s : ℝ} (hs : t.HasNum "stationary_time" s) (h1 : s < 1 / 10) :
    w.stationary = 1 / 10 := by
  rw [(readWorld_form h).2.1, YNode.has_num hs]
  exact max_eq_right h1.le

/-- The angles do not rest at their offset. -/
theorem C97_angles_violated {w : WorldConfig ℝ} {e : CyclicTruth} (h : w.truth.cyclicTruth w.stationary = some e)
    {τ : ℝ} (hτ : τ < w.stationary) : e.rollPitchYaw τ = 0 := by
  have he : e.stationary = w.stationary := by
    cases hw : w.truth <;> rw [hw] at h <;> simp only [TruthConfig.cyclicTruth, reduceCtorEq, Option.some.injEq] at h
    rw [← h]
  simp only [CyclicTruth.rollPitchYaw]
  rw [if_pos (by linarith)]

/-- The documented block, with the kind of truth it names (docs/parameters.md:44-78, without the waypoints). -/
noncomputable def docSim : YNode ℝ := fun n => match n with
  | "seed" => some (.dec 0)
  | "use_seed" => some (.bool true)
  | "max_time" => some (.dec 10)
  | "stationary_time" => some (.dec (1 / 10))
  | "truth_type" => some (.str "cyclic")
  | "pos_frequency" => some (.seq [.dec (3 / 10), .dec (1 / 2), .dec (7 / 10)])
  | "ang_frequency" => some (.seq [.dec (1 / 5), .dec (3 / 10), .dec (2 / 5)])
  | "pos_offset" => some (.seq [.dec 0, .dec 0, .dec 0])
  | "ang_offset" => some (.seq [.dec 0, .dec 0, .dec 0])
  | "ang_amplitude" => some (.dec (1 / 10))
  | "pos_amplitude" => some (.dec 1)
  | "pos_b_in_l_error" => some (.seq [.dec (1 / 2), .dec (1 / 2), .dec (1 / 2)])
  | "ang_b_to_l_error" => some (.seq [.dec (3 / 10), .dec (3 / 10), .dec (3 / 10)])
  | "pos_l_in_g_error" => some (.seq [.dec 1, .dec 1, .dec 1])
  | "ang_l_to_g_error" => some (.dec (1 / 10))
  | _ => none

theorem docSim_starts : ∃ w, readWorld docSim = .ok w := ⟨_, rfl⟩

/-- The documented block itself does not describe the run it makes: the true heading of the local frame has no error. -/
theorem C97_violated : ∃ w, readWorld docSim = .ok w ∧ w.headingErr = 0 ∧ ¬ docSim.DocumentedRun w := by
  obtain ⟨w, h⟩ := docSim_starts
  have h0 : w.headingErr = 0 := by
    rw [(readWorld_form h).2.2]
    rfl
  refine ⟨w, h, h0, fun hd => ?_⟩
  have := hd.localAng (1 / 10) ⟨_, rfl, .inl rfl⟩
  rw [h0] at this
  norm_num at this

/-! ## The hypotheses can be met -/

/-- The documented block makes a body that moves up and down by one metre in the third direction, seven times in ten seconds. -/
example : ∃ w e, readWorld docSim = .ok w ∧ w.truth.cyclicTruth w.stationary = some e ∧
    RestsThenSwings (fun τ => e.position τ 2) w.stationary 0 1 (7 / 10) ∧ w.maxTime = 10 := by
  obtain ⟨w, h⟩ := docSim_starts
  have hr := C97_run_partial h
  obtain ⟨e, he, hm⟩ := hr.cyclic rfl
  have ht : ∀ (n : String) (a b c : ℝ), docSim n = some (.seq [.dec a, .dec b, .dec c]) → docSim.HasTriple n ![a, b, c] :=
    fun n a b c h => ⟨_, h, _, rfl, .cons (.inl rfl) (.cons (.inl rfl) (.cons (.inl rfl) .nil))⟩
  exact ⟨w, e, h, he, hm.pos ![3 / 10, 1 / 2, 7 / 10] ![0, 0, 0] 1 (ht _ _ _ _ rfl) (ht _ _ _ _ rfl) ⟨_, rfl, .inl rfl⟩ 2,
    hr.maxTime 10 ⟨_, rfl, .inl rfl⟩⟩

/-- The waypoints of the documentation. -/
noncomputable def docSpline : YNode ℝ := fun n => match n with
  | "truth_type" => some (.str "spline")
  | "positions" => some (.seq [.seq [.dec 0, .dec 0, .dec 0], .seq [.dec (1 / 10), .dec (1 / 10), .dec (1 / 10)]])
  | _ => none

example : readWorld docSpline = .error .badConversion :=
  C97_waypoints_violated (ps := [![0, 0, 0], ![1 / 10, 1 / 10, 1 / 10]])
    ⟨_, rfl, _, rfl, .cons ⟨_, rfl, .cons (.inl rfl) (.cons (.inl rfl) (.cons (.inl rfl) .nil))⟩
      (.cons ⟨_, rfl, .cons (.inl rfl) (.cons (.inl rfl) (.cons (.inl rfl) .nil))⟩ .nil)⟩ (by simp) rfl

/-- Waypoints in one list. -/
noncomputable def flatSpline : YNode ℝ := fun n => match n with
  | "truth_type" => some (.str "spline")
  | "positions" => some (.seq [.int 0, .int 0, .int 0, .dec (1 / 10), .dec (1 / 10), .dec (1 / 10)])
  | "stationary_time" => some (.int 0)
  | "seed" => some (.int 7)
  | _ => none

example : ∃ w, readWorld flatSpline = .ok w ∧ w.seed = some 7 ∧ w.stationary = 1 / 10 := by
  obtain ⟨w, h⟩ : ∃ w, readWorld flatSpline = .ok w := ⟨_, rfl⟩
  exact ⟨w, h, (C97_run_partial h).seed 7 (by norm_num) ⟨by norm_num, rfl⟩,
    C97_rest_violated h (s := 0) ⟨_, rfl, .inr ⟨0, rfl, by simp⟩⟩ (by norm_num)⟩

/-- Sensors. -/
example : ∃ s : GpsErrors ℝ, readGps (fun n => match n with
    | "pos_a_in_b_err" => some (.seq [.int 1, .int 1, .int 1])
    | "lla_error" => some (.seq [.int 5, .int 5, .int 5])
    | _ => none) = .ok s ∧ s.lla = ![5, 5, 5] ∧ s.pos = 0 := by
  refine ⟨_, rfl, ?_, ?_⟩
  · funext i; fin_cases i <;> simp [YNode.mapM_nums]
  · funext i; fin_cases i <;> rfl

end
end EkfCal
