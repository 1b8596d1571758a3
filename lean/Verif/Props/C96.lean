import Verif.Model.ConfigText
import Verif.Spec.ConfigText
import Verif.Spec.Cov
import Verif.Props.C73
import Verif.Props.C86

/-!
# C96: values given under the documented names take effect
-/

namespace EkfCal
variable {K : Type} [Field K] [LinearOrder K]

section values
variable {t : ParamText K} {p : List String}

theorem isNumbers_eq {v : Option (PVal K)} {m l : List K} (h : IsNumbers v l) : yamlNums v m = l := by
  obtain h | ⟨i, h, rfl⟩ := h <;> rw [h] <;> rfl

theorem says_num (d : K) : t.SaysNum p (yamlNum (t p) d) := fun y h => by
  obtain h | ⟨i, h, rfl⟩ := h <;> rw [h] <;> rfl
theorem says_bool (d : Bool) : t.SaysBool p (yamlBool (t p) d) := fun y h => by rw [h]; rfl
theorem says_str (d : String) : t.SaysStr p (yamlStr (t p) d) := fun y h => by rw [h]; rfl
theorem says_count (d : Nat) : t.SaysCount p (yamlNat (t p) d) := fun y hy h => by
  rw [h]
  unfold yamlNat
  dsimp only
  rw [if_pos ⟨by omega, by omega⟩]; rfl

theorem says_vec {l : List K} {x : V3 K} (h : stdToV3 (yamlNums (t p) l) = .ok x) : t.SaysVec p x := fun a b c hp => by
  rw [isNumbers_eq hp] at h
  have : x = fun i : Fin 3 => [a, b, c].getD i 0 := by
    have h2 : stdToV3 [a, b, c] = .ok (fun i : Fin 3 => [a, b, c].getD i 0) := rfl
    exact Except.ok.inj (h.symm.trans h2)
  rw [this]
  funext i; fin_cases i <;> rfl

theorem says_list {l : List K} {x : Vec K} (h : stdToEigVec false (yamlNums (t p) l) = .ok x) : t.SaysList p x := fun m hp => by
  rw [isNumbers_eq hp] at h
  have h2 : stdToEigVec false m = .ok ⟨m.length, fun i => m.getD i 0⟩ := rfl
  obtain rfl := Except.ok.inj (h.symm.trans h2)
  exact ⟨rfl, fun i hi => by simp [hi]⟩

theorem says_quat [IsStrictOrderedRing K] {N : Prim K} (hN : N.SqrtLaw) (l : List K) : t.SaysQuat p (stdToQuat N (yamlNums (t p) l)) :=
  fun a b c d hp hu => by
    rw [isNumbers_eq hp]
    have h1 : N.sqrt (1 : K) = 1 := by
      obtain ⟨h, hs⟩ := hN 1 zero_le_one
      rcases mul_self_eq_one_iff.1 hs with h1 | h1
      · exact h1
      · rw [h1] at h; exact absurd h (by norm_num)
    have hn : a * a + b * b + c * c + d * d = 1 := by
      have := hu
      simp only [Quat.normSq] at this
      linear_combination this
    unfold stdToQuat
    dsimp only
    rw [hn, if_pos one_pos, h1]
    simp

theorem named_list : yamlList (t p) = t.Named p := rfl

end values

theorem aug_number {i : Nat} {a : AugType} (h : augOfInt i = .ok a) : a.number = i := by
  unfold augOfInt at h
  split at h <;> first | (cases h; simp only [AugType.number]; omega) | exact absurd h (by simp)

theorem gpsInit_number {i : Nat} {a : GpsInit} (h : gpsInitOfInt i = .ok a) : a.number = i := by
  unfold gpsInitOfInt at h
  split at h <;> first | (cases h; simp only [GpsInit.number]; omega) | exact absurd h (by simp)

section load
variable {t : ParamText K} {N : Prim K}

theorem filter_says {p : EkfParams K} (h : yamlFilterParams N t.file = .ok p) : t.Filter p := by
  unfold yamlFilterParams at h
  simp only [start_bind_iff, lift_iff, start_pure, Except.ok.injEq] at h
  obtain ⟨a, ha, x, hx, y, hy, g, hg, rfl⟩ := h
  refine ⟨fun hl => ?_, fun hl => if_pos hl, says_num _, says_num _, says_num _, ?_, says_num _, says_num _, says_num _, says_bool _⟩
  · rw [show (if yamlList (t.file (.top .trackerList)) = [] then AugType.none else a) = a from if_neg hl, aug_number ha]
    exact says_count _
  · rw [gpsInit_number hg]
    exact says_count _

theorem noise_says : t.Noise fun i => if i < bodySize then some ((yamlNoise t.file).get i) else none := by
  refine ⟨fun i h => ⟨_, if_pos (by simp only [bodySize]; omega), ?_⟩, fun i h1 h2 => ⟨_, if_pos (by simp only [bodySize]; omega), ?_⟩,
    fun i h1 h2 => ⟨_, if_pos (by simp only [bodySize]; omega), ?_⟩⟩
  · simp only [yamlNoise, simProcessNoise, if_pos h]; exact says_num _
  · simp only [yamlNoise, simProcessNoise, if_neg (show ¬ i < 3 by omega), if_pos h2]; exact says_num _
  · simp only [yamlNoise, simProcessNoise, if_neg (show ¬ i < 3 by omega), if_neg (show ¬ i < 6 by omega), if_neg (show ¬ i < 9 by omega), if_pos h2]
    exact says_num _

theorem foldl_max_nat : ∀ (l : List Nat) (a : Nat), a ≤ l.foldl max a ∧ (∀ x ∈ l, x ≤ l.foldl max a) ∧ (l.foldl max a = a ∨ l.foldl max a ∈ l)
  | [], a => ⟨le_refl a, fun x h => (nomatch h), .inl rfl⟩
  | b :: l, a => by
    obtain ⟨h1, h2, h3⟩ := foldl_max_nat l (max a b)
    refine ⟨le_trans (le_max_left a b) h1, ?_, ?_⟩
    · intro x hx
      obtain rfl | hx := List.mem_cons.1 hx
      · exact le_trans (le_max_right a x) h1
      · exact h2 x hx
    · show l.foldl max (max a b) = a ∨ l.foldl max (max a b) ∈ b :: l
      rcases h3 with h3 | h3
      · rw [h3]
        rcases max_choice a b with h | h
        · exact .inl h
        · rw [h]; exact .inr (List.mem_cons_self ..)
      · exact .inr (List.mem_cons_of_mem _ h3)

theorem window_says : t.Window (yamlMaxTrack t.file) := by
  unfold yamlMaxTrack
  obtain ⟨-, h2, h3⟩ := foldl_max_nat ((yamlList (t.file (.top .trackerList))).map (fun n => yamlNat (t.file (.of .tracker n .maxTrackLength)) 20) ++
    (yamlList (t.file (.top .fiducialList))).map fun _ => 20) 0
  refine ⟨fun n hn l hl h => ?_, ?_⟩
  · have := says_count (t := t) 20 l hl h
    refine le_trans (le_of_eq this.symm) (h2 _ (List.mem_append_left _ (List.mem_map.2 ⟨n, hn, rfl⟩)))
  · refine h3.imp id fun h3 => ?_
    rcases List.mem_append.1 h3 with h | h
    · obtain ⟨n, hn, h⟩ := List.mem_map.1 h
      rw [← h]
      cases hv : t ["tracker", n, "max_track_length"] with
      | none => left; show yamlNat (t _) 20 = 20; exact hv ▸ rfl
      | some v =>
        have hy : yamlNat (t.file (.of .tracker n .maxTrackLength)) 20 = yamlNat (some v) 20 := by rw [← hv]; rfl
        rw [hy]
        cases v with
        | int i =>
          unfold yamlNat
          dsimp only
          split
          · rename_i hi
            refine .inr ⟨n, hn, ?_⟩
            rw [hv, Int.toNat_of_nonneg hi.1]
          · exact .inl rfl
        | _ => exact .inl rfl
    · obtain ⟨n, -, h⟩ := List.mem_map.1 h
      exact .inl h.symm

variable [IsStrictOrderedRing K]

theorem imu_says (hN : N.SqrtLaw) {n : String} {s : ImuSetup K} (h : yamlImu N t.file n = .ok s) : t.Imu n s := by
  unfold yamlImu at h
  simp only [start_bind_iff, lift_iff, start_pure, Except.ok.injEq] at h
  obtain ⟨x, hx, y, hy, z, hz, v, hv, rfl⟩ := h
  exact ⟨rfl, says_str _, says_num _, says_num _, says_bool _, says_bool _, says_list hv, says_vec hx, says_quat hN _, says_vec hy, says_vec hz,
    says_num _, says_num _, says_num _, says_num _⟩

theorem tracker_says {n : String} {b : Bool} {r : K} {s : TrackerSetup K} (h : yamlTracker t.file n b r = .ok s) : t.Tracker n s := by
  unfold yamlTracker at h
  simp only [start_bind_iff, lift_iff, start_pure, Except.ok.injEq] at h
  obtain ⟨_, -, rfl⟩ := h
  exact ⟨says_num _, says_count _, says_count _⟩

theorem board_says (hN : N.SqrtLaw) {n : String} {b : Bool} {r : K} {s : BoardSetup K} (h : yamlBoard N t.file n b r = .ok s) : t.Board n s := by
  unfold yamlBoard at h
  simp only [start_bind_iff, lift_iff, start_pure, Except.ok.injEq] at h
  obtain ⟨_, -, x, hx, v, hv, rfl⟩ := h
  exact ⟨says_count _, says_count _, says_num _, says_num _, says_count _, says_vec hx, says_quat hN _, says_list hv, says_bool _⟩

theorem named_says {α : Type} {P : α → Prop} {g : String → Start α} {v : Option (PVal K)} {a : Option α} {m : String} (hm : v = some (.str m))
    (h0 : m ≠ "") (h : ifNamed (yamlStr v "") g = .ok a) (hg : ∀ x, g m = .ok x → P x) : ∃ r, a = some r ∧ P r := by
  rw [hm] at h
  change ifNamed m g = .ok a at h
  unfold ifNamed at h
  rw [if_neg h0, start_map_iff] at h
  obtain ⟨x, hx, rfl⟩ := h
  exact ⟨x, rfl, hg x hx⟩

theorem camera_says (hN : N.SqrtLaw) {n : String} {s : CameraSetup K} (h : yamlCamera N t.file n = .ok s) : t.Camera n s := by
  unfold yamlCamera at h
  simp only [start_bind_iff, lift_iff, start_pure, Except.ok.injEq] at h
  obtain ⟨x, hx, v, hv, k, hk, b, hb, rfl⟩ := h
  exact ⟨rfl, says_str _, says_num _, says_num _, says_bool _, says_list hv, says_vec hx, says_quat hN _, says_num _, says_num _,
    says_num _, says_num _, says_num _, says_num _, says_num _, says_num _, says_num _, says_num _, says_num _,
    fun m hm h0 => named_says hm h0 hk fun _ h => tracker_says h, fun m hm h0 => named_says hm h0 hb fun _ h => board_says hN h⟩

theorem gps_says {n : String} {s : GpsSetup K} (h : yamlGps t.file n = .ok s) : t.Gps n s := by
  unfold yamlGps at h
  simp only [start_bind_iff, lift_iff, start_pure, Except.ok.injEq] at h
  obtain ⟨x, hx, v, hv, rfl⟩ := h
  exact ⟨rfl, says_str _, says_num _, says_num _, says_vec hx, says_vec hv, says_bool _⟩

theorem mapM_says {β : Type} {P : String → β → Prop} {g : String → Start β} : ∀ {l : List String} {bs : List β}, l.mapM g = .ok bs →
    (∀ a b, g a = .ok b → P a b) → List.Forall₂ P l bs := by
  intro l
  induction l with
  | nil => intro bs h _; cases h; exact .nil
  | cons a l ih =>
    intro bs h hg
    simp only [List.mapM_cons, start_bind_iff, start_pure, Except.ok.injEq] at h
    obtain ⟨b, hb, cs, hc, rfl⟩ := h
    exact .cons (hg a b hb) (ih hc hg)

end load

variable [IsStrictOrderedRing K]

/-- Whatever file the simulation starts on, its filter and its sensors have the values the file gives under the documented names, but for
the local frame (and what the structures of the specification leave out). -/
theorem C96_sim_partial (N : Prim K) (hN : N.SqrtLaw) (t : ParamText K) (b : Setup K) (h : simSetup N t.file = .ok b) : t.Describes b := by
  unfold simSetup at h
  simp only [start_bind_iff, start_pure, Except.ok.injEq] at h
  obtain ⟨p, hp, imus, hi, cams, hc, gpss, hg, rfl⟩ := h
  exact ⟨filter_says hp, noise_says, says_num _, ⟨_, rfl, window_says⟩, mapM_says hi fun _ _ => imu_says hN, mapM_says hc fun _ _ => camera_says hN,
    mapM_says hg fun _ _ => gps_says⟩

/-- The same of the filter and the IMUs of the node, for files without gaps. -/
theorem C96_node_partial (N : Prim K) (hN : N.SqrtLaw) (t : ParamText K) (hf : t.file.Complete) (hc : t.file.Counts) (a : Setup K)
    (h : nodeSetup N t.file = .ok a) :
    t.Filter a.filter ∧ List.Forall₂ t.Imu (t.Named ["imu_list"]) a.imus ∧
      List.Forall₂ (fun n (c : CameraSetup K) => c.name = n ∧ t.SaysVec ["camera", n, "pos_c_in_b"] c.config.calib.pos ∧
        t.SaysQuat ["camera", n, "ang_c_to_b"] c.config.calib.ang) (t.Named ["camera_list"]) a.cameras ∧
      List.Forall₂ (fun n (g : GpsSetup K) => g.name = n ∧ t.SaysVec ["gps", n, "pos_a_in_b"] g.config.pos ∧
        t.SaysVec ["gps", n, "variance"] g.config.variance) (t.Named ["gps_list"]) a.gpss := by
  obtain ⟨b, hb, l⟩ := C73_same_partial N t.file hf hc h
  have d := C96_sim_partial N hN t b hb
  refine ⟨l.filter ▸ d.filter, l.imus ▸ d.imus, ?_, ?_⟩
  · have h2 := l.cameras
    have h1 := d.cameras
    generalize a.cameras = xs at h2
    generalize b.cameras = ys at h1 h2
    generalize t.Named ["camera_list"] = ns at h1
    clear h hb l d hc hf
    induction h1 generalizing xs with
    | nil => cases h2; exact .nil
    | cons hx _ ih =>
      obtain _ | ⟨hy, ht⟩ := h2
      exact .cons ⟨hy.name.trans hx.name, hy.config ▸ hx.pos, hy.config ▸ hx.ang⟩ (ih _ ht)
  · have h2 := l.gpss
    have h1 := d.gpss
    generalize a.gpss = xs at h2
    generalize b.gpss = ys at h1 h2
    generalize t.Named ["gps_list"] = ns at h1
    clear h hb l d hc hf
    induction h1 generalizing xs with
    | nil => cases h2; exact .nil
    | cons hx _ ih =>
      obtain _ | ⟨hy, ht⟩ := h2
      exact .cons ⟨hy.name.trans hx.name, hy.pos ▸ hx.pos, hy.variance ▸ hx.variance⟩ (ih _ ht)

omit [IsStrictOrderedRing K] in
/-- **The documented names of the local frame**, and the switch for logging, are read by neither program: any value there, or none, starts
the same filter with the same sensors. -/
theorem C96_unread (N : Prim K) (t t' : ParamText K) (h : ∀ p, p ≠ ["pos_l_in_g"] → p ≠ ["ang_l_to_g"] → p ≠ ["data_logging_on"] → t' p = t p) :
    simSetup N t'.file = simSetup N t.file ∧ nodeSetup N t'.file = nodeSetup N t.file := by
  have : t'.file = t.file := by
    funext k
    refine h k.path ?_ ?_ ?_ <;>
    · cases k with
      | top f => cases f <;> simp [PKey.path, TopField.path]
      | of k n f => simp [PKey.path]
  rw [this]
  exact ⟨rfl, rfl⟩

omit [IsStrictOrderedRing K] in
/-- **The least distance of features** under its documented name is not read by the simulation. -/
theorem C96_distance (N : Prim K) (t t' : ParamText K) (n : String) (h : ∀ p, p ≠ ["tracker", n, "min_feature_distance"] → t' p = t p) :
    simSetup N t'.file = simSetup N t.file := by
  have ht : ∀ f, t'.file (.top f) = t.file (.top f) := fun f => h _ (by cases f <;> simp [PKey.path, TopField.path])
  have hk : ∀ k m f, f ≠ .minFeatureDistance → t'.file (.of k m f) = t.file (.of k m f) := fun k m f hf => h _ (by
    cases k <;> cases f <;> simp [PKey.path, PField.path, PKind.name] at hf ⊢)
  unfold simSetup yamlFilterParams yamlImu yamlCamera yamlGps yamlNoise yamlMaxTrack yamlTracker yamlBoard yamlIntrinsics
  simp (discharger := simp) only [ht, hk]

/-- A file that places the local frame as documented: on the equator, at longitude 30. -/
def C96_text : ParamText ℚ := fun p => if p = ["pos_l_in_g"] then some (.nums [0, 30, 0]) else none

/-- **The documented position of the local frame is ignored**: a program that starts on such a file has the frame at longitude 0. -/
theorem C96_violated : ¬ ∀ (N : Prim ℚ) (t : ParamText ℚ) (b : Setup ℚ), simSetup N t.file = .ok b ∨ nodeSetup N t.file = .ok b → t.Frame b.filter := by
  intro hall
  obtain ⟨b, hb, h0⟩ : ∃ b, simSetup Samples.prim C96_text.file = .ok b ∧ b.filter.posEInG 1 = 0 :=
    ⟨_, rfl, rfl⟩
  have := congrFun ((hall _ _ b (.inl hb)).pos 0 30 0 (.inl rfl)) 1
  rw [h0] at this
  simp at this

/-- A file with documented entries. -/
noncomputable def C96_doc : ParamText ℝ
  | ["augmenting_type"] => some (.int 2)
  | ["augmenting_delta_time"] => some (.num 1)
  | ["augmenting_pos_error"] => some (.num 3)
  | ["augmenting_ang_error"] => some (.num 1)
  | ["ang_b_to_l"] => some (.nums [1, 0, 0, 0])
  | ["gps_init_type"] => some (.int 1)
  | ["tracker_list"] => some (.strs ["orb"])
  | ["tracker", "orb", "max_track_length"] => some (.int 7)
  | ["imu_list"] => some (.strs ["imu_1"])
  | ["imu", "imu_1", "pos_i_in_b"] => some (.ints [1, 2, 3])
  | ["imu", "imu_1", "ang_i_to_b"] => some (.nums [0, 1, 0, 0])
  | ["camera_list"] => some (.strs ["cam_1"])
  | ["imu", "imu_1", "variance"] => some (.nums [1, 1, 1, 1, 1, 1, 1, 1, 1, 1, 1, 1])
  | ["camera", "cam_1", "tracker"] => some (.str "orb")
  | ["camera", "cam_1", "variance"] => some (.nums [1, 1, 1, 1, 1, 1])
  | _ => none

example : ∃ b, simSetup realPrim C96_doc.file = .ok b ∧ realPrim.SqrtLaw ∧ b.filter.augType = .primary ∧ b.filter.augPosError = 3 ∧
    b.imus.map (·.config.calib.pos 1) = [((2 : Int) : ℝ)] ∧ b.cameras.map (fun c => c.tracker.map (·.maxTrackLength)) = [some 7] :=
  ⟨_, rfl, realPrim_lawful.sqrt, rfl, rfl, rfl, rfl⟩

/-- Without integers for numbers, which the node refuses. -/
noncomputable def C96_ros : ParamText ℝ := fun p => if p = ["imu", "imu_1", "pos_i_in_b"] then some (.nums [1, 2, 3]) else C96_doc p

example : C96_ros.file.Complete ∧ C96_ros.file.Counts ∧ ∃ a, nodeSetup realPrim C96_ros.file = .ok a := by
  refine ⟨⟨⟨_, rfl⟩, ⟨_, rfl⟩, ⟨_, rfl⟩, ⟨_, rfl⟩, ⟨_, rfl⟩, ?_, ?_, ?_, ?_⟩, ?_, _, rfl⟩
  · rintro n ⟨l, h, hn⟩
    cases h
    obtain rfl := List.mem_singleton.1 hn
    exact ⟨_, rfl⟩
  · rintro n ⟨l, h, hn⟩
    cases h
    obtain rfl := List.mem_singleton.1 hn
    exact ⟨_, rfl⟩
  · rintro n ⟨l, h, hn⟩
    cases h
  · rintro n ⟨l, h, hn⟩
    cases h
  · intro k i h
    unfold ParamText.file C96_ros C96_doc at h
    split at h
    · simp at h
    · split at h <;> simp at h <;> omega

end EkfCal
