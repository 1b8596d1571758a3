import Verif.Lemmas.Displaced
import Verif.Spec.Named

/-!
# Frame numbers are only compared
-/

namespace EkfCal

/-- Two computations whose results agree in what `p` and `p'` say of them, and continuations that look at no more. -/
theorem bind_upto {α α' γ β β' : Type} {x : Res α} {x' : Res α'} {p : α → γ} {p' : α' → γ} {k : α → Res β} {k' : α' → Res β'} {φ : β → β'}
    (h : p' <$> x' = p <$> x) (hk : ∀ a a', p' a' = p a → k' a' = φ <$> k a) : (x' >>= k') = φ <$> (x >>= k) := by
  cases x with
  | error u =>
    cases x' with
    | error u' => cases h; rfl
    | ok a' => cases h
  | ok a =>
    cases x' with
    | error u' => cases h
    | ok a' => exact hk a a' (Except.ok.inj h)

variable {K : Type} [Field K] [LinearOrder K]

theorem window_named (f : Nat → Nat) (m : UMap (List (AugState K))) (k : Nat) :
    (m.mapValues (List.map (·.named f))).getD k [] = (m.getD k []).map (·.named f) :=
  UMap.getD_mapValues (List.map (·.named f)) m k []

theorem touch_named (f : Nat → Nat) (m : UMap (List (AugState K))) (k : Nat) :
    (m.mapValues (List.map (·.named f))).touch k [] = (m.touch k []).mapValues (List.map (·.named f)) :=
  UMap.touch_mapValues (List.map (·.named f)) m k []

theorem addVec_named (N : Prim K) (f : Nat → Nat) (s : State K) (v : Vec K) :
    (s.named f).addVec N v = State.named f <$> s.addVec N v := by
  unfold State.addVec
  refine bind_same fun part => bind_same fun body => bind_same fun _ => bind_same fun _ => bind_same fun _ => bind_same fun _ => ?_
  refine bind_mapped (loopMap_displaced (List.map (·.named f)) (fun w i => loopIdx_displaced (·.named f) (fun a i => ?_) w i) s.augs _)
    fun _ => rfl
  unfold AugState.addVecAt
  exact bind_same fun p => bind_same fun q => rfl

theorem refreshAugList_named (f : Nat → Nat) (w : List (AugState K)) : ∀ i,
    Ekf.refreshAugList (w.map (·.named f)) i =
      ((Ekf.refreshAugList w i).1.map (·.named f), (Ekf.refreshAugList w i).2) := by
  induction w with
  | nil => intro i; rfl
  | cons a w ih =>
    intro i
    simp only [List.map_cons, Ekf.refreshAugList, ih]
    rfl

theorem refreshAugs_named (f : Nat → Nat) (m : UMap (List (AugState K))) : ∀ i,
    Ekf.refreshAugs (m.mapValues (List.map (·.named f))) i =
      ((Ekf.refreshAugs m i).1.mapValues (List.map (·.named f)), (Ekf.refreshAugs m i).2) := by
  induction m with
  | nil => intro i; rfl
  | cons kv m ih =>
    intro i
    obtain ⟨k, w⟩ := kv
    show Ekf.refreshAugs ((k, w.map (·.named f)) :: UMap.mapValues (List.map (·.named f)) m) i = _
    simp only [Ekf.refreshAugs, refreshAugList_named, ih]
    rfl

namespace Ekf
variable (N : Prim K) (f : Nat → Nat)

theorem refreshIndices_named {e e' : Ekf K} (h : e' = e.named f) : refreshIndices N e' = named f <$> refreshIndices N e := by
  subst h
  unfold refreshIndices
  refine bind_same fun _ => bind_same fun _ => bind_same fun _ => bind_same fun _ => bind_same fun _ => bind_same fun x => ?_
  refine congrArg Except.ok ?_
  simp only [named, State.named, refreshAugs_named]
  rfl

theorem registerIMU_named (e : Ekf K) (id : Nat) (s : ImuState K) (c : Mat K) :
    registerIMU N (e.named f) id s c = named f <$> registerIMU N e id s c := by
  unfold registerIMU
  refine ite_mapped rfl (ite_mapped (bind_same fun _ => bind_same fun _ => ?_) ?_)
  · exact bind_mapped (φ := named f) rfl fun a => by
      cases s.isExtrinsic <;> cases s.isIntrinsic <;> exact refreshIndices_named N f rfl
  · exact bind_mapped (φ := named f) rfl fun a => by
      cases s.isExtrinsic <;> cases s.isIntrinsic <;> exact refreshIndices_named N f rfl

theorem registerGPS_named (e : Ekf K) (id : Nat) (s : GpsState K) (c : Mat K) :
    registerGPS N (e.named f) id s c = named f <$> registerGPS N e id s c := by
  unfold registerGPS
  exact ite_mapped rfl (ite_mapped (bind_same fun _ => bind_same fun _ => refreshIndices_named N f rfl)
    (refreshIndices_named N f rfl))

theorem registerCamera_named (e : Ekf K) (id : Nat) (s : CamState K) (c : Mat K) :
    registerCamera N (e.named f) id s c = named f <$> registerCamera N e id s c := by
  unfold registerCamera
  refine ite_mapped rfl (bind_same fun _ => ?_)
  by_cases h : e.primaryCameraId = 0
  · have h' : (e.named f).primaryCameraId = 0 := h
    simp only [h, h', if_true]
    exact ite_mapped (bind_same fun _ => bind_same fun _ => refreshIndices_named N f rfl) (refreshIndices_named N f rfl)
  · have h' : (e.named f).primaryCameraId ≠ 0 := h
    simp only [h, h', if_false]
    exact ite_mapped (bind_same fun _ => bind_same fun _ => refreshIndices_named N f rfl) (refreshIndices_named N f rfl)

theorem registerFiducial_named (e : Ekf K) (s : FidState K) (c : Mat K) :
    registerFiducial N (e.named f) s c = named f <$> registerFiducial N e s c := by
  unfold registerFiducial
  exact ite_mapped rfl (ite_mapped (bind_same fun _ => bind_same fun _ => refreshIndices_named N f rfl)
    (refreshIndices_named N f rfl))

theorem augmentAtBack_named {e e' : Ekf K} (key : Nat) (h : e' = e.named f) :
    augmentAtBack e' key = named f <$> augmentAtBack e key := by
  subst h
  unfold augmentAtBack
  have hw : (e.named f).state.augs.getD key [] = (e.state.augs.getD key []).map (·.named (e.naming f)) := window_named _ _ _
  rw [hw, List.getLast?_map]
  cases (e.state.augs.getD key []).getLast? with
  | none => rfl
  | some a => exact bind_same fun _ => rfl

/-- Where the frames of some camera are cloned, clones carry the numbers of their frames. -/
theorem naming_clones {e : Ekf K} {cam : Nat} (h : e.augType = .all ∨ (e.augType = .primary ∧ cam = e.primaryCameraId)) :
    e.naming f = f := by
  unfold naming
  rcases h with h | ⟨h, _⟩ <;> rw [h]

theorem augmentFrame_named (e : Ekf K) (cam frame : Nat) :
    augmentFrame N (e.named f) cam (f frame) = named f <$> augmentFrame N e cam frame := by
  unfold augmentFrame
  have jp : ∀ a a' : Ekf K, a' = a.named f → (do let e ← refreshIndices N a'; e.augmentAtBack cam) =
      named f <$> (do let e ← refreshIndices N a; e.augmentAtBack cam) := fun a a' h =>
    bind_mapped (refreshIndices_named N f h) fun a => augmentAtBack_named f cam rfl
  by_cases hc : e.augType = .all ∨ (e.augType = .primary ∧ cam = e.primaryCameraId)
  · have hn : e.naming f = f := naming_clones f hc
    have hw : (e.named f).state.augs.getD cam [] ++ [({ e.named f with frameReceived := true } : Ekf K).newClone (f frame)] =
        (e.state.augs.getD cam [] ++ [({ e with frameReceived := true } : Ekf K).newClone frame]).map (·.named (e.naming f)) := by
      rw [List.map_append, hn]
      refine congrArg (· ++ _) ?_
      show (e.state.augs.mapValues (List.map (·.named (e.naming f)))).getD cam [] = _
      rw [hn]
      exact window_named f _ _
    simp only [hw, List.length_map]
    refine ite_mapped (ite_mapped ?_ ?_) rfl
    · refine jp _ _ ?_
      simp only [named, State.named, ← UMap.insert_mapValues]
      rfl
    · generalize e.state.augs.getD cam [] ++ [({ e with frameReceived := true } : Ekf K).newClone frame] = w
      cases w with
      | nil => rfl
      | cons a w =>
        refine bind_same fun c => ?_
        refine jp _ _ ?_
        simp only [named, State.named, ← UMap.insert_mapValues]
        rfl
  · have hc' : ¬ ((e.named f).augType = .all ∨ ((e.named f).augType = .primary ∧ cam = (e.named f).primaryCameraId)) := hc
    simp only [hc, hc', if_false]
    rfl

theorem pruneAt_named (e : Ekf K) (i : Nat) : pruneAt N (e.named f) i = named f <$> pruneAt N e i := by
  unfold pruneAt
  have hw : (e.named f).state.augs.getD 0 [] = (e.state.augs.getD 0 []).map (·.named (e.naming f)) := window_named _ _ _
  simp only [hw, List.getElem?_map, List.length_map]
  cases h1 : (e.state.augs.getD 0 [])[i + 1]? with
  | none => rfl
  | some b =>
    refine ite_mapped ?_ rfl
    cases h2 : (e.state.augs.getD 0 [])[i]? with
    | none => rfl
    | some a =>
      refine bind_same fun c => refreshIndices_named N f ?_
      simp only [named, State.named, ← UMap.insert_mapValues, List.eraseIdx_map]
      rfl

theorem pruneLoop_named (n : Nat) {e e' : Ekf K} (h : e' = e.named f) :
    pruneLoop N n e' = named f <$> pruneLoop N n e := by
  subst h
  induction n generalizing e with
  | zero => rfl
  | succ n ih => exact bind_mapped (pruneAt_named N f e n) fun a => ih

/-- Where clones are made by time or by error nothing has another number. -/
theorem named_timed {e : Ekf K} (h : ¬ (e.augType = .none ∨ e.augType = .all ∨ e.augType = .primary)) : e.named f = e := by
  have hn : e.naming f = id := by
    unfold naming
    split
    · rename_i h'; exact absurd (.inr (.inl h')) h
    · rename_i h'; exact absurd (.inr (.inr h')) h
    · rfl
  have hs : e.state.named id = e.state := by
    unfold State.named UMap.mapValues
    have : (fun kv : Nat × List (AugState K) => (kv.1, kv.2.map (·.named id))) = id := by
      funext kv
      obtain ⟨k, w⟩ := kv
      show (k, w.map id) = (k, w)
      rw [List.map_id]
    show ({ e.state with augs := e.state.augs.map (fun kv : Nat × List (AugState K) => (kv.1, kv.2.map (·.named id))) } : State K) = _
    rw [this, List.map_id]
  unfold named
  rw [hn, hs]

theorem augmentTimed_augType {e e1 : Ekf K} (h : augmentTimed N e = .ok e1) : e1.augType = e.augType := (frame2_augmentTimed h).augType

theorem augmentTimed_named {e e' : Ekf K} (h : e' = e.named f) : augmentTimed N e' = named f <$> augmentTimed N e := by
  subst h
  by_cases hc : e.augType = .none ∨ e.augType = .all ∨ e.augType = .primary
  · have hc' : (e.named f).augType = .none ∨ (e.named f).augType = .all ∨ (e.named f).augType = .primary := hc
    unfold augmentTimed
    rw [if_pos hc, if_pos hc']
    rfl
  · rw [named_timed f hc]
    cases h : augmentTimed N e with
    | error u => rfl
    | ok e1 =>
      refine congrArg Except.ok (named_timed f ?_).symm
      rw [augmentTimed_augType N h]
      exact hc

theorem predict_named {e e' : Ekf K} (t : K) (h : e' = e.named f) : predict N e' t = named f <$> predict N e t := by
  subst h
  unfold predict
  exact ite_mapped rfl (ite_mapped (bind_same fun _ => augmentTimed_named N f rfl) (augmentTimed_named N f rfl))

theorem kalmanUpdate_named {e e' : Ekf K} (j : Mat K) (x : Vec K) (n : Mat K) (h : e' = e.named f) :
    kalmanUpdate N e' j x n = named f <$> kalmanUpdate N e j x n := by
  subst h
  unfold kalmanUpdate
  have h1 : (e.named f).useRoot = e.useRoot := rfl
  have h2 : (e.named f).cov = e.cov := rfl
  have h3 : (e.named f).state = e.state.named (e.naming f) := rfl
  simp only [h1, h2, h3]
  cases e.useRoot <;> simp only [Bool.false_eq_true, if_true, if_false]
  · refine bind_same fun _ => bind_same fun _ => bind_same fun _ => bind_same fun _ => bind_same fun _ => bind_same fun _ => bind_same fun _ => ?_
    refine bind_mapped (addVec_named N _ _ _) fun _ => ?_
    (repeat' refine bind_same fun _ => ?_) <;> rfl
  · refine bind_same fun _ => bind_same fun _ => bind_same fun _ => bind_same fun _ => bind_same fun _ => bind_same fun _ => bind_same fun _ => bind_same fun _ => ?_
    refine bind_mapped (addVec_named N _ _ _) fun _ => ?_
    (repeat' refine bind_same fun _ => ?_) <;> rfl

theorem findFrame_named {f : Nat → Nat} (hf : Renumbers f) (frame : Nat) (w : List (AugState K)) : ∀ (a a' : AugState K),
    a'.unnamed = a.unnamed →
    ((w.map (·.named f)).foldl (fun acc a => if a.frameId = f frame then a else acc) a').unnamed =
      (w.foldl (fun acc a => if a.frameId = frame then a else acc) a).unnamed := by
  induction w with
  | nil => intro a a' h; exact h
  | cons x w ih =>
    intro a a' h
    simp only [List.map_cons, List.foldl_cons]
    by_cases hx : x.frameId = frame
    · have hx' : (x.named f).frameId = f frame := congrArg f hx
      rw [if_pos hx, if_pos hx']
      exact ih _ _ rfl
    · have hx' : ¬ (x.named f).frameId = f frame := fun h => hx (hf _ _ h)
      rw [if_neg hx, if_neg hx']
      exact ih _ _ h

theorem bracket_named (t : K) (w : List (AugState K)) : ∀ (acc acc' : K × AugState K × AugState K),
    (acc'.1, acc'.2.1.unnamed, acc'.2.2.unnamed) = (acc.1, acc.2.1.unnamed, acc.2.2.unnamed) →
    (fun x : K × AugState K × AugState K => (x.1, x.2.1.unnamed, x.2.2.unnamed)) <$> bracket t (w.map (·.named f)) acc' =
      (fun x : K × AugState K × AugState K => (x.1, x.2.1.unnamed, x.2.2.unnamed)) <$> bracket t w acc := by
  induction w with
  | nil => intro acc acc' h; exact congrArg Except.ok h
  | cons a w ih =>
    intro acc acc' h
    cases w with
    | nil => exact congrArg Except.ok h
    | cons b w =>
      simp only [List.map_cons] at ih ⊢
      unfold bracket
      by_cases h1 : a.time ≤ t ∧ t ≤ b.time
      · have h1' : (a.named f).time ≤ t ∧ t ≤ (b.named f).time := h1
        rw [if_pos h1, if_pos h1']
        by_cases h2 : b.time - a.time = 0
        · have h2' : (b.named f).time - (a.named f).time = 0 := h2
          rw [if_pos h2, if_pos h2']
        · have h2' : ¬ (b.named f).time - (a.named f).time = 0 := h2
          rw [if_neg h2, if_neg h2']
          exact ih _ _ rfl
      · have h1' : ¬ ((a.named f).time ≤ t ∧ t ≤ (b.named f).time) := h1
        rw [if_neg h1, if_neg h1']
        exact ih _ _ h

theorem interpolateClone_named (e : Ekf K) (w : List (AugState K)) (t : K) :
    interpolateClone N (e.named f) (w.map (·.named (e.naming f))) t = interpolateClone N e w t := by
  unfold interpolateClone
  rw [List.head?_map, List.getLast?_map]
  have hid : ∀ x : Res (AugState K), x = id <$> x := fun x => by cases x <;> rfl
  cases hf : w.head? with
  | none => rfl
  | some first =>
    cases hl : w.getLast? with
    | none => rfl
    | some last =>
      simp only [Option.map_some]
      by_cases h1 : t < first.time
      · have h1' : t < (first.named (e.naming f)).time := h1
        simp only [h1, h1', if_true]
        rfl
      · have h1' : ¬ t < (first.named (e.naming f)).time := h1
        simp only [h1, h1', if_false]
        by_cases h2 : t < last.time
        · have h2' : t < (last.named (e.naming f)).time := h2
          simp only [h2, h2', if_true]
          rw [hid (bracket t w _ >>= _)]
          refine bind_upto (bracket_named (e.naming f) t w (0, AugState.default, AugState.default) (0, AugState.default, AugState.default) rfl)
            fun a a' h => ?_
          obtain ⟨α, a0, a1⟩ := a
          obtain ⟨α', a0', a1'⟩ := a'
          simp only [Prod.mk.injEq] at h
          obtain ⟨h0, h1, h2⟩ := h
          subst h0
          have hp0 : a0'.pos = a0.pos := (congrArg AugState.pos h1 :)
          have hq0 : a0'.ang = a0.ang := (congrArg AugState.ang h1 :)
          have hi0 : a0'.index = a0.index := (congrArg AugState.index h1 :)
          have hp1 : a1'.pos = a1.pos := (congrArg AugState.pos h2 :)
          have hq1 : a1'.ang = a1.ang := (congrArg AugState.ang h2 :)
          simp only [hp0, hq0, hi0, hp1, hq1]
          rfl
        · have h2' : ¬ t < (last.named (e.naming f)).time := h2
          simp only [h2, h2', if_false]
          rfl

/-- The clone found for a frame is the same, but for its number. -/
theorem getAugState_named {f : Nat → Nat} (hf : Renumbers f) (e : Ekf K) (cam frame : Nat) (t : K) :
    (fun x : AugState K × Ekf K => (x.1.unnamed, x.2)) <$> getAugState N (e.named f) cam (f frame) t =
      (fun x : AugState K × Ekf K => (x.1.unnamed, x.2.named f)) <$> getAugState N e cam frame t := by
  unfold getAugState
  have hw : ∀ k, (e.named f).state.augs.getD k [] = (e.state.augs.getD k []).map (·.named (e.naming f)) := fun k => window_named _ _ _
  have ht : ∀ k, ({ e.named f with state := { (e.named f).state with augs := (e.named f).state.augs.touch k [] } } : Ekf K) =
      named f { e with state := { e.state with augs := e.state.augs.touch k [] } } := fun k => by
    simp only [named, State.named, touch_named]
    rfl
  by_cases hc : e.augType = .all ∨ (e.augType = .primary ∧ cam = e.primaryCameraId)
  · have hc2 : (e.named f).augType = .all ∨ ((e.named f).augType = .primary ∧ cam = (e.named f).primaryCameraId) := hc
    rw [if_pos hc, if_pos hc2]
    refine congrArg Except.ok (Prod.ext ?_ (ht cam))
    show (findFrame ((e.named f).state.augs.getD cam []) (f frame)).unnamed = _
    rw [hw, naming_clones f hc]
    exact findFrame_named hf frame _ _ _ rfl
  · have hc2 : ¬ ((e.named f).augType = .all ∨ ((e.named f).augType = .primary ∧ cam = (e.named f).primaryCameraId)) := hc
    rw [if_neg hc, if_neg hc2]
    simp only [hw, ht]
    have hk : (if (e.named f).augType = .primary then (e.named f).primaryCameraId else 0) =
        if e.augType = .primary then e.primaryCameraId else 0 := rfl
    simp only [hk]
    rw [interpolateClone_named]
    cases interpolateClone N e (e.state.augs.getD (if e.augType = .primary then e.primaryCameraId else 0) []) t <;> rfl

theorem calculateLocalTime_named (e : Ekf K) (t : K) : (e.named f).calculateLocalTime t =
    ((e.calculateLocalTime t).1, (e.calculateLocalTime t).2.named f) := by
  unfold calculateLocalTime
  have h : (e.named f).timeInitialized = e.timeInitialized := rfl
  rw [h]
  split <;> rfl

theorem attemptGpsInit_named {e e' : Ekf K} (t : K) (x : V3 K) (fit : List (V3 K) → List (V3 K) → GpsFit K)
    (h : e' = e.named f) : attemptGpsInit e' t x fit = named f <$> attemptGpsInit e t x fit := by
  subst h
  unfold attemptGpsInit
  exact ite_mapped (bind_same fun _ => ite_mapped rfl rfl) rfl

/-- A direct call. -/
theorem step_named {f : Nat → Nat} (hf : Renumbers f) (e : Ekf K) (op : Op K) :
    step N (e.named f) (op.named f) = named f <$> step N e op := by
  cases op with
  | registerIMU id s c => exact registerIMU_named N f e id s c
  | registerGPS id s c => exact registerGPS_named N f e id s c
  | registerCamera id s c => exact registerCamera_named N f e id s c
  | registerFiducial s c => exact registerFiducial_named N f e s c
  | predict t => exact predict_named N f t rfl
  | frame c n => exact augmentFrame_named N f e c n
  | kalman j x n => exact kalmanUpdate_named N f j x n rfl
  | getAug c n t => exact bind_upto (getAugState_named N hf e c n t) fun a a' h => congrArg (fun x : AugState K × Ekf K => (Except.ok x.2 : Res (Ekf K))) h
  | localTime t => exact congrArg (fun x => Except.ok (Prod.snd x)) (calculateLocalTime_named f e t)
  | attemptGpsInit t x g => exact attemptGpsInit_named f t x g rfl
  | _ => rfl

end Ekf

namespace ImuUpdater
variable (N : Num K) (f : Nat → Nat)

theorem zeroAccUpdate_named (u : ImuUpdater) (e : Ekf K) (t : K) (acc : V3 K) (ac : M3 K) (omg : V3 K) (oc : M3 K) :
    u.zeroAccUpdate N (e.named f) t acc ac omg oc =
      (fun x => (x.1, x.2.1, x.2.2.named f)) <$> u.zeroAccUpdate N e t acc ac omg oc := by
  unfold zeroAccUpdate
  refine ite_mapped rfl (bind_same fun _ => bind_same fun _ => bind_same fun sc => ite_mapped rfl ?_)
  by_cases h : sc < e.motionDetectionChiSquared
  · have h1 : sc < (((e.named f).getImuState u.id).2).motionDetectionChiSquared := h
    have h2 : sc < ((e.getImuState u.id).2).motionDetectionChiSquared := h
    simp only [h1, h2, if_true]
    exact bind_mapped (Ekf.predict_named N.toPrim f t rfl) fun a => bind_same fun _ =>
      bind_mapped (Ekf.kalmanUpdate_named N.toPrim f _ _ _ rfl) fun _ => rfl
  · have h1 : ¬ sc < (((e.named f).getImuState u.id).2).motionDetectionChiSquared := h
    have h2 : ¬ sc < ((e.getImuState u.id).2).motionDetectionChiSquared := h
    simp only [h1, h2, if_false]
    exact bind_mapped (Ekf.predict_named N.toPrim f t rfl) fun a => bind_same fun _ =>
      bind_mapped (Ekf.kalmanUpdate_named N.toPrim f _ _ _ rfl) fun _ => rfl

theorem update_named (u : ImuUpdater) (e : Ekf K) (t : K) (acc : V3 K) (ac : M3 K) (omg : V3 K) (oc : M3 K) :
    u.update N (e.named f) t acc ac omg oc = (fun x => (x.1, x.2.named f)) <$> u.update N e t acc ac omg oc := by
  unfold update
  rw [Ekf.calculateLocalTime_named]
  generalize e.calculateLocalTime t = p
  obtain ⟨t, e⟩ := p
  refine bind_mapped (zeroAccUpdate_named N f u e t acc ac omg oc) fun x => ?_
  refine ite_mapped rfl (ite_mapped ?_ ?_)
  · exact bind_mapped (φ := Ekf.named f) rfl fun a => bind_mapped (Ekf.predict_named N.toPrim f t rfl) fun _ => rfl
  · refine bind_same fun _ => bind_same fun _ => ?_
    exact bind_mapped (Ekf.kalmanUpdate_named N.toPrim f _ _ _ rfl) fun a =>
      bind_mapped (Ekf.predict_named N.toPrim f t rfl) fun _ => rfl

end ImuUpdater

namespace FidUpdater
variable (N : Num K) (f : Nat → Nat)

theorem update_named (u : FidUpdater K) (e : Ekf K) (t : K) (b : BoardDetection K) :
    u.update N (e.named f) t b = (fun x => (x.1, x.2.named f)) <$> u.update N e t b := by
  unfold update
  rw [Ekf.calculateLocalTime_named]
  generalize e.calculateLocalTime t = p
  obtain ⟨t, e⟩ := p
  refine bind_mapped (Ekf.predict_named N.toPrim f t rfl) fun e => ?_
  have he : ((e.named f).getCamState u.cameraId).2 = (e.getCamState u.cameraId).2.named f := rfl
  rw [he]
  generalize (e.getCamState u.cameraId).2 = e
  dsimp only
  have hfs : (e.named f).state.fids.find? u.id = e.state.fids.find? u.id := rfl
  rw [hfs]
  cases e.state.fids.find? u.id with
  | none => rfl
  | some s => exact bind_same fun _ => bind_same fun _ => bind_mapped (Ekf.kalmanUpdate_named N.toPrim f _ _ _ rfl) fun _ => rfl

end FidUpdater

namespace GpsUpdater
variable (N : Num K) (G : GpsNum K) (f : Nat → Nat)

theorem multiLoop_named (e : Ekf K) (xs : List (V3 K)) :
    ∀ (i : Nat) (ps : List (V3 K)) (u : GpsUpdater K) (jac : Mat K) (resid : Vec K),
      multiLoop N G (e.named f) i xs ps u jac resid = multiLoop N G e i xs ps u jac resid := by
  induction xs with
  | nil => intro i ps u jac resid; rfl
  | cons x xs ih =>
    intro i ps u jac resid
    cases ps with
    | nil => rfl
    | cons p ps =>
      unfold multiLoop
      simp only [ih]
      rfl

theorem multiUpdate_named (u : GpsUpdater K) (e : Ekf K) :
    u.multiUpdate N G (e.named f) = (fun x => (x.1, x.2.named f)) <$> u.multiUpdate N G e := by
  unfold multiUpdate
  have he : ((e.named f).getGpsState u.id).2 = (e.getGpsState u.id).2.named f := rfl
  rw [he]
  generalize (e.getGpsState u.id).2 = e
  dsimp only
  rw [multiLoop_named]
  refine bind_same fun _ => bind_same fun _ => ite_mapped rfl ?_
  exact bind_mapped (Ekf.kalmanUpdate_named N.toPrim f _ _ _ rfl) fun _ => rfl

theorem update_named (u : GpsUpdater K) (e : Ekf K) (t : K) (lla : V3 K) (cov : Mat K) :
    u.update N G (e.named f) t lla cov = (fun x => (x.1, x.2.named f)) <$> u.update N G e t lla cov := by
  unfold update
  rw [Ekf.calculateLocalTime_named]
  generalize e.calculateLocalTime t = p
  obtain ⟨t, e⟩ := p
  refine bind_mapped (Ekf.predict_named N.toPrim f t rfl) fun e => ite_mapped ?_ ?_
  · refine bind_same fun _ => bind_mapped (Ekf.attemptGpsInit_named f t _ _ rfl) fun e => ite_mapped ?_ rfl
    exact multiUpdate_named N G f u e
  · refine bind_same fun _ => bind_same fun _ => ?_
    exact bind_mapped (Ekf.kalmanUpdate_named N.toPrim f _ _ _ rfl) fun _ => rfl

end GpsUpdater

namespace MsckfUpdater
variable (N : Num K) {f : Nat → Nat} (hf : Renumbers f)
include hf

theorem triangulateLoop_named (u : MsckfUpdater K) (ps : List (FeaturePoint K)) :
    ∀ (a0 a0' : AugState K) (e : Ekf K) (A : M3 K) (b : V3 K), a0'.unnamed = a0.unnamed →
      u.triangulateLoop N a0' (ps.map (·.named f)) (e.named f) A b =
        (fun x => (x.1, x.2.1, x.2.2.named f)) <$> u.triangulateLoop N a0 ps e A b := by
  induction ps with
  | nil => intro a0 a0' e A b _; rfl
  | cons p ps ih =>
    intro a0 a0' e A b h0
    refine bind_upto (Ekf.getAugState_named N.toPrim hf e u.id p.frameId p.time) fun x x' h => ?_
    obtain ⟨a, e1⟩ := x
    obtain ⟨a', e1'⟩ := x'
    simp only [Prod.mk.injEq] at h
    obtain ⟨ha, he⟩ := h
    subst he
    have ht : u.triangulateTerm N a0' a' (p.named f) = u.triangulateTerm N a0 a p := by
      show u.triangulateTerm N a0'.unnamed a'.unnamed p = u.triangulateTerm N a0.unnamed a.unnamed p
      rw [h0, ha]
    simp only [ht]
    exact ih a0 a0' e1 _ _ h0

theorem triangulate_named (u : MsckfUpdater K) (e : Ekf K) (t : FeatureTrack K) :
    u.triangulate N (e.named f) (t.named f) = (fun x => (x.1, x.2.1, x.2.2.named f)) <$> u.triangulate N e t := by
  obtain ⟨track, truth⟩ := t
  cases track with
  | nil => rfl
  | cons p ps =>
    refine bind_upto (Ekf.getAugState_named N.toPrim hf e u.id p.frameId p.time) fun x x' h => ?_
    obtain ⟨a, e1⟩ := x
    obtain ⟨a', e1'⟩ := x'
    simp only [Prod.mk.injEq] at h
    obtain ⟨ha, he⟩ := h
    subst he
    refine bind_mapped (triangulateLoop_named N hf u (p :: ps) a a' e1 0 0 ha) fun y => ?_
    have hp : a'.pos = a.pos := (congrArg AugState.pos ha :)
    have hq : a'.ang = a.ang := (congrArg AugState.ang ha :)
    simp only [hp, hq]
    exact ite_mapped (ite_mapped rfl rfl) (ite_mapped rfl rfl)

theorem observeLoop_named (u : MsckfUpdater K) (n cam : Nat) (F : V3 K) (ps : List (FeaturePoint K)) :
    ∀ (i : Nat) (e : Ekf K) (s : Mat K × Mat K × Vec K),
      u.observeLoop N n cam F i (ps.map (·.named f)) (e.named f) s =
        (fun x => (x.1.named f, x.2)) <$> u.observeLoop N n cam F i ps e s := by
  induction ps with
  | nil => intro i e s; rfl
  | cons p ps ih =>
    intro i e s
    refine bind_upto (Ekf.getAugState_named N.toPrim hf e u.id p.frameId p.time) fun x x' h => ?_
    obtain ⟨a, e1⟩ := x
    obtain ⟨a', e1'⟩ := x'
    simp only [Prod.mk.injEq] at h
    obtain ⟨ha, he⟩ := h
    subst he
    have ht : u.observe N n cam i F a' (p.named f) s = u.observe N n cam i F a p s := by
      show u.observe N n cam i F a'.unnamed p s = u.observe N n cam i F a.unnamed p s
      rw [ha]
    simp only [ht]
    exact bind_same fun s => ih (i + 1) e1 s

theorem featureLoop_named (u : MsckfUpdater K) (n cam : Nat) (fs : List (FeatureTrack K)) :
    ∀ (e : Ekf K) (ct : Nat) (H : Mat K) (v : Vec K),
      u.featureLoop N n cam (fs.map (·.named f)) (e.named f) ct H v =
        (fun x => (x.1.named f, x.2)) <$> u.featureLoop N n cam fs e ct H v := by
  induction fs with
  | nil => intro e ct H v; rfl
  | cons t fs ih =>
    intro e ct H v
    refine bind_mapped (triangulate_named N hf u e t) fun x => ?_
    obtain ⟨ok, posF, e1⟩ := x
    cases ok with
    | false => exact ih e1 ct H v
    | true =>
      cases posF with
      | none => rfl
      | some F =>
        have hl : (t.named f).track.length = t.track.length := List.length_map ..
        simp only [Bool.true_eq_false, if_false, hl]
        refine bind_mapped (observeLoop_named N hf u n cam F t.track 0 e1 _) fun y => ?_
        exact bind_same fun _ => bind_same fun _ => bind_same fun _ => ih _ _ _ _

theorem process_named (u : MsckfUpdater K) (e : Ekf K) (fs : List (FeatureTrack K)) (px : K) :
    u.process N (e.named f) (fs.map (·.named f)) px = Ekf.named f <$> u.process N e fs px := by
  unfold process
  have hlen : ((fs.map (·.named f)).map fun t : FeatureTrack K => 2 * t.track.length) = fs.map fun t => 2 * t.track.length := by
    rw [List.map_map]
    refine List.map_congr_left fun t _ => ?_
    show 2 * (t.track.map _).length = _
    rw [List.length_map]
  rw [hlen]
  refine bind_mapped (featureLoop_named N hf u _ _ fs e _ _ _) fun x => ite_mapped rfl (bind_same fun _ => ite_mapped rfl ?_)
  exact Ekf.kalmanUpdate_named N.toPrim f _ _ _ rfl

theorem update_named (u : MsckfUpdater K) (e : Ekf K) (t : K) (intr : Intrinsics K) (fs : List (FeatureTrack K)) (px : K) :
    u.update N (e.named f) t intr (fs.map (·.named f)) px = (fun x => (x.1, x.2.named f)) <$> u.update N e t intr fs px := by
  unfold update
  rw [Ekf.calculateLocalTime_named]
  generalize e.calculateLocalTime t = p
  obtain ⟨t, e⟩ := p
  refine bind_mapped (Ekf.predict_named N.toPrim f t rfl) fun e1 => ?_
  by_cases hn : fs = []
  · subst hn; rfl
  · have hn' : fs.map (·.named f) ≠ [] := by simpa using hn
    rw [if_neg hn, if_neg hn']
    exact bind_mapped (process_named N hf (u.refresh (e1.getCamState u.id).2 intr) (e1.getCamState u.id).2 fs px) fun _ => rfl

end MsckfUpdater

/-- One event. -/
theorem Station.step_named (N : Num K) (G : GpsNum K) {f : Nat → Nat} (hf : Renumbers f) (s : Station K) (c : Call K) :
    (s.named f).step N G (c.named f) = Station.named f <$> s.step N G c := by
  cases c with
  | filter op => exact bind_mapped (Ekf.step_named N.toPrim hf s.ekf op) fun _ => rfl
  | newImu k id a b =>
    refine congrArg Except.ok ?_
    show (if (s.imus.find? k).isSome then _ else _) = named f (if (s.imus.find? k).isSome then _ else _)
    split <;> rfl
  | newGps k id a =>
    refine congrArg Except.ok ?_
    show (if (s.gpss.find? k).isSome then _ else _) = named f (if (s.gpss.find? k).isSome then _ else _)
    split <;> rfl
  | newCam k id a b =>
    refine congrArg Except.ok ?_
    show (if (s.cams.find? k).isSome then _ else _) = named f (if (s.cams.find? k).isSome then _ else _)
    split <;> rfl
  | newFid k id a b x =>
    refine congrArg Except.ok ?_
    show (if (s.fids.find? k).isSome then _ else _) = named f (if (s.fids.find? k).isSome then _ else _)
    split <;> rfl
  | imu k t a ac w wc =>
    show (match s.imus.find? k with | none => _ | some u => _) = named f <$> (match s.imus.find? k with | none => _ | some u => _)
    cases s.imus.find? k with
    | none => rfl
    | some u => exact bind_mapped (ImuUpdater.update_named N f u s.ekf t a ac w wc) fun _ => rfl
  | gps k t a c =>
    show (match s.gpss.find? k with | none => _ | some u => _) = named f <$> (match s.gpss.find? k with | none => _ | some u => _)
    cases s.gpss.find? k with
    | none => rfl
    | some u => exact bind_mapped (GpsUpdater.update_named N G f u s.ekf t a c) fun _ => rfl
  | fid k t b =>
    show (match s.fids.find? k with | none => _ | some u => _) = named f <$> (match s.fids.find? k with | none => _ | some u => _)
    cases s.fids.find? k with
    | none => rfl
    | some u => exact bind_mapped (FidUpdater.update_named N f u s.ekf t b) fun _ => rfl
  | cam k t i fs px =>
    show (match s.cams.find? k with | none => _ | some u => _) = named f <$> (match s.cams.find? k with | none => _ | some u => _)
    cases hu : s.cams.find? k with
    | none => rfl
    | some u => exact bind_mapped (MsckfUpdater.update_named N hf u s.ekf t i fs px) fun _ => rfl

/-! ### Trackers and cameras -/

theorem Increases.renumbers {f : Nat → Nat} (hf : Increases f) : Renumbers f := by
  intro m n h
  rcases Nat.lt_trichotomy m n with hl | hl | hl
  · exact absurd h (Nat.ne_of_lt (hf m n hl))
  · exact hl
  · exact absurd h.symm (Nat.ne_of_lt (hf n m hl))

theorem Increases.lt_iff {f : Nat → Nat} (hf : Increases f) (m n : Nat) : f m < f n ↔ m < n := by
  refine ⟨fun h => ?_, hf m n⟩
  rcases Nat.lt_trichotomy m n with hl | hl | hl
  · exact hl
  · subst hl; exact absurd h (Nat.lt_irrefl _)
  · exact absurd (hf n m hl) (Nat.lt_asymm h)

theorem push_named (f : Nat → Nat) (m : TrackMap K) (id : Nat) (p : FeaturePoint K) :
    TrackMap.push (namedTracks f m) id (p.named f) = namedTracks f (m.push id p) := by
  unfold TrackMap.push
  have h : UMap.getD (namedTracks f m) id [] = (UMap.getD m id []).map (·.named f) :=
    UMap.getD_mapValues (List.map (fun p : FeaturePoint K => p.named f)) m id []
  rw [h]
  have : (UMap.getD m id []).map (·.named f) ++ [p.named f] = (UMap.getD m id [] ++ [p]).map (·.named f) := by
    rw [List.map_append]; rfl
  rw [this]
  exact UMap.insert_mapValues (List.map (fun p : FeaturePoint K => p.named f)) m id _

theorem flushTracks_named {f : Nat → Nat} (hf : Increases f) (lo hi n : Nat) (m : TrackMap K) :
    flushTracks lo hi (f n) (namedTracks f m) = (fun x => (namedTracks f x.1, namedTracks f x.2)) <$> flushTracks lo hi n m := by
  induction m with
  | nil => rfl
  | cons kv m ih =>
    obtain ⟨id, pts⟩ := kv
    show flushTracks lo hi (f n) ((id, pts.map (·.named f)) :: namedTracks f m) = _
    unfold flushTracks
    rw [List.getLast?_map]
    cases pts.getLast? with
    | none => rfl
    | some last =>
      refine bind_mapped ih fun x => ?_
      simp only [List.length_map]
      have hl : (last.named f).frameId < f n ↔ last.frameId < n := hf.lt_iff last.frameId n
      by_cases h : last.frameId < n ∨ pts.length ≥ hi
      · have h' : (last.named f).frameId < f n ∨ pts.length ≥ hi := h.imp_left hl.2
        rw [if_pos h, if_pos h']
        refine congrArg Except.ok ?_
        by_cases h2 : pts.length ≥ lo
        · rw [if_pos h2, if_pos h2]; rfl
        · rw [if_neg h2, if_neg h2]
      · have h' : ¬ ((last.named f).frameId < f n ∨ pts.length ≥ hi) := fun h2 => h (h2.imp_left hl.1)
        rw [if_neg h, if_neg h']
        rfl

namespace FeatureTracker

/-- The state inside the loop over the matches, under the other numbers. -/
def Matching.named (f : Nat → Nat) (s : Matching K) : Matching K := { s with map := namedTracks f s.map }

theorem matchStep_named (f : Nat → Nat) (pf : Nat) (pt : K) (n : Nat) (now : K) (s : Matching K) (m : DMatch K) :
    matchStep (f pf) pt (f n) now (s.named f) m = Matching.named f <$> matchStep pf pt n now s m := by
  unfold matchStep
  refine bind_same fun p => ?_
  cases p.classId with
  | some id =>
    refine bind_same fun c => congrArg Except.ok ?_
    show ({ (s.named f) with curr := _, map := TrackMap.push (namedTracks f s.map) id (FeaturePoint.named f ⟨n, now, c.x, c.y⟩) } : Matching K) = _
    rw [push_named]
    rfl
  | none =>
    refine bind_same fun c => congrArg Except.ok ?_
    show (⟨_, _, TrackMap.push (TrackMap.push (namedTracks f s.map) s.nextId (FeaturePoint.named f ⟨pf, pt, p.x, p.y⟩)) s.nextId
      (FeaturePoint.named f ⟨n, now, c.x, c.y⟩), _⟩ : Matching K) = _
    rw [push_named, push_named]
    rfl

theorem foldl_named (f : Nat → Nat) (pf : Nat) (pt : K) (n : Nat) (now : K) (ms : List (DMatch K)) : ∀ s : Matching K,
    ms.foldlM (matchStep (f pf) pt (f n) now) (s.named f) = Matching.named f <$> ms.foldlM (matchStep pf pt n now) s := by
  induction ms with
  | nil => intro s; rfl
  | cons m ms ih =>
    intro s
    rw [List.foldlM_cons, List.foldlM_cons]
    exact bind_mapped (matchStep_named f pf pt n now s m) ih

theorem track_named (N : Prim K) {f : Nat → Nat} (hf : Increases f) (t : FeatureTracker K) (x : TrackFrame K) :
    (t.named f).track N (x.named f) = (fun y => (y.1.named f, namedTracks f y.2)) <$> t.track N x := by
  unfold track
  refine ite_mapped (bind_same fun ms => ?_) rfl
  refine bind_mapped (foldl_named f t.prevFrameId t.prevTime x.frameId x.now ms ⟨t.prevKeys, x.keys, t.map, t.nextId + x.drawn⟩) fun s => ?_
  exact bind_mapped (flushTracks_named hf t.minLen t.maxLen x.frameId s.map) fun _ => rfl

/-- A tracker without key points does not look at the number of its last image. -/
theorem track_fresh (N : Prim K) (t : FeatureTracker K) (h : t.prevKeys = []) (n : Nat) (x : TrackFrame K) :
    ({ t with prevFrameId := n } : FeatureTracker K).track N x = t.track N x := by
  unfold track
  have h1 : ¬ (t.prevKeys.length > 0 ∧ x.keys.length > 0) := by rw [h]; simp
  have h2 : ¬ (({ t with prevFrameId := n } : FeatureTracker K).prevKeys.length > 0 ∧ x.keys.length > 0) := h1
  rw [if_neg h1, if_neg h2]

end FeatureTracker

theorem SimTracker.generate_named {f : Nat → Nat} (hf : Increases f) (t : SimTracker K) (n : Nat) (time : K) (keys : List (Nat × K × K)) :
    (t.named f).generate (f n) time keys = (fun y => (y.1.named f, namedTracks f y.2)) <$> t.generate n time keys := by
  unfold generate
  have h : ∀ m : TrackMap K, keys.foldl (fun (m : TrackMap K) k => m.push k.1 ⟨f n, time, k.2.1, k.2.2⟩) (namedTracks f m) =
      namedTracks f (keys.foldl (fun (m : TrackMap K) k => m.push k.1 ⟨n, time, k.2.1, k.2.2⟩) m) := by
    induction keys with
    | nil => intro m; rfl
    | cons k keys ih =>
      intro m
      rw [List.foldl_cons, List.foldl_cons, ← ih]
      exact congrArg (keys.foldl _) (push_named f m k.1 ⟨n, time, k.2.1, k.2.2⟩)
  show (do let (out, left) ← flushTracks t.minLen t.maxLen (f n) (keys.foldl _ (namedTracks f t.map)); _) = _
  rw [h]
  exact bind_mapped (flushTracks_named hf t.minLen t.maxLen n _) fun _ => rfl

theorem PointTracker.track_named (N : Num K) {f : Nat → Nat} (hf : Increases f) (t : PointTracker K) (e : Ekf K) (time : K) (n : Nat)
    (intr : Intrinsics K) (s : PointSight K) :
    (t.named f).track N (e.named f) time (f n) intr s =
      (fun x => (x.1.named f, x.2.1.named f, x.2.2.map (·.named f))) <$> t.track N e time n intr s := by
  unfold track
  refine bind_mapped (FeatureTracker.track_named N.toPrim hf t.tracker ⟨n, e.currentTime, s.keys, s.fwd, s.bwd, s.mask, s.drawn⟩) fun y => ?_
  obtain ⟨tr, out⟩ := y
  by_cases ho : out = []
  · subst ho; rfl
  · have ho' : namedTracks f out ≠ [] := by simpa [namedTracks] using ho
    simp only [ho, ho', if_false]
    have ht : (namedTracks f out).map (fun o : Nat × List (FeaturePoint K) => (⟨o.2, none⟩ : FeatureTrack K)) =
        (out.map fun o => (⟨o.2, none⟩ : FeatureTrack K)).map (·.named f) := by
      unfold namedTracks
      rw [List.map_map, List.map_map]
      rfl
    rw [ht]
    exact bind_mapped (MsckfUpdater.update_named N hf.renumbers t.updater e time intr _ t.pxError) fun _ => rfl

theorem FidTracker.track_named (N : Num K) (f : Nat → Nat) (t : FidTracker K) (e : Ekf K) (time : K) (s : BoardSight K) :
    t.track N (e.named f) time s = (fun x => (x.1, x.2.named f)) <$> t.track N e time s := by
  unfold track
  refine ite_mapped rfl (ite_mapped rfl ?_)
  exact bind_mapped (FidUpdater.update_named N f t.updater (e.getCamState t.cameraId).2 time _) fun _ => rfl

namespace Camera

theorem trackAll_named (N : Num K) {f : Nat → Nat} (hf : Increases f) (intr : Intrinsics K) (m : CameraMsg K)
    (ts : List (Nat × PointTracker K)) : ∀ e : Ekf K,
      trackAll N intr (m.named f) (ts.map fun kt => (kt.1, kt.2.named f)) (e.named f) =
        (fun x => (x.1.map fun kt => (kt.1, kt.2.named f), x.2.1.named f, x.2.2.map (·.named f))) <$> trackAll N intr m ts e := by
  induction ts with
  | nil => intro e; rfl
  | cons kt ts ih =>
    intro e
    obtain ⟨k, t⟩ := kt
    refine bind_mapped (PointTracker.track_named N hf t e m.time m.frameId intr (m.points k)) fun x => ?_
    refine bind_mapped (ih x.2.1) fun y => ?_
    refine congrArg Except.ok ?_
    simp only [List.map_append, List.map_cons]

theorem boardAll_named (N : Num K) (f : Nat → Nat) (m : CameraMsg K) (ts : List (Nat × FidTracker K)) : ∀ e : Ekf K,
    boardAll N (m.named f) ts (e.named f) = (fun x => (x.1, x.2.named f)) <$> boardAll N m ts e := by
  induction ts with
  | nil => intro e; rfl
  | cons kt ts ih =>
    intro e
    obtain ⟨k, t⟩ := kt
    refine bind_mapped (FidTracker.track_named N f t e m.time (m.boards k)) fun x => ?_
    exact bind_mapped (ih x.2) fun _ => rfl

theorem callback_named (N : Num K) {f : Nat → Nat} (hf : Increases f) (c : Camera K) (e : Ekf K) (m : CameraMsg K) :
    (c.named f).callback N (e.named f) (m.named f) =
      (fun x => (x.1.named f, x.2.1.named f, x.2.2.map (·.named f))) <$> c.callback N e m := by
  unfold callback
  refine ite_mapped rfl ?_
  by_cases h : c.trackers = [] ∧ c.fiducials = []
  · have h' : (c.named f).trackers = [] ∧ (c.named f).fiducials = [] := ⟨by simpa [named] using h.1, h.2⟩
    rw [if_pos h, if_pos h']
    rfl
  · have h' : ¬ ((c.named f).trackers = [] ∧ (c.named f).fiducials = []) := fun h2 => h ⟨by simpa [named] using h2.1, h2.2⟩
    rw [if_neg h, if_neg h']
    rw [Ekf.calculateLocalTime_named]
    have ht : (m.named f).time = m.time := rfl
    rw [ht]
    generalize e.calculateLocalTime m.time = p
    obtain ⟨t, e⟩ := p
    refine bind_mapped (Ekf.predict_named N.toPrim f t rfl) fun e => ?_
    refine bind_mapped (Ekf.augmentFrame_named N.toPrim f e c.id m.frameId) fun e => ?_
    refine bind_mapped (trackAll_named N hf c.intr m c.trackers e) fun x => ?_
    exact bind_mapped (boardAll_named N f m c.fiducials x.2.1) fun _ => rfl

end Camera

end EkfCal
