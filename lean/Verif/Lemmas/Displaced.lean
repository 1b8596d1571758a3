import Verif.Lemmas.ClockShift
import Verif.Spec.Displaced

/-!
# Positions enter the filter only by their differences
-/

namespace EkfCal

namespace UMap
variable {V W : Type} (f : V → W)

theorem find?_mapValues (m : UMap V) (k : Nat) : (mapValues f m).find? k = (m.find? k).map f := by
  induction m with
  | nil => rfl
  | cons kv m ih =>
    obtain ⟨k', v⟩ := kv
    show (if k' = k then some (f v) else find? (mapValues f m) k) = (if k' = k then some v else find? m k).map f
    split
    · rfl
    · exact ih

theorem insert_mapValues (m : UMap V) (k : Nat) (v : V) : (mapValues f m).insert k (f v) = mapValues f (m.insert k v) := by
  induction m with
  | nil => rfl
  | cons kv m ih =>
    obtain ⟨k', v'⟩ := kv
    show (if k < k' then (k, f v) :: (k', f v') :: mapValues f m else if k = k' then (k, f v) :: mapValues f m
        else (k', f v') :: insert (mapValues f m) k (f v)) =
      mapValues f (if k < k' then (k, v) :: (k', v') :: m else if k = k' then (k, v) :: m else (k', v') :: insert m k v)
    split
    · rfl
    · split
      · rfl
      · rw [ih]; rfl

theorem touch_mapValues (m : UMap V) (k : Nat) (v : V) : (mapValues f m).touch k (f v) = mapValues f (m.touch k v) := by
  unfold touch
  rw [find?_mapValues]
  cases find? m k with
  | none => exact insert_mapValues f m k v
  | some w => rfl

theorem getD_mapValues (m : UMap V) (k : Nat) (v : V) : (mapValues f m).getD k (f v) = f (m.getD k v) := by
  unfold getD
  rw [find?_mapValues]
  cases find? m k <;> rfl

end UMap

variable {K : Type} [Field K] [LinearOrder K]

theorem window_displaced (d : V3 K) (m : UMap (List (AugState K))) (k : Nat) :
    (m.mapValues (List.map (·.displaced d))).getD k [] = (m.getD k []).map (·.displaced d) :=
  UMap.getD_mapValues (List.map (·.displaced d)) m k []

theorem touch_displaced (d : V3 K) (m : UMap (List (AugState K))) (k : Nat) :
    (m.mapValues (List.map (·.displaced d))).touch k [] = (m.touch k []).mapValues (List.map (·.displaced d)) :=
  UMap.touch_mapValues (List.map (·.displaced d)) m k []

theorem loopIdx_displaced {α β : Type} (g : α → β) {f : α → Nat → Res (α × Nat)} {f' : β → Nat → Res (β × Nat)}
    (h : ∀ a i, f' (g a) i = (fun x => (g x.1, x.2)) <$> f a i) (l : List α) :
    ∀ i, loopIdx f' (l.map g) i = (fun x => (x.1.map g, x.2)) <$> loopIdx f l i := by
  induction l with
  | nil => intro i; rfl
  | cons a l ih => intro i; exact bind_mapped (h a i) fun x => bind_mapped (ih x.2) fun _ => rfl

theorem loopMap_displaced {α β : Type} (g : α → β) {f : α → Nat → Res (α × Nat)} {f' : β → Nat → Res (β × Nat)}
    (h : ∀ a i, f' (g a) i = (fun x => (g x.1, x.2)) <$> f a i) (m : UMap α) (i : Nat) :
    loopMap f' (m.mapValues g) i = (fun x => (x.1.mapValues g, x.2)) <$> loopMap f m i := by
  unfold loopMap UMap.mapValues
  exact loopIdx_displaced (fun kv : Nat × α => (kv.1, g kv.2)) (fun kv i => bind_mapped (h kv.2 i) fun _ => rfl) m i

theorem addVec_displaced (N : Prim K) (d : V3 K) (s : State K) (v : Vec K) :
    (s.displaced d).addVec N v = State.displaced d <$> s.addVec N v := by
  unfold State.addVec
  refine bind_same fun part => ?_
  have hb : (s.body.displaced d).addVec N part = BodyState.displaced d <$> s.body.addVec N part := by
    unfold BodyState.addVec
    repeat' refine bind_same fun _ => ?_
    refine congrArg Except.ok ?_
    simp only [BodyState.displaced]
    congr 1
    abel
  refine bind_mapped hb fun body => bind_same fun _ => bind_same fun _ => bind_same fun _ => ?_
  refine bind_mapped (loopMap_displaced (·.displaced d) (fun a i => ?_) s.fids _) fun _ => ?_
  · unfold FidState.addVecAt
    refine ite_mapped ?_ rfl
    refine bind_same fun p => bind_same fun q => ?_
    refine congrArg Except.ok ?_
    simp only [FidState.displaced]
    congr 2
    abel
  · refine bind_mapped (loopMap_displaced (List.map (·.displaced d)) (fun w i => loopIdx_displaced (·.displaced d) (fun a i => ?_) w i) s.augs _)
      fun _ => rfl
    unfold AugState.addVecAt
    refine bind_same fun p => bind_same fun q => ?_
    refine congrArg Except.ok ?_
    simp only [AugState.displaced]
    congr 2
    abel

theorem refreshAugList_displaced (d : V3 K) (w : List (AugState K)) : ∀ i,
    Ekf.refreshAugList (w.map (·.displaced d)) i =
      ((Ekf.refreshAugList w i).1.map (·.displaced d), (Ekf.refreshAugList w i).2) := by
  induction w with
  | nil => intro i; rfl
  | cons a w ih =>
    intro i
    simp only [List.map_cons, Ekf.refreshAugList, ih]
    rfl

theorem refreshAugs_displaced (d : V3 K) (m : UMap (List (AugState K))) : ∀ i,
    Ekf.refreshAugs (m.mapValues (List.map (·.displaced d))) i =
      ((Ekf.refreshAugs m i).1.mapValues (List.map (·.displaced d)), (Ekf.refreshAugs m i).2) := by
  induction m with
  | nil => intro i; rfl
  | cons kv m ih =>
    intro i
    obtain ⟨k, w⟩ := kv
    show Ekf.refreshAugs ((k, w.map (·.displaced d)) :: UMap.mapValues (List.map (·.displaced d)) m) i = _
    simp only [Ekf.refreshAugs, refreshAugList_displaced, ih]
    rfl

theorem refreshLoop_displaced (d : V3 K) (n : Nat) (m : UMap (FidState K)) : ∀ r : Ekf.Refresh K,
    Ekf.refreshLoop (Ekf.refreshFid n) (m.mapValues (·.displaced d)) r =
      (fun x => (x.1.mapValues (·.displaced d), x.2)) <$> Ekf.refreshLoop (Ekf.refreshFid n) m r := by
  induction m with
  | nil => intro r; rfl
  | cons kv m ih =>
    intro r
    obtain ⟨k, s⟩ := kv
    have h : Ekf.refreshFid n (s.displaced d) r = (fun x => (x.1.displaced d, x.2)) <$> Ekf.refreshFid n s r := by
      unfold Ekf.refreshFid
      exact ite_mapped (bind_same fun _ => bind_same fun _ => rfl) rfl
    exact bind_mapped h fun x => bind_mapped (ih x.2) fun _ => rfl

namespace Ekf
variable (N : Prim K) (d : V3 K)

theorem refreshIndices_displaced {e e' : Ekf K} (h : e' = e.displaced d) : refreshIndices N e' = displaced d <$> refreshIndices N e := by
  subst h
  unfold refreshIndices
  refine bind_same fun _ => bind_same fun _ => bind_same fun _ => bind_same fun _ => bind_same fun _ => ?_
  refine bind_mapped (refreshLoop_displaced d _ e.state.fids _) fun x => ?_
  refine congrArg Except.ok ?_
  simp only [displaced, State.displaced, refreshAugs_displaced]
  rfl

theorem registerIMU_displaced (e : Ekf K) (id : Nat) (s : ImuState K) (c : Mat K) :
    registerIMU N (e.displaced d) id s c = displaced d <$> registerIMU N e id s c := by
  unfold registerIMU
  refine ite_mapped rfl (ite_mapped (bind_same fun _ => bind_same fun _ => ?_) ?_)
  · exact bind_mapped (φ := displaced d) rfl fun a => by
      cases s.isExtrinsic <;> cases s.isIntrinsic <;> exact refreshIndices_displaced N d rfl
  · exact bind_mapped (φ := displaced d) rfl fun a => by
      cases s.isExtrinsic <;> cases s.isIntrinsic <;> exact refreshIndices_displaced N d rfl

theorem registerGPS_displaced (e : Ekf K) (id : Nat) (s : GpsState K) (c : Mat K) :
    registerGPS N (e.displaced d) id s c = displaced d <$> registerGPS N e id s c := by
  unfold registerGPS
  exact ite_mapped rfl (ite_mapped (bind_same fun _ => bind_same fun _ => refreshIndices_displaced N d rfl)
    (refreshIndices_displaced N d rfl))

theorem registerCamera_displaced (e : Ekf K) (id : Nat) (s : CamState K) (c : Mat K) :
    registerCamera N (e.displaced d) id s c = displaced d <$> registerCamera N e id s c := by
  unfold registerCamera
  refine ite_mapped rfl (bind_same fun _ => ?_)
  by_cases h : e.primaryCameraId = 0
  · have h' : (e.displaced d).primaryCameraId = 0 := h
    simp only [h, h', if_true]
    exact ite_mapped (bind_same fun _ => bind_same fun _ => refreshIndices_displaced N d rfl) (refreshIndices_displaced N d rfl)
  · have h' : (e.displaced d).primaryCameraId ≠ 0 := h
    simp only [h, h', if_false]
    exact ite_mapped (bind_same fun _ => bind_same fun _ => refreshIndices_displaced N d rfl) (refreshIndices_displaced N d rfl)

theorem registerFiducial_displaced (e : Ekf K) (s : FidState K) (c : Mat K) :
    registerFiducial N (e.displaced d) (s.displaced d) c = displaced d <$> registerFiducial N e s c := by
  unfold registerFiducial
  have hf : ((e.displaced d).state.fids.find? (s.displaced d).id).isSome = (e.state.fids.find? s.id).isSome := by
    show ((e.state.fids.mapValues (·.displaced d)).find? s.id).isSome = _
    rw [UMap.find?_mapValues]
    cases e.state.fids.find? s.id <;> rfl
  have hi : (e.displaced d).state.fids.insert (s.displaced d).id (s.displaced d) =
      (e.state.fids.insert s.id s).mapValues (·.displaced d) := UMap.insert_mapValues _ _ _ _
  rw [hf]
  simp only [hi]
  exact ite_mapped rfl (ite_mapped (bind_same fun _ => bind_same fun _ => refreshIndices_displaced N d rfl)
    (refreshIndices_displaced N d rfl))

theorem augmentAtBack_displaced {e e' : Ekf K} (key : Nat) (h : e' = e.displaced d) :
    augmentAtBack e' key = displaced d <$> augmentAtBack e key := by
  subst h
  unfold augmentAtBack
  have hw : (e.displaced d).state.augs.getD key [] = (e.state.augs.getD key []).map (·.displaced d) := window_displaced d _ _
  rw [hw, List.getLast?_map]
  cases (e.state.augs.getD key []).getLast? with
  | none => rfl
  | some a => exact bind_same fun _ => rfl

theorem newClone_displaced (e : Ekf K) (f : Nat) : (e.displaced d).newClone f = (e.newClone f).displaced d := rfl

theorem augmentFrame_displaced (e : Ekf K) (cam frame : Nat) :
    augmentFrame N (e.displaced d) cam frame = displaced d <$> augmentFrame N e cam frame := by
  unfold augmentFrame
  have jp : ∀ a a' : Ekf K, a' = a.displaced d → (do let e ← refreshIndices N a'; e.augmentAtBack cam) =
      displaced d <$> (do let e ← refreshIndices N a; e.augmentAtBack cam) := fun a a' h =>
    bind_mapped (refreshIndices_displaced N d h) fun a => augmentAtBack_displaced d cam rfl
  have hw : (e.displaced d).state.augs.getD cam [] ++ [({ e.displaced d with frameReceived := true } : Ekf K).newClone frame] =
      (e.state.augs.getD cam [] ++ [({ e with frameReceived := true } : Ekf K).newClone frame]).map (·.displaced d) := by
    rw [List.map_append]
    exact congrArg (· ++ _) (window_displaced d _ _)
  simp only [hw, List.length_map]
  refine ite_mapped (ite_mapped ?_ ?_) rfl
  · refine jp _ _ ?_
    simp only [displaced, State.displaced, ← UMap.insert_mapValues]
  · generalize e.state.augs.getD cam [] ++ [({ e with frameReceived := true } : Ekf K).newClone frame] = w
    cases w with
    | nil => rfl
    | cons a w =>
      refine bind_same fun c => ?_
      refine jp _ _ ?_
      simp only [displaced, State.displaced, ← UMap.insert_mapValues]

theorem pruneAt_displaced (e : Ekf K) (i : Nat) : pruneAt N (e.displaced d) i = displaced d <$> pruneAt N e i := by
  unfold pruneAt
  have hw : (e.displaced d).state.augs.getD 0 [] = (e.state.augs.getD 0 []).map (·.displaced d) := window_displaced d _ _
  simp only [hw, List.getElem?_map, List.length_map]
  cases h1 : (e.state.augs.getD 0 [])[i + 1]? with
  | none => rfl
  | some b =>
    refine ite_mapped ?_ rfl
    cases h2 : (e.state.augs.getD 0 [])[i]? with
    | none => rfl
    | some a =>
      refine bind_same fun c => refreshIndices_displaced N d ?_
      simp only [displaced, State.displaced, ← UMap.insert_mapValues, List.eraseIdx_map]

theorem pruneLoop_displaced (n : Nat) {e e' : Ekf K} (h : e' = e.displaced d) :
    pruneLoop N n e' = displaced d <$> pruneLoop N n e := by
  subst h
  induction n generalizing e with
  | zero => rfl
  | succ n ih => exact bind_mapped (pruneAt_displaced N d e n) fun a => ih

theorem cloneDue_displaced (e : Ekf K) (w : List (AugState K)) : cloneDue N (e.displaced d) (w.map (·.displaced d)) = cloneDue N e w := by
  unfold cloneDue
  rw [List.getLast?_map]
  cases w.getLast? with
  | none => rfl
  | some last =>
    have h : (e.displaced d).state.body.pos - (e.currentTime - last.time) • e.state.body.vel - (last.displaced d).pos =
        e.state.body.pos - (e.currentTime - last.time) • e.state.body.vel - last.pos := by
      show e.state.body.pos + d - _ - (last.pos + d) = _
      abel
    cases ht : e.augType <;> have ht' : (e.displaced d).augType = _ := ht <;> simp only [ht'] <;> first | rfl | skip
    exact congrArg (fun x : V3 K => if e.currentTime - last.time > e.maxTrackDuration then (Except.ok true : Res Bool)
      else if e.currentTime - last.time > e.minAugPeriod then
        .ok (decide (norm3 N x > e.augPosError ∨ norm3 N (N.quatToRotVec
          ((e.state.body.ang.mul (N.rotVecToQuat ![e.state.body.angVel 0 * (e.currentTime - last.time),
            e.state.body.angVel 1 * (e.currentTime - last.time), e.state.body.angVel 2 * (e.currentTime - last.time)]).inverse).mul
            last.ang.inverse)) > e.augAngError))
      else .ok false) h

theorem augmentTimed_displaced {e e' : Ekf K} (h : e' = e.displaced d) : augmentTimed N e' = displaced d <$> augmentTimed N e := by
  subst h
  unfold augmentTimed
  have hw : ∀ e : Ekf K, (e.displaced d).state.augs.getD 0 [] = (e.state.augs.getD 0 []).map (·.displaced d) :=
    fun e => window_displaced d _ _
  have ht : ({ e.displaced d with state := { (e.displaced d).state with augs := (e.displaced d).state.augs.touch 0 [] } } : Ekf K) =
      displaced d { e with state := { e.state with augs := e.state.augs.touch 0 [] } } := by
    simp only [displaced, State.displaced, touch_displaced]
  refine ite_mapped rfl ?_
  simp only [ht]
  rw [hw e, cloneDue_displaced N d]
  refine bind_same fun due => ?_
  have h4 : ((e.displaced d).state.augs.touch 0 []).getD 0 [] = ((e.state.augs.touch 0 []).getD 0 []).map (·.displaced d) := by
    have : (e.displaced d).state.augs.touch 0 [] = (e.state.augs.touch 0 []).mapValues (List.map (·.displaced d)) := touch_displaced d _ _
    rw [this]
    exact window_displaced d _ _
  rw [h4, List.length_map]
  refine bind_mapped (pruneLoop_displaced N d _ rfl) fun a => ite_mapped ?_ rfl
  refine bind_mapped (refreshIndices_displaced N d ?_) fun a => bind_mapped (augmentAtBack_displaced d 0 rfl) fun _ => rfl
  have h3 : (a.displaced d).state.augs.getD 0 [] ++ [(a.displaced d).newClone 0] =
      (a.state.augs.getD 0 [] ++ [a.newClone 0]).map (·.displaced d) := by
    rw [hw, List.map_append]; rfl
  rw [h3]
  simp only [displaced, State.displaced, ← UMap.insert_mapValues]

theorem predict_displaced {e e' : Ekf K} (t : K) (h : e' = e.displaced d) : predict N e' t = displaced d <$> predict N e t := by
  subst h
  unfold predict
  refine ite_mapped rfl (ite_mapped (bind_same fun _ => augmentTimed_displaced N d ?_) (augmentTimed_displaced N d rfl))
  simp only [displaced, State.displaced, predictBody, BodyState.displaced]
  congr 3
  abel

theorem kalmanUpdate_displaced {e e' : Ekf K} (j : Mat K) (x : Vec K) (n : Mat K) (h : e' = e.displaced d) :
    kalmanUpdate N e' j x n = displaced d <$> kalmanUpdate N e j x n := by
  subst h
  unfold kalmanUpdate
  have h1 : (e.displaced d).useRoot = e.useRoot := rfl
  have h2 : (e.displaced d).cov = e.cov := rfl
  have h3 : (e.displaced d).state = e.state.displaced d := rfl
  simp only [h1, h2, h3]
  cases e.useRoot <;> simp only [Bool.false_eq_true, if_true, if_false]
  · refine bind_same fun _ => bind_same fun _ => bind_same fun _ => bind_same fun _ => bind_same fun _ => bind_same fun _ => bind_same fun _ => ?_
    refine bind_mapped (addVec_displaced N d _ _) fun _ => ?_
    (repeat' refine bind_same fun _ => ?_) <;> rfl
  · refine bind_same fun _ => bind_same fun _ => bind_same fun _ => bind_same fun _ => bind_same fun _ => bind_same fun _ => bind_same fun _ => bind_same fun _ => ?_
    refine bind_mapped (addVec_displaced N d _ _) fun _ => ?_
    (repeat' refine bind_same fun _ => ?_) <;> rfl

theorem findFrame_fold (d : V3 K) (frame : Nat) (w : List (AugState K)) : ∀ (a a' : AugState K),
    (a' = a.displaced d ∨ ∃ x ∈ w, x.frameId = frame) →
    (w.map (·.displaced d)).foldl (fun acc a => if a.frameId = frame then a else acc) a' =
      (w.foldl (fun acc a => if a.frameId = frame then a else acc) a).displaced d := by
  induction w with
  | nil =>
    intro a a' h
    rcases h with h | ⟨x, hx, _⟩
    · exact h
    · cases hx
  | cons x w ih =>
    intro a a' h
    simp only [List.map_cons, List.foldl_cons]
    by_cases hx : x.frameId = frame
    · have hx' : (x.displaced d).frameId = frame := hx
      rw [if_pos hx, if_pos hx']
      exact ih _ _ (.inl rfl)
    · have hx' : ¬ (x.displaced d).frameId = frame := hx
      rw [if_neg hx, if_neg hx']
      refine ih _ _ (h.imp_right ?_)
      rintro ⟨y, hy, hyf⟩
      rcases List.mem_cons.1 hy with rfl | hy
      · exact absurd hyf hx
      · exact ⟨y, hy, hyf⟩

/-- Between the times of its ends, a list has a pair of neighbours around the time. -/
theorem bracket_fresh (t : K) (w : List (AugState K)) : ∀ (first last : AugState K) (acc acc' : K × AugState K × AugState K),
    w.head? = some first → w.getLast? = some last → first.time ≤ t → t < last.time → bracket t w acc = bracket t w acc' := by
  induction w with
  | nil => intro _ _ _ _ h; cases h
  | cons a w ih =>
    intro first last acc acc' hf hl h1 h2
    cases hf
    cases w with
    | nil => cases hl; exact absurd h2 (not_lt.2 h1)
    | cons b w =>
      unfold bracket
      by_cases hb : a.time ≤ t ∧ t ≤ b.time
      · rw [if_pos hb, if_pos hb]
      · rw [if_neg hb, if_neg hb]
        have h3 : b.time ≤ t := by
          by_contra h
          exact hb ⟨h1, (not_le.1 h).le⟩
        refine ih b last acc acc' rfl ?_ h3 h2
        rw [← hl, List.getLast?_cons_cons]

theorem bracket_displaced (t : K) (w : List (AugState K)) : ∀ acc : K × AugState K × AugState K,
    bracket t (w.map (·.displaced d)) (acc.1, acc.2.1.displaced d, acc.2.2.displaced d) =
      (fun x => (x.1, x.2.1.displaced d, x.2.2.displaced d)) <$> bracket t w acc := by
  induction w with
  | nil => intro acc; rfl
  | cons a w ih =>
    intro acc
    cases w with
    | nil => rfl
    | cons b w =>
      simp only [List.map_cons] at ih ⊢
      unfold bracket
      refine ite_mapped (ite_mapped rfl ?_) (ih acc)
      exact ih (_, a, b)

theorem interpolateClone_displaced (e : Ekf K) (w : List (AugState K)) (t : K) :
    interpolateClone N (e.displaced d) (w.map (·.displaced d)) t = AugState.displaced d <$> interpolateClone N e w t := by
  unfold interpolateClone
  rw [List.head?_map, List.getLast?_map]
  cases hf : w.head? with
  | none => rfl
  | some first =>
    cases hl : w.getLast? with
    | none => rfl
    | some last =>
      have fin : ∀ x : K × AugState K × AugState K,
          ({ (AugState.default : AugState K) with
              pos := (x.2.1.displaced d).pos + x.1 • ((x.2.2.displaced d).pos - (x.2.1.displaced d).pos)
              ang := N.slerp x.2.1.ang x.1 x.2.2.ang, time := t, index := x.2.1.index, alpha := x.1 } : AugState K) =
            AugState.displaced d { (AugState.default : AugState K) with
              pos := x.2.1.pos + x.1 • (x.2.2.pos - x.2.1.pos)
              ang := N.slerp x.2.1.ang x.1 x.2.2.ang, time := t, index := x.2.1.index, alpha := x.1 } := by
        intro x
        simp only [AugState.displaced, add_sub_add_right_eq_sub]
        congr 1
        abel
      simp only [Option.map_some]
      by_cases h1 : t < first.time
      · have h1' : t < (first.displaced d).time := h1
        simp only [h1, h1', if_true]
        refine congrArg Except.ok ?_
        simp only [AugState.displaced, zero_smul]
        congr 1
        abel
      · have h1' : ¬ t < (first.displaced d).time := h1
        simp only [h1, h1', if_false]
        by_cases h2 : t < last.time
        · have h2' : t < (last.displaced d).time := h2
          simp only [h2, h2', if_true]
          have hb : bracket t (w.map (·.displaced d)) (0, AugState.default, AugState.default) =
              (fun x => (x.1, x.2.1.displaced d, x.2.2.displaced d)) <$> bracket t w (0, AugState.default, AugState.default) := by
            rw [← bracket_displaced d t w]
            exact bracket_fresh t _ (first.displaced d) (last.displaced d) _ _ (by rw [List.head?_map, hf]; rfl)
              (by rw [List.getLast?_map, hl]; rfl) (not_lt.1 h1) h2
          refine bind_mapped hb fun x => congrArg Except.ok (fin x)
        · have h2' : ¬ t < (last.displaced d).time := h2
          simp only [h2, h2', if_false]
          refine ite_mapped rfl ?_
          exact congrArg Except.ok (fin (_, last, { (AugState.default : AugState K) with pos := e.state.body.pos, ang := e.state.body.ang }))

theorem getAugState_displaced {e : Ekf K} {cam frame : Nat} (h : e.Knows cam frame) (t : K) :
    getAugState N (e.displaced d) cam frame t =
      (fun x => (x.1.displaced d, x.2.displaced d)) <$> getAugState N e cam frame t := by
  unfold getAugState
  have hw : ∀ k, (e.displaced d).state.augs.getD k [] = (e.state.augs.getD k []).map (·.displaced d) := fun k => window_displaced d _ _
  have ht : ∀ k, ({ e.displaced d with state := { (e.displaced d).state with augs := (e.displaced d).state.augs.touch k [] } } : Ekf K) =
      displaced d { e with state := { e.state with augs := e.state.augs.touch k [] } } := fun k => by
    simp only [displaced, State.displaced, touch_displaced]
  by_cases hc : e.ClonesFrame cam
  · have hc' := hc
    unfold ClonesFrame at hc'
    have hc2 : (e.displaced d).augType = .all ∨ ((e.displaced d).augType = .primary ∧ cam = (e.displaced d).primaryCameraId) := hc'
    rw [if_pos hc', if_pos hc2]
    refine congrArg Except.ok (Prod.ext ?_ (ht cam))
    show findFrame ((e.displaced d).state.augs.getD cam []) frame = _
    rw [hw]
    exact findFrame_fold d frame _ _ _ (.inr (h hc))
  · have hc' := hc
    unfold ClonesFrame at hc'
    have hc2 : ¬ ((e.displaced d).augType = .all ∨ ((e.displaced d).augType = .primary ∧ cam = (e.displaced d).primaryCameraId)) := hc'
    rw [if_neg hc', if_neg hc2]
    simp only [hw, ht]
    exact bind_mapped (interpolateClone_displaced N d e _ t) fun _ => rfl

theorem calculateLocalTime_displaced (e : Ekf K) (t : K) : (e.displaced d).calculateLocalTime t =
    ((e.calculateLocalTime t).1, (e.calculateLocalTime t).2.displaced d) := by
  unfold calculateLocalTime
  have h : (e.displaced d).timeInitialized = e.timeInitialized := rfl
  rw [h]
  split <;> rfl

/-- A direct call. -/
theorem step_displaced (e : Ekf K) (op : Op K) (h : ∀ t x f, op ≠ .attemptGpsInit t x f)
    (hk : ∀ c f t, op = .getAug c f t → e.Knows c f) : step N (e.displaced d) (op.displaced d) = displaced d <$> step N e op := by
  cases op with
  | registerIMU id s c => exact registerIMU_displaced N d e id s c
  | registerGPS id s c => exact registerGPS_displaced N d e id s c
  | registerCamera id s c => exact registerCamera_displaced N d e id s c
  | registerFiducial s c => exact registerFiducial_displaced N d e s c
  | predict t => exact predict_displaced N d t rfl
  | frame c f => exact augmentFrame_displaced N d e c f
  | kalman j x n => exact kalmanUpdate_displaced N d j x n rfl
  | getAug c f t => exact bind_mapped (getAugState_displaced N d (hk c f t rfl) t) fun _ => rfl
  | localTime t => exact congrArg (fun x => Except.ok (Prod.snd x)) (calculateLocalTime_displaced d e t)
  | attemptGpsInit t x f => exact absurd rfl (h t x f)
  | _ => rfl

end Ekf

namespace ImuUpdater
variable (N : Num K) (d : V3 K)

theorem zeroAccUpdate_displaced (u : ImuUpdater) (e : Ekf K) (t : K) (acc : V3 K) (ac : M3 K) (omg : V3 K) (oc : M3 K) :
    u.zeroAccUpdate N (e.displaced d) t acc ac omg oc =
      (fun x => (x.1, x.2.1, x.2.2.displaced d)) <$> u.zeroAccUpdate N e t acc ac omg oc := by
  unfold zeroAccUpdate
  refine ite_mapped rfl (bind_same fun _ => bind_same fun _ => bind_same fun sc => ite_mapped rfl ?_)
  by_cases h : sc < e.motionDetectionChiSquared
  · have h1 : sc < (((e.displaced d).getImuState u.id).2).motionDetectionChiSquared := h
    have h2 : sc < ((e.getImuState u.id).2).motionDetectionChiSquared := h
    simp only [h1, h2, if_true]
    exact bind_mapped (Ekf.predict_displaced N.toPrim d t rfl) fun a => bind_same fun _ =>
      bind_mapped (Ekf.kalmanUpdate_displaced N.toPrim d _ _ _ rfl) fun _ => rfl
  · have h1 : ¬ sc < (((e.displaced d).getImuState u.id).2).motionDetectionChiSquared := h
    have h2 : ¬ sc < ((e.getImuState u.id).2).motionDetectionChiSquared := h
    simp only [h1, h2, if_false]
    exact bind_mapped (Ekf.predict_displaced N.toPrim d t rfl) fun a => bind_same fun _ =>
      bind_mapped (Ekf.kalmanUpdate_displaced N.toPrim d _ _ _ rfl) fun _ => rfl

theorem update_displaced (u : ImuUpdater) (e : Ekf K) (t : K) (acc : V3 K) (ac : M3 K) (omg : V3 K) (oc : M3 K) :
    u.update N (e.displaced d) t acc ac omg oc = (fun x => (x.1, x.2.displaced d)) <$> u.update N e t acc ac omg oc := by
  unfold update
  rw [Ekf.calculateLocalTime_displaced]
  generalize e.calculateLocalTime t = p
  obtain ⟨t, e⟩ := p
  refine bind_mapped (zeroAccUpdate_displaced N d u e t acc ac omg oc) fun x => ?_
  refine ite_mapped rfl (ite_mapped ?_ ?_)
  · exact bind_mapped (φ := Ekf.displaced d) rfl fun a => bind_mapped (Ekf.predict_displaced N.toPrim d t rfl) fun _ => rfl
  · refine bind_same fun _ => bind_same fun _ => ?_
    exact bind_mapped (Ekf.kalmanUpdate_displaced N.toPrim d _ _ _ rfl) fun a =>
      bind_mapped (Ekf.predict_displaced N.toPrim d t rfl) fun _ => rfl

end ImuUpdater

namespace FidUpdater
variable (N : Num K) (d : V3 K)

theorem refresh_first (u : FidUpdater K) (e : Ekf K) (f : FidState K) : (u.refresh e f).isFirst = false := by
  unfold refresh
  split
  · rfl
  · rename_i h
    exact Bool.eq_false_iff.2 fun h' => h (.inr h')

theorem refresh_displaced (u : FidUpdater K) (e : Ekf K) (f : FidState K) :
    (u.displaced d).refresh (e.displaced d) (f.displaced d) = { u.refresh e f with posF := (u.refresh e f).posF + d } := by
  have h1 : (u.displaced d).isFirst = u.isFirst := by unfold displaced; split <;> rfl
  have h2 : (e.displaced d).useFirstEstimate = e.useFirstEstimate := rfl
  unfold refresh
  rw [h1, h2]
  split
  · unfold displaced; split <;> rfl
  · rename_i h
    have : u.isFirst = false := Bool.eq_false_iff.2 fun h' => h (.inr h')
    unfold displaced
    rw [if_neg (by rw [this]; exact Bool.false_ne_true)]

theorem update_displaced (u : FidUpdater K) (e : Ekf K) (t : K) (b : BoardDetection K) :
    (u.displaced d).update N (e.displaced d) t b = (fun x => (x.1.displaced d, x.2.displaced d)) <$> u.update N e t b := by
  have hid : (u.displaced d).id = u.id := by unfold displaced; split <;> rfl
  have hcid : (u.displaced d).cameraId = u.cameraId := by unfold displaced; split <;> rfl
  unfold update
  rw [Ekf.calculateLocalTime_displaced]
  generalize e.calculateLocalTime t = p
  obtain ⟨t, e⟩ := p
  refine bind_mapped (Ekf.predict_displaced N.toPrim d t rfl) fun e => ?_
  rw [hid, hcid]
  have he : ((e.displaced d).getCamState u.cameraId).2 = (e.getCamState u.cameraId).2.displaced d := rfl
  rw [he]
  generalize (e.getCamState u.cameraId).2 = e
  dsimp only
  have hf : (e.displaced d).state.fids.find? u.id = (e.state.fids.find? u.id).map (·.displaced d) := UMap.find?_mapValues _ _ _
  rw [hf]
  cases e.state.fids.find? u.id with
  | none => rfl
  | some f =>
    simp only [Option.map_some]
    rw [refresh_displaced]
    have hfst := refresh_first u e f
    generalize u.refresh e f = u at hfst
    have hs : (({ u with posF := u.posF + d } : FidUpdater K).posF - (e.displaced d).state.body.pos) = u.posF - e.state.body.pos := by
      show u.posF + d - (e.state.body.pos + d) = _
      abel
    have hj : ({ u with posF := u.posF + d } : FidUpdater K).jacobianOf N (e.displaced d) (f.displaced d) = u.jacobianOf N e f := by
      unfold jacobianOf
      simp only [hs]
      rfl
    have hp : ({ u with posF := u.posF + d } : FidUpdater K).predictOf N (e.displaced d) = u.predictOf N e := by
      unfold predictOf
      simp only [hs]
      rfl
    have hu : u.displaced d = { u with posF := u.posF + d } := by
      unfold displaced
      rw [if_neg (by rw [hfst]; exact Bool.false_ne_true)]
    rw [hj, hp]
    refine bind_same fun _ => bind_same fun _ => ?_
    refine bind_mapped (Ekf.kalmanUpdate_displaced N.toPrim d _ _ _ rfl) fun e => ?_
    show Except.ok _ = Except.ok (u.displaced d, _)
    rw [hu]

end FidUpdater

/-! ### Tracks -/

theorem Ekf.Looked.knows {e e' : Ekf K} (h : e.Looked e') {cam frame : Nat} (hk : e.Knows cam frame) : e'.Knows cam frame := by
  intro hc
  have h1 : e'.augType = e.augType := by rw [h.same]
  have h2 : e'.primaryCameraId = e.primaryCameraId := by rw [h.same]
  unfold Ekf.ClonesFrame at hc
  rw [h1, h2] at hc
  have hw : e'.window cam = e.window cam := h.window cam
  rw [hw]
  exact hk hc

namespace MsckfUpdater
variable (N : Num K) (d : V3 K)

theorem triangulateTerm_displaced (u : MsckfUpdater K) (a0 ai : AugState K) (p : FeaturePoint K) :
    u.triangulateTerm N (a0.displaced d) (ai.displaced d) p = u.triangulateTerm N a0 ai p := by
  have h : ((ai.displaced d).ang.toMat.mulVec u.posC + (ai.displaced d).pos) - ((a0.displaced d).ang.toMat.mulVec u.posC + (a0.displaced d).pos) =
      (ai.ang.toMat.mulVec u.posC + ai.pos) - (a0.ang.toMat.mulVec u.posC + a0.pos) := by
    show (ai.ang.toMat.mulVec u.posC + (ai.pos + d)) - (a0.ang.toMat.mulVec u.posC + (a0.pos + d)) = _
    abel
  unfold triangulateTerm
  simp only [h]
  rfl

theorem triangulateLoop_displaced (u : MsckfUpdater K) (a0 : AugState K) (ps : List (FeaturePoint K)) :
    ∀ (e : Ekf K) (A : M3 K) (b : V3 K), (∀ p ∈ ps, e.Knows u.id p.frameId) →
      u.triangulateLoop N (a0.displaced d) ps (e.displaced d) A b =
        (fun x => (x.1, x.2.1, x.2.2.displaced d)) <$> u.triangulateLoop N a0 ps e A b := by
  induction ps with
  | nil => intro e A b _; rfl
  | cons p ps ih =>
    intro e A b hk
    refine bind_mapped_of (Ekf.getAugState_displaced N.toPrim d (hk p (List.mem_cons_self ..)) p.time) fun x hx => ?_
    simp only [triangulateTerm_displaced]
    exact ih x.2 _ _ fun q hq => (looked_getAugState hx).knows (hk q (List.mem_cons_of_mem _ hq))

theorem triangulate_displaced (u : MsckfUpdater K) (e : Ekf K) (f : FeatureTrack K) (hk : ∀ p ∈ f.track, e.Knows u.id p.frameId) :
    u.triangulate N (e.displaced d) (f.displaced d) =
      (fun x => (x.1, if x.1 then x.2.1.map (· + d) else x.2.1, x.2.2.displaced d)) <$> u.triangulate N e f := by
  obtain ⟨track, truth⟩ := f
  cases track with
  | nil => rfl
  | cons p ps =>
    refine bind_mapped_of (Ekf.getAugState_displaced N.toPrim d (hk p (List.mem_cons_self ..)) p.time) fun x hx => ?_
    refine bind_mapped (triangulateLoop_displaced N d u x.1 (p :: ps) x.2 0 0 fun q hq => (looked_getAugState hx).knows (hk q hq))
      fun y => ?_
    refine ite_mapped (ite_mapped rfl rfl) (ite_mapped rfl ?_)
    refine congrArg Except.ok ?_
    simp only [AugState.displaced, if_true, Option.map_some]
    congr 3
    abel

theorem observe_displaced (u : MsckfUpdater K) (n cam i : Nat) (F : V3 K) (a : AugState K) (p : FeaturePoint K)
    (s : Mat K × Mat K × Vec K) : u.observe N n cam i (F + d) (a.displaced d) p s = u.observe N n cam i F a p s := by
  have h : F + d - (a.displaced d).pos = F - a.pos := by
    show F + d - (a.pos + d) = _
    abel
  unfold observe
  simp only [h]
  rfl

theorem observeLoop_displaced (u : MsckfUpdater K) (n cam : Nat) (F : V3 K) (ps : List (FeaturePoint K)) :
    ∀ (i : Nat) (e : Ekf K) (s : Mat K × Mat K × Vec K), (∀ p ∈ ps, e.Knows u.id p.frameId) →
      u.observeLoop N n cam (F + d) i ps (e.displaced d) s =
        (fun x => (x.1.displaced d, x.2)) <$> u.observeLoop N n cam F i ps e s := by
  induction ps with
  | nil => intro i e s _; rfl
  | cons p ps ih =>
    intro i e s hk
    refine bind_mapped_of (Ekf.getAugState_displaced N.toPrim d (hk p (List.mem_cons_self ..)) p.time) fun x hx => ?_
    simp only [observe_displaced]
    exact bind_same fun s => ih (i + 1) x.2 s fun q hq => (looked_getAugState hx).knows (hk q (List.mem_cons_of_mem _ hq))

theorem featureLoop_displaced (u : MsckfUpdater K) (n cam : Nat) (fs : List (FeatureTrack K)) :
    ∀ (e : Ekf K) (ct : Nat) (H : Mat K) (v : Vec K), (∀ f ∈ fs, ∀ p ∈ f.track, e.Knows u.id p.frameId) →
      u.featureLoop N n cam (fs.map (·.displaced d)) (e.displaced d) ct H v =
        (fun x => (x.1.displaced d, x.2)) <$> u.featureLoop N n cam fs e ct H v := by
  induction fs with
  | nil => intro e ct H v _; rfl
  | cons f fs ih =>
    intro e ct H v hk
    refine bind_mapped_of (triangulate_displaced N d u e f (hk f (List.mem_cons_self ..))) fun x hx => ?_
    have hl : e.Looked x.2.2 := (triangulate_form hx).choose_spec.choose_spec.choose_spec.2.2.1
    obtain ⟨ok, posF, e1⟩ := x
    have hk1 : ∀ f ∈ fs, ∀ p ∈ f.track, e1.Knows u.id p.frameId := fun g hg p hp => hl.knows (hk g (List.mem_cons_of_mem _ hg) p hp)
    cases ok with
    | false => exact ih e1 ct H v hk1
    | true =>
      cases posF with
      | none => rfl
      | some F =>
        simp only [if_true, Option.map_some, Bool.true_eq_false, if_false]
        refine bind_mapped_of (observeLoop_displaced N d u n cam F f.track 0 e1 _ fun p hp =>
          hl.knows (hk f (List.mem_cons_self ..) p hp)) fun y hy => ?_
        refine bind_same fun _ => bind_same fun _ => bind_same fun _ => ?_
        exact ih _ _ _ _ fun g hg p hp => (observeLoop_looks N _ hy).knows (hk1 g hg p hp)

theorem process_displaced (u : MsckfUpdater K) (e : Ekf K) (fs : List (FeatureTrack K)) (px : K)
    (hk : ∀ f ∈ fs, ∀ p ∈ f.track, e.Knows u.id p.frameId) :
    u.process N (e.displaced d) (fs.map (·.displaced d)) px = Ekf.displaced d <$> u.process N e fs px := by
  unfold process
  have hlen : ((fs.map (·.displaced d)).map fun f : FeatureTrack K => 2 * f.track.length) = fs.map fun f => 2 * f.track.length := by
    rw [List.map_map]
    rfl
  rw [hlen]
  refine bind_mapped (featureLoop_displaced N d u _ _ fs e _ _ _ hk) fun x => ite_mapped rfl (bind_same fun _ => ite_mapped rfl ?_)
  exact Ekf.kalmanUpdate_displaced N.toPrim d _ _ _ rfl

/-- Where frames are cloned, predicting leaves the windows alone. -/
theorem knows_predict {N : Prim K} {e e1 : Ekf K} {t : K} (h : e.predict N t = .ok e1) {cam frame : Nat} (hk : e.Knows cam frame) :
    e1.Knows cam frame := by
  by_cases ht : t < e.currentTime
  · have : e1 = e := by
      simp only [Ekf.predict, ht, if_true, pure_res, Except.ok.injEq] at h
      exact h.symm
    rw [this]; exact hk
  · have hfr := Ekf.frame2_predict ht h
    intro hc
    have h1 : e1.augType = e.augType := hfr.augType
    unfold Ekf.ClonesFrame at hc
    rw [h1, hfr.primary] at hc
    have hty : e.augType = .none ∨ e.augType = .all ∨ e.augType = .primary := by
      rcases hc with hc | ⟨hc, _⟩
      · exact .inr (.inl hc)
      · exact .inr (.inr hc)
    have hw : e1.window cam = e.window cam := by
      unfold Ekf.predict at h
      rw [if_neg ht] at h
      have aug : ∀ e2 : Ekf K, e2.augType = e.augType → e2.state.augs = e.state.augs → Ekf.augmentTimed N e2 = .ok e1 →
          e1.window cam = e.window cam := by
        intro e2 h2 h3 h4
        unfold Ekf.augmentTimed at h4
        rw [h2, if_pos hty] at h4
        cases h4
        unfold Ekf.window
        rw [h3]
      split at h
      · obtain ⟨c, _, h⟩ := bind_ok_iff.1 h
        obtain ⟨e2, h2, h⟩ := bind_ok_iff.1 h
        cases h2
        refine aug _ ?_ ?_ h <;> rfl
      · obtain ⟨e2, h2, h⟩ := bind_ok_iff.1 h
        cases h2
        refine aug _ ?_ ?_ h <;> rfl
    rw [hw]
    exact hk hc

theorem update_displaced (u : MsckfUpdater K) (e : Ekf K) (t : K) (intr : Intrinsics K) (fs : List (FeatureTrack K)) (px : K)
    (hk : ∀ f ∈ fs, ∀ p ∈ f.track, e.Knows u.id p.frameId) :
    u.update N (e.displaced d) t intr (fs.map (·.displaced d)) px = (fun x => (x.1, x.2.displaced d)) <$> u.update N e t intr fs px := by
  have h0 : ∀ f ∈ fs, ∀ p ∈ f.track, (e.calculateLocalTime t).2.Knows u.id p.frameId := by
    unfold Ekf.calculateLocalTime
    split <;> exact hk
  unfold update
  rw [Ekf.calculateLocalTime_displaced]
  revert h0
  generalize e.calculateLocalTime t = p
  obtain ⟨t, e⟩ := p
  intro h0
  refine bind_mapped_of (Ekf.predict_displaced N.toPrim d t rfl) fun e1 h1 => ?_
  by_cases hf : fs = []
  · subst hf; rfl
  · have hf' : fs.map (·.displaced d) ≠ [] := by simpa using hf
    rw [if_neg hf, if_neg hf']
    have hid : (u.refresh (e1.getCamState u.id).2 intr).id = u.id := by unfold refresh; split <;> rfl
    refine bind_mapped (process_displaced N d (u.refresh (e1.getCamState u.id).2 intr) (e1.getCamState u.id).2 fs px ?_) fun _ => rfl
    rw [hid]
    exact fun f hf p hp => knows_predict h1 (h0 f hf p hp)

end MsckfUpdater

/-- One event. -/
theorem Station.step_displaced (N : Num K) (G : GpsNum K) (d : V3 K) (s : Station K) (c : Call K) (hg : c.NoFix) (hk : c.Known s) :
    (s.displaced d).step N G (c.displaced d) = Station.displaced d <$> s.step N G c := by
  cases c with
  | filter op =>
    refine bind_mapped (Ekf.step_displaced N.toPrim d s.ekf op ?_ ?_) fun _ => rfl
    · intro t x f h; subst h; exact hg
    · intro c f t h; subst h; exact hk
  | newImu k id a b =>
    refine congrArg Except.ok ?_
    show (if (s.imus.find? k).isSome then _ else _) = displaced d (if (s.imus.find? k).isSome then _ else _)
    split <;> rfl
  | newGps k id a =>
    refine congrArg Except.ok ?_
    show (if (s.gpss.find? k).isSome then _ else _) = displaced d (if (s.gpss.find? k).isSome then _ else _)
    split <;> rfl
  | newCam k id a b =>
    refine congrArg Except.ok ?_
    show (if (s.cams.find? k).isSome then _ else _) = displaced d (if (s.cams.find? k).isSome then _ else _)
    split <;> rfl
  | newFid k id a b x =>
    refine congrArg Except.ok ?_
    show (if ((s.fids.mapValues (·.displaced d)).find? k).isSome then _ else _) = displaced d (if (s.fids.find? k).isSome then _ else _)
    rw [UMap.find?_mapValues]
    cases hf : s.fids.find? k with
    | some v => rfl
    | none =>
      show ({ s.displaced d with fids := (s.fids.mapValues (·.displaced d)).insert k (FidUpdater.new id a b x) } : Station K) = _
      have hn : FidUpdater.new id a b x = (FidUpdater.new id a b x : FidUpdater K).displaced d := rfl
      rw [hn, UMap.insert_mapValues]
      rfl
  | imu k t a ac w wc =>
    show (match s.imus.find? k with | none => _ | some u => _) = displaced d <$> (match s.imus.find? k with | none => _ | some u => _)
    cases s.imus.find? k with
    | none => rfl
    | some u => exact bind_mapped (ImuUpdater.update_displaced N d u s.ekf t a ac w wc) fun _ => rfl
  | gps k t a c => exact hg.elim
  | fid k t b =>
    show (match (s.fids.mapValues (·.displaced d)).find? k with | none => _ | some u => _) =
      displaced d <$> (match s.fids.find? k with | none => _ | some u => _)
    rw [UMap.find?_mapValues]
    cases s.fids.find? k with
    | none => rfl
    | some u =>
      refine bind_mapped (FidUpdater.update_displaced N d u s.ekf t b) fun x => ?_
      refine congrArg Except.ok ?_
      show ({ s with ekf := x.2.displaced d, fids := (s.fids.mapValues (·.displaced d)).insert k (x.1.displaced d) } : Station K) = _
      rw [UMap.insert_mapValues]
      rfl
  | cam k t i fs px =>
    show (match s.cams.find? k with | none => _ | some u => _) = displaced d <$> (match s.cams.find? k with | none => _ | some u => _)
    cases hu : s.cams.find? k with
    | none => rfl
    | some u => exact bind_mapped (MsckfUpdater.update_displaced N d u s.ekf t i fs px (hk u hu)) fun _ => rfl

end EkfCal
