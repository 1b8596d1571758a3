import Verif.Model.Ekf
import Verif.Lemmas.CovHist
import Verif.Lemmas.Correct
import Verif.Lemmas.Defined

/-! # Invariants of the form "every component of the state satisfies a predicate" -/

set_option linter.unusedSectionVars false

namespace EkfCal
variable {K : Type} [Field K] [LinearOrder K]

/-- One predicate per kind of component. -/
structure CompPred (K : Type) where
  body : BodyState K → Prop := fun _ => True
  imu : ImuState K → Prop := fun _ => True
  gps : GpsState K → Prop := fun _ => True
  cam : CamState K → Prop := fun _ => True
  fid : FidState K → Prop := fun _ => True
  aug : AugState K → Prop := fun _ => True

/-- All components satisfy their predicates. -/
structure State.All (C : CompPred K) (s : State K) : Prop where
  body : C.body s.body
  imus : ∀ x ∈ s.imus, C.imu x.2
  gpss : ∀ x ∈ s.gpss, C.gps x.2
  cams : ∀ x ∈ s.cams, C.cam x.2
  fids : ∀ x ∈ s.fids, C.fid x.2
  augs : ∀ x ∈ s.augs, ∀ a ∈ x.2, C.aug a

/-- Component arguments satisfy the predicates. -/
def Ekf.Op.CompOK (C : CompPred K) : Ekf.Op K → Prop
  | .registerIMU _ s _ => C.imu s
  | .registerGPS _ s _ => C.gps s
  | .registerCamera _ s _ => C.cam s
  | .registerFiducial s _ => C.fid s
  | .initializeAt _ b => C.body b
  | _ => True

/-- The predicates survive everything the filter does to a component. -/
structure CompPred.Closed (N : Prim K) (C : CompPred K) : Prop where
  bodyDefault : C.body BodyState.default
  bodyIdx : ∀ b i, C.body b → C.body { b with index := i }
  bodyAdd : ∀ b v b', BodyState.addVec N b v = .ok b' → C.body b → C.body b'
  bodyPredict : ∀ b z dt, C.body b → C.body (Ekf.predictBody N z b dt)
  bodyMotion : ∀ (b : BodyState K) (x y z : V3 K), C.body b → C.body { b with acc := x, angVel := y, angAcc := z }
  imuDefault : C.imu ImuState.default
  imuIdx : ∀ s i, C.imu s → C.imu (ImuState.reindex s i)
  imuAdd : ∀ s v i r, ImuState.addVecAt N s v i = .ok r → C.imu s → C.imu r.1
  gpsDefault : C.gps GpsState.default
  gpsIdx : ∀ s i, C.gps s → C.gps (GpsState.reindex s i)
  gpsAdd : ∀ s v i r, GpsState.addVecAt s v i = .ok r → C.gps s → C.gps r.1
  camDefault : C.cam CamState.default
  camIdx : ∀ s i, C.cam s → C.cam (CamState.reindex s i)
  camAdd : ∀ s v i r, CamState.addVecAt N s v i = .ok r → C.cam s → C.cam r.1
  fidIdx : ∀ s i, C.fid s → C.fid (FidState.reindex s i)
  fidAdd : ∀ s v i r, FidState.addVecAt N s v i = .ok r → C.fid s → C.fid r.1
  augIdx : ∀ s i, C.aug s → C.aug { s with index := i }
  augAdd : ∀ s v i r, AugState.addVecAt N s v i = .ok r → C.aug s → C.aug r.1
  clone : ∀ (e : Ekf K) f, C.body e.state.body → C.aug (e.newClone f)

theorem loopIdx_forall {α : Type} {f : α → Nat → Res (α × Nat)} {P : α → Prop}
    (hf : ∀ a i r, f a i = .ok r → P a → P r.1) :
    ∀ {l : List α} {i : Nat} {r : List α × Nat}, loopIdx f l i = .ok r → (∀ a ∈ l, P a) → ∀ a ∈ r.1, P a
  | [], i, r, h, hp => by cases h; simp
  | a :: l, i, r, h, hp => by
    simp only [loopIdx, bind_ok_iff, pure_res, Except.ok.injEq] at h
    obtain ⟨⟨a', j⟩, h1, ⟨l', k⟩, h2, rfl⟩ := h
    intro x hx
    rcases List.mem_cons.1 hx with rfl | hx
    · exact hf _ _ _ h1 (hp _ (List.mem_cons_self ..))
    · exact loopIdx_forall hf h2 (fun b hb => hp b (List.mem_cons_of_mem _ hb)) x hx

theorem loopMap_forall {α : Type} {f : α → Nat → Res (α × Nat)} {P : α → Prop}
    (hf : ∀ a i r, f a i = .ok r → P a → P r.1) {m : UMap α} {i : Nat} {r : UMap α × Nat}
    (h : loopMap f m i = .ok r) (hp : ∀ x ∈ m, P x.2) : ∀ x ∈ r.1, P x.2 := by
  refine loopIdx_forall (P := fun x : Nat × α => P x.2) ?_ h hp
  intro a i r h hp
  simp only [bind_ok_iff, pure_res, Except.ok.injEq] at h
  obtain ⟨⟨v, j⟩, h1, rfl⟩ := h
  exact hf _ _ _ h1 hp

theorem all_addVec {N : Prim K} {C : CompPred K} (hC : C.Closed N) {s s' : State K} {v : Vec K}
    (h : s.addVec N v = .ok s') (hs : s.All C) : s'.All C := by
  simp only [State.addVec, bind_ok_iff, pure_res, Except.ok.injEq] at h
  obtain ⟨bp, _, body, hb, ⟨imus, i1⟩, h1, ⟨gpss, i2⟩, h2, ⟨cams, i3⟩, h3, ⟨fids, i4⟩, h4, ⟨augs, i5⟩, h5, rfl⟩ := h
  exact ⟨hC.bodyAdd _ _ _ hb hs.body, loopMap_forall (fun a i r h => hC.imuAdd a v i r h) h1 hs.imus,
    loopMap_forall (fun a i r h => hC.gpsAdd a v i r h) h2 hs.gpss,
    loopMap_forall (fun a i r h => hC.camAdd a v i r h) h3 hs.cams,
    loopMap_forall (fun a i r h => hC.fidAdd a v i r h) h4 hs.fids,
    loopMap_forall (P := fun w : List (AugState K) => ∀ a ∈ w, C.aug a)
      (fun w i r h hw => loopIdx_forall (fun a i r h => hC.augAdd a v i r h) h hw) h5 hs.augs⟩

theorem mem_reindexWindow {w : List (AugState K)} {i : Nat} {a : AugState K} (h : a ∈ reindexWindow w i) :
    ∃ b ∈ w, ∃ j, a = { b with index := j } := by
  induction w generalizing i with
  | nil => cases h
  | cons x xs ih =>
    rcases List.mem_cons.1 h with rfl | h
    · exact ⟨x, by simp, _, rfl⟩
    · obtain ⟨b, hb, hj⟩ := ih h
      exact ⟨b, by simp [hb], hj⟩

theorem all_reindex {N : Prim K} {C : CompPred K} (hC : C.Closed N) {s : State K} (hs : s.All C) : s.reindex.All C := by
  refine ⟨hC.bodyIdx _ _ hs.body, ?_, ?_, ?_, ?_, ?_⟩ <;> intro x hx
  · obtain ⟨y, hy, _, j, h⟩ := mem_accumIdx hx
    rw [h]; exact hC.imuIdx _ _ (hs.imus y hy)
  · obtain ⟨y, hy, _, j, h⟩ := mem_accumIdx hx
    rw [h]; exact hC.gpsIdx _ _ (hs.gpss y hy)
  · obtain ⟨y, hy, _, j, h⟩ := mem_accumIdx hx
    rw [h]; exact hC.camIdx _ _ (hs.cams y hy)
  · obtain ⟨y, hy, _, j, h⟩ := mem_accumIdx hx
    rw [h]; exact hC.fidIdx _ _ (hs.fids y hy)
  · obtain ⟨y, hy, _, j, h⟩ := mem_accumIdx hx
    intro a ha
    rw [h] at ha
    obtain ⟨b, hb, _, rfl⟩ := mem_reindexWindow ha
    exact hC.augIdx _ _ (hs.augs y hy b hb)

theorem forall_insert {α : Type} {P : α → Prop} {m : UMap α} {k : Nat} {v : α} (h : ∀ x ∈ m, P x.2) (hv : P v) :
    ∀ x ∈ UMap.insert m k v, P x.2 := by
  intro y hy
  rcases UMap.mem_insert hy with rfl | hy
  · exact hv
  · exact h y hy

theorem forall_touch {α : Type} {P : α → Prop} {m : UMap α} {k : Nat} {v : α} (h : ∀ x ∈ m, P x.2) (hv : P v) :
    ∀ x ∈ UMap.touch m k v, P x.2 := by
  unfold UMap.touch
  split
  · exact h
  · exact forall_insert h hv

theorem forall_getD {α : Type} {P : α → Prop} {m : UMap α} {k : Nat} {v : α} (h : ∀ x ∈ m, P x.2) (hv : P v) :
    P (UMap.getD m k v) := by
  unfold UMap.getD
  cases hf : UMap.find? m k with
  | none => exact hv
  | some a => exact h (k, a) (UMap.find?_mem hf)

namespace Ekf

theorem kalmanUpdate_form' {N : Prim K} {e e' : Ekf K} {j : Mat K} {r : Vec K} {n : Mat K}
    (h : kalmanUpdate N e j r n = .ok e') :
    ∃ s c v, e' = { e with state := s, cov := c } ∧ e.state.addVec N v = .ok s ∧ v.size = e.cov.rows := by
  unfold kalmanUpdate at h
  cases hu : e.useRoot <;>
    simp only [hu, Bool.false_eq_true, if_false, if_true, bind_ok_iff, pure_res, ok_bind, Except.ok.injEq] at h
  · obtain ⟨_, _, _, _, inn, hinn, _, _, invm, _, gain, hgain, upd, hupd, s, hs, kh, hkh, ikh, hikh, a, ha, b, hb, d, hd,
      f, hf, c, hc, rfl⟩ := h
    obtain ⟨_, rfl⟩ := Mat.mulVec_ok_iff.1 hupd
    have hkh := Mat.mul_shape hkh
    have hikh := Mat.sub_shape hikh
    simp only [Mat.identity] at hikh
    exact ⟨s, c, _, rfl, hs, by show gain.rows = _; omega⟩
  · obtain ⟨_, _, inn, hinn, _, _, _, _, _, _, invm, _, gain, hgain, upd, hupd, s, hs, kh, hkh, ikh, hikh, a, ha, b, hb,
      c, hc, rfl⟩ := h
    obtain ⟨_, rfl⟩ := Mat.mulVec_ok_iff.1 hupd
    have hkh := Mat.mul_shape hkh
    have hikh := Mat.sub_shape hikh
    simp only [Mat.identity] at hikh
    exact ⟨s, c, _, rfl, hs, by show gain.rows = _; omega⟩

theorem all_refresh {N : Prim K} {C : CompPred K} (hC : C.Closed N) {e e' : Ekf K} (h : refreshIndices N e = .ok e')
    (hs : e.state.All C) : e'.state.All C := by
  rw [refreshIndices_state h]; exact all_reindex hC hs

theorem all_window {C : CompPred K} {s : State K} (hs : s.All C) (k : Nat) :
    ∀ a ∈ s.augs.getD k [], C.aug a :=
  forall_getD (P := fun w : List (AugState K) => ∀ a ∈ w, C.aug a) hs.augs (by simp)

theorem all_setWindow {C : CompPred K} {s : State K} (hs : s.All C) (k : Nat) {w : List (AugState K)}
    (hw : ∀ a ∈ w, C.aug a) : State.All C { s with augs := s.augs.insert k w } :=
  ⟨hs.body, hs.imus, hs.gpss, hs.cams, hs.fids,
    forall_insert (P := fun w : List (AugState K) => ∀ a ∈ w, C.aug a) hs.augs hw⟩

theorem all_touchWindow {C : CompPred K} {s : State K} (hs : s.All C) (k : Nat) :
    State.All C { s with augs := s.augs.touch k [] } :=
  ⟨hs.body, hs.imus, hs.gpss, hs.cams, hs.fids,
    forall_touch (P := fun w : List (AugState K) => ∀ a ∈ w, C.aug a) hs.augs (by simp)⟩

theorem all_pruneLoop {N : Prim K} {C : CompPred K} (hC : C.Closed N) {n : Nat} {e e' : Ekf K} (hs : e.state.All C)
    (h : pruneLoop N n e = .ok e') : e'.state.All C := by
  induction n generalizing e with
  | zero => cases h; exact hs
  | succ n ih =>
    simp only [pruneLoop, bind_ok_iff] at h
    obtain ⟨e1, h1, h2⟩ := h
    refine ih ?_ h2
    obtain ⟨_, _, ⟨_, rfl⟩ | ⟨_, _, _, _, _, h⟩⟩ := pruneAt_form h1
    · exact hs
    · exact all_refresh hC h (all_setWindow hs 0 fun a ha => all_window hs 0 a (List.mem_of_mem_eraseIdx ha))

theorem all_clone {N : Prim K} {C : CompPred K} (hC : C.Closed N) {e : Ekf K} (hs : e.state.All C) (k f : Nat) :
    ∀ a ∈ e.state.augs.getD k [] ++ [e.newClone f], C.aug a := by
  intro a ha
  rcases List.mem_append.1 ha with ha | ha
  · exact all_window hs k a ha
  · rw [List.mem_singleton.1 ha]; exact hC.clone _ _ hs.body

theorem all_augmentTimed {N : Prim K} {C : CompPred K} (hC : C.Closed N) {e e' : Ekf K} (hs : e.state.All C)
    (h : augmentTimed N e = .ok e') : e'.state.All C := by
  obtain ⟨_, rfl⟩ | ⟨_, _, e1, _, h1, h⟩ := augmentTimed_form h
  · exact hs
  · have hs1 : e1.state.All C := all_pruneLoop hC (all_touchWindow hs 0) h1
    obtain ⟨_, rfl⟩ | ⟨_, e2, e3, h2, h3, rfl⟩ := h
    · exact hs1
    · have := all_refresh hC h2 (all_setWindow hs1 0 (all_clone hC hs1 0 0))
      obtain ⟨_, _, _, _, rfl⟩ := augmentAtBack_form h3
      exact this

theorem all_step {N : Prim K} {C : CompPred K} (hC : C.Closed N) {e e' : Ekf K} {op : Op K}
    (hs : e.state.All C) (ho : op.CompOK C) (h : step N e op = .ok e') : e'.state.All C := by
  cases op with
  | registerIMU id s c =>
    obtain ⟨_, rfl⟩ | ⟨_, _, _, h⟩ := registerIMU_form h
    · exact hs
    · exact all_refresh hC h ⟨hs.body, forall_insert hs.imus ho, hs.gpss, hs.cams, hs.fids,
        hs.augs⟩
  | registerGPS id s c =>
    obtain ⟨_, rfl⟩ | ⟨_, _, _, h⟩ := registerGPS_form h
    · exact hs
    · exact all_refresh hC h ⟨hs.body, hs.imus, forall_insert hs.gpss ho, hs.cams, hs.fids, hs.augs⟩
  | registerCamera id s c =>
    obtain ⟨_, rfl⟩ | ⟨_, _, _, _, h⟩ := registerCamera_form h
    · exact hs
    · exact all_refresh hC h ⟨hs.body, hs.imus, hs.gpss, forall_insert hs.cams ho, hs.fids,
        hs.augs⟩
  | registerFiducial s c =>
    obtain ⟨_, rfl⟩ | ⟨_, _, _, h⟩ := registerFiducial_form h
    · exact hs
    · exact all_refresh hC h ⟨hs.body, hs.imus, hs.gpss, hs.cams, forall_insert hs.fids ho,
        hs.augs⟩
  | predict t =>
    obtain ⟨_, rfl⟩ | ⟨_, b, out, hb, h⟩ := predict_form h
    · exact hs
    · refine all_augmentTimed hC ?_ h
      refine ⟨?_, hs.imus, hs.gpss, hs.cams, hs.fids, hs.augs⟩
      show C.body b
      obtain ⟨_, rfl, _⟩ | ⟨_, rfl, _⟩ := hb
      · exact hs.body
      · exact hC.bodyPredict _ _ _ hs.body
  | frame c f =>
    obtain ⟨_, rfl⟩ | ⟨_, e1, h1, h2⟩ := augmentFrame_form h
    · exact hs
    · obtain ⟨_, _, _, _, rfl⟩ := augmentAtBack_form h2
      show e1.state.All C
      obtain ⟨_, h1⟩ | ⟨_, first, rest, out, hw, _, h1⟩ := h1
      · exact all_refresh hC h1 (all_setWindow hs c (all_clone hC hs c f))
      · refine all_refresh hC h1 (all_setWindow hs c fun a ha => ?_)
        exact all_clone hC hs c f a (by rw [hw]; exact List.mem_cons_of_mem _ ha)
  | kalman j r n =>
    obtain ⟨s, c, v, rfl, h, _, _⟩ := kalmanUpdate_form h
    exact all_addVec hC h hs
  | getImu id =>
    cases h
    exact ⟨hs.body, forall_touch hs.imus hC.imuDefault, hs.gpss, hs.cams, hs.fids, hs.augs⟩
  | getGps id => cases h; exact ⟨hs.body, hs.imus, forall_touch hs.gpss hC.gpsDefault, hs.cams, hs.fids, hs.augs⟩
  | getCam id =>
    cases h
    exact ⟨hs.body, hs.imus, hs.gpss, forall_touch hs.cams hC.camDefault, hs.fids, hs.augs⟩
  | getAug c f t =>
    simp only [step, bind_ok_iff, pure_res, Except.ok.injEq] at h
    obtain ⟨r, h, rfl⟩ := h
    obtain ⟨key, hk⟩ := getAugState_form h
    rw [hk]; exact all_touchWindow hs key
  | initializeAt t b => cases h; exact ⟨ho, hs.imus, hs.gpss, hs.cams, hs.fids, hs.augs⟩
  | setMaxTrackLength n => cases h; exact hs
  | setGpsReference p a => cases h; exact hs
  | setZeroAcceleration b => cases h; exact hs
  | initializeGravity => cases h; exact hs
  | localTime t =>
    simp only [step, Except.ok.injEq] at h
    subst h
    unfold calculateLocalTime
    split <;> exact hs
  | setBodyProcessNoise v => cases h; exact hs
  | attemptGpsInit t x f => obtain ⟨_, _, _, _, rfl⟩ := attemptGpsInit_form h; exact hs
  | setBodyMotion a w α => cases h; exact ⟨hC.bodyMotion _ _ _ _ hs.body, hs.imus, hs.gpss, hs.cams, hs.fids, hs.augs⟩

theorem all_run {N : Prim K} {C : CompPred K} (hC : C.Closed N) {ops : List (Op K)} {e e' : Ekf K}
    (hs : e.state.All C) (ho : ∀ op ∈ ops, op.CompOK C) (h : run N e ops = .ok e') : e'.state.All C := by
  induction ops generalizing e with
  | nil => cases h; exact hs
  | cons op ops ih =>
    simp only [run, bind_ok_iff] at h
    obtain ⟨e1, h1, h2⟩ := h
    exact ih (all_step hC hs (ho op (by simp)) h1) (fun o h => ho o (by simp [h])) h2

theorem all_init {N : Prim K} {C : CompPred K} (hC : C.Closed N) (p : EkfParams K) :
    (init N p).state.All C :=
  ⟨hC.bodyDefault, fun _ hx => (List.not_mem_nil hx).elim, fun _ hx => (List.not_mem_nil hx).elim, fun _ hx => (List.not_mem_nil hx).elim,
    fun _ hx => (List.not_mem_nil hx).elim, fun _ hx => (List.not_mem_nil hx).elim⟩


end Ekf
end EkfCal
