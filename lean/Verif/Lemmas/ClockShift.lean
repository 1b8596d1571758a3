import Verif.Lemmas.Clock
import Verif.Lemmas.Triangulate
import Verif.Spec.ClockShift
import Verif.Spec.Window

/-!
# Nothing but `calculateLocalTime` looks at the reference time
-/

namespace EkfCal
variable {K : Type} [Field K] [LinearOrder K]

theorem bind_same {α β β' : Type} {ψ : β → β'} {x : Res α} {f : α → Res β} {f' : α → Res β'}
    (h : ∀ a, f' a = ψ <$> f a) : (x >>= f') = ψ <$> (x >>= f) := by
  cases x with
  | error u => rfl
  | ok a => exact h a

theorem bind_mapped {α α' β β' : Type} {φ : α → α'} {ψ : β → β'} {x : Res α} {x' : Res α'} {f : α → Res β} {f' : α' → Res β'}
    (hx : x' = φ <$> x) (h : ∀ a, f' (φ a) = ψ <$> f a) : (x' >>= f') = ψ <$> (x >>= f) := by
  subst hx
  cases x with
  | error u => rfl
  | ok a => exact h a

theorem ite_mapped {α β : Type} {ψ : α → β} {p : Prop} [Decidable p] {a b : Res α} {a' b' : Res β} (ha : a' = ψ <$> a)
    (hb : b' = ψ <$> b) : (if p then a' else b') = ψ <$> (if p then a else b) := by
  split <;> assumption

namespace Ekf

/-- The filter with another reference time, and with it known or unknown. -/
def withClock (r : K × Bool) (e : Ekf K) : Ekf K := { e with referenceTime := r.1, timeInitialized := r.2 }

variable (N : Prim K) (r : K × Bool)

theorem refreshIndices_clock {e e' : Ekf K} (h : e' = e.withClock r) : refreshIndices N e' = withClock r <$> refreshIndices N e := by
  subst h
  unfold refreshIndices
  refine bind_same fun _ => bind_same fun _ => bind_same fun _ => bind_same fun _ => bind_same fun _ => bind_same fun _ => ?_
  rfl

theorem registerIMU_clock (e : Ekf K) (id : Nat) (s : ImuState K) (c : Mat K) :
    registerIMU N (e.withClock r) id s c = withClock r <$> registerIMU N e id s c := by
  unfold registerIMU
  refine ite_mapped rfl (ite_mapped (bind_same fun _ => bind_same fun _ => ?_) ?_)
  · exact bind_mapped (φ := withClock r) rfl fun a => by
      cases s.isExtrinsic <;> cases s.isIntrinsic <;> exact refreshIndices_clock N r rfl
  · exact bind_mapped (φ := withClock r) rfl fun a => by
      cases s.isExtrinsic <;> cases s.isIntrinsic <;> exact refreshIndices_clock N r rfl

theorem registerGPS_clock (e : Ekf K) (id : Nat) (s : GpsState K) (c : Mat K) :
    registerGPS N (e.withClock r) id s c = withClock r <$> registerGPS N e id s c := by
  unfold registerGPS
  exact ite_mapped rfl (ite_mapped (bind_same fun _ => bind_same fun _ => refreshIndices_clock N r rfl)
    (refreshIndices_clock N r rfl))

theorem registerCamera_clock (e : Ekf K) (id : Nat) (s : CamState K) (c : Mat K) :
    registerCamera N (e.withClock r) id s c = withClock r <$> registerCamera N e id s c := by
  unfold registerCamera
  refine ite_mapped rfl (bind_same fun _ => ?_)
  by_cases h : e.primaryCameraId = 0
  · have h' : (e.withClock r).primaryCameraId = 0 := h
    simp only [h, h', if_true]
    exact ite_mapped (bind_same fun _ => bind_same fun _ => refreshIndices_clock N r rfl) (refreshIndices_clock N r rfl)
  · have h' : (e.withClock r).primaryCameraId ≠ 0 := h
    simp only [h, h', if_false]
    exact ite_mapped (bind_same fun _ => bind_same fun _ => refreshIndices_clock N r rfl) (refreshIndices_clock N r rfl)

theorem registerFiducial_clock (e : Ekf K) (s : FidState K) (c : Mat K) :
    registerFiducial N (e.withClock r) s c = withClock r <$> registerFiducial N e s c := by
  unfold registerFiducial
  exact ite_mapped rfl (ite_mapped (bind_same fun _ => bind_same fun _ => refreshIndices_clock N r rfl)
    (refreshIndices_clock N r rfl))

theorem augmentAtBack_clock {e e' : Ekf K} (key : Nat) (h : e' = e.withClock r) :
    augmentAtBack e' key = withClock r <$> augmentAtBack e key := by
  subst h
  unfold augmentAtBack
  have : (e.withClock r).state = e.state := rfl
  rw [this]
  split
  · rfl
  · exact bind_same fun _ => rfl

theorem augmentFrame_clock (e : Ekf K) (cam frame : Nat) :
    augmentFrame N (e.withClock r) cam frame = withClock r <$> augmentFrame N e cam frame := by
  unfold augmentFrame
  have jp : ∀ a : Ekf K, (do let e ← refreshIndices N (a.withClock r); e.augmentAtBack cam) =
      withClock r <$> (do let e ← refreshIndices N a; e.augmentAtBack cam) := fun a =>
    bind_mapped (refreshIndices_clock N r rfl) fun a => augmentAtBack_clock r cam rfl
  refine ite_mapped (ite_mapped ?_ ?_) rfl
  · exact bind_mapped (φ := withClock r) rfl jp
  · simp only [withClock, newClone]
    split
    · rfl
    · refine bind_same fun _ => ?_
      exact bind_mapped (φ := withClock r) rfl jp

theorem pruneAt_clock (e : Ekf K) (i : Nat) : pruneAt N (e.withClock r) i = withClock r <$> pruneAt N e i := by
  unfold pruneAt
  have : (e.withClock r).state = e.state := rfl
  simp only [this]
  split
  · rfl
  · refine ite_mapped ?_ rfl
    split
    · rfl
    · exact bind_same fun _ => refreshIndices_clock N r rfl

theorem pruneLoop_clock (n : Nat) {e e' : Ekf K} (h : e' = e.withClock r) :
    pruneLoop N n e' = withClock r <$> pruneLoop N n e := by
  subst h
  induction n generalizing e with
  | zero => rfl
  | succ n ih => exact bind_mapped (pruneAt_clock N r e n) fun a => ih

theorem augmentTimed_clock {e e' : Ekf K} (h : e' = e.withClock r) : augmentTimed N e' = withClock r <$> augmentTimed N e := by
  subst h
  unfold augmentTimed
  refine ite_mapped rfl (bind_same fun due => bind_mapped (pruneLoop_clock N r _ rfl) fun a => ?_)
  refine ite_mapped ?_ rfl
  exact bind_mapped (refreshIndices_clock N r rfl) fun a => bind_mapped (augmentAtBack_clock r 0 rfl) fun _ => rfl

theorem predict_clock {e e' : Ekf K} (t : K) (h : e' = e.withClock r) : predict N e' t = withClock r <$> predict N e t := by
  subst h
  unfold predict
  exact ite_mapped rfl (ite_mapped (bind_same fun _ => augmentTimed_clock N r rfl) (augmentTimed_clock N r rfl))

theorem kalmanUpdate_clock {e e' : Ekf K} (j : Mat K) (x : Vec K) (n : Mat K) (h : e' = e.withClock r) :
    kalmanUpdate N e' j x n = withClock r <$> kalmanUpdate N e j x n := by
  subst h
  unfold kalmanUpdate
  have h1 : (e.withClock r).useRoot = e.useRoot := rfl
  have h2 : (e.withClock r).cov = e.cov := rfl
  have h3 : (e.withClock r).state = e.state := rfl
  simp only [h1, h2, h3]
  cases e.useRoot <;> simp only [Bool.false_eq_true, if_true, if_false] <;>
    (repeat' refine bind_same fun _ => ?_) <;> rfl

theorem getAugState_clock {e e' : Ekf K} (cam frame : Nat) (t : K) (h : e' = e.withClock r) :
    getAugState N e' cam frame t = (fun x => (x.1, x.2.withClock r)) <$> getAugState N e cam frame t := by
  subst h
  unfold getAugState
  exact ite_mapped rfl (bind_same fun _ => rfl)

theorem attemptGpsInit_clock {e e' : Ekf K} (t : K) (x : V3 K) (fit : List (V3 K) → List (V3 K) → GpsFit K)
    (h : e' = e.withClock r) : attemptGpsInit e' t x fit = withClock r <$> attemptGpsInit e t x fit := by
  subst h
  unfold attemptGpsInit
  exact ite_mapped (bind_same fun _ => ite_mapped rfl rfl) rfl

/-- No call but `localTime` and `initializeAt` has to do with the reference time. -/
theorem step_clock (e : Ekf K) (op : Op K) (h : ∀ t, op ≠ .localTime t) (h2 : ∀ t b, op ≠ .initializeAt t b) :
    step N (e.withClock r) op = withClock r <$> step N e op := by
  cases op with
  | registerIMU id s c => exact registerIMU_clock N r e id s c
  | registerGPS id s c => exact registerGPS_clock N r e id s c
  | registerCamera id s c => exact registerCamera_clock N r e id s c
  | registerFiducial s c => exact registerFiducial_clock N r e s c
  | predict t => exact predict_clock N r t rfl
  | frame c f => exact augmentFrame_clock N r e c f
  | kalman j x n => exact kalmanUpdate_clock N r j x n rfl
  | getAug c f t => exact bind_mapped (getAugState_clock N r c f t rfl) fun _ => rfl
  | localTime t => exact absurd rfl (h t)
  | initializeAt t b => exact absurd rfl (h2 t b)
  | attemptGpsInit t x f => exact attemptGpsInit_clock r t x f rfl
  | _ => rfl

/-- The stamp that counts as zero after a message. -/
theorem calculateLocalTime_clock (e : Ekf K) (t δ ρ : K) (h : e.timeInitialized = true → ρ = e.referenceTime + δ) :
    (e.withClock (ρ, e.timeInitialized)).calculateLocalTime (t + δ) =
      ((e.calculateLocalTime t).1, (e.calculateLocalTime t).2.withClock ((e.calculateLocalTime t).2.referenceTime + δ, true)) := by
  unfold calculateLocalTime
  cases hi : e.timeInitialized with
  | true =>
    rw [h hi]
    simp only [withClock, if_true, hi]
    refine Prod.ext ?_ rfl
    simp
  | false => simp [withClock, hi]

theorem calculateLocalTime_init (e : Ekf K) (t : K) : (e.calculateLocalTime t).2.timeInitialized = true := by
  unfold calculateLocalTime
  split
  · assumption
  · rfl

end Ekf

namespace ImuUpdater
variable (N : Num K) (r : K × Bool)

theorem zeroAccUpdate_clock (u : ImuUpdater) (e : Ekf K) (t : K) (acc : V3 K) (ac : M3 K) (omg : V3 K) (oc : M3 K) :
    u.zeroAccUpdate N (e.withClock r) t acc ac omg oc =
      (fun x => (x.1, x.2.1, x.2.2.withClock r)) <$> u.zeroAccUpdate N e t acc ac omg oc := by
  unfold zeroAccUpdate
  refine ite_mapped rfl (bind_same fun _ => bind_same fun _ => bind_same fun sc => ite_mapped rfl ?_)
  by_cases h : sc < e.motionDetectionChiSquared
  · have h1 : sc < (((e.withClock r).getImuState u.id).2).motionDetectionChiSquared := h
    have h2 : sc < ((e.getImuState u.id).2).motionDetectionChiSquared := h
    simp only [h1, h2, if_true]
    exact bind_mapped (Ekf.predict_clock N.toPrim r t rfl) fun a => bind_same fun _ =>
      bind_mapped (Ekf.kalmanUpdate_clock N.toPrim r _ _ _ rfl) fun _ => rfl
  · have h1 : ¬ sc < (((e.withClock r).getImuState u.id).2).motionDetectionChiSquared := h
    have h2 : ¬ sc < ((e.getImuState u.id).2).motionDetectionChiSquared := h
    simp only [h1, h2, if_false]
    exact bind_mapped (Ekf.predict_clock N.toPrim r t rfl) fun a => bind_same fun _ =>
      bind_mapped (Ekf.kalmanUpdate_clock N.toPrim r _ _ _ rfl) fun _ => rfl

theorem update_clock (u : ImuUpdater) (e : Ekf K) (t : K) (acc : V3 K) (ac : M3 K) (omg : V3 K) (oc : M3 K) (e' : Ekf K) (t' : K)
    (h : e'.calculateLocalTime t' = ((e.calculateLocalTime t).1, (e.calculateLocalTime t).2.withClock r)) :
    u.update N e' t' acc ac omg oc = (fun x => (x.1, x.2.withClock r)) <$> u.update N e t acc ac omg oc := by
  unfold update
  rw [h]
  generalize e.calculateLocalTime t = p
  obtain ⟨t, e⟩ := p
  refine bind_mapped (zeroAccUpdate_clock N r u e t acc ac omg oc) fun x => ?_
  refine ite_mapped rfl (ite_mapped ?_ ?_)
  · exact bind_mapped (φ := Ekf.withClock r) rfl fun a => bind_mapped (Ekf.predict_clock N.toPrim r t rfl) fun _ => rfl
  · refine bind_same fun _ => bind_same fun _ => ?_
    exact bind_mapped (Ekf.kalmanUpdate_clock N.toPrim r _ _ _ rfl) fun a =>
      bind_mapped (Ekf.predict_clock N.toPrim r t rfl) fun _ => rfl

end ImuUpdater

namespace GpsUpdater
variable (N : Num K) (G : GpsNum K) (r : K × Bool)

theorem multiLoop_clock (e : Ekf K) (xs : List (V3 K)) :
    ∀ (i : Nat) (ps : List (V3 K)) (u : GpsUpdater K) (jac : Mat K) (resid : Vec K),
      multiLoop N G (e.withClock r) i xs ps u jac resid = multiLoop N G e i xs ps u jac resid := by
  induction xs with
  | nil => intro i ps u jac resid; rfl
  | cons x xs ih =>
    intro i ps u jac resid
    cases ps with
    | nil => rfl
    | cons p ps =>
      unfold multiLoop
      simp only [ih]
      rfl

theorem multiUpdate_clock (u : GpsUpdater K) (e : Ekf K) :
    u.multiUpdate N G (e.withClock r) = (fun x => (x.1, x.2.withClock r)) <$> u.multiUpdate N G e := by
  unfold multiUpdate
  have hl := multiLoop_clock N G r (e.getGpsState u.id).2
  refine (congrArg (· >>= _) (hl _ _ _ _ _ _)).trans ?_
  refine bind_same fun x => bind_same fun y => ?_
  by_cases hy : y.2.size ≤ 1
  · simp only [hy, if_true]; rfl
  simp only [hy, if_false]
  exact bind_mapped (Ekf.kalmanUpdate_clock N.toPrim r _ _ _ rfl) fun _ => rfl

theorem update_clock (u : GpsUpdater K) (e : Ekf K) (t : K) (lla : V3 K) (cov : Mat K) (e' : Ekf K) (t' : K)
    (h : e'.calculateLocalTime t' = ((e.calculateLocalTime t).1, (e.calculateLocalTime t).2.withClock r)) :
    u.update N G e' t' lla cov = (fun x => (x.1, x.2.withClock r)) <$> u.update N G e t lla cov := by
  unfold update
  rw [h]
  generalize e.calculateLocalTime t = p
  obtain ⟨t, e⟩ := p
  refine bind_mapped (Ekf.predict_clock N.toPrim r t rfl) fun e => ite_mapped ?_ ?_
  · refine bind_same fun _ => bind_mapped (Ekf.attemptGpsInit_clock r t _ _ rfl) fun e => ite_mapped ?_ rfl
    exact multiUpdate_clock N G r u e
  · refine bind_same fun _ => bind_same fun _ => ?_
    exact bind_mapped (Ekf.kalmanUpdate_clock N.toPrim r _ _ _ rfl) fun _ => rfl

end GpsUpdater

namespace FidUpdater
variable (N : Num K) (r : K × Bool)

theorem update_clock (u : FidUpdater K) (e : Ekf K) (t : K) (d : BoardDetection K) (e' : Ekf K) (t' : K)
    (h : e'.calculateLocalTime t' = ((e.calculateLocalTime t).1, (e.calculateLocalTime t).2.withClock r)) :
    u.update N e' t' d = (fun x => (x.1, x.2.withClock r)) <$> u.update N e t d := by
  unfold update
  rw [h]
  generalize e.calculateLocalTime t = p
  obtain ⟨t, e⟩ := p
  refine bind_mapped (Ekf.predict_clock N.toPrim r t rfl) fun e => ?_
  have hs : ((e.withClock r).getCamState u.cameraId).2.state = (e.getCamState u.cameraId).2.state := rfl
  simp only [hs]
  split
  · rfl
  · refine bind_same fun _ => bind_same fun _ => ?_
    exact bind_mapped (Ekf.kalmanUpdate_clock N.toPrim r _ _ _ rfl) fun _ => rfl

end FidUpdater

/-! ### Tracks -/

theorem Ekf.Looked.clones {e e' : Ekf K} (h : e.Looked e') {cam : Nat} (hc : e.ClonesFrame cam) : e'.ClonesFrame cam := by
  have h1 : e'.augType = e.augType := by rw [h.same]
  have h2 : e'.primaryCameraId = e.primaryCameraId := by rw [h.same]
  unfold Ekf.ClonesFrame
  rw [h1, h2]
  exact hc

/-- For a camera whose frames are cloned the time of the observation is not looked at. -/
theorem Ekf.getAugState_anytime (N : Prim K) (r : K × Bool) {e : Ekf K} {cam : Nat} {δ : K} (h : δ = 0 ∨ e.ClonesFrame cam)
    (frame : Nat) (t : K) :
    (e.withClock r).getAugState N cam frame (t + δ) = (fun x => (x.1, x.2.withClock r)) <$> e.getAugState N cam frame t := by
  rw [getAugState_clock N r cam frame (t + δ) rfl]
  rcases h with rfl | h
  · rw [add_zero]
  · unfold ClonesFrame at h
    unfold getAugState
    rw [if_pos h, if_pos h]

theorem bind_mapped_of {α α' β β' : Type} {φ : α → α'} {ψ : β → β'} {x : Res α} {x' : Res α'} {f : α → Res β} {f' : α' → Res β'}
    (hx : x' = φ <$> x) (h : ∀ a, x = .ok a → f' (φ a) = ψ <$> f a) : (x' >>= f') = ψ <$> (x >>= f) := by
  subst hx
  cases x with
  | error u => rfl
  | ok a => exact h a rfl

namespace MsckfUpdater
variable (N : Num K) (r : K × Bool) (δ : K)

theorem observeLoop_looks {u : MsckfUpdater K} {n cam : Nat} {F : V3 K} (ps : List (FeaturePoint K)) :
    ∀ {i : Nat} {e : Ekf K} {s : Mat K × Mat K × Vec K} {out : Ekf K × Mat K × Mat K × Vec K},
      u.observeLoop N n cam F i ps e s = .ok out → e.Looked out.1 := by
  induction ps with
  | nil => intro i e s out h; cases h; exact .refl _
  | cons p ps ih =>
    intro i e s out h
    obtain ⟨x, h1, h⟩ := bind_ok_iff.1 h
    obtain ⟨y, _, h⟩ := bind_ok_iff.1 h
    exact (looked_getAugState h1).trans (ih h)

theorem triangulateLoop_clock (u : MsckfUpdater K) (a0 : AugState K) (ps : List (FeaturePoint K)) :
    ∀ (e : Ekf K) (A : M3 K) (b : V3 K), (δ = 0 ∨ e.ClonesFrame u.id) →
      u.triangulateLoop N a0 (ps.map (·.later δ)) (e.withClock r) A b =
        (fun x => (x.1, x.2.1, x.2.2.withClock r)) <$> u.triangulateLoop N a0 ps e A b := by
  induction ps with
  | nil => intro e A b _; rfl
  | cons p ps ih =>
    intro e A b hc
    refine bind_mapped_of (Ekf.getAugState_anytime N.toPrim r hc p.frameId p.time) fun x hx => ?_
    exact ih x.2 _ _ (hc.imp_right (looked_getAugState hx).clones)

theorem triangulate_clock (u : MsckfUpdater K) (e : Ekf K) (f : FeatureTrack K) (hc : δ = 0 ∨ e.ClonesFrame u.id) :
    u.triangulate N (e.withClock r) (f.later δ) =
      (fun x => (x.1, x.2.1, x.2.2.withClock r)) <$> u.triangulate N e f := by
  obtain ⟨track, truth⟩ := f
  cases track with
  | nil => rfl
  | cons p ps =>
    refine bind_mapped_of (Ekf.getAugState_anytime N.toPrim r hc p.frameId p.time) fun x hx => ?_
    refine bind_mapped (triangulateLoop_clock N r δ u x.1 (p :: ps) x.2 0 0 (hc.imp_right (looked_getAugState hx).clones)) fun y => ?_
    exact ite_mapped (ite_mapped rfl rfl) (ite_mapped rfl rfl)

theorem observeLoop_clock (u : MsckfUpdater K) (n cam : Nat) (F : V3 K) (ps : List (FeaturePoint K)) :
    ∀ (i : Nat) (e : Ekf K) (s : Mat K × Mat K × Vec K), (δ = 0 ∨ e.ClonesFrame u.id) →
      u.observeLoop N n cam F i (ps.map (·.later δ)) (e.withClock r) s =
        (fun x => (x.1.withClock r, x.2)) <$> u.observeLoop N n cam F i ps e s := by
  induction ps with
  | nil => intro i e s _; rfl
  | cons p ps ih =>
    intro i e s hc
    refine bind_mapped_of (Ekf.getAugState_anytime N.toPrim r hc p.frameId p.time) fun x hx => ?_
    exact bind_same fun s => ih (i + 1) x.2 s (hc.imp_right (looked_getAugState hx).clones)

theorem featureLoop_clock (u : MsckfUpdater K) (n cam : Nat) (fs : List (FeatureTrack K)) :
    ∀ (e : Ekf K) (ct : Nat) (H : Mat K) (v : Vec K), (δ = 0 ∨ e.ClonesFrame u.id) →
      u.featureLoop N n cam (fs.map (·.later δ)) (e.withClock r) ct H v =
        (fun x => (x.1.withClock r, x.2)) <$> u.featureLoop N n cam fs e ct H v := by
  induction fs with
  | nil => intro e ct H v _; rfl
  | cons f fs ih =>
    intro e ct H v hc
    refine bind_mapped_of (triangulate_clock N r δ u e f hc) fun x hx => ?_
    have hl : e.Looked x.2.2 := (triangulate_form hx).choose_spec.choose_spec.choose_spec.2.2.1
    refine ite_mapped (ih _ _ _ _ (hc.imp_right hl.clones)) ?_
    obtain ⟨ok, posF, e1⟩ := x
    cases posF with
    | none => rfl
    | some F =>
      have hlen : (f.later δ).track.length = f.track.length := List.length_map _
      simp only [hlen]
      refine bind_mapped_of (observeLoop_clock N r δ u n cam F f.track 0 e1 _ (hc.imp_right hl.clones)) fun y hy => ?_
      refine bind_same fun _ => bind_same fun _ => bind_same fun _ => ?_
      exact ih _ _ _ _ ((hc.imp_right hl.clones).imp_right (observeLoop_looks N _ hy).clones)

theorem process_clock (u : MsckfUpdater K) (e : Ekf K) (fs : List (FeatureTrack K)) (px : K) (hc : δ = 0 ∨ e.ClonesFrame u.id) :
    u.process N (e.withClock r) (fs.map (·.later δ)) px = Ekf.withClock r <$> u.process N e fs px := by
  unfold process
  have hlen : ((fs.map (·.later δ)).map fun f : FeatureTrack K => 2 * f.track.length) = fs.map fun f => 2 * f.track.length := by
    rw [List.map_map]
    refine List.map_congr_left fun f _ => ?_
    simp [FeatureTrack.later]
  rw [hlen]
  refine bind_mapped (featureLoop_clock N r δ u _ _ fs e _ _ _ hc) fun x => ite_mapped rfl (bind_same fun _ => ite_mapped rfl ?_)
  exact Ekf.kalmanUpdate_clock N.toPrim r _ _ _ rfl

theorem update_clock (u : MsckfUpdater K) (e : Ekf K) (t : K) (intr : Intrinsics K) (fs : List (FeatureTrack K)) (px : K)
    (e' : Ekf K) (t' : K) (hc : fs = [] ∨ δ = 0 ∨ e.ClonesFrame u.id)
    (h : e'.calculateLocalTime t' = ((e.calculateLocalTime t).1, (e.calculateLocalTime t).2.withClock r)) :
    u.update N e' t' intr (fs.map (·.later δ)) px = (fun x => (x.1, x.2.withClock r)) <$> u.update N e t intr fs px := by
  have h0 : fs = [] ∨ δ = 0 ∨ (e.calculateLocalTime t).2.ClonesFrame u.id := by
    refine hc.imp_right fun hc => hc.imp_right fun hc => ?_
    unfold Ekf.calculateLocalTime
    split <;> exact hc
  unfold update
  rw [h]
  revert h0
  generalize e.calculateLocalTime t = p
  obtain ⟨t, e⟩ := p
  intro h0
  refine bind_mapped_of (Ekf.predict_clock N.toPrim r t rfl) fun e1 h1 => ?_
  rcases h0 with rfl | h0
  · rfl
  · have hc1 : δ = 0 ∨ e1.ClonesFrame u.id := by
      refine h0.imp_right fun h0 => ?_
      have h2 : e1.augType = e.augType ∧ e1.primaryCameraId = e.primaryCameraId := by
        by_cases ht : t < e.currentTime
        · have : e1 = e := by
            simp only [Ekf.predict, ht, if_true, pure_res, Except.ok.injEq] at h1
            exact h1.symm
          exact ⟨by rw [this], by rw [this]⟩
        · have := Ekf.frame2_predict ht h1
          exact ⟨this.augType, this.primary⟩
      unfold Ekf.ClonesFrame
      rw [h2.1, h2.2]
      exact h0
    by_cases hf : fs = []
    · subst hf; rfl
    · have hf' : fs.map (·.later δ) ≠ [] := by simpa using hf
      rw [if_neg hf, if_neg hf']
      exact bind_mapped (process_clock N r δ (u.refresh (e1.getCamState u.id).2 intr) (e1.getCamState u.id).2 fs px
        (by
          have hid : (u.refresh (e1.getCamState u.id).2 intr).id = u.id := by unfold refresh; split <;> rfl
          rw [hid]
          exact hc1)) fun _ => rfl

end MsckfUpdater

/-! ### A message -/

theorem Ekf.later_clock (δ : K) (e : Ekf K) :
    e.later δ = e.withClock (if e.timeInitialized then e.referenceTime + δ else e.referenceTime, e.timeInitialized) := rfl

theorem calculateLocalTime_later (δ : K) (e : Ekf K) (t : K) : (e.later δ).calculateLocalTime (t + δ) =
    ((e.calculateLocalTime t).1, (e.calculateLocalTime t).2.withClock ((e.calculateLocalTime t).2.referenceTime + δ, true)) := by
  rw [Ekf.later_clock]
  exact Ekf.calculateLocalTime_clock e t δ _ fun h => by rw [if_pos h]

/-- A message whose effect does not look at the clock commutes with the choice of the origin. -/
theorem later_of_clock {U : Type} {δ : K} {e : Ekf K} {t : K} {x y : Res (U × Ekf K)}
    (hx : x = (fun a => (a.1, a.2.withClock ((e.calculateLocalTime t).2.referenceTime, true))) <$> x)
    (hy : y = (fun a => (a.1, a.2.withClock ((e.calculateLocalTime t).2.referenceTime + δ, true))) <$> x) :
    y = (fun a => (a.1, a.2.later δ)) <$> x := by
  subst hy
  cases x with
  | error u => rfl
  | ok a =>
    have h : a = (a.1, a.2.withClock ((e.calculateLocalTime t).2.referenceTime, true)) := Except.ok.inj hx
    have h2 : a.2 = a.2.withClock ((e.calculateLocalTime t).2.referenceTime, true) := congrArg Prod.snd h
    refine congrArg Except.ok (Prod.ext rfl ?_)
    show a.2.withClock _ = a.2.later δ
    rw [Ekf.later_clock]
    have h3 : a.2.referenceTime = (e.calculateLocalTime t).2.referenceTime := (congrArg Ekf.referenceTime h2 :)
    have h4 : a.2.timeInitialized = true := (congrArg Ekf.timeInitialized h2 :)
    rw [h3, h4, if_pos rfl]

theorem calculateLocalTime_own (e : Ekf K) (t : K) : e.calculateLocalTime t =
    ((e.calculateLocalTime t).1, (e.calculateLocalTime t).2.withClock ((e.calculateLocalTime t).2.referenceTime, true)) := by
  refine Prod.ext rfl ?_
  have h : ∀ e : Ekf K, e.timeInitialized = true → e = e.withClock (e.referenceTime, true) := fun e h => by rw [← h]; rfl
  exact h _ (Ekf.calculateLocalTime_init e t)

theorem FeatureTrack.later_zero (fs : List (FeatureTrack K)) : fs.map (·.later 0) = fs := by
  refine (List.map_congr_left fun f _ => ?_).trans (List.map_id fs)
  obtain ⟨track, truth⟩ := f
  refine congrArg (FeatureTrack.mk · truth) ?_
  refine (List.map_congr_left fun p _ => ?_).trans (List.map_id track)
  simp [FeaturePoint.later]

/-- One event. -/
theorem Station.step_later (N : Num K) (G : GpsNum K) (δ : K) (s : Station K) (c : Call K) (hk : c.KeepsClock) (ε : K)
    (ht : ε = 0 ∨ c.TracksCloned s) : (s.later δ).step N G (c.shift δ ε) = Station.later δ <$> s.step N G c := by
  have ins : ∀ {U : Type} {x : Res (U × Ekf K)} {y : Res (U × Ekf K)} (f : U → Ekf K → Station K) (g : U → Ekf K → Station K),
      y = (fun a => (a.1, a.2.later δ)) <$> x → (∀ u e, g u (e.later δ) = (f u e).later δ) →
      (do let a ← y; pure (g a.1 a.2)) = Station.later δ <$> (do let a ← x; pure (f a.1 a.2)) := by
    intro U x y f g hy hg
    subst hy
    cases x with
    | error u => rfl
    | ok a => exact congrArg Except.ok (hg a.1 a.2)
  cases c with
  | filter op =>
    by_cases hl : ∃ t, op = .localTime t
    · obtain ⟨t, rfl⟩ := hl
      refine congrArg Except.ok ?_
      simp only [Station.later]
      refine congrArg (fun e => ({ s with ekf := e } : Station K)) ?_
      show ((s.ekf.later δ).calculateLocalTime (t + δ)).2 = _
      rw [calculateLocalTime_later]
      show _ = Ekf.later δ (s.ekf.calculateLocalTime t).2
      rw [Ekf.later_clock, Ekf.calculateLocalTime_init, if_pos rfl]
    · have h1 : ∀ t, op ≠ .localTime t := fun t h => hl ⟨t, h⟩
      have h2 : ∀ t b, op ≠ .initializeAt t b := fun t b h => by subst h; exact hk
      have hc : (Call.filter op).shift δ ε = .filter op := by
        cases op <;> first | rfl | exact absurd rfl (h1 _)
      rw [hc]
      have h3 := Ekf.step_clock N.toPrim (s.ekf.referenceTime, s.ekf.timeInitialized) s.ekf op h1 h2
      have h4 := Ekf.step_clock N.toPrim (if s.ekf.timeInitialized then s.ekf.referenceTime + δ else s.ekf.referenceTime,
        s.ekf.timeInitialized) s.ekf op h1 h2
      have h5 : s.ekf.withClock (s.ekf.referenceTime, s.ekf.timeInitialized) = s.ekf := rfl
      rw [h5] at h3
      unfold Station.step
      show (do let e ← Ekf.step N.toPrim (s.ekf.later δ) op; pure { s with ekf := e }) =
        Station.later δ <$> (do let e ← Ekf.step N.toPrim s.ekf op; pure { s with ekf := e })
      rw [Ekf.later_clock, h4]
      generalize s.ekf.step N.toPrim op = x at h3
      cases x with
      | error u => rfl
      | ok a =>
        have h6 : a = a.withClock (s.ekf.referenceTime, s.ekf.timeInitialized) := Except.ok.inj h3
        refine congrArg Except.ok ?_
        show ({ s with ekf := _ } : Station K) = { s with ekf := a.later δ }
        rw [Ekf.later_clock]
        have h7 : a.referenceTime = s.ekf.referenceTime := (congrArg Ekf.referenceTime h6 :)
        have h8 : a.timeInitialized = s.ekf.timeInitialized := (congrArg Ekf.timeInitialized h6 :)
        rw [h7, h8]
  | newImu k id a b => simp only [Station.step, Call.shift]; split <;> rename_i h <;> simp only [Station.later] at h ⊢ <;> simp [h] <;> rfl
  | newGps k id a => simp only [Station.step, Call.shift]; split <;> rename_i h <;> simp only [Station.later] at h ⊢ <;> simp [h] <;> rfl
  | newFid k id a b d => simp only [Station.step, Call.shift]; split <;> rename_i h <;> simp only [Station.later] at h ⊢ <;> simp [h] <;> rfl
  | newCam k id a d => simp only [Station.step, Call.shift]; split <;> rename_i h <;> simp only [Station.later] at h ⊢ <;> simp [h] <;> rfl
  | imu k t a ac w wc =>
    unfold Station.step Call.shift
    have hf : (s.later δ).imus.find? k = s.imus.find? k := rfl
    simp only [hf]
    cases s.imus.find? k with
    | none => rfl
    | some u =>
      refine ins (fun u' e => { s with ekf := e, imus := s.imus.insert k u' })
        (fun u' e => { s with ekf := e, imus := s.imus.insert k u' }) ?_ fun _ _ => rfl
      exact later_of_clock (ImuUpdater.update_clock N _ u s.ekf t a ac w wc s.ekf t (calculateLocalTime_own _ _))
        (ImuUpdater.update_clock N _ u s.ekf t a ac w wc _ _ (calculateLocalTime_later δ _ _))
  | gps k t a c =>
    unfold Station.step Call.shift
    have hf : (s.later δ).gpss.find? k = s.gpss.find? k := rfl
    simp only [hf]
    cases s.gpss.find? k with
    | none => rfl
    | some u =>
      refine ins (fun u' e => { s with ekf := e, gpss := s.gpss.insert k u' })
        (fun u' e => { s with ekf := e, gpss := s.gpss.insert k u' }) ?_ fun _ _ => rfl
      exact later_of_clock (GpsUpdater.update_clock N G _ u s.ekf t a c s.ekf t (calculateLocalTime_own _ _))
        (GpsUpdater.update_clock N G _ u s.ekf t a c _ _ (calculateLocalTime_later δ _ _))
  | fid k t d =>
    unfold Station.step Call.shift
    have hf : (s.later δ).fids.find? k = s.fids.find? k := rfl
    simp only [hf]
    cases s.fids.find? k with
    | none => rfl
    | some u =>
      refine ins (fun u' e => { s with ekf := e, fids := s.fids.insert k u' })
        (fun u' e => { s with ekf := e, fids := s.fids.insert k u' }) ?_ fun _ _ => rfl
      exact later_of_clock (FidUpdater.update_clock N _ u s.ekf t d s.ekf t (calculateLocalTime_own _ _))
        (FidUpdater.update_clock N _ u s.ekf t d _ _ (calculateLocalTime_later δ _ _))
  | cam k t i fs px =>
    unfold Station.step Call.shift
    have hf : (s.later δ).cams.find? k = s.cams.find? k := rfl
    simp only [hf]
    cases hu : s.cams.find? k with
    | none => rfl
    | some u =>
      have hc : fs = [] ∨ ε = 0 ∨ s.ekf.ClonesFrame u.id := by
        rcases ht with h | h | h
        · exact .inr (.inl h)
        · exact .inl h
        · exact .inr (.inr (h u hu))
      refine ins (fun u' e => { s with ekf := e, cams := s.cams.insert k u' })
        (fun u' e => { s with ekf := e, cams := s.cams.insert k u' }) ?_ fun _ _ => rfl
      have h0 := MsckfUpdater.update_clock N ((s.ekf.calculateLocalTime t).2.referenceTime, true) 0 u s.ekf t i fs px s.ekf t (.inr (.inl rfl))
        (calculateLocalTime_own _ _)
      rw [FeatureTrack.later_zero] at h0
      exact later_of_clock h0 (MsckfUpdater.update_clock N _ ε u s.ekf t i fs px _ _ hc (calculateLocalTime_later δ _ _))

end EkfCal
