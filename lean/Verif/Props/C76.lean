import Verif.Spec.SimTrack
import Verif.Spec.StationSamples
import Verif.Lemmas.AddZero
import Verif.Lemmas.RootUpdate
import Verif.Props.C10
import Verif.Props.C44
import Verif.Props.C47Body
import Verif.Props.C59

/-!
# C76: error-free simulated camera tracks leave a filter at the truth unchanged
-/

set_option linter.unusedSectionVars false

namespace EkfCal
open Ekf
variable {K : Type} [Field K] [LinearOrder K] [FloorRing K] [IsStrictOrderedRing K]

/-! ## The observation -/

theorem SimKeypoint.sees {c : Intrinsics K} {pose : CameraPose K} {F : V3 K} {x y : K} (h : SimKeypoint c pose F x y) :
    0 < pose.local F 2 ∧ (x, y) = cvProject c (pose.local F) := by
  obtain ⟨count, draw, t, t', keys, id, h1, h2, h3⟩ := h
  obtain ⟨keys', t'', h1', hk, _⟩ := C47_frame true count c pose draw t
  rw [h1] at h1'
  cases h1'
  obtain ⟨p, hp, hs, hx, hy⟩ := (hk id x y).1 h2
  rw [h3] at hp
  cases hp
  simp only [if_true] at hx hy
  exact ⟨hs.1, Prod.ext hx hy⟩

/-- A pose of the filter that is the true one is the pose the simulator sees from. -/
theorem local_inCamera {u : MsckfUpdater K} {a : AugState K} {b : TruthBody K} (hp : a.pos = b.pos) (ha : a.ang = b.ang)
    (hb : b.ang.normSq = 1) (hc : u.angC.normSq = 1) (F : V3 K) : (CameraPose.of b u.posC u.angC).local F = u.inCamera a F := by
  rw [CameraPose.local, CameraPose.of, MsckfUpdater.inCamera, MsckfUpdater.centre, ← Quat.toMat_mul hb hc,
    Matrix.transpose_mul, ← Matrix.mulVec_mulVec, hp, ha, Quat.rotate_toMat, add_comm]

/-- The simulator's projection is the lens followed by the pixel grid. -/
theorem cvProject_lens (c : Intrinsics K) (p : V3 K) (hz : p 2 ≠ 0) : cvProject c p = c.pixelAt (c.lens (project p)) := by
  have e0 : project p 0 = p 0 * (1 / p 2) := by simp [project, div_eq_mul_inv]
  have e1 : project p 1 = p 1 * (1 / p 2) := by simp [project, div_eq_mul_inv]
  simp only [cvProject, if_neg hz, Intrinsics.pixelAt, Intrinsics.lens, e0, e1, Matrix.cons_val_zero, Matrix.cons_val_one,
    Prod.mk.injEq]
  constructor <;> ring

theorem lens_pinhole {c : Intrinsics K} (h : c.Pinhole) (v : V2 K) : c.lens v = v := by
  funext i
  fin_cases i <;> simp [Intrinsics.lens, h.k1, h.k2, h.p1, h.p2]

/-- **An error-free key point of a camera without lens distortion is the image the filter predicts** at the true poses. -/
theorem C76_sees (u : MsckfUpdater K) (a : AugState K) (b : TruthBody K) (p : FeaturePoint K) (F : V3 K) (hi : u.intr.Pinhole)
    (hp : a.pos = b.pos) (ha : a.ang = b.ang) (hb : b.ang.normSq = 1) (hc : u.angC.normSq = 1)
    (h : SimKeypoint u.intr (CameraPose.of b u.posC u.angC) F p.x p.y) : u.Sees a p F := by
  obtain ⟨h1, h2⟩ := h.sees
  rw [local_inCamera hp ha hb hc] at h1 h2
  exact ⟨h1, hi.toUsable, by rw [h2, cvProject_lens _ _ h1.ne', lens_pinhole hi]; rfl⟩

/-- The residual of the new rows, and the rest of the residual. -/
theorem observe_res {N : Num K} {u : MsckfUpdater K} {n cam i : Nat} {F : V3 K} {a : AugState K} {p : FeaturePoint K}
    {s out : Mat K × Mat K × Vec K} (h : u.observe N n cam i F a p s = .ok out) (r : V2 K)
    (hr : r = normalisePixel u.intr p.x p.y - project
      (u.angC.toMat.transpose.mulVec (a.ang.toMat.transpose.mulVec (F - a.pos) - u.posC))) :
    out.2.2 = ⟨s.2.2.size, fun k => if k = 2 * i then r 0 else if k = 2 * i + 1 then r 1 else s.2.2.get k⟩ := by
  unfold MsckfUpdater.observe at h
  obtain ⟨_, _, h⟩ := bind_ok_iff.1 h
  obtain ⟨Hf1, _, h⟩ := bind_ok_iff.1 h
  dsimp only at h
  rw [← hr] at h
  split at h
  · obtain ⟨H1, g1, h⟩ := bind_ok_iff.1 h
    obtain ⟨H2, g2, h⟩ := bind_ok_iff.1 h
    split at h
    · obtain ⟨H3, g3, h⟩ := bind_ok_iff.1 h
      split at h
      · obtain ⟨_, _, h⟩ := bind_ok_iff.1 h
        obtain ⟨H4, g4, h⟩ := bind_ok_iff.1 h
        obtain ⟨_, _, h⟩ := bind_ok_iff.1 h
        obtain ⟨H5, g5, h⟩ := bind_ok_iff.1 h
        cases h
        rfl
      · obtain ⟨H4, g4, h⟩ := bind_ok_iff.1 h
        cases h
        rfl
    · obtain ⟨H4, g4, h⟩ := bind_ok_iff.1 h
      cases h
      rfl
  · obtain ⟨H0, g0, h⟩ := bind_ok_iff.1 h
    cases g0
    split at h
    · obtain ⟨H3, g3, h⟩ := bind_ok_iff.1 h
      split at h
      · obtain ⟨_, _, h⟩ := bind_ok_iff.1 h
        obtain ⟨H4, g4, h⟩ := bind_ok_iff.1 h
        obtain ⟨_, _, h⟩ := bind_ok_iff.1 h
        obtain ⟨H5, g5, h⟩ := bind_ok_iff.1 h
        cases h
        rfl
      · obtain ⟨H4, g4, h⟩ := bind_ok_iff.1 h
        cases h
        rfl
    · obtain ⟨H4, g4, h⟩ := bind_ok_iff.1 h
      cases h
      rfl

theorem inCamera_parts {u : MsckfUpdater K} {a : AugState K} (h : a.ang.normSq = 1) (F : V3 K) :
    u.angC.toMat.transpose.mulVec (a.ang.toMat.transpose.mulVec (F - a.pos) - u.posC) = u.inCamera a F := by
  rw [MsckfUpdater.inCamera, MsckfUpdater.centre]
  congr 1
  rw [show F - (a.ang.toMat.mulVec u.posC + a.pos) = (F - a.pos) - a.ang.toMat.mulVec u.posC by abel,
    Matrix.mulVec_sub _ (F - a.pos), Matrix.mulVec_mulVec, toMat_transpose_mul h, Matrix.one_mulVec]

/-- **Any lens**: the residual of an error-free key point at the true poses is the displacement by the lens of the direction
to the feature, which the updater leaves out. -/
theorem C76_residual (N : Num K) (u : MsckfUpdater K) (n cam i : Nat) (a : AugState K) (b : TruthBody K) (p : FeaturePoint K)
    (F : V3 K) (hi : u.intr.Usable) (hp : a.pos = b.pos) (ha : a.ang = b.ang) (hb : b.ang.normSq = 1)
    (hc : u.angC.normSq = 1) (h : SimKeypoint u.intr (CameraPose.of b u.posC u.angC) F p.x p.y) (s out : Mat K × Mat K × Vec K)
    (ho : u.observe N n cam i F a p s = .ok out) :
    out.2.2.part2 (2 * i) = u.intr.lens (u.predicted a F) - u.predicted a F := by
  obtain ⟨h1, h2⟩ := h.sees
  rw [local_inCamera hp ha hb hc] at h1 h2
  rw [cvProject_lens _ _ h1.ne', pixelAt_iff hi] at h2
  have hr := observe_res ho _ rfl
  rw [inCamera_parts (by rw [ha]; exact hb), h2] at hr
  rw [hr]
  funext k
  fin_cases k
  · show (if 2 * i + 0 = 2 * i then _ else _) = _
    rw [if_pos (by omega)]; rfl
  · show (if 2 * i + 1 = 2 * i then _ else if 2 * i + 1 = 2 * i + 1 then _ else _) = _
    rw [if_neg (by omega), if_pos rfl]; rfl

/-- **Violated for every lens that only distorts radially**: at the true state the residual of an error-free key point is
not zero unless the feature is on the optical axis. -/
theorem C76_distortion_violated (N : Num K) (u : MsckfUpdater K) (n cam i : Nat) (a : AugState K) (b : TruthBody K)
    (p : FeaturePoint K) (F : V3 K) (hi : u.intr.Usable) (hk : u.intr.k1 ≠ 0 ∧ u.intr.k2 = 0 ∧ u.intr.p1 = 0 ∧ u.intr.p2 = 0)
    (hp : a.pos = b.pos) (ha : a.ang = b.ang) (hb : b.ang.normSq = 1) (hc : u.angC.normSq = 1)
    (h : SimKeypoint u.intr (CameraPose.of b u.posC u.angC) F p.x p.y) (hoff : u.predicted a F ≠ 0)
    (s out : Mat K × Mat K × Vec K) (ho : u.observe N n cam i F a p s = .ok out) :
    out.2.2.part2 (2 * i) ≠ 0 := by
  rw [C76_residual N u n cam i a b p F hi hp ha hb hc h s out ho]
  obtain ⟨k1, k2, p1, p2⟩ := hk
  generalize u.predicted a F = v at hoff ⊢
  intro h0
  have e0 := congrFun h0 0
  have e1 := congrFun h0 1
  simp only [Intrinsics.lens, Pi.sub_apply, Pi.zero_apply, Matrix.cons_val_zero, Matrix.cons_val_one, k2, p1, p2] at e0 e1
  have hr : v 0 ^ 2 + v 1 ^ 2 ≠ 0 := by
    intro hz
    apply hoff
    have h0 : v 0 = 0 := by nlinarith [sq_nonneg (v 0), sq_nonneg (v 1)]
    have h1 : v 1 = 0 := by nlinarith [sq_nonneg (v 0), sq_nonneg (v 1)]
    funext k
    fin_cases k
    · exact h0
    · exact h1
  have hm : u.intr.k1 * (v 0 ^ 2 + v 1 ^ 2) ≠ 0 := mul_ne_zero k1 hr
  have f0 : v 0 = 0 := (mul_eq_zero.1 (show v 0 * (u.intr.k1 * (v 0 ^ 2 + v 1 ^ 2)) = 0 by linear_combination e0)).resolve_right hm
  have f1 : v 1 = 0 := (mul_eq_zero.1 (show v 1 * (u.intr.k1 * (v 0 ^ 2 + v 1 ^ 2)) = 0 by linear_combination e1)).resolve_right hm
  exact hr (by rw [f0, f1]; ring)

/-! ## Zero residuals stay zero -/

theorem givensStep_zero (N : Prim K) (j i : Nat) (s : Mat K × Vec K) (h : ∀ k, s.2.get k = 0) :
    ∀ k, (givensStep N j i s).2.get k = 0 := by
  intro k
  simp only [givensStep, h]
  split
  · ring
  · split
    · ring
    · rfl

theorem givensColumn_zero (N : Prim K) (j n : Nat) : ∀ s : Mat K × Vec K, (∀ k, s.2.get k = 0) →
    ∀ k, (givensColumn N j n s).2.get k = 0 := by
  induction n with
  | zero => intro s h; exact h
  | succ n ih => intro s h; exact ih _ (givensStep_zero N j _ s h)

theorem givensAll_zero (N : Prim K) (n : Nat) (s : Mat K × Vec K) (h : ∀ k, s.2.get k = 0) :
    ∀ k, (givensAll N n s).2.get k = 0 := by
  induction n with
  | zero => exact h
  | succ n ih => exact givensColumn_zero N n _ _ ih

theorem compress_zero {N : Prim K} {H : Mat K} {r : Vec K} {out : Mat K × Vec K} (h : compressMeasurements N H r = .ok out)
    (hr : ∀ k, r.get k = 0) : ∀ k, out.2.get k = 0 := by
  unfold compressMeasurements at h
  split at h
  · obtain ⟨_, _, h⟩ := bind_ok_iff.1 h
    cases h
    exact givensAll_zero N _ (H, r) hr
  · cases h; exact hr

theorem nullspace_zero {N : Num K} {Hf Hx : Mat K} {r : Vec K} {out : Mat K × Vec K}
    (h : applyLeftNullspace N Hf Hx r = .ok out) (hr : ∀ k, r.get k = 0) : ∀ k, out.2.get k = 0 := by
  unfold applyLeftNullspace at h
  simp only [bind_ok_iff, pure_res, Except.ok.injEq, guardUB_ok_iff] at h
  obtain ⟨_, hc, q, hq, a, ha, b, hb, rfl⟩ := h
  obtain ⟨_, rfl⟩ := Mat.mulVec_ok_iff.1 hb
  intro k
  simp [hr]

theorem observeLoop_zero {N : Num K} {u : MsckfUpdater K} {n cam : Nat} {F : V3 K} (ps : List (FeaturePoint K)) :
    ∀ {i : Nat} {e : Ekf K} {s : Mat K × Mat K × Vec K} {out : Ekf K × Mat K × Mat K × Vec K},
      u.observeLoop N n cam F i ps e s = .ok out → (∀ k, s.2.2.get k = 0) →
      (∀ p ∈ ps, ∀ a, e.poseFor N.toPrim u.id p = .ok a → a.ang.normSq = 1 ∧ u.Sees a p F) → ∀ k, out.2.2.2.get k = 0 := by
  induction ps with
  | nil => intro i e s out h hs _; cases h; exact hs
  | cons p ps ih =>
    intro i e s out h hs hp
    unfold MsckfUpdater.observeLoop at h
    obtain ⟨⟨a, e1⟩, h1, h⟩ := bind_ok_iff.1 h
    obtain ⟨s1, h2, h⟩ := bind_ok_iff.1 h
    have hl := looked_getAugState h1
    refine ih h ?_ fun q hq b hb => hp q (List.mem_cons_of_mem _ hq) b (by
      rw [← hb]; exact (poseFor_looked N.toPrim hl u.id q).symm)
    obtain ⟨ha, _, hu, hsee⟩ := hp p (List.mem_cons_self ..) a (getAugState_pose h1)
    rw [pixelAt_iff hu] at hsee
    have hr := observe_res h2 0 (by
      rw [inCamera_parts ha, hsee]
      exact (sub_self _).symm)
    intro k
    rw [hr]
    simp [hs]

/-- Both forms of the correction: a zero residual leaves the estimate unchanged. -/
theorem kalman_zero {N : Prim K} (hN : N.rotVecToQuat 0 = Quat.one) {e e' : Ekf K} {H : Mat K} {r : Vec K} {R : Mat K}
    (hr : ∀ a, r.get a = 0) (h : kalmanUpdate N e H r R = .ok e') : e'.state = e.state := by
  cases hu : e.useRoot with
  | false => exact C10_zero_residual N hN e e' H r R hu hr h
  | true =>
    obtain ⟨_, L, I, G, s, L2, M2, c, rfl, _, _, _, _, _, hs, _⟩ := kalman_root hu h
    exact State.addVec_zero hN (fun i => by simp [hr]) hs

/-! ## The message -/

/-- Features whose observations are all exact add only zeros to the residual. -/
theorem featureLoop_zero {N : Num K} {u : MsckfUpdater K} {n cam : Nat} (e0 : Ekf K) (fs : List (FeatureTrack K)) :
    ∀ (e : Ekf K) (ct : Nat) (H : Mat K) (r : Vec K) (out : Ekf K × Nat × Mat K × Vec K), e0.Looked e →
      u.featureLoop N n cam fs e ct H r = .ok out → (∀ k, r.get k = 0) →
      (∀ f ∈ fs, ∃ F, (∀ p ∈ f.track, ∀ a, e0.poseFor N.toPrim u.id p = .ok a → a.ang.normSq = 1 ∧ u.Sees a p F) ∧
        ∀ e1 out, e0.Looked e1 → u.triangulate N e1 f = .ok out → out.1 = true → out.2.1 = some F) →
      e0.Looked out.1 ∧ ∀ k, out.2.2.2.get k = 0 := by
  induction fs with
  | nil => intro e ct H r out hl h hr _; cases h; exact ⟨hl, hr⟩
  | cons f fs ih =>
    intro e ct H r out hl h hr hf
    unfold MsckfUpdater.featureLoop at h
    obtain ⟨⟨ok, posF, e1⟩, h1, h⟩ := bind_ok_iff.1 h
    obtain ⟨_, _, _, _, _, hl1, _⟩ := triangulate_form h1
    have hl1' : e0.Looked e1 := hl.trans hl1
    have hfs := fun g (hg : g ∈ fs) => hf g (List.mem_cons_of_mem _ hg)
    dsimp only at h
    split at h
    · exact ih e1 ct H r out hl1' h hr hfs
    · next hok =>
      obtain ⟨F, hs, ht⟩ := hf f (List.mem_cons_self ..)
      have hF : posF = some F := ht e (ok, posF, e1) hl h1 (by simpa using hok)
      subst hF
      dsimp only at h
      obtain ⟨⟨e2, Hf, Hc, res⟩, h2, h⟩ := bind_ok_iff.1 h
      obtain ⟨⟨Hp, rp⟩, h3, h⟩ := bind_ok_iff.1 h
      obtain ⟨H1, h4, h⟩ := bind_ok_iff.1 h
      obtain ⟨_, h5, h⟩ := bind_ok_iff.1 h
      have hz := observeLoop_zero f.track h2 (fun _ => rfl) fun p hp a ha => hs p hp a (by
        rw [← ha]; exact (poseFor_looked N.toPrim hl1' u.id p).symm)
      have hz' := nullspace_zero h3 hz
      refine ih e2 _ _ _ out (hl1'.trans (observeLoop_looked _ h2)) h (fun k => ?_) hfs
      dsimp only
      split
      · exact hz' _
      · exact hr k

theorem poseFor_getCam (N : Prim K) (e : Ekf K) (id cam : Nat) (p : FeaturePoint K) :
    (e.getCamState id).2.poseFor N cam p = e.poseFor N cam p := by
  unfold poseFor getAugState getCamState
  dsimp only
  split
  · rfl
  · have h : ∀ w t, interpolateClone N { e with state := { e.state with cams := e.state.cams.touch id CamState.default } } w t =
        interpolateClone N e w t := fun w t => rfl
    simp only [h]
    cases interpolateClone N e (e.state.augs.getD (if e.augType = .primary then e.primaryCameraId else 0) []) p.time <;> rfl

/-- **A message of error-free tracks leaves a filter at the truth unchanged**: the lens does not distort, the camera pose of
the filter and the poses it has for the observations are the true ones, and the position of each feature is either given
with the track or can be triangulated (laws of the solver and the square root; two views from different directions).  Then
the estimate after the message is the predicted one, in both forms of the filter; only empty clone windows and the default
camera may have been entered in the maps. -/
theorem C76_update_partial (N : Num K) (hN : N.rotVecToQuat 0 = Quat.one) (c : Intrinsics K) (hc : c.Pinhole) (camPos : V3 K)
    (camAng : Quat K) (uc : camAng.normSq = 1) (body : FeaturePoint K → TruthBody K) (u : MsckfUpdater K) (e e1 : Ekf K)
    (time px : K) (fs : List (FeatureTrack K)) (r : MsckfUpdater K × Ekf K) (h : u.update N e time c fs px = .ok r)
    (hm : e.AtMessage N time e1) (hcur : e1.useFirstEstimate = false ∨ u.isFirst = true)
    (hcam : e1.cameraPose u.id = (camPos, camAng))
    (hf : ∀ f ∈ fs, ∃ F, TrueTrack N e1 u.id c camPos camAng body F f ∧
      ((u.useTruth = true ∧ f.truth = some F) ∨
        (u.useTruth = false ∧ N.toPrim.SqrtLaw ∧ N.SolveLaw ∧ ∃ p ∈ f.track, ∃ q ∈ f.track,
          V3.cross (F - (CameraPose.of (body p) camPos camAng).pos) (F - (CameraPose.of (body q) camPos camAng).pos) ≠ 0))) :
    r.2.state.body = e1.state.body ∧ r.2.state.imus = e1.state.imus ∧ r.2.state.gpss = e1.state.gpss ∧
      r.2.state.fids = e1.state.fids ∧ (∀ k, r.2.cameraPose k = e1.cameraPose k) ∧ ∀ k, r.2.window k = e1.window k := by
  have hcur' : (e1.getCamState u.id).2.useFirstEstimate = false ∨ u.isFirst = true := hcur
  have hpose : ((u.camOf (e1.getCamState u.id).2).pos, (u.camOf (e1.getCamState u.id).2).ang) = (camPos, camAng) := by
    rw [← hcam, ← getD_getCam]; rfl
  simp only [Prod.mk.injEq] at hpose
  unfold MsckfUpdater.update at h
  dsimp only at h
  unfold Ekf.AtMessage at hm
  rw [hm, ok_bind] at h
  split at h
  · cases h
    exact ⟨rfl, rfl, rfl, rfl, fun _ => rfl, fun _ => rfl⟩
  obtain ⟨e2, h1, h⟩ := bind_ok_iff.1 h
  cases h
  dsimp only at *
  set v := u.refresh (e1.getCamState u.id).2 c with hv
  have hv' : v = { u with intr := c, posC := camPos, angC := camAng, isFirst := false } := by
    rw [hv, MsckfUpdater.refresh, if_pos hcur', hpose.1, hpose.2]
  clear_value v
  have vi : v.intr = c := by rw [hv']
  have vid : v.id = u.id := by rw [hv']
  have vp : v.posC = camPos := by rw [hv']
  have va : v.angC = camAng := by rw [hv']
  have vt : v.useTruth = u.useTruth := by rw [hv']
  have hgood : ∀ f ∈ fs, ∃ F, (∀ p ∈ f.track, ∀ a, (e1.getCamState u.id).2.poseFor N.toPrim v.id p = .ok a →
        a.ang.normSq = 1 ∧ v.Sees a p F) ∧
        ∀ e3 out, (e1.getCamState u.id).2.Looked e3 → v.triangulate N e3 f = .ok out → out.1 = true → out.2.1 = some F := by
    intro f hff
    obtain ⟨F, ht, hor⟩ := hf f hff
    have hsee : ∀ p ∈ f.track, ∀ a, (e1.getCamState u.id).2.poseFor N.toPrim v.id p = .ok a →
        a.ang.normSq = 1 ∧ v.Sees a p F := by
      intro p hp a ha
      rw [poseFor_getCam, vid] at ha
      obtain ⟨g1, g2⟩ := ht.pose p hp a ha
      have g3 := ht.unit p hp
      refine ⟨by rw [g2]; exact g3, C76_sees v a (body p) p F (by rw [vi]; exact hc) g1 g2 g3 (by rw [va]; exact uc) ?_⟩
      rw [vi, vp, va]
      exact ht.seen p hp
    refine ⟨F, hsee, fun e3 out hl ho hok => ?_⟩
    rcases hor with ⟨k1, k2⟩ | ⟨k1, k2, k3, p, hp, q, hq, hx⟩
    · obtain ⟨_, _, _, _, _, _, _, _, _, z, _, k3, _⟩ := triangulate_form ho
      rw [(k3 (vt.trans k1)).2, k2]
    · obtain ⟨p0, ps, a0, hf0, ha0, _, as, hlen, has, _⟩ := triangulate_form ho
      have hmem : ∀ p ∈ f.track, ∃ a, e3.poseFor N.toPrim v.id p = .ok a := by
        intro p hp
        obtain ⟨i, hi, rfl⟩ := List.getElem_of_mem hp
        exact ⟨as[i]'(by omega), has i _ _ (List.getElem?_eq_getElem hi) (List.getElem?_eq_getElem (by omega))⟩
      have hcen : ∀ p ∈ f.track, ∀ a, e3.poseFor N.toPrim v.id p = .ok a →
          v.centre a = (CameraPose.of (body p) camPos camAng).pos := by
        intro p hp a ha
        rw [poseFor_looked N.toPrim hl, poseFor_getCam, vid] at ha
        obtain ⟨g1, g2⟩ := ht.pose p hp a ha
        rw [MsckfUpdater.centre, CameraPose.of, vp, g1, g2, Quat.rotate_toMat, add_comm]
      obtain ⟨a, ha⟩ := hmem p hp
      obtain ⟨b, hb⟩ := hmem q hq
      refine (C46_exact_partial N k2 k3 v e3 f out ho (vt.trans k1) (by rw [va]; exact uc) F (fun p hp a ha => ?_) p0
        (by rw [hf0]; rfl) a0 ha0 ⟨p, hp, q, hq, a, b, ha, hb, ?_⟩).2 hok
      · rw [poseFor_looked N.toPrim hl] at ha
        exact hsee p hp a ha
      · rw [hcen p hp a ha, hcen q hq b hb]
        exact hx
  have hend : ∃ e3, (e1.getCamState u.id).2.Looked e3 ∧ e2.state = e3.state := by
    unfold MsckfUpdater.process at h1
    dsimp only at h1
    obtain ⟨⟨e3, ct, H, rr⟩, g1, h1⟩ := bind_ok_iff.1 h1
    obtain ⟨hl, hz⟩ := featureLoop_zero _ fs _ _ _ _ _ (.refl _) g1 (fun _ => rfl) hgood
    refine ⟨e3, hl, ?_⟩
    dsimp only at h1
    split at h1
    · cases h1; rfl
    obtain ⟨⟨H', r'⟩, g2, h1⟩ := bind_ok_iff.1 h1
    dsimp only at h1
    split at h1
    · cases h1; rfl
    exact kalman_zero hN (compress_zero g2 hz) h1
  obtain ⟨e3, hl, hs⟩ := hend
  have hs3 : e3.state = { (e1.getCamState u.id).2.state with augs := e3.state.augs } := congrArg Ekf.state hl.same
  have key : ∀ k, e2.cameraPose k = e1.cameraPose k := by
    intro k
    unfold Ekf.cameraPose
    rw [hs, hs3]
    simp only [getCamState, UMap.getD_touch]
  refine ⟨?_, ?_, ?_, ?_, key, fun k => ?_⟩
  · rw [hs, hs3]; rfl
  · rw [hs, hs3]; rfl
  · rw [hs, hs3]; rfl
  · rw [hs, hs3]; rfl
  · unfold Ekf.window
    rw [hs]
    exact hl.window k

/-! ## A concrete case -/

/-- What the camera sees is a key point of some frame. -/
theorem SimKeypoint.of_sees {c : Intrinsics K} {pose : CameraPose K} {F : V3 K} {x y : K} (h : Sees c pose F)
    (hx : (x, y) = cvProject c (pose.local F)) : SimKeypoint c pose F x y := by
  obtain ⟨keys, t', h1, hk, _, fresh, hp, hl⟩ := C47_frame true 0 c pose (fun _ => ⟨0, 0, 0⟩) ⟨[F], []⟩
  have hF : t'.points[0]? = some F := by rw [hp]; rfl
  refine ⟨0, _, _, t', keys, 0, h1, (hk 0 x y).2 ⟨F, hF, h, ?_, ?_⟩, hF⟩
  · rw [← hx]; rfl
  · rw [← hx]; rfl

namespace TrackSample

/-- Focal length of 2000 pixels, 640 by 480 pixels. -/
def lens : Intrinsics ℚ := ⟨1 / 100, 1 / 100, 0, 0, 0, 0, 640, 480, 1 / 200000⟩

/-- A body that moves along x at 1 m/s, seen by a camera at three moments. -/
def history : List (Op ℚ) :=
  [.localTime 0, .initializeAt 0 { (BodyState.default : BodyState ℚ) with vel := ![1, 0, 0] }, .initializeGravity,
   .setZeroAcceleration false, .registerCamera 1 Samples.cam (Samples.cov 6), .frame 1 10, .predict 1, .frame 1 11, .predict 2,
   .frame 1 12]

def body (p : FeaturePoint ℚ) : TruthBody ℚ := ⟨![p.time, 0, 0], ![1, 0, 0], 0, Quat.one, 0, 0⟩

def feature (y : ℚ) : V3 ℚ := ![1, y, 20]

def seenTrack (y : ℚ) : FeatureTrack ℚ :=
  ⟨[⟨10, 0, 420, 240 + 100 * y⟩, ⟨11, 1, 320, 240 + 100 * y⟩, ⟨12, 2, 220, 240 + 100 * y⟩], some (feature y)⟩

def updater : MsckfUpdater ℚ := MsckfUpdater.new 1 true 1

/-- The filter after the history, at the message, and the outcome of the message. -/
def outcome : Res (Ekf ℚ × Ekf ℚ × MsckfUpdater ℚ × Ekf ℚ) := do
  let e ← Ekf.run Samples.num.toPrim (Ekf.init Samples.num.toPrim (Samples.params .all false)) history
  let e1 ← (e.calculateLocalTime 2).2.predict Samples.num.toPrim (e.calculateLocalTime 2).1
  let r ← updater.update Samples.num e 2 lens [seenTrack 0, seenTrack (1 / 2)] 1
  pure (e, e1, r)

/-- The filter has the true pose for the observation. -/
def agrees (e : Ekf ℚ) (p : FeaturePoint ℚ) : Bool :=
  match e.poseFor Samples.num.toPrim updater.id p with
  | .ok a => decide (a.pos = (body p).pos ∧ a.ang = (body p).ang)
  | .error _ => true

end TrackSample
open TrackSample

set_option synthInstance.maxSize 2000 in
/-- Two features seen three times each from a moving body: every hypothesis of `C76_update_partial` holds. -/
example : ∃ e e1 r, Ekf.run Samples.num.toPrim (Ekf.init Samples.num.toPrim (Samples.params .all false)) history = .ok e ∧
    updater.update Samples.num e 2 lens [seenTrack 0, seenTrack (1 / 2)] 1 = .ok r ∧ e.AtMessage Samples.num 2 e1 ∧
    lens.Pinhole ∧ Samples.num.rotVecToQuat 0 = Quat.one ∧ e1.useFirstEstimate = false ∧
    e1.cameraPose updater.id = (0, Quat.one) ∧ (∀ f ∈ [seenTrack 0, seenTrack (1 / 2)], ∃ F,
      TrueTrack Samples.num e1 updater.id lens 0 Quat.one body F f ∧ updater.useTruth = true ∧ f.truth = some F) := by
  obtain ⟨⟨e, e1, r⟩, h, h1, h2, h3, h4⟩ := Samples.ok_of_check (r := outcome)
    (P := fun x : Ekf ℚ × Ekf ℚ × MsckfUpdater ℚ × Ekf ℚ => x.2.1.useFirstEstimate = false ∧
      (x.2.1.cameraPose updater.id).1 = 0 ∧ (x.2.1.cameraPose updater.id).2 = Quat.one ∧
      ((seenTrack 0).track ++ (seenTrack (1 / 2)).track).all (agrees x.2.1) = true) (by decide +kernel)
  simp only [outcome, bind_ok_iff, pure_res, Except.ok.injEq, Prod.mk.injEq] at h
  obtain ⟨e', he, e1', he1, r', hr, rfl, rfl, rfl⟩ := h
  refine ⟨e', e1', r', he, hr, he1, ?_, ?_, h1, Prod.ext h2 h3, fun f hf => ?_⟩
  · refine ⟨⟨?_, ?_, ?_⟩, rfl, rfl, rfl, rfl⟩ <;> norm_num [lens]
  · decide +kernel
  have hpose : ∀ p ∈ f.track, ∀ a, e1'.poseFor Samples.num.toPrim updater.id p = .ok a →
      a.pos = (body p).pos ∧ a.ang = (body p).ang := by
    intro p hp a ha
    have := List.all_eq_true.1 h4 p (by
      simp only [List.mem_cons, List.not_mem_nil, or_false] at hf
      rcases hf with rfl | rfl
      · exact List.mem_append_left _ hp
      · exact List.mem_append_right _ hp)
    dsimp only at this
    rw [agrees, ha] at this
    exact of_decide_eq_true this
  simp only [List.mem_cons, List.not_mem_nil, or_false] at hf
  have hsee : ∀ y : ℚ, y = 0 ∨ y = 1 / 2 → ∀ p ∈ (seenTrack y).track,
      SimKeypoint lens (CameraPose.of (body p) 0 Quat.one) (feature y) p.x p.y := by
    intro y hy p hp
    simp only [seenTrack, List.mem_cons, List.not_mem_nil, or_false] at hp
    refine SimKeypoint.of_sees ?_ ?_
    · unfold Sees
      rcases hy with rfl | rfl <;> rcases hp with rfl | rfl | rfl <;> decide +kernel
    · rcases hy with rfl | rfl <;> rcases hp with rfl | rfl | rfl <;> decide +kernel
  have hunit : ∀ p ∈ f.track, (body p).ang.normSq = 1 := fun p _ => by simp [body, Quat.one, Quat.normSq]
  rcases hf with rfl | rfl
  · exact ⟨feature 0, ⟨hunit, hsee 0 (.inl rfl), hpose⟩, rfl, rfl⟩
  · exact ⟨feature (1 / 2), ⟨hunit, hsee (1 / 2) (.inr rfl), hpose⟩, rfl, rfl⟩

end EkfCal
