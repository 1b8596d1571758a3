import Verif.Spec.CameraFrame
import Verif.Spec.LawSamples
import Verif.Props.C03

/-!
# C66 — a board in view updates the filter with the pose that was found, and only then
-/

set_option linter.unusedSectionVars false

namespace EkfCal
open Ekf
variable {K : Type} [Field K] [LinearOrder K]

theorem camera_registered {e : Ekf K} {i : Nat} (h : (e.state.cams.find? i).isSome) : (e.getCamState i).2 = e := by
  obtain ⟨s, hs⟩ := Option.isSome_iff_exists.1 h
  simp only [getCamState, UMap.touch, hs]

/-- **A ChArUco board whose pose was found updates the filter with exactly that pose; one of which no corner was found leaves
it alone.**  Missing from the whole statement: plain ArUco boards (`C66_aruco_violated`), and corners without a pose
(`C66_invalid_violated`). -/
theorem C66_charuco_partial (N : Num K) (t : FidTracker K) (e : Ekf K) (time : K) (s : BoardSight K) (hk : t.kind = .charuco)
    (hcam : (e.state.cams.find? t.cameraId).isSome) (hs : s.Consistent t.kind)
    (hpose : s.markers ≠ [] → s.corners ≠ [] → s.pose.isSome) : t.UsesPose N e time s := by
  have he := camera_registered hcam
  constructor
  · intro p hp
    obtain ⟨h1, h2⟩ := hs (by rw [hp]; rfl)
    have h3 : t.cornerIds s ≠ [] := by unfold FidTracker.cornerIds; rw [hk]; exact h2 hk
    unfold FidTracker.track FidTracker.updateWith
    dsimp only
    rw [he, if_neg h1, if_neg h3, hp]
    dsimp only [Option.getD]
    cases t.updater.update N e time ⟨p.1, p.2, t.posError, t.angError⟩ <;> rfl
  · intro hp
    unfold FidTracker.track
    dsimp only
    rw [he]
    by_cases h1 : s.markers = []
    · rw [if_pos h1]; rfl
    · have h2 : t.cornerIds s = [] := by
        unfold FidTracker.cornerIds
        rw [hk]
        by_contra h2
        have := hpose h1 h2
        rw [hp] at this
        cases this
      rw [if_neg h1, if_pos h2]; rfl

/-- **Nothing detected, nothing happens**, for either kind of board. -/
theorem C66_nothing (N : Num K) (t : FidTracker K) (e : Ekf K) (time : K) (s : BoardSight K)
    (hcam : (e.state.cams.find? t.cameraId).isSome) (hm : s.markers = []) (hs : s.Consistent t.kind) :
    t.UsesPose N e time s := by
  constructor
  · intro p hp
    exact absurd hm (hs (by rw [hp]; rfl)).1
  · intro _
    unfold FidTracker.track
    dsimp only
    rw [camera_registered hcam, if_pos hm]; rfl

/-- A plain ArUco board never reaches the filter, whatever is found in the image. -/
theorem aruco_ignored (N : Num K) (t : FidTracker K) (e : Ekf K) (time : K) (s : BoardSight K) (hk : t.kind = .aruco)
    (hcam : (e.state.cams.find? t.cameraId).isSome) : t.track N e time s = .ok (t, e) := by
  unfold FidTracker.track
  dsimp only
  rw [camera_registered hcam]
  by_cases h1 : s.markers = []
  · rw [if_pos h1]; rfl
  · rw [if_neg h1, if_pos (by unfold FidTracker.cornerIds; rw [hk])]; rfl

namespace BoardSample

/-- Camera 1 with known mounting one metre ahead of the body, board 4 to be calibrated, the body at the board. -/
def ops : List (Ekf.Op ℚ) :=
  [.registerCamera 1 { (CamState.default : CamState ℚ) with pos := ![1, 0, 0] } (Mat.zero 6 6),
   .registerFiducial (Samples.fid 4) ((Mat.identity 6 6).smul (1 / 100)),
   .initializeAt 0 BodyState.default]

theorem ops_wf : ∀ op ∈ ops, op.WF := by
  intro op ho
  simp only [ops, List.mem_cons, List.not_mem_nil, or_false] at ho
  rcases ho with rfl | rfl | rfl <;> rfl

/-- A tracker for the board, with variances of a hundredth. -/
def tracker (k : BoardKind) : FidTracker ℚ := ⟨k, 1, fun _ => 1 / 100, fun _ => 1 / 100, FidUpdater.new 4 1 true false⟩

/-- Markers and corners seen, but no pose found. -/
def noPose : BoardSight ℚ := ⟨[7], [3], none⟩

/-- The board seen two metres ahead. -/
def found : BoardSight ℚ := ⟨[7], [3], some (![0, 0, 2], Quat.one)⟩

/-- The filter after the calls above. -/
def filter : Res (Ekf ℚ) := Ekf.run Samples.diagNum.toPrim (Ekf.init Samples.diagNum.toPrim (Samples.params .none false)) ops

end BoardSample

open BoardSample

/-- **Violated for plain ArUco boards**: the board's pose is found and updating with it would move the estimate, but the
tracker leaves the filter alone. -/
theorem C66_aruco_violated : ∃ (N : Num ℚ) (t : FidTracker ℚ) (e : Ekf ℚ) (s : BoardSight ℚ), N.toPrim.InvLaw ∧
    e.Reachable N.toPrim ∧ s.Consistent t.kind ∧ t.track N e 0 s = .ok (t, e) ∧
    ∃ p r, s.pose = some p ∧ t.updateWith N e 0 p = .ok r ∧ r.2.state.body.pos ≠ e.state.body.pos ∧ ¬ t.UsesPose N e 0 s := by
  have h : ∃ x, (do let e ← filter; let r ← (tracker .aruco).updateWith Samples.diagNum e 0 (![0, 0, 2], Quat.one); pure (e, r)) = .ok x ∧
      ((x.1.state.cams.find? 1).isSome ∧ x.2.2.state.body.pos 2 ≠ x.1.state.body.pos 2) := by
    refine Samples.ok_of_check (P := fun x : Ekf ℚ × FidUpdater ℚ × Ekf ℚ =>
      (x.1.state.cams.find? 1).isSome ∧ x.2.2.state.body.pos 2 ≠ x.1.state.body.pos 2) ?_
    decide +kernel
  obtain ⟨⟨e, r⟩, hx, hc, hp⟩ := h
  simp only [bind_ok_iff, pure_res, Except.ok.injEq, Prod.mk.injEq] at hx
  obtain ⟨e, he, r, hr, rfl, rfl⟩ := hx
  have hne : r.2.state.body.pos ≠ e.state.body.pos := fun h => hp (by rw [h])
  have ht := aruco_ignored Samples.diagNum (tracker .aruco) e 0 found rfl hc
  refine ⟨Samples.diagNum, tracker .aruco, e, found, Samples.diagNum_inv, ⟨_, _, ops_wf, he⟩,
    fun _ => ⟨by simp [found], by simp [tracker]⟩, ht, _, r, rfl, hr, hne, fun hu => ?_⟩
  have := hu.1 _ rfl
  rw [ht, hr] at this
  simp only [Except.map, Except.ok.injEq, Prod.mk.injEq] at this
  exact hne (by rw [← this.2])

/-- **Violated when the pose estimate fails**: markers and corners of a ChArUco board are seen but no pose is found; the
filter is updated as if the board sat in the camera, and the estimate moves. -/
theorem C66_invalid_violated : ∃ (N : Num ℚ) (t : FidTracker ℚ) (e : Ekf ℚ) (s : BoardSight ℚ) (t' : FidTracker ℚ) (e' : Ekf ℚ),
    N.toPrim.InvLaw ∧ e.Reachable N.toPrim ∧ t.kind = .charuco ∧ s.Consistent t.kind ∧ s.pose = none ∧
    t.track N e 0 s = .ok (t', e') ∧ e'.state.body.pos ≠ e.state.body.pos ∧ ¬ t.UsesPose N e 0 s := by
  have h : ∃ x, (do let e ← filter; let r ← (tracker .charuco).track Samples.diagNum e 0 noPose; pure (e, r)) = .ok x ∧
      x.2.2.state.body.pos 0 ≠ x.1.state.body.pos 0 := by
    refine Samples.ok_of_check (P := fun x : Ekf ℚ × FidTracker ℚ × Ekf ℚ =>
      x.2.2.state.body.pos 0 ≠ x.1.state.body.pos 0) ?_
    decide +kernel
  obtain ⟨⟨e, r⟩, hx, hp⟩ := h
  simp only [bind_ok_iff, pure_res, Except.ok.injEq, Prod.mk.injEq] at hx
  obtain ⟨e, he, r, hr, rfl, rfl⟩ := hx
  have hne : r.2.state.body.pos ≠ e.state.body.pos := fun h => hp (by rw [h])
  refine ⟨Samples.diagNum, tracker .charuco, e, noPose, r.1, r.2, Samples.diagNum_inv, ⟨_, _, ops_wf, he⟩, rfl,
    fun h => by simp [noPose] at h, rfl, hr, hne, fun hu => ?_⟩
  have := hu.2 rfl
  rw [hr] at this
  simp only [Except.ok.injEq, Prod.ext_iff] at this
  exact hne (by rw [this.2])

/-- The hypotheses of `C66_charuco_partial` are met by a reachable filter and a board in view, and the update moves the
estimate. -/
example : ∃ x, (do let e ← filter; let r ← (tracker .charuco).track Samples.diagNum e 0 found; pure (e, r)) = .ok x ∧
    ((x.1.state.cams.find? 1).isSome ∧ x.2.2.state.body.pos 2 ≠ x.1.state.body.pos 2) := by
  refine Samples.ok_of_check (P := fun x : Ekf ℚ × FidTracker ℚ × Ekf ℚ =>
    (x.1.state.cams.find? 1).isSome ∧ x.2.2.state.body.pos 2 ≠ x.1.state.body.pos 2) ?_
  decide +kernel

example : found.Consistent (tracker .charuco).kind ∧ (found.markers ≠ [] → found.corners ≠ [] → found.pose.isSome) :=
  ⟨fun _ => ⟨by simp [found], by simp [found]⟩, fun _ _ => rfl⟩

end EkfCal
