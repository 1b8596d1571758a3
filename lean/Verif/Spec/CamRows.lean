import Verif.Spec.Triangulate
import Verif.Spec.Window
import Verif.Spec.Perturb

/-!
# Vocabulary for C59: the predicted pixel, and the two rows of one observation
-/

namespace EkfCal
variable {K : Type}

/-- Rows `r, r+1`, columns `c … c+2`. -/
def Mat.block23 (m : Mat K) (r c : Nat) : Matrix (Fin 2) (Fin 3) K := fun i j => m.get (r + i.1) (c + j.1)

/-- Entries `r, r+1`. -/
def Vec.part2 (v : Vec K) (r : Nat) : V2 K := fun i => v.get (r + i.1)

variable [Field K] [LinearOrder K]

/-- The direction in which the updater's camera, at the given pose, would see the point `F`. -/
def MsckfUpdater.predicted (u : MsckfUpdater K) (a : AugState K) (F : V3 K) : V2 K := ![u.inCamera a F 0 / u.inCamera a F 2, u.inCamera a F 1 / u.inCamera a F 2]

/-- The lens does not distort. -/
structure Intrinsics.Pinhole (c : Intrinsics K) : Prop extends c.Usable where
  k1 : c.k1 = 0
  k2 : c.k2 = 0
  p1 : c.p1 = 0
  p2 : c.p2 = 0

/-- A part of the state that the pose of an observation is computed from: first column of its position, first column of its
orientation, its position now, and the position of the pose as a function of it. -/
structure PoseSource where
  posCol : Nat
  angCol : Nat
  now : V3 ℝ
  moves : V3 ℝ → V3 ℝ

/-- The clone itself. -/
def AugState.source (a : AugState ℝ) : PoseSource := ⟨a.index, a.index + 3, a.pos, id⟩

/-- Two poses one after the other on the track, and the weight of the second; `last` says that the second is the current
pose of the body, whose orientation has columns of its own. -/
def betweenSources (a b : AugState ℝ) (last : Prop) [Decidable last] (α : ℝ) : List PoseSource :=
  [⟨a.index, a.index + 3, a.pos, fun x => x + α • (b.pos - x)⟩,
   ⟨if last then 0 else b.index, if last then 9 else b.index + 3, b.pos, fun x => a.pos + α • (x - a.pos)⟩]

/-- What is asked of the two rows of an observation `p`, taken at pose `a`, of a feature at `F`, when they start at row `r`:
the residual is the measured minus the predicted image (both as directions), and the columns of the feature, of the camera's position (if it is
estimated; its columns start at `cam`) and of every position the pose depends on are the derivatives of the predicted
image. -/
structure ObservationRows (u : MsckfUpdater ℝ) (cam : Nat) (a : AugState ℝ) (p : FeaturePoint ℝ) (F : V3 ℝ)
    (poses : List PoseSource) (r : Nat) (Hf Hc : Mat ℝ) (res : Vec ℝ) : Prop where
  residual : ∃ v, (p.x, p.y) = u.intr.pixelAt v ∧ res.part2 r = v - u.predicted a F
  feature : IsJacobian (fun x => u.predicted a x) F (Hf.block23 r 0)
  camera : u.isCamExtrinsic = true →
    IsJacobian (fun x => MsckfUpdater.predicted { u with posC := x } a F) u.posC (Hc.block23 r cam)
  pose : ∀ s ∈ poses, IsJacobian (fun x => u.predicted { a with pos := s.moves x } F) s.now (Hc.block23 r s.posCol)
  /-- No other part of the state is said to matter, apart from the orientations that go with these positions. -/
  rest : ∀ i c, r ≤ i → i < r + 2 → ¬ (u.isCamExtrinsic = true ∧ InCols c cam 6) →
    (∀ s ∈ poses, ¬ InCols c s.posCol 3 ∧ ¬ InCols c s.angCol 3) → Hc.get i c = 0

/-! ### Several features -/

/-- What becomes of one feature of a message: it is rejected (`none`), or its rows, after the dependence on its own position
has been projected out, are `part`.  `e` is the filter the message is processed with. -/
inductive FeatureOutcome {K : Type} [Field K] [LinearOrder K] (N : Num K) (u : MsckfUpdater K) (n cam : Nat) (e : Ekf K)
    (f : FeatureTrack K) : Option (Mat K × Vec K) → Prop
  | rejected (e1 e2 : Ekf K) (p : Option (V3 K)) : e.Looked e1 → u.triangulate N e1 f = .ok (false, p, e2) →
      FeatureOutcome N u n cam e f none
  | used (e1 e2 e3 : Ekf K) (F : V3 K) (Hf Hc : Mat K) (res : Vec K) (part : Mat K × Vec K) : e.Looked e1 → e.Looked e2 →
      u.triangulate N e1 f = .ok (true, some F, e2) →
      u.observeLoop N n cam F 0 f.track e2
        (Mat.zero (2 * f.track.length) 3, Mat.zero (2 * f.track.length) n, ⟨2 * f.track.length, fun _ => 0⟩) =
          .ok (e3, Hf, Hc, res) →
      applyLeftNullspace N Hf Hc res = .ok part →
      FeatureOutcome N u n cam e f (some part)

/-- The parts one after the other from row `ct` to row `total`, and nothing below. -/
def StackedFrom {K : Type} [Zero K] (H : Mat K) (r : Vec K) (total : Nat) : Nat → List (Mat K × Vec K) → Prop
  | ct, [] => total = ct ∧ ∀ i, ct ≤ i → (∀ c, H.get i c = 0) ∧ r.get i = 0
  | ct, p :: ps => (p.1.rows = p.2.size ∧ p.1.cols = H.cols ∧
      ∀ i < p.1.rows, (∀ c < p.1.cols, H.get (ct + i) c = p.1.get i c) ∧ r.get (ct + i) = p.2.get i) ∧
      StackedFrom H r total (ct + p.1.rows) ps

end EkfCal
