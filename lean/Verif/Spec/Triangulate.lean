import Verif.Model.MsckfUpdater

/-!
# Vocabulary for C46: where a feature is seen
-/

namespace EkfCal
variable {K : Type} [Field K] [LinearOrder K]

/-- Law of `colPivHouseholderQr().solve`: a system with exactly one solution is solved by it. -/
def Num.SolveLaw (N : Num K) : Prop :=
  ∀ (A : M3 K) (b x : V3 K), A.mulVec x = b → (∀ y, A.mulVec y = 0 → y = 0) → N.solve A b = x

/-- The centre of the updater's camera when the body is at the given clone. -/
def MsckfUpdater.centre (u : MsckfUpdater K) (a : AugState K) : V3 K := a.ang.toMat.mulVec u.posC + a.pos

/-- A point of the local frame in the frame of the camera at that clone. -/
def MsckfUpdater.inCamera (u : MsckfUpdater K) (a : AugState K) (F : V3 K) : V3 K :=
  u.angC.toMat.transpose.mulVec (a.ang.toMat.transpose.mulVec (F - u.centre a))

/-- Focal lengths and pixel size are not zero. -/
structure Intrinsics.Usable (c : Intrinsics K) : Prop where
  fx : c.fx ≠ 0
  fy : c.fy ≠ 0
  pixelSize : c.pixelSize ≠ 0

/-- The pixel that shows the direction `(v, 1)`: the optical axis meets the middle of the image, and the focal length in
pixels is the scale (no lens distortion). -/
def Intrinsics.pixelAt (c : Intrinsics K) (v : V2 K) : K × K :=
  (c.width / 2 + c.fx / c.pixelSize * v 0, c.height / 2 + c.fy / c.pixelSize * v 1)

/-- The observation is the image of the point `F`, which is in front of the camera (no lens distortion). -/
def MsckfUpdater.Sees (u : MsckfUpdater K) (a : AugState K) (p : FeaturePoint K) (F : V3 K) : Prop :=
  0 < u.inCamera a F 2 ∧ u.intr.Usable ∧ (p.x, p.y) = u.intr.pixelAt
    ![u.inCamera a F 0 / u.inCamera a F 2, u.inCamera a F 1 / u.inCamera a F 2]

/-- The pose the filter reports for an observation. -/
def Ekf.poseFor (N : Prim K) (e : Ekf K) (cam : Nat) (p : FeaturePoint K) : Res (AugState K) :=
  (·.1) <$> e.getAugState N cam p.frameId p.time

/-- `e'` is `e` except that empty clone windows may have been entered in the map. -/
structure Ekf.Looked (e e' : Ekf K) : Prop where
  same : e' = { e with state := { e.state with augs := e'.state.augs } }
  window : ∀ k, e'.state.augs.getD k [] = e.state.augs.getD k []

/-- The triangulated depth is in the accepted band. -/
def MsckfUpdater.InBand (u : MsckfUpdater K) (z : K) : Prop := u.minDist ≤ z ∧ z ≤ u.maxDist

end EkfCal
