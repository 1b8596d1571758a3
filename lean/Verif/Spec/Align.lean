import Verif.Model.GpsInit

/-!
# Specification of planar alignment
-/

namespace EkfCal

/-- What `Eigen::JacobiSVD` guarantees: `A = U diag(s₁, s₂) Vᵀ` with orthogonal `U`, `V` and `s₁ ≥ s₂ ≥ 0`. -/
def SvdLaw (svd : M2 → M2 × M2) : Prop :=
  ∀ A, (svd A).1.transpose * (svd A).1 = 1 ∧ (svd A).2.transpose * (svd A).2 = 1 ∧
    ∃ s1 s2 : ℝ, 0 ≤ s2 ∧ s2 ≤ s1 ∧ A = (svd A).1 * !![s1, 0; 0, s2] * (svd A).2.transpose

/-- Rotation by `θ` about the vertical axis. -/
noncomputable def vertical (θ : ℝ) : M3 ℝ :=
  !![Real.cos θ, -Real.sin θ, 0; Real.sin θ, Real.cos θ, 0; 0, 0, 1]

/-- Sum of squared planar distances between the targets and the moved sources. -/
noncomputable def planarError (R : M3 ℝ) (t : V3 ℝ) (tgt src : List (V3 ℝ)) : ℝ :=
  ((tgt.zip src).map fun p =>
    (p.1 0 - (R.mulVec p.2 0 + t 0)) ^ 2 + (p.1 1 - (R.mulVec p.2 1 + t 1)) ^ 2).sum

/-- Sum of squared distances in space. -/
noncomputable def spaceError (R : M3 ℝ) (t : V3 ℝ) (tgt src : List (V3 ℝ)) : ℝ :=
  ((tgt.zip src).map fun p =>
    (p.1 0 - (R.mulVec p.2 0 + t 0)) ^ 2 + (p.1 1 - (R.mulVec p.2 1 + t 1)) ^ 2 +
      (p.1 2 - (R.mulVec p.2 2 + t 2)) ^ 2).sum

/-- Mean of a list of points, by coordinates. -/
noncomputable def meanOf (l : List (V3 ℝ)) : V3 ℝ := fun i => (l.map fun v => v i).sum / l.length

end EkfCal
