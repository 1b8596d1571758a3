import Mathlib.Analysis.Calculus.FDeriv.Basic
import Mathlib.Analysis.Calculus.FDeriv.Pi
import Mathlib.LinearAlgebra.Matrix.ToLin
import Mathlib.Topology.Algebra.Module.FiniteDimension

/-!
# Specification: a matrix is the derivative of a map
-/

namespace EkfCal

/-- `J` is the (Fréchet) derivative of `f` at `x`. -/
def IsJacobian {n m : Nat} (f : (Fin n → ℝ) → Fin m → ℝ) (x : Fin n → ℝ) (J : Matrix (Fin m) (Fin n) ℝ) : Prop :=
  HasFDerivAt f (LinearMap.toContinuousLinearMap (Matrix.toLin' J)) x

end EkfCal
