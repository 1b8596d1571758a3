import Verif.Model.Camera
import Verif.Spec.Derivative
import Mathlib.Analysis.Calculus.FDeriv.Mul
import Mathlib.Analysis.Calculus.FDeriv.Add
import Mathlib.Analysis.Calculus.Deriv.Inv
import Mathlib.Tactic.FieldSimp
import Mathlib.Tactic.Linarith
import Mathlib.Tactic.NormNum
import Mathlib.Tactic.FinCases

/-!
# C35 — the camera Jacobians are derivatives
-/

namespace EkfCal

theorem isJacobian_iff {n m : Nat} {f : (Fin n → ℝ) → Fin m → ℝ} {x : Fin n → ℝ} {J : Matrix (Fin m) (Fin n) ℝ} :
    IsJacobian f x J ↔ ∀ i, HasFDerivAt (fun y => f y i)
      ((ContinuousLinearMap.proj i).comp (LinearMap.toContinuousLinearMap (Matrix.toLin' J))) x := by
  unfold IsJacobian
  rw [hasFDerivAt_pi']

/-- At every point with non-zero depth the projection Jacobian is the derivative of the projection. -/
theorem C35_projection (p : V3 ℝ) (h : p 2 ≠ 0) : IsJacobian project p (projectionJacobian p) := by
  rw [isJacobian_iff]
  have hx : ∀ i : Fin 3, HasFDerivAt (fun y : Fin 3 → ℝ => y i) (ContinuousLinearMap.proj (R := ℝ) (φ := fun _ : Fin 3 => ℝ) i) p :=
    fun i => hasFDerivAt_apply (𝕜 := ℝ) i p
  have hinv : HasFDerivAt (fun y : Fin 3 → ℝ => (y 2)⁻¹) _ p := (hasDerivAt_inv h).comp_hasFDerivAt p (hx 2)
  intro i
  fin_cases i
  · have e : (fun y : Fin 3 → ℝ => project y 0) = fun y => y 0 * (y 2)⁻¹ := by
      funext y; simp [project, div_eq_mul_inv]
    show HasFDerivAt (fun y : Fin 3 → ℝ => project y 0) _ p
    rw [e]
    refine ((hx 0).fun_mul hinv).congr_fderiv ?_
    ext y
    simp [projectionJacobian, Matrix.mulVec, dotProduct, Fin.sum_univ_three]
    field_simp
    ring
  · have e : (fun y : Fin 3 → ℝ => project y 1) = fun y => y 1 * (y 2)⁻¹ := by
      funext y; simp [project, div_eq_mul_inv]
    show HasFDerivAt (fun y : Fin 3 → ℝ => project y 1) _ p
    rw [e]
    refine ((hx 1).fun_mul hinv).congr_fderiv ?_
    ext y
    simp [projectionJacobian, Matrix.mulVec, dotProduct, Fin.sum_univ_three]
    field_simp
    ring

/-- The derivative of the distortion function, for all coefficients. -/
theorem distort_derivative (v : V2 ℝ) (c : Intrinsics ℝ) :
    IsJacobian (fun u => distort u c) v (distortionJacobian v { c with k2 := c.k1 }) := by
  rw [isJacobian_iff]
  have hx : ∀ i : Fin 2, HasFDerivAt (fun y : Fin 2 → ℝ => y i) (ContinuousLinearMap.proj (R := ℝ) (φ := fun _ : Fin 2 => ℝ) i) v :=
    fun i => hasFDerivAt_apply (𝕜 := ℝ) i v
  have h2 := fun i : Fin 2 => (hx i).fun_mul (hx i)
  have hr := (h2 0).fun_add (h2 1)
  have hrad := ((hr.const_mul c.k1).const_add 1).fun_add (((hr.const_mul c.k1).fun_mul hr))
  intro i
  fin_cases i
  · have := (((hx 0).fun_mul hrad).fun_add (((hx 0).const_mul (2 * c.p1)).fun_mul (hx 1))).fun_add
      ((hr.fun_add ((h2 0).const_mul 2)).const_mul c.p2)
    refine HasFDerivAt.congr_fderiv (f := fun u : Fin 2 → ℝ => distort u c 0) this ?_
    ext y
    simp [distortionJacobian, Matrix.mulVec, dotProduct, Fin.sum_univ_two]
    ring
  · have := (((hx 1).fun_mul hrad).fun_add (((hx 0).const_mul (2 * c.p2)).fun_mul (hx 1))).fun_add
      ((hr.fun_add ((h2 1).const_mul 2)).const_mul c.p1)
    refine HasFDerivAt.congr_fderiv (f := fun u : Fin 2 → ℝ => distort u c 1) this ?_
    ext y
    simp [distortionJacobian, Matrix.mulVec, dotProduct, Fin.sum_univ_two]
    ring

theorem isJacobian_unique {n m : Nat} {f : (Fin n → ℝ) → Fin m → ℝ} {x : Fin n → ℝ} {J J' : Matrix (Fin m) (Fin n) ℝ}
    (h : IsJacobian f x J) (h' : IsJacobian f x J') : J = J' := by
  have := HasFDerivAt.unique h h'
  exact Matrix.toLin'.injective (LinearMap.toContinuousLinearMap.injective this)

/-- When both radial coefficients agree the distortion Jacobian is the derivative of the distortion everywhere.  What is
missing is every lens with two different radial coefficients, see `C35_distortion_violated`. -/
theorem C35_distortion_partial (v : V2 ℝ) (c : Intrinsics ℝ) (h : c.k1 = c.k2) :
    IsJacobian (fun u => distort u c) v (distortionJacobian v c) := by
  have := distort_derivative v c
  rwa [show ({ c with k2 := c.k1 } : Intrinsics ℝ) = c by cases c; simp_all] at this

/-- For every lens whose radial coefficients differ, the distortion Jacobian is not the derivative of the distortion, at
the normalised point `(1, 0)`: the distortion function uses the first coefficient in both radial terms. -/
theorem C35_distortion_violated (c : Intrinsics ℝ) (h : c.k1 ≠ c.k2) :
    ¬ IsJacobian (fun u => distort u c) ![1, 0] (distortionJacobian ![1, 0] c) := by
  intro hJ
  have := congrFun (congrFun (isJacobian_unique hJ (distort_derivative ![1, 0] c)) 0) 0
  simp [distortionJacobian] at this
  exact h (by linarith)

/-- Both coefficients zero, or equal, is exactly when the pair is consistent. -/
theorem C35_distortion_iff (c : Intrinsics ℝ) :
    (∀ v, IsJacobian (fun u => distort u c) v (distortionJacobian v c)) ↔ c.k1 = c.k2 := by
  constructor
  · intro h
    by_contra hne
    exact C35_distortion_violated c hne (h _)
  · exact fun h v => C35_distortion_partial v c h

/-- A point in front of the camera, off the optical axis, where the projection Jacobian has a non-zero depth column. -/
example : ∃ p : V3 ℝ, p 2 ≠ 0 ∧ IsJacobian project p (projectionJacobian p) ∧ projectionJacobian p 0 2 = -1 / 4 := by
  refine ⟨![1, 3, 2], by simp, C35_projection _ (by simp), ?_⟩
  simp [projectionJacobian]
  norm_num

/-- A wide-angle lens with different radial coefficients, and one with equal ones. -/
example : (⟨1, 1, -1 / 5, 1 / 10, 0, 0, 640, 480, 1⟩ : Intrinsics ℝ).k1 ≠ (⟨1, 1, -1 / 5, 1 / 10, 0, 0, 640, 480, 1⟩ : Intrinsics ℝ).k2 ∧
    (⟨1, 1, -1 / 5, -1 / 5, 0, 0, 640, 480, 1⟩ : Intrinsics ℝ).k1 = (⟨1, 1, -1 / 5, -1 / 5, 0, 0, 640, 480, 1⟩ : Intrinsics ℝ).k2 := by
  norm_num

end EkfCal
