import Verif.Lemmas.RealPrim
import Verif.Lemmas.Scaled
import Verif.Spec.LawSamples

/-! # Numeric libraries that compute with a common factor as with a unit -/

namespace EkfCal
open InnerProductSpace

theorem toM_smul {K : Type} [Field K] [LinearOrder K] (m : Mat K) (n : Nat) (c : K) : toM n n (m.smul c).get = c • toM n n m.get :=
  funext fun i => funext fun j => by
    show m.get i j * c = c * m.get i j
    ring

section
variable {E : Type*} [NormedAddCommGroup E] [InnerProductSpace ℝ E] {n : Nat}

theorem gramSchmidt_scaled {s : ℝ} (hs : s ≠ 0) (f : Fin n → E) (i : Fin n) :
    gramSchmidt ℝ (fun k => s • f k) i = s • gramSchmidt ℝ f i := by
  induction i using WellFoundedLT.induction with
  | _ i ih =>
    rw [gramSchmidt_def, gramSchmidt_def ℝ f, smul_sub, Finset.smul_sum]
    congr 1
    refine Finset.sum_congr rfl fun k hk => ?_
    rw [ih k (Finset.mem_Iio.1 hk), map_smul]
    have hsp : Submodule.span ℝ {s • gramSchmidt ℝ f k} = Submodule.span ℝ {gramSchmidt ℝ f k} :=
      Submodule.span_singleton_smul_eq (IsUnit.mk0 s hs) _
    simp only [hsp]

theorem gramSchmidtNormed_scaled {s : ℝ} (hs : 0 < s) (f : Fin n → E) : gramSchmidtNormed ℝ (fun k => s • f k) = gramSchmidtNormed ℝ f := by
  funext i
  unfold gramSchmidtNormed
  rw [gramSchmidt_scaled hs.ne', norm_smul, Real.norm_of_nonneg hs.le, smul_smul]
  congr 1
  show (s * ‖_‖)⁻¹ * s = (‖_‖)⁻¹
  rw [mul_inv, mul_comm s⁻¹, mul_assoc, inv_mul_cancel₀ hs.ne', mul_one]

end

theorem basis_congr {n : Nat} {E : Type} [NormedAddCommGroup E] [InnerProductSpace ℝ E] [FiniteDimensional ℝ E]
    (h : Module.finrank ℝ E = Fintype.card (Fin n)) {f g : Fin n → E} (hfg : gramSchmidtNormed ℝ f = gramSchmidtNormed ℝ g) :
    gramSchmidtOrthonormalBasis h f = gramSchmidtOrthonormalBasis h g := by
  unfold gramSchmidtOrthonormalBasis
  simp only [hfg]

theorem stackCols_scaled (l r : Mat ℝ) (s : ℝ) : stackCols (l.smul s) (r.smul s) = fun k => s • stackCols l r k := by
  funext k
  unfold stackCols
  rw [← WithLp.toLp_smul]
  congr 1
  funext i
  show (if k.1 < l.cols then stackGet (l.smul s) (r.smul s) i k else 0) = s * (if k.1 < l.cols then stackGet l r i k else 0)
  have : stackGet (l.smul s) (r.smul s) i k = s * stackGet l r i k := by
    unfold stackGet
    show (if i.1 < l.rows then l.get i k * s else r.get (i - l.rows) k * s) = _
    split <;> ring
  rw [this]
  split
  · rfl
  · rw [mul_zero]

/-- The triangular factor of given columns. -/
noncomputable def qrOf (n : Nat) (f : Fin n → EuclideanSpace ℝ (Fin n)) (i j : Nat) : ℝ :=
  if h : i < n ∧ j < n then
    inner ℝ (gramSchmidtOrthonormalBasis (ι := Fin n) (𝕜 := ℝ) (E := EuclideanSpace ℝ (Fin n)) (by simp) f ⟨i, h.1⟩) (f ⟨j, h.2⟩)
  else 0

theorem qrOf_scaled {s : ℝ} (hs : 0 < s) (n : Nat) (f : Fin n → EuclideanSpace ℝ (Fin n)) (i j : Nat) :
    qrOf n (fun k => s • f k) i j = qrOf n f i j * s := by
  unfold qrOf
  split
  · rw [basis_congr _ (gramSchmidtNormed_scaled hs f), real_inner_smul_right, mul_comm]
  · rw [zero_mul]

theorem qrEntry_scaled {s : ℝ} (hs : 0 < s) (l r : Mat ℝ) (i j : Nat) : qrEntry (l.smul s) (r.smul s) i j = qrEntry l r i j * s := by
  have h : ∀ f : Fin (l.rows + r.rows) → EuclideanSpace ℝ (Fin (l.rows + r.rows)), f = (fun k => s • stackCols l r k) →
      qrOf (l.rows + r.rows) f i j = qrEntry l r i j * s := by
    rintro f rfl
    exact qrOf_scaled hs _ _ i j
  exact h _ (stackCols_scaled l r s)

/-- The numeric library over `ℝ` computes with a common factor as with a unit. -/
theorem realPrim_scales {s : ℝ} (hs : 0 < s) : realPrim.Scales s where
  pos := hs
  sqrt := fun x => by
    show Real.sqrt (x * (s * s)) = Real.sqrt x * s
    rw [Real.sqrt_mul' _ (mul_self_nonneg s), Real.sqrt_mul_self hs.le]
  qr := fun l r i j => qrEntry_scaled hs l r i j
  inv := fun m i j => by
    show (if h : i < m.rows ∧ j < m.rows then ((toM m.rows m.rows (m.smul (s * s)).get)⁻¹) ⟨i, h.1⟩ ⟨j, h.2⟩ else 0) =
      (if h : i < m.rows ∧ j < m.rows then ((toM m.rows m.rows m.get)⁻¹) ⟨i, h.1⟩ ⟨j, h.2⟩ else 0) * (s * s)⁻¹
    split
    · rw [toM_smul]
      by_cases hd : IsUnit (toM m.rows m.rows m.get).det
      · have : Invertible (s * s) := invertibleOfNonzero (mul_pos hs hs).ne'
        rw [Matrix.inv_smul _ (s * s) hd, Matrix.smul_apply, smul_eq_mul, invOf_eq_inv, mul_comm]
      · have h2 : ¬ IsUnit ((s * s) • toM m.rows m.rows m.get).det := by
          rw [Matrix.det_smul]
          intro h
          exact hd (isUnit_of_mul_isUnit_right h)
        rw [Matrix.nonsing_inv_apply_not_isUnit _ hd, Matrix.nonsing_inv_apply_not_isUnit _ h2]
        exact (zero_mul _).symm
    · rw [zero_mul]

namespace Samples

theorem adjInv_scaled (m : Mat ℚ) {c : ℚ} (hc : c ≠ 0) (i j : Nat) : adjInv (m.smul c) i j = adjInv m i j * c⁻¹ := by
  unfold adjInv
  show (if h : i < m.rows ∧ j < m.rows then (toM m.rows m.rows (m.smul c).get).det⁻¹ *
    (toM m.rows m.rows (m.smul c).get).adjugate ⟨i, h.1⟩ ⟨j, h.2⟩ else 0) = _
  split
  · rename_i h
    rw [toM_smul, Matrix.det_smul, Matrix.adjugate_smul, Matrix.smul_apply, smul_eq_mul, Fintype.card_fin]
    have hp : c ^ m.rows = c ^ (m.rows - 1) * c := by
      rw [← pow_succ, Nat.sub_add_cancel (by omega)]
    rw [hp, mul_inv, mul_inv]
    have := pow_ne_zero (m.rows - 1) hc
    field_simp
  · rw [zero_mul]

theorem diagInv_scaled (m : Mat ℚ) {c : ℚ} (hc : c ≠ 0) (i j : Nat) : diagInv (m.smul c) i j = diagInv m i j * c⁻¹ := by
  have hd : isDiag (m.smul c) = isDiag m := by
    unfold isDiag
    show ((List.range m.rows).all fun i => (List.range m.rows).all fun j => if i = j then m.get i j * c != 0 else m.get i j * c == 0) = _
    congr 1; funext i; congr 1; funext j
    have hz : m.get i j * c = 0 ↔ m.get i j = 0 := by simp [hc]
    split
    · exact Bool.eq_iff_iff.2 (by simp [hc])
    · exact Bool.eq_iff_iff.2 (by simp [hc])
  unfold diagInv
  rw [hd, adjInv_scaled m hc]
  show (if isDiag m = true then if i = j then 1 / (m.get i i * c) else 0 else _) = _
  split
  · split
    · rw [one_div, one_div, mul_inv]
    · rw [zero_mul]
  · rfl

/-- `diagNum`, with operations of the square-root form that do nothing. -/
def scaleNum : Num ℚ := { diagNum with sqrt := fun _ => 0, qr := fun _ _ _ _ => 0 }

theorem scaleNum_scales {s : ℚ} (hs : 0 < s) : scaleNum.toPrim.Scales s :=
  ⟨hs, fun _ => (zero_mul _).symm, fun _ _ _ _ => (zero_mul _).symm, fun m i j => diagInv_scaled m (mul_pos hs hs).ne' i j⟩

theorem scaleNum_inv : scaleNum.toPrim.InvLaw := diagNum_inv

end Samples
end EkfCal
