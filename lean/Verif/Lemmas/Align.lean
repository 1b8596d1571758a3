import Verif.Spec.Align
import Verif.Lemmas.Mat
import Mathlib.Tactic.Linarith
import Mathlib.Tactic.LinearCombination
import Mathlib.Tactic.FieldSimp
import Mathlib.Tactic.FinCases
import Mathlib.Tactic.NormNum
import Mathlib.Algebra.BigOperators.Group.List.Lemmas
import Mathlib.Algebra.BigOperators.Ring.List

/-!
# Lemmas on averaging and planar alignment
-/

namespace EkfCal

theorem averageLoop_ok : ∀ (vs : List (V3 ℝ)) (ws : List ℝ) (s : V3 ℝ) (w : ℝ), vs.length ≤ ws.length →
    averageLoop vs ws s w = .ok (s + ((vs.zip ws).map fun p => p.2 • p.1).sum, w + ((vs.zip ws).map fun p => p.2).sum)
  | [], ws, s, w, _ => by simp [averageLoop]
  | v :: vs, [], s, w, h => by simp at h
  | v :: vs, c :: cs, s, w, h => by
    rw [averageLoop, averageLoop_ok vs cs _ _ (by simpa using h)]
    simp [add_assoc]

theorem sum_smul_one (vs : List (V3 ℝ)) :
    ((vs.zip (vs.map fun _ => (1 : ℝ))).map fun p => p.2 • p.1).sum = vs.sum ∧
    ((vs.zip (vs.map fun _ => (1 : ℝ))).map fun p => p.2).sum = vs.length := by
  induction vs with
  | nil => simp
  | cons v vs ih => simpa [add_comm] using ih

theorem sum_apply (l : List (V3 ℝ)) (i : Fin 3) : l.sum i = (l.map fun v => v i).sum := by
  induction l with
  | nil => simp
  | cons v l ih => simp [ih]

theorem averageVectors_ok (vs : List (V3 ℝ)) (h : vs ≠ []) : averageVectors vs = .ok (meanOf vs) := by
  have hl : (vs.length : ℝ) ≠ 0 := by
    have := List.length_pos_iff.2 h
    exact_mod_cast this.ne'
  unfold averageVectors averageWeighted
  rw [averageLoop_ok _ _ _ _ (by simp)]
  simp only [ok_bind, (sum_smul_one vs).1, (sum_smul_one vs).2, zero_add]
  rw [guardUB_true (by exact hl)]
  simp only [ok_bind, pure_res]
  congr 1
  funext i
  simp only [Pi.smul_apply, sum_apply, meanOf, smul_eq_mul]
  rw [inv_mul_eq_div]

theorem meanStdDev_ok (vs : List (V3 ℝ)) (h : vs ≠ []) :
    meanStdDev vs = .ok (√((vs.map fun v => V3.norm (v - meanOf vs) * V3.norm (v - meanOf vs)).sum) / vs.length) := by
  have hl : (vs.length : ℝ) ≠ 0 := by
    have := List.length_pos_iff.2 h
    exact_mod_cast this.ne'
  unfold meanStdDev
  simp only [averageVectors_ok vs h, ok_bind]
  rw [guardUB_true (by exact hl)]
  rfl

/-! ### Two-by-two orthogonal matrices and singular values -/

theorem orth2 (U : M2) (h : U.transpose * U = 1) : ∃ ε : ℝ, (ε = 1 ∨ ε = -1) ∧ U 0 0 ^ 2 + U 1 0 ^ 2 = 1 ∧
    U 0 1 = -ε * U 1 0 ∧ U 1 1 = ε * U 0 0 := by
  have e : ∀ i j, (U.transpose * U) i j = (1 : M2) i j := fun i j => by rw [h]
  have h00 := e 0 0
  have h01 := e 0 1
  have h11 := e 1 1
  simp [Matrix.mul_apply, Matrix.transpose] at h00 h01 h11
  have hd : (U 0 0 * U 1 1 - U 1 0 * U 0 1) ^ 2 = 1 := by
    linear_combination (U 0 1 * U 0 1 + U 1 1 * U 1 1) * h00 + h11 - (U 0 0 * U 0 1 + U 1 0 * U 1 1) * h01
  refine ⟨U 0 0 * U 1 1 - U 1 0 * U 0 1, ?_, by linear_combination h00, ?_, ?_⟩
  · have : (U 0 0 * U 1 1 - U 1 0 * U 0 1 - 1) * (U 0 0 * U 1 1 - U 1 0 * U 0 1 + 1) = 0 := by linear_combination hd
    rcases mul_eq_zero.1 this with h | h
    · exact .inl (by linarith)
    · exact .inr (by linarith)
  · linear_combination (-U 0 1) * h00 + (U 0 0) * h01
  · linear_combination (-U 1 1) * h00 + (U 1 0) * h01

/-- A sign is its own sign. -/
theorem sign_unit {ε : ℝ} (h : ε = 1 ∨ ε = -1) : sign ε = ε := by
  rcases h with rfl | rfl <;> norm_num [sign]

/-- The rotation chosen by `kabsch_2d` is a proper rotation that maximises the correlation. -/
theorem kabschRotation_spec (A U V : M2) (s1 s2 : ℝ) (h0 : 0 ≤ s2) (h1 : s2 ≤ s1) (hU : U.transpose * U = 1)
    (hV : V.transpose * V = 1) (hA : A = U * !![s1, 0; 0, s2] * V.transpose) :
    ∃ c s : ℝ, c ^ 2 + s ^ 2 = 1 ∧ kabschRotation U V = !![c, -s; s, c] ∧
      ∀ c' s' : ℝ, c' ^ 2 + s' ^ 2 = 1 →
        c' * (A 0 0 + A 1 1) + s' * (A 0 1 - A 1 0) ≤ c * (A 0 0 + A 1 1) + s * (A 0 1 - A 1 0) := by
  obtain ⟨ε, hε, u1, u2, u3⟩ := orth2 U hU
  obtain ⟨δ, hδ, v1, v2, v3⟩ := orth2 V hV
  have hee : ε * ε = 1 := by rcases hε with rfl | rfl <;> norm_num
  have hdd : δ * δ = 1 := by rcases hδ with rfl | rfl <;> norm_num
  have hed : ε * δ = 1 ∨ ε * δ = -1 := by rcases hε with rfl | rfl <;> rcases hδ with rfl | rfl <;> norm_num
  set a := U 0 0
  set b := U 1 0
  set c := V 0 0
  set d := V 1 0
  have hdet : Matrix.det (V * U.transpose) = ε * δ := by
    rw [Matrix.det_fin_two]
    simp [Matrix.mul_apply, Matrix.transpose, u2, u3, v2, v3]
    linear_combination (ε * δ) * (c ^ 2 + d ^ 2) * u1 + (ε * δ) * v1
  have hA00 : A 0 0 = s1 * a * c + s2 * ε * δ * b * d := by
    rw [hA]; simp [Matrix.mul_apply, Matrix.transpose, u2, v2]; ring
  have hA01 : A 0 1 = s1 * a * d - s2 * ε * δ * b * c := by
    rw [hA]; simp [Matrix.mul_apply, Matrix.transpose, u2, v3]; ring
  have hA10 : A 1 0 = s1 * b * c - s2 * ε * δ * a * d := by
    rw [hA]; simp [Matrix.mul_apply, Matrix.transpose, u3, v2]; ring
  have hA11 : A 1 1 = s1 * b * d + s2 * ε * δ * a * c := by
    rw [hA]; simp [Matrix.mul_apply, Matrix.transpose, u3, v3]; ring
  have h2 : (a * c + b * d) ^ 2 + (a * d - b * c) ^ 2 = 1 := by
    linear_combination (c ^ 2 + d ^ 2) * u1 + v1
  have hk : 0 ≤ s1 + s2 * (ε * δ) := by rcases hed with h | h <;> rw [h] <;> linarith
  refine ⟨a * c + b * d, a * d - b * c, h2, ?_, ?_⟩
  · unfold kabschRotation
    rw [hdet, sign_unit hed]
    ext i j
    fin_cases i <;> fin_cases j <;> simp [Matrix.mul_apply, Matrix.transpose, u2, u3, v2, v3] <;>
      simp only [a, b, c, d] at *
    · linear_combination (V 1 0 * U 1 0) * (δ * δ) * hee + (V 1 0 * U 1 0) * hdd
    · linear_combination (-V 1 0 * U 0 0) * (δ * δ) * hee - (V 1 0 * U 0 0) * hdd
    · linear_combination (-V 0 0 * U 1 0) * (δ * δ) * hee - (V 0 0 * U 1 0) * hdd
    · linear_combination (V 0 0 * U 0 0) * (δ * δ) * hee + (V 0 0 * U 0 0) * hdd
  · intro c' s' h'
    have e1 : A 0 0 + A 1 1 = (s1 + s2 * (ε * δ)) * (a * c + b * d) := by rw [hA00, hA11]; ring
    have e2 : A 0 1 - A 1 0 = (s1 + s2 * (ε * δ)) * (a * d - b * c) := by rw [hA01, hA10]; ring
    rw [e1, e2]
    set C := a * c + b * d
    set S := a * d - b * c
    have : c' * C + s' * S ≤ 1 := by nlinarith [sq_nonneg (c' - C), sq_nonneg (s' - S)]
    nlinarith [mul_le_mul_of_nonneg_left this hk]

theorem exists_svd (A : M2) : ∃ UV : M2 × M2, UV.1.transpose * UV.1 = 1 ∧ UV.2.transpose * UV.2 = 1 ∧
    ∃ s1 s2 : ℝ, 0 ≤ s2 ∧ s2 ≤ s1 ∧ A = UV.1 * !![s1, 0; 0, s2] * UV.2.transpose := by
  set α : ℂ := ⟨(A 0 0 + A 1 1) / 2, (A 1 0 - A 0 1) / 2⟩ with hα
  set β : ℂ := ⟨(A 0 0 - A 1 1) / 2, (A 1 0 + A 0 1) / 2⟩ with hβ
  set x := (α.arg + β.arg) / 2 with hx
  set y := (α.arg - β.arg) / 2 with hy
  have hxy : x + y = α.arg := by rw [hx, hy]; ring
  have hxy' : x - y = β.arg := by rw [hx, hy]; ring
  have a1 := Complex.norm_mul_cos_arg α
  have a2 := Complex.norm_mul_sin_arg α
  have b1 := Complex.norm_mul_cos_arg β
  have b2 := Complex.norm_mul_sin_arg β
  rw [← hxy, Real.cos_add] at a1
  rw [← hxy, Real.sin_add] at a2
  rw [← hxy', Real.cos_sub] at b1
  rw [← hxy', Real.sin_sub] at b2
  have sx := Real.sin_sq_add_cos_sq x
  have sy := Real.sin_sq_add_cos_sq y
  have na := norm_nonneg α
  have nb := norm_nonneg β
  simp only [hα] at a1 a2
  simp only [hβ] at b1 b2
  rw [← hα] at a1 a2
  rw [← hβ] at b1 b2
  set p := ‖α‖
  set q := ‖β‖
  set V : M2 := !![Real.cos y, Real.sin y; -Real.sin y, Real.cos y] with hV
  have hVV : V.transpose * V = 1 := by
    ext i j
    fin_cases i <;> fin_cases j <;> simp [hV, Matrix.mul_apply, Matrix.transpose] <;>
      first | linear_combination sy | ring
  rcases le_total q p with hpq | hpq
  · refine ⟨(!![Real.cos x, -Real.sin x; Real.sin x, Real.cos x], V), ?_, hVV, p + q, p - q, by linarith, by linarith, ?_⟩
    · ext i j
      fin_cases i <;> fin_cases j <;> simp [Matrix.mul_apply, Matrix.transpose] <;>
        first | linear_combination sx | ring
    · ext i j
      fin_cases i <;> fin_cases j <;> simp [hV, Matrix.mul_apply, Matrix.transpose]
      · linear_combination -a1 - b1
      · linear_combination a2 - b2
      · linear_combination -a2 - b2
      · linear_combination -a1 + b1
  · refine ⟨(!![Real.cos x, Real.sin x; Real.sin x, -Real.cos x], V), ?_, hVV, p + q, q - p, by linarith, by linarith, ?_⟩
    · ext i j
      fin_cases i <;> fin_cases j <;> simp [Matrix.mul_apply, Matrix.transpose] <;>
        first | linear_combination sx | ring
    · ext i j
      fin_cases i <;> fin_cases j <;> simp [hV, Matrix.mul_apply, Matrix.transpose]
      · linear_combination -a1 - b1
      · linear_combination a2 - b2
      · linear_combination -a2 - b2
      · linear_combination -a1 + b1

/-- A singular value decomposition with the properties used exists. -/
theorem exists_svdLaw : ∃ svd, SvdLaw svd := by
  choose f hf using exists_svd
  exact ⟨f, hf⟩

/-! ### The error as a function of rotation and shift -/

/-- Sum over pairs. -/
noncomputable abbrev S (L : List (V3 ℝ × V3 ℝ)) (f : V3 ℝ × V3 ℝ → ℝ) : ℝ := (L.map f).sum

theorem error_expand (L : List (V3 ℝ × V3 ℝ)) (c s t0 t1 : ℝ) :
    S L (fun p => (p.1 0 - (c * p.2 0 - s * p.2 1 + t0)) ^ 2 + (p.1 1 - (s * p.2 0 + c * p.2 1 + t1)) ^ 2) =
      S L (fun p => p.1 0 ^ 2 + p.1 1 ^ 2) + (c ^ 2 + s ^ 2) * S L (fun p => p.2 0 ^ 2 + p.2 1 ^ 2)
      - 2 * c * S L (fun p => p.2 0 * p.1 0 + p.2 1 * p.1 1) - 2 * s * S L (fun p => p.2 0 * p.1 1 - p.2 1 * p.1 0)
      + L.length * (t0 ^ 2 + t1 ^ 2) - 2 * t0 * S L (fun p => p.1 0) - 2 * t1 * S L (fun p => p.1 1)
      + 2 * t0 * (c * S L (fun p => p.2 0) - s * S L (fun p => p.2 1))
      + 2 * t1 * (s * S L (fun p => p.2 0) + c * S L (fun p => p.2 1)) := by
  induction L with
  | nil => simp [S]
  | cons p L ih =>
    simp only [S, List.map_cons, List.sum_cons, List.length_cons] at ih ⊢
    push_cast
    linear_combination ih

theorem cov_expand (L : List (V3 ℝ × V3 ℝ)) (i j : Fin 3) (m m' : ℝ) :
    S L (fun p => (p.2 i - m) * (p.1 j - m')) =
      S L (fun p => p.2 i * p.1 j) - m * S L (fun p => p.1 j) - m' * S L (fun p => p.2 i) + L.length * (m * m') := by
  induction L with
  | nil => simp [S]
  | cons p L ih =>
    simp only [S, List.map_cons, List.sum_cons, List.length_cons] at ih ⊢
    push_cast
    linear_combination ih

theorem S_add (L : List (V3 ℝ × V3 ℝ)) (f g : V3 ℝ × V3 ℝ → ℝ) : S L (fun p => f p + g p) = S L f + S L g := by
  induction L with
  | nil => simp [S]
  | cons p L ih =>
    simp only [S, List.map_cons, List.sum_cons] at ih ⊢
    linear_combination ih

theorem S_sub (L : List (V3 ℝ × V3 ℝ)) (f g : V3 ℝ × V3 ℝ → ℝ) : S L (fun p => f p - g p) = S L f - S L g := by
  induction L with
  | nil => simp [S]
  | cons p L ih =>
    simp only [S, List.map_cons, List.sum_cons] at ih ⊢
    linear_combination ih

theorem planarCov_entries (L : List (V3 ℝ × V3 ℝ)) (m m' : V3 ℝ) :
    planarCov ((L.map (·.2)).map (· - m)) ((L.map (·.1)).map (· - m')) =
      !![S L (fun p => (p.2 0 - m 0) * (p.1 0 - m' 0)), S L (fun p => (p.2 0 - m 0) * (p.1 1 - m' 1));
         S L (fun p => (p.2 1 - m 1) * (p.1 0 - m' 0)), S L (fun p => (p.2 1 - m 1) * (p.1 1 - m' 1))] := by
  unfold planarCov
  induction L with
  | nil => ext i j; fin_cases i <;> fin_cases j <;> simp [S]
  | cons p L ih =>
    simp only [List.map_cons, List.zip_cons_cons, List.sum_cons] at ih ⊢
    rw [ih]
    ext i j
    fin_cases i <;> fin_cases j <;> simp [S]

theorem lift_mulVec (c s : ℝ) (v : V3 ℝ) :
    (liftRotation !![c, -s; s, c]).mulVec v = ![c * v 0 - s * v 1, s * v 0 + c * v 1, v 2] := by
  funext i
  fin_cases i <;> simp [liftRotation, Matrix.mulVec, dotProduct, Fin.sum_univ_three] <;> ring

theorem vertical_lift (θ : ℝ) : vertical θ = liftRotation !![Real.cos θ, -Real.sin θ; Real.sin θ, Real.cos θ] := by
  ext i j
  fin_cases i <;> fin_cases j <;> simp [vertical, liftRotation]

/-- A point of the unit circle has an angle. -/
theorem exists_angle {c s : ℝ} (h : c ^ 2 + s ^ 2 = 1) : ∃ θ, Real.cos θ = c ∧ Real.sin θ = s := by
  have hn : ‖(⟨c, s⟩ : ℂ)‖ = 1 := by
    have h2 : ‖(⟨c, s⟩ : ℂ)‖ ^ 2 = 1 := by
      rw [← Complex.normSq_eq_norm_sq, Complex.normSq_apply]
      dsimp only
      linarith
    exact (pow_eq_one_iff_of_nonneg (norm_nonneg _) two_ne_zero).1 h2
  have h0 : (⟨c, s⟩ : ℂ) ≠ 0 := by intro h; rw [h] at hn; simp at hn
  refine ⟨Complex.arg ⟨c, s⟩, ?_, ?_⟩
  · rw [Complex.cos_arg h0, hn]; simp
  · rw [Complex.sin_arg, hn]; simp

end EkfCal
