import Verif.Lemmas.RootUpdate
import Verif.Lemmas.RootPredict
import Verif.Lemmas.Defined
import Verif.Lemmas.Correct
import Verif.Lemmas.RealPrim
import Verif.Spec.Joint
import Verif.Spec.Root
import Verif.Props.C10
import Mathlib.Tactic.IntervalCases
import Mathlib.Tactic.FieldSimp
import Mathlib.Tactic.Linarith

/-!
# C11 — the square-root update against the standard update

Full statement: for every covariance noise matrix the square-root update of a factor `R` gives a factor of what the
standard update makes of `RᵀR`, with the same gain.  It holds for diagonal noise (`C11_update_partial`,
`C11_standard_partial`) and fails for a non-diagonal one (`C11_noise_violated`): the code takes the entrywise square root
of the noise.  `C11_actual` says exactly which update the code performs.
-/

set_option linter.unusedSectionVars false

namespace EkfCal
open Ekf Finset
variable {K : Type} [Field K] [LinearOrder K]

/-- For every noise matrix: the square-root update is the exact Kalman update of `RᵀR` (correction, gain and Joseph form)
with the effective noise in place of the given one. -/
theorem C11_actual (N : Prim K) (hq : N.QrLaw) (hN : N.InvLaw) (e e' : Ekf K) (H : Mat K) (r : Vec K) (R : Mat K)
    (hu : e.useRoot = true) (h : kalmanUpdate N e H r R = .ok e') (B : Nat → Nat → K)
    (hB : AreInverse H.rows (innovation e.cov.rows (gram e.cov) H (effectiveNoise N R)) B) :
    (e.state.addVec N (correction e.cov.rows H (kalmanGain e.cov.rows (gram e.cov) H B) r) = .ok e'.state) ∧
    e'.cov.rows = e.cov.rows ∧ e'.cov.cols = e.cov.rows ∧ e'.cov.Upper ∧
    (∀ i j, i < e.cov.rows → j < e.cov.rows → gram e'.cov i j =
      joseph e.cov.rows (gram e.cov) H (effectiveNoise N R) (kalmanGain e.cov.rows (gram e.cov) H B) i j) ∧
    e' = { e with state := e'.state, cov := e'.cov } := by
  obtain ⟨⟨hsq, hjc, hRc, hrs⟩, L, I, G, s, L2, M2, c, rfl, hL, hI, hGr, hGc, hG, hs, hL2, hM2, hc, hcr, hcc⟩ :=
    kalman_root hu h
  have hgI : ∀ a b, a < H.rows → b < H.rows →
      gram I a b = innovation e.cov.rows (gram e.cov) H (effectiveNoise N R) a b := by
    intro a b ha hb
    rw [hq _ _ _ hI a b (by rw [hL]; exact ha) (by rw [hL]; exact hb), hL, gram_mul_transpose _ _ _ _ _ _ _ rfl]
    rfl
  have hinv : ∀ a b, a < H.rows → b < H.rows → N.inv ⟨H.rows, H.rows, gram I⟩ a b = B a b := by
    refine hN ⟨H.rows, H.rows, gram I⟩ B rfl ?_ ?_
    · intro i j hi hj
      rw [← hB.1 i j hi hj]
      exact sum_congr rfl fun k hk => by dsimp only; rw [hgI i k hi (mem_range.1 hk)]
    · intro i j hi hj
      rw [← hB.2 i j hi hj]
      exact sum_congr rfl fun k hk => by dsimp only; rw [hgI k j (mem_range.1 hk) hj]
  have hGe : ∀ i a, a < H.rows → G.get i a = kalmanGain e.cov.rows (gram e.cov) H B i a := by
    intro i a ha
    rw [hG]
    unfold kalmanGain
    exact sum_congr rfl fun b hb => by rw [hinv b a (mem_range.1 hb) ha]
  refine ⟨?_, hcr, hcc, ?_, fun i j hi hj => ?_, rfl⟩
  · have : correction e.cov.rows H (kalmanGain e.cov.rows (gram e.cov) H B) r =
        ⟨e.cov.rows, fun i => ∑ a ∈ range H.rows, G.get i a * r.get a⟩ := by
      unfold correction
      congr 1
      funext i
      exact sum_congr rfl fun a ha => by rw [hGe i a (mem_range.1 ha)]
    rw [this]; exact hs
  · show c.Upper
    unfold qrStack at hc
    split at hc
    · split at hc
      · cases hc
        intro i j _ _ hij
        exact if_neg (by omega)
      · cases hc
    · cases hc
  · show gram c i j = _
    rw [hq _ _ _ hc i j (by rw [hL2]; exact hi) (by rw [hL2]; exact hj), hL2, gram_mul_transpose _ _ _ _ _ _ _ rfl,
      hM2]
    have hM := gram_mul_transpose (R.map N.sqrt) H.rows G.get R.rows e.cov.rows i j rfl
    rw [hM]
    unfold joseph
    congr 1
    · unfold congr iGH
      refine sum_congr rfl fun k _ => sum_congr rfl fun l _ => ?_
      have e1 : ∀ i k, ∑ a ∈ range H.rows, G.get i a * H.get a k =
          ∑ a ∈ range H.rows, kalmanGain e.cov.rows (gram e.cov) H B i a * H.get a k := fun i k =>
        sum_congr rfl fun a ha => by rw [hGe i a (mem_range.1 ha)]
      rw [e1, e1]
    · unfold congr
      refine sum_congr rfl fun k hk => sum_congr rfl fun l hl => ?_
      rw [hGe i k (mem_range.1 hk), hGe j l (mem_range.1 hl)]
      rfl

/-- Diagonal noise with non-negative variances is used as given. -/
theorem effectiveNoise_diag [IsStrictOrderedRing K] (N : Prim K) (hs : N.SqrtLaw) (R : Mat K) (hsq : R.rows = R.cols)
    (hd : R.Diagonal) (h0 : ∀ i, i < R.rows → 0 ≤ R.get i i) (i j : Nat) (hi : i < R.rows) (hj : j < R.rows) :
    (effectiveNoise N R).get i j = R.get i j := by
  have hz : N.sqrt 0 = 0 := mul_self_eq_zero.1 (hs 0 le_rfl).2
  show gram (R.map N.sqrt) i j = _
  rw [gram_diag (R.map N.sqrt) (fun i j hi hj h => by show N.sqrt (R.get i j) = 0; rw [hd i j hi hj h, hz]) hsq hi hj]
  split
  · rename_i h; rw [← h]; exact (hs _ (h0 i hi)).2
  · rename_i h; exact (hd i j hi (by omega) h).symm

/-- Diagonal noise: the square-root update of the factor is the exact Kalman update of the covariance it stands for. -/
theorem C11_update_partial [IsStrictOrderedRing K] (N : Prim K) (hq : N.QrLaw) (hN : N.InvLaw) (hs : N.SqrtLaw)
    (e e' : Ekf K) (H : Mat K) (r : Vec K) (R : Mat K)
    (hu : e.useRoot = true) (hsq : R.rows = R.cols) (hd : R.Diagonal) (h0 : ∀ i, i < R.rows → 0 ≤ R.get i i)
    (h : kalmanUpdate N e H r R = .ok e') (B : Nat → Nat → K)
    (hB : AreInverse H.rows (innovation e.cov.rows (gram e.cov) H R) B) :
    (e.state.addVec N (correction e.cov.rows H (kalmanGain e.cov.rows (gram e.cov) H B) r) = .ok e'.state) ∧
    e'.cov.rows = e.cov.rows ∧ e'.cov.cols = e.cov.rows ∧ e'.cov.Upper ∧
    (∀ i j, i < e.cov.rows → j < e.cov.rows → gram e'.cov i j =
      joseph e.cov.rows (gram e.cov) H R (kalmanGain e.cov.rows (gram e.cov) H B) i j) ∧
    e' = { e with state := e'.state, cov := e'.cov } := by
  have hRc : R.cols = H.rows := (kalman_root hu h).1.2.2.1
  have he : ∀ i j, i < H.rows → j < H.rows → (effectiveNoise N R).get i j = R.get i j := fun i j hi hj =>
    effectiveNoise_diag N hs R hsq hd h0 i j (by omega) (by omega)
  have hB' : AreInverse H.rows (innovation e.cov.rows (gram e.cov) H (effectiveNoise N R)) B := by
    constructor
    · intro i j hi hj
      rw [← hB.1 i j hi hj]
      exact sum_congr rfl fun k hk => by unfold innovation; rw [he i k hi (mem_range.1 hk)]
    · intro i j hi hj
      rw [← hB.2 i j hi hj]
      exact sum_congr rfl fun k hk => by unfold innovation; rw [he k j (mem_range.1 hk) hj]
  obtain ⟨h1, h2, h3, h4, h5, h6⟩ := C11_actual N hq hN e e' H r R hu h B hB'
  refine ⟨h1, h2, h3, h4, fun i j hi hj => ?_, h6⟩
  rw [h5 i j hi hj]
  unfold joseph
  congr 1
  unfold congr
  refine sum_congr rfl fun k hk => sum_congr rfl fun l hl => ?_
  rw [he k l (mem_range.1 hk) (mem_range.1 hl)]

/-- Diagonal noise, as a comparison of the two modes: the standard-form filter accepts the same measurement, reaches the
same estimate, and the two covariances agree. -/
theorem C11_standard_partial [IsStrictOrderedRing K] (N : Prim K) (hq : N.QrLaw) (hN : N.InvLaw) (hs : N.SqrtLaw)
    (e e' : Ekf K) (H : Mat K) (r : Vec K) (R : Mat K)
    (hu : e.useRoot = true) (hsq : R.rows = R.cols) (hd : R.Diagonal) (h0 : ∀ i, i < R.rows → 0 ≤ R.get i i)
    (h : kalmanUpdate N e H r R = .ok e') (B : Nat → Nat → K)
    (hB : AreInverse H.rows (innovation e.cov.rows (gram e.cov) H R) B)
    (p : EkfParams K) (ops : List (Op K)) (hw : ∀ op ∈ ops, op.WF)
    (hr : run N (init N p) ops = .ok e) :
    ∃ f', kalmanUpdate N e.standard H r R = .ok f' ∧ f'.state = e'.state ∧
      (∀ i j, i < e.cov.rows → j < e.cov.rows → f'.P i j = e'.P i j) ∧
      f' = { e'.standard with cov := f'.cov } := by
  obtain ⟨⟨hsq', hjc, hRc, hrs⟩, _⟩ := kalman_root hu h
  obtain ⟨h1, h2, h3, h4, h5, h6⟩ := C11_update_partial N hq hN hs e e' H r R hu hsq hd h0 h B hB
  have hi : Ekf.Inv e := inv_run (inv_init N p) hw hr
  obtain ⟨f', hf⟩ := kalman_defined N e.standard H r R
    (inv_standard hi)
    (by rw [hjc]; exact hi.covRows) (by omega) hRc hrs
  obtain ⟨g1, g2, g3, g4, g5⟩ := C10_update N hN e.standard f' H r R rfl hf B hB
  have hst : f'.state = e'.state := Except.ok.inj (g1.symm.trans h1)
  refine ⟨f', hf, hst, fun i j hi hj => ?_, ?_⟩
  · have hfr : f'.useRoot = false := by rw [g5]; rfl
    have her : e'.useRoot = true := by rw [h6]; exact hu
    unfold Ekf.P
    rw [hfr, her, if_pos rfl, if_neg (by simp), g4, h5 i j hi hj]
    rfl
  · rw [g5, h6]
    simp only [Ekf.standard, hst]

/-! ## Witness for non-diagonal noise -/

/-- Two position coordinates are measured. -/
def C11_H : Mat ℝ := ⟨2, 18, fun a k => if a = k then 1 else 0⟩
/-- Their errors are correlated. -/
def C11_R : Mat ℝ := ⟨2, 2, fun a b => if a = b then 4 else 1⟩
def C11_r : Vec ℝ := ⟨2, fun a => if a = 0 then 1 else 0⟩

theorem gram_init (p : EkfParams ℝ) (hp : p.useRoot = true) {i j : Nat} (hi : i < 18) (hj : j < 18) :
    gram (init realPrim p).cov i j = if i = j then 1 / 100 else 0 := by
  have hc : (init realPrim p).cov = ((Mat.identity 18 18).smul (1 / 100) : Mat ℝ).map Real.sqrt := by
    simp only [init, hp, if_true]; rfl
  rw [hc, gram_diag _ _ rfl hi hj]
  · split
    · simp [Mat.map, Mat.smul, Mat.identity]
      rw [← mul_inv, Real.mul_self_sqrt (by norm_num)]
    · rfl
  · intro i j _ _ h
    simp [Mat.map, Mat.smul, Mat.identity, h]

theorem sample_C11_congr (p : EkfParams ℝ) (hp : p.useRoot = true) {a b : Nat} (ha : a < 2) (hb : b < 2) :
    congr 18 C11_H.get (gram (init realPrim p).cov) a b = if a = b then 1 / 100 else 0 := by
  unfold congr C11_H
  simp only [ite_mul, one_mul, zero_mul, mul_ite, mul_one, mul_zero]
  rw [sum_eq_single a]
  · rw [sum_eq_single b]
    · rw [if_pos rfl, if_pos rfl, gram_init p hp (by omega) (by omega)]
    · intro l _ h; rw [if_neg (Ne.symm h)]
    · intro h; exact absurd (mem_range.2 (by omega)) h
  · intro k _ h
    refine sum_eq_zero fun l _ => ?_
    rw [if_neg (Ne.symm h), ite_self]
  · intro h; exact absurd (mem_range.2 (by omega)) h

/-- Inverse of a symmetric Toeplitz 2×2 matrix. -/
noncomputable def inv2 (a b : ℝ) (i j : Nat) : ℝ := if i = j then a / (a * a - b * b) else -b / (a * a - b * b)

theorem areInverse_inv2 (S : Nat → Nat → ℝ) (a b : ℝ) (h : a * a - b * b ≠ 0)
    (hS : ∀ i j, i < 2 → j < 2 → S i j = if i = j then a else b) : AreInverse 2 S (inv2 a b) := by
  have h1 : a ^ 2 - b ^ 2 ≠ 0 := by rw [sq, sq]; exact h
  constructor <;>
  · intro i j hi hj
    simp only [sum_range_succ, sum_range_zero, zero_add]
    rw [hS _ _ (by omega) (by omega), hS _ _ (by omega) (by omega)]
    unfold inv2
    interval_cases i <;> interval_cases j <;> simp <;> field_simp <;> ring

theorem sample_C11_gain (p : EkfParams ℝ) (hp : p.useRoot = true) (B : Nat → Nat → ℝ) :
    (correction 18 C11_H (kalmanGain 18 (gram (init realPrim p).cov) C11_H B) C11_r).get 0 = 1 / 100 * B 0 0 := by
  show ∑ a ∈ range 2, kalmanGain 18 (gram (init realPrim p).cov) C11_H B 0 a * C11_r.get a = _
  have hk : ∀ b, b < 2 → ∑ k ∈ range 18, gram (init realPrim p).cov 0 k * C11_H.get b k =
      if 0 = b then 1 / 100 else 0 := by
    intro b hb
    unfold C11_H
    simp only [mul_ite, mul_one, mul_zero]
    rw [sum_eq_single b]
    · rw [if_pos rfl, gram_init p hp (by omega) (by omega)]
    · intro l _ h; rw [if_neg (Ne.symm h)]
    · intro h; exact absurd (mem_range.2 (by omega)) h
  have hg : ∀ a, kalmanGain 18 (gram (init realPrim p).cov) C11_H B 0 a = 1 / 100 * B 0 a := by
    intro a
    show ∑ b ∈ range 2, (∑ k ∈ range 18, gram (init realPrim p).cov 0 k * C11_H.get b k) * B b a = _
    rw [sum_range_succ, sum_range_one, hk 0 (by omega), hk 1 (by omega)]
    simp
  rw [sum_range_succ, sum_range_one, hg, hg]
  simp [C11_r]

theorem sample_C11_effective : ∀ i j, i < 2 → j < 2 → (effectiveNoise realPrim C11_R).get i j = if i = j then 5 else 4 := by
  have h4 : Real.sqrt 4 = 2 := by rw [show (4 : ℝ) = 2 * 2 by norm_num]; exact Real.sqrt_mul_self (by norm_num)
  intro i j hi hj
  show gram (C11_R.map Real.sqrt) i j = _
  unfold gram
  simp only [C11_R, Mat.map, sum_range_succ, sum_range_zero, zero_add]
  interval_cases i <;> interval_cases j <;> simp [h4] <;> norm_num

/-- Square-root parameters. -/
def C11_params : EkfParams ℝ where
  augType := .none
  augDeltaTime := 1
  augPosError := 1
  augAngError := 1
  processNoise := ⟨18, fun _ => 1⟩
  posBInL := 0
  angBToL := Quat.one
  posEInG := 0
  angLToE := 0
  gpsInitType := .constant
  gpsInitBaselineDist := 100
  gpsInitPosThresh := 1
  gpsInitAngThresh := 1
  motionDetectionChiSquared := 1
  imuNoiseScaleFactor := 1
  useRoot := true
  useFirstEstimate := false

theorem sample_C11_R_cov : C11_R.IsCov where
  square := rfl
  symm := by
    intro i j _ _
    simp only [C11_R, eq_comm]
  psd := by
    intro x
    simp only [quad, C11_R, sum_range_succ, sum_range_zero, zero_add]
    norm_num
    nlinarith [sq_nonneg (x 0 + x 1), sq_nonneg (x 0), sq_nonneg (x 1)]

theorem sample_C11_pos {N : Prim ℝ} {s s' : State ℝ} {v : Vec ℝ} {j : Nat} (ht : Tiles s.blocks 0 j) (hj : j ≤ v.size)
    (h : s.addVec N v = .ok s') : s'.body.pos 0 = s.body.pos 0 + v.get s.body.index := by
  rw [State.addVec_moved N v s j ht hj] at h
  cases h
  rfl

/-- Two correlated position errors: both modes accept the measurement, start from the same covariance, and reach
different position estimates. -/
theorem C11_noise_violated : ∃ (p : EkfParams ℝ) (e' f' : Ekf ℝ), p.useRoot = true ∧ C11_R.IsCov ∧
    kalmanUpdate realPrim (init realPrim p) C11_H C11_r C11_R = .ok e' ∧
    kalmanUpdate realPrim (init realPrim p).standard C11_H C11_r C11_R = .ok f' ∧
    e'.state.body.pos 0 ≠ f'.state.body.pos 0 := by
  have hi : Ekf.Inv (init realPrim C11_params) := inv_init _ _
  obtain ⟨e', he⟩ := kalman_defined realPrim (init realPrim C11_params) C11_H C11_r C11_R hi rfl rfl rfl rfl
  obtain ⟨f', hf⟩ := kalman_defined realPrim (init realPrim C11_params).standard C11_H C11_r C11_R
    (inv_standard hi) rfl rfl rfl rfl
  refine ⟨C11_params, e', f', rfl, sample_C11_R_cov, he, hf, ?_⟩
  have hcr : (init realPrim C11_params).cov.rows = 18 := hi.covRows
  have h1 := (C11_actual realPrim realPrim_qr realPrim_inv _ e' C11_H C11_r C11_R rfl he (inv2 (501 / 100) 4)
    (areInverse_inv2 _ _ _ (by norm_num) (fun i j hi hj => by
      unfold innovation
      rw [hcr, sample_C11_congr _ rfl hi hj, sample_C11_effective i j hi hj]
      split <;> norm_num))).1
  have h2 := (C10_update realPrim realPrim_inv _ f' C11_H C11_r C11_R rfl hf (inv2 (401 / 100) 1)
    (areInverse_inv2 _ _ _ (by norm_num) (fun i j hi hj => by
      unfold innovation
      show congr (init realPrim C11_params).cov.rows _ (gram (init realPrim C11_params).cov) _ _ + _ = _
      rw [hcr, sample_C11_congr _ rfl hi hj]
      simp only [C11_R]
      split <;> norm_num))).1
  have g1 := sample_C11_pos hi.tiles (by show _ ≤ (init realPrim C11_params).cov.rows; rw [hcr]; exact le_rfl) h1
  have g2 := sample_C11_pos hi.tiles (by show _ ≤ (init realPrim C11_params).cov.rows; rw [hcr]; exact le_rfl) h2
  have k1 := sample_C11_gain C11_params rfl (inv2 (501 / 100) 4)
  have k2 := sample_C11_gain C11_params rfl (inv2 (401 / 100) 1)
  intro heq
  rw [g1, g2] at heq
  have heq2 : (correction (init realPrim C11_params).cov.rows C11_H (kalmanGain (init realPrim C11_params).cov.rows
      (gram (init realPrim C11_params).cov) C11_H (inv2 (501 / 100) 4)) C11_r).get 0 =
    (correction (init realPrim C11_params).cov.rows C11_H (kalmanGain (init realPrim C11_params).cov.rows
      (gram (init realPrim C11_params).cov) C11_H (inv2 (401 / 100) 1)) C11_r).get 0 := add_left_cancel heq
  rw [hcr, k1, k2] at heq2
  unfold inv2 at heq2
  norm_num at heq2

/-- The hypotheses of the diagonal case can be met: the same filter and Jacobian with uncorrelated errors. -/
example : ∃ e', kalmanUpdate realPrim (init realPrim C11_params) C11_H C11_r (Mat.identity 2 2) = .ok e' ∧
    (init realPrim C11_params).useRoot = true ∧ (Mat.identity 2 2 : Mat ℝ).Diagonal ∧
    AreInverse 2 (innovation 18 (gram (init realPrim C11_params).cov) C11_H (Mat.identity 2 2)) (inv2 (101 / 100) 0) ∧
    run realPrim (init realPrim C11_params) [] = .ok (init realPrim C11_params) ∧
    e'.state.body.pos 0 ≠ 0 := by
  have hi : Ekf.Inv (init realPrim C11_params) := inv_init _ _
  obtain ⟨e', he⟩ := kalman_defined realPrim (init realPrim C11_params) C11_H C11_r (Mat.identity 2 2) hi rfl rfl rfl rfl
  have hcr : (init realPrim C11_params).cov.rows = 18 := hi.covRows
  have hd : (Mat.identity 2 2 : Mat ℝ).Diagonal := fun i j _ _ h => if_neg h
  have hB : AreInverse 2 (innovation 18 (gram (init realPrim C11_params).cov) C11_H (Mat.identity 2 2))
      (inv2 (101 / 100) 0) :=
    areInverse_inv2 _ _ _ (by norm_num) (fun i j hi hj => by
      unfold innovation
      rw [sample_C11_congr _ rfl hi hj]
      simp only [Mat.identity]
      split <;> norm_num)
  refine ⟨e', he, rfl, hd, hB, rfl, ?_⟩
  have h1 := (C11_update_partial realPrim realPrim_qr realPrim_inv realPrim_sqrt _ e' C11_H C11_r (Mat.identity 2 2) rfl
    rfl hd (fun i _ => by simp [Mat.identity]) he (inv2 (101 / 100) 0) (by rw [hcr]; exact hB)).1
  have g1 := sample_C11_pos hi.tiles (by show _ ≤ (init realPrim C11_params).cov.rows; rw [hcr]; exact le_rfl) h1
  have k1 := sample_C11_gain C11_params rfl (inv2 (101 / 100) 0)
  have k2 : (correction (init realPrim C11_params).cov.rows C11_H (kalmanGain (init realPrim C11_params).cov.rows
      (gram (init realPrim C11_params).cov) C11_H (inv2 (101 / 100) 0)) C11_r).get (init realPrim C11_params).state.body.index
      = 1 / 100 * inv2 (101 / 100) 0 0 0 := by rw [hcr]; exact k1
  rw [g1, k2]
  have : (init realPrim C11_params).state.body.pos 0 = 0 := rfl
  rw [this]
  unfold inv2
  norm_num

end EkfCal
