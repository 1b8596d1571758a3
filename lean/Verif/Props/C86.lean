import Verif.Props.C11
import Verif.Lemmas.Optimal

/-!
# C86 — a measurement is weighed as well as it can be
-/

set_option linter.unusedSectionVars false

namespace EkfCal
open Ekf Finset Matrix
variable {K : Type} [Field K] [LinearOrder K] [IsStrictOrderedRing K]

/-! ## The update in matrices -/

theorem cov_form {n : Nat} {P : Nat → Nat → K} (h : ∀ x, 0 ≤ quad n P x) (x : Fin n → K) : 0 ≤ x ⬝ᵥ toM n n P *ᵥ x := by
  have := h fun i => if hi : i < n then x ⟨i, hi⟩ else 0
  rw [quad_toM] at this
  simpa using this

theorem Ekf.Measured.P_symm {N : Prim K} {e e' : Ekf K} {H R : Mat K} {r : Vec K} (h : Measured N e H r R e') :
    (toM e.cov.rows e.cov.rows e.P)ᵀ = toM e.cov.rows e.cov.rows e.P := by
  rw [← toM_transpose]
  refine toM_eq_iff.2 fun i j hi hj => ?_
  unfold Ekf.P
  cases hu : e.useRoot with
  | false => simpa using (h.cov hu).symm j i hj hi
  | true =>
    simp only [if_true]
    exact sum_congr rfl fun k _ => mul_comm _ _

theorem Ekf.Measured.P_psd {N : Prim K} {e e' : Ekf K} {H R : Mat K} {r : Vec K} (h : Measured N e H r R e') (x : Nat → K) :
    0 ≤ quad e.cov.rows e.P x := by
  cases hu : e.useRoot with
  | false =>
    have : e.P = e.cov.get := by funext i j; simp [Ekf.P, hu]
    rw [this]; exact (h.cov hu).psd x
  | true =>
    have : e.P = gram e.cov := by funext i j; simp [Ekf.P, hu]
    rw [this, quad_gram]
    exact sum_nonneg fun _ _ => mul_self_nonneg _

theorem Ekf.Measured.sizes {N : Prim K} {e e' : Ekf K} {H R : Mat K} {r : Vec K} (h : Measured N e H r R e') :
    R.rows = H.rows ∧ R.cols = H.rows := by
  cases hu : e.useRoot with
  | false => exact ⟨(kalman_std hu h.update).1.2.2.1, (kalman_std hu h.update).1.2.2.2.1⟩
  | true =>
    have := (kalman_root hu h.update).1.2.2.1
    exact ⟨h.noise.square.trans this, this⟩

theorem Ekf.Measured.R_symm {N : Prim K} {e e' : Ekf K} {H R : Mat K} {r : Vec K} (h : Measured N e H r R e') :
    (toM H.rows H.rows R.get)ᵀ = toM H.rows H.rows R.get := by
  rw [← toM_transpose]
  exact toM_eq_iff.2 fun i j hi hj => h.noise.symm j i (by have := h.sizes; omega) (by have := h.sizes; omega)

theorem Ekf.Measured.R_psd {N : Prim K} {e e' : Ekf K} {H R : Mat K} {r : Vec K} (h : Measured N e H r R e') (x : Nat → K) :
    0 ≤ quad H.rows R.get x := h.sizes.1 ▸ h.noise.psd x

theorem areInverse_toM {m : Nat} {A B : Nat → Nat → K} :
    AreInverse m A B ↔ toM m m A * toM m m B = 1 ∧ toM m m B * toM m m A = 1 := by
  rw [← toM_mul, ← toM_mul, ← toM_one]
  simp only [toM_eq_iff, AreInverse]

/-- A measurement whose covariance has an inverse can always be used: the innovation has one too. -/
theorem C86_innovation (N : Prim K) (e e' : Ekf K) (H : Mat K) (r : Vec K) (R : Mat K) (h : Measured N e H r R e')
    (Ri : Nat → Nat → K) (hRi : AreInverse H.rows R.get Ri) :
    ∃ B, AreInverse H.rows (innovation e.cov.rows e.P H R) B := by
  obtain ⟨u, hu⟩ := innovation_unit (toM e.cov.rows e.cov.rows e.P) (toM H.rows e.cov.rows H.get) (toM H.rows H.rows R.get)
    (toM H.rows H.rows Ri) h.R_symm (cov_form h.P_psd) (cov_form h.R_psd) (areInverse_toM.1 hRi).2
  refine ⟨fun i j => if hi : i < H.rows then (if hj : j < H.rows then (↑u⁻¹ : Matrix (Fin H.rows) (Fin H.rows) K) ⟨i, hi⟩ ⟨j, hj⟩ else 0)
    else 0, areInverse_toM.2 ?_⟩
  have e1 : toM H.rows H.rows (innovation e.cov.rows e.P H R) = u := by
    rw [hu, ← toM_congr, ← toM_add]; rfl
  have e2 : ∀ A : Matrix (Fin H.rows) (Fin H.rows) K, toM H.rows H.rows (fun i j => if hi : i < H.rows then
      (if hj : j < H.rows then A ⟨i, hi⟩ ⟨j, hj⟩ else 0) else 0) = A := by
    intro A; funext i j; simp [toM]
  rw [e1, e2]
  exact ⟨u.mul_inv, u.inv_mul⟩

theorem measured_form (N : Prim K) (hN : N.Lawful) (e e' : Ekf K) (H : Mat K) (r : Vec K) (R : Mat K) (h : Measured N e H r R e')
    (B : Nat → Nat → K) (hB : AreInverse H.rows (innovation e.cov.rows e.P H R) B) :
    (e.state.addVec N (correction e.cov.rows H (kalmanGain e.cov.rows e.P H B) r) = .ok e'.state) ∧
    e'.cov.rows = e.cov.rows ∧ e'.useRoot = e.useRoot ∧
    (∀ i j, i < e.cov.rows → j < e.cov.rows →
      e'.P i j = joseph e.cov.rows e.P H R (kalmanGain e.cov.rows e.P H B) i j) := by
  cases hu : e.useRoot with
  | false =>
    have hP : e.P = e.cov.get := by funext i j; simp [Ekf.P, hu]
    rw [hP] at hB ⊢
    obtain ⟨h1, h2, h3, h4, h5⟩ := C10_update N hN.inv e e' H r R hu h.update B hB
    have hu' : e'.useRoot = false := by rw [h5]; exact hu
    exact ⟨h1, h2, hu', fun i j _ _ => by rw [Ekf.P, hu']; exact h4 i j⟩
  | true =>
    have hP : e.P = gram e.cov := by funext i j; simp [Ekf.P, hu]
    rw [hP] at hB ⊢
    obtain ⟨h1, h2, h3, h4, h5, h6⟩ := C11_update_partial N hN.qr hN.inv hN.sqrt e e' H r R hu h.noise.square (h.takes hu)
      (fun i hi => by
        have := h.noise.psd fun k => if k = i then 1 else 0
        simpa [quad, hi] using this) h.update B hB
    have hu' : e'.useRoot = true := by rw [h6]; exact hu
    exact ⟨h1, h2, hu', fun i j hi hj => by rw [Ekf.P, hu']; exact h5 i j hi hj⟩

theorem toM_joseph (n : Nat) (P : Nat → Nat → K) (H R : Mat K) (G : Nat → Nat → K) :
    toM n n (joseph n P H R G) = (1 - toM n H.rows G * toM H.rows n H.get) * toM n n P * (1 - toM n H.rows G * toM H.rows n H.get)ᵀ +
      toM n H.rows G * toM H.rows H.rows R.get * (toM n H.rows G)ᵀ := by
  rw [← toM_mul, ← toM_one, ← toM_sub, ← toM_congr, ← toM_congr, ← toM_add]
  rfl

theorem toM_innov (n : Nat) (P : Nat → Nat → K) (H R : Mat K) :
    toM H.rows H.rows (innovation n P H R) = toM H.rows n H.get * toM n n P * (toM H.rows n H.get)ᵀ + toM H.rows H.rows R.get := by
  rw [← toM_congr, ← toM_add]; rfl

theorem toM_gain (n : Nat) (P : Nat → Nat → K) (H : Mat K) (B : Nat → Nat → K) :
    toM n H.rows (kalmanGain n P H B) = toM n n P * (toM H.rows n H.get)ᵀ * toM H.rows H.rows B := by
  rw [← toM_transpose, ← toM_mul, ← toM_mul]; rfl

theorem toM_info (n : Nat) (H : Mat K) (Ri : Nat → Nat → K) :
    toM n n (congr H.rows (fun i a => H.get a i) Ri) = (toM H.rows n H.get)ᵀ * toM H.rows H.rows Ri * toM H.rows n H.get :=
  toM_congr n H.rows (fun i a => H.get a i) Ri

/-- The update in matrices. -/
theorem measured_matrices (N : Prim K) (hN : N.Lawful) (e e' : Ekf K) (H : Mat K) (r : Vec K) (R : Mat K) (h : Measured N e H r R e')
    (Ri : Nat → Nat → K) (hRi : AreInverse H.rows R.get Ri) :
    e'.cov.rows = e.cov.rows ∧ e'.useRoot = e.useRoot ∧
    ∃ S B : Matrix (Fin H.rows) (Fin H.rows) K,
      S = toM H.rows e.cov.rows H.get * toM e.cov.rows e.cov.rows e.P * (toM H.rows e.cov.rows H.get)ᵀ + toM H.rows H.rows R.get ∧
      S * B = 1 ∧ B * S = 1 ∧
      toM e.cov.rows e.cov.rows e'.P = toM e.cov.rows e.cov.rows e.P *
        (1 - (toM H.rows e.cov.rows H.get)ᵀ * B * toM H.rows e.cov.rows H.get * toM e.cov.rows e.cov.rows e.P) ∧
      ∃ d : Vec K, d.size = e.cov.rows ∧ e.state.addVec N d = .ok e'.state ∧
        (fun i : Fin e.cov.rows => d.get i) = (toM e.cov.rows e.cov.rows e.P * (toM H.rows e.cov.rows H.get)ᵀ * B) *ᵥ
          fun a : Fin H.rows => r.get a := by
  obtain ⟨B, hB⟩ := C86_innovation N e e' H r R h Ri hRi
  obtain ⟨h1, h2, h3, h4⟩ := measured_form N hN e e' H r R h B hB
  have hB' := areInverse_toM.1 hB
  refine ⟨h2, h3, toM H.rows H.rows (innovation e.cov.rows e.P H R), toM H.rows H.rows B, toM_innov _ _ _ _, hB'.1, hB'.2, ?_, _, rfl, h1, ?_⟩
  · rw [toM_eq_iff.2 h4, toM_joseph]
    exact joseph_sub _ _ _ _ _ _ h.P_symm h.R_symm (toM_innov _ _ _ _) hB'.2 (toM_gain _ _ _ _)
  · rw [← toM_gain]
    funext i
    simp only [correction, Matrix.mulVec, dotProduct, toM, Finset.sum_range]

/-! ## The properties -/

/-- Of all gains, the one used leaves the least uncertainty: the variance of every linear combination `x` of the state is at most what
any other gain `G'` would leave. -/
theorem C86_gain (N : Prim K) (hN : N.Lawful) (e e' : Ekf K) (H : Mat K) (r : Vec K) (R : Mat K) (h : Measured N e H r R e')
    (Ri : Nat → Nat → K) (hRi : AreInverse H.rows R.get Ri) (G' : Nat → Nat → K) (x : Nat → K) :
    quad e.cov.rows e'.P x ≤ quad e.cov.rows (joseph e.cov.rows e.P H R G') x := by
  obtain ⟨B, hB⟩ := C86_innovation N e e' H r R h Ri hRi
  obtain ⟨_, _, _, h4⟩ := measured_form N hN e e' H r R h B hB
  have hB' := areInverse_toM.1 hB
  have key := joseph_excess (toM e.cov.rows e.cov.rows e.P) (toM H.rows e.cov.rows H.get) (toM H.rows H.rows R.get)
    (toM H.rows H.rows (innovation e.cov.rows e.P H R)) (toM H.rows H.rows B) (toM e.cov.rows H.rows (kalmanGain e.cov.rows e.P H B))
    (toM e.cov.rows H.rows G') h.P_symm h.R_symm (toM_innov _ _ _ _) hB'.2 (toM_gain _ _ _ _)
  rw [← toM_joseph, ← toM_joseph, ← toM_eq_iff.2 h4, ← toM_sub, ← toM_congr, ← toM_add] at key
  rw [quad_eq_of_toM key, quad_add]
  refine le_add_of_nonneg_right ?_
  rw [quad_congr]
  generalize (fun k => ∑ i ∈ range e.cov.rows, x i * (G' i k - kalmanGain e.cov.rows e.P H B i k)) = y
  have : quad H.rows (innovation e.cov.rows e.P H R) y = quad H.rows (congr e.cov.rows H.get e.P) y + quad H.rows R.get y :=
    quad_add _ _ _ _
  rw [this, quad_congr]
  exact add_nonneg (h.P_psd _) (h.R_psd y)

/-- The correction is the residual, weighed by the certainty of the measurement and the uncertainty that is left. -/
theorem C86_correction (N : Prim K) (hN : N.Lawful) (e e' : Ekf K) (H : Mat K) (r : Vec K) (R : Mat K) (h : Measured N e H r R e')
    (Ri : Nat → Nat → K) (hRi : AreInverse H.rows R.get Ri) :
    ∃ d : Vec K, d.size = e.cov.rows ∧ e.state.addVec N d = .ok e'.state ∧
      ∀ i, i < e.cov.rows → d.get i = weighed e.cov.rows e'.P H Ri r i := by
  obtain ⟨_, _, S, B, hS, hB', hB, hP', d, hd, ha, hv⟩ := measured_matrices N hN e e' H r R h Ri hRi
  refine ⟨d, hd, ha, fun i hi => ?_⟩
  have := congrFun hv ⟨i, hi⟩
  rw [← gather_gain _ _ _ _ _ _ (areInverse_toM.1 hRi).1 hS hB, ← hP', ← Matrix.mulVec_mulVec, ← Matrix.mulVec_mulVec] at this
  refine this.trans ?_
  simp only [weighed, Matrix.mulVec, dotProduct, toM, Finset.sum_range, Matrix.transpose_apply]

/-- What is known adds up: if the covariance before has an inverse, then the one after has the inverse `P⁻¹ + Hᵀ R⁻¹ H`. -/
theorem C86_information (N : Prim K) (hN : N.Lawful) (e e' : Ekf K) (H : Mat K) (r : Vec K) (R : Mat K) (h : Measured N e H r R e')
    (Ri : Nat → Nat → K) (hRi : AreInverse H.rows R.get Ri) (Pi : Nat → Nat → K) (hPi : AreInverse e.cov.rows e.P Pi) :
    AreInverse e.cov.rows e'.P (information Pi H Ri) := by
  obtain ⟨_, _, S, B, hS, hB', hB, hP', _⟩ := measured_matrices N hN e e' H r R h Ri hRi
  have hg := gather_mul (toM e.cov.rows e.cov.rows e.P) _ _ _ S B (areInverse_toM.1 hRi).2 hS hB'
  rw [← hP'] at hg
  have hPi' := areInverse_toM.1 hPi
  have e1 : toM e.cov.rows e.cov.rows (information Pi H Ri) = toM e.cov.rows e.cov.rows Pi +
      (toM H.rows e.cov.rows H.get)ᵀ * toM H.rows H.rows Ri * toM H.rows e.cov.rows H.get := by
    rw [← toM_info, ← toM_add]; rfl
  have e2 : toM e.cov.rows e.cov.rows e'.P * toM e.cov.rows e.cov.rows (information Pi H Ri) = 1 := by
    rw [e1]
    have : toM e.cov.rows e.cov.rows Pi + (toM H.rows e.cov.rows H.get)ᵀ * toM H.rows H.rows Ri * toM H.rows e.cov.rows H.get =
        (1 + (toM H.rows e.cov.rows H.get)ᵀ * toM H.rows H.rows Ri * toM H.rows e.cov.rows H.get * toM e.cov.rows e.cov.rows e.P) *
          toM e.cov.rows e.cov.rows Pi := by
      rw [Matrix.add_mul, Matrix.one_mul, Matrix.mul_assoc _ (toM e.cov.rows e.cov.rows e.P), hPi'.1, Matrix.mul_one]
    rw [this, ← Matrix.mul_assoc, hg, hPi'.1]
  exact areInverse_toM.2 ⟨e2, mul_eq_one_comm.1 e2⟩

theorem toM_allowed (n : Nat) (P : Nat → Nat → K) (y : Nat → K) :
    (fun i : Fin n => allowed n P y i) = toM n n P *ᵥ fun i => y i := by
  funext i
  simp only [allowed, Matrix.mulVec, dotProduct, toM, Finset.sum_range]

theorem toM_allowedCost (n : Nat) (P : Nat → Nat → K) (H : Mat K) (Ri : Nat → Nat → K) (r : Vec K) (y : Nat → K) :
    allowedCost n P H Ri r y = (fun i : Fin n => y i) ⬝ᵥ toM n n P *ᵥ (fun i : Fin n => y i) +
      ((fun a : Fin H.rows => r.get a) - (toM H.rows n H.get * toM n n P) *ᵥ fun i => y i) ⬝ᵥ toM H.rows H.rows Ri *ᵥ
        ((fun a : Fin H.rows => r.get a) - (toM H.rows n H.get * toM n n P) *ᵥ fun i => y i) := by
  have e1 : (fun a : Fin H.rows => r.get a - ∑ k ∈ range n, H.get a k * allowed n P y k) =
      (fun a : Fin H.rows => r.get a) - (toM H.rows n H.get * toM n n P) *ᵥ fun i => y i := by
    rw [← Matrix.mulVec_mulVec, ← toM_allowed]
    funext a
    simp only [Pi.sub_apply, Matrix.mulVec, dotProduct, toM, Finset.sum_range]
  unfold allowedCost
  rw [quad_toM, quad_toM, e1]

theorem extend_fin {n : Nat} (x : Fin n → K) : (fun i : Fin n => (fun k : Nat => if h : k < n then x ⟨k, h⟩ else 0) i) = x := by
  funext i; simp

/-- The correction is the best compromise between the estimate and the measurement: among all corrections `P y` that the uncertainty of
the estimate allows it has the least cost, and no other has that cost. -/
theorem C86_least_squares (N : Prim K) (hN : N.Lawful) (e e' : Ekf K) (H : Mat K) (r : Vec K) (R : Mat K) (h : Measured N e H r R e')
    (Ri : Nat → Nat → K) (hRi : AreInverse H.rows R.get Ri) :
    ∃ (d : Vec K) (y : Nat → K), d.size = e.cov.rows ∧ e.state.addVec N d = .ok e'.state ∧
      (∀ i, i < e.cov.rows → d.get i = allowed e.cov.rows e.P y i) ∧
      (∀ z, allowedCost e.cov.rows e.P H Ri r y ≤ allowedCost e.cov.rows e.P H Ri r z) ∧
      ∀ z, allowedCost e.cov.rows e.P H Ri r z = allowedCost e.cov.rows e.P H Ri r y →
        ∀ i, i < e.cov.rows → allowed e.cov.rows e.P z i = d.get i := by
  obtain ⟨_, _, S, B, hS, hB', hB, hP', d, hd, ha, hv⟩ := measured_matrices N hN e e' H r R h Ri hRi
  have hRi' := areInverse_toM.1 hRi
  have hp := cov_form h.P_psd
  have hPs := h.P_symm
  have hri := inverse_form _ _ h.R_symm (cov_form h.R_psd) hRi'.1
  set n := e.cov.rows
  set P := toM n n e.P
  set A := toM H.rows n H.get
  set Q := toM H.rows H.rows Ri
  set ρ : Fin H.rows → K := fun a => r.get a
  set y : Nat → K := fun k => if h : k < n then ((Aᵀ * B) *ᵥ ρ) ⟨k, h⟩ else 0 with hy
  have hyf : (fun i : Fin n => y i) = (Aᵀ * B) *ᵥ ρ := extend_fin _
  have hdy : ∀ i, i < n → d.get i = allowed n e.P y i := by
    intro i hi
    have h1 := congrFun hv ⟨i, hi⟩
    have h2 := congrFun (toM_allowed n e.P y) ⟨i, hi⟩
    rw [hyf, Matrix.mulVec_mulVec, ← Matrix.mul_assoc] at h2
    exact h1.trans h2.symm
  have hnorm : (P + (A * P)ᵀ * Q * (A * P)) *ᵥ (fun i : Fin n => y i) = ((A * P)ᵀ * Q) *ᵥ ρ := by
    have hg := gather_normal P A _ Q S B hRi'.2 hS hB'
    rw [hyf, Matrix.mulVec_mulVec]
    congr 1
    rw [Matrix.transpose_mul, hPs]
    calc (P + P * Aᵀ * Q * (A * P)) * (Aᵀ * B) = P * ((1 + Aᵀ * Q * A * P) * (Aᵀ * B)) := by
          rw [← Matrix.mul_assoc P, Matrix.mul_add, Matrix.mul_one]; simp only [Matrix.mul_assoc]
      _ = P * Aᵀ * Q := by rw [hg, Matrix.mul_assoc]
  have hcost : ∀ z, allowedCost n e.P H Ri r z = allowedCost n e.P H Ri r y +
      (((fun i : Fin n => z i) - fun i : Fin n => y i) ⬝ᵥ P *ᵥ ((fun i : Fin n => z i) - fun i : Fin n => y i) +
       ((A * P) *ᵥ ((fun i : Fin n => z i) - fun i : Fin n => y i)) ⬝ᵥ Q *ᵥ
        ((A * P) *ᵥ ((fun i : Fin n => z i) - fun i : Fin n => y i))) := by
    intro z
    have hsq := cost_square P (A * P) Q hPs hri.1 ρ (fun i : Fin n => y i) ((fun i : Fin n => z i) - fun i : Fin n => y i) hnorm
    rw [add_sub_cancel] at hsq
    rw [toM_allowedCost, toM_allowedCost]
    refine hsq.trans ?_
    congr 1
    rw [Matrix.add_mulVec, dotProduct_add]
    congr 1
    rw [Matrix.mul_assoc, ← Matrix.mulVec_mulVec, Matrix.dotProduct_mulVec _ (A * P)ᵀ, Matrix.vecMul_transpose]
    simp only [← Matrix.mulVec_mulVec]
  refine ⟨d, y, hd, ha, hdy, fun z => ?_, fun z hz i hi => ?_⟩
  · rw [hcost z]
    exact le_add_of_nonneg_right (add_nonneg (hp _) (hri.2 _))
  · rw [hcost z] at hz
    have h0 : ((fun i : Fin n => z i) - fun i : Fin n => y i) ⬝ᵥ P *ᵥ ((fun i : Fin n => z i) - fun i : Fin n => y i) = 0 := by
      have h1 := hp ((fun i : Fin n => z i) - fun i : Fin n => y i)
      have h2 := hri.2 ((A * P) *ᵥ ((fun i : Fin n => z i) - fun i : Fin n => y i))
      linarith
    have h1 := form_zero P hPs hp _ h0
    rw [Matrix.mulVec_sub, sub_eq_zero, ← toM_allowed, ← toM_allowed] at h1
    rw [hdy i hi]
    exact congrFun h1 ⟨i, hi⟩

/-- The same if the covariance has an inverse: among all corrections. -/
theorem C86_least_squares_all (N : Prim K) (hN : N.Lawful) (e e' : Ekf K) (H : Mat K) (r : Vec K) (R : Mat K) (h : Measured N e H r R e')
    (Ri : Nat → Nat → K) (hRi : AreInverse H.rows R.get Ri) (Pi : Nat → Nat → K) (hPi : AreInverse e.cov.rows e.P Pi) :
    ∃ d : Vec K, d.size = e.cov.rows ∧ e.state.addVec N d = .ok e'.state ∧
      (∀ δ, updateCost e.cov.rows Pi H Ri r d.get ≤ updateCost e.cov.rows Pi H Ri r δ) ∧
      ∀ δ, updateCost e.cov.rows Pi H Ri r δ = updateCost e.cov.rows Pi H Ri r d.get → ∀ i, i < e.cov.rows → δ i = d.get i := by
  obtain ⟨d, y, hd, ha, hdy, hmin, huniq⟩ := C86_least_squares N hN e e' H r R h Ri hRi
  have hPi' := areInverse_toM.1 hPi
  have hback : ∀ δ : Nat → K, ∀ i, i < e.cov.rows → allowed e.cov.rows e.P (allowed e.cov.rows Pi δ) i = δ i := by
    intro δ i hi
    have := congrFun (toM_allowed e.cov.rows e.P (allowed e.cov.rows Pi δ)) ⟨i, hi⟩
    rw [toM_allowed, Matrix.mulVec_mulVec, hPi'.1, Matrix.one_mulVec] at this
    exact this
  have hform : ∀ δ z : Nat → K, (∀ i, i < e.cov.rows → allowed e.cov.rows e.P z i = δ i) →
      allowedCost e.cov.rows e.P H Ri r z = updateCost e.cov.rows Pi H Ri r δ := by
    intro δ z hz
    have hδ : (fun i : Fin e.cov.rows => δ i) = toM e.cov.rows e.cov.rows e.P *ᵥ fun i => z i := by
      rw [← toM_allowed]; funext i; exact (hz i i.2).symm
    unfold allowedCost updateCost
    congr 1
    · rw [quad_toM, quad_toM, hδ, Matrix.mulVec_mulVec, hPi'.2, Matrix.one_mulVec, dotProduct_comm]
    · congr 1
      funext a
      congr 1
      exact sum_congr rfl fun k hk => by rw [hz k (mem_range.1 hk)]
  have hd' := hform d.get y fun i hi => (hdy i hi).symm
  refine ⟨d, hd, ha, fun δ => ?_, fun δ he i hi => ?_⟩
  · rw [← hd', ← hform δ _ (hback δ)]; exact hmin _
  · rw [← hd', ← hform δ _ (hback δ)] at he
    rw [← huniq _ he i hi, hback δ i hi]

/-! ## Two measurements -/

theorem measured_after {N : Prim K} {e e' e'' : Ekf K} {H R H' R' : Mat K} {r r' : Vec K} (h : Measured N e H r R e')
    (hu : e'.useRoot = e.useRoot) (hn : R'.IsCov) (ht : e.useRoot = true → R'.Diagonal) (h' : kalmanUpdate N e' H' r' R' = .ok e'') :
    Measured N e' H' r' R' e'' :=
  ⟨fun h0 => C10_psd N e e' H r R (hu ▸ h0) (h.cov (hu ▸ h0)) h.noise h.update, hn, fun h0 => ht (hu ▸ h0), h'⟩

/-- What the covariance is after two updates in a row. -/
theorem measured_twice (N : Prim K) (hN : N.Lawful) (e e₁ e₁₂ : Ekf K) (H₁ R₁ H₂ R₂ : Mat K) (r₁ r₂ : Vec K)
    (h₁ : Measured N e H₁ r₁ R₁ e₁) (h₁₂ : Measured N e₁ H₂ r₂ R₂ e₁₂)
    (Ri₁ Ri₂ : Nat → Nat → K) (hRi₁ : AreInverse H₁.rows R₁.get Ri₁) (hRi₂ : AreInverse H₂.rows R₂.get Ri₂) :
    let n := e.cov.rows
    let J₁ := (toM H₁.rows n H₁.get)ᵀ * toM H₁.rows H₁.rows Ri₁ * toM H₁.rows n H₁.get
    let J₂ := (toM H₂.rows n H₂.get)ᵀ * toM H₂.rows H₂.rows Ri₂ * toM H₂.rows n H₂.get
    toM n n e₁₂.P * (1 + (J₁ + J₂) * toM n n e.P) = toM n n e.P ∧ IsUnit (1 + (J₁ + J₂) * toM n n e.P) ∧
    toM n n e₁.P - toM n n e₁₂.P * J₂ * toM n n e₁.P = toM n n e₁₂.P := by
  obtain ⟨hn, _, S₁, B₁, hS₁, hB₁', hB₁, hP₁, _⟩ := measured_matrices N hN e e₁ H₁ r₁ R₁ h₁ Ri₁ hRi₁
  obtain ⟨_, _, S₂, B₂, hS₂, hB₂', hB₂, hP₂, _⟩ := measured_matrices N hN e₁ e₁₂ H₂ r₂ R₂ h₁₂ Ri₂ hRi₂
  intro n J₁ J₂
  rw [hn] at hS₂ hP₂
  have g₁ := gather_mul _ _ _ _ S₁ B₁ (areInverse_toM.1 hRi₁).2 hS₁ hB₁'
  have g₂ := gather_mul _ _ _ _ S₂ B₂ (areInverse_toM.1 hRi₂).2 hS₂ hB₂'
  have u₁ := gather_inv _ _ _ _ S₁ B₁ (areInverse_toM.1 hRi₁).2 hS₁ hB₁'
  have u₂ := gather_inv _ _ _ _ S₂ B₂ (areInverse_toM.1 hRi₂).2 hS₂ hB₂'
  rw [← hP₁] at g₁
  rw [← hP₂] at g₂
  refine ⟨gather_twice _ _ _ _ _ g₁ g₂, gather_unit _ _ _ _ g₁ (IsUnit.of_mul_eq_one _ u₁) (IsUnit.of_mul_eq_one _ u₂), ?_⟩
  rw [Matrix.mul_add, Matrix.mul_one, ← Matrix.mul_assoc] at g₂
  exact sub_eq_iff_eq_add.2 g₂.symm

/-- The order of two measurements does not matter for the covariance, whatever their residuals. -/
theorem C86_order (N : Prim K) (hN : N.Lawful) (e e₁ e₁₂ e₂ e₂₁ : Ekf K) (H₁ R₁ H₂ R₂ : Mat K) (r₁ r₂ r₁' r₂' : Vec K)
    (h₁ : Measured N e H₁ r₁ R₁ e₁) (h₁₂ : kalmanUpdate N e₁ H₂ r₂' R₂ = .ok e₁₂)
    (h₂ : Measured N e H₂ r₂ R₂ e₂) (h₂₁ : kalmanUpdate N e₂ H₁ r₁' R₁ = .ok e₂₁)
    (Ri₁ Ri₂ : Nat → Nat → K) (hRi₁ : AreInverse H₁.rows R₁.get Ri₁) (hRi₂ : AreInverse H₂.rows R₂.get Ri₂)
    (i j : Nat) (hi : i < e.cov.rows) (hj : j < e.cov.rows) : e₁₂.P i j = e₂₁.P i j := by
  have k₁ := measured_after h₁ (measured_matrices N hN e e₁ H₁ r₁ R₁ h₁ Ri₁ hRi₁).2.1 h₂.noise h₂.takes h₁₂
  have k₂ := measured_after h₂ (measured_matrices N hN e e₂ H₂ r₂ R₂ h₂ Ri₂ hRi₂).2.1 h₁.noise h₁.takes h₂₁
  obtain ⟨a₁, u₁, _⟩ := measured_twice N hN e e₁ e₁₂ H₁ R₁ H₂ R₂ r₁ r₂' h₁ k₁ Ri₁ Ri₂ hRi₁ hRi₂
  obtain ⟨a₂, _, _⟩ := measured_twice N hN e e₂ e₂₁ H₂ R₂ H₁ R₁ r₂ r₁' h₂ k₂ Ri₂ Ri₁ hRi₂ hRi₁
  exact toM_eq_iff.1 (gather_unique u₁ a₁ (by rw [add_comm (_ * _ * _) (_ * _ * _)] at a₂; exact a₂)) i j hi hj

/-- What a list of measurements says, in a given number of dimensions. -/
noncomputable def gathered (n : Nat) (ms : List (Mat K × Mat K × (Nat → Nat → K))) : Matrix (Fin n) (Fin n) K :=
  (ms.map fun m => (toM m.1.rows n m.1.get)ᵀ * toM m.1.rows m.1.rows m.2.2 * toM m.1.rows n m.1.get).sum

theorem measured_all (N : Prim K) (hN : N.Lawful) (ms : List (Mat K × Mat K × (Nat → Nat → K))) :
    ∀ (e e' : Ekf K) (rs : List (Vec K)), (e.useRoot = false → e.cov.IsCov) →
    (∀ m ∈ ms, m.2.1.IsCov ∧ (e.useRoot = true → m.2.1.Diagonal) ∧ AreInverse m.1.rows m.2.1.get m.2.2) →
    e.measureAll N (ms.map fun m => (m.1, m.2.1)) rs = .ok e' →
    e'.cov.rows = e.cov.rows ∧
    toM e.cov.rows e.cov.rows e'.P * (1 + gathered e.cov.rows ms * toM e.cov.rows e.cov.rows e.P) = toM e.cov.rows e.cov.rows e.P ∧
    IsUnit (1 + gathered e.cov.rows ms * toM e.cov.rows e.cov.rows e.P) := by
  induction ms with
  | nil =>
    intro e e' rs _ _ h
    cases rs with
    | nil =>
      cases h
      simp [gathered]
    | cons _ _ => cases h
  | cons m ms ih =>
    intro e e' rs hc hm h
    cases rs with
    | nil => cases h
    | cons r rs =>
      simp only [List.map_cons, measureAll, bind_ok_iff] at h
      obtain ⟨e₁, h₁, h₂⟩ := h
      have hm0 := hm m (by simp)
      have m₁ : Measured N e m.1 r m.2.1 e₁ := ⟨hc, hm0.1, hm0.2.1, h₁⟩
      obtain ⟨hn, hu, S, B, hS, hB', hB, hP, _⟩ := measured_matrices N hN e e₁ _ _ _ m₁ _ hm0.2.2
      have g := gather_mul _ _ _ _ S B (areInverse_toM.1 hm0.2.2).2 hS hB'
      have u := gather_inv _ _ _ _ S B (areInverse_toM.1 hm0.2.2).2 hS hB'
      rw [← hP] at g
      obtain ⟨k1, k2, k3⟩ := ih e₁ e' rs
        (fun h0 => C10_psd N e e₁ _ _ _ (hu ▸ h0) (hc (hu ▸ h0)) hm0.1 h₁)
        (fun x hx => by rw [hu]; exact hm x (by simp [hx])) h₂
      rw [hn] at k1 k2 k3
      exact ⟨k1, gather_twice _ _ _ _ _ g k2, gather_unit _ _ _ _ g (IsUnit.of_mul_eq_one _ u) k3⟩

/-- The order of any number of measurements does not matter for the covariance, whatever their residuals. -/
theorem C86_orders (N : Prim K) (hN : N.Lawful) (e e₁ e₂ : Ekf K) (ms ms' : List (Mat K × Mat K)) (rs rs' : List (Vec K))
    (hp : ms.Perm ms') (hc : e.useRoot = false → e.cov.IsCov)
    (hm : ∀ m ∈ ms, m.2.IsCov ∧ (e.useRoot = true → m.2.Diagonal) ∧ ∃ Ri, AreInverse m.1.rows m.2.get Ri)
    (h₁ : e.measureAll N ms rs = .ok e₁) (h₂ : e.measureAll N ms' rs' = .ok e₂)
    (i j : Nat) (hi : i < e.cov.rows) (hj : j < e.cov.rows) : e₁.P i j = e₂.P i j := by
  classical
  let f : Mat K × Mat K → Mat K × Mat K × (Nat → Nat → K) := fun m =>
    (m.1, m.2, if h : ∃ Ri, AreInverse m.1.rows m.2.get Ri then h.choose else fun _ _ => 0)
  have hf : ∀ l : List (Mat K × Mat K), (l.map f).map (fun m => (m.1, m.2.1)) = l := by
    intro l; rw [List.map_map]; exact List.map_id' l
  have hq : ∀ m ∈ ms, (f m).2.1.IsCov ∧ (e.useRoot = true → (f m).2.1.Diagonal) ∧ AreInverse (f m).1.rows (f m).2.1.get (f m).2.2 := by
    intro m hm'
    obtain ⟨a, b, c⟩ := hm m hm'
    refine ⟨a, b, ?_⟩
    show AreInverse m.1.rows m.2.get (if h : ∃ Ri, AreInverse m.1.rows m.2.get Ri then h.choose else fun _ _ => 0)
    rw [dif_pos c]
    exact c.choose_spec
  obtain ⟨_, a₁, u⟩ := measured_all N hN (ms.map f) e e₁ rs hc
    (fun m hm' => by obtain ⟨x, hx, rfl⟩ := List.mem_map.1 hm'; exact hq x hx) (by rw [hf]; exact h₁)
  obtain ⟨_, a₂, _⟩ := measured_all N hN (ms'.map f) e e₂ rs' hc
    (fun m hm' => by obtain ⟨x, hx, rfl⟩ := List.mem_map.1 hm'; exact hq x (hp.mem_iff.2 hx)) (by rw [hf]; exact h₂)
  have hs : gathered e.cov.rows (ms.map f) = gathered e.cov.rows (ms'.map f) := ((hp.map f).map _).sum_eq
  rw [← hs] at a₂
  exact toM_eq_iff.1 (gather_unique u a₁ a₂) i j hi hj

theorem sum_blocks_left (m₁ m₂ : Nat) (A B : Nat → Nat → K) (f : Nat → K) {i : Nat} (hi : i < m₁) :
    ∑ k ∈ range (m₁ + m₂), blocks m₁ A B i k * f k = ∑ k ∈ range m₁, A i k * f k := by
  rw [sum_range_add, sum_eq_zero (s := range m₂), add_zero]
  · exact sum_congr rfl fun k hk => by simp [blocks, hi, mem_range.1 hk]
  · intro k _; simp [blocks, hi]

theorem sum_blocks_right (m₁ m₂ : Nat) (A B : Nat → Nat → K) (f : Nat → K) (i : Nat) :
    ∑ k ∈ range (m₁ + m₂), blocks m₁ A B (m₁ + i) k * f k = ∑ k ∈ range m₂, B i k * f (m₁ + k) := by
  rw [sum_range_add, sum_eq_zero (s := range m₁), zero_add]
  · exact sum_congr rfl fun k _ => by simp [blocks]
  · intro k hk; simp [blocks, mem_range.1 hk]

theorem inverse_blocks {m₁ m₂ : Nat} {A A' B B' : Nat → Nat → K} (hA : AreInverse m₁ A A') (hB : AreInverse m₂ B B') :
    AreInverse (m₁ + m₂) (blocks m₁ A B) (blocks m₁ A' B') := by
  have key : ∀ {A A' B B' : Nat → Nat → K},
      (∀ i j, i < m₁ → j < m₁ → ∑ k ∈ range m₁, A i k * A' k j = if i = j then 1 else 0) →
      (∀ i j, i < m₂ → j < m₂ → ∑ k ∈ range m₂, B i k * B' k j = if i = j then 1 else 0) →
      ∀ i j, i < m₁ + m₂ → j < m₁ + m₂ → ∑ k ∈ range (m₁ + m₂), blocks m₁ A B i k * blocks m₁ A' B' k j = if i = j then 1 else 0 := by
    intro A A' B B' hA hB i j hi hj
    by_cases h : i < m₁
    · rw [sum_blocks_left _ _ _ _ _ h]
      by_cases h' : j < m₁
      · rw [← hA i j h h']
        exact sum_congr rfl fun k hk => by simp [blocks, mem_range.1 hk, h']
      · rw [if_neg (by omega)]
        exact sum_eq_zero fun k hk => by simp [blocks, mem_range.1 hk, h']
    · obtain ⟨i, rfl⟩ : ∃ l, i = m₁ + l := ⟨i - m₁, by omega⟩
      rw [sum_blocks_right]
      by_cases h' : j < m₁
      · rw [if_neg (by omega)]
        exact sum_eq_zero fun k hk => by simp [blocks, h']
      · obtain ⟨j, rfl⟩ : ∃ l, j = m₁ + l := ⟨j - m₁, by omega⟩
        have := hB i j (by omega) (by omega)
        simp only [Nat.add_left_cancel_iff]
        rw [← this]
        exact sum_congr rfl fun k hk => by simp [blocks]
  exact ⟨key hA.1 hB.1, key hA.2 hB.2⟩

theorem beside_get (A B : Mat K) (h : A.rows = A.cols) : (A.beside B).get = blocks A.rows A.get B.get := by
  funext i j
  simp only [Mat.beside, blocks, ← h]

theorem info_above (H₁ H₂ : Mat K) (Ri₁ Ri₂ : Nat → Nat → K) (i j : Nat) :
    congr (H₁.above H₂).rows (fun i a => (H₁.above H₂).get a i) (blocks H₁.rows Ri₁ Ri₂) i j =
      congr H₁.rows (fun i a => H₁.get a i) Ri₁ i j + congr H₂.rows (fun i a => H₂.get a i) Ri₂ i j := by
  have e1 : ∀ (m : Nat) (T A : Nat → Nat → K) (i j : Nat), congr m T A i j = ∑ k ∈ range m, T i k * ∑ l ∈ range m, A k l * T j l := by
    intro m T A i j
    unfold congr
    exact sum_congr rfl fun k _ => by rw [mul_sum]; exact sum_congr rfl fun l _ => by ring
  rw [e1, e1, e1]
  show ∑ k ∈ range (H₁.rows + H₂.rows), _ = _
  rw [sum_range_add]
  congr 1
  · refine sum_congr rfl fun k hk => ?_
    show (H₁.above H₂).get k i * ∑ l ∈ range (H₁.rows + H₂.rows), _ = _
    rw [sum_blocks_left _ _ _ _ _ (mem_range.1 hk)]
    congr 1
    · simp [Mat.above, mem_range.1 hk]
    · exact sum_congr rfl fun l hl => by simp [Mat.above, mem_range.1 hl]
  · refine sum_congr rfl fun k hk => ?_
    show (H₁.above H₂).get (H₁.rows + k) i * ∑ l ∈ range (H₁.rows + H₂.rows), _ = _
    rw [sum_blocks_right]
    congr 1
    · simp [Mat.above]
    · exact sum_congr rfl fun l hl => by simp [Mat.above]

theorem weighed_above (n : Nat) (P : Nat → Nat → K) (H₁ H₂ : Mat K) (Ri₁ Ri₂ : Nat → Nat → K) (r₁ r₂ : Vec K) (hr : r₁.size = H₁.rows)
    (i : Nat) : weighed n P (H₁.above H₂) (blocks H₁.rows Ri₁ Ri₂) (r₁.andThen r₂) i =
      weighed n P H₁ Ri₁ r₁ i + weighed n P H₂ Ri₂ r₂ i := by
  unfold weighed
  rw [← sum_add_distrib]
  refine sum_congr rfl fun k _ => ?_
  rw [← mul_add]
  congr 1
  show ∑ a ∈ range (H₁.rows + H₂.rows), (H₁.above H₂).get a k * ∑ b ∈ range (H₁.rows + H₂.rows), _ = _
  rw [sum_range_add]
  congr 1
  · refine sum_congr rfl fun a ha => ?_
    rw [sum_blocks_left _ _ _ _ _ (mem_range.1 ha)]
    congr 1
    · simp [Mat.above, mem_range.1 ha]
    · exact sum_congr rfl fun b hb => by simp [Vec.andThen, hr, mem_range.1 hb]
  · refine sum_congr rfl fun a _ => ?_
    rw [sum_blocks_right]
    congr 1
    · simp [Mat.above]
    · exact sum_congr rfl fun b hb => by simp [Vec.andThen, hr]

theorem toM_weighed (n : Nat) (P : Nat → Nat → K) (H : Mat K) (Ri : Nat → Nat → K) (r : Vec K) :
    (fun i : Fin n => weighed n P H Ri r i) = toM n n P *ᵥ ((toM H.rows n H.get)ᵀ * toM H.rows H.rows Ri) *ᵥ fun a => r.get a := by
  rw [← Matrix.mulVec_mulVec]
  funext i
  simp only [weighed, Matrix.mulVec, dotProduct, toM, Finset.sum_range, Matrix.transpose_apply]

/-- Two measurements with independent errors may be used one after the other or together: the covariance is the same, and if the second
residual is taken relative to the corrected estimate, the corrections add up to the same. -/
theorem C86_together (N : Prim K) (hN : N.Lawful) (e e₁ e₁₂ e' : Ekf K) (H₁ R₁ H₂ R₂ : Mat K) (r₁ r₂ r₂' : Vec K)
    (h₁ : Measured N e H₁ r₁ R₁ e₁) (h₁₂ : Measured N e₁ H₂ r₂' R₂ e₁₂)
    (h' : Measured N e (H₁.above H₂) (r₁.andThen r₂) (R₁.beside R₂) e')
    (Ri₁ Ri₂ : Nat → Nat → K) (hRi₁ : AreInverse H₁.rows R₁.get Ri₁) (hRi₂ : AreInverse H₂.rows R₂.get Ri₂) :
    (∀ i j, i < e.cov.rows → j < e.cov.rows → e₁₂.P i j = e'.P i j) ∧
    ((∀ a, a < H₂.rows → r₂'.get a = r₂.get a - ∑ k ∈ range e.cov.rows, H₂.get a k * weighed e.cov.rows e₁.P H₁ Ri₁ r₁ k) →
      ∀ i, i < e.cov.rows → weighed e.cov.rows e₁.P H₁ Ri₁ r₁ i + weighed e.cov.rows e₁₂.P H₂ Ri₂ r₂' i =
        weighed e.cov.rows e'.P (H₁.above H₂) (blocks H₁.rows Ri₁ Ri₂) (r₁.andThen r₂) i) := by
  have hRi : AreInverse (H₁.above H₂).rows (R₁.beside R₂).get (blocks H₁.rows Ri₁ Ri₂) := by
    have := inverse_blocks hRi₁ hRi₂
    rwa [beside_get _ _ h₁.noise.square, h₁.sizes.1]
  obtain ⟨a₁, u₁, c₁⟩ := measured_twice N hN e e₁ e₁₂ H₁ R₁ H₂ R₂ r₁ r₂' h₁ h₁₂ Ri₁ Ri₂ hRi₁ hRi₂
  obtain ⟨_, _, S, B, hS, hB', hB, hP', _⟩ := measured_matrices N hN e e' _ _ _ h' _ hRi
  have g := gather_mul _ _ _ _ S B (areInverse_toM.1 hRi).2 hS hB'
  rw [← hP', ← toM_info, toM_eq_iff.2 fun i j _ _ => info_above H₁ H₂ Ri₁ Ri₂ i j, toM_add, toM_info, toM_info] at g
  have hP := gather_unique u₁ a₁ g
  refine ⟨toM_eq_iff.1 hP, fun hr i hi => ?_⟩
  have hsz : r₁.size = H₁.rows := by
    cases hu : e.useRoot with
    | false => exact (kalman_std hu h₁.update).1.2.2.2.2
    | true => exact (kalman_root hu h₁.update).1.2.2.2
  rw [weighed_above _ _ _ _ _ _ _ _ hsz]
  have e2 : (fun a : Fin H₂.rows => r₂'.get a) = (fun a : Fin H₂.rows => r₂.get a) -
      toM H₂.rows e.cov.rows H₂.get *ᵥ fun k : Fin e.cov.rows => weighed e.cov.rows e₁.P H₁ Ri₁ r₁ k := by
    funext a
    rw [hr a a.2]
    simp only [Pi.sub_apply, Matrix.mulVec, dotProduct, toM, Finset.sum_range]
  have w₁ := toM_weighed e.cov.rows e₁.P H₁ Ri₁ r₁
  have w₂ := toM_weighed e.cov.rows e₁₂.P H₂ Ri₂ r₂'
  have w₃ := toM_weighed e.cov.rows e'.P H₁ Ri₁ r₁
  have w₄ := toM_weighed e.cov.rows e'.P H₂ Ri₂ r₂
  rw [e2, w₁] at w₂
  rw [← hP] at w₃ w₄
  have key : (fun i : Fin e.cov.rows => weighed e.cov.rows e₁.P H₁ Ri₁ r₁ i) + (fun i : Fin e.cov.rows => weighed e.cov.rows e₁₂.P H₂ Ri₂ r₂' i)
      = (fun i : Fin e.cov.rows => weighed e.cov.rows e'.P H₁ Ri₁ r₁ i) + fun i : Fin e.cov.rows => weighed e.cov.rows e'.P H₂ Ri₂ r₂ i := by
    have cu := _root_.congrArg (fun A => A *ᵥ ((toM H₁.rows e.cov.rows H₁.get)ᵀ * toM H₁.rows H₁.rows Ri₁) *ᵥ fun a : Fin H₁.rows => r₁.get a)
      c₁.symm
    rw [Matrix.sub_mulVec] at cu
    rw [w₁, w₂, w₃, w₄, cu]
    simp only [Matrix.mulVec_sub, Matrix.mulVec_mulVec, Matrix.mul_assoc]
    abel
  exact congrFun key ⟨i, hi⟩

/-! ## Examples -/

theorem realPrim_lawful : realPrim.Lawful := ⟨realPrim_qr, realPrim_inv, realPrim_sqrt⟩

theorem kalman_again {e e' : Ekf ℝ} {H R H' R' : Mat ℝ} {r r' : Vec ℝ} (hi : Inv e) (h : kalmanUpdate realPrim e H r R = .ok e')
    (h1 : H'.cols = e.stateSize) (h2 : R'.rows = H'.rows) (h3 : R'.cols = H'.rows) (h4 : r'.size = H'.rows) :
    ∃ e'', kalmanUpdate realPrim e' H' r' R' = .ok e'' := by
  have hi' := inv_kalmanUpdate hi h
  refine kalman_defined realPrim e' H' r' R' hi' ?_ h2 h3 h4
  rw [h1, ← hi.covRows, ← hi'.covRows]
  cases hu : e.useRoot with
  | false =>
    obtain ⟨_, G, s, c, rfl, _, _, _, _, hr, _⟩ := kalman_std hu h
    exact hr.symm
  | true =>
    obtain ⟨_, L, I, G, s, L2, M2, c, rfl, _, _, _, _, _, _, _, _, _, hr, _⟩ := kalman_root hu h
    exact hr.symm

/-- Two positions with correlated errors, then one velocity. -/
def C86_params : EkfParams ℝ := { C11_params with useRoot := false }
def C86_H : Mat ℝ := ⟨1, 18, fun _ k => if k = 3 then 1 else 0⟩
def C86_r : Vec ℝ := ⟨1, fun _ => 1⟩

theorem sample_C86_cov : (init realPrim C86_params).cov.IsCov :=
  (covInv_init realPrim C86_params rfl fun _ _ => by simp [C86_params, C11_params]).cov

theorem sample_C86_one : (Mat.identity 1 1 : Mat ℝ).IsCov where
  square := rfl
  symm := by intro i j _ _; simp only [Mat.identity, eq_comm]
  psd := by intro x; simp [quad, Mat.identity]; exact mul_self_nonneg _

theorem sample_C86_three : (C11_R.beside (Mat.identity 1 1)).IsCov where
  square := rfl
  symm := by
    intro i j hi hj
    have hi : i < 3 := hi
    have hj : j < 3 := hj
    interval_cases i <;> interval_cases j <;> simp [Mat.beside, C11_R, Mat.identity]
  psd := by
    intro x
    simp [quad, C11_R, Mat.beside, Mat.identity, sum_range_succ]
    nlinarith [sq_nonneg (x 0 + x 1), sq_nonneg (x 0), sq_nonneg (x 1), sq_nonneg (x 2)]

theorem sample_C86_inverse : AreInverse 2 C11_R.get (inv2 4 1) :=
  areInverse_inv2 _ _ _ (by norm_num) fun i j _ _ => by simp [C11_R]

theorem sample_C86_unit : AreInverse 1 (Mat.identity 1 1 : Mat ℝ).get (fun _ _ => 1) := by
  constructor <;>
  · intro i j hi hj
    obtain rfl : i = 0 := by omega
    obtain rfl : j = 0 := by omega
    simp [Mat.identity]

/-- Two measurements, in both orders and together, in standard form: the hypotheses hold, and the covariance has an inverse. -/
example : ∃ e₁ e₁₂ e₂ e₂₁ e' Pi, Measured realPrim (init realPrim C86_params) C11_H C11_r C11_R e₁ ∧
    Measured realPrim e₁ C86_H C86_r (Mat.identity 1 1) e₁₂ ∧
    Measured realPrim (init realPrim C86_params) C86_H C86_r (Mat.identity 1 1) e₂ ∧
    kalmanUpdate realPrim e₂ C11_H C11_r C11_R = .ok e₂₁ ∧
    Measured realPrim (init realPrim C86_params) (C11_H.above C86_H) (C11_r.andThen C86_r) (C11_R.beside (Mat.identity 1 1)) e' ∧
    AreInverse C11_H.rows C11_R.get (inv2 4 1) ∧ AreInverse C86_H.rows (Mat.identity 1 1 : Mat ℝ).get (fun _ _ => 1) ∧
    AreInverse 18 (init realPrim C86_params).P Pi ∧
    (init realPrim C86_params).measureAll realPrim [(C11_H, C11_R), (C86_H, Mat.identity 1 1)] [C11_r, C86_r] = .ok e₁₂ ∧
    (init realPrim C86_params).measureAll realPrim [(C86_H, Mat.identity 1 1), (C11_H, C11_R)] [C86_r, C11_r] = .ok e₂₁ := by
  have hi : Ekf.Inv (init realPrim C86_params) := inv_init _ _
  obtain ⟨e₁, h₁⟩ := kalman_defined realPrim (init realPrim C86_params) C11_H C11_r C11_R hi rfl rfl rfl rfl
  obtain ⟨e₂, h₂⟩ := kalman_defined realPrim (init realPrim C86_params) C86_H C86_r (Mat.identity 1 1) hi rfl rfl rfl rfl
  obtain ⟨e', h'⟩ := kalman_defined realPrim (init realPrim C86_params) (C11_H.above C86_H) (C11_r.andThen C86_r)
    (C11_R.beside (Mat.identity 1 1)) hi rfl rfl rfl rfl
  obtain ⟨e₁₂, h₁₂⟩ := kalman_again (H' := C86_H) (r' := C86_r) (R' := Mat.identity 1 1) hi h₁ rfl rfl rfl rfl
  obtain ⟨e₂₁, h₂₁⟩ := kalman_again (H' := C11_H) (r' := C11_r) (R' := C11_R) hi h₂ rfl rfl rfl rfl
  have m₁ : Measured realPrim (init realPrim C86_params) C11_H C11_r C11_R e₁ :=
    ⟨fun _ => sample_C86_cov, sample_C11_R_cov, (fun h => nomatch h), h₁⟩
  have m₂ : Measured realPrim (init realPrim C86_params) C86_H C86_r (Mat.identity 1 1) e₂ :=
    ⟨fun _ => sample_C86_cov, sample_C86_one, (fun h => nomatch h), h₂⟩
  refine ⟨e₁, e₁₂, e₂, e₂₁, e', fun i j => if i = j then 100 else 0, m₁,
    measured_after m₁ (measured_matrices _ realPrim_lawful _ _ _ _ _ m₁ _ sample_C86_inverse).2.1 sample_C86_one (fun h => by cases h) h₁₂,
    m₂, h₂₁, ⟨fun _ => sample_C86_cov, sample_C86_three, (fun h => nomatch h), h'⟩, sample_C86_inverse, sample_C86_unit, ?_,
    by simp only [measureAll, h₁, h₁₂, ok_bind], by simp only [measureAll, h₂, h₂₁, ok_bind]⟩
  have hP : ∀ i j, (init realPrim C86_params).P i j = if i = j then 1 / 100 else 0 := by
    intro i j
    show ((Mat.identity 18 18 : Mat ℝ).smul (1 / 100)).get i j = _
    simp [Mat.smul, Mat.identity]
  constructor <;>
  · intro i j hi hj
    simp only [hP]
    rw [sum_eq_single i]
    · simp only [if_true]; split <;> norm_num
    · intro k _ hk; rw [if_neg (Ne.symm hk), zero_mul]
    · intro h; exact absurd (mem_range.2 hi) h

/-- And in square-root form, with independent errors. -/
example : ∃ e', Measured realPrim (init realPrim C11_params) C86_H C86_r (Mat.identity 1 1) e' ∧
    (init realPrim C11_params).useRoot = true ∧ AreInverse C86_H.rows (Mat.identity 1 1 : Mat ℝ).get (fun _ _ => 1) := by
  obtain ⟨e', h'⟩ := kalman_defined realPrim (init realPrim C11_params) C86_H C86_r (Mat.identity 1 1) (inv_init _ _) rfl rfl rfl rfl
  exact ⟨e', ⟨(fun h => nomatch h), sample_C86_one, fun _ i j _ _ h => if_neg h, h'⟩, rfl, sample_C86_unit⟩

end EkfCal
