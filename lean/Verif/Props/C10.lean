import Verif.Spec.LawSamples
import Mathlib.Tactic.NormNum
import Verif.Lemmas.CovHist
import Verif.Lemmas.Matrix
import Verif.Lemmas.AddZero
import Verif.Spec.Update
import Verif.Spec.Samples
import Mathlib.Tactic.NormNum

/-!
# C10 — the measurement update keeps the covariance a covariance
-/

set_option linter.unusedSectionVars false

namespace EkfCal
open Ekf Finset
variable {K : Type} [Field K] [LinearOrder K]

/-- Standard form: for every Jacobian, residual and positive semidefinite noise for which the update is defined, a
covariance stays a covariance.  Nothing is assumed about the matrix inverse. -/
theorem C10_psd [IsStrictOrderedRing K] (N : Prim K) (e e' : Ekf K) (H : Mat K) (r : Vec K) (R : Mat K)
    (hu : e.useRoot = false) (hP : e.cov.IsCov) (hR : R.IsCov) (h : kalmanUpdate N e H r R = .ok e') : e'.cov.IsCov :=
  cov_kalman hu hP hR h

theorem innovationOf_get (P H R : Mat K) (a b : Nat) :
    (innovationOf P H R).get a b = innovation P.rows P.get H R a b := by
  show (∑ l ∈ range P.rows, (∑ k ∈ range P.rows, H.get a k * P.get k l) * H.get b l) + R.get a b = _
  unfold innovation congr
  congr 1
  rw [sum_comm]
  exact sum_congr rfl fun l _ => sum_mul _ _ _

/-- Gain, estimate and covariance: if the innovation covariance `H P Hᵀ + R` has an inverse `B`, then a defined update
moves the state by exactly `G r`, `G = P Hᵀ B`, and the covariance becomes the Joseph form with that gain; nothing else
of the filter changes. -/
theorem C10_update (N : Prim K) (hN : N.InvLaw) (e e' : Ekf K) (H : Mat K) (r : Vec K) (R : Mat K)
    (hu : e.useRoot = false) (h : kalmanUpdate N e H r R = .ok e') (B : Nat → Nat → K)
    (hB : AreInverse H.rows (innovation e.cov.rows e.cov.get H R) B) :
    (e.state.addVec N (correction e.cov.rows H (kalmanGain e.cov.rows e.cov.get H B) r) = .ok e'.state) ∧
    e'.cov.rows = e.cov.rows ∧ e'.cov.cols = e.cov.rows ∧
    (∀ i j, e'.cov.get i j = joseph e.cov.rows e.cov.get H R (kalmanGain e.cov.rows e.cov.get H B) i j) ∧
    e' = { e with state := e'.state, cov := e'.cov } := by
  obtain ⟨⟨_, _, hRr, hRc, hrs⟩, G, s, c, rfl, hGr, hGc, hG, hs, hr, hc, hg⟩ := kalman_std hu h
  have hinv : ∀ a b, a < H.rows → b < H.rows → N.inv (innovationOf e.cov H R) a b = B a b :=
    hN (innovationOf e.cov H R) B rfl (by simp only [innovationOf_get]; exact hB.1)
      (by simp only [innovationOf_get]; exact hB.2)
  have hGe : ∀ i a, a < H.rows → G.get i a = kalmanGain e.cov.rows e.cov.get H B i a := by
    intro i a ha
    rw [hG]
    unfold kalmanGain
    exact sum_congr rfl fun b hb => by rw [hinv b a (mem_range.1 hb) ha]
  refine ⟨?_, hr, hc, fun i j => ?_, rfl⟩
  · have : correction e.cov.rows H (kalmanGain e.cov.rows e.cov.get H B) r =
        ⟨e.cov.rows, fun i => ∑ a ∈ range H.rows, G.get i a * r.get a⟩ := by
      unfold correction
      congr 1
      funext i
      exact sum_congr rfl fun a ha => by rw [hGe i a (mem_range.1 ha)]
    rw [this]; exact hs
  · show c.get i j = _
    rw [hg]
    unfold joseph
    congr 1
    · unfold congr iGH
      refine sum_congr rfl fun k _ => sum_congr rfl fun l _ => ?_
      have e1 : ∀ i k, ∑ a ∈ range H.rows, G.get i a * H.get a k =
          ∑ a ∈ range H.rows, kalmanGain e.cov.rows e.cov.get H B i a * H.get a k := fun i k =>
        sum_congr rfl fun a ha => by rw [hGe i a (mem_range.1 ha)]
      rw [e1, e1]
    · unfold congr
      refine sum_congr rfl fun k hk => sum_congr rfl fun l hl => ?_
      rw [hGe i k (mem_range.1 hk), hGe j l (mem_range.1 hl)]

/-- `P' = P - G S Gᵀ`: what the update subtracts. -/
theorem C10_reduction (N : Prim K) (hN : N.InvLaw) (e e' : Ekf K) (H : Mat K) (r : Vec K) (R : Mat K)
    (hu : e.useRoot = false) (hP : e.cov.IsCov) (hR : R.IsCov) (h : kalmanUpdate N e H r R = .ok e')
    (B : Nat → Nat → K) (hB : AreInverse H.rows (innovation e.cov.rows e.cov.get H R) B) (i j : Nat)
    (hi : i < e.cov.rows) (hj : j < e.cov.rows) :
    e'.cov.get i j = e.cov.get i j - congr H.rows (kalmanGain e.cov.rows e.cov.get H B)
      (innovation e.cov.rows e.cov.get H R) i j := by
  obtain ⟨⟨_, _, hRr, _, _⟩, _⟩ := kalman_std hu h
  obtain ⟨_, _, _, hg, _⟩ := C10_update N hN e e' H r R hu h B hB
  rw [hg]
  set n := e.cov.rows
  set m := H.rows
  have key := joseph_eq (toM n n e.cov.get) (toM m n H.get) (toM m m R.get)
    (toM m m (innovation n e.cov.get H R)) (toM m m B) (toM n m (kalmanGain n e.cov.get H B))
    (by rw [← toM_transpose]; exact toM_eq_iff.2 fun a b ha hb => hP.symm b a hb ha)
    (by rw [← toM_transpose]; exact toM_eq_iff.2 fun a b ha hb => hR.symm b a (by omega) (by omega))
    (by rw [← toM_congr, ← toM_add]; rfl)
    (by rw [← toM_mul, ← toM_one]; exact toM_eq_iff.2 hB.2)
    (by rw [← toM_transpose, ← toM_mul, ← toM_mul]; rfl)
  rw [← toM_mul, ← toM_one, ← toM_sub, ← toM_congr, ← toM_congr, ← toM_congr, ← toM_add, ← toM_sub] at key
  exact toM_eq_iff.1 key i j hi hj

/-- With an invertible innovation the variance of no linear combination of the state increases. -/
theorem C10_decrease [IsStrictOrderedRing K] (N : Prim K) (hN : N.InvLaw) (e e' : Ekf K) (H : Mat K) (r : Vec K)
    (R : Mat K) (hu : e.useRoot = false) (hP : e.cov.IsCov) (hR : R.IsCov) (h : kalmanUpdate N e H r R = .ok e')
    (B : Nat → Nat → K) (hB : AreInverse H.rows (innovation e.cov.rows e.cov.get H R) B) (x : Nat → K) :
    quad e.cov.rows e'.cov.get x ≤ quad e.cov.rows e.cov.get x := by
  obtain ⟨⟨_, _, hRr, _, _⟩, _⟩ := kalman_std hu h
  have e1 : quad e.cov.rows e'.cov.get x + quad e.cov.rows (congr H.rows (kalmanGain e.cov.rows e.cov.get H B)
      (innovation e.cov.rows e.cov.get H R)) x = quad e.cov.rows e.cov.get x := by
    rw [← quad_add]
    refine quad_ext (fun i j hi hj => ?_) x
    rw [C10_reduction N hN e e' H r R hu hP hR h B hB i j hi hj, sub_add_cancel]
  rw [← e1]
  refine le_add_of_nonneg_right ?_
  rw [quad_congr]
  generalize (fun k => ∑ i ∈ range e.cov.rows, x i * kalmanGain e.cov.rows e.cov.get H B i k) = y
  have : quad H.rows (innovation e.cov.rows e.cov.get H R) y =
      quad H.rows (congr e.cov.rows H.get e.cov.get) y + quad H.rows R.get y := quad_add _ _ _ _
  rw [this, quad_congr]
  exact add_nonneg (hP.psd _) (hRr ▸ hR.psd y)

/-- In particular no diagonal entry increases. -/
theorem C10_variances [IsStrictOrderedRing K] (N : Prim K) (hN : N.InvLaw) (e e' : Ekf K) (H : Mat K) (r : Vec K)
    (R : Mat K) (hu : e.useRoot = false) (hP : e.cov.IsCov) (hR : R.IsCov) (h : kalmanUpdate N e H r R = .ok e')
    (B : Nat → Nat → K) (hB : AreInverse H.rows (innovation e.cov.rows e.cov.get H R) B) (i : Nat)
    (hi : i < e.cov.rows) : e'.cov.get i i ≤ e.cov.get i i := by
  have := C10_decrease N hN e e' H r R hu hP hR h B hB (fun k => if k = i then 1 else 0)
  simpa [quad, hi] using this

/-- A zero residual leaves the estimate untouched, whatever the gain (standard form; nothing is assumed about the
inverse).  The rotation conversion must map the zero vector to the identity, as `RotVecToQuat` does
(`rotVecToQuat_zero`). -/
theorem C10_zero_residual (N : Prim K) (hN : N.rotVecToQuat 0 = Quat.one) (e e' : Ekf K) (H : Mat K) (r : Vec K)
    (R : Mat K) (hu : e.useRoot = false) (hr : ∀ a, r.get a = 0) (h : kalmanUpdate N e H r R = .ok e') :
    e'.state = e.state := by
  obtain ⟨_, G, s, c, rfl, _, _, _, hs, _⟩ := kalman_std hu h
  exact State.addVec_zero hN (fun i => by simp [hr]) hs

/-- A filter with a calibrated GPS antenna and a scalar measurement: the hypotheses hold with a lawful inverse, and the
variance of the measured coordinate drops. -/
example : ∃ (e e' : Ekf ℚ) (B : Nat → Nat → ℚ),
    Ekf.run Samples.adjPrim (Ekf.init Samples.adjPrim (Samples.params .none false))
      [.registerGPS 7 Samples.gps (Samples.cov 3)] = .ok e ∧ e.useRoot = false ∧
    kalmanUpdate Samples.adjPrim e ⟨1, 21, fun _ j => if j = 0 then 1 else 0⟩ ⟨1, fun _ => 1⟩ ⟨1, 1, fun _ _ => 1 / 100⟩ = .ok e' ∧
    AreInverse 1 (innovation e.cov.rows e.cov.get ⟨1, 21, fun _ j => if j = 0 then 1 else 0⟩
      ⟨1, 1, fun _ _ => 1 / 100⟩) B ∧
    e'.cov.get 0 0 < e.cov.get 0 0 ∧ e.state.body.pos 0 < e'.state.body.pos 0 := by
  let c : Res (Ekf ℚ × Ekf ℚ) := do
    let e ← Ekf.run Samples.adjPrim (Ekf.init Samples.adjPrim (Samples.params .none false))
      [.registerGPS 7 Samples.gps (Samples.cov 3)]
    let e' ← kalmanUpdate Samples.adjPrim e ⟨1, 21, fun _ j => if j = 0 then 1 else 0⟩ ⟨1, fun _ => 1⟩
      ⟨1, 1, fun _ _ => 1 / 100⟩
    pure (e, e')
  obtain ⟨⟨e, e'⟩, hc, hr, h0, h1, h2⟩ := Samples.ok_of_check (r := c)
    (P := fun x => x.1.useRoot = false ∧ innovation x.1.cov.rows x.1.cov.get ⟨1, 21, fun _ j => if j = 0 then 1 else 0⟩
      ⟨1, 1, fun _ _ => 1 / 100⟩ 0 0 = 1 / 50 ∧ x.2.cov.get 0 0 < x.1.cov.get 0 0 ∧
      x.1.state.body.pos 0 < x.2.state.body.pos 0) (by decide +kernel)
  simp only [c, bind_ok_iff, pure_res, Except.ok.injEq, Prod.mk.injEq] at hc
  obtain ⟨_, g1, _, g2, rfl, rfl⟩ := hc
  refine ⟨_, _, fun _ _ => 50, g1, hr, g2, ⟨?_, ?_⟩, h1, h2⟩ <;>
  · intro i j hi hj
    obtain rfl : i = 0 := by omega
    obtain rfl : j = 0 := by omega
    dsimp only at h0
    rw [sum_range_one, h0]
    norm_num

end EkfCal
