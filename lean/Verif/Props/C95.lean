import Verif.Lemmas.Heading
import Verif.Props.C39
import Verif.Props.C92
import Mathlib.Analysis.Real.Pi.Bounds

/-!
# C95 — the heading of the local frame does not matter
-/

set_option linter.unusedSectionVars false

namespace EkfCal
open Ekf Finset
variable {K : Type} [Field K] [LinearOrder K] [IsStrictOrderedRing K] {q : Quat K}

/-- Predicting the body in the turned frame is turning the prediction. -/
theorem C95_body (N : Prim K) (q : Quat K) (hq : q.Vertical) (hN : N.TurnsWith q) (still : Bool) (b : BodyState K) (dt : K) :
    predictBody N still (b.turned q) dt = (predictBody N still b dt).turned q := by
  have ha : (if still = true then (0 : V3 K) else (b.turned q).acc - gravity) = q.rotate (if still = true then 0 else b.acc - gravity) := by
    split
    · rw [hq.zero]
    · rw [hq.sub, hq.gravity]; rfl
  have hr : ∀ v : V3 K, (![v 0 * dt, v 1 * dt, v 2 * dt] : V3 K) = dt • v := fun v => by
    funext i; fin_cases i <;> simp [mul_comm]
  unfold predictBody
  dsimp only
  rw [ha, hr, hr]
  unfold BodyState.turned
  dsimp only
  rw [← hq.smul dt b.angVel, hN]
  simp only [← hq.smul, ← hq.add]
  congr 1
  rw [Quat.assoc_turned, ← Quat.assoc_turned q.inverse, Quat.inverse_mul_self hq.unit, Quat.assoc_turned]
  congr 2
  ext <;> simp [Quat.mul, Quat.one]

/-- Both filters, in step. -/
structure TurnedPair (N : Prim K) (q : Quat K) (e f : Ekf K) : Prop where
  left : CovInv N e
  right : CovInv N f
  turned : e.TurnedTo q f
  untimed : ¬ AugType.Timed e.augType
  noise : e.processNoise.EvenHorizontally
  fids : e.state.fids = []
  augs : e.state.augs = []

theorem even_commutes {n : Nat} {Q : Mat K} (h : Q.EvenHorizontally) (dt : K) (c s : K) :
    toM n n (turning c s) * toM n n (fun k l => if k = l then Q.get k k * dt else 0) =
      toM n n (fun k l => if k = l then Q.get k k * dt else 0) * toM n n (turning c s) := by
  rw [← toM_mul, ← toM_mul, toM_eq_iff]
  intro i j hi hj
  simp only [mul_ite, mul_zero, ite_mul, zero_mul, sum_ite_eq, sum_ite_eq', mem_range, hi, hj, if_true]
  unfold turning
  split
  · rename_i hij; subst hij; ring
  · split
    · rename_i hx; rw [hx.2, ← h i hx.1]; ring
    · split
      · rename_i hx
        obtain ⟨k, e1, e2⟩ := hx.1.prev
        have : k = j := by omega
        subst this
        rw [e1, ← h k e2]; ring
      · ring

theorem TurnedPair.predict {N : Prim K} (hq : q.Vertical) (hN : N.TurnsWith q) {e f e' f' : Ekf K} {t : K} (h : TurnedPair N q e f)
    (he : predict N e t = .ok e') (hf : Ekf.predict N f t = .ok f') : TurnedPair N q e' f' ∧ e'.stateSize = e.stateSize := by
  have ce : CovInv N e' := covInv_step h.left (op := .predict t) trivial trivial he
  have cf : CovInv N f' := covInv_step h.right (op := .predict t) trivial trivial hf
  have hr := h.turned.rest
  have q1 : f.currentTime = e.currentTime := by rw [hr]
  have q2 : f.isGravityInitialized = e.isGravityInitialized := by rw [hr]
  have q3 : f.isZeroAcceleration = e.isZeroAcceleration := by rw [hr]
  have q4 : f.state.body = e.state.body.turned q := by rw [hr]
  have q5 : f.processNoise = e.processNoise := by rw [hr]
  have q6 : f.augType = e.augType := by rw [hr]
  have q7 : f.stateSize = e.stateSize := by rw [hr]
  obtain ⟨t1, rfl⟩ | ⟨t1, b, out, hb, he⟩ := predict_form he
  · obtain ⟨t2, rfl⟩ | ⟨t2, _⟩ := predict_form hf
    · exact ⟨h, rfl⟩
    · exact absurd t2 (not_le.2 (q1 ▸ t1))
  · obtain ⟨t2, rfl⟩ | ⟨t2, b', out', hb', hf⟩ := predict_form hf
    · exact absurd t1 (not_le.2 (q1 ▸ t2))
    · obtain ⟨_, rfl⟩ | ⟨h0, _⟩ := augmentTimed_form he
      swap; · exact absurd h0 h.untimed
      obtain ⟨_, rfl⟩ | ⟨h0, _⟩ := augmentTimed_form hf
      swap; · exact absurd h0 (by rw [show AugType.Timed _ = AugType.Timed f.augType from rfl, q6]; exact h.untimed)
      have n1 := h.left.inv
      have n2 := h.right.inv
      have l18 : 18 ≤ e.stateSize := by rw [n1.size]; unfold State.dim; omega
      have core : b' = b.turned q ∧ out'.rows = out.rows ∧ out'.cols = out.cols ∧
          ∀ i j, i < e.stateSize → j < e.stateSize → out'.get i j = congr e.stateSize q.turning out.get i j := by
        obtain ⟨g, rfl, rfl⟩ | ⟨g, rfl, ho⟩ := hb <;> obtain ⟨g', rfl, rfl⟩ | ⟨g', rfl, ho'⟩ := hb'
        · have := h.turned.cov
          rw [n1.covRows] at this
          exact ⟨q4, h.turned.rows, h.turned.cols, this⟩
        · rw [q2, g] at g'; cases g'
        · rw [q2, g] at g'; cases g'
        · refine ⟨by rw [q4, q1, q3]; exact C95_body N q hq hN _ _ _, ?_⟩
          obtain ⟨_, p1, p2, p3, p4⟩ := predictCov_spec N e.cov e.processNoise (t - e.currentTime) (by rw [n1.covRows, n1.covCols])
            (by rw [n1.covRows]; exact l18) (by rw [n1.noiseRows, n1.covRows]) (by rw [n1.noiseCols, n1.covRows])
          obtain ⟨_, r1, r2, r3, r4⟩ := predictCov_spec N f.cov f.processNoise (t - f.currentTime) (by rw [n2.covRows, n2.covCols])
            (by rw [n2.covRows, q7]; exact l18) (by rw [n2.noiseRows, n2.covRows]) (by rw [n2.noiseCols, n2.covRows])
          rw [h.left.root, ← n1.covRows] at ho
          rw [h.right.root, ← n2.covRows] at ho'
          obtain rfl := Except.ok.inj (ho.symm.trans p1)
          obtain rfl := Except.ok.inj (ho'.symm.trans r1)
          refine ⟨by rw [r2, p2]; exact h.turned.rows, by rw [r3, p3]; exact h.turned.rows, ?_⟩
          have hcov := h.turned.cov
          rw [n1.covRows] at p4 hcov
          rw [n2.covRows, q7, q5, q1] at r4
          clear ho ho' p1 r1 p2 r2 p3 r3
          generalize hn : e.stateSize = n at *
          have E1 := toM_eq_iff.2 p4
          have E2 := toM_eq_iff.2 r4
          have E3 := toM_eq_iff.2 hcov
          rw [toM_congr, toM_add] at E1 E2
          rw [toM_congr] at E3
          refine toM_eq_iff.1 ?_
          rw [toM_congr, E2, E1]
          have hT := turning_orth l18 hq.cos_sin
          have hc := even_commutes (n := n) h.noise (t - e.currentTime) q.cosine q.sine
          have hF := toM_transition l18 q.cosine q.sine (t - e.currentTime)
          have hF' := congrArg Matrix.transpose hF
          rw [Matrix.transpose_mul, Matrix.transpose_mul] at hF'
          rw [show toM n n f.cov.get = _ from E3]
          unfold Quat.turning at *
          generalize toM n n (EkfCal.turning q.cosine q.sine) = T at *
          generalize toM n n (transition (t - e.currentTime)) = F at *
          generalize toM n n (fun k l => if k = l then e.processNoise.get k k * (t - e.currentTime) else 0) = D at *
          generalize toM n n e.cov.get = P at *
          have hD : D = T * D * T.transpose := by rw [hc, Matrix.mul_assoc, hT, Matrix.mul_one]
          calc F * (T * P * T.transpose + D) * F.transpose = F * (T * P * T.transpose + T * D * T.transpose) * F.transpose := by rw [← hD]
            _ = (F * T) * (P + D) * (T.transpose * F.transpose) := by
              simp only [Matrix.mul_add, Matrix.add_mul, Matrix.mul_assoc]
            _ = (T * F) * (P + D) * (F.transpose * T.transpose) := by rw [hF, hF']
            _ = T * (F * (P + D) * F.transpose) * T.transpose := by simp only [Matrix.mul_assoc]
      refine ⟨⟨ce, cf, ⟨?_, core.2.1, core.2.2.1, ?_⟩, h.untimed, h.noise, h.fids, h.augs⟩, rfl⟩
      · rw [core.1, hr]
      · intro i j hi hj
        have hrow : out.rows = e.stateSize := ce.inv.covRows
        simp only [hrow] at hi hj ⊢
        exact core.2.2.2 i j hi hj

/-- The slices of the sensors of the body frame are not turned. -/
theorem State.moved_turned {N : Prim K} (hq : q.Vertical) {s : State K} {n : Nat} (ht : Tiles s.blocks 0 n) (hs : s.MapsSorted) (hf : s.fids = [])
    (ha : s.augs = []) {v v' : Vec K} (hv : ∀ i, i < n → v'.get i = tw q.cosine q.sine v.get i) :
    State.moved N v' { s with body := s.body.turned q } = { s.moved N v with body := (s.moved N v).body.turned q } := by
  have h0 : s.body.index = 0 ∧ 18 ≤ n := by
    unfold State.blocks at ht
    have := ht
    simp only [List.append_assoc, List.cons_append, List.nil_append] at this
    exact ⟨this.1, by have := Tiles.le' this.2; omega⟩
  have at3 : ∀ o, 18 ≤ o → o + 3 ≤ n → v'.at3 o = v.at3 o := by
    intro o h1 h2
    have : ∀ i, 18 ≤ i → i < n → v'.get i = v.get i := fun i h3 h4 => by
      rw [hv i h4, tw_other (fun hx => absurd hx.1 (by omega)) (fun hx => absurd hx.1 (by omega))]
    unfold Vec.at3
    rw [this o h1 (by omega), this (o + 1) (by omega) (by omega), this (o + 2) (by omega) (by omega)]
  unfold State.moved
  dsimp only
  rw [BodyState.moved_turned hq N h0.1 fun i hi => hv i (by omega), hf, ha]
  have e1 : UMap.mapVal (ImuState.moved N v') s.imus = UMap.mapVal (ImuState.moved N v) s.imus := by
    refine List.map_congr_left fun x hx => ?_
    obtain ⟨c1, c2, _⟩ := imu_columns ht ((UMap.find?_eq_some_iff hs.imus).2 (show (x.1, x.2) ∈ s.imus from hx))
    congr 1
    unfold ImuState.moved
    congr 1
    · split
      · rename_i he; rw [at3 _ (c1 he).1 (by have := (c1 he).2; omega)]
      · rfl
    · split
      · rename_i he; rw [at3 _ (by have := (c1 he).1; omega) (by have := (c1 he).2; omega)]
      · rfl
    · split
      · rename_i he; rw [at3 _ (c2 he).1 (by have := (c2 he).2; omega)]
      · rfl
    · split
      · rename_i he; rw [at3 _ (by have := (c2 he).1; omega) (by have := (c2 he).2; omega)]
      · rfl
  have e2 : UMap.mapVal (GpsState.moved v') s.gpss = UMap.mapVal (GpsState.moved v) s.gpss := by
    refine List.map_congr_left fun x hx => ?_
    have c1 := gps_columns ht ((UMap.find?_eq_some_iff hs.gpss).2 (show (x.1, x.2) ∈ s.gpss from hx))
    congr 1
    unfold GpsState.moved
    congr 1
    split
    · rename_i he; rw [at3 _ (c1 he).1 (by have := (c1 he).2; omega)]
    · rfl
  have e3 : UMap.mapVal (CamState.moved N v') s.cams = UMap.mapVal (CamState.moved N v) s.cams := by
    refine List.map_congr_left fun x hx => ?_
    have c1 := cam_columns ht ((UMap.find?_eq_some_iff hs.cams).2 (show (x.1, x.2) ∈ s.cams from hx))
    congr 1
    unfold CamState.moved
    congr 1
    · split
      · rename_i he; rw [at3 _ (c1 he).1 (by have := (c1 he).2; omega)]
      · rfl
    · split
      · rename_i he; rw [at3 _ (by have := (c1 he).1; omega) (by have := (c1 he).2; omega)]
      · rfl
  rw [e1, e2, e3]
  rfl

theorem TurnedPair.measure {N : Prim K} (hN : N.Lawful) (hq : q.Vertical) {e f e' f' : Ekf K} {H R H' R' : Mat K} {r r' : Vec K}
    (h : TurnedPair N q e f) (ho : (Seen.measure H r R H' r' R').OK e.stateSize q) (he : kalmanUpdate N e H r R = .ok e')
    (hf : kalmanUpdate N f H' r' R' = .ok f') : TurnedPair N q e' f' ∧ e'.stateSize = e.stateSize := by
  obtain ⟨hR, hR', ⟨Ri, iR⟩, hrows, U, uU, uH, ur, uR⟩ := ho
  have ce : CovInv N e' := covInv_step h.left (op := .kalman H r R) trivial hR he
  have cf : CovInv N f' := covInv_step h.right (op := .kalman H' r' R') trivial hR' hf
  have hr := h.turned.rest
  have q7 : f.stateSize = e.stateSize := by rw [hr]
  have n1 := h.left.inv
  have n2 := h.right.inv
  have l18 : 18 ≤ e.stateSize := by rw [n1.size]; unfold State.dim; omega
  have me : Measured N e H r R e' := ⟨fun _ => h.left.cov, hR, fun x => absurd x (by rw [h.left.root]; simp), he⟩
  obtain ⟨B, hB⟩ := C86_innovation N e e' H r R me Ri iR
  have hPe : e.P = e.cov.get := by funext i j; simp [Ekf.P, h.left.root]
  rw [hPe, n1.covRows] at hB
  obtain ⟨m', c', g'⟩ := H'
  obtain rfl : m' = H.rows := hrows
  have hcov := h.turned.cov
  rw [n1.covRows] at hcov
  have hT' := turning_orth l18 hq.cos_sin
  have hT := mul_eq_one_comm.1 hT'
  have mU' : toM H.rows H.rows U * (toM H.rows H.rows U).transpose = 1 := by
    rw [← toM_transpose, ← toM_mul, ← toM_one, toM_eq_iff]; exact uU
  have mU := mul_eq_one_comm.1 mU'
  have mP := toM_eq_iff.2 hcov
  rw [toM_congr] at mP
  have mR := toM_eq_iff.2 uR
  rw [toM_congr] at mR
  have mH : toM H.rows e.stateSize g' = toM H.rows H.rows U * toM H.rows e.stateSize H.get * (toM e.stateSize e.stateSize q.turning).transpose := by
    rw [Matrix.mul_assoc, ← toM_transpose, ← toM_mul, ← toM_mul]
    exact toM_eq_iff.2 uH
  have mr : toM H.rows 1 (fun a _ => r'.get a) = toM H.rows H.rows U * toM H.rows 1 (fun a _ => r.get a) := by
    rw [← toM_mul]
    exact toM_eq_iff.2 fun a _ ha _ => ur a ha
  have mB := areInverse_toM.1 hB
  rw [toM_innov] at mB
  have hB' : AreInverse H.rows (innovation e.stateSize f.cov.get ⟨H.rows, c', g'⟩ R') (congr H.rows U B) := by
    refine areInverse_toM.2 ?_
    have e1 := toM_innov e.stateSize f.cov.get ⟨H.rows, c', g'⟩ R'
    dsimp only at e1
    rw [e1, mH, mP, mR, toM_congr]
    unfold Quat.turning at *
    rw [turned_innovation _ _ _ _ _ hT]
    generalize toM H.rows e.stateSize H.get * toM e.stateSize e.stateSize e.cov.get * (toM H.rows e.stateSize H.get).transpose +
      toM H.rows H.rows R.get = S at *
    generalize toM H.rows H.rows U = V at *
    generalize toM H.rows H.rows B = B at *
    constructor
    · calc V * S * V.transpose * (V * B * V.transpose) = V * S * (V.transpose * V) * B * V.transpose := by simp only [Matrix.mul_assoc]
        _ = V * (S * B) * V.transpose := by rw [mU]; simp only [Matrix.mul_assoc, Matrix.one_mul]
        _ = 1 := by rw [mB.1, Matrix.mul_one, mU']
    · calc V * B * V.transpose * (V * S * V.transpose) = V * B * (V.transpose * V) * S * V.transpose := by simp only [Matrix.mul_assoc]
        _ = V * (B * S) * V.transpose := by rw [mU]; simp only [Matrix.mul_assoc, Matrix.one_mul]
        _ = 1 := by rw [mB.2, Matrix.mul_one, mU']
  obtain ⟨a1, a2, a3, a4, a5⟩ := C10_update N hN.inv e e' H r R h.left.root he B (by rw [n1.covRows]; exact hB)
  obtain ⟨b1, b2, b3, b4, b5⟩ := C10_update N hN.inv f f' _ r' R' h.right.root hf _ (by rw [n2.covRows, q7]; exact hB')
  rw [n1.covRows] at a1 a4
  rw [n2.covRows, q7] at b1 b4
  have mG := toM_gain e.stateSize e.cov.get H B
  have mG' := toM_gain e.stateSize f.cov.get ⟨H.rows, c', g'⟩ (congr H.rows U B)
  dsimp only at mG'
  rw [mH, mP, toM_congr] at mG'
  unfold Quat.turning at mG' mP mH
  rw [turned_gain _ _ _ _ _ hT mU, ← mG] at mG'
  -- the correction is turned
  have hv : ∀ i, i < e.stateSize → (correction e.stateSize ⟨H.rows, c', g'⟩ (kalmanGain e.stateSize f.cov.get ⟨H.rows, c', g'⟩ (congr H.rows U B)) r').get i =
      tw q.cosine q.sine (correction e.stateSize H (kalmanGain e.stateSize e.cov.get H B) r).get i := by
    intro i hi
    rw [← sum_turning l18 _ _ _ hi]
    have := toM_mul e.stateSize H.rows 1 (kalmanGain e.stateSize f.cov.get ⟨H.rows, c', g'⟩ (congr H.rows U B)) (fun a _ => r'.get a)
    rw [mG', mr] at this
    have h2 : toM e.stateSize 1 (fun i _ => ∑ k ∈ range e.stateSize, turning q.cosine q.sine i k *
        ∑ a ∈ range H.rows, kalmanGain e.stateSize e.cov.get H B k a * r.get a) =
        toM e.stateSize e.stateSize (turning q.cosine q.sine) * (toM e.stateSize H.rows (kalmanGain e.stateSize e.cov.get H B) * toM H.rows 1 (fun a _ => r.get a)) := by
      rw [← toM_mul, ← toM_mul]
    have h3 : toM e.stateSize 1 (fun i _ => ∑ a ∈ range H.rows, kalmanGain e.stateSize f.cov.get ⟨H.rows, c', g'⟩ (congr H.rows U B) i a * r'.get a) =
        toM e.stateSize 1 (fun i _ => ∑ k ∈ range e.stateSize, turning q.cosine q.sine i k *
        ∑ a ∈ range H.rows, kalmanGain e.stateSize e.cov.get H B k a * r.get a) := by
      rw [h2]
      refine this.trans ?_
      rw [Matrix.mul_assoc, ← Matrix.mul_assoc _ (toM H.rows H.rows U), mU, Matrix.one_mul, Matrix.mul_assoc]
    exact toM_eq_iff.1 h3 i 0 hi (by omega)
  have hs : f'.state = { e'.state with body := e'.state.body.turned q } := by
    have hfs : f.state = { e.state with body := e.state.body.turned q } := by rw [hr]
    rw [State.addVec_moved N _ _ e.stateSize n1.laid.tiles (le_refl _)] at a1
    rw [State.addVec_moved N _ _ e.stateSize (by have := n2.laid.tiles; rw [q7] at this; exact this) (le_refl _)] at b1
    rw [← Except.ok.inj a1, ← Except.ok.inj b1, hfs]
    exact State.moved_turned hq n1.laid.tiles n1.sorted h.fids h.augs hv
  have hc : ∀ i j, i < e.stateSize → j < e.stateSize → f'.cov.get i j = congr e.stateSize q.turning e'.cov.get i j := by
    have m1 : toM e.stateSize e.stateSize e'.cov.get = _ := (toM_eq_iff.2 fun i j _ _ => a4 i j).trans (toM_joseph ..)
    have m2 := (toM_eq_iff (n := e.stateSize) (m := e.stateSize)).2 fun i j _ _ => b4 i j
    have m3 := toM_joseph e.stateSize f.cov.get ⟨H.rows, c', g'⟩ R' (kalmanGain e.stateSize f.cov.get ⟨H.rows, c', g'⟩ (congr H.rows U B))
    dsimp only at m3
    rw [mG', mH, mP, mR, turned_joseph _ _ _ _ _ _ hT hT' mU, ← m1] at m3
    refine toM_eq_iff.1 ?_
    rw [toM_congr]
    exact m2.trans m3
  have hsz : e'.stateSize = e.stateSize := by rw [a5]
  refine ⟨⟨ce, cf, ⟨?_, by rw [b2, a2]; exact h.turned.rows, by rw [b3, a3]; exact h.turned.rows, ?_⟩, by rw [a5]; exact h.untimed, by rw [a5]; exact h.noise, ?_, ?_⟩, hsz⟩
  · rw [b5, hs, hr, a5]
  · rw [ce.inv.covRows, hsz]; exact hc
  · rw [State.addVec_moved N _ _ e.stateSize n1.laid.tiles (le_refl _)] at a1
    rw [← Except.ok.inj a1]
    show UMap.mapVal _ e.state.fids = []
    rw [h.fids]; rfl
  · rw [State.addVec_moved N _ _ e.stateSize n1.laid.tiles (le_refl _)] at a1
    rw [← Except.ok.inj a1]
    show UMap.mapVal _ e.state.augs = []
    rw [h.augs]; rfl

theorem turned_run {N : Prim K} (hN : N.Lawful) (hq : q.Vertical) (ht : N.TurnsWith q) {n : Nat} (ops : List (Seen K)) :
    ∀ {e f e' f' : Ekf K}, TurnedPair N q e f → e.stateSize = n → (∀ o ∈ ops, o.OK n q) → run N e (ops.map Seen.here) = .ok e' →
      run N f (ops.map (Seen.there q)) = .ok f' → TurnedPair N q e' f' := by
  induction ops with
  | nil => intro e f e' f' h _ _ he hf; cases he; cases hf; exact h
  | cons o ops ih =>
    intro e f e' f' h hn ho he hf
    simp only [List.map_cons, run, bind_ok_iff] at he hf
    obtain ⟨e1, he1, he⟩ := he
    obtain ⟨f1, hf1, hf⟩ := hf
    have h0 := ho o (List.mem_cons_self ..)
    have hr := h.turned.rest
    have key : TurnedPair N q e1 f1 ∧ e1.stateSize = n := by
      cases o with
      | predict t => exact hn ▸ h.predict hq ht he1 hf1
      | measure H r R H' r' R' => exact hn ▸ h.measure hN hq (hn ▸ h0) he1 hf1
      | still b =>
        have ce : CovInv N e1 := covInv_step h.left (op := .setZeroAcceleration b) trivial trivial he1
        have cf : CovInv N f1 := covInv_step h.right (op := .setZeroAcceleration b) trivial trivial hf1
        cases he1; cases hf1
        exact ⟨⟨ce, cf, ⟨by conv_lhs => rw [hr]
                            rfl, h.turned.rows, h.turned.cols, h.turned.cov⟩, h.untimed, h.noise, h.fids, h.augs⟩, hn⟩
      | gravity =>
        have ce : CovInv N e1 := covInv_step h.left (op := .initializeGravity) trivial trivial he1
        have cf : CovInv N f1 := covInv_step h.right (op := .initializeGravity) trivial trivial hf1
        cases he1; cases hf1
        exact ⟨⟨ce, cf, ⟨by conv_lhs => rw [hr]
                            rfl, h.turned.rows, h.turned.cols, h.turned.cov⟩, h.untimed, h.noise, h.fids, h.augs⟩, hn⟩
      | restart t b =>
        have ce : CovInv N e1 := covInv_step h.left (op := .initializeAt t b) h0 trivial he1
        have cf : CovInv N f1 := covInv_step h.right (op := .initializeAt t (b.turned q)) h0 trivial hf1
        cases he1; cases hf1
        exact ⟨⟨ce, cf, ⟨by conv_lhs => rw [hr]
                            rfl, h.turned.rows, h.turned.cols, h.turned.cov⟩, h.untimed, h.noise, h.fids, h.augs⟩, hn⟩
    exact ih key.1 key.2 (fun o hx => ho o (List.mem_cons_of_mem _ hx)) he hf

/-- What is the same in all horizontal directions stays the same when turned. -/
theorem level_diagonal (hq : q.Vertical) {n : Nat} (hn : 18 ≤ n) {A : Nat → Nat → K} (h0 : ∀ i j, i < n → j < n → i ≠ j → A i j = 0)
    (h1 : ∀ i, Horizontal 0 i → A i i = A (i + 1) (i + 1)) : Level n q A := by
  refine toM_eq_iff.1 ?_
  have hA : toM n n A = toM n n (fun k l => if k = l then (⟨n, n, A⟩ : Mat K).get k k * 1 else 0) := by
    refine toM_eq_iff.2 fun i j hi hj => ?_
    by_cases hij : i = j
    · subst hij; simp
    · rw [if_neg hij, h0 i j hi hj hij]
  have hc := even_commutes (n := n) (Q := ⟨n, n, A⟩) h1 1 q.cosine q.sine
  rw [← hA] at hc
  rw [toM_congr]
  unfold Quat.turning
  rw [hc, Matrix.mul_assoc, turning_orth hn hq.cos_sin, Matrix.mul_one]

/-- A filter in standard form estimates a body with sensors attached to it; its uncertainty and its process noise are the same in all
horizontal directions.  It is started twice, the second time with everything turned about the vertical, and makes the same
predictions and measurements.  Then everything it estimates is turned, the sensors are estimated as before, and so is the uncertainty of
everything. -/
theorem C95_history_partial (N : Prim K) (hN : N.Lawful) (q : Quat K) (hq : q.Vertical) (ht : N.TurnsWith q) (p : EkfParams K)
    (hp : p.useRoot = false) (hpn : ∀ k, k < 18 → 0 ≤ p.processNoise.get k) (before : List (Op K)) (hw : ∀ op ∈ before, op.WF)
    (ho : ∀ op ∈ before, op.CovOK) (e : Ekf K) (he : run N (init N p) before = .ok e) (hu : ¬ AugType.Timed e.augType)
    (hfid : e.state.fids = []) (haug : e.state.augs = []) (hnoise : e.processNoise.EvenHorizontally)
    (hlevel : Level e.stateSize q e.cov.get) (t : K) (b : BodyState K) (hb : b.index = 0) (ops : List (Seen K))
    (hops : ∀ o ∈ ops, o.OK e.stateSize q) (e' f' : Ekf K)
    (h1 : run N (e.initializeAt t b) (ops.map Seen.here) = .ok e')
    (h2 : run N (e.initializeAt t (b.turned q)) (ops.map (Seen.there q)) = .ok f') :
    e'.TurnedTo q f' := by
  have hi := covInv_run (covInv_init N p hp hpn) hw ho he
  have c1 : CovInv N (e.initializeAt t b) := covInv_step hi (op := .initializeAt t b) hb trivial rfl
  have c2 : CovInv N (e.initializeAt t (b.turned q)) := covInv_step hi (op := .initializeAt t (b.turned q)) hb trivial rfl
  refine (turned_run hN hq ht (n := e.stateSize) ops ⟨c1, c2, ⟨rfl, rfl, rfl, ?_⟩, hu, hnoise, hfid, haug⟩ rfl hops h1 h2).turned
  intro i j hij hj
  rw [show (e.initializeAt t b).cov.rows = e.stateSize from hi.inv.covRows] at *
  exact (hlevel i j hij hj).symm

theorem Quat.Vertical.toMat (hq : q.Vertical) : q.toMat = !![q.cosine, -q.sine, 0; q.sine, q.cosine, 0; 0, 0, 1] := by
  have := hq.circle
  obtain ⟨w, x, y, z⟩ := q
  have hx : x = 0 := hq.x
  have hy : y = 0 := hq.y
  subst hx hy
  dsimp only at this
  ext i j
  fin_cases i <;> fin_cases j <;> simp [Quat.toMat, Quat.cosine, Quat.sine]
  · linear_combination -this
  · ring
  · ring
  · linear_combination -this

/-- A position fix is the same measurement in both frames if the antenna is at the origin of the body: the position is turned, its
covariance is turned, and so is the residual. -/
theorem C95_fix_partial (N : Num K) (q : Quat K) (hq : q.Vertical) (e f : Ekf K) (hi : Inv e) (h : e.TurnedTo q f)
    (hunit : e.state.body.ang.normSq = 1) (u : GpsUpdater K) (g : GpsState K) (hg : e.state.gpss.find? u.id = some g)
    (hx : u.isExtrinsic = true → g.isExtrinsic = true) (hpos : u.posAInB = 0) (H H' R R' : Mat K) (loc : V3 K)
    (hH : u.jacobianOf N e = .ok H) (hH' : u.jacobianOf N f = .ok H')
    (hR : ∀ a b : Fin 3, R'.get a b = (q.toMat * (Matrix.of fun a b : Fin 3 => R.get a b) * q.toMat.transpose) a b) :
    SameTurned e.stateSize q H (Vec.of3 (loc - (e.state.body.pos + e.state.body.ang.rotate u.posAInB))) R
      H' (Vec.of3 (q.rotate loc - (f.state.body.pos + f.state.body.ang.rotate u.posAInB))) R' := by
  have hr := h.rest
  have l18 : 18 ≤ e.stateSize := by rw [hi.size]; unfold State.dim; omega
  have fb : f.state.body = e.state.body.turned q := by rw [hr]
  have fg : u.gpsOf f = u.gpsOf e := by unfold GpsUpdater.gpsOf; rw [hr]
  have eg : u.gpsOf e = g := by unfold GpsUpdater.gpsOf UMap.getD; rw [hg]; rfl
  have g18 : u.isExtrinsic = true → 18 ≤ (u.gpsOf e).index := fun hy => by
    rw [eg]; exact (gps_columns hi.laid.tiles hg (hx hy)).1
  have jH := gpsJacobian_get hH (fun hy => by have := g18 hy; omega)
  have jH' := gpsJacobian_get hH' (fun hy => by have := g18 hy; rw [fg]; omega)
  have hm : (q.mul e.state.body.ang).toMat = q.toMat * e.state.body.ang.toMat := (Quat.toMat_mul hq.unit hunit).symm
  have hs : skew (0 : V3 K) = 0 := by ext i j; fin_cases i <;> fin_cases j <;> simp [skew]
  have hang : f.state.body.ang.toMat = q.toMat * e.state.body.ang.toMat := by rw [fb]; exact hm
  have r0 := (jH 0 0).1
  have r0' := (jH' 0 0).1
  have cs := hq.cos_sin
  have M := hq.toMat
  refine ⟨by rw [r0, r0'], fun a b => if h : a < 3 ∧ b < 3 then q.toMat ⟨a, h.1⟩ ⟨b, h.2⟩ else 0, ?_, ?_, ?_, ?_⟩
  · rw [r0]
    intro a b ha hb
    rw [M]
    interval_cases a <;> interval_cases b <;> simp [sum_range_succ] <;> first | ring1 | linear_combination cs
  · rw [r0]
    intro a j ha hj
    have ht : ∀ b, ∑ k ∈ range e.stateSize, H.get b k * q.turning j k = tw q.cosine q.sine (H.get b) j := fun b => by
      rw [← sum_turning l18 _ _ _ hj]
      exact sum_congr rfl fun k _ => mul_comm _ _
    simp only [ht]
    rw [(jH' a j).2, hang, hpos, hs, Matrix.mul_zero, Matrix.zero_mul, fg]
    have jg : ∀ b k, H.get b k = if b < 3 then (if k < 3 then (M3.toMat (1 : M3 K)).get b k
        else if u.isExtrinsic = true ∧ (u.gpsOf e).index ≤ k ∧ k < (u.gpsOf e).index + 3 then (M3.toMat e.state.body.ang.toMat).get b (k - (u.gpsOf e).index)
        else 0) else 0 := fun b k => by
      rw [(jH b k).2, hpos, hs, Matrix.mul_zero, Matrix.zero_mul]
      by_cases hb : b < 3
      · rw [if_pos hb, if_pos hb]
        by_cases h3 : k < 3
        · rw [if_pos h3, if_pos h3]
        · rw [if_neg h3, if_neg h3]
          by_cases h9 : 9 ≤ k ∧ k < 12
          · rw [if_pos h9, if_neg (fun hy => by have := g18 hy.1; omega)]
            simp [M3.toMat]
          · rw [if_neg h9]
      · rw [if_neg hb, if_neg hb]
    by_cases h3 : j < 3
    · rw [if_pos ha, if_pos h3, M]
      have e0 : ∀ b, tw q.cosine q.sine (H.get b) 0 = _ := fun b => tw_first (i := 0) (by decide)
      have e1 : ∀ b, tw q.cosine q.sine (H.get b) 1 = _ := fun b => tw_second (i := 0) (by decide)
      have e2 : ∀ b, tw q.cosine q.sine (H.get b) 2 = _ := fun b => tw_other (by decide) (by decide)
      interval_cases j
      · simp only [e0, jg]
        interval_cases a <;> simp [sum_range_succ, M3.toMat] <;> first | ring1 | linear_combination -cs
      · simp only [e1, jg]
        interval_cases a <;> simp [sum_range_succ, M3.toMat] <;> first | ring1 | linear_combination -cs
      · simp only [e2, jg]
        interval_cases a <;> simp [sum_range_succ, M3.toMat]
    · rw [if_pos ha, if_neg h3]
      by_cases h18 : j < 18
      · have hz : ∀ k, 3 ≤ k → k < 18 → ∀ b, H.get b k = 0 := fun k k1 k2 b => by
          rw [jg]
          by_cases hb : b < 3
          · rw [if_pos hb, if_neg (by omega : ¬ k < 3), if_neg (fun hy => by have := g18 hy.1; omega)]
          · rw [if_neg hb]
        have hzz : ∀ b, tw q.cosine q.sine (H.get b) j = 0 := fun b => by
          obtain hh | ⟨i, rfl, hh⟩ | ⟨h0, h1⟩ := horizontal_cases j
          · have := hh.lt
            rw [tw_first hh, hz j (by omega) h18, hz (j + 1) (by omega) (by omega)]; ring
          · have : 3 ≤ i := by obtain ⟨_, _, _⟩ := hh; omega
            rw [tw_second hh, hz i (by omega) (by omega), hz (i + 1) (by omega) h18]; ring
          · rw [tw_other h0 h1, hz j (by omega) h18]
        simp only [hzz, mul_zero, sum_const_zero]
        by_cases h9 : 9 ≤ j ∧ j < 12
        · rw [if_pos h9]; simp [M3.toMat]
        · rw [if_neg h9, if_neg (fun hy => by have := g18 hy.1; omega)]
      · have ho : ∀ b, tw q.cosine q.sine (H.get b) j = H.get b j := fun b =>
          tw_other (fun hy => absurd hy.1 (by omega)) (fun hy => absurd hy.1 (by omega))
        simp only [ho, jg]
        rw [if_neg (by omega)]
        by_cases hy : u.isExtrinsic = true ∧ (u.gpsOf e).index ≤ j ∧ j < (u.gpsOf e).index + 3
        · simp only [if_pos hy, if_neg h3]
          obtain ⟨k, hk⟩ : ∃ k, j - (u.gpsOf e).index = k := ⟨_, rfl⟩
          have hk3 : k < 3 := by omega
          rw [hk]
          interval_cases a <;> interval_cases k <;> simp [sum_range_succ, M3.toMat, Matrix.mul_apply, Fin.sum_univ_three]
        · simp only [if_neg hy, if_neg h3]
          simp
  · rw [r0]
    intro a ha
    have hd : q.rotate loc - (f.state.body.pos + f.state.body.ang.rotate u.posAInB) =
        q.rotate (loc - (e.state.body.pos + e.state.body.ang.rotate u.posAInB)) := by
      rw [hpos, Quat.rotate_zero, Quat.rotate_zero, fb, add_zero, add_zero, hq.sub]; rfl
    rw [hd, Quat.rotate_toMat]
    interval_cases a <;> simp [Vec.of3, sum_range_succ, Matrix.mulVec, dotProduct, Fin.sum_univ_three]
  · rw [r0]
    intro a b ha hb
    have := hR ⟨a, ha⟩ ⟨b, hb⟩
    simp only at this
    rw [this]
    simp only [Matrix.mul_apply, Fin.sum_univ_three, Matrix.transpose_apply, Matrix.of_apply, congr, sum_range_succ, range_zero, sum_empty, zero_add]
    simp [ha, hb]
    ring

/-! ## The real conversions -/

theorem realPrim_turns {q : Quat ℝ} (hq : q.Vertical) : realPrim.TurnsWith q := by
  intro v
  have hc := hq.circle
  have cs := hq.cos_sin
  have hn : V3.norm (q.rotate v) = V3.norm v := by
    unfold V3.norm
    congr 1
    rw [hq.rotate]
    simp
    linear_combination (v 0 * v 0 + v 1 * v 1) * cs
  show rotVecToQuat (q.rotate v) = (q.mul (rotVecToQuat v)).mul q.inverse
  rw [Quat.inverse_of_unit hq.unit]
  unfold rotVecToQuat
  rw [hn]
  have hx := hq.x
  have hy := hq.y
  split
  · have hr := hq.rotate v
    ext <;> simp [Quat.ofAngleAxis, Quat.mul, hx, hy, hr, Quat.cosine, Quat.sine]
    · linear_combination (-Real.cos (V3.norm v / 2)) * hc
    · ring
    · ring
    · linear_combination (-(Real.sin (V3.norm v / 2) * (v 2 / V3.norm v))) * hc
  · ext <;> simp [Quat.mul, hx, hy]
    · linear_combination -hc
    · ring

/-- Half a turn. -/
def C95_half : Quat ℝ := ⟨0, 0, 0, 1⟩

theorem sample_C95_half : C95_half.Vertical := ⟨rfl, rfl, by simp [Quat.normSq, C95_half]⟩

theorem sample_C95_vec : quatToRotVec C95_half = ![0, 0, Real.pi] := by
  have h1 : V3.norm ![0, 0, 1] = 1 := by simp [V3.norm]
  have h2 : atan2 1 0 = Real.pi / 2 := by
    unfold atan2
    exact Complex.arg_I
  unfold quatToRotVec Quat.toAngleAxis C95_half
  simp [h1, h2]
  funext i; fin_cases i <;> simp
  ring

theorem sample_C95_jac : quatJacobian C95_half = !![0, 2 / Real.pi, 0; -(2 / Real.pi), 0, 0; 0, 0, 1] := by
  have hp := Real.pi_pos
  have hn : V3.norm ![0, 0, Real.pi] = Real.pi := by
    simp [V3.norm, Real.sqrt_mul_self hp.le]
  have hm : max Real.pi (1 / 10 ^ 9) = Real.pi := max_eq_left (by have := Real.pi_gt_three; norm_num; linarith)
  unfold quatJacobian
  rw [sample_C95_vec]
  dsimp only
  rw [hn, hm, Real.cos_pi, Real.sin_pi]
  ext i j
  fin_cases i <;> fin_cases j <;> simp [skew, Matrix.mul_apply, Fin.sum_univ_three] <;> field_simp <;> ring

/-- A horizontal fix with a Jacobian whose orientation part has the square `d` moves the position by `r / (d + 101)`. -/
theorem fix_moves {e e' : Ekf ℝ} {H : Mat ℝ} {r : Vec ℝ} {X : M3 ℝ} {d : ℝ} (hd : 0 ≤ d) (hu : e.useRoot = false) (hn : e.cov.rows = 18)
    (hi : Inv e) (hc : ∀ i j, e.cov.get i j = if i = j then 1 / 100 else 0) (hr : H.rows = 3)
    (hH : ∀ a b, H.get a b = if a < 3 then (if b < 3 then (if a = b then 1 else 0) else if 9 ≤ b ∧ b < 12 then (M3.toMat X).get a (b - 9) else 0) else 0)
    (hX : X * X.transpose = !![d, 0, 0; 0, d, 0; 0, 0, 0]) (r1 : r.get 1 = 0) (r2 : r.get 2 = 0)
    (h : kalmanUpdate realPrim e H r (Mat.identity 3 3) = .ok e') : e'.state.body.pos 0 = e.state.body.pos 0 + r.get 0 / (d + 101) := by
  have E : ∀ i j, (X * X.transpose) i j = (!![d, 0, 0; 0, d, 0; 0, 0, 0] : M3 ℝ) i j := fun i j => by rw [hX]
  have E00 := E 0 0; have E01 := E 0 1; have E02 := E 0 2; have E11 := E 1 1; have E12 := E 1 2; have E22 := E 2 2
  simp [Matrix.mul_apply, Fin.sum_univ_three] at E00 E01 E02 E11 E12 E22
  have hs : ∀ a b, a < 3 → b < 3 → innovation 18 e.cov.get H (Mat.identity 3 3) a b =
      if a = b then (if a = 2 then 101 / 100 else (d + 101) / 100) else 0 := by
    intro a b ha hb
    have hc' : e.cov.get = fun i j => if i = j then 1 / 100 else 0 := by funext i j; exact hc i j
    have h1 : congr 18 H.get e.cov.get a b = ∑ k ∈ range 18, H.get a k * (1 / 100) * H.get b k := by
      unfold congr
      rw [hc']
      refine sum_congr rfl fun k hk => ?_
      rw [sum_eq_single k]
      · simp
      · intro l _ hl
        show H.get a k * (if k = l then 1 / 100 else 0) * H.get b l = 0
        rw [if_neg (fun hx => hl hx.symm)]; ring
      · intro hx; exact absurd hk hx
    unfold innovation
    rw [h1]
    interval_cases a <;> interval_cases b <;> simp [sum_range_succ, hH, M3.toMat, Mat.identity] <;>
      first
      | linear_combination (1 / 100) * E00
      | linear_combination (1 / 100) * E01
      | linear_combination (1 / 100) * E02
      | linear_combination (1 / 100) * E11
      | linear_combination (1 / 100) * E12
      | linear_combination (1 / 100) * E22
  have h101 : d + 101 ≠ 0 := by linarith
  have hB : AreInverse H.rows (innovation e.cov.rows e.cov.get H (Mat.identity 3 3))
      (fun a b => if a = b then (if a = 2 then 100 / 101 else 100 / (d + 101)) else 0) := by
    rw [hn, hr]
    constructor
    · intro i j h2 h3
      rw [sum_congr rfl fun k hk => by rw [hs i k h2 (mem_range.1 hk)]]
      interval_cases i <;> interval_cases j <;> simp <;> field_simp
    · intro i j h2 h3
      rw [sum_congr rfl fun k hk => by rw [hs k j (mem_range.1 hk) h3]]
      interval_cases i <;> interval_cases j <;> simp <;> first | exact h101 | field_simp
  obtain ⟨h1, _⟩ := C10_update realPrim realPrim_inv e e' H r _ hu h _ hB
  have hsz : e.stateSize = 18 := hi.covRows.symm.trans hn
  rw [State.addVec_moved realPrim _ _ 18 (by have := hi.laid.tiles; rw [hsz] at this; exact this) (by rw [hn]; exact le_refl _)] at h1
  rw [← Except.ok.inj h1]
  show e.state.body.pos 0 + _ = _
  congr 1
  have hb : e.state.body.index = 0 := hi.tiles.1
  show (correction e.cov.rows H _ r).get (e.state.body.index) = _
  rw [hb, hn]
  show ∑ a ∈ range H.rows, kalmanGain 18 e.cov.get H _ 0 a * r.get a = _
  rw [hr, sum_range_succ, sum_range_succ, sum_range_succ, r1, r2]
  have hk : ∀ b, ∑ k ∈ range 18, e.cov.get 0 k * H.get b k = (1 / 100) * H.get b 0 := fun b => by
    rw [sum_eq_single 0]
    · rw [hc]; simp
    · intro l _ hl; rw [hc, if_neg (fun hx => hl hx.symm), zero_mul]
    · intro hx; exact absurd (mem_range.2 (by omega)) hx
  unfold kalmanGain
  simp only [hk, hr]
  simp [hH]
  field_simp

/-- An antenna one metre above the origin of the body. -/
noncomputable def C95_antenna : GpsState ℝ := { (GpsState.default : GpsState ℝ) with pos := ![0, 0, 1] }

/-- **The heading matters**: the position correction from one and the same fix is larger or smaller depending on the heading if the
antenna is not at the origin of the body. -/
theorem C95_violated : ¬ ∀ (q : Quat ℝ) (e f : Ekf ℝ), q.Vertical → e.Reachable realPrim → f.Reachable realPrim → e.TurnedTo q f →
    ∀ (u : GpsUpdater ℝ) (H H' : Mat ℝ) (loc : V3 ℝ) (e' f' : Ekf ℝ), u.posAInB = (u.gpsOf e).pos →
      u.jacobianOf realNum e = .ok H → u.jacobianOf realNum f = .ok H' →
      kalmanUpdate realPrim e H (Vec.of3 (loc - (e.state.body.pos + e.state.body.ang.rotate u.posAInB))) (Mat.identity 3 3) = .ok e' →
      kalmanUpdate realPrim f H' (Vec.of3 (q.rotate loc - (f.state.body.pos + f.state.body.ang.rotate u.posAInB))) (Mat.identity 3 3) = .ok f' →
      f'.state.body.pos = q.rotate e'.state.body.pos := by
  intro hall
  obtain ⟨e, he, e1, e2, e3, e4, e5, e6⟩ : ∃ e, run realPrim (init realPrim C86_params)
      [.registerGPS 7 C95_antenna (Mat.zero 0 0), .initializeAt 0 BodyState.default] = .ok e ∧ e.stateSize = 18 ∧ e.useRoot = false ∧
      e.state.body = BodyState.default ∧ (GpsUpdater.gpsOf (⟨7, false, false, ![0, 0, 1]⟩ : GpsUpdater ℝ) e).pos = ![0, 0, 1] ∧
      e.cov = (init realPrim C86_params).cov ∧ run realPrim (init realPrim C86_params)
      [.registerGPS 7 C95_antenna (Mat.zero 0 0), .initializeAt 0 (BodyState.turned C95_half BodyState.default)] =
        .ok { e with state := { e.state with body := e.state.body.turned C95_half } } :=
    ⟨_, rfl, rfl, rfl, rfl, rfl, rfl, rfl⟩
  obtain ⟨f, hf⟩ : ∃ f : Ekf ℝ, f = { e with state := { e.state with body := e.state.body.turned C95_half } } := ⟨_, rfl⟩
  rw [← hf] at e6
  have wf : ∀ b : BodyState ℝ, b.index = 0 → ∀ op ∈ ([.registerGPS 7 C95_antenna (Mat.zero 0 0), .initializeAt 0 b] : List (Op ℝ)), op.WF := by
    intro b hb op h
    simp only [List.mem_cons, List.not_mem_nil, or_false] at h
    rcases h with rfl | rfl
    · rfl
    · exact hb
  have re : e.Reachable realPrim := ⟨_, _, wf _ rfl, he⟩
  have rf : f.Reachable realPrim := ⟨_, _, wf _ rfl, e6⟩
  have ie := re.inv
  have jf := rf.inv
  have hq := sample_C95_half
  have hc : ∀ i j, e.cov.get i j = if i = j then 1 / 100 else 0 := fun i j => by
    rw [e5]
    show (if i = j then (1 : ℝ) else 0) * (1 / 100) = _
    split <;> ring
  have hrows : e.cov.rows = 18 := by rw [e5]; rfl
  have hcols : e.cov.cols = 18 := by rw [e5]; rfl
  have fcov : f.cov = e.cov := by rw [hf]
  have turned : e.TurnedTo C95_half f := by
    refine ⟨?_, by rw [fcov], by rw [fcov], ?_⟩
    · rw [hf]
    · rw [fcov, hrows]
      intro i j hi hj
      refine (level_diagonal hq (by omega) (fun i j _ _ hij => by rw [hc, if_neg hij]) (fun i _ => by rw [hc, hc, if_pos rfl, if_pos rfl]) i j hi hj).symm
  obtain ⟨u, hu⟩ : ∃ u : GpsUpdater ℝ, u = ⟨7, false, false, ![0, 0, 1]⟩ := ⟨_, rfl⟩
  rw [← hu] at e4
  have hux : u.isExtrinsic = false := by rw [hu]
  have hup : u.posAInB = ![0, 0, 1] := by rw [hu]
  have jac : ∀ g : Ekf ℝ, g.stateSize = 18 → ∃ H, u.jacobianOf realNum g = .ok H ∧ H.cols = 18 := by
    intro g hg
    unfold GpsUpdater.jacobianOf
    rw [hg, hux]
    exact ⟨_, rfl, rfl⟩
  have f1 : f.stateSize = 18 := by rw [hf]; exact e1
  have fb : f.state.body = BodyState.turned C95_half BodyState.default := by rw [hf, ← e3]
  obtain ⟨H, hH, cH⟩ := jac e e1
  obtain ⟨H', hH', cH'⟩ := jac f f1
  have jH := gpsJacobian_get hH (fun h => by rw [hux] at h; cases h)
  have jH' := gpsJacobian_get hH' (fun h => by rw [hux] at h; cases h)
  have rH := (jH 0 0).1
  have rH' := (jH' 0 0).1
  obtain ⟨e', he'⟩ := kalman_defined realPrim e H (Vec.of3 (![1, 0, 1] - (e.state.body.pos + e.state.body.ang.rotate u.posAInB)))
    (Mat.identity 3 3) ie (cH.trans e1.symm) rH.symm rH.symm rH.symm
  obtain ⟨f', hf'⟩ := kalman_defined realPrim f H' (Vec.of3 (C95_half.rotate ![1, 0, 1] - (f.state.body.pos + f.state.body.ang.rotate u.posAInB)))
    (Mat.identity 3 3) jf (cH'.trans f1.symm) rH'.symm rH'.symm rH'.symm
  have key := hall C95_half e f hq re rf turned u H H' ![1, 0, 1] e' f' (hup.trans e4.symm) hH hH' he' hf'
  have a1 : e.state.body.ang = Quat.one := by rw [e3]; rfl
  have a2 : f.state.body.ang = C95_half := by
    rw [fb]; show C95_half.mul Quat.one = _; rw [Quat.mul_one']
  have p1 : e.state.body.pos = 0 := by rw [e3]; rfl
  have p2 : f.state.body.pos = 0 := by rw [fb]; exact hq.zero
  have d1 : (![1, 0, 1] : V3 ℝ) - (e.state.body.pos + e.state.body.ang.rotate u.posAInB) = ![1, 0, 0] := by
    rw [p1, a1, Quat.one_rotate, hup]; funext i; fin_cases i <;> simp
  have d2 : C95_half.rotate ![1, 0, 1] - (f.state.body.pos + f.state.body.ang.rotate u.posAInB) = ![-1, 0, 0] := by
    rw [p2, a2, hup, hq.rotate, hq.rotate]; funext i; fin_cases i <;> simp [Quat.cosine, Quat.sine, C95_half]
  rw [d1] at he'
  rw [d2] at hf'
  have v0 : quatToRotVec Quat.one = 0 := by
    funext i
    simp [quatToRotVec, Quat.toAngleAxis, Quat.one, V3.norm]
  have hX : ∀ (g : Ekf ℝ) (J : Mat ℝ), (∀ a b, J.rows = 3 ∧ J.get a b = if a < 3 then
      (if b < 3 then (M3.toMat (1 : M3 ℝ)).get a b
       else if 9 ≤ b ∧ b < 12 then (M3.toMat (-g.state.body.ang.toMat * skew u.posAInB * realNum.quatJac g.state.body.ang)).get a (b - 9)
       else if u.isExtrinsic = true ∧ (u.gpsOf g).index ≤ b ∧ b < (u.gpsOf g).index + 3 then (M3.toMat g.state.body.ang.toMat).get a (b - (u.gpsOf g).index)
       else 0) else 0) → ∀ a b, J.get a b = if a < 3 then (if b < 3 then (if a = b then 1 else 0) else if 9 ≤ b ∧ b < 12 then
        (M3.toMat (-g.state.body.ang.toMat * skew u.posAInB * quatJacobian g.state.body.ang)).get a (b - 9) else 0) else 0 := by
    intro g J h a b
    rw [(h a b).2, hux]
    by_cases ha : a < 3
    · rw [if_pos ha, if_pos ha]
      by_cases hb : b < 3
      · rw [if_pos hb, if_pos hb]
        simp [M3.toMat, ha, hb, Matrix.one_apply]
      · rw [if_neg hb, if_neg hb]
        simp only [Bool.false_eq_true, false_and, if_false]
        rfl
    · rw [if_neg ha, if_neg ha]
  have hp := Real.pi_gt_three
  have m1 := fix_moves (d := 1) zero_le_one e2 hrows ie hc rH (hX e H jH)
    (by
      rw [a1, hup, C39_jacobian_one _ v0, Matrix.mul_one]
      ext i j
      fin_cases i <;> fin_cases j <;> simp [Quat.toMat, Quat.one, skew, Matrix.mul_apply, Fin.sum_univ_three]) rfl rfl he'
  have m2 := fix_moves (d := 4 / Real.pi ^ 2) (by positivity) (by rw [hf]; exact e2) (by rw [fcov]; exact hrows) jf (by rw [fcov]; exact hc) rH' (hX f H' jH')
    (by
      rw [a2, hup, sample_C95_jac]
      ext i j
      fin_cases i <;> fin_cases j <;> simp [Quat.toMat, C95_half, skew, Matrix.mul_apply, Fin.sum_univ_three] <;> field_simp <;> norm_num) rfl rfl hf'
  have k0 := congrFun key 0
  rw [hq.rotate] at k0
  simp [Quat.cosine, Quat.sine, C95_half] at k0
  rw [m1, m2, p1, p2] at k0
  simp [Vec.of3] at k0
  have hpp : (4 : ℝ) / Real.pi ^ 2 < 1 := by
    rw [div_lt_one (by positivity)]; nlinarith
  have h4 : (0 : ℝ) < 4 / Real.pi ^ 2 := by positivity
  have : (4 : ℝ) / Real.pi ^ 2 + 101 ≠ 0 := by linarith
  field_simp at k0
  nlinarith

theorem sample_C95_step {e : Ekf ℝ} (hi : Inv e) (hp : e.bodyProcessNoise.size = 18) (ha : e.augType = .none) {n : Nat} (hn : e.stateSize = n)
    (op : Op ℝ) (ho : (∃ t, op = .predict t) ∨ (∃ b, op = .setZeroAcceleration b) ∨
      ∃ c : ℝ, op = .kalman (C92_H n) ⟨1, fun _ => c⟩ ((Mat.identity 1 1).smul 1)) :
    ∃ e', step realPrim e op = .ok e' ∧ Inv e' ∧ e'.bodyProcessNoise.size = 18 ∧ e'.augType = .none ∧ e'.stateSize = n := by
  obtain ⟨t, rfl⟩ | ⟨b, rfl⟩ | ⟨c, rfl⟩ := ho
  · obtain ⟨e', h, g1, g2, g3, g4⟩ := sample_C92_step hi hp ha hn (.predict t) (.inl ⟨t, rfl⟩)
    exact ⟨e', h, g1, g2, g3, g4⟩
  · exact ⟨_, rfl, inv_step (N := realPrim) hi (op := .setZeroAcceleration b) trivial rfl, hp, ha, hn⟩
  · obtain ⟨e', h⟩ := kalman_defined realPrim e (C92_H n) ⟨1, fun _ => c⟩ ((Mat.identity 1 1).smul 1) hi hn.symm rfl rfl rfl
    refine ⟨e', h, inv_step (N := realPrim) hi (op := .kalman ..) trivial h, ?_⟩
    obtain ⟨_, _, rfl⟩ := kalman_rest h
    exact ⟨hp, ha, hn⟩

theorem sample_C95_run {n : Nat} {ops : List (Op ℝ)} : ∀ {e : Ekf ℝ}, Inv e → e.bodyProcessNoise.size = 18 → e.augType = .none → e.stateSize = n →
    (∀ op ∈ ops, (∃ t, op = .predict t) ∨ (∃ b, op = .setZeroAcceleration b) ∨
      ∃ c : ℝ, op = .kalman (C92_H n) ⟨1, fun _ => c⟩ ((Mat.identity 1 1).smul 1)) → ∃ e', run realPrim e ops = .ok e' := by
  induction ops with
  | nil => intro e _ _ _ _ _; exact ⟨e, rfl⟩
  | cons op ops ih =>
    intro e h1 h2 h3 h4 ho
    obtain ⟨e1, g1, g2, g3, g4, g5⟩ := sample_C95_step h1 h2 h3 h4 op (ho op (List.mem_cons_self ..))
    obtain ⟨e', g⟩ := ih g2 g3 g4 g5 fun x hx => ho x (List.mem_cons_of_mem _ hx)
    exact ⟨e', by simp only [run, g1, ok_bind, g]⟩

/-- A prediction, a measurement of the position along the first axis, which points the other way in the turned frame, a time at rest and
another prediction. -/
noncomputable def C95_events : List (Seen ℝ) :=
  [.predict 1, .measure (C92_H 18) ⟨1, fun _ => 1⟩ ((Mat.identity 1 1).smul 1) (C92_H 18) ⟨1, fun _ => -1⟩ ((Mat.identity 1 1).smul 1),
   .still true, .predict 2]

theorem sample_C95_events : ∀ o ∈ C95_events, o.OK 18 C95_half := by
  intro o ho
  simp only [C95_events, List.mem_cons, List.not_mem_nil, or_false] at ho
  rcases ho with rfl | rfl | rfl | rfl
  · trivial
  · refine ⟨(sample_C88_cov 1 one_pos).1, (sample_C88_cov 1 one_pos).1, (sample_C88_cov 1 one_pos).2, rfl, fun _ _ => -1, ?_, ?_, ?_, ?_⟩
    · intro a b ha hb
      obtain rfl : a = 0 := Nat.lt_one_iff.1 ha
      obtain rfl : b = 0 := Nat.lt_one_iff.1 hb
      simp [C92_H]
    · intro a j ha hj
      have hz : ∑ k ∈ range 18, (C92_H 18).get 0 k * C95_half.turning j k = C95_half.turning j 0 := by
        rw [sum_eq_single 0]
        · simp [C92_H]
        · intro k _ hk; simp [C92_H, hk]
        · intro h; simp at h
      show (if j = 0 then (1 : ℝ) else 0) = ∑ b ∈ range 1, -1 * ∑ k ∈ range 18, (C92_H 18).get 0 k * C95_half.turning j k
      rw [hz]
      unfold Quat.turning turning
      by_cases h0 : j = 0
      · subst h0; simp [Horizontal, Quat.cosine, C95_half]
      · simp [h0, Quat.sine, C95_half]
    · intro a ha; simp [C92_H]
    · intro a b ha hb
      obtain rfl : a = 0 := Nat.lt_one_iff.1 ha
      obtain rfl : b = 0 := Nat.lt_one_iff.1 hb
      simp [congr, C92_H]
  · trivial
  · trivial

/-- Half a turn of the frame of a filter with an antenna. -/
example : ∃ e e' f', realPrim.Lawful ∧ C95_half.Vertical ∧ realPrim.TurnsWith C95_half ∧
    run realPrim (init realPrim C86_params) [.registerGPS 7 C95_antenna (Mat.zero 0 0), .initializeGravity] = .ok e ∧
    ¬ AugType.Timed e.augType ∧ e.state.fids = [] ∧ e.state.augs = [] ∧ e.processNoise.EvenHorizontally ∧
    Level e.stateSize C95_half e.cov.get ∧ (∀ o ∈ C95_events, o.OK e.stateSize C95_half) ∧
    run realPrim (e.initializeAt 0 BodyState.default) (C95_events.map Seen.here) = .ok e' ∧
    run realPrim (e.initializeAt 0 (BodyState.default.turned C95_half)) (C95_events.map (Seen.there C95_half)) = .ok f' := by
  have hq := sample_C95_half
  obtain ⟨e, he, e1, e2, e3, e4, e5, e6, e7⟩ : ∃ e, run realPrim (init realPrim C86_params)
      [.registerGPS 7 C95_antenna (Mat.zero 0 0), .initializeGravity] = .ok e ∧ e.stateSize = 18 ∧ e.augType = .none ∧ e.state.fids = [] ∧
      e.state.augs = [] ∧ e.cov = (init realPrim C86_params).cov ∧ e.bodyProcessNoise.size = 18 ∧
      (∀ i, i < 18 → e.processNoise.get i i = 1) :=
    ⟨_, rfl, rfl, rfl, rfl, rfl, rfl, rfl, fun i hi => by interval_cases i <;> rfl⟩
  have ie : Inv e := inv_run (inv_init realPrim C86_params) (by
    intro op h
    simp only [List.mem_cons, List.not_mem_nil, or_false] at h
    rcases h with rfl | rfl
    · rfl
    · trivial) he
  have i1 : Inv (e.initializeAt 0 BodyState.default) := inv_step (N := realPrim) ie (op := .initializeAt 0 BodyState.default) rfl rfl
  have i2 : Inv (e.initializeAt 0 (BodyState.default.turned C95_half)) := inv_step (N := realPrim) ie (op := .initializeAt 0 (BodyState.default.turned C95_half)) rfl rfl
  have hc : ∀ i j, e.cov.get i j = if i = j then 1 / 100 else 0 := fun i j => by
    rw [e5]
    show (if i = j then (1 : ℝ) else 0) * (1 / 100) = _
    split <;> ring
  obtain ⟨e', h1⟩ := sample_C95_run (n := 18) (ops := C95_events.map Seen.here) i1 e6 e2 e1 (by
    intro op ho
    simp only [C95_events, List.map_cons, List.map_nil, Seen.here, List.mem_cons, List.not_mem_nil, or_false] at ho
    rcases ho with rfl | rfl | rfl | rfl
    · exact .inl ⟨_, rfl⟩
    · exact .inr (.inr ⟨_, rfl⟩)
    · exact .inr (.inl ⟨_, rfl⟩)
    · exact .inl ⟨_, rfl⟩)
  obtain ⟨f', h2⟩ := sample_C95_run (n := 18) (ops := C95_events.map (Seen.there C95_half)) i2 e6 e2 e1 (by
    intro op ho
    simp only [C95_events, List.map_cons, List.map_nil, Seen.there, List.mem_cons, List.not_mem_nil, or_false] at ho
    rcases ho with rfl | rfl | rfl | rfl
    · exact .inl ⟨_, rfl⟩
    · exact .inr (.inr ⟨_, rfl⟩)
    · exact .inr (.inl ⟨_, rfl⟩)
    · exact .inl ⟨_, rfl⟩)
  refine ⟨e, e', f', realPrim_lawful, hq, realPrim_turns hq, he, by rw [e2]; simp [AugType.Timed], e3, e4, ?_, ?_, ?_, h1, h2⟩
  · intro i hi
    have h18 := hi.1
    have hm := hi.2.2
    rw [e7 i h18, e7 (i + 1) (by omega)]
  · exact level_diagonal hq (by omega) (fun i j _ _ hij => by rw [hc, if_neg hij]) (fun i _ => by rw [hc, hc, if_pos rfl, if_pos rfl])
  · rw [e1]; exact sample_C95_events

/-- A fix of an antenna at the origin of the body, in the first frame and in the one turned by half a turn. -/
example : ∃ (e f : Ekf ℝ) (g : GpsState ℝ) (H H' : Mat ℝ), Inv e ∧ e.TurnedTo C95_half f ∧ e.state.body.ang.normSq = 1 ∧
    e.state.gpss.find? 7 = some g ∧ (⟨7, false, false, 0⟩ : GpsUpdater ℝ).jacobianOf realNum e = .ok H ∧
    (⟨7, false, false, 0⟩ : GpsUpdater ℝ).jacobianOf realNum f = .ok H' ∧
    ∀ a b : Fin 3, (Mat.identity 3 3 : Mat ℝ).get a b =
      (C95_half.toMat * (Matrix.of fun a b : Fin 3 => (Mat.identity 3 3 : Mat ℝ).get a b) * C95_half.toMat.transpose) a b := by
  obtain ⟨e, he, e1, e3, e4, e5⟩ : ∃ e, run realPrim (init realPrim C86_params)
      [.registerGPS 7 GpsState.default (Mat.zero 0 0), .initializeAt 0 BodyState.default] = .ok e ∧ e.stateSize = 18 ∧
      e.state.body = BodyState.default ∧ (∃ g, e.state.gpss.find? 7 = some g) ∧ e.cov = (init realPrim C86_params).cov :=
    ⟨_, rfl, rfl, rfl, ⟨_, rfl⟩, rfl⟩
  obtain ⟨g, hg⟩ := e4
  have ie : Inv e := inv_run (inv_init realPrim C86_params) (by
    intro op h
    simp only [List.mem_cons, List.not_mem_nil, or_false] at h
    rcases h with rfl | rfl
    · rfl
    · rfl) he
  have hc : ∀ i j, e.cov.get i j = if i = j then 1 / 100 else 0 := fun i j => by
    rw [e5]
    show (if i = j then (1 : ℝ) else 0) * (1 / 100) = _
    split <;> ring
  have jac : ∀ g : Ekf ℝ, g.stateSize = 18 → ∃ H, (⟨7, false, false, 0⟩ : GpsUpdater ℝ).jacobianOf realNum g = .ok H := by
    intro g hg
    unfold GpsUpdater.jacobianOf
    rw [hg]
    exact ⟨_, rfl⟩
  obtain ⟨H, hH⟩ := jac e e1
  obtain ⟨H', hH'⟩ := jac { e with state := { e.state with body := e.state.body.turned C95_half } } e1
  refine ⟨e, { e with state := { e.state with body := e.state.body.turned C95_half } }, g, H, H', ie, ⟨rfl, rfl, rfl, fun i j hi hj => ?_⟩, ?_, hg, hH, hH', ?_⟩
  · exact (level_diagonal sample_C95_half (by rw [e5]; exact le_refl 18) (fun i j _ _ hij => by rw [hc, if_neg hij])
      (fun i _ => by rw [hc, hc, if_pos rfl, if_pos rfl]) i j hi hj).symm
  · rw [e3]; simp [BodyState.default, Quat.one, Quat.normSq]
  · intro a b
    fin_cases a <;> fin_cases b <;>
      simp [Quat.toMat, C95_half, Mat.identity, Matrix.mul_apply, Fin.sum_univ_three, Matrix.vecHead, Matrix.vecTail]

end EkfCal
