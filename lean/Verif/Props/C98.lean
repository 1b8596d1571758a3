import Verif.Spec.SameTime
import Verif.Props.C90
import Verif.Props.C91
import Verif.Props.C92

/-!
# C98 — messages with the same time may come in any order
-/

set_option linter.unusedSectionVars false

namespace EkfCal
open Ekf Finset Matrix
variable {K : Type} [Field K]

/-- Two corrections as one. -/
def Vec.plus (v w : Vec K) : Vec K := ⟨v.size, fun i => v.get i + w.get i⟩

theorem Vec.at3_plus (v w : Vec K) (i : Nat) : (v.plus w).at3 i = v.at3 i + w.at3 i := by
  funext k; fin_cases k <;> rfl

theorem UMap.mapVal_mapVal {α : Type} (f g : α → α) (m : UMap α) : UMap.mapVal f (UMap.mapVal g m) = UMap.mapVal (fun x => f (g x)) m := by
  unfold UMap.mapVal; rw [List.map_map]; rfl

/-- But for orientations, two corrections add up. -/
theorem State.plain_moved (N : Prim K) (s : State K) (v w : Vec K) : ((s.moved N v).moved N w).plain = (s.moved N (v.plus w)).plain := by
  have hb : ({ (s.body.moved N v).moved N w with ang := Quat.one } : BodyState K) = { s.body.moved N (v.plus w) with ang := Quat.one } := by
    simp only [BodyState.moved, Vec.at3_plus, add_assoc]
  unfold State.plain State.moved
  dsimp only
  rw [hb]
  simp only [UMap.mapVal_mapVal]
  congr 1
  · refine UMap.mapVal_same fun kv _ => ?_
    cases h1 : kv.2.isExtrinsic <;> cases h2 : kv.2.isIntrinsic <;> simp [ImuState.moved, Vec.at3_plus, add_assoc, h1, h2]
  · refine UMap.mapVal_same fun kv _ => ?_
    cases h1 : kv.2.isExtrinsic <;> simp [GpsState.moved, Vec.at3_plus, add_assoc, h1]
  · refine UMap.mapVal_same fun kv _ => ?_
    cases h1 : kv.2.isExtrinsic <;> simp [CamState.moved, Vec.at3_plus, add_assoc, h1]
  · refine UMap.mapVal_same fun kv _ => ?_
    cases h1 : kv.2.isExtrinsic <;> simp [FidState.moved, Vec.at3_plus, add_assoc, h1]
  · refine UMap.mapVal_same fun kv _ => ?_
    simp [AugState.moved, Vec.at3_plus, add_assoc]

theorem State.moved_same [LinearOrder K] (N : Prim K) {s : State K} {n : Nat} (ht : Tiles s.blocks 0 n) {v w : Vec K}
    (h : ∀ i, i < n → v.get i = w.get i) : s.moved N v = s.moved N w := by
  have h0 : s.body.index = 0 ∧ 18 ≤ n := by
    unfold State.blocks at ht
    have := ht
    simp only [List.append_assoc, List.cons_append, List.nil_append] at this
    exact ⟨this.1, by have := Tiles.le' this.2; omega⟩
  have hk : ∀ i, i + 3 ≤ 18 → v.at3 i = w.at3 i := fun i hi => Vec.at3_same (h i (by omega)) (h _ (by omega)) (h _ (by omega))
  rw [State.moved_rest N ht fun i _ hi => h i hi]
  have : s.body.moved N v = s.body.moved N w := by
    unfold BodyState.moved
    rw [h0.1, hk 0 (by omega), hk (0 + 3) (by omega), hk (0 + 6) (by omega), hk (0 + 9) (by omega), hk (0 + 12) (by omega), hk (0 + 15) (by omega)]
  rw [this]; rfl

variable [LinearOrder K] [IsStrictOrderedRing K]

/-- Two updates in a row, where the filter may have been given an equal covariance in between. -/
theorem measured_pair (N : Prim K) (hN : N.Lawful) {e e₁ f₁ e₁₂ : Ekf K} {H₁ R₁ H₂ R₂ : Mat K} {r₁ r₂ r₂' : Vec K}
    (h₁ : Measured N e H₁ r₁ R₁ e₁) (hn : f₁.cov.rows = e₁.cov.rows)
    (hf : ∀ i j, i < e.cov.rows → j < e.cov.rows → f₁.P i j = e₁.P i j) (h₁₂ : Measured N f₁ H₂ r₂' R₂ e₁₂)
    {Ri₁ Ri₂ : Nat → Nat → K} (hRi₁ : AreInverse H₁.rows R₁.get Ri₁) (hRi₂ : AreInverse H₂.rows R₂.get Ri₂)
    (hr : ∀ a, a < H₂.rows → r₂'.get a = r₂.get a - ∑ k ∈ range e.cov.rows, H₂.get a k * weighed e.cov.rows e₁.P H₁ Ri₁ r₁ k) :
    let n := e.cov.rows
    let J₁ := (toM H₁.rows n H₁.get)ᵀ * toM H₁.rows H₁.rows Ri₁ * toM H₁.rows n H₁.get
    let J₂ := (toM H₂.rows n H₂.get)ᵀ * toM H₂.rows H₂.rows Ri₂ * toM H₂.rows n H₂.get
    toM n n e₁₂.P * (1 + (J₁ + J₂) * toM n n e.P) = toM n n e.P ∧ IsUnit (1 + (J₁ + J₂) * toM n n e.P) ∧
    ∀ i, i < n → weighed n e₁.P H₁ Ri₁ r₁ i + weighed n e₁₂.P H₂ Ri₂ r₂' i = weighed n e₁₂.P H₁ Ri₁ r₁ i + weighed n e₁₂.P H₂ Ri₂ r₂ i := by
  obtain ⟨hn', _, S₁, B₁, hS₁, hB₁', hB₁, hP₁, _⟩ := measured_matrices N hN e e₁ H₁ r₁ R₁ h₁ Ri₁ hRi₁
  obtain ⟨_, _, S₂, B₂, hS₂, hB₂', hB₂, hP₂, _⟩ := measured_matrices N hN f₁ e₁₂ H₂ r₂' R₂ h₁₂ Ri₂ hRi₂
  intro n J₁ J₂
  rw [hn, hn', toM_eq_iff.2 hf] at hS₂ hP₂
  have g₁ := gather_mul _ _ _ _ S₁ B₁ (areInverse_toM.1 hRi₁).2 hS₁ hB₁'
  have g₂ := gather_mul _ _ _ _ S₂ B₂ (areInverse_toM.1 hRi₂).2 hS₂ hB₂'
  have u₁ := gather_inv _ _ _ _ S₁ B₁ (areInverse_toM.1 hRi₁).2 hS₁ hB₁'
  have u₂ := gather_inv _ _ _ _ S₂ B₂ (areInverse_toM.1 hRi₂).2 hS₂ hB₂'
  rw [← hP₁] at g₁
  rw [← hP₂] at g₂
  refine ⟨gather_twice _ _ _ _ _ g₁ g₂, gather_unit _ _ _ _ g₁ (IsUnit.of_mul_eq_one _ u₁) (IsUnit.of_mul_eq_one _ u₂), fun i hi => ?_⟩
  rw [Matrix.mul_add, Matrix.mul_one, ← Matrix.mul_assoc] at g₂
  have c₁ := sub_eq_iff_eq_add.2 g₂.symm
  have e2 : (fun a : Fin H₂.rows => r₂'.get a) = (fun a : Fin H₂.rows => r₂.get a) -
      toM H₂.rows e.cov.rows H₂.get *ᵥ fun k : Fin e.cov.rows => weighed e.cov.rows e₁.P H₁ Ri₁ r₁ k := by
    funext a
    rw [hr a a.2]
    simp only [Pi.sub_apply, Matrix.mulVec, dotProduct, toM, Finset.sum_range]
  have w₁ := toM_weighed e.cov.rows e₁.P H₁ Ri₁ r₁
  have w₂ := toM_weighed e.cov.rows e₁₂.P H₂ Ri₂ r₂'
  have w₃ := toM_weighed e.cov.rows e₁₂.P H₁ Ri₁ r₁
  have w₄ := toM_weighed e.cov.rows e₁₂.P H₂ Ri₂ r₂
  rw [e2, w₁] at w₂
  have key : (fun i : Fin e.cov.rows => weighed e.cov.rows e₁.P H₁ Ri₁ r₁ i) + (fun i : Fin e.cov.rows => weighed e.cov.rows e₁₂.P H₂ Ri₂ r₂' i)
      = (fun i : Fin e.cov.rows => weighed e.cov.rows e₁₂.P H₁ Ri₁ r₁ i) + fun i : Fin e.cov.rows => weighed e.cov.rows e₁₂.P H₂ Ri₂ r₂ i := by
    have cu := _root_.congrArg (fun A => A *ᵥ ((toM H₁.rows e.cov.rows H₁.get)ᵀ * toM H₁.rows H₁.rows Ri₁) *ᵥ fun a : Fin H₁.rows => r₁.get a)
      c₁.symm
    rw [Matrix.sub_mulVec] at cu
    rw [w₁, w₂, w₃, w₄, cu]
    simp only [Matrix.mulVec_sub, Matrix.mulVec_mulVec, Matrix.mul_assoc]
    abel
  exact congrFun key ⟨i, hi⟩

/-- Predicting to the time at which the filter is already. -/
theorem predict_here {N : Prim K} (h0 : N.rotVecToQuat 0 = Quat.one) {e e' : Ekf K} (hi : CovInv N e) (hu : ¬ AugType.Timed e.augType) {t : K}
    (ht : t ≤ e.currentTime) (h : Ekf.predict N e t = .ok e') :
    CovInv N e' ∧ e' = { e with cov := e'.cov } ∧ e'.cov.rows = e.cov.rows ∧ ∀ i j, i < e.cov.rows → j < e.cov.rows → e'.P i j = e.P i j := by
  have ci : CovInv N e' := covInv_step hi (op := .predict t) trivial trivial h
  refine ⟨ci, ?_⟩
  obtain ⟨_, rfl⟩ | ⟨t1, b, out, hb, h⟩ := predict_form h
  · exact ⟨rfl, rfl, fun _ _ _ _ => rfl⟩
  obtain rfl := le_antisymm ht t1
  obtain ⟨_, rfl⟩ | ⟨hx, _⟩ := augmentTimed_form h
  swap; · exact absurd hx hu
  have hP : ∀ f : Ekf K, f.useRoot = false → f.P = f.cov.get := fun f hf => by funext i j; simp [Ekf.P, hf]
  rw [hP _ ci.root, hP _ hi.root]
  obtain ⟨_, rfl, rfl⟩ | ⟨_, rfl, ho⟩ := hb
  · exact ⟨rfl, rfl, fun _ _ _ _ => rfl⟩
  · have hbody : predictBody N e.isZeroAcceleration e.state.body (e.currentTime - e.currentTime) = e.state.body := by
      have hv : (![e.state.body.angVel 0 * 0, e.state.body.angVel 1 * 0, e.state.body.angVel 2 * 0] : V3 K) = 0 := by
        funext i; fin_cases i <;> simp
      have hq : ∀ q : Quat K, Quat.one.mul q = q := fun q => by ext <;> simp [Quat.mul, Quat.one]
      simp only [predictBody, sub_self, zero_smul, add_zero, hv, h0, hq]
    have h18 : 18 ≤ e.cov.rows := by rw [hi.inv.covRows, hi.inv.size]; unfold State.dim; omega
    have hsq : e.cov.rows = e.cov.cols := hi.cov.square
    obtain ⟨out', o1, o2, _, o4⟩ := predictCov_spec N e.cov e.processNoise (e.currentTime - e.currentTime) hsq h18
      (hi.inv.noiseRows.trans hi.inv.covRows.symm) (hi.inv.noiseCols.trans hi.inv.covRows.symm)
    rw [hi.root, ← hi.inv.covRows] at ho
    obtain rfl := Except.ok.inj (o1.symm.trans ho)
    refine ⟨by rw [hbody], o2, fun i j hi' hj' => ?_⟩
    show out'.get i j = _
    rw [o4 i j hi' hj', sub_self]
    simp [congr, transition, hi', hj']

/-- The Jacobian of a position in a filter of size `n`. -/
def onPosition (n : Nat) : Mat K := ⟨3, n, fun a k => if a < 3 ∧ k = a then 1 else 0⟩

theorem centred_jacobian {N : Num K} {u : GpsUpdater K} {e : Ekf K} {J : Mat K} (hx : u.isExtrinsic = false) (hp : u.posAInB = 0)
    (h : u.jacobianOf N e = .ok J) : J = onPosition e.stateSize := by
  have hg := gpsJacobian_get h (fun hu => by rw [hx] at hu; cases hu)
  have hc : J.cols = e.stateSize := by
    unfold GpsUpdater.jacobianOf at h
    simp only [bind_ok_iff, hx, Bool.false_eq_true, if_false, pure_res, Except.ok.injEq] at h
    obtain ⟨j1, h1, j2, h2, rfl⟩ := h
    obtain ⟨_, _, rfl⟩ := Mat.setBlock_ok_iff.1 h1
    obtain ⟨_, _, rfl⟩ := Mat.setBlock_ok_iff.1 h2
    rfl
  have hs : skew (0 : V3 K) = 0 := by ext i j; fin_cases i <;> fin_cases j <;> simp [skew]
  obtain ⟨r, c, g⟩ := J
  obtain rfl : r = 3 := (hg 0 0).1
  obtain rfl : c = e.stateSize := hc
  unfold onPosition
  congr 1
  funext a b
  have := (hg a b).2
  rw [hp, hs, Matrix.mul_zero, Matrix.zero_mul, hx] at this
  refine this.trans ?_
  by_cases ha : a < 3
  · rw [if_pos ha]
    by_cases hb : b < 3
    · rw [if_pos hb]
      interval_cases a <;> interval_cases b <;> simp [M3.toMat]
    · rw [if_neg hb, if_neg (fun h : a < 3 ∧ b = a => hb (h.2 ▸ h.1))]
      simp [M3.toMat]
  · rw [if_neg ha, if_neg (fun h => ha h.1)]

theorem rotate_zero (q : Quat K) : q.rotate 0 = 0 := by
  funext i; fin_cases i <;> simp [Quat.rotate, V3.cross, Matrix.vecHead, Matrix.vecTail]

/-- What the fix of such an antenna does. -/
theorem centred_fix {N : Num K} {G : GpsNum K} {u : GpsUpdater K} {e : Ekf K} (hi : CovInv N.toPrim e) (hu : ¬ AugType.Timed e.augType)
    (ht : e.timeInitialized = true) (hl : e.isLlaInitialized = true) (hc : u.Centred e) {t : K} {lla : V3 K} {cov : Mat K}
    {r : GpsUpdater K × Ekf K} (h : u.update N G e t lla cov = .ok r) :
    ∃ p enu, Ekf.predict N.toPrim e (t - e.referenceTime) = .ok p ∧ G.llaToEnu lla e.posEInG = .ok enu ∧ CovInv N.toPrim p ∧
      t - e.referenceTime ≤ p.currentTime ∧ p.stateSize = e.stateSize ∧ p.augType = e.augType ∧ p.timeInitialized = true ∧
      p.isLlaInitialized = true ∧ p.referenceTime = e.referenceTime ∧ p.posEInG = e.posEInG ∧ p.angLToE = e.angLToE ∧ p.state.gpss = e.state.gpss ∧
      kalmanUpdate N.toPrim p (onPosition e.stateSize) (Vec.of3 (G.enuToLocal enu e.angLToE - p.state.body.pos)) cov = .ok r.2 := by
  obtain ⟨p, hp, q⟩ := GpsUpdater.update_form h
  have c1 : e.calculateLocalTime t = (t - e.referenceTime, e) := by unfold calculateLocalTime; rw [if_pos ht]
  rw [c1] at hp
  dsimp only at hp
  have ci : CovInv N.toPrim p := covInv_step hi (op := .predict _) trivial trivial hp
  have hf : t - e.referenceTime ≤ p.currentTime ∧ p.stateSize = e.stateSize ∧ p.augType = e.augType ∧ p.timeInitialized = e.timeInitialized ∧
      p.isLlaInitialized = e.isLlaInitialized ∧ p.referenceTime = e.referenceTime ∧ p.posEInG = e.posEInG ∧ p.angLToE = e.angLToE ∧
      p.state.gpss = e.state.gpss := by
    obtain ⟨t1, rfl⟩ | ⟨t1, b, out, _, hx⟩ := predict_form hp
    · exact ⟨t1.le, rfl, rfl, rfl, rfl, rfl, rfl, rfl, rfl⟩
    · obtain ⟨_, rfl⟩ | ⟨h0, _⟩ := augmentTimed_form hx
      · exact ⟨le_rfl, rfl, rfl, rfl, rfl, rfl, rfl, rfl, rfl⟩
      · exact absurd h0 hu
  obtain ⟨f1, f2, f3, f4, f5, f6, f7, f8, f9⟩ := hf
  obtain ⟨g, hg, hgx, hgp⟩ := hc.known
  obtain ⟨hl2, _⟩ | ⟨_, e2, enu, jac, rfl, a1, a2, a3, a4⟩ := q
  · rw [f5, hl] at hl2; cases hl2
  rw [getGpsState_known (by rw [f9]; exact hg)] at a1 a2 a3 a4
  have hpos : r.1.posAInB = 0 ∧ r.1.isExtrinsic = false := by
    rw [a2]
    have : u.gpsOf p = g := by simp [GpsUpdater.gpsOf, UMap.getD, f9, hg]
    unfold GpsUpdater.refresh
    split
    · exact ⟨by dsimp only; rw [this]; exact hgp, hc.fixed⟩
    · exact ⟨hc.kept, hc.fixed⟩
  rw [centred_jacobian hpos.2 hpos.1 a3, hpos.1, rotate_zero, add_zero, f2, f8] at a4
  exact ⟨p, enu, hp, f7 ▸ a1, ci, f1, f2, f3, f4.trans ht, f5.trans hl, f6, f7, f8, f9, a4⟩

theorem sum_onPosition {n : Nat} (hn : 18 ≤ n) (w : Nat → K) {a : Nat} (ha : a < 3) :
    ∑ k ∈ range n, (onPosition n : Mat K).get a k * w k = w a := by
  have : ∀ k, (onPosition n : Mat K).get a k * w k = if k = a then w k else 0 := fun k => by
    show (if a < 3 ∧ k = a then (1 : K) else 0) * w k = _
    by_cases h : k = a <;> simp [h, ha]
  simp only [this, sum_ite_eq', mem_range]
  rw [if_pos (by omega)]

/-- One of the two orders: the final state and covariance in terms of the filter at the time of the fixes. -/
theorem centred_pair {N : Num K} (hN : N.toPrim.Lawful) (h0 : N.rotVecToQuat 0 = Quat.one) {G : GpsNum K} {e : Ekf K} (hi : CovInv N.toPrim e)
    (hu : ¬ AugType.Timed e.augType) (ht : e.timeInitialized = true) (hl : e.isLlaInitialized = true) {u₁ u₂ : GpsUpdater K}
    (hc₁ : u₁.Centred e) (hc₂ : u₂.Centred e) {t : K} {x₁ x₂ : V3 K} {R₁ R₂ : Mat K} (k₁ : R₁.IsCov) (k₂ : R₂.IsCov)
    {Ri₁ Ri₂ : Nat → Nat → K} (i₁ : AreInverse 3 R₁.get Ri₁) (i₂ : AreInverse 3 R₂.get Ri₂) {a b : GpsUpdater K × Ekf K}
    (h₁ : u₁.update N G e t x₁ R₁ = .ok a) (h₂ : u₂.update N G a.2 t x₂ R₂ = .ok b) :
    ∃ p y₁ y₂, Ekf.predict N.toPrim e (t - e.referenceTime) = .ok p ∧ CovInv N.toPrim p ∧ p.stateSize = e.stateSize ∧ G.llaToEnu x₁ e.posEInG = .ok y₁ ∧ G.llaToEnu x₂ e.posEInG = .ok y₂ ∧
      b.2.currentTime = p.currentTime ∧ b.2.stateSize = p.stateSize ∧ b.2.useRoot = p.useRoot ∧
      (let n := p.cov.rows
       let H : Mat K := onPosition e.stateSize
       let J₁ := (toM 3 n H.get)ᵀ * toM 3 3 Ri₁ * toM 3 n H.get
       let J₂ := (toM 3 n H.get)ᵀ * toM 3 3 Ri₂ * toM 3 n H.get
       toM n n b.2.P * (1 + (J₁ + J₂) * toM n n p.P) = toM n n p.P ∧ IsUnit (1 + (J₁ + J₂) * toM n n p.P)) ∧
      ∃ v w : Vec K, b.2.state = (p.state.moved N.toPrim v).moved N.toPrim w ∧ ∀ i, i < p.cov.rows → v.get i + w.get i =
        weighed p.cov.rows b.2.P (onPosition e.stateSize) Ri₁ (Vec.of3 (G.enuToLocal y₁ e.angLToE - p.state.body.pos)) i +
        weighed p.cov.rows b.2.P (onPosition e.stateSize) Ri₂ (Vec.of3 (G.enuToLocal y₂ e.angLToE - p.state.body.pos)) i := by
  obtain ⟨p, y₁, p1, p2, p3, p4, p5, p6, p7, p8, p9, p10, p11, p12, p13⟩ := centred_fix hi hu ht hl hc₁ h₁
  have hn : p.cov.rows = e.stateSize := p3.inv.covRows.trans p5
  have h18 : 18 ≤ e.stateSize := by rw [hi.inv.size]; unfold State.dim; omega
  have m₁ : Measured N.toPrim p (onPosition e.stateSize) _ R₁ a.2 := ⟨fun _ => p3.cov, k₁, fun hx => absurd (p3.root.symm.trans hx) Bool.false_ne_true, p13⟩
  obtain ⟨v, v1, v2, v3⟩ := C86_correction N.toPrim hN p a.2 _ _ R₁ m₁ Ri₁ i₁
  rw [State.addVec_moved N.toPrim v _ p.stateSize p3.inv.laid.tiles (by rw [v1, p3.inv.covRows])] at v2
  have sa : a.2.state = p.state.moved N.toPrim v := (Except.ok.inj v2).symm
  obtain ⟨s, c, ea⟩ := kalman_rest p13
  have ca : CovInv N.toPrim a.2 := covInv_step p3 (op := .kalman _ _ R₁) trivial k₁ p13
  have qa : a.2.augType = p.augType ∧ a.2.timeInitialized = p.timeInitialized ∧ a.2.isLlaInitialized = p.isLlaInitialized ∧
      a.2.referenceTime = p.referenceTime ∧ a.2.posEInG = p.posEInG ∧ a.2.angLToE = p.angLToE ∧ a.2.stateSize = p.stateSize ∧
      a.2.currentTime = p.currentTime ∧ a.2.useRoot = p.useRoot := by rw [ea]; exact ⟨rfl, rfl, rfl, rfl, rfl, rfl, rfl, rfl, rfl⟩
  obtain ⟨q1, q2, q3, q4, q5, q6, q7, q8, q9⟩ := qa
  have hc₂' : u₂.Centred a.2 := by
    obtain ⟨g, g1, g2, g3⟩ := hc₂.known
    refine ⟨hc₂.fixed, hc₂.kept, g.moved v, ?_, g2, ?_⟩
    · rw [sa]
      show (UMap.mapVal (GpsState.moved v) p.state.gpss).find? u₂.id = _
      rw [UMap.find?_mapVal, p12, g1]; rfl
    · simp [GpsState.moved, g2, g3]
  obtain ⟨f, y₂, f1, f2, f3, f4, f5, f6, f7, f8, f9, f10, f11, f12, f13⟩ := centred_fix ca (by rw [q1, p6]; exact hu) (q2.trans p7) (q3.trans p8) hc₂' h₂
  obtain ⟨_, g1, g2, g3⟩ := predict_here h0 ca (by rw [q1, p6]; exact hu) (by rw [q4, p9, q8]; exact p4) f1
  have sf : f.state = a.2.state := by rw [g1]
  rw [q5, p10] at f2
  rw [q6, p11, q7, p5, sf] at f13
  have m₂ : Measured N.toPrim f (onPosition e.stateSize) _ R₂ b.2 := ⟨fun _ => f3.cov, k₂, fun hx => absurd (f3.root.symm.trans hx) Bool.false_ne_true, f13⟩
  obtain ⟨w, w1, w2, w3⟩ := C86_correction N.toPrim hN f b.2 _ _ R₂ m₂ Ri₂ i₂
  rw [State.addVec_moved N.toPrim w _ f.stateSize f3.inv.laid.tiles (by rw [w1, f3.inv.covRows])] at w2
  have sb : b.2.state = (p.state.moved N.toPrim v).moved N.toPrim w := by rw [← sa, ← sf]; exact (Except.ok.inj w2).symm
  have hfn : f.cov.rows = p.cov.rows := by rw [f3.inv.covRows, f5, q7, p3.inv.covRows]
  have hb0 : p.state.body.index = 0 := by
    have := p3.inv.laid.tiles
    unfold State.blocks at this
    simp only [List.append_assoc, List.cons_append, List.nil_append] at this
    exact this.1
  have han : a.2.cov.rows = p.cov.rows := by rw [ca.inv.covRows, q7, p3.inv.covRows]
  obtain ⟨z1, z2, z3⟩ := measured_pair N.toPrim hN (e := p) (e₁ := a.2) (f₁ := f) (e₁₂ := b.2)
    (r₂ := Vec.of3 (G.enuToLocal y₂ e.angLToE - p.state.body.pos)) m₁ g2 (by rw [← han]; exact g3) m₂ i₁ i₂ (fun k hk => by
      have hk' : k < 3 := hk
      have hv := v3 k (by omega)
      rw [hn] at hv
      rw [hn, sum_onPosition h18 _ hk', ← hv, sa]
      show (Vec.of3 (_ - (p.state.body.pos + v.at3 p.state.body.index))).get k = _
      rw [hb0]
      interval_cases k <;> simp [Vec.of3, Vec.at3, Matrix.vecHead, Matrix.vecTail] <;> ring)
  obtain ⟨s', c', eb⟩ := kalman_rest f13
  refine ⟨p, y₁, y₂, p1, p3, p5, p2, f2, ?_, ?_, ?_, ⟨z1, z2⟩, v, w, sb, fun i hi' => ?_⟩
  · rw [eb, g1]; exact q8
  · rw [eb, g1]; exact q7
  · rw [eb, g1]; exact q9
  · rw [v3 i hi', w3 i (by omega), hfn]; exact z3 i hi'

/-- **Two fixes with the same time may come in any order**, if the antennas sit at the origin of the body: the uncertainty is the same, and so is
all that is estimated except for orientations, whose corrections do not commute. -/
theorem C98_fixes_partial (N : Num K) (hN : N.toPrim.Lawful) (h0 : N.rotVecToQuat 0 = Quat.one) (G : GpsNum K) (p : EkfParams K) (hp : p.useRoot = false)
    (hq : ∀ k, k < 18 → 0 ≤ p.processNoise.get k) (before : List (Op K)) (hw : ∀ op ∈ before, op.WF) (ho : ∀ op ∈ before, op.CovOK)
    (e : Ekf K) (he : run N.toPrim (init N.toPrim p) before = .ok e) (hu : ¬ AugType.Timed e.augType)
    (ht : e.timeInitialized = true) (hl : e.isLlaInitialized = true) (u₁ u₂ : GpsUpdater K) (hc₁ : u₁.Centred e) (hc₂ : u₂.Centred e)
    (t : K) (x₁ x₂ : V3 K) (R₁ R₂ : Mat K) (k₁ : R₁.IsCov) (k₂ : R₂.IsCov) (i₁ : ∃ Ri, AreInverse 3 R₁.get Ri) (i₂ : ∃ Ri, AreInverse 3 R₂.get Ri)
    (a b a' b' : GpsUpdater K × Ekf K) (h₁ : u₁.update N G e t x₁ R₁ = .ok a) (h₂ : u₂.update N G a.2 t x₂ R₂ = .ok b)
    (h₁' : u₂.update N G e t x₂ R₂ = .ok a') (h₂' : u₁.update N G a'.2 t x₁ R₁ = .ok b') : b.2.SameButTurned b'.2 := by
  obtain ⟨Ri₁, i₁⟩ := i₁
  obtain ⟨Ri₂, i₂⟩ := i₂
  have hi := covInv_run (covInv_init N.toPrim p hp hq) hw ho he
  obtain ⟨q, y₁, y₂, q1, q2, q3, q4, q5, q6, q7, q8, ⟨q9, q10⟩, v, w, q11, q12⟩ := centred_pair hN h0 hi hu ht hl hc₁ hc₂ k₁ k₂ i₁ i₂ h₁ h₂
  obtain ⟨q', y₂', y₁', z1, z2, z3, z4, z5, z6, z7, z8, ⟨z9, z10⟩, v', w', z11, z12⟩ := centred_pair hN h0 hi hu ht hl hc₂ hc₁ k₂ k₁ i₂ i₁ h₁' h₂'
  obtain rfl := Except.ok.inj (q1.symm.trans z1)
  obtain rfl := Except.ok.inj (q4.symm.trans z5)
  obtain rfl := Except.ok.inj (q5.symm.trans z4)
  have hP := gather_unique q10 q9 (by rw [add_comm (_ * _ * _) (_ * _ * _)] at z9; exact z9)
  have hP' := toM_eq_iff.1 hP
  refine ⟨z6.trans q6.symm, z7.trans q7.symm, ?_, fun i j hi' hj' => ?_⟩
  · rw [q11, z11, State.plain_moved, State.plain_moved]
    refine congrArg State.plain (State.moved_same N.toPrim q2.inv.laid.tiles fun i hi' => ?_)
    rw [← q2.inv.covRows] at hi'
    show v'.get i + w'.get i = v.get i + w.get i
    rw [q12 i hi', z12 i hi', add_comm]
    congr 1 <;>
    · unfold weighed
      exact sum_congr rfl fun k hk => by rw [hP' i k hi' (mem_range.1 hk)]
  · rw [q7, ← q2.inv.covRows] at hi' hj'
    exact (hP' i j hi' hj').symm

/-- Such a fix causes no error if the conversion is defined. -/
theorem centred_defined (N : Num K) {G : GpsNum K} {u : GpsUpdater K} {e : Ekf K} (hi : CovInv N.toPrim e) (hb : e.bodyProcessNoise.size = 18)
    (hu : ¬ AugType.Timed e.augType) (ht : e.timeInitialized = true) (hl : e.isLlaInitialized = true) (hc : u.Centred e) (t : K) {x : V3 K}
    {R : Mat K} (hR : R.IsCov) (hR3 : R.rows = 3) (hG : ∃ y, G.llaToEnu x e.posEInG = .ok y) :
    ∃ r, u.update N G e t x R = .ok r ∧ CovInv N.toPrim r.2 ∧ r.2.bodyProcessNoise.size = 18 ∧ ¬ AugType.Timed r.2.augType ∧ r.2.timeInitialized = true ∧
      r.2.isLlaInitialized = true ∧ r.2.posEInG = e.posEInG ∧ ∀ v : GpsUpdater K, v.Centred e → v.Centred r.2 := by
  obtain ⟨p, hp⟩ := predict_defined N.toPrim e (t - e.referenceTime) hi.inv hb (fun hx => absurd (.inl hx) hu)
  have ci : CovInv N.toPrim p := covInv_step hi (op := .predict _) trivial trivial hp
  have hf : p.bodyProcessNoise = e.bodyProcessNoise ∧ p.augType = e.augType ∧ p.timeInitialized = e.timeInitialized ∧
      p.isLlaInitialized = e.isLlaInitialized ∧ p.posEInG = e.posEInG ∧ p.state.gpss = e.state.gpss := by
    obtain ⟨t1, rfl⟩ | ⟨t1, b, out, _, hx⟩ := predict_form hp
    · exact ⟨rfl, rfl, rfl, rfl, rfl, rfl⟩
    · obtain ⟨_, rfl⟩ | ⟨h0, _⟩ := augmentTimed_form hx
      · exact ⟨rfl, rfl, rfl, rfl, rfl, rfl⟩
      · exact absurd h0 hu
  obtain ⟨f1, f2, f3, f4, f5, f6⟩ := hf
  obtain ⟨g, hg, _, _⟩ := hc.known
  obtain ⟨y, hy⟩ := hG
  have rp : Ready p := ⟨ci.inv, by rw [f1]; exact hb, fun hx => absurd (.inl hx) (f2 ▸ hu)⟩
  have hx : (u.refresh p).isExtrinsic = false := by unfold GpsUpdater.refresh; split <;> exact hc.fixed
  obtain ⟨J, j1, j2, j3⟩ := GpsUpdater.jacobianOf_sized N rp (u := u.refresh p) (fun h => absurd (hx.symm.trans h) Bool.false_ne_true)
  obtain ⟨q, hq⟩ := kalman_defined N.toPrim p J (Vec.of3 (G.enuToLocal y p.angLToE -
    (p.state.body.pos + p.state.body.ang.rotate (u.refresh p).posAInB))) R ci.inv j3 (hR3.trans j2.symm) ((hR.square ▸ hR3).trans j2.symm) j2.symm
  have cq : CovInv N.toPrim q := covInv_step ci (op := .kalman _ _ R) trivial hR hq
  obtain ⟨s, c, v, x1, x2, x3⟩ := kalmanUpdate_form' hq
  rw [State.addVec_moved N.toPrim v _ p.stateSize ci.inv.laid.tiles (by rw [x3, ci.inv.covRows])] at x2
  obtain rfl := Except.ok.inj x2
  refine ⟨(u.refresh p, q), ?_, cq, ?_, ?_, ?_, ?_, ?_, fun w hw => ?_⟩
  · unfold GpsUpdater.update calculateLocalTime
    rw [if_pos ht]
    dsimp only
    rw [hp, ok_bind, if_neg (by rw [f4, hl]; decide), getGpsState_known (by rw [f6]; exact hg)]
    simp only [f5, hy, ok_bind, GpsUpdater.predictMeasurement, GpsUpdater.measurementJacobian, GpsUpdater.refresh_idem, j1, pure_res, hq]
  · rw [x1]; exact f1 ▸ hb
  · rw [x1]; exact f2 ▸ hu
  · rw [x1]; exact f3.trans ht
  · rw [x1]; exact f4.trans hl
  · rw [x1]; exact f5
  · obtain ⟨g', g1, g2, g3⟩ := hw.known
    refine ⟨hw.fixed, hw.kept, g'.moved v, ?_, g2, ?_⟩
    · rw [x1]
      show (UMap.mapVal (GpsState.moved v) p.state.gpss).find? w.id = _
      rw [UMap.find?_mapVal, f6, g1]; rfl
    · simp [GpsState.moved, g2, g3]

open Samples in
/-- A body with known gravity, one IMU that reports motion, and one camera. -/
def C98_calls : List (Call ℚ) :=
  [.filter (.registerIMU 3 (imu false false) (cov 0)), .filter (.registerCamera 1 cam (cov 6)),
   .filter (.initializeAt 0 BodyState.default), .filter .initializeGravity,
   .newImu 1 3 false false, .newCam 4 1 true 1, .imu 1 0 ![1000, 0, 0] 1 ![0, 0, 0] 1]
/-- A reading without acceleration. -/
def C98_reading : Call ℚ := .imu 1 0 ![0, 0, 0] 1 ![0, 0, 0] 1
/-- An image in which no track ends. -/
def C98_image : Call ℚ := .cam 4 0 ⟨1 / 100, 1 / 100, 0, 0, 0, 0, 640, 480, 1 / 200000⟩ [] 1

theorem sample_calls_wf98 : ∀ c ∈ C98_calls, c.WF := by
  intro c h
  simp only [C98_calls, List.mem_cons, List.not_mem_nil, or_false] at h
  rcases h with rfl | rfl | rfl | rfl | rfl | rfl | rfl <;> first | trivial | rfl

set_option synthInstance.maxSize 2000 in
open Samples in
/-- **The order of messages with the same time matters**: with a reading of the IMU before an image of the same time the body moves with
the new acceleration up to that time, with the image first it moves with the old one, even if nothing is seen in the image. -/
theorem C98_violated : ¬ ∀ (cs : List (Call ℚ)) (s s1 s2 : Station ℚ) (c₁ c₂ : Call ℚ) (t : ℚ), (∀ c ∈ cs, c.WF) → c₁.WF → c₂.WF → c₁.IsMessage → c₂.IsMessage →
    Station.run C91_num gpsNum (Station.init C91_num (params .none false)) cs = .ok s →
    s.ekf.isGravityInitialized = true → s.ekf.timeInitialized = true → s.ekf.currentTime < t - s.ekf.referenceTime →
    Station.run C91_num gpsNum s [c₁.stamped t, c₂.stamped t] = .ok s1 →
    Station.run C91_num gpsNum s [c₂.stamped t, c₁.stamped t] = .ok s2 →
    s1.ekf.state.body.vel = s2.ekf.state.body.vel := by
  intro h
  obtain ⟨p, hr, hp⟩ := ok_of_check (r := do
      let s ← Station.run C91_num gpsNum (Station.init C91_num (params .none false)) C98_calls
      let s1 ← Station.run C91_num gpsNum s [C98_reading.stamped 1, C98_image.stamped 1]
      let s2 ← Station.run C91_num gpsNum s [C98_image.stamped 1, C98_reading.stamped 1]
      pure (s, s1, s2))
    (P := fun p : Station ℚ × Station ℚ × Station ℚ => p.1.ekf.isGravityInitialized = true ∧
      p.1.ekf.timeInitialized = true ∧ p.1.ekf.currentTime < 1 - p.1.ekf.referenceTime ∧
      p.2.1.ekf.state.body.vel 0 ≠ p.2.2.ekf.state.body.vel 0) (by decide +kernel)
  simp only [bind_ok_iff, pure_res, Except.ok.injEq] at hr
  obtain ⟨s, h0, s1, h1, s2, h2, rfl⟩ := hr
  obtain ⟨p1, p2, p3, p4⟩ := hp
  exact p4 (congrFun (h C98_calls s s1 s2 C98_reading C98_image 1 sample_calls_wf98 trivial trivial trivial trivial h0 p1 p2 p3 h1 h2) 0)

/-! ## A case in which the hypotheses of `C98_fixes_partial` hold -/

/-- Two antennas and a reference. -/
noncomputable def C98_ops : List (Op ℝ) :=
  [.registerGPS 7 GpsState.default (Mat.identity 0 0), .registerGPS 9 GpsState.default (Mat.identity 0 0),
   .initializeAt 0 BodyState.default, .setGpsReference 0 0, .initializeGravity]
/-- Fixes that are already in local coordinates. -/
noncomputable def C98_gps : GpsNum ℝ := ⟨.ok, fun a _ => .ok a, fun a _ => .ok a, fun a _ => a, fun _ _ => ⟨false, 0, none, 0, 0, 0, 0⟩⟩

example : ∃ e a b a' b', run realPrim (init realPrim C86_params) C98_ops = .ok e ∧ (∀ op ∈ C98_ops, op.WF) ∧ (∀ op ∈ C98_ops, op.CovOK) ∧
    ¬ AugType.Timed e.augType ∧ e.timeInitialized = true ∧ e.isLlaInitialized = true ∧
    (GpsUpdater.new 7 false).Centred e ∧ (GpsUpdater.new 9 false).Centred e ∧ (Mat.identity 3 3 : Mat ℝ).IsCov ∧
    (∃ Ri, AreInverse 3 (Mat.identity 3 3 : Mat ℝ).get Ri) ∧
    (GpsUpdater.new 7 false).update realNum C98_gps e 1 ![1, 0, 0] (Mat.identity 3 3) = .ok a ∧
    (GpsUpdater.new 9 false).update realNum C98_gps a.2 1 ![0, 2, 0] (Mat.identity 3 3) = .ok b ∧
    (GpsUpdater.new 9 false).update realNum C98_gps e 1 ![0, 2, 0] (Mat.identity 3 3) = .ok a' ∧
    (GpsUpdater.new 7 false).update realNum C98_gps a'.2 1 ![1, 0, 0] (Mat.identity 3 3) = .ok b' := by
  have hcov : (Mat.identity 3 3 : Mat ℝ).IsCov := by
    refine ⟨rfl, fun i j _ _ => by simp [Mat.identity, eq_comm], fun x => ?_⟩
    have : 0 ≤ x 0 * x 0 + x 1 * x 1 + x 2 * x 2 := add_nonneg (add_nonneg (mul_self_nonneg _) (mul_self_nonneg _)) (mul_self_nonneg _)
    simpa [quad, Mat.identity, sum_range_succ] using this
  have hinv : AreInverse 3 (Mat.identity 3 3 : Mat ℝ).get (Mat.identity 3 3 : Mat ℝ).get := by
    constructor <;> intro i j hi hj <;> simp [Mat.identity, hj]
  have hwf : ∀ op ∈ C98_ops, op.WF := by
    intro op h
    simp only [C98_ops, List.mem_cons, List.not_mem_nil, or_false] at h
    rcases h with rfl | rfl | rfl | rfl | rfl <;> first | trivial | rfl
  have hok : ∀ op ∈ C98_ops, op.CovOK := by
    intro op h
    simp only [C98_ops, List.mem_cons, List.not_mem_nil, or_false] at h
    rcases h with rfl | rfl | rfl | rfl | rfl <;> first | trivial | exact ⟨⟨rfl, fun i j hi => absurd hi (Nat.not_lt_zero _), fun x => by simp [quad, GpsState.default]⟩, by simp [GpsState.default, GpsState.noise]⟩
  obtain ⟨e, he, e1, e2, e3, e4, e5, e6⟩ : ∃ e, run realPrim (init realPrim C86_params) C98_ops = .ok e ∧ e.augType = .none ∧
      e.timeInitialized = true ∧ e.isLlaInitialized = true ∧ e.bodyProcessNoise.size = 18 ∧
      e.state.gpss.find? 7 = some { (GpsState.default : GpsState ℝ) with index := (e.state.gpss.getD 7 GpsState.default).index } ∧
      e.state.gpss.find? 9 = some { (GpsState.default : GpsState ℝ) with index := (e.state.gpss.getD 9 GpsState.default).index } :=
    ⟨_, rfl, rfl, rfl, rfl, rfl, rfl, rfl⟩
  have hi : CovInv realPrim e := covInv_run (covInv_init realPrim C86_params rfl fun _ _ => by simp [C86_params, C11_params]) hwf hok he
  have hu : ¬ AugType.Timed e.augType := by rw [e1]; simp [AugType.Timed]
  have c7 : (GpsUpdater.new 7 false : GpsUpdater ℝ).Centred e := ⟨rfl, rfl, _, e5, rfl, rfl⟩
  have c9 : (GpsUpdater.new 9 false : GpsUpdater ℝ).Centred e := ⟨rfl, rfl, _, e6, rfl, rfl⟩
  obtain ⟨a, a1, a2, a3, a4, a5, a6, a7, a8⟩ := centred_defined realNum (G := C98_gps) hi e4 hu e2 e3 c7 1 (x := ![1, 0, 0]) hcov rfl ⟨_, rfl⟩
  obtain ⟨b, b1, _⟩ := centred_defined realNum (G := C98_gps) a2 a3 a4 a5 a6 (a8 _ c9) 1 (x := ![0, 2, 0]) hcov rfl ⟨_, rfl⟩
  obtain ⟨a', d1, d2, d3, d4, d5, d6, d7, d8⟩ := centred_defined realNum (G := C98_gps) hi e4 hu e2 e3 c9 1 (x := ![0, 2, 0]) hcov rfl ⟨_, rfl⟩
  obtain ⟨b', g1, _⟩ := centred_defined realNum (G := C98_gps) d2 d3 d4 d5 d6 (d8 _ c7) 1 (x := ![1, 0, 0]) hcov rfl ⟨_, rfl⟩
  exact ⟨e, a, b, a', b', he, hwf, hok, hu, e2, e3, c7, c9, hcov, ⟨_, hinv⟩, a1, b1, d1, g1⟩

end EkfCal
