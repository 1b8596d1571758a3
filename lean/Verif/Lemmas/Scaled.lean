import Verif.Lemmas.Displaced
import Verif.Spec.Scaled

/-!
# A common factor of all uncertainties is never seen in the estimates
-/

set_option linter.unusedSectionVars false

namespace EkfCal
variable {K : Type} [Field K] [LinearOrder K]

/-! ## Matrices -/

theorem zero_smul_mat (r c : Nat) (k : K) : (Mat.zero r c : Mat K).smul k = Mat.zero r c := by
  unfold Mat.smul Mat.zero
  congr 1
  funext i j
  exact zero_mul k

theorem block_scaled (m : Mat K) (c : K) (i j p q : Nat) : (m.smul c).block i j p q = (·.smul c) <$> m.block i j p q := by
  unfold Mat.block
  exact ite_mapped rfl rfl

theorem setBlock_scaled (m t : Mat K) (c : K) (i j p q : Nat) :
    (m.smul c).setBlock i j p q (t.smul c) = (·.smul c) <$> m.setBlock i j p q t := by
  unfold Mat.setBlock
  refine ite_mapped (ite_mapped (congrArg Except.ok ?_) rfl) rfl
  unfold Mat.smul
  congr 1
  funext a b
  dsimp only
  split <;> rfl

theorem sumTo_scaled (n : Nat) (f : Nat → K) (c : K) : sumTo n (fun k => f k * c) = sumTo n f * c := by
  induction n with
  | zero => exact (zero_mul c).symm
  | succ n ih => simp only [sumTo, ih, add_mul]

theorem mul_scaled_left (a b : Mat K) (c : K) : (a.smul c).mul b = (·.smul c) <$> a.mul b := by
  unfold Mat.mul
  refine ite_mapped (congrArg Except.ok ?_) rfl
  unfold Mat.smul
  congr 1
  funext i j
  dsimp only
  rw [← sumTo_scaled]
  exact congrArg (sumTo a.cols) (funext fun k => by ring)

theorem mul_scaled_right (a b : Mat K) (c : K) : a.mul (b.smul c) = (·.smul c) <$> a.mul b := by
  unfold Mat.mul
  refine ite_mapped (congrArg Except.ok ?_) rfl
  unfold Mat.smul
  congr 1
  funext i j
  dsimp only
  rw [← sumTo_scaled]
  exact congrArg (sumTo a.cols) (funext fun k => by ring)

theorem smul_smul_mat (a : Mat K) (c d : K) : (a.smul c).smul d = a.smul (c * d) := by
  unfold Mat.smul
  congr 1
  funext i j
  exact mul_assoc _ _ _

theorem smul_comm_mat (a : Mat K) (c d : K) : (a.smul c).smul d = (a.smul d).smul c := by
  rw [smul_smul_mat, smul_smul_mat, mul_comm]

theorem smul_one_mat (a : Mat K) : a.smul 1 = a := by
  unfold Mat.smul
  congr 1
  funext i j
  exact mul_one _

theorem mul_scaled_both (a b : Mat K) (c d : K) : (a.smul c).mul (b.smul d) = (·.smul (c * d)) <$> a.mul b := by
  rw [mul_scaled_left, mul_scaled_right]
  cases a.mul b with
  | error u => rfl
  | ok m => exact congrArg Except.ok ((smul_smul_mat m d c).trans (by rw [mul_comm]))

theorem mul_scaled_cancel (a b : Mat K) {c : K} (hc : c ≠ 0) : (a.smul c).mul (b.smul c⁻¹) = a.mul b := by
  rw [mul_scaled_both, mul_inv_cancel₀ hc]
  cases a.mul b with
  | error u => rfl
  | ok m => exact congrArg Except.ok (smul_one_mat m)

theorem add_scaled (a b : Mat K) (c : K) : (a.smul c).add (b.smul c) = (·.smul c) <$> a.add b := by
  unfold Mat.add
  refine ite_mapped (congrArg Except.ok ?_) rfl
  unfold Mat.smul
  congr 1
  funext i j
  exact (add_mul _ _ _).symm

theorem insertInMatrix_scaled (a b : Mat K) (c : K) (i j : Nat) :
    insertInMatrix (a.smul c) (b.smul c) i j = (·.smul c) <$> insertInMatrix a b i j := by
  unfold insertInMatrix
  have hz := fun r k => zero_smul_mat (K := K) r k c
  refine bind_mapped (block_scaled b c ..) fun _ => ?_
  refine bind_mapped ((congrArg (fun m : Mat K => m.setBlock _ _ _ _ _) (hz _ _).symm).trans (setBlock_scaled _ _ c ..)) fun _ => ?_
  refine bind_mapped (block_scaled b c ..) fun _ => bind_mapped (setBlock_scaled _ _ c ..) fun _ => ?_
  refine bind_mapped (block_scaled b c ..) fun _ => bind_mapped (setBlock_scaled _ _ c ..) fun _ => ?_
  refine bind_mapped (block_scaled b c ..) fun _ => bind_mapped (setBlock_scaled _ _ c ..) fun _ => ?_
  exact setBlock_scaled _ _ c ..

theorem removeFromMatrix_scaled (b : Mat K) (c : K) (i j n : Nat) :
    removeFromMatrix (b.smul c) i j n = (·.smul c) <$> removeFromMatrix b i j n := by
  unfold removeFromMatrix
  have hz := fun r k => zero_smul_mat (K := K) r k c
  refine bind_same fun _ => bind_mapped (block_scaled b c ..) fun _ => ?_
  refine bind_mapped ((congrArg (fun m : Mat K => m.setBlock _ _ _ _ _) (hz _ _).symm).trans (setBlock_scaled _ _ c ..)) fun _ => ?_
  refine bind_mapped (block_scaled b c ..) fun _ => bind_mapped (setBlock_scaled _ _ c ..) fun _ => ?_
  refine bind_mapped (block_scaled b c ..) fun _ => bind_mapped (setBlock_scaled _ _ c ..) fun _ => ?_
  exact bind_mapped (block_scaled b c ..) fun _ => setBlock_scaled _ _ c ..

theorem augmentCovariance_scaled (root : Bool) (b : Mat K) (c : K) (i : Nat) :
    Ekf.augmentCovariance root (b.smul c) i = (·.smul c) <$> Ekf.augmentCovariance root b i := by
  unfold Ekf.augmentCovariance
  have hz := fun r k => zero_smul_mat (K := K) r k c
  refine ite_mapped ?_ ?_
  · refine bind_mapped (block_scaled b c ..) fun _ => ?_
    refine bind_mapped ((congrArg (fun m : Mat K => m.setBlock _ _ _ _ _) (hz _ _).symm).trans (setBlock_scaled _ _ c ..)) fun _ => ?_
    refine bind_mapped (block_scaled b c ..) fun _ => bind_mapped (setBlock_scaled _ _ c ..) fun _ => ?_
    refine bind_mapped (block_scaled b c ..) fun _ => bind_mapped (setBlock_scaled _ _ c ..) fun _ => ?_
    exact bind_mapped (block_scaled b c ..) fun _ => setBlock_scaled _ _ c ..
  · refine bind_mapped (block_scaled b c ..) fun _ => ?_
    refine bind_mapped ((congrArg (fun m : Mat K => m.setBlock _ _ _ _ _) (hz _ _).symm).trans (setBlock_scaled _ _ c ..)) fun _ => ?_
    refine bind_mapped (block_scaled b c ..) fun _ => bind_mapped (setBlock_scaled _ _ c ..) fun _ => ?_
    refine bind_mapped (block_scaled b c ..) fun _ => bind_mapped (setBlock_scaled _ _ c ..) fun _ => ?_
    refine bind_mapped (block_scaled b c ..) fun _ => bind_mapped (setBlock_scaled _ _ c ..) fun _ => ?_
    refine bind_mapped (block_scaled b c ..) fun _ => bind_mapped (setBlock_scaled _ _ c ..) fun _ => ?_
    refine bind_mapped (block_scaled b c ..) fun _ => bind_mapped (setBlock_scaled _ _ c ..) fun _ => ?_
    refine bind_mapped (block_scaled b c ..) fun _ => bind_mapped (setBlock_scaled _ _ c ..) fun _ => ?_
    refine bind_mapped (block_scaled b c ..) fun _ => bind_mapped (setBlock_scaled _ _ c ..) fun _ => ?_
    refine bind_same fun _ => ?_
    refine bind_mapped (block_scaled _ c ..) fun _ => bind_mapped (setBlock_scaled _ _ c ..) fun _ => ?_
    exact bind_mapped (block_scaled _ c ..) fun _ => setBlock_scaled _ _ c ..

section
variable {N : Prim K} {s : K} (hN : N.Scales s)
include hN

theorem map_sqrt_scaled (a : Mat K) : (a.smul (s * s)).map N.sqrt = (a.map N.sqrt).smul s := by
  unfold Mat.map Mat.smul
  congr 1
  funext i j
  exact hN.sqrt _

theorem qrStack_scaled (a b : Mat K) : qrStack N (a.smul s) (b.smul s) = (·.smul s) <$> qrStack N a b := by
  unfold qrStack
  refine ite_mapped (ite_mapped (congrArg Except.ok ?_) rfl) rfl
  unfold Mat.smul
  congr 1
  funext i j
  dsimp only
  split
  · exact hN.qr a b i j
  · exact (zero_mul s).symm

theorem inverse_scaled (a : Mat K) : (a.smul (s * s)).inverse N = (·.smul (s * s)⁻¹) <$> a.inverse N := by
  unfold Mat.inverse
  refine ite_mapped (congrArg Except.ok ?_) rfl
  show (⟨_, _, N.inv (a.smul (s * s))⟩ : Mat K) = _
  unfold Mat.smul
  congr 1
  funext i j
  exact hN.inv a i j

theorem predictCov_scaled (root : Bool) (n : Nat) (c q : Mat K) (dt : K) :
    Ekf.predictCov N root n (c.smul (scaleOf s root)) (q.smul (scaleOf s root)) dt =
      (·.smul (scaleOf s root)) <$> Ekf.predictCov N root n c q dt := by
  unfold Ekf.predictCov
  refine bind_same fun _ => ?_
  cases root with
  | true =>
    simp only [scaleOf, if_true]
    refine bind_mapped (block_scaled c s ..) fun _ => bind_mapped (mul_scaled_left _ _ s) fun _ => bind_mapped (setBlock_scaled _ _ s ..) fun _ => ?_
    refine bind_mapped (block_scaled _ s ..) fun _ => bind_mapped (mul_scaled_right _ _ s) fun _ => bind_mapped (setBlock_scaled _ _ s ..) fun _ => ?_
    rw [smul_comm_mat]
    exact qrStack_scaled hN _ _
  | false =>
    simp only [scaleOf, Bool.false_eq_true, if_false]
    refine bind_same fun _ => ?_
    have hd : (⟨(c.smul (s * s)).rows, (c.smul (s * s)).cols, fun i j =>
        if i = j then (c.smul (s * s)).get i i + (q.smul (s * s)).get i i * dt else (c.smul (s * s)).get i j⟩ : Mat K) =
        Mat.smul ⟨c.rows, c.cols, fun i j => if i = j then c.get i i + q.get i i * dt else c.get i j⟩ (s * s) := by
      unfold Mat.smul
      congr 1
      funext i j
      dsimp only
      split
      · ring
      · rfl
    rw [hd]
    refine bind_mapped (block_scaled _ _ ..) fun _ => bind_mapped (mul_scaled_right _ _ _) fun _ => bind_mapped (mul_scaled_left _ _ _) fun _ =>
      bind_mapped (setBlock_scaled _ _ _ ..) fun _ => ?_
    refine bind_mapped (block_scaled _ _ ..) fun _ => bind_mapped (mul_scaled_right _ _ _) fun _ => bind_mapped (setBlock_scaled _ _ _ ..) fun _ => ?_
    exact bind_mapped (block_scaled _ _ ..) fun _ => bind_mapped (mul_scaled_left _ _ _) fun _ => setBlock_scaled _ _ _ ..

end

/-! ## Indices and noise -/

theorem put3_scaled (n : Nat) (d : Nat → K) (i : Nat) (v c : K) :
    Ekf.put3 n (fun k => d k * c) i (v * c) = (fun d' k => d' k * c) <$> Ekf.put3 n d i v := by
  unfold Ekf.put3
  refine ite_mapped (congrArg Except.ok ?_) rfl
  funext k
  dsimp only
  split <;> rfl

/-- The noise written so far, larger by a factor. -/
def Refresh.scaled (c : K) (r : Ekf.Refresh K) : Ekf.Refresh K := (r.1, fun k => r.2 k * c)

theorem refreshLoop_scaled {α : Type} (c : K) (g : α → α) {f : α → Ekf.Refresh K → Res (α × Ekf.Refresh K)}
    (h : ∀ a r, f (g a) (Refresh.scaled c r) = (fun x => (g x.1, Refresh.scaled c x.2)) <$> f a r) (m : UMap α) : ∀ r,
    Ekf.refreshLoop f (m.mapValues g) (Refresh.scaled c r) = (fun x => (x.1.mapValues g, Refresh.scaled c x.2)) <$> Ekf.refreshLoop f m r := by
  induction m with
  | nil => intro r; rfl
  | cons kv m ih =>
    intro r
    obtain ⟨k, a⟩ := kv
    exact bind_mapped (h a r) fun x => bind_mapped (ih x.2) fun _ => rfl

theorem refreshImu_scaled (c : K) (n : Nat) (a : ImuState K) (r : Ekf.Refresh K) :
    Ekf.refreshImu n (a.scaled c) (Refresh.scaled c r) = (fun x => (x.1.scaled c, Refresh.scaled c x.2)) <$> Ekf.refreshImu n a r := by
  obtain ⟨p1, p2, p3, p4, x1, x2, x3, x4, n1, n2, n3, n4, b1, b2⟩ := a
  obtain ⟨i, d⟩ := r
  unfold Ekf.refreshImu
  cases b1
  · refine bind_mapped (φ := fun x : ImuState K × Ekf.Refresh K => (ImuState.scaled c x.1, Refresh.scaled c x.2)) rfl fun x => ?_
    obtain ⟨⟨p1, p2, p3, p4, x1, x2, x3, x4, n1, n2, n3, n4, b1, b2⟩, i, d⟩ := x
    cases b2
    · rfl
    · exact bind_mapped (put3_scaled ..) fun _ => bind_mapped (put3_scaled ..) fun _ => rfl
  · refine bind_mapped (put3_scaled ..) fun _ => bind_mapped (put3_scaled ..) fun _ => ?_
    refine bind_mapped (φ := fun x : ImuState K × Ekf.Refresh K => (ImuState.scaled c x.1, Refresh.scaled c x.2)) rfl fun x => ?_
    obtain ⟨⟨p1, p2, p3, p4, x1, x2, x3, x4, n1, n2, n3, n4, b1, b2⟩, i, d⟩ := x
    cases b2
    · rfl
    · exact bind_mapped (put3_scaled ..) fun _ => bind_mapped (put3_scaled ..) fun _ => rfl

theorem refreshGps_scaled (c : K) (n : Nat) (a : GpsState K) (r : Ekf.Refresh K) :
    Ekf.refreshGps n (a.scaled c) (Refresh.scaled c r) = (fun x => (x.1.scaled c, Refresh.scaled c x.2)) <$> Ekf.refreshGps n a r := by
  obtain ⟨x1, p1, n1, n2, b⟩ := a
  obtain ⟨i, d⟩ := r
  unfold Ekf.refreshGps
  cases b
  · rfl
  · exact bind_mapped (put3_scaled ..) fun _ => rfl

theorem refreshCam_scaled (c : K) (n : Nat) (a : CamState K) (r : Ekf.Refresh K) :
    Ekf.refreshCam n (a.scaled c) (Refresh.scaled c r) = (fun x => (x.1.scaled c, Refresh.scaled c x.2)) <$> Ekf.refreshCam n a r := by
  obtain ⟨p1, p2, x1, x2, x3, n1, n2, b⟩ := a
  obtain ⟨i, d⟩ := r
  unfold Ekf.refreshCam
  cases b
  · rfl
  · exact bind_mapped (put3_scaled ..) fun _ => bind_mapped (put3_scaled ..) fun _ => rfl

theorem refreshFid_scaled (c : K) (n : Nat) (a : FidState K) (r : Ekf.Refresh K) :
    Ekf.refreshFid n (a.scaled c) (Refresh.scaled c r) = (fun x => (x.1.scaled c, Refresh.scaled c x.2)) <$> Ekf.refreshFid n a r := by
  obtain ⟨n0, x1, x2, p1, p2, n1, n2, n3, b⟩ := a
  obtain ⟨i, d⟩ := r
  unfold Ekf.refreshFid
  cases b
  · rfl
  · exact bind_mapped (put3_scaled ..) fun _ => bind_mapped (put3_scaled ..) fun _ => rfl

theorem diagMat_scaled (n : Nat) (d : Nat → K) (c : K) : Ekf.diagMat n (fun k => d k * c) = (Ekf.diagMat n d).smul c := by
  unfold Ekf.diagMat Mat.smul
  congr 1
  funext i j
  dsimp only
  split
  · rfl
  · exact (zero_mul c).symm

theorem addVec_scaled (N : Prim K) (c : K) (x : State K) (v : Vec K) : (x.scaled c).addVec N v = State.scaled c <$> x.addVec N v := by
  unfold State.addVec
  refine bind_same fun part => bind_same fun body => ?_
  refine bind_mapped (loopMap_displaced (·.scaled c) (fun a i => ?_) x.imus _) fun _ => ?_
  · unfold ImuState.addVecAt
    obtain ⟨p1, p2, p3, p4, x1, x2, x3, x4, n1, n2, n3, n4, b1, b2⟩ := a
    have hr : ∀ y : ImuState K × Nat, (if (ImuState.scaled c y.1).isIntrinsic then do
        let a ← v.segment3 (y.2 + 0)
        let o ← v.segment3 (y.2 + 3)
        pure ({ ImuState.scaled c y.1 with accBias := (ImuState.scaled c y.1).accBias + a, omgBias := (ImuState.scaled c y.1).omgBias + o }, y.2 + imuIntSize)
      else pure (ImuState.scaled c y.1, y.2) : Res (ImuState K × Nat)) = (fun x => (ImuState.scaled c x.1, x.2)) <$> (if y.1.isIntrinsic then do
        let a ← v.segment3 (y.2 + 0)
        let o ← v.segment3 (y.2 + 3)
        pure ({ y.1 with accBias := y.1.accBias + a, omgBias := y.1.omgBias + o }, y.2 + imuIntSize)
      else pure y : Res (ImuState K × Nat)) := fun y => ite_mapped (bind_same fun _ => bind_same fun _ => rfl) rfl
    cases b1
    · exact hr (⟨p1, p2, p3, p4, x1, x2, x3, x4, n1, n2, n3, n4, false, b2⟩, i)
    · exact bind_same fun p => bind_same fun q => hr (⟨p1, p2, p3, p4, x1 + p, x2.mul (N.rotVecToQuat q), x3, x4, n1, n2, n3, n4, true, b2⟩, i + imuExtSize)
  refine bind_mapped (loopMap_displaced (·.scaled c) (fun a i => ?_) x.gpss _) fun _ => ?_
  · unfold GpsState.addVecAt
    exact ite_mapped (bind_same fun _ => rfl) rfl
  refine bind_mapped (loopMap_displaced (·.scaled c) (fun a i => ?_) x.cams _) fun _ => ?_
  · unfold CamState.addVecAt
    exact ite_mapped (bind_same fun _ => bind_same fun _ => rfl) rfl
  refine bind_mapped (loopMap_displaced (·.scaled c) (fun a i => ?_) x.fids _) fun _ => ?_
  · unfold FidState.addVecAt
    exact ite_mapped (bind_same fun _ => bind_same fun _ => rfl) rfl
  exact bind_same fun _ => rfl

/-! ## The filter -/

namespace Ekf
variable {N : Prim K} {s : K} (hN : N.Scales s)

include hN

theorem refreshIndices_scaled {e e' : Ekf K} (h : e' = e.scaled s) : refreshIndices N e' = scaled s <$> refreshIndices N e := by
  subst h
  unfold refreshIndices
  refine bind_same fun _ => bind_same fun _ => ?_
  have hd : (bodySize, fun k => if k < bodySize then (e.scaled s).bodyProcessNoise.get k else 0) =
      Refresh.scaled (s * s) (bodySize, fun k => if k < bodySize then e.bodyProcessNoise.get k else 0) := by
    refine congrArg (Prod.mk bodySize) (funext fun k => ?_)
    show (if k < bodySize then e.bodyProcessNoise.get k * (s * s) else 0) = (if k < bodySize then e.bodyProcessNoise.get k else 0) * (s * s)
    split
    · rfl
    · exact (zero_mul _).symm
  dsimp only
  rw [hd]
  refine bind_mapped (refreshLoop_scaled (s * s) (·.scaled (s * s)) (refreshImu_scaled _ _) e.state.imus _) fun x1 => ?_
  refine bind_mapped (refreshLoop_scaled (s * s) (·.scaled (s * s)) (refreshGps_scaled _ _) e.state.gpss _) fun x2 => ?_
  refine bind_mapped (refreshLoop_scaled (s * s) (·.scaled (s * s)) (refreshCam_scaled _ _) e.state.cams _) fun x3 => ?_
  refine bind_mapped (refreshLoop_scaled (s * s) (·.scaled (s * s)) (refreshFid_scaled _ _) e.state.fids _) fun x4 => ?_
  refine congrArg Except.ok ?_
  obtain ⟨fids, i, d⟩ := x4
  have hn : (if e.useRoot then (diagMat e.stateSize (fun k => d k * (s * s))).map N.sqrt else diagMat e.stateSize (fun k => d k * (s * s))) =
      (if e.useRoot then (diagMat e.stateSize d).map N.sqrt else diagMat e.stateSize d).smul (scaleOf s e.useRoot) := by
    rw [diagMat_scaled]
    cases e.useRoot
    · rfl
    · exact map_sqrt_scaled hN _
  show ({ scaled s e with
    state := _
    processNoise := if e.useRoot then (diagMat e.stateSize (fun k => d k * (s * s))).map N.sqrt else diagMat e.stateSize (fun k => d k * (s * s))
    imuStateStart := _, gpsStateStart := _, camStateStart := _
    fidStateStart := _, augStateStart := _ } : Ekf K) = _
  rw [hn]
  rfl

theorem registerIMU_scaled (e : Ekf K) (id : Nat) (x : ImuState K) (c : Mat K) :
    registerIMU N (e.scaled s) id (x.scaled (s * s)) (c.smul (scaleOf s e.useRoot)) = scaled s <$> registerIMU N e id x c := by
  unfold registerIMU
  have hf : ((e.scaled s).state.imus.find? id).isSome = (e.state.imus.find? id).isSome := by
    show ((e.state.imus.mapValues _).find? id).isSome = _
    rw [UMap.find?_mapValues]; cases e.state.imus.find? id <;> rfl
  have hi : (e.scaled s).state.imus.insert id (x.scaled (s * s)) = (e.state.imus.insert id x).mapValues (·.scaled (s * s)) :=
    UMap.insert_mapValues _ _ _ _
  simp only [hf, hi]
  refine ite_mapped rfl (ite_mapped (bind_mapped (block_scaled c _ ..) fun _ => bind_mapped (insertInMatrix_scaled _ _ _ ..) fun _ => ?_) ?_)
  · exact bind_mapped (φ := scaled s) rfl fun a => by
      obtain ⟨p1, p2, p3, p4, x1, x2, x3, x4, n1, n2, n3, n4, b1, b2⟩ := x
      cases b1 <;> cases b2 <;> exact refreshIndices_scaled hN rfl
  · exact bind_mapped (φ := scaled s) rfl fun a => by
      obtain ⟨p1, p2, p3, p4, x1, x2, x3, x4, n1, n2, n3, n4, b1, b2⟩ := x
      cases b1 <;> cases b2 <;> exact refreshIndices_scaled hN rfl

theorem registerGPS_scaled (e : Ekf K) (id : Nat) (x : GpsState K) (c : Mat K) :
    registerGPS N (e.scaled s) id (x.scaled (s * s)) (c.smul (scaleOf s e.useRoot)) = scaled s <$> registerGPS N e id x c := by
  unfold registerGPS
  have hf : ((e.scaled s).state.gpss.find? id).isSome = (e.state.gpss.find? id).isSome := by
    show ((e.state.gpss.mapValues _).find? id).isSome = _
    rw [UMap.find?_mapValues]; cases e.state.gpss.find? id <;> rfl
  have hi : (e.scaled s).state.gpss.insert id (x.scaled (s * s)) = (e.state.gpss.insert id x).mapValues (·.scaled (s * s)) :=
    UMap.insert_mapValues _ _ _ _
  simp only [hf, hi]
  exact ite_mapped rfl (ite_mapped (bind_mapped (block_scaled c _ ..) fun _ => bind_mapped (insertInMatrix_scaled _ _ _ ..) fun _ =>
    refreshIndices_scaled hN rfl) (refreshIndices_scaled hN rfl))

theorem registerFiducial_scaled (e : Ekf K) (x : FidState K) (c : Mat K) :
    registerFiducial N (e.scaled s) (x.scaled (s * s)) (c.smul (scaleOf s e.useRoot)) = scaled s <$> registerFiducial N e x c := by
  unfold registerFiducial
  have hf : ((e.scaled s).state.fids.find? (x.scaled (s * s)).id).isSome = (e.state.fids.find? x.id).isSome := by
    show ((e.state.fids.mapValues _).find? x.id).isSome = _
    rw [UMap.find?_mapValues]; cases e.state.fids.find? x.id <;> rfl
  have hi : (e.scaled s).state.fids.insert (x.scaled (s * s)).id (x.scaled (s * s)) = (e.state.fids.insert x.id x).mapValues (·.scaled (s * s)) :=
    UMap.insert_mapValues _ _ _ _
  simp only [hf, hi]
  exact ite_mapped rfl (ite_mapped (bind_mapped (block_scaled c _ ..) fun _ => bind_mapped (insertInMatrix_scaled _ _ _ ..) fun _ =>
    refreshIndices_scaled hN rfl) (refreshIndices_scaled hN rfl))

theorem registerCamera_scaled (e : Ekf K) (id : Nat) (x : CamState K) (c : Mat K) :
    registerCamera N (e.scaled s) id (x.scaled (s * s)) (c.smul (scaleOf s e.useRoot)) = scaled s <$> registerCamera N e id x c := by
  unfold registerCamera
  have hf : ((e.scaled s).state.cams.find? id).isSome = (e.state.cams.find? id).isSome := by
    show ((e.state.cams.mapValues _).find? id).isSome = _
    rw [UMap.find?_mapValues]; cases e.state.cams.find? id <;> rfl
  have hi : (e.scaled s).state.cams.insert id (x.scaled (s * s)) = (e.state.cams.insert id x).mapValues (·.scaled (s * s)) :=
    UMap.insert_mapValues _ _ _ _
  simp only [hf]
  refine ite_mapped rfl (bind_same fun _ => ?_)
  by_cases h : e.primaryCameraId = 0
  · have h' : (e.scaled s).primaryCameraId = 0 := h
    simp only [h, h', if_true, hi]
    exact ite_mapped (bind_mapped (block_scaled c _ ..) fun _ => bind_mapped (insertInMatrix_scaled _ _ _ ..) fun _ =>
      refreshIndices_scaled hN rfl) (refreshIndices_scaled hN rfl)
  · have h' : (e.scaled s).primaryCameraId ≠ 0 := h
    simp only [h, h', if_false, hi]
    exact ite_mapped (bind_mapped (block_scaled c _ ..) fun _ => bind_mapped (insertInMatrix_scaled _ _ _ ..) fun _ =>
      refreshIndices_scaled hN rfl) (refreshIndices_scaled hN rfl)

omit hN in
theorem augmentAtBack_scaled {e e' : Ekf K} (key : Nat) (h : e' = e.scaled s) :
    augmentAtBack e' key = scaled s <$> augmentAtBack e key := by
  subst h
  unfold augmentAtBack
  have hw : (e.scaled s).state.augs.getD key [] = e.state.augs.getD key [] := rfl
  rw [hw]
  cases (e.state.augs.getD key []).getLast? with
  | none => rfl
  | some a => exact bind_mapped (augmentCovariance_scaled _ _ _ _) fun _ => rfl

theorem augmentFrame_scaled (e : Ekf K) (cam frame : Nat) :
    augmentFrame N (e.scaled s) cam frame = scaled s <$> augmentFrame N e cam frame := by
  unfold augmentFrame
  have jp : ∀ a a' : Ekf K, a' = a.scaled s → (do let e ← refreshIndices N a'; e.augmentAtBack cam) =
      scaled s <$> (do let e ← refreshIndices N a; e.augmentAtBack cam) := fun a a' h =>
    bind_mapped (refreshIndices_scaled hN h) fun a => augmentAtBack_scaled cam rfl
  refine ite_mapped (ite_mapped (jp _ _ rfl) ?_) rfl
  have hw : (e.scaled s).state.augs.getD cam [] ++ [({ e.scaled s with frameReceived := true } : Ekf K).newClone frame] =
      e.state.augs.getD cam [] ++ [({ e with frameReceived := true } : Ekf K).newClone frame] := rfl
  dsimp only
  rw [hw]
  generalize e.state.augs.getD cam [] ++ [({ e with frameReceived := true } : Ekf K).newClone frame] = w
  cases w with
  | nil => rfl
  | cons a w => exact bind_mapped (removeFromMatrix_scaled _ _ ..) fun c => jp _ _ rfl

theorem pruneAt_scaled (e : Ekf K) (i : Nat) : pruneAt N (e.scaled s) i = scaled s <$> pruneAt N e i := by
  unfold pruneAt
  have hw : (e.scaled s).state.augs.getD 0 [] = e.state.augs.getD 0 [] := rfl
  simp only [hw]
  cases h1 : (e.state.augs.getD 0 [])[i + 1]? with
  | none => rfl
  | some b =>
    refine ite_mapped ?_ rfl
    cases h2 : (e.state.augs.getD 0 [])[i]? with
    | none => rfl
    | some a => exact bind_mapped (removeFromMatrix_scaled _ _ ..) fun c => refreshIndices_scaled hN rfl

theorem pruneLoop_scaled (n : Nat) {e e' : Ekf K} (h : e' = e.scaled s) :
    pruneLoop N n e' = scaled s <$> pruneLoop N n e := by
  subst h
  induction n generalizing e with
  | zero => rfl
  | succ n ih => exact bind_mapped (pruneAt_scaled hN e n) fun a => ih

theorem augmentTimed_scaled {e e' : Ekf K} (h : e' = e.scaled s) : augmentTimed N e' = scaled s <$> augmentTimed N e := by
  subst h
  unfold augmentTimed
  refine ite_mapped rfl (bind_same (x := cloneDue N e (e.state.augs.getD 0 [])) fun due => ?_)
  refine bind_mapped (pruneLoop_scaled hN _ rfl) fun a => ite_mapped ?_ rfl
  exact bind_mapped (refreshIndices_scaled hN rfl) fun a => bind_mapped (augmentAtBack_scaled 0 rfl) fun _ => rfl

theorem predict_scaled {e e' : Ekf K} (t : K) (h : e' = e.scaled s) : predict N e' t = scaled s <$> predict N e t := by
  subst h
  unfold predict
  exact ite_mapped rfl (ite_mapped (bind_mapped (predictCov_scaled hN ..) fun _ => augmentTimed_scaled hN rfl) (augmentTimed_scaled hN rfl))

theorem kalmanUpdate_scaled {e e' : Ekf K} (j : Mat K) (x : Vec K) (n : Mat K) (h : e' = e.scaled s) :
    kalmanUpdate N e' j x (n.smul (s * s)) = scaled s <$> kalmanUpdate N e j x n := by
  subst h
  have hs : s * s ≠ 0 := mul_ne_zero hN.pos.ne' hN.pos.ne'
  unfold kalmanUpdate
  have h1 : (e.scaled s).useRoot = e.useRoot := rfl
  have h2 : (e.scaled s).cov = e.cov.smul (scaleOf s e.useRoot) := rfl
  have h3 : (e.scaled s).state = e.state.scaled (s * s) := rfl
  have hf : ∀ (x : State K) (c : Mat K) (b : Bool), b = e.useRoot →
      ({ e.scaled s with state := x.scaled (s * s), cov := c.smul (scaleOf s b), useRoot := b } : Ekf K) =
        scaled s { e with state := x, cov := c, useRoot := b } := by
    intro _ _ b h; subst h; rfl
  simp only [h1, h2, h3]
  cases hr : e.useRoot <;> simp only [Bool.false_eq_true, if_true, if_false, scaleOf]
  · refine bind_mapped (mul_scaled_right _ _ _) fun _ => bind_mapped (mul_scaled_left _ _ _) fun _ => bind_mapped (add_scaled _ _ _) fun _ => ?_
    refine bind_mapped (mul_scaled_left _ _ _) fun _ => bind_mapped (inverse_scaled hN _) fun _ => ?_
    rw [mul_scaled_cancel _ _ hs]
    refine bind_same fun _ => bind_same fun _ => bind_mapped (addVec_scaled N _ _ _) fun _ => bind_same fun _ => bind_same fun _ => ?_
    refine bind_mapped (mul_scaled_right _ _ _) fun _ => bind_mapped (mul_scaled_left _ _ _) fun _ => ?_
    refine bind_mapped (mul_scaled_right _ _ _) fun _ => bind_mapped (mul_scaled_left _ _ _) fun _ => bind_mapped (add_scaled _ _ _) fun _ => ?_
    exact congrArg Except.ok (hf _ _ false hr.symm)
  · rw [map_sqrt_scaled hN]
    refine bind_mapped (mul_scaled_left _ _ _) fun _ => bind_mapped (qrStack_scaled hN _ _) fun _ => ?_
    refine bind_mapped (mul_scaled_both e.cov.transpose e.cov s s) fun _ => bind_mapped (mul_scaled_left _ _ _) fun a => ?_
    refine bind_mapped (mul_scaled_both (Mat.transpose _) _ s s) fun _ => bind_mapped (inverse_scaled hN _) fun _ => ?_
    rw [mul_scaled_cancel _ _ hs]
    refine bind_same fun _ => bind_same fun _ => bind_mapped (addVec_scaled N _ _ _) fun _ => bind_same fun _ => bind_same fun _ => ?_
    refine bind_mapped (mul_scaled_left _ _ _) fun _ => bind_mapped (mul_scaled_left _ _ _) fun _ => bind_mapped (qrStack_scaled hN _ _) fun _ => ?_
    exact congrArg Except.ok (hf _ _ true hr.symm)

omit hN in
theorem getImuState_scaled (e : Ekf K) (id : Nat) : (e.scaled s).getImuState id = ((e.getImuState id).1.scaled (s * s), (e.getImuState id).2.scaled s) := by
  have h1 : (e.scaled s).state.imus.getD id ImuState.default = (e.state.imus.getD id ImuState.default).scaled (s * s) :=
    UMap.getD_mapValues (ImuState.scaled (s * s)) e.state.imus id ImuState.default
  have h2 : (e.scaled s).state.imus.touch id ImuState.default = (e.state.imus.touch id ImuState.default).mapValues (·.scaled (s * s)) :=
    UMap.touch_mapValues (ImuState.scaled (s * s)) e.state.imus id ImuState.default
  unfold getImuState
  rw [h1, h2]
  rfl

omit hN in
theorem getGpsState_scaled (e : Ekf K) (id : Nat) : (e.scaled s).getGpsState id = ((e.getGpsState id).1.scaled (s * s), (e.getGpsState id).2.scaled s) := by
  have h1 : (e.scaled s).state.gpss.getD id GpsState.default = (e.state.gpss.getD id GpsState.default).scaled (s * s) :=
    UMap.getD_mapValues (GpsState.scaled (s * s)) e.state.gpss id GpsState.default
  have h2 : (e.scaled s).state.gpss.touch id GpsState.default = (e.state.gpss.touch id GpsState.default).mapValues (·.scaled (s * s)) :=
    UMap.touch_mapValues (GpsState.scaled (s * s)) e.state.gpss id GpsState.default
  unfold getGpsState
  rw [h1, h2]
  rfl

omit hN in
theorem getCamState_scaled (e : Ekf K) (id : Nat) : (e.scaled s).getCamState id = ((e.getCamState id).1.scaled (s * s), (e.getCamState id).2.scaled s) := by
  have h1 : (e.scaled s).state.cams.getD id CamState.default = (e.state.cams.getD id CamState.default).scaled (s * s) :=
    UMap.getD_mapValues (CamState.scaled (s * s)) e.state.cams id CamState.default
  have h2 : (e.scaled s).state.cams.touch id CamState.default = (e.state.cams.touch id CamState.default).mapValues (·.scaled (s * s)) :=
    UMap.touch_mapValues (CamState.scaled (s * s)) e.state.cams id CamState.default
  unfold getCamState
  rw [h1, h2]
  rfl

omit hN in
theorem getAugState_scaled (e : Ekf K) (cam frame : Nat) (t : K) :
    getAugState N (e.scaled s) cam frame t = (fun x => (x.1, x.2.scaled s)) <$> getAugState N e cam frame t := by
  unfold getAugState
  exact ite_mapped rfl (bind_same fun _ => rfl)

omit hN in
theorem calculateLocalTime_scaled (e : Ekf K) (t : K) : (e.scaled s).calculateLocalTime t =
    ((e.calculateLocalTime t).1, (e.calculateLocalTime t).2.scaled s) := by
  unfold calculateLocalTime
  have h : (e.scaled s).timeInitialized = e.timeInitialized := rfl
  rw [h]
  split <;> rfl

omit hN in
theorem attemptGpsInit_scaled {e e' : Ekf K} (t : K) (x : V3 K) (fit : List (V3 K) → List (V3 K) → GpsFit K)
    (h : e' = e.scaled s) : attemptGpsInit e' t x fit = scaled s <$> attemptGpsInit e t x fit := by
  subst h
  unfold attemptGpsInit
  exact ite_mapped (bind_same fun _ => ite_mapped rfl rfl) rfl

/-- A direct call. -/
theorem step_scaled (e : Ekf K) (op : Op K) : step N (e.scaled s) (op.scaled s e.useRoot) = scaled s <$> step N e op := by
  cases op with
  | registerIMU id x c => exact registerIMU_scaled hN e id x c
  | registerGPS id x c => exact registerGPS_scaled hN e id x c
  | registerCamera id x c => exact registerCamera_scaled hN e id x c
  | registerFiducial x c => exact registerFiducial_scaled hN e x c
  | predict t => exact predict_scaled hN t rfl
  | frame c n => exact augmentFrame_scaled hN e c n
  | kalman j x n => exact kalmanUpdate_scaled hN j x n rfl
  | getImu id => exact congrArg (fun x => Except.ok (Prod.snd x)) (getImuState_scaled e id)
  | getGps id => exact congrArg (fun x => Except.ok (Prod.snd x)) (getGpsState_scaled e id)
  | getCam id => exact congrArg (fun x => Except.ok (Prod.snd x)) (getCamState_scaled e id)
  | getAug c n t => exact bind_mapped (getAugState_scaled e c n t) fun _ => rfl
  | localTime t => exact congrArg (fun x => Except.ok (Prod.snd x)) (calculateLocalTime_scaled e t)
  | attemptGpsInit t x g => exact attemptGpsInit_scaled t x g rfl
  | _ => rfl

end Ekf

/-! ## The updaters -/

theorem toMat_scaled (m : M3 K) (c : K) : M3.toMat (fun i j => m i j * c) = (M3.toMat m).smul c := by
  unfold M3.toMat Mat.smul
  congr 1
  funext i j
  dsimp only
  split
  · rfl
  · exact (zero_mul c).symm

namespace ImuUpdater
variable {N : Num K} {s : K} (hN : N.toPrim.Scales s)

theorem imuOf_scaled (u : ImuUpdater) (e : Ekf K) : u.imuOf (e.scaled s) = (u.imuOf e).scaled (s * s) :=
  UMap.getD_mapValues (ImuState.scaled (s * s)) e.state.imus u.id ImuState.default

theorem zeroAccJacobian_scaled (u : ImuUpdater) (e : Ekf K) : u.zeroAccJacobian N (e.scaled s) = u.zeroAccJacobian N e := by
  unfold zeroAccJacobian gravityInImu
  simp only [imuOf_scaled]
  rfl

theorem zeroAccResidual_scaled (u : ImuUpdater) (e : Ekf K) (acc omg : V3 K) : u.zeroAccResidual (e.scaled s) acc omg = u.zeroAccResidual e acc omg := by
  unfold zeroAccResidual gravityInImu
  simp only [imuOf_scaled]
  rfl

theorem zeroAccNoise_scaled (u : ImuUpdater) (ac oc : M3 K) (c : K) :
    u.zeroAccNoise (fun i j => ac i j * c) (fun i j => oc i j * c) = (·.smul c) <$> u.zeroAccNoise ac oc := by
  unfold zeroAccNoise
  simp only [toMat_scaled]
  refine bind_mapped ((congrArg (fun m : Mat K => m.setBlock _ _ _ _ _) (zero_smul_mat _ _ c).symm).trans (setBlock_scaled _ _ c ..)) fun _ => ?_
  exact ite_mapped (setBlock_scaled _ _ c ..) rfl

theorem measurementNoise_scaled (ac oc : M3 K) (c : K) :
    measurementNoise (fun i j => ac i j * c) (fun i j => oc i j * c) = (·.smul c) <$> measurementNoise ac oc := by
  unfold measurementNoise
  simp only [toMat_scaled]
  refine bind_mapped ((congrArg (fun m : Mat K => m.setBlock _ _ _ _ _) (zero_smul_mat _ _ c).symm).trans (setBlock_scaled _ _ c ..)) fun _ => ?_
  exact setBlock_scaled _ _ c ..

theorem measurementJacobian_scaled (u : ImuUpdater) (e : Ekf K) : u.measurementJacobian (e.scaled s) = u.measurementJacobian e := by
  unfold measurementJacobian
  simp only [imuOf_scaled]
  rfl

theorem predictMeasurement_scaled (u : ImuUpdater) (e : Ekf K) : u.predictMeasurement (e.scaled s) = u.predictMeasurement e := by
  unfold predictMeasurement
  simp only [imuOf_scaled]
  rfl

variable [IsStrictOrderedRing K]
include hN

theorem score_scaled {e : Ekf K} (hu : e.useRoot = false) (jac : Mat K) (r : Vec K) (n : Mat K) :
    score N (e.scaled s) jac r (n.smul (s * s)) = (· / (s * s)) <$> score N e jac r n := by
  unfold score
  have h2 : (e.scaled s).cov = e.cov.smul (s * s) := by
    show e.cov.smul (scaleOf s e.useRoot) = _
    rw [hu]; rfl
  have h3 : (n.smul (s * s)).smul e.imuNoiseScaleFactor = (n.smul e.imuNoiseScaleFactor).smul (s * s) := smul_comm_mat _ _ _
  have h4 : (e.scaled s).imuNoiseScaleFactor = e.imuNoiseScaleFactor := rfl
  rw [h2, h4, h3]
  refine bind_mapped (mul_scaled_right _ _ _) fun _ => bind_mapped (mul_scaled_left _ _ _) fun _ => bind_mapped (add_scaled _ _ _) fun _ => ?_
  refine bind_mapped (inverse_scaled hN _) fun a => ?_
  refine bind_mapped (φ := fun v : Vec K => v.times (s * s)⁻¹) ?_ fun w => bind_same fun _ => ?_
  · unfold Mat.mulVec
    refine ite_mapped (congrArg Except.ok ?_) rfl
    unfold Vec.times
    congr 1
    funext i
    dsimp only
    rw [← sumTo_scaled]
    exact congrArg (sumTo _) (funext fun k => by show a.get k i * (s * s)⁻¹ * r.get k = _; simp only [Mat.transpose]; ring)
  · refine congrArg Except.ok ?_
    have hs : 0 < s * s := mul_pos hN.pos hN.pos
    have : (fun i => (w.times (s * s)⁻¹).get i * r.get i) = fun i => w.get i * r.get i * (s * s)⁻¹ :=
      funext fun i => by show w.get i * (s * s)⁻¹ * r.get i = _; ring
    rw [this, sumTo_scaled, abs_mul, abs_of_pos (inv_pos.2 hs)]
    exact (div_eq_mul_inv _ _).symm

theorem zeroAccUpdate_scaled (u : ImuUpdater) {e : Ekf K} (hu : e.useRoot = false) (t : K) (acc : V3 K) (ac : M3 K) (omg : V3 K) (oc : M3 K) :
    u.zeroAccUpdate N (e.scaled s) t acc (fun i j => ac i j * (s * s)) omg (fun i j => oc i j * (s * s)) =
      (fun x => (x.1, x.2.1, x.2.2.scaled s)) <$> u.zeroAccUpdate N e t acc ac omg oc := by
  unfold zeroAccUpdate
  have hs : 0 < s * s := mul_pos hN.pos hN.pos
  have hg : ((e.scaled s).getImuState u.id).2 = (e.getImuState u.id).2.scaled s := congrArg Prod.snd (Ekf.getImuState_scaled e u.id)
  have hu1 : (e.getImuState u.id).2.useRoot = false := hu
  rw [hg]
  generalize (e.getImuState u.id).2 = e1 at hu1 ⊢
  dsimp only
  rw [zeroAccJacobian_scaled, zeroAccResidual_scaled]
  refine ite_mapped rfl (bind_same fun _ => bind_mapped (zeroAccNoise_scaled u ac oc _) fun _ => bind_mapped (score_scaled hN hu1 _ _ _) fun sc => ?_)
  have hc : (e1.scaled s).motionDetectionChiSquared = e1.motionDetectionChiSquared / (s * s) := rfl
  have hgt : sc / (s * s) > e1.motionDetectionChiSquared / (s * s) ↔ sc > e1.motionDetectionChiSquared := div_lt_div_iff_of_pos_right hs
  have hlt : sc / (s * s) < e1.motionDetectionChiSquared / (s * s) ↔ sc < e1.motionDetectionChiSquared := div_lt_div_iff_of_pos_right hs
  have hi : (e1.scaled s).isGravityInitialized = e1.isGravityInitialized := rfl
  simp only [hc, hgt, hlt, hi]
  refine ite_mapped rfl ?_
  have hif : (if sc < e1.motionDetectionChiSquared then (e1.scaled s).initializeGravity else e1.scaled s) =
      (if sc < e1.motionDetectionChiSquared then e1.initializeGravity else e1).scaled s := by
    split <;> rfl
  rw [hif]
  refine bind_mapped (Ekf.predict_scaled hN t rfl) fun a => ?_
  rw [zeroAccJacobian_scaled]
  exact bind_same fun _ => bind_mapped (Ekf.kalmanUpdate_scaled hN _ _ _ rfl) fun _ => rfl

theorem update_scaled (u : ImuUpdater) {e : Ekf K} (hu : e.useRoot = false) (t : K) (acc : V3 K) (ac : M3 K) (omg : V3 K) (oc : M3 K) :
    u.update N (e.scaled s) t acc (fun i j => ac i j * (s * s)) omg (fun i j => oc i j * (s * s)) =
      (fun x => (x.1, x.2.scaled s)) <$> u.update N e t acc ac omg oc := by
  unfold update
  rw [Ekf.calculateLocalTime_scaled]
  have hu1 : (e.calculateLocalTime t).2.useRoot = false := by
    unfold Ekf.calculateLocalTime; split <;> exact hu
  generalize e.calculateLocalTime t = p at hu1 ⊢
  obtain ⟨t, e⟩ := p
  refine bind_mapped (zeroAccUpdate_scaled hN u hu1 t acc ac omg oc) fun x => ?_
  obtain ⟨ap, u, e2⟩ := x
  refine ite_mapped rfl ?_
  have hg : (((e2.scaled s).setZeroAcceleration false).getImuState u.id).2 = ((e2.setZeroAcceleration false).getImuState u.id).2.scaled s :=
    congrArg Prod.snd (Ekf.getImuState_scaled (e2.setZeroAcceleration false) u.id)
  dsimp only
  rw [hg]
  generalize ((e2.setZeroAcceleration false).getImuState u.id).2 = e3
  have hl : (e3.scaled s).state.imus.length = e3.state.imus.length := List.length_map ..
  rw [hl, imuOf_scaled, predictMeasurement_scaled, measurementJacobian_scaled]
  refine ite_mapped ?_ ?_
  · exact bind_mapped (φ := Ekf.scaled s) rfl fun a => bind_mapped (Ekf.predict_scaled hN t rfl) fun _ => rfl
  · refine bind_same fun _ => bind_mapped (measurementNoise_scaled ac oc _) fun _ => ?_
    exact bind_mapped (Ekf.kalmanUpdate_scaled hN _ _ _ rfl) fun a =>
      bind_mapped (Ekf.predict_scaled hN t rfl) fun _ => rfl

end ImuUpdater

namespace GpsUpdater
variable {N : Num K} {G : GpsNum K} {s : K}

theorem gpsOf_scaled (u : GpsUpdater K) (e : Ekf K) : u.gpsOf (e.scaled s) = (u.gpsOf e).scaled (s * s) :=
  UMap.getD_mapValues (GpsState.scaled (s * s)) e.state.gpss u.id GpsState.default

theorem refresh_scaled (u : GpsUpdater K) (e : Ekf K) : u.refresh (e.scaled s) = u.refresh e := by
  unfold refresh
  rw [gpsOf_scaled]
  rfl

theorem measurementJacobian_scaled (u : GpsUpdater K) (e : Ekf K) : u.measurementJacobian N (e.scaled s) = u.measurementJacobian N e := by
  unfold measurementJacobian jacobianOf
  simp only [refresh_scaled, gpsOf_scaled]
  rfl

theorem predictMeasurement_scaled (u : GpsUpdater K) (e : Ekf K) : u.predictMeasurement (e.scaled s) = u.predictMeasurement e := by
  unfold predictMeasurement
  simp only [refresh_scaled]
  rfl

/-- A fix after the reference is known. -/
theorem update_scaled (hN : N.toPrim.Scales s) (u : GpsUpdater K) {e : Ekf K} (hl : e.isLlaInitialized = true) (t : K) (lla : V3 K) (cov : Mat K) :
    u.update N G (e.scaled s) t lla (cov.smul (s * s)) = (fun x => (x.1, x.2.scaled s)) <$> u.update N G e t lla cov := by
  unfold update
  rw [Ekf.calculateLocalTime_scaled]
  have hl1 : (e.calculateLocalTime t).2.isLlaInitialized = true := by
    unfold Ekf.calculateLocalTime; split <;> exact hl
  generalize e.calculateLocalTime t = p at hl1 ⊢
  obtain ⟨t, e⟩ := p
  refine bind_mapped_of (Ekf.predict_scaled hN t rfl) fun e1 h1 => ?_
  have hl2 : e1.isLlaInitialized = true := by
    exact (Ekf.flags_step (op := .predict t) h1).2 hl1
  have hl3 : (e1.scaled s).isLlaInitialized = true := hl2
  rw [if_neg (show ¬ (e1.scaled s).isLlaInitialized = false by rw [hl3]; simp), if_neg (show ¬ e1.isLlaInitialized = false by rw [hl2]; simp)]
  have hg : ((e1.scaled s).getGpsState u.id).2 = (e1.getGpsState u.id).2.scaled s := congrArg Prod.snd (Ekf.getGpsState_scaled e1 u.id)
  rw [hg]
  generalize (e1.getGpsState u.id).2 = e2
  dsimp only
  rw [predictMeasurement_scaled]
  refine bind_same (x := G.llaToEnu lla e2.posEInG) fun _ => ?_
  rw [measurementJacobian_scaled]
  exact bind_same fun _ => bind_mapped (Ekf.kalmanUpdate_scaled hN _ _ _ rfl) fun _ => rfl

end GpsUpdater

namespace FidUpdater
variable {N : Num K} {s : K}

theorem camOf_scaled (u : FidUpdater K) (e : Ekf K) : u.camOf (e.scaled s) = (u.camOf e).scaled (s * s) :=
  UMap.getD_mapValues (CamState.scaled (s * s)) e.state.cams u.cameraId CamState.default

theorem noiseOf_scaled (d : BoardDetection K) (c : K) : noiseOf (d.scaled c) = (·.smul c) <$> noiseOf d := by
  have h : ∀ v : V3 K, M3.toMat (Matrix.diagonal fun i => v i * c) = (M3.toMat (Matrix.diagonal v)).smul c := by
    intro v
    rw [← toMat_scaled]
    refine congrArg M3.toMat (funext fun i => funext fun j => ?_)
    by_cases hij : i = j
    · subst hij; rw [Matrix.diagonal_apply_eq, Matrix.diagonal_apply_eq]
    · rw [Matrix.diagonal_apply_ne _ hij, Matrix.diagonal_apply_ne _ hij, zero_mul]
  unfold noiseOf
  show (do
    let n ← (Mat.zero 6 6 : Mat K).setBlock 0 0 3 3 (M3.toMat (Matrix.diagonal fun i => d.posError i * c))
    n.setBlock 3 3 3 3 (M3.toMat (Matrix.diagonal fun i => d.angError i * c))) = _
  rw [h, h]
  refine bind_mapped ((congrArg (fun m : Mat K => m.setBlock _ _ _ _ _) (zero_smul_mat _ _ c).symm).trans (setBlock_scaled _ _ c ..)) fun _ => ?_
  exact setBlock_scaled _ _ c ..

theorem update_scaled (hN : N.toPrim.Scales s) (u : FidUpdater K) (e : Ekf K) (t : K) (b : BoardDetection K) :
    u.update N (e.scaled s) t (b.scaled (s * s)) = (fun x => (x.1, x.2.scaled s)) <$> u.update N e t b := by
  unfold update
  rw [Ekf.calculateLocalTime_scaled]
  generalize e.calculateLocalTime t = p
  obtain ⟨t, e⟩ := p
  refine bind_mapped (Ekf.predict_scaled hN t rfl) fun e => ?_
  have he : ((e.scaled s).getCamState u.cameraId).2 = (e.getCamState u.cameraId).2.scaled s := congrArg Prod.snd (Ekf.getCamState_scaled e u.cameraId)
  rw [he]
  generalize (e.getCamState u.cameraId).2 = e
  dsimp only
  have hfs : (e.scaled s).state.fids.find? u.id = (e.state.fids.find? u.id).map (·.scaled (s * s)) := UMap.find?_mapValues ..
  rw [hfs]
  cases e.state.fids.find? u.id with
  | none => rfl
  | some f =>
    simp only [Option.map_some]
    have hr : u.refresh (e.scaled s) (f.scaled (s * s)) = u.refresh e f := by
      unfold refresh
      rw [camOf_scaled]
      rfl
    have hj : ∀ u : FidUpdater K, u.jacobianOf N (e.scaled s) (f.scaled (s * s)) = u.jacobianOf N e f := by
      intro u
      unfold jacobianOf
      simp only [camOf_scaled]
      rfl
    have hp : ∀ u : FidUpdater K, u.predictOf N (e.scaled s) = u.predictOf N e := fun _ => rfl
    rw [hr, hj, hp]
    exact bind_same fun _ => bind_mapped (noiseOf_scaled b _) fun _ => bind_mapped (Ekf.kalmanUpdate_scaled hN _ _ _ rfl) fun _ => rfl

end FidUpdater

namespace MsckfUpdater
variable {N : Num K} {s : K}

theorem camOf_scaled (u : MsckfUpdater K) (e : Ekf K) : u.camOf (e.scaled s) = (u.camOf e).scaled (s * s) :=
  UMap.getD_mapValues (CamState.scaled (s * s)) e.state.cams u.id CamState.default

theorem triangulateLoop_scaled (u : MsckfUpdater K) (a0 : AugState K) (ps : List (FeaturePoint K)) :
    ∀ (e : Ekf K) (A : M3 K) (b : V3 K), u.triangulateLoop N a0 ps (e.scaled s) A b =
      (fun x => (x.1, x.2.1, x.2.2.scaled s)) <$> u.triangulateLoop N a0 ps e A b := by
  induction ps with
  | nil => intro e A b; rfl
  | cons p ps ih => intro e A b; exact bind_mapped (Ekf.getAugState_scaled e u.id p.frameId p.time) fun x => ih x.2 _ _

theorem triangulate_scaled (u : MsckfUpdater K) (e : Ekf K) (t : FeatureTrack K) :
    u.triangulate N (e.scaled s) t = (fun x => (x.1, x.2.1, x.2.2.scaled s)) <$> u.triangulate N e t := by
  obtain ⟨track, truth⟩ := t
  cases track with
  | nil => rfl
  | cons p ps =>
    refine bind_mapped (Ekf.getAugState_scaled e u.id p.frameId p.time) fun x => ?_
    refine bind_mapped (triangulateLoop_scaled u x.1 (p :: ps) x.2 0 0) fun y => ?_
    exact ite_mapped (ite_mapped rfl rfl) (ite_mapped rfl rfl)

theorem observeLoop_scaled (u : MsckfUpdater K) (n cam : Nat) (F : V3 K) (ps : List (FeaturePoint K)) :
    ∀ (i : Nat) (e : Ekf K) (m : Mat K × Mat K × Vec K), u.observeLoop N n cam F i ps (e.scaled s) m =
        (fun x => (x.1.scaled s, x.2)) <$> u.observeLoop N n cam F i ps e m := by
  induction ps with
  | nil => intro i e m; rfl
  | cons p ps ih =>
    intro i e m
    exact bind_mapped (Ekf.getAugState_scaled e u.id p.frameId p.time) fun x => bind_same fun m => ih (i + 1) x.2 m

theorem featureLoop_scaled (u : MsckfUpdater K) (n cam : Nat) (fs : List (FeatureTrack K)) :
    ∀ (e : Ekf K) (ct : Nat) (H : Mat K) (v : Vec K), u.featureLoop N n cam fs (e.scaled s) ct H v =
        (fun x => (x.1.scaled s, x.2)) <$> u.featureLoop N n cam fs e ct H v := by
  induction fs with
  | nil => intro e ct H v; rfl
  | cons t fs ih =>
    intro e ct H v
    refine bind_mapped (triangulate_scaled u e t) fun x => ?_
    obtain ⟨ok, posF, e1⟩ := x
    cases ok with
    | false => exact ih e1 ct H v
    | true =>
      cases posF with
      | none => rfl
      | some F =>
        simp only [Bool.true_eq_false, if_false]
        refine bind_mapped (observeLoop_scaled u n cam F t.track 0 e1 _) fun y => ?_
        exact bind_same fun _ => bind_same fun _ => bind_same fun _ => ih _ _ _ _

theorem process_scaled (hN : N.toPrim.Scales s) (u : MsckfUpdater K) (e : Ekf K) (fs : List (FeatureTrack K)) (px : K) (h1 : 1 / 2 ≤ px)
    (h2 : 1 / 2 ≤ px * s) : u.process N (e.scaled s) fs (px * s) = Ekf.scaled s <$> u.process N e fs px := by
  unfold process
  rw [camOf_scaled]
  refine bind_mapped (featureLoop_scaled u _ _ fs e _ _ _) fun x => ite_mapped rfl (bind_same fun y => ite_mapped rfl ?_)
  have hn : (Mat.identity y.2.size y.2.size : Mat K).smul (max (px * s) (1 / 2) * max (px * s) (1 / 2)) =
      ((Mat.identity y.2.size y.2.size).smul (max px (1 / 2) * max px (1 / 2))).smul (s * s) := by
    rw [max_eq_left h1, max_eq_left h2, smul_smul_mat]
    congr 1
    ring
  dsimp only
  rw [hn]
  exact Ekf.kalmanUpdate_scaled hN _ _ _ rfl

theorem update_scaled (hN : N.toPrim.Scales s) (u : MsckfUpdater K) (e : Ekf K) (t : K) (intr : Intrinsics K) (fs : List (FeatureTrack K)) (px : K)
    (h1 : 1 / 2 ≤ px) (h2 : 1 / 2 ≤ px * s) :
    u.update N (e.scaled s) t intr fs (px * s) = (fun x => (x.1, x.2.scaled s)) <$> u.update N e t intr fs px := by
  unfold update
  rw [Ekf.calculateLocalTime_scaled]
  generalize e.calculateLocalTime t = p
  obtain ⟨t, e⟩ := p
  refine bind_mapped (Ekf.predict_scaled hN t rfl) fun e1 => ite_mapped rfl ?_
  have he : ((e1.scaled s).getCamState u.id).2 = (e1.getCamState u.id).2.scaled s := congrArg Prod.snd (Ekf.getCamState_scaled e1 u.id)
  rw [he]
  generalize (e1.getCamState u.id).2 = e2
  have hr : u.refresh (e2.scaled s) intr = u.refresh e2 intr := by
    unfold refresh
    rw [camOf_scaled]
    rfl
  dsimp only
  rw [hr]
  exact bind_mapped (process_scaled hN (u.refresh e2 intr) e2 fs px h1 h2) fun _ => rfl

end MsckfUpdater

/-- One event. -/
theorem Station.step_scaled [IsStrictOrderedRing K] {N : Num K} {G : GpsNum K} {k : K} (hN : N.toPrim.Scales k) (s : Station K)
    (c : Call K) (hl : c.IsFix → s.ekf.isLlaInitialized = true) (hc : c.Free k s.ekf.useRoot) :
    (s.scaled k).step N G (c.scaled k s.ekf.useRoot) = Station.scaled k <$> s.step N G c := by
  cases c with
  | filter op => exact bind_mapped (Ekf.step_scaled hN s.ekf op) fun _ => rfl
  | newImu i id a b =>
    refine congrArg Except.ok ?_
    show (if (s.imus.find? i).isSome then _ else _) = scaled k (if (s.imus.find? i).isSome then _ else _)
    split <;> rfl
  | newGps i id a =>
    refine congrArg Except.ok ?_
    show (if (s.gpss.find? i).isSome then _ else _) = scaled k (if (s.gpss.find? i).isSome then _ else _)
    split <;> rfl
  | newCam i id a b =>
    refine congrArg Except.ok ?_
    show (if (s.cams.find? i).isSome then _ else _) = scaled k (if (s.cams.find? i).isSome then _ else _)
    split <;> rfl
  | newFid i id a b x =>
    refine congrArg Except.ok ?_
    show (if (s.fids.find? i).isSome then _ else _) = scaled k (if (s.fids.find? i).isSome then _ else _)
    split <;> rfl
  | imu i t a ac w wc =>
    show (match s.imus.find? i with | none => _ | some u => _) = scaled k <$> (match s.imus.find? i with | none => _ | some u => _)
    cases s.imus.find? i with
    | none => rfl
    | some u => exact bind_mapped (ImuUpdater.update_scaled hN u hc t a ac w wc) fun _ => rfl
  | gps i t a c =>
    show (match s.gpss.find? i with | none => _ | some u => _) = scaled k <$> (match s.gpss.find? i with | none => _ | some u => _)
    cases s.gpss.find? i with
    | none => rfl
    | some u => exact bind_mapped (GpsUpdater.update_scaled hN u (hl trivial) t a c) fun _ => rfl
  | fid i t b =>
    show (match s.fids.find? i with | none => _ | some u => _) = scaled k <$> (match s.fids.find? i with | none => _ | some u => _)
    cases s.fids.find? i with
    | none => rfl
    | some u => exact bind_mapped (FidUpdater.update_scaled hN u s.ekf t b) fun _ => rfl
  | cam i t x fs px =>
    show (match s.cams.find? i with | none => _ | some u => _) = scaled k <$> (match s.cams.find? i with | none => _ | some u => _)
    cases hu : s.cams.find? i with
    | none => rfl
    | some u => exact bind_mapped (MsckfUpdater.update_scaled hN u s.ekf t x fs px hc.1 hc.2) fun _ => rfl

end EkfCal
