import Verif.Spec.Deviation
import Verif.Props.C89
import Verif.Lemmas.Columns
import Verif.Lemmas.CamRows
import Verif.Lemmas.Defined
import Verif.Props.C86

/-!
# C90 — uncertainty is carried along the way the estimate is

Violated for deviations of the acceleration and of the angular rate, which move the estimate but not its covariance.
-/

set_option linter.unusedSectionVars false

namespace EkfCal
open Ekf Finset
variable {K : Type} [Field K]

theorem UMap.mapVal_same {α : Type} {f g : α → α} {m : UMap α} (h : ∀ kv ∈ m, f kv.2 = g kv.2) :
    UMap.mapVal f m = UMap.mapVal g m :=
  List.map_congr_left fun kv hk => by rw [h kv hk]

theorem Vec.at3_same {v w : Vec K} {i : Nat} (h0 : v.get i = w.get i) (h1 : v.get (i + 1) = w.get (i + 1))
    (h2 : v.get (i + 2) = w.get (i + 2)) : v.at3 i = w.at3 i := by
  unfold Vec.at3; rw [h0, h1, h2]

theorem Vec.at3_apply (v : Vec K) (i : Nat) (k : Fin 3) : v.at3 i k = v.get (i + k) := by
  fin_cases k <;> rfl

/-- Displacements that agree from index 18 on displace everything but the body alike. -/
theorem State.moved_rest (N : Prim K) {s : State K} {n : Nat} (ht : Tiles s.blocks 0 n) {v w : Vec K}
    (h : ∀ i, 18 ≤ i → i < n → v.get i = w.get i) : s.moved N v = { s.moved N w with body := s.body.moved N v } := by
  obtain ⟨a, b, c, d, h1, h2, h3, h4, h5, _⟩ := State.tiles_kinds ht
  have l1 := h1.le'; have l2 := h2.le'; have l3 := h3.le'; have l4 := h4.le'; have l5 := h5.le'
  have k : ∀ i, 18 ≤ i → i + 3 ≤ n → v.at3 i = w.at3 i := fun i h0 hn =>
    Vec.at3_same (h i h0 (by omega)) (h _ (by omega) (by omega)) (h _ (by omega) (by omega))
  have e1 : UMap.mapVal (ImuState.moved N v) s.imus = UMap.mapVal (ImuState.moved N w) s.imus := by
    refine UMap.mapVal_same fun kv hk => ?_
    unfold ImuState.moved
    cases he : kv.2.isExtrinsic <;> cases hi : kv.2.isIntrinsic <;> simp only [if_true, if_false, Bool.false_eq_true]
    · have := h1.mem_bounds (x := (kv.2.indexIntrinsic, 6)) (List.mem_flatMap.2 ⟨kv, hk, by simp [ImuState.blocks, hi]⟩)
      dsimp only at this
      rw [k _ (by omega) (by omega), k (kv.2.indexIntrinsic + 3) (by omega) (by omega)]
    · have := h1.mem_bounds (x := (kv.2.indexExtrinsic, 6)) (List.mem_flatMap.2 ⟨kv, hk, by simp [ImuState.blocks, he]⟩)
      dsimp only at this
      rw [k _ (by omega) (by omega), k (kv.2.indexExtrinsic + 3) (by omega) (by omega)]
    · have := h1.mem_bounds (x := (kv.2.indexIntrinsic, 6)) (List.mem_flatMap.2 ⟨kv, hk, by simp [ImuState.blocks, hi]⟩)
      have := h1.mem_bounds (x := (kv.2.indexExtrinsic, 6)) (List.mem_flatMap.2 ⟨kv, hk, by simp [ImuState.blocks, he]⟩)
      dsimp only at *
      rw [k kv.2.indexIntrinsic (by omega) (by omega), k (kv.2.indexIntrinsic + 3) (by omega) (by omega),
        k kv.2.indexExtrinsic (by omega) (by omega), k (kv.2.indexExtrinsic + 3) (by omega) (by omega)]
  have e2 : UMap.mapVal (GpsState.moved v) s.gpss = UMap.mapVal (GpsState.moved w) s.gpss := by
    refine UMap.mapVal_same fun kv hk => ?_
    unfold GpsState.moved
    cases he : kv.2.isExtrinsic <;> simp only [if_true, if_false, Bool.false_eq_true]
    have := h2.mem_bounds (x := (kv.2.index, 3)) (List.mem_flatMap.2 ⟨kv, hk, by simp [GpsState.blocks, he]⟩)
    dsimp only at this
    rw [k _ (by omega) (by omega)]
  have e3 : UMap.mapVal (CamState.moved N v) s.cams = UMap.mapVal (CamState.moved N w) s.cams := by
    refine UMap.mapVal_same fun kv hk => ?_
    unfold CamState.moved
    cases he : kv.2.isExtrinsic <;> simp only [if_true, if_false, Bool.false_eq_true]
    have := h3.mem_bounds (x := (kv.2.index, 6)) (List.mem_flatMap.2 ⟨kv, hk, by simp [CamState.blocks, he]⟩)
    dsimp only at this
    rw [k _ (by omega) (by omega), k (kv.2.index + 3) (by omega) (by omega)]
  have e4 : UMap.mapVal (FidState.moved N v) s.fids = UMap.mapVal (FidState.moved N w) s.fids := by
    refine UMap.mapVal_same fun kv hk => ?_
    unfold FidState.moved
    cases he : kv.2.isExtrinsic <;> simp only [if_true, if_false, Bool.false_eq_true]
    have := h4.mem_bounds (x := (kv.2.index, 6)) (List.mem_flatMap.2 ⟨kv, hk, by simp [FidState.blocks, he]⟩)
    dsimp only at this
    rw [k _ (by omega) (by omega), k (kv.2.index + 3) (by omega) (by omega)]
  have e5 : UMap.mapVal (List.map (AugState.moved N v)) s.augs = UMap.mapVal (List.map (AugState.moved N w)) s.augs := by
    refine UMap.mapVal_same fun kv hk => List.map_congr_left fun x hx => ?_
    unfold AugState.moved
    have := h5.mem_bounds (x := (x.index, 6)) (List.mem_flatMap.2 ⟨kv, hk, List.mem_map.2 ⟨x, hx, rfl⟩⟩)
    dsimp only at this
    rw [k _ (by omega) (by omega), k (x.index + 3) (by omega) (by omega)]
  unfold State.moved
  rw [e1, e2, e3, e4, e5]

theorem Vec.carried_get (dt : K) (v : Vec K) (hn : 6 ≤ v.size) {i : Nat} (hi : i < v.size) :
    (v.carried dt).get i = v.get i + if i < 3 then dt * v.get (i + 3) else 0 := by
  show ∑ k ∈ range v.size, transition dt i k * v.get k = _
  rw [sum_transition hn dt _ hi]; rfl

variable [LinearOrder K]

namespace Ekf

/-- The predicted body of a displaced body is the displaced predicted body. -/
theorem predictBody_moved (N : Prim K) (z : Bool) (b : BodyState K) (hb : b.index = 0) (dt : K) (v : Vec K)
    (hn : 18 ≤ v.size) (hr : ∀ k, 12 ≤ k → k < 15 → v.get k = 0) :
    predictBody N z (b.moved N v) dt =
      (predictBody N z b dt).moved N (if z then v.carried dt else v.accelerated dt) := by
  have c : ∀ i, i < 18 → (v.carried dt).get i = v.get i + if i < 3 then dt * v.get (i + 3) else 0 := fun i hi =>
    v.carried_get dt (by omega) (by omega)
  have r0 := hr 12 (by omega) (by omega)
  have r1 := hr 13 (by omega) (by omega)
  have r2 := hr 14 (by omega) (by omega)
  have w0 : v.at3 12 = 0 := by unfold Vec.at3; rw [r0, r1, r2]; funext i; fin_cases i <;> rfl
  have keep : ∀ i, 6 ≤ i → i + 3 ≤ 18 → (if z then v.carried dt else v.accelerated dt).at3 i = v.at3 i := by
    intro i h1 h2
    cases z
    · refine Vec.at3_same ?_ ?_ ?_ <;>
      · show (v.carried dt).get _ + _ = _
        rw [c _ (by omega), if_neg (by omega), if_neg (by omega), if_neg (by omega), add_zero, add_zero]
    · refine Vec.at3_same ?_ ?_ ?_ <;>
      · show (v.carried dt).get _ = _
        rw [c _ (by omega), if_neg (by omega), add_zero]
  unfold predictBody BodyState.moved
  simp only [hb, Nat.zero_add]
  rw [keep 6 (by omega) (by omega), keep 9 (by omega) (by omega), keep 12 (by omega) (by omega),
    keep 15 (by omega) (by omega), w0]
  simp only [add_zero, Quat.moved, Quat.mul_assoc']
  have a0 : ∀ i, i < 3 → (v.accelerated dt).get (0 + i) = v.get (0 + i) + dt * v.get (3 + i) + dt * (dt * v.get (6 + i)) :=
    fun i hi => by
      show (v.carried dt).get (0 + i) + _ = _
      rw [c _ (by omega), if_pos (by omega), if_pos (by omega), Nat.zero_add, Nat.add_comm 3, Nat.add_comm 6]
  have a3 : ∀ i, i < 3 → (v.accelerated dt).get (3 + i) = v.get (3 + i) + dt * v.get (6 + i) := fun i hi => by
    show (v.carried dt).get (3 + i) + _ = _
    rw [c _ (by omega), if_neg (by omega), if_neg (by omega), if_pos (by omega), add_zero,
      show 3 + i + 3 = 6 + i by omega]
  have c0 : ∀ i, i < 3 → (v.carried dt).get (0 + i) = v.get (0 + i) + dt * v.get (3 + i) := fun i hi => by
    rw [c _ (by omega), if_pos (by omega), Nat.zero_add, Nat.add_comm 3]
  have c3 : ∀ i, i < 3 → (v.carried dt).get (3 + i) = v.get (3 + i) := fun i hi => by
    rw [c _ (by omega), if_neg (by omega), add_zero]
  cases z
  · have hv : b.vel + v.at3 3 + dt • (b.acc + v.at3 6 - gravity) =
        b.vel + dt • (b.acc - gravity) + (v.accelerated dt).at3 3 := by
      funext i
      simp only [Pi.add_apply, Pi.smul_apply, Pi.sub_apply, smul_eq_mul, Vec.at3_apply, a3 i i.isLt]
      ring
    have hp : b.pos + v.at3 0 + dt • (b.vel + v.at3 3 + dt • (b.acc + v.at3 6 - gravity)) =
        b.pos + dt • (b.vel + dt • (b.acc - gravity)) + (v.accelerated dt).at3 0 := by
      funext i
      simp only [Pi.add_apply, Pi.smul_apply, Pi.sub_apply, smul_eq_mul, Vec.at3_apply, a0 i i.isLt]
      ring
    simp only [if_false, Bool.false_eq_true]
    rw [hp, hv]
  · have hv : b.vel + v.at3 3 + dt • (0 : V3 K) = b.vel + dt • (0 : V3 K) + (v.carried dt).at3 3 := by
      funext i
      simp only [Pi.add_apply, Pi.smul_apply, smul_eq_mul, Vec.at3_apply, c3 i i.isLt, Pi.zero_apply]
      ring
    have hp : b.pos + v.at3 0 + dt • (b.vel + v.at3 3 + dt • (0 : V3 K)) =
        b.pos + dt • (b.vel + dt • (0 : V3 K)) + (v.carried dt).at3 0 := by
      funext i
      simp only [Pi.add_apply, Pi.smul_apply, smul_eq_mul, Vec.at3_apply, c0 i i.isLt, Pi.zero_apply]
      ring
    simp only [if_true]
    rw [hp, hv]

/-- The filter with its estimate displaced. -/
def displacedBy (e : Ekf K) (N : Prim K) (v : Vec K) : Ekf K := { e with state := e.state.moved N v }

/-- One prediction of a displaced estimate. -/
theorem predict_off (N : Prim K) (e e1 : Ekf K) (hi : Ekf.Inv e) (hg : e.isGravityInitialized = true)
    (ha : e.augType ≠ .time ∧ e.augType ≠ .error) (v : Vec K) (hv : v.size = e.stateSize)
    (hr : ∀ k, 12 ≤ k → k < 15 → v.get k = 0) (t : K) (ht : e.currentTime ≤ t) (h1 : predict N e t = .ok e1) :
    predict N (e.displacedBy N v) t = .ok (e1.displacedBy N
      (if e.isZeroAcceleration then v.carried (t - e.currentTime) else v.accelerated (t - e.currentTime))) := by
  have h18 : 18 ≤ e.stateSize := by rw [hi.size]; unfold State.dim; omega
  have hb : e.state.body.index = 0 := hi.tiles.1
  obtain ⟨hlt, _⟩ | ⟨_, b, out, hc, hp⟩ := predict_form h1
  · exact absurd ht (not_le.2 hlt)
  obtain ⟨hg', _⟩ | ⟨_, rfl, hc⟩ := hc
  · rw [hg] at hg'; cases hg'
  have hid : ∀ f : Ekf K, f.augType = e.augType → augmentTimed N f = .ok f := by
    intro f hf
    unfold augmentTimed
    rw [if_pos (by rw [hf]; cases hx : e.augType <;> simp_all)]
    rfl
  have he := Except.ok.inj (hp.symm.trans (hid _ (by rfl)))
  subst he
  unfold predict displacedBy
  simp only [if_neg (not_lt.2 ht), hg, if_true, hc, ok_bind, pure_res]
  refine (hid _ (by rfl)).trans ?_
  congr 1
  have hbody := predictBody_moved N e.isZeroAcceleration e.state.body hb (t - e.currentTime) v (by omega) hr
  have hrest := State.moved_rest N (s := e.state) hi.tiles (v := v)
    (w := if e.isZeroAcceleration then v.carried (t - e.currentTime) else v.accelerated (t - e.currentTime)) (by
      intro i h18 hin
      rw [← hv] at hin
      cases e.isZeroAcceleration
      · show _ = (v.carried _).get i + _
        rw [v.carried_get _ (by omega) hin, if_neg (by omega), if_neg (by omega), if_neg (by omega), add_zero, add_zero]
      · show _ = (v.carried _).get i
        rw [v.carried_get _ (by omega) hin, if_neg (by omega), add_zero])
  rw [show (e.state.moved N v).body = e.state.body.moved N v from rfl, hbody]
  have : ∀ b, ({ e.state.moved N v with body := b } : State K) = { e.state.moved N
      (if e.isZeroAcceleration then v.carried (t - e.currentTime) else v.accelerated (t - e.currentTime)) with body := b } :=
    fun b => by rw [hrest]
  rw [this]
  rfl

/-- **Position, velocity, orientation, acceleration of a body told not to accelerate, and everything else that is
estimated**: an estimate that is off by `v` is off by `F v` after a prediction, `F` being what the covariance is carried
with, as long as the rates are right and a wrong acceleration has no effect. -/
theorem C90_partial (N : Prim K) (p : EkfParams K) (ops : List (Op K)) (hw : ∀ op ∈ ops, op.WF) (e e1 : Ekf K)
    (h : run N (init N p) ops = .ok e) (hg : e.isGravityInitialized = true)
    (ha : e.augType ≠ .time ∧ e.augType ≠ .error) (v : Vec K) (hv : v.size = e.stateSize)
    (hz : e.isZeroAcceleration = true ∨ ∀ k, 6 ≤ k → k < 9 → v.get k = 0)
    (hr : ∀ k, 12 ≤ k → k < 15 → v.get k = 0) (t : K) (ht : e.currentTime ≤ t) (h1 : predict N e t = .ok e1) :
    predict N (e.displacedBy N v) t = .ok (e1.displacedBy N (v.carried (t - e.currentTime))) := by
  have hi := inv_run (inv_init N p) hw h
  rw [predict_off N e e1 hi hg ha v hv hr t ht h1]
  split
  · rfl
  · rename_i hf
    have : v.accelerated (t - e.currentTime) = v.carried (t - e.currentTime) := by
      have h0 := hz.resolve_left hf
      unfold Vec.accelerated
      have : ∀ i, (v.carried (t - e.currentTime)).get i + (if i < 3 then (t - e.currentTime) *
          ((t - e.currentTime) * v.get (i + 6)) else if i < 6 then (t - e.currentTime) * v.get (i + 3) else 0) =
          (v.carried (t - e.currentTime)).get i := fun i => by
        split
        · rw [h0 _ (by omega) (by omega), mul_zero, mul_zero, add_zero]
        · split
          · rw [h0 _ (by omega) (by omega), mul_zero, add_zero]
          · rw [add_zero]
      simp only [this]
      rfl
    rw [this]

/-- Whatever the deviation of the acceleration: it moves the predicted velocity and position, on top of `F v`. -/
theorem C90_acceleration (N : Prim K) (p : EkfParams K) (ops : List (Op K)) (hw : ∀ op ∈ ops, op.WF) (e e1 : Ekf K)
    (h : run N (init N p) ops = .ok e) (hg : e.isGravityInitialized = true) (hz : e.isZeroAcceleration = false)
    (ha : e.augType ≠ .time ∧ e.augType ≠ .error) (v : Vec K) (hv : v.size = e.stateSize)
    (hr : ∀ k, 12 ≤ k → k < 15 → v.get k = 0) (t : K) (ht : e.currentTime ≤ t) (h1 : predict N e t = .ok e1) :
    predict N (e.displacedBy N v) t = .ok (e1.displacedBy N (v.accelerated (t - e.currentTime))) := by
  have := predict_off N e e1 (inv_run (inv_init N p) hw h) hg ha v hv hr t ht h1
  rwa [hz] at this

/-- Two stretches of time are one. -/
theorem _root_.EkfCal.Vec.carried_carried (v : Vec K) (hn : 6 ≤ v.size) (a b : K) {i : Nat} (hi : i < v.size) :
    ((v.carried a).carried b).get i = (v.carried (a + b)).get i := by
  have hs : (v.carried a).size = v.size := rfl
  rw [(v.carried a).carried_get b (by omega) (by omega), v.carried_get a hn hi, v.carried_get _ hn hi]
  split
  · rw [v.carried_get a hn (by omega), if_neg (by omega)]; ring
  · ring

/-- A covariance that is the spread of deviations. -/
def SpreadOf (n : Nat) (D : List (Vec K)) (P : Nat → Nat → K) : Prop :=
  ∀ i j, i < n → j < n → P i j = (D.map fun v => v.get i * v.get j).sum

/-- **The predicted covariance is the spread of the carried deviations plus the noise**, standard form. -/
theorem C90_spread (N : Prim K) (p : EkfParams K) (ops : List (Op K)) (hw : ∀ op ∈ ops, op.WF) (e e1 : Ekf K)
    (h : run N (init N p) ops = .ok e) (hu : e.useRoot = false) (hg : e.isGravityInitialized = true)
    (ha : e.augType ≠ .time ∧ e.augType ≠ .error) (D : List (Vec K)) (hD : ∀ v ∈ D, v.size = e.stateSize)
    (hP : SpreadOf e.stateSize D e.cov.get) (t : K) (ht : e.currentTime ≤ t) (h1 : predict N e t = .ok e1) :
    SpreadOf e.stateSize (D.map (Vec.carried (t - e.currentTime))) fun i j => e1.cov.get i j -
      congr e.stateSize (transition (t - e.currentTime))
        (fun k l => if k = l then e.processNoise.get k k * (t - e.currentTime) else 0) i j := by
  have hinv := inv_run (inv_init N p) hw h
  have h18 : 18 ≤ e.stateSize := by rw [hinv.size]; unfold State.dim; omega
  obtain ⟨e1', g1, _, _, g4⟩ := C08_formula N p ops hw e h hu hg ha t ht
  rw [h1] at g1
  cases g1
  intro i j hi hj
  rw [hinv.covRows] at g4
  dsimp only
  rw [g4 i j hi hj, predicted, congr_transition (by omega) _ _ hi hj, congr_transition (by omega) _ _ hi hj]
  generalize t - e.currentTime = d
  have key : tr d (fun k => tr d (fun l => e.cov.get k l) j) i =
      ((D.map (Vec.carried d)).map fun v => v.get i * v.get j).sum := by
    have : ∀ k l, (k = i ∨ (i < 3 ∧ k = i + 3)) → (l = j ∨ (j < 3 ∧ l = j + 3)) →
        e.cov.get k l = (D.map fun v => v.get k * v.get l).sum := fun k l hk hl => hP k l (by omega) (by omega)
    have e1 : tr d (fun k => tr d (fun l => e.cov.get k l) j) i =
        tr d (fun k => tr d (fun l => (D.map fun v => v.get k * v.get l).sum) j) i := by
      unfold tr
      by_cases h1 : i < 3 <;> by_cases h2 : j < 3 <;> simp only [h1, h2, if_true, if_false]
      · rw [this i j (.inl rfl) (.inl rfl), this i (j + 3) (.inl rfl) (.inr ⟨h2, rfl⟩),
          this (i + 3) j (.inr ⟨h1, rfl⟩) (.inl rfl), this (i + 3) (j + 3) (.inr ⟨h1, rfl⟩) (.inr ⟨h2, rfl⟩)]
      · rw [this i j (.inl rfl) (.inl rfl), this (i + 3) j (.inr ⟨h1, rfl⟩) (.inl rfl)]
      · rw [this i j (.inl rfl) (.inl rfl), this i (j + 3) (.inl rfl) (.inr ⟨h2, rfl⟩)]
      · rw [this i j (.inl rfl) (.inl rfl)]
    rw [e1]
    clear e1 this hP
    induction D with
    | nil => simp [tr]
    | cons v D ih =>
      have ih := ih fun w hw => hD w (List.mem_cons_of_mem _ hw)
      have hs := hD v List.mem_cons_self
      simp only [List.map_cons, List.sum_cons]
      rw [← ih, v.carried_get d (by omega) (by omega), v.carried_get d (by omega) (by omega)]
      unfold tr
      by_cases h1 : i < 3 <;> by_cases h2 : j < 3 <;> simp only [h1, h2, if_true, if_false] <;> ring
  rw [← key]
  unfold tr
  by_cases h1 : i < 3 <;> by_cases h2 : j < 3 <;> simp only [h1, h2, if_true, if_false] <;> ring

/-- **Along any requests for predictions**: the deviation is that of the whole time elapsed. -/
theorem C90_history_partial (N : Prim K) (ts : List K) (e e' : Ekf K) (hi : Ekf.Inv e) (hg : e.isGravityInitialized = true)
    (ha : e.augType ≠ .time ∧ e.augType ≠ .error) (v : Vec K) (hv : v.size = e.stateSize)
    (hz : e.isZeroAcceleration = true ∨ ∀ k, 6 ≤ k → k < 9 → v.get k = 0)
    (hr : ∀ k, 12 ≤ k → k < 15 → v.get k = 0) (h : run N e (ts.map Op.predict) = .ok e') :
    ∃ w : Vec K, w.size = e.stateSize ∧
      (∀ i, i < e.stateSize → w.get i = (v.carried (elapsed e.currentTime ts)).get i) ∧
      run N (e.displacedBy N v) (ts.map Op.predict) = .ok (e'.displacedBy N w) := by
  have h18 : 18 ≤ e.stateSize := by rw [hi.size]; unfold State.dim; omega
  induction ts generalizing e v with
  | nil =>
    cases h
    refine ⟨v, hv, fun i hi => ?_, rfl⟩
    rw [v.carried_get _ (by omega) (by omega)]
    simp [elapsed, intervals]
  | cons t ts ih =>
    simp only [List.map_cons, run, step] at h ⊢
    rw [bind_ok_iff] at h
    obtain ⟨e1, h1, h⟩ := h
    by_cases ht : t < e.currentTime
    · have : e1 = e := by
        obtain ⟨_, rfl⟩ | ⟨h2, _⟩ := predict_form h1
        · rfl
        · exact absurd ht (not_lt.2 h2)
      subst this
      obtain ⟨w, w1, w2, w3⟩ := ih e1 hi hg ha v hv hz hr h h18
      refine ⟨w, w1, by simpa only [elapsed, intervals, if_pos ht] using w2, ?_⟩
      have : predict N (e1.displacedBy N v) t = .ok (e1.displacedBy N v) := by
        unfold predict
        rw [if_pos (show t < (e1.displacedBy N v).currentTime from ht)]
        rfl
      rw [this]
      exact w3
    · have ht' := not_lt.1 ht
      have hi1 : Ekf.Inv e1 := inv_step (N := N) (op := Op.predict t) hi trivial h1
      have hd := predict_off N e e1 hi hg ha v hv hr t ht' h1
      have hw' : (if e.isZeroAcceleration then v.carried (t - e.currentTime) else v.accelerated (t - e.currentTime)) =
          v.carried (t - e.currentTime) := by
        split
        · rfl
        · rename_i hf
          have h0 := hz.resolve_left hf
          unfold Vec.accelerated
          have : ∀ i, (v.carried (t - e.currentTime)).get i + (if i < 3 then (t - e.currentTime) *
              ((t - e.currentTime) * v.get (i + 6)) else if i < 6 then (t - e.currentTime) * v.get (i + 3) else 0) =
              (v.carried (t - e.currentTime)).get i := fun i => by
            split
            · rw [h0 _ (by omega) (by omega), mul_zero, mul_zero, add_zero]
            · split
              · rw [h0 _ (by omega) (by omega), mul_zero, add_zero]
              · rw [add_zero]
          simp only [this]
          rfl
      rw [hw'] at hd
      obtain ⟨hlt, _⟩ | ⟨_, b, out, hc, hp⟩ := predict_form h1
      · exact absurd ht' (not_le.2 hlt)
      have he1 : e1 = { e with state := { e.state with body := b }, cov := out, currentTime := t } := by
        unfold augmentTimed at hp
        dsimp only at hp
        rw [if_pos (by cases hx : e.augType <;> simp_all)] at hp
        exact (Except.ok.inj hp).symm
      have s1 : e1.stateSize = e.stateSize := by rw [he1]
      have s2 : e1.isGravityInitialized = e.isGravityInitialized := by rw [he1]
      have s3 : e1.augType = e.augType := by rw [he1]
      have s4 : e1.isZeroAcceleration = e.isZeroAcceleration := by rw [he1]
      have s5 : e1.currentTime = t := by rw [he1]
      have vs : (v.carried (t - e.currentTime)).size = v.size := rfl
      have keep : ∀ k, 3 ≤ k → k < 18 → (v.carried (t - e.currentTime)).get k = v.get k := fun k h3 hk => by
        rw [v.carried_get _ (by omega) (by omega), if_neg (by omega), add_zero]
      obtain ⟨w, w1, w2, w3⟩ := ih e1 hi1 (s2.trans hg) (by rw [s3]; exact ha) (v.carried (t - e.currentTime))
        (by rw [vs, s1, hv]) (by
          rw [s4]
          exact hz.imp id fun h0 k h6 h9 => (keep k (by omega) (by omega)).trans (h0 k h6 h9))
        (fun k h1 h2 => (keep k (by omega) (by omega)).trans (hr k h1 h2)) h (by rw [s1]; exact h18)
      refine ⟨w, w1.trans s1, fun i hi' => ?_, ?_⟩
      · rw [w2 i (by rw [s1]; exact hi'), v.carried_carried (by omega) _ _ (by omega), s5]
        simp only [elapsed, intervals, if_neg ht, List.sum_cons]
      · rw [hd]
        exact w3

/-- **A wrong acceleration makes the velocity wrong, and the covariance does not know.** -/
theorem C90_acceleration_violated : ¬ ∀ (ops : List (Op ℚ)) (e e1 : Ekf ℚ) (v : Vec ℚ) (t : ℚ), (∀ op ∈ ops, op.WF) →
    run Samples.prim (init Samples.prim (Samples.params .all false)) ops = .ok e → e.isGravityInitialized = true →
    v.size = e.stateSize → (∀ k, 12 ≤ k → k < 15 → v.get k = 0) → e.currentTime ≤ t → predict Samples.prim e t = .ok e1 →
    ∃ e2, predict Samples.prim (e.displacedBy Samples.prim v) t = .ok e2 ∧ e2.state.body.vel 0 =
      (e1.displacedBy Samples.prim (v.carried (t - e.currentTime))).state.body.vel 0 := by
  intro h
  obtain ⟨e, h1, h2⟩ : ∃ e, run Samples.prim (init Samples.prim (Samples.params .all false)) (splitOps 2) = .ok e ∧
      e.isGravityInitialized = true := ⟨_, rfl, rfl⟩
  obtain ⟨e1, g1⟩ : ∃ e1, run Samples.prim e ([1].map Op.predict) = .ok e1 := by cases h1; exact ⟨_, rfl⟩
  have g1' : predict Samples.prim e 1 = .ok e1 := by
    simp only [List.map_cons, List.map_nil, run, step] at g1
    rw [bind_ok_iff] at g1
    obtain ⟨x, hx, hy⟩ := g1
    cases hy
    exact hx
  have ht : e.currentTime = 0 := by cases h1; rfl
  have hs : e.stateSize = 21 := by cases h1; rfl
  have hz : e.isZeroAcceleration = false := by cases h1; rfl
  have ha : e.augType ≠ .time ∧ e.augType ≠ .error := by cases h1; decide
  have hb : e1.state.body.index = 0 :=
    (inv_step (N := Samples.prim) (op := Op.predict 1) (inv_run (inv_init _ _) (splitOps_wf 2) h1) trivial g1').tiles.1
  let v : Vec ℚ := ⟨21, fun k => if k = 6 then 1 else 0⟩
  have hr : ∀ k, 12 ≤ k → k < 15 → v.get k = 0 := fun k h1 h2 => if_neg (by omega)
  obtain ⟨e2, k1, k2⟩ := h (splitOps 2) e e1 v 1 (splitOps_wf 2) h1 h2 hs.symm hr (by rw [ht]; norm_num) g1'
  have := C90_acceleration Samples.prim _ (splitOps 2) (splitOps_wf 2) e e1 h1 h2 hz ha v hs.symm hr 1
    (by rw [ht]; norm_num) g1'
  rw [k1] at this
  cases this
  have e3 : ∀ w : Vec ℚ, (e1.displacedBy Samples.prim w).state.body.vel 0 = e1.state.body.vel 0 + w.get 3 := by
    intro w
    show (e1.state.body.vel + w.at3 (e1.state.body.index + 3)) 0 = _
    rw [hb]; rfl
  rw [e3, e3, ht] at k2
  have c3 : (v.carried (1 - 0)).get 3 = 0 := by
    rw [v.carried_get _ (by decide) (by decide)]
    simp [v]
  have a3 : (v.accelerated (1 - 0)).get 3 = 1 := by
    show (v.carried (1 - 0)).get 3 + _ = _
    rw [c3]
    simp [v]
  rw [c3, a3] at k2
  norm_num at k2

/-- **A wrong rate makes the orientation wrong, and the covariance does not know**: half a turn. -/
theorem C90_rate_violated : ¬ ∀ (ops : List (Op ℝ)) (e e1 : Ekf ℝ) (v : Vec ℝ) (t : ℝ), (∀ op ∈ ops, op.WF) →
    run realPrim (init realPrim C86_params) ops = .ok e → e.isGravityInitialized = true →
    v.size = e.stateSize → (∀ k, 6 ≤ k → k < 9 → v.get k = 0) → e.currentTime ≤ t → predict realPrim e t = .ok e1 →
    ∃ e2, predict realPrim (e.displacedBy realPrim v) t = .ok e2 ∧ e2.state.body.ang =
      (e1.displacedBy realPrim (v.carried (t - e.currentTime))).state.body.ang := by
  intro h
  let ops : List (Op ℝ) := [.initializeAt 0 BodyState.default, .initializeGravity]
  have hw : ∀ op ∈ ops, op.WF := by
    intro op ho
    simp only [ops, List.mem_cons, List.not_mem_nil, or_false] at ho
    rcases ho with rfl | rfl <;> trivial
  obtain ⟨e, h1, h2, h3, h4, h5, h6, h7⟩ : ∃ e, run realPrim (init realPrim C86_params) ops = .ok e ∧
      e.isGravityInitialized = true ∧ e.useRoot = false ∧ e.stateSize = 18 ∧ e.currentTime = 0 ∧
      e.state.body = BodyState.default ∧ e.augType = C86_params.augType := ⟨_, rfl, rfl, rfl, rfl, rfl, rfl, rfl⟩
  have ha : e.augType ≠ .time ∧ e.augType ≠ .error := by rw [h7]; simp [C86_params, C11_params]
  obtain ⟨e1, g1, _⟩ := C08_formula realPrim _ ops hw e h1 h3 h2 ha Real.pi (by rw [h5]; exact Real.pi_pos.le)
  let v : Vec ℝ := ⟨18, fun k => if k = 12 then 1 else 0⟩
  obtain ⟨e2, k1, k2⟩ := h ops e e1 v Real.pi hw h1 h2 h4.symm (fun k h1 h2 => if_neg (by omega))
    (by rw [h5]; exact Real.pi_pos.le) g1
  have hid : ∀ f : Ekf ℝ, f.augType = e.augType → augmentTimed realPrim f = .ok f := by
    intro f hf
    unfold augmentTimed
    rw [if_pos (by rw [hf]; cases hx : e.augType <;> simp_all)]
    rfl
  have b1 : e1.state.body = predictBody realPrim e.isZeroAcceleration e.state.body (Real.pi - e.currentTime) := by
    obtain ⟨hlt, _⟩ | ⟨_, b, out, hc, hp⟩ := predict_form g1
    · exact absurd hlt (not_lt.2 (by rw [h5]; exact Real.pi_pos.le))
    obtain ⟨hg', _⟩ | ⟨_, rfl, hc⟩ := hc
    · rw [h2] at hg'; cases hg'
    rw [Except.ok.inj (hp.symm.trans (hid _ (by rfl)))]
  have b2 : e2.state.body = predictBody realPrim e.isZeroAcceleration (e.state.body.moved realPrim v) (Real.pi - e.currentTime) := by
    obtain ⟨hlt, _⟩ | ⟨_, b, out, hc, hp⟩ := predict_form k1
    · exact absurd hlt (not_lt.2 (by show e.currentTime ≤ _; rw [h5]; exact Real.pi_pos.le))
    obtain ⟨hg', _⟩ | ⟨_, rfl, hc⟩ := hc
    · rw [show (e.displacedBy realPrim v).isGravityInitialized = e.isGravityInitialized from rfl, h2] at hg'; cases hg'
    rw [Except.ok.inj (hp.symm.trans (hid _ (by rfl)))]
    rfl
  have z9 : ∀ w : Vec ℝ, w.get 9 = 0 → w.get 10 = 0 → w.get 11 = 0 → w.at3 9 = 0 := fun w h1 h2 h3 => by
    unfold Vec.at3; rw [h1, h2, h3]; funext i; fin_cases i <;> rfl
  have c9 : ∀ k, 9 ≤ k → k < 12 → (v.carried (Real.pi - e.currentTime)).get k = 0 := fun k h1 h2 => by
    rw [v.carried_get _ (by decide) (show k < 18 by omega), if_neg (by omega)]
    show (if k = 12 then (1 : ℝ) else 0) + 0 = 0
    rw [if_neg (by omega), add_zero]
  have q1 : (e1.displacedBy realPrim (v.carried (Real.pi - e.currentTime))).state.body.ang = Quat.one := by
    show e1.state.body.ang.mul (realPrim.rotVecToQuat ((v.carried (Real.pi - e.currentTime)).at3 (e1.state.body.index + 9))) = _
    rw [b1, h6]
    have : (predictBody realPrim e.isZeroAcceleration BodyState.default (Real.pi - e.currentTime)).index = 0 := rfl
    rw [this, Nat.zero_add, z9 _ (c9 9 (by omega) (by omega)) (c9 10 (by omega) (by omega)) (c9 11 (by omega) (by omega)),
      realPrim_rot_zero]
    show ((realPrim.rotVecToQuat ![0 * _, 0 * _, 0 * _]).mul Quat.one).mul Quat.one = Quat.one
    have : (![0 * (Real.pi - e.currentTime), 0 * (Real.pi - e.currentTime), 0 * (Real.pi - e.currentTime)] : V3 ℝ) = 0 := by
      funext i; fin_cases i <;> simp
    rw [this, realPrim_rot_zero]
    apply Quat.ext <;> simp [Quat.mul, Quat.one]
  have q2 : e2.state.body.ang.w = 0 := by
    rw [b2, h6, h5]
    show ((realPrim.rotVecToQuat ![(0 + 1) * (Real.pi - 0), (0 + 0) * (Real.pi - 0), (0 + 0) * (Real.pi - 0)]).mul
      (Quat.one.mul (realPrim.rotVecToQuat (v.at3 9)))).w = 0
    rw [z9 v rfl rfl rfl, realPrim_rot_zero]
    have : (![(0 + 1) * (Real.pi - 0), (0 + 0) * (Real.pi - 0), (0 + 0) * (Real.pi - 0)] : V3 ℝ) = ![Real.pi, 0, 0] := by
      funext i; fin_cases i <;> simp
    rw [this]
    have hn : V3.norm (![Real.pi, 0, 0] : V3 ℝ) = Real.pi :=
      V3.norm_eq_of_sq Real.pi_pos.le (by simp)
    show ((rotVecToQuat ![Real.pi, 0, 0]).mul (Quat.one.mul Quat.one)).w = 0
    rw [rotVecToQuat_large (by rw [hn]; have := Real.two_le_pi; norm_num; linarith), hn]
    simp [Quat.ofAngleAxis, Quat.mul, Quat.one, Real.cos_pi_div_two]
  rw [k2, q1] at q2
  simp [Quat.one] at q2

/-- The hypotheses are met: a started filter and deviations of position, velocity, orientation and antenna. -/
example : ∃ (e e1 : Ekf ℚ) (v : Vec ℚ), run Samples.prim (init Samples.prim (Samples.params .all false)) (splitOps 2) = .ok e ∧
    (∀ op ∈ splitOps 2, op.WF) ∧ e.isGravityInitialized = true ∧ (e.augType ≠ .time ∧ e.augType ≠ .error) ∧
    v.size = e.stateSize ∧ (∀ k, 6 ≤ k → k < 9 → v.get k = 0) ∧ (∀ k, 12 ≤ k → k < 15 → v.get k = 0) ∧
    v.get 0 = 1 ∧ v.get 3 = 1 ∧ v.get 9 = 1 ∧ v.get 18 = 1 ∧
    e.currentTime ≤ 1 ∧ run Samples.prim e ([1].map Op.predict) = .ok e1 := by
  obtain ⟨e, h1⟩ : ∃ e, run Samples.prim (init Samples.prim (Samples.params .all false)) (splitOps 2) = .ok e := ⟨_, rfl⟩
  obtain ⟨e1, g1⟩ : ∃ e1, run Samples.prim e ([1].map Op.predict) = .ok e1 := by cases h1; exact ⟨_, rfl⟩
  refine ⟨e, e1, ⟨21, fun k => if (6 ≤ k ∧ k < 9) ∨ (12 ≤ k ∧ k < 15) then 0 else 1⟩, h1, splitOps_wf 2, by cases h1; rfl,
    by cases h1; decide, by cases h1; rfl, fun k h1 h2 => if_pos (.inl ⟨h1, h2⟩), fun k h1 h2 => if_pos (.inr ⟨h1, h2⟩),
    rfl, rfl, rfl, rfl, by cases h1; decide +kernel, g1⟩

/-- A spread: the initial covariance of a fresh filter is the spread of a tenth along each of its eighteen axes. -/
example : ∃ (e : Ekf ℚ) (D : List (Vec ℚ)), run Samples.prim (init Samples.prim (Samples.params .all false))
      [.initializeAt 0 BodyState.default, .initializeGravity] = .ok e ∧ e.isGravityInitialized = true ∧ e.useRoot = false ∧
    (∀ v ∈ D, v.size = e.stateSize) ∧ SpreadOf e.stateSize D e.cov.get := by
  refine ⟨_, (List.range 18).map fun a => ⟨18, fun k => if k = a then 1 / 10 else 0⟩, rfl, rfl, rfl, ?_, ?_⟩
  · intro v hv
    obtain ⟨a, _, rfl⟩ := List.mem_map.1 hv
    rfl
  · have : ∀ i < 18, ∀ j < 18, (((init Samples.prim (Samples.params AugType.all false)).initializeAt 0
        BodyState.default).initializeGravity).cov.get i j = ((((List.range 18).map fun a =>
          (⟨18, fun k => if k = a then 1 / 10 else 0⟩ : Vec ℚ)).map fun v => v.get i * v.get j).sum) := by decide +kernel
    exact fun i j hi hj => this i hi j hj

end Ekf
end EkfCal
