import Verif.Lemmas.StateVector
import Verif.Lemmas.Comp
import Verif.Lemmas.Rotation
import Verif.Spec.Samples

/-!
# C22 — exporting and importing the state as a vector
-/

namespace EkfCal
open Ekf
variable {K : Type} [Field K] [LinearOrder K]

/-- Stored sizes agree with the calibration flags. -/
def sizePred : CompPred K where
  imu s := s.WF
  fid s := s.WF

theorem sizePred_closed (N : Prim K) : (sizePred (K := K)).Closed N where
  bodyDefault := trivial
  bodyIdx _ _ _ := trivial
  bodyAdd _ _ _ _ _ := trivial
  bodyPredict _ _ _ _ := trivial
  bodyMotion _ _ _ _ _ := trivial
  imuDefault := rfl
  imuIdx _ _ h := h
  imuAdd a v i r h ha := by
    unfold ImuState.addVecAt at h
    rcases a with ⟨a, b, c, d, p, q, ab, ob, sz, ix, ii, ie, ext, int⟩
    cases ext <;> cases int <;> simp [bind_ok_iff, pure_res] at h
    · cases h; exact ha
    · obtain ⟨_, _, _, _, rfl⟩ := h; exact ha
    · obtain ⟨_, _, _, _, rfl⟩ := h; exact ha
    · obtain ⟨_, _, _, _, _, _, _, _, rfl⟩ := h; exact ha
  gpsDefault := trivial
  gpsIdx _ _ _ := trivial
  gpsAdd _ _ _ _ _ _ := trivial
  camDefault := trivial
  camIdx _ _ _ := trivial
  camAdd _ _ _ _ _ _ := trivial
  fidIdx _ _ h := h
  fidAdd a v i r h ha := by
    unfold FidState.addVecAt at h
    split at h
    · simp only [bind_ok_iff, pure_res, Except.ok.injEq] at h
      obtain ⟨_, _, _, _, rfl⟩ := h; exact ha
    · cases h; exact ha
  augIdx _ _ _ := trivial
  augAdd _ _ _ _ _ _ := trivial
  clone _ _ _ := trivial

theorem sizePred_op {op : Op K} (h : op.WF) : op.CompOK sizePred := by
  cases op <;> first | exact h | exact trivial

/-- Export of a reachable filter state.  Missing from the full property: IMUs calibrated intrinsically only (their biases
are not exported, `C22_intrinsic_violated`) and windows holding another number of clones than one on average (the reported
size counts windows, `C22_clones_violated`). -/
theorem C22_export_partial (N : Prim K) (p : EkfParams K) (ops : List (Op K)) (hw : ∀ op ∈ ops, op.WF) (e : Ekf K)
    (h : run N (init N p) ops = .ok e)
    (hi : ∀ x ∈ e.state.imus, x.2.isIntrinsic = true → x.2.isExtrinsic = true)
    (ha : (e.state.augs.map fun x => 6 * x.2.length).sum = 6 * e.state.augs.length) :
    ∃ v, e.state.toVector N = .ok v ∧ v.size = e.state.getStateSize ∧ v.size = e.stateSize ∧ e.state.Shown N v := by
  have inv := inv_run (inv_init N p) hw h
  have all : e.state.All sizePred :=
    all_run (sizePred_closed N) (all_init (sizePred_closed N) p) (fun op h => sizePred_op (hw op h)) h
  have hs : e.state.getStateSize = e.stateSize := (State.getStateSize_eq _ ha).trans inv.size.symm
  obtain ⟨v, h1, h2, h3⟩ := State.toVector_shown N e.state (by rw [hs]; exact inv.tiles)
    (fun x hx => ⟨all.imus x hx, hi x hx⟩) all.fids
  exact ⟨v, h1, h2, h2.trans hs, h3⟩

/-- Import into a reachable filter state reads every entry at the published index; the clones keep their values. -/
theorem C22_import (N : Prim K) (p : EkfParams K) (ops : List (Op K)) (hw : ∀ op ∈ ops, op.WF) (e : Ekf K)
    (h : run N (init N p) ops = .ok e) (v : Vec K) (hv : e.stateSize ≤ v.size) :
    e.state.setState N v = .ok (e.state.imported N v) :=
  State.setState_imported N v e.state _ (inv_run (inv_init N p) hw h).tiles hv

/-- The orientation survives the conversion to a rotation vector and back. -/
def Prim.Faithful (N : Prim K) (q : Quat K) : Prop := N.rotVecToQuat (N.quatToRotVec q) = q

/-- Every estimated orientation survives the conversion. -/
structure State.Faithful (N : Prim K) (s : State K) : Prop where
  body : N.Faithful s.body.ang
  imus : ∀ x ∈ s.imus, x.2.isExtrinsic = true → N.Faithful x.2.ang
  cams : ∀ x ∈ s.cams, x.2.isExtrinsic = true → N.Faithful x.2.ang
  fids : ∀ x ∈ s.fids, x.2.isExtrinsic = true → N.Faithful x.2.ang

theorem forall2_mapVal {α : Type} {R S : Nat × α → Nat × α → Prop} {g : α → α} {m n : UMap α}
    (h : List.Forall₂ R m n) (hRS : ∀ x y, y ∈ n → R x y → S (x.1, g x.2) y) :
    List.Forall₂ S (UMap.mapVal g m) n := by
  induction h with
  | nil => exact .nil
  | cons hd tl ih =>
    exact .cons (hRS _ _ (by simp) hd) (ih fun x y hy => hRS x y (by simp [hy]))

/-- Import of a vector that shows `s` into a state `t` of the same structure reproduces the estimates of `s`. -/
theorem imported_same (N : Prim K) (s t : State K) (v : Vec K) (hv : s.Shown N v) (hst : t.SameStructure s)
    (hf : s.Faithful N) : (t.imported N v).SameEstimates s where
  pos := by show v.at3 _ = _; rw [hst.body]; exact hv.body.1
  vel := by show v.at3 _ = _; rw [hst.body]; exact hv.body.2.1
  acc := by show v.at3 _ = _; rw [hst.body]; exact hv.body.2.2.1
  ang := by show N.rotVecToQuat (v.at3 _) = _; rw [hst.body, hv.body.2.2.2.1]; exact hf.body
  angVel := by show v.at3 _ = _; rw [hst.body]; exact hv.body.2.2.2.2.1
  angAcc := by show v.at3 _ = _; rw [hst.body]; exact hv.body.2.2.2.2.2
  imus := forall2_mapVal hst.imus fun x y hy ⟨h1, h2, h3, h4, h5⟩ => by
    refine ⟨h1, fun he => ?_, fun hi => ?_⟩
    · obtain ⟨a, b⟩ := (hv.imus y hy).1 he
      simp only [ImuState.imported, h2, he, if_true, h4, a, b, true_and]
      exact hf.imus y hy he
    · obtain ⟨a, b⟩ := (hv.imus y hy).2 hi
      simp only [ImuState.imported, h3, hi, if_true, h5, a, b, true_and]
  gpss := forall2_mapVal hst.gpss fun x y hy ⟨h1, h2, h3⟩ => by
    refine ⟨h1, fun he => ?_⟩
    simp only [GpsState.imported, h2, he, if_true, h3, hv.gpss y hy he]
  cams := forall2_mapVal hst.cams fun x y hy ⟨h1, h2, h3⟩ => by
    refine ⟨h1, fun he => ?_⟩
    obtain ⟨a, b⟩ := hv.cams y hy he
    simp only [CamState.imported, h2, he, if_true, h3, a, b, true_and]
    exact hf.cams y hy he
  fids := forall2_mapVal hst.fids fun x y hy ⟨h1, h2, h3⟩ => by
    refine ⟨h1, fun he => ?_⟩
    obtain ⟨a, b⟩ := hv.fids y hy he
    simp only [FidState.imported, h2, he, if_true, h3, a, b, true_and]
    exact hf.fids y hy he

/-- Round trip: the state of one reachable filter, imported into another one of the same structure.  Missing from the
full property: the two cases missing from `C22_export_partial`, and clones, which are exported but never imported
(`C22_clone_import_violated`).  Orientations come back exactly when their conversion does (`C22_orientation`). -/
theorem C22_round_trip_partial (N : Prim K) (p p' : EkfParams K) (ops ops' : List (Op K)) (hw : ∀ op ∈ ops, op.WF)
    (hw' : ∀ op ∈ ops', op.WF) (e e' : Ekf K) (h : run N (init N p) ops = .ok e) (h' : run N (init N p') ops' = .ok e')
    (hi : ∀ x ∈ e.state.imus, x.2.isIntrinsic = true → x.2.isExtrinsic = true)
    (ha : (e.state.augs.map fun x => 6 * x.2.length).sum = 6 * e.state.augs.length)
    (hst : e'.state.SameStructure e.state) (hsz : e'.stateSize = e.stateSize) (hf : e.state.Faithful N) :
    ∃ v s, e.state.toVector N = .ok v ∧ e'.state.setState N v = .ok s ∧ s.SameEstimates e.state := by
  obtain ⟨v, h1, _, h2, h3⟩ := C22_export_partial N p ops hw e h hi ha
  exact ⟨v, _, h1, C22_import N p' ops' hw' e' h' v (by omega), imported_same N e.state e'.state v h3 hst hf⟩

/-- With the code's conversions, a unit quaternion at an angle above 1e-9 comes back as itself if its scalar part is
non-negative, and as its negative — the same rotation — otherwise. -/
theorem C22_orientation (q : Quat ℝ) (hq : q.normSq = 1)
    (ha : 1 / 10 ^ 9 < 2 * atan2 (V3.norm ![q.x, q.y, q.z]) |q.w|) :
    rotVecToQuat (quatToRotVec q) = if q.w < 0 then ⟨-q.w, -q.x, -q.y, -q.z⟩ else q := by
  have hn := V3.norm_nonneg ![q.x, q.y, q.z]
  have hn2 := V3.norm_sq ![q.x, q.y, q.z]
  simp only [Matrix.cons_val_zero, Matrix.cons_val_one, Matrix.cons_val] at hn2
  set n := V3.norm ![q.x, q.y, q.z] with hndef
  have hw2 : |q.w| * |q.w| = q.w * q.w := abs_mul_abs_self _
  unfold Quat.normSq at hq
  have hne : n ≠ 0 := by
    intro h0
    rw [h0] at ha
    have : atan2 0 |q.w| = 0 := by
      unfold atan2
      exact Complex.arg_ofReal_of_nonneg (abs_nonneg _)
    rw [this] at ha
    norm_num at ha
  have habs : ‖(⟨|q.w|, n⟩ : ℂ)‖ = 1 := by
    rw [Complex.norm_def, Complex.normSq_mk, Real.sqrt_eq_one]; linarith
  have hz : (⟨|q.w|, n⟩ : ℂ) ≠ 0 := by
    intro h; rw [h] at habs; simp at habs
  have hcos : Real.cos (atan2 n |q.w|) = |q.w| := by
    unfold atan2; rw [Complex.cos_arg hz, habs]; simp
  have hsin : Real.sin (atan2 n |q.w|) = n := by
    unfold atan2; rw [Complex.sin_arg, habs]; simp
  set m := if q.w < 0 then -n else n with hm
  have hm2 : m * m = n * n := by rw [hm]; split <;> ring
  have hmne : m ≠ 0 := by rw [hm]; split <;> simpa using hne
  have hv : quatToRotVec q = fun i => (![q.x / m, q.y / m, q.z / m] : V3 ℝ) i * (2 * atan2 n |q.w|) := by
    funext i
    unfold quatToRotVec Quat.toAngleAxis
    rw [← hndef]
    simp only [hne, ne_eq, not_false_eq_true, if_true, ← hm]
  have hpos : 0 < 2 * atan2 n |q.w| := lt_trans (by norm_num) ha
  have hnorm : V3.norm (quatToRotVec q) = 2 * atan2 n |q.w| := by
    refine V3.norm_eq_of_sq hpos.le ?_
    rw [hv]
    simp only [Matrix.cons_val_zero, Matrix.cons_val_one, Matrix.cons_val]
    generalize 2 * atan2 n |q.w| = a
    have : q.x / m * (q.x / m) + q.y / m * (q.y / m) + q.z / m * (q.z / m) = 1 := by
      field_simp; nlinarith
    linear_combination a * a * this
  rw [rotVecToQuat_large (by rw [hnorm]; exact ha), hnorm]
  have hax : ∀ i, quatToRotVec q i / (2 * atan2 n |q.w|) = (![q.x / m, q.y / m, q.z / m] : V3 ℝ) i := by
    intro i; rw [hv]; exact mul_div_cancel_right₀ _ hpos.ne'
  unfold Quat.ofAngleAxis
  rw [mul_div_cancel_left₀ _ (two_ne_zero), hcos, hsin]
  simp only [hax, Matrix.cons_val_zero, Matrix.cons_val_one, Matrix.cons_val]
  rw [hm]
  split
  · rename_i hneg
    rw [abs_of_neg hneg]
    ext <;> simp <;> field_simp
  · rename_i hnn
    rw [abs_of_nonneg (not_lt.1 hnn)]
    ext <;> simp <;> field_simp

theorem State.SameStructure.rfl' (s : State K) : s.SameStructure s where
  body := rfl
  imus := List.forall₂_same.2 fun _ _ => ⟨rfl, rfl, rfl, rfl, rfl⟩
  gpss := List.forall₂_same.2 fun _ _ => ⟨rfl, rfl, rfl⟩
  cams := List.forall₂_same.2 fun _ _ => ⟨rfl, rfl, rfl⟩
  fids := List.forall₂_same.2 fun _ _ => ⟨rfl, rfl, rfl⟩

/-- Two filters with all kinds of sensors and a clone, in different places: the hypotheses of the round trip hold. -/
example : ∃ (ops ops' : List (Op ℚ)) (e e' : Ekf ℚ), (∀ op ∈ ops, op.WF) ∧ (∀ op ∈ ops', op.WF) ∧
    run Samples.prim (init Samples.prim (Samples.params .all false)) ops = .ok e ∧
    run Samples.prim (init Samples.prim (Samples.params .all false)) ops' = .ok e' ∧
    (∀ x ∈ e.state.imus, x.2.isIntrinsic = true → x.2.isExtrinsic = true) ∧
    (e.state.augs.map fun x => 6 * x.2.length).sum = 6 * e.state.augs.length ∧
    e'.state.SameStructure e.state ∧ e'.stateSize = e.stateSize ∧ e.state.Faithful Samples.prim ∧ e.stateSize = 51 := by
  let ops' : List (Op ℚ) := [.registerIMU 3 (Samples.imu true true) (Samples.cov 12), .registerGPS 7 Samples.gps (Samples.cov 3),
    .registerCamera 1 Samples.cam (Samples.cov 6), .registerFiducial (Samples.fid 4) (Samples.cov 6), .frame 1 10]
  let ops : List (Op ℚ) := ops' ++ [.initializeAt 0 { BodyState.default with pos := ![5, 0, 0], ang := ⟨1, 2, 0, 0⟩ }]
  have hw' : ∀ op ∈ ops', op.WF := by
    intro op ho
    simp only [ops', List.mem_cons, List.not_mem_nil, or_false] at ho
    rcases ho with rfl | rfl | rfl | rfl | rfl <;> first | trivial | rfl
  have hw : ∀ op ∈ ops, op.WF := by
    intro op ho
    rcases List.mem_append.1 ho with ho | ho
    · exact hw' op ho
    · rw [List.mem_singleton.1 ho]; rfl
  obtain ⟨e', he', h1, h2, h3, h4, h5, h6⟩ := Samples.ok_of_check
    (r := run Samples.prim (init Samples.prim (Samples.params .all false)) ops')
    (P := fun e => (∀ x ∈ e.state.imus, x.2.isIntrinsic = true → x.2.isExtrinsic = true) ∧
      (e.state.augs.map fun x => 6 * x.2.length).sum = 6 * e.state.augs.length ∧
      (∀ x ∈ e.state.imus, x.2.ang = Quat.one) ∧ (∀ x ∈ e.state.cams, x.2.ang = Quat.one) ∧
      (∀ x ∈ e.state.fids, x.2.ang = Quat.one) ∧ e.stateSize = 51) (by decide +kernel)
  have hf : ∀ q, q = Quat.one → Samples.prim.Faithful q := by
    rintro q rfl
    show Samples.prim.rotVecToQuat (Samples.prim.quatToRotVec Quat.one) = Quat.one
    simp [Samples.prim, Quat.one]
  refine ⟨ops, ops', e'.initializeAt 0 { BodyState.default with pos := ![5, 0, 0], ang := ⟨1, 2, 0, 0⟩ }, e', hw, hw', ?_,
    he', h1, h2, ?_, rfl, ⟨?_, fun x hx _ => hf _ (h3 x hx), fun x hx _ => hf _ (h4 x hx), fun x hx _ => hf _ (h5 x hx)⟩, h6⟩
  · show run _ _ (ops' ++ _) = _
    rw [run_append, he']; rfl
  · have hb : e'.state.body.index = 0 := by
      have := (inv_run (inv_init _ _) hw' he').tiles
      exact this.1
    exact { State.SameStructure.rfl' e'.state with body := hb }
  · show Samples.prim.rotVecToQuat (Samples.prim.quatToRotVec ⟨1, 2, 0, 0⟩) = ⟨1, 2, 0, 0⟩
    simp [Samples.prim]

/-- An IMU calibrated intrinsically only, with a bias. -/
def C22_imu : ImuState ℚ := { Samples.imu false true with accBias := ![1, 2, 3] }

/-- Violation 1: the biases of an IMU calibrated intrinsically only are not exported; importing the vector back destroys
them. -/
theorem C22_intrinsic_violated : ∃ (ops : List (Op ℚ)) (e : Ekf ℚ) (v : Vec ℚ) (s : State ℚ),
    (∀ op ∈ ops, op.WF) ∧ run Samples.prim (init Samples.prim (Samples.params .none false)) ops = .ok e ∧
    e.state.toVector Samples.prim = .ok v ∧ e.state.setState Samples.prim v = .ok s ∧
    (e.state.imus.getD 1 ImuState.default).accBias 0 = 1 ∧
    v.get (e.state.imus.getD 1 ImuState.default).indexIntrinsic = 0 ∧
    (s.imus.getD 1 ImuState.default).accBias 0 = 0 := by
  let ops : List (Op ℚ) := [.registerIMU 1 C22_imu (Samples.cov 6)]
  let c : Res (Ekf ℚ × Vec ℚ × State ℚ) := do
    let e ← run Samples.prim (init Samples.prim (Samples.params .none false)) ops
    let v ← e.state.toVector Samples.prim
    let s ← e.state.setState Samples.prim v
    pure (e, v, s)
  obtain ⟨⟨e, v, s⟩, hc, h1⟩ := Samples.ok_of_check (r := c)
    (P := fun x => (x.1.state.imus.getD 1 ImuState.default).accBias 0 = 1 ∧
      x.2.1.get (x.1.state.imus.getD 1 ImuState.default).indexIntrinsic = 0 ∧
      (x.2.2.imus.getD 1 ImuState.default).accBias 0 = 0) (by decide +kernel)
  simp only [c, bind_ok_iff, pure_res, Except.ok.injEq, Prod.mk.injEq] at hc
  obtain ⟨e', he, v', hv, s', hs, rfl, rfl, rfl⟩ := hc
  refine ⟨ops, e', v', s', ?_, he, hv, hs, h1⟩
  intro op ho
  rw [List.mem_singleton.1 ho]
  rfl

/-- Violation 2: with two clones in a window the reported size is too small and the export writes outside the vector. -/
theorem C22_clones_violated : ∃ (ops : List (Op ℚ)) (e : Ekf ℚ),
    (∀ op ∈ ops, op.WF) ∧ run Samples.prim (init Samples.prim (Samples.params .all false)) ops = .ok e ∧
    e.state.getStateSize = 24 ∧ e.stateSize = 30 ∧ e.state.toVector Samples.prim = .error .outOfRange := by
  let ops : List (Op ℚ) := [.frame 1 1, .frame 1 2]
  obtain ⟨e, he, h1, h2, h3⟩ := Samples.ok_of_check (r := run Samples.prim (init Samples.prim (Samples.params .all false)) ops)
    (P := fun e => e.state.getStateSize = 24 ∧ e.stateSize = 30 ∧
      (match e.state.toVector Samples.prim with | .ok _ => false | .error u => decide (u = .outOfRange)) = true)
    (by decide +kernel)
  refine ⟨ops, e, ?_, he, h1, h2, ?_⟩
  · intro op ho
    simp only [ops, List.mem_cons, List.not_mem_nil, or_false] at ho
    rcases ho with rfl | rfl <;> trivial
  · cases ht : e.state.toVector Samples.prim with
    | ok v => rw [ht] at h3; cases h3
    | error u => rw [ht] at h3; simp at h3; rw [h3]

/-- Violation 3: clones are exported but not imported: the imported state keeps its own clone. -/
theorem C22_clone_import_violated : ∃ (ops ops' : List (Op ℚ)) (e e' : Ekf ℚ) (v : Vec ℚ) (s : State ℚ),
    (∀ op ∈ ops, op.WF) ∧ (∀ op ∈ ops', op.WF) ∧
    run Samples.prim (init Samples.prim (Samples.params .all false)) ops = .ok e ∧
    run Samples.prim (init Samples.prim (Samples.params .all false)) ops' = .ok e' ∧
    e.state.toVector Samples.prim = .ok v ∧ e'.state.setState Samples.prim v = .ok s ∧ v.size = e'.stateSize ∧
    (e.state.augs.getD 1 []).map (fun a => a.pos 0) = [5] ∧ (s.augs.getD 1 []).map (fun a => a.pos 0) = [0] := by
  let ops : List (Op ℚ) := [.initializeAt 0 { BodyState.default with pos := ![5, 0, 0] }, .frame 1 1]
  let ops' : List (Op ℚ) := [.frame 1 1]
  let c : Res (Ekf ℚ × Ekf ℚ × Vec ℚ × State ℚ) := do
    let e ← run Samples.prim (init Samples.prim (Samples.params .all false)) ops
    let e' ← run Samples.prim (init Samples.prim (Samples.params .all false)) ops'
    let v ← e.state.toVector Samples.prim
    let s ← e'.state.setState Samples.prim v
    pure (e, e', v, s)
  obtain ⟨⟨e, e1, v, s⟩, hc, h1⟩ := Samples.ok_of_check (r := c)
    (P := fun x => x.2.2.1.size = x.2.1.stateSize ∧ (x.1.state.augs.getD 1 []).map (fun a => a.pos 0) = [5] ∧
      (x.2.2.2.augs.getD 1 []).map (fun a => a.pos 0) = [0]) (by decide +kernel)
  simp only [c, bind_ok_iff, pure_res, Except.ok.injEq, Prod.mk.injEq] at hc
  obtain ⟨e', he, e1', he1, v', hv, s', hs, rfl, rfl, rfl, rfl⟩ := hc
  refine ⟨ops, ops', e', e1', v', s', ?_, ?_, he, he1, hv, hs, h1⟩
  · intro op ho
    simp only [ops, List.mem_cons, List.not_mem_nil, or_false] at ho
    rcases ho with rfl | rfl <;> first | trivial | rfl
  · intro op ho
    rw [List.mem_singleton.1 ho]
    trivial

end EkfCal
