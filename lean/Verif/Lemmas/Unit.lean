import Verif.Spec.Unit
import Verif.Lemmas.Comp

/-! # A property of all stored orientations along a history -/

set_option linter.unusedSectionVars false

namespace EkfCal
variable {K : Type} [Field K] [LinearOrder K]

/-- `U` is closed under composition with the converted rotation vectors. -/
structure AngClosed (N : Prim K) (U : Quat K → Prop) : Prop where
  one : U Quat.one
  right : ∀ q v, U q → U (q.mul (N.rotVecToQuat v))
  left : ∀ q v, U q → U ((N.rotVecToQuat v).mul q)

/-- The orientation of every component satisfies `U`. -/
def angPred (U : Quat K → Prop) : CompPred K where
  body b := U b.ang
  imu s := U s.ang
  cam s := U s.ang
  fid s := U s.ang
  aug s := U s.ang

theorem angPred_closed {N : Prim K} {U : Quat K → Prop} (hU : AngClosed N U) : (angPred U).Closed N where
  bodyDefault := hU.one
  bodyIdx _ _ h := h
  bodyAdd b v b' hb h := by
    simp only [BodyState.addVec, bind_ok_iff, pure_res, Except.ok.injEq] at hb
    obtain ⟨_, _, _, _, _, _, q, _, _, _, _, _, rfl⟩ := hb
    exact hU.right _ _ h
  bodyPredict _ _ _ h := hU.left _ _ h
  bodyMotion _ _ _ _ h := h
  imuDefault := hU.one
  imuIdx _ _ h := h
  imuAdd a v i r h ha := by
    unfold ImuState.addVecAt at h
    rcases a with ⟨a, b, c, d, p, q, ab, ob, sz, ix, ii, ie, ext, int⟩
    cases ext <;> cases int <;> simp [bind_ok_iff, pure_res] at h
    · cases h; exact ha
    · obtain ⟨_, _, _, _, rfl⟩ := h; exact ha
    · obtain ⟨_, _, _, _, rfl⟩ := h; exact hU.right _ _ ha
    · obtain ⟨_, _, _, _, _, _, _, _, rfl⟩ := h; exact hU.right _ _ ha
  gpsDefault := trivial
  gpsIdx _ _ _ := trivial
  gpsAdd _ _ _ _ _ _ := trivial
  camDefault := hU.one
  camIdx _ _ h := h
  camAdd a v i r h ha := by
    unfold CamState.addVecAt at h
    split at h
    · simp only [bind_ok_iff, pure_res, Except.ok.injEq] at h
      obtain ⟨_, _, _, _, rfl⟩ := h; exact hU.right _ _ ha
    · cases h; exact ha
  fidIdx _ _ h := h
  fidAdd a v i r h ha := by
    unfold FidState.addVecAt at h
    split at h
    · simp only [bind_ok_iff, pure_res, Except.ok.injEq] at h
      obtain ⟨_, _, _, _, rfl⟩ := h; exact hU.right _ _ ha
    · cases h; exact ha
  augIdx _ _ h := h
  augAdd a v i r h ha := by
    unfold AugState.addVecAt at h
    simp only [bind_ok_iff, pure_res, Except.ok.injEq] at h
    obtain ⟨_, _, _, _, rfl⟩ := h; exact hU.right _ _ ha
  clone _ _ h := h

theorem angPred_iff {U : Quat K → Prop} {s : State K} : s.All (angPred U) ↔ s.AllAng U :=
  ⟨fun h => ⟨h.body, h.imus, h.cams, h.fids, h.augs⟩, fun h => ⟨h.body, h.imus, fun _ _ => trivial, h.cams, h.fids, h.augs⟩⟩

theorem angPred_op {U : Quat K → Prop} {op : Ekf.Op K} (h : op.AngOK U) : op.CompOK (angPred U) := by
  cases op <;> first | exact h | exact trivial

theorem allAng_addVec {N : Prim K} {U : Quat K → Prop} (hU : AngClosed N U) {s s' : State K} {v : Vec K}
    (h : s.addVec N v = .ok s') (hs : s.AllAng U) : s'.AllAng U :=
  angPred_iff.1 (all_addVec (angPred_closed hU) h (angPred_iff.2 hs))

namespace Ekf

theorem allAng_run {N : Prim K} {U : Quat K → Prop} (hU : AngClosed N U) {ops : List (Op K)} {e e' : Ekf K}
    (hs : e.state.AllAng U) (ho : ∀ op ∈ ops, op.AngOK U) (h : run N e ops = .ok e') : e'.state.AllAng U :=
  angPred_iff.1 (all_run (angPred_closed hU) (angPred_iff.2 hs) (fun op h => angPred_op (ho op h)) h)

theorem allAng_init {N : Prim K} {U : Quat K → Prop} (hU : AngClosed N U) (p : EkfParams K) :
    (init N p).state.AllAng U := angPred_iff.1 (all_init (angPred_closed hU) p)

end Ekf

theorem unit_closed {N : Prim K} (hN : N.UnitLaw) : AngClosed N Quat.IsUnit := by
  refine ⟨?_, ?_, ?_⟩
  · simp [Quat.IsUnit, Quat.normSq, Quat.one]
  · intro q v hq
    have : (q.mul (N.rotVecToQuat v)).normSq = q.normSq * (N.rotVecToQuat v).normSq := by
      simp only [Quat.mul, Quat.normSq]; ring
    unfold Quat.IsUnit at *
    rw [this, hq, hN v, one_mul]
  · intro q v hq
    have : ((N.rotVecToQuat v).mul q).normSq = q.normSq * (N.rotVecToQuat v).normSq := by
      simp only [Quat.mul, Quat.normSq]; ring
    unfold Quat.IsUnit at *
    rw [this, hq, hN v, one_mul]

end EkfCal
