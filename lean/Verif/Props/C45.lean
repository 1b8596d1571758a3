import Verif.Lemmas.Config
import Verif.Spec.Samples
import Verif.Props.C48
import Mathlib.Tactic.FinCases
import Mathlib.Tactic.IntervalCases

/-!
# C45: configured parameters reach the filter

True of the simulation, which configures the same filter class.  False of the ROS node: the noise named after the
orientation is put in the rows of the acceleration, the rows of the orientation and all following rows are never
written, and the configured pose is never used.
-/

namespace EkfCal
open Ekf
variable {K : Type} [Field K] [LinearOrder K]

/-- The rows are those of the quantities: a correction vector changes each quantity by its three entries, and the
orientation through its three. -/
theorem C45_rows (N : Prim K) (b b' : BodyState K) (v : Vec K) (h : b.addVec N v = .ok b') :
    (∀ (q : Quantity) x, b.part q = some x →
      b'.part q = some fun i : Fin 3 => x i + v.get (q.row + i.val)) ∧
    b'.ang = b.ang.mul (N.rotVecToQuat fun i => v.get (Quantity.angPos.row + i.val)) := by
  simp only [BodyState.addVec, bind_ok_iff, pure_res, Except.ok.injEq] at h
  obtain ⟨p, h0, w, h1, a, h2, r, h3, o, h4, α, h5, rfl⟩ := h
  have key : ∀ {i : Nat} {x : V3 K}, v.segment3 i = .ok x → x = fun j : Fin 3 => v.get (i + j.val) := by
    intro i x hx
    rw [Vec.segment3] at hx
    split at hx
    · cases hx
      funext j
      fin_cases j <;> rfl
    · cases hx
  obtain rfl := key h0
  obtain rfl := key h1
  obtain rfl := key h2
  obtain rfl := key h3
  obtain rfl := key h4
  obtain rfl := key h5
  refine ⟨fun q x hx => ?_, rfl⟩
  cases q <;> cases hx <;> rfl

/-- The simulation, in either covariance mode: whatever the six configured noises, once a new sensor is registered and as
long as the noise is not reconfigured, every row of every quantity has the noise configured for that quantity (its square
root in square-root mode). -/
theorem C45_sim (N : Prim K) (p : EkfParams K) (pos vel acc angPos angVel angAcc : K)
    (tracker : Bool) (dp : V3 K) (dq : Quat K) (setup : List (Op K)) (hs : ∀ v, Op.setBodyProcessNoise v ∉ setup)
    (e1 e2 e : Ekf K) (h1 : run N (simFilter N p (simProcessNoise pos vel acc angPos angVel angAcc) tracker dp dq) setup = .ok e1)
    (op : Op K) (hr : RegistersNew e1 op) (h2 : step N e1 op = .ok e2) (ops : List (Op K))
    (ho : ∀ v, Op.setBodyProcessNoise v ∉ ops) (h : run N e2 ops = .ok e) (q : Quantity) (k : Nat) (hk : k < 3) :
    e.processNoise.get (q.row + k) (q.row + k) =
      if p.useRoot then N.sqrt (q.choose pos vel acc angPos angVel angAcc) else q.choose pos vel acc angPos angVel angAcc := by
  obtain ⟨g1, g2⟩ := run_bodyNoise hs h1
  have hv : (simProcessNoise pos vel acc angPos angVel angAcc).get (q.row + k) =
      q.choose pos vel acc angPos angVel angAcc := by
    interval_cases k <;> cases q <;> rfl
  have := (C48_in_force_partial N e1 e2 e op hr h2 ops ho h).2 (q.row + k)
    (by cases q <;> simp only [Quantity.row] <;> omega)
  rw [this, g1, g2]
  show (if p.useRoot then N.sqrt ((simProcessNoise pos vel acc angPos angVel angAcc).get (q.row + k)) else
    (simProcessNoise pos vel acc angPos angVel angAcc).get (q.row + k)) = _
  rw [hv]

/-- The hypotheses of `C45_sim` are met: after a prediction, a sensor is registered, and the filter goes on. -/
example : ∃ e1 e2 e : Ekf ℚ, ∃ op : Op ℚ,
    run Samples.prim (simFilter Samples.prim (Samples.params .all false) (simProcessNoise 1 2 3 4 5 6) true ![1, 2, 3] Quat.one)
      [.predict 1] = .ok e1 ∧ RegistersNew e1 op ∧ step Samples.prim e1 op = .ok e2 ∧
    run Samples.prim e2 [.predict 2, .frame 1 1] = .ok e := by
  refine ⟨_, _, _, .registerGPS 7 Samples.gps (Samples.cov 3), rfl, rfl, rfl, rfl⟩

omit [LinearOrder K] in
/-- The simulation's filter starts from the configured pose, disturbed by the drawn errors only. -/
theorem C45_sim_pose (N : Prim K) (p : EkfParams K) (v : Vec K) (tracker : Bool) :
    (∀ dp dq, (simFilter N p v tracker dp dq).state.body.pos = p.posBInL + dp ∧
      (simFilter N p v tracker dp dq).state.body.ang = dq.mul p.angBToL ∧
      (simFilter N p v tracker dp dq).currentTime = 0 ∧ (simFilter N p v tracker dp dq).timeInitialized = true) ∧
    (simFilter N p v tracker 0 Quat.one).state.body.pos = p.posBInL ∧
    (simFilter N p v tracker 0 Quat.one).state.body.ang = p.angBToL := by
  refine ⟨fun dp dq => ⟨rfl, rfl, rfl, rfl⟩, ?_, ?_⟩
  · show p.posBInL + 0 = _
    rw [_root_.add_zero]
  · show Quat.one.mul p.angBToL = _
    rcases h : p.angBToL with ⟨w, x, y, z⟩
    simp [Quat.mul, Quat.one]

/-- The node: position and velocity noises are where they belong. -/
theorem C45_pos_vel_partial (pos vel angPos : K) (k : Nat) (hk : k < 3) :
    nodeProcessNoise pos vel angPos (Quantity.pos.row + k) = some pos ∧
    nodeProcessNoise pos vel angPos (Quantity.vel.row + k) = some vel := by
  interval_cases k <;> exact ⟨rfl, rfl⟩

/-- The node, whatever the parameters: the orientation noise is written to the rows of the acceleration, no row of the
orientation, angular rate or angular acceleration is ever written, and the filter copies the unwritten values. -/
theorem C45_noise_violated (N : Prim K) (p : EkfParams K) (pos vel angPos : K) (tracker : Bool) :
    (∀ k, k < 3 → nodeProcessNoise pos vel angPos (Quantity.acc.row + k) = some angPos) ∧
    (∀ q : Quantity, (q = .angPos ∨ q = .angVel ∨ q = .angAcc) → ∀ k, k < 3 → nodeProcessNoise pos vel angPos (q.row + k) = none) ∧
    nodeFilter N p pos vel angPos tracker = .error .uninitialised := by
  refine ⟨fun k hk => by interval_cases k <;> rfl, fun q hq k hk => ?_, ?_⟩
  · interval_cases k <;> rcases hq with rfl | rfl | rfl <;> rfl
  · unfold nodeFilter
    rw [if_neg]
    intro h
    rw [List.all_eq_true] at h
    have := h 9 (by simp [bodySize])
    simp [nodeProcessNoise] at this

/-- The node never passes its initial pose on: a constructed filter starts at the origin without rotation, whatever pose
is configured, even if all of the noise were written. -/
theorem C45_pose_violated (N : Prim K) (p : EkfParams K) :
    (init N p).state.body.pos = 0 ∧ (init N p).state.body.ang = Quat.one ∧
    ∀ (pos : V3 K) (ang : Quat K), init N { p with posBInL := pos, angBToL := ang } = init N p :=
  ⟨rfl, rfl, fun _ _ => rfl⟩

end EkfCal
