import Verif.Lemmas.Frame
import Verif.Spec.Samples

/-!
# C05 — reading a sensor state does not alter the filter

The getters use `operator[]` of `std::map`, which inserts a default entry for an unknown id.  The property therefore
holds for registered ids only (`…_partial`); for unknown ids it is violated (`C05_violated`), and
`C05_unknown_effect_partial` says exactly how much of it is left.
-/

namespace EkfCal
open Ekf
variable {K : Type} [Field K] [LinearOrder K]

/-- Full property, as stated: no getter call changes the filter. Not provable; see `C05_violated`. -/
def C05_full (K : Type) [Field K] [LinearOrder K] : Prop :=
  ∀ (e : Ekf K) (id : Nat), (e.getImuState id).2 = e ∧ (e.getGpsState id).2 = e ∧ (e.getCamState id).2 = e

/-- Reading a registered sensor returns its stored state and leaves the filter untouched. -/
theorem C05_registered_partial (e : Ekf K) (id : Nat) :
    (∀ s, e.state.imus.find? id = some s → e.getImuState id = (s, e)) ∧
    (∀ s, e.state.gpss.find? id = some s → e.getGpsState id = (s, e)) ∧
    (∀ s, e.state.cams.find? id = some s → e.getCamState id = (s, e)) := by
  refine ⟨fun s h => ?_, fun s h => ?_, fun s h => ?_⟩
  · simp [getImuState, UMap.getD, UMap.touch, h]
  · simp [getGpsState, UMap.getD, UMap.touch, h]
  · simp [getCamState, UMap.getD, UMap.touch, h]

/-- Reading an unknown IMU id returns a default state, keeps sizes, covariance, index ranges and every other IMU, but the
id counts as registered from then on: a later registration of it is ignored. -/
theorem C05_unknown_effect_partial (N : Prim K) (e : Ekf K) (id : Nat) (h : e.state.imus.find? id = none)
    (s : ImuState K) (c : Mat K) :
    let e' := (e.getImuState id).2
    e'.cov = e.cov ∧ e'.stateSize = e.stateSize ∧ e'.state.blocks = e.state.blocks ∧
    (∀ k, k ≠ id → e'.state.imus.find? k = e.state.imus.find? k) ∧
    e'.getImuCount = e.getImuCount + 1 ∧ e'.registerIMU N id s c = .ok e' := by
  have hl : ∀ (m : UMap (ImuState K)) (v : ImuState K), m.find? id = none → (m.insert id v).length = m.length + 1 := by
    intro m v hm
    induction m with
    | nil => rfl
    | cons y ys ih =>
      obtain ⟨k, w⟩ := y
      simp only [UMap.find?] at hm
      split_ifs at hm with hk
      unfold UMap.insert
      split_ifs <;> first | omega | simp [ih hm]
  simp only [getImuState, UMap.touch, h, getImuCount]
  refine ⟨trivial, trivial, ?_, fun k hk => UMap.find?_insert_ne _ _ hk, hl _ _ h, ?_⟩
  · unfold State.blocks
    dsimp only
    rw [UMap.mapBlocks_insert_new ImuState.blocks id ImuState.default rfl h]
  · simp [registerIMU]

/-- The property is violated: after reading an unknown id the sensor count has changed, and registering that id no
longer has the effect it would have had (the state keeps size 18 instead of growing to 30). -/
theorem C05_violated :
    ∃ (e : Ekf ℚ) (id : Nat) (s : ImuState ℚ) (c : Mat ℚ) (a b : Ekf ℚ),
      (e.getImuState id).2.getImuCount ≠ e.getImuCount ∧
      e.registerIMU Samples.prim id s c = .ok a ∧ a.stateSize = 30 ∧
      (e.getImuState id).2.registerIMU Samples.prim id s c = .ok b ∧ b.stateSize = 18 :=
  ⟨init Samples.prim (Samples.params .none false), 5, Samples.imu true true, Samples.cov 12, _, _, by decide, rfl, rfl,
    rfl, rfl⟩

theorem C05_full_false : ¬ C05_full ℚ := by
  intro h
  have h1 := (h (init Samples.prim (Samples.params .none false)) 5).1
  have := congrArg Ekf.getImuCount h1
  revert this
  decide

/-- A registered id and an unknown id exist in a concrete filter. -/
example : ∃ e : Ekf ℚ, (∃ s, e.state.imus.find? 3 = some s) ∧ e.state.imus.find? 4 = none := by
  obtain ⟨e, he⟩ : ∃ e, run Samples.prim (init Samples.prim (Samples.params .all false)) Samples.ops = .ok e := ⟨_, rfl⟩
  refine ⟨e, ?_⟩
  cases he
  exact ⟨⟨_, rfl⟩, rfl⟩

end EkfCal
