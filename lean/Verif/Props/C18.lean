import Verif.Lemmas.Station
import Verif.Lemmas.Window
import Verif.Spec.StationSamples
import Verif.Props.C03

/-!
# C18 — initialisation flags are one-way
-/

namespace EkfCal
open Ekf
variable {K : Type} [Field K] [LinearOrder K]

/-- Once gravity or the reference position is initialised, it stays so under every sequence of calls. -/
theorem C18_flags (N : Prim K) (e e' : Ekf K) (ops : List (Op K)) (h : run N e ops = .ok e') :
    (e.isGravityInitialized = true → e'.isGravityInitialized = true) ∧
    (e.isLlaInitialized = true → e'.isLlaInitialized = true) :=
  run_induct (P := fun _ => True)
    (R := fun a b => (a.isGravityInitialized = true → b.isGravityInitialized = true) ∧
      (a.isLlaInitialized = true → b.isLlaInitialized = true))
    (fun _ => ⟨id, id⟩) (fun _ _ _ g h => ⟨h.1 ∘ g.1, h.2 ∘ g.2⟩) (fun _ _ _ _ => flags_step) (fun _ _ => trivial) h

/-- The same under every sequence of messages. -/
theorem C18_flags_messages (N : Num K) (G : GpsNum K) (s s' : Station K) (cs : List (Call K))
    (h : s.run N G cs = .ok s') :
    (s.ekf.isGravityInitialized = true → s'.ekf.isGravityInitialized = true) ∧
    (s.ekf.isLlaInitialized = true → s'.ekf.isLlaInitialized = true) := by
  obtain ⟨ops, h⟩ := Station.filter_moves h
  exact C18_flags N.toPrim _ _ ops h

/-- Once an IMU has detected motion, it keeps saying so, whatever messages arrive. -/
theorem C18_motion (N : Num K) (G : GpsNum K) (s s' : Station K) (cs : List (Call K)) (h : s.run N G cs = .ok s')
    (k : Nat) (u : ImuUpdater) (hu : s.imus.find? k = some u) (hm : u.motionDetected = true) :
    ∃ u', s'.imus.find? k = some u' ∧ u'.motionDetected = true := by
  refine Station.run_induct (N := N) (G := G)
    (R := fun a b => (∃ u, a.imus.find? k = some u ∧ u.motionDetected = true) →
      ∃ u, b.imus.find? k = some u ∧ u.motionDetected = true)
    (fun _ => id) (fun _ _ _ g h => h ∘ g) ?_ h ⟨u, hu, hm⟩
  rintro a b c hs ⟨v, hv, hm⟩
  rcases Station.step_imu hs hv with h1 | ⟨t, x, xc, w, wc, r, rfl, h1, h2, _⟩
  · exact ⟨v, h1, hm⟩
  · exact ⟨r.1, h2, ImuUpdater.update_latch h1 hm⟩

/-- Before gravity is initialised a prediction moves no part of the body state. -/
theorem C18_pose (N : Prim K) (p : EkfParams K) (ops : List (Op K)) (hw : ∀ op ∈ ops, op.WF) (e e' : Ekf K) (t : K)
    (h : run N (init N p) ops = .ok e) (hg : e.isGravityInitialized = false) (hp : predict N e t = .ok e') :
    e'.state.body = e.state.body := by
  have hi := inv_run (inv_init N p) hw h
  have hi' : Inv e' := inv_step (op := .predict t) hi trivial hp
  obtain ⟨_, rfl⟩ | ⟨_, b, out, ⟨_, rfl, _⟩ | ⟨hg', _⟩, hp⟩ := predict_form hp
  · rfl
  · have h1 := augmentTimed_body hp
    have h2 := inv_body hi'
    have h3 := inv_body hi
    rw [h1, h2]
    dsimp only
    rw [← h3]
  · rw [hg] at hg'; cases hg'

/-- Nor the covariance, when clones are taken with frames or not at all. -/
theorem C18_cov (N : Prim K) (e e' : Ekf K) (t : K) (hg : e.isGravityInitialized = false)
    (ha : e.augType ≠ .time ∧ e.augType ≠ .error) (hp : predict N e t = .ok e') : e'.cov = e.cov := by
  obtain ⟨_, rfl⟩ | ⟨_, b, out, ⟨_, rfl, rfl⟩ | ⟨hg', _⟩, hp⟩ := predict_form hp
  · rfl
  · obtain ⟨_, rfl⟩ | ⟨ht, _⟩ := augmentTimed_form hp
    · rfl
    · rcases ht with ht | ht
      · exact absurd ht ha.1
      · exact absurd ht ha.2
  · rw [hg] at hg'; cases hg'

/-- When clones are taken with time (standard covariance), the prediction may add and drop clones, but every covariance
between the body and the registered sensors is as before. -/
theorem C18_cov_timed (N : Prim K) (e e' : Ekf K) (t : K) (hr : e.Reachable N) (hu : e.useRoot = false)
    (hg : e.isGravityInitialized = false) (hp : predict N e t = .ok e') (a b : Label)
    (ha : ∀ p, a ≠ .clone 0 p) (hb : ∀ p, b ≠ .clone 0 p) (k l : Nat) (v : K) (hv : e.joint a b k l = some v) :
    e'.joint a b k l = some v := by
  by_cases hty : e.augType = .time ∨ e.augType = .error
  · by_cases ht : e.currentTime ≤ t
    · obtain ⟨bd, out, σ, ⟨_, rfl, rfl⟩ | ⟨hg', _⟩, _, h⟩ := C03_predict N e e' t hr hu hty ht hp
      · have hk : ∀ c : Label, (∀ p, c ≠ .clone 0 p) → c = reloc 0 σ c := by
          intro c hc
          cases c <;> try rfl
          rename_i key pos
          have : key ≠ 0 := fun h => hc pos (by rw [h])
          simp [reloc, this]
        rcases h with ⟨h, _⟩ | ⟨_, _, h, _⟩
        · exact h a a b b k l v (hk a ha) (hk b hb) hv
        · exact h.keeps a a b b k l v (hk a ha) (hk b hb) hv
      · rw [hg] at hg'; cases hg'
    · obtain ⟨_, rfl⟩ | ⟨ht', _⟩ := predict_form hp
      · exact hv
      · exact absurd ht' ht
  · push Not at hty
    have hc := C18_cov N e e' t hg hty hp
    obtain ⟨_, rfl⟩ | ⟨_, bd, out, ⟨_, rfl, rfl⟩ | ⟨hg', _⟩, hp⟩ := predict_form hp
    · exact hv
    · obtain ⟨_, rfl⟩ | ⟨ht, _⟩ := augmentTimed_form hp
      · exact hv
      · exact (ht.elim hty.1 hty.2).elim
    · rw [hg] at hg'; cases hg'

/-- A filter whose clones are taken with time, before gravity is known: the prediction adds a clone. -/
example : ∃ e : Ekf ℚ, run Samples.prim (init Samples.prim (Samples.params .time false))
    [.registerIMU 3 (Samples.imu true true) (Samples.cov 12), .registerCamera 1 Samples.cam (Samples.cov 6),
     .predict 1] = .ok e ∧
    (e.useRoot = false ∧ e.isGravityInitialized = false ∧ e.joint .body (.imuExt 3) 0 0 = some 0 ∧
      e.joint .body .body 0 0 = some (1 / 100)) := by
  refine Samples.ok_of_check (by decide +kernel)

/-- A run in which both flags are set and an IMU detects motion. -/
example : ∃ s, Station.run Samples.num Samples.gpsNum (Station.init Samples.num (Samples.params .all false)) Samples.calls
      = .ok s ∧ (s.ekf.isGravityInitialized = true ∧ s.ekf.isLlaInitialized = true ∧
        (s.imus.find? 1).map ImuUpdater.motionDetected = some true) :=
  Samples.ok_of_check (by decide +kernel)

end EkfCal
