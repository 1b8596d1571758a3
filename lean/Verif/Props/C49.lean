import Verif.Lemmas.Progress
import Verif.Lemmas.RealPrim
import Verif.Spec.Samples

/-!
# C49 — calls that keep their contract never run into undefined behaviour
-/

namespace EkfCal
open Ekf
variable {K : Type} [Field K] [LinearOrder K]

/-- Every history of calls, each of which keeps the stated obligations in the state in which it is made, has a defined
outcome: no access outside a vector or matrix, no size mismatch, no read of an unwritten variable, no division by zero. -/
theorem C49_history (N : Prim K) (p : EkfParams K) (hp : p.processNoise.size = 18) (ops : List (Op K))
    (hs : SafeHistory N (init N p) ops) : ∃ e, run N (init N p) ops = .ok e := by
  obtain ⟨e, h, _⟩ := run_defined (ready_init N p hp) hs
  exact ⟨e, h⟩

/-- After any such history, every further call that keeps its obligations is defined. -/
theorem C49_next (N : Prim K) (p : EkfParams K) (hp : p.processNoise.size = 18) (ops : List (Op K))
    (hs : SafeHistory N (init N p) ops) (e : Ekf K) (h : run N (init N p) ops = .ok e) (op : Op K) (hw : op.WF)
    (ho : op.Safe e) : ∃ e', step N e op = .ok e' := by
  obtain ⟨e1, h1, hr⟩ := run_defined (ready_init N p hp) hs
  rw [h] at h1
  cases h1
  exact step_defined hr hw ho

/-- In particular predictions to any time and the calls that only read or set a value carry no obligation at all. -/
theorem C49_predict (N : Prim K) (p : EkfParams K) (hp : p.processNoise.size = 18) (ops : List (Op K))
    (hs : SafeHistory N (init N p) ops) (e : Ekf K) (h : run N (init N p) ops = .ok e) (t : K) :
    ∃ e', e.predict N t = .ok e' :=
  C49_next N p hp ops hs e h (.predict t) trivial trivial

/-- The obligations are met by an ordinary history: registrations with covariances of the right size, predictions,
frames and an update of the right shape. -/
example : SafeHistory Samples.prim (init Samples.prim (Samples.params .time false))
    [.registerIMU 3 (Samples.imu true true) (Samples.cov 12), .registerCamera 1 Samples.cam (Samples.cov 6),
     .initializeGravity, .predict 1, .frame 1 10, .predict 3] := by
  refine ⟨rfl, .inr ⟨by decide, by decide⟩, fun e1 h1 => ⟨rfl, .inr ⟨by decide, by decide, by decide⟩, fun e2 h2 =>
    ⟨trivial, trivial, fun e3 h3 => ⟨trivial, trivial, fun e4 h4 => ⟨trivial, fun _ h0 => ?_, fun e5 h5 =>
    ⟨trivial, trivial, fun e6 h6 => trivial⟩⟩⟩⟩⟩⟩
  exfalso
  have f1 : e1.maxTrackLength = 20 := (frame2_registerIMU h1).maxTrackLength
  have f2 := (frame_registerCamera h2).maxTrackLength
  have f3 : e3.maxTrackLength = e2.maxTrackLength := by cases h3; rfl
  have f4 : e4.maxTrackLength = e3.maxTrackLength := by
    have := step_frame h4
    simp only [StepFrame] at this
    split at this
    · rw [this]
    · exact this.maxTrackLength
  omega

end EkfCal
