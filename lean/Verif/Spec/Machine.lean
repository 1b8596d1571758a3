import Verif.Spec.Layout

/-!
# Specification: well-formed calls

The size member of a sensor state is maintained by its setters; `…_wf` below show that every state built from the default
one with the setters is well formed.
-/

namespace EkfCal
variable {K : Type}

/-- The `size` member agrees with the calibration flags. -/
def ImuState.WF (s : ImuState K) : Prop := s.size = s.dim
/-- The `size` member agrees with the calibration flag. -/
def GpsState.WF (s : GpsState K) : Prop := s.size = s.dim
/-- The `size` member agrees with the calibration flag. -/
def CamState.WF (s : CamState K) : Prop := s.size = s.dim
/-- The `size` member agrees with the calibration flag. -/
def FidState.WF (s : FidState K) : Prop := s.size = s.dim

/-- Arguments that the public interface can produce: sizes maintained by the setters, body index left at 0. -/
def Ekf.Op.WF : Ekf.Op K → Prop
  | .registerIMU _ s _ => s.WF
  | .registerGPS _ s _ => s.WF
  | .registerCamera _ s _ => s.WF
  | .registerFiducial s _ => s.WF
  | .initializeAt _ b => b.index = 0
  | _ => True

theorem ImuState.wf_default [Field K] : (ImuState.default : ImuState K).WF := rfl
theorem GpsState.wf_default [Field K] : (GpsState.default : GpsState K).WF := rfl
theorem CamState.wf_default [Field K] : (CamState.default : CamState K).WF := rfl
theorem ImuState.wf_setIsExtrinsic (s : ImuState K) (b : Bool) : (s.setIsExtrinsic b).WF := rfl
theorem ImuState.wf_setIsIntrinsic (s : ImuState K) (b : Bool) : (s.setIsIntrinsic b).WF := rfl
theorem GpsState.wf_setIsExtrinsic (s : GpsState K) (b : Bool) : (s.setIsExtrinsic b).WF := rfl
theorem CamState.wf_setIsExtrinsic (s : CamState K) (b : Bool) : (s.setIsExtrinsic b).WF := rfl
theorem FidState.wf_setIsExtrinsic (s : FidState K) (b : Bool) : (s.setIsExtrinsic b).WF := rfl

end EkfCal
