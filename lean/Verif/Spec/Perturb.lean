import Verif.Spec.Derivative
import Verif.Model.Ekf
import Mathlib.Data.Real.Basic

/-!
# Specification: one component of the state varied, and one 3×3 block of a Jacobian read
-/

namespace EkfCal
variable {K : Type}

/-- Rows `r … r+2`, columns `c … c+2`. -/
def Mat.block3 (m : Mat K) (r c : Nat) : Matrix (Fin 3) (Fin 3) K := fun i j => m.get (r + i.1) (c + j.1)

/-- Entries `r … r+2`. -/
def Vec.part3 (v : Vec K) (r : Nat) : V3 K := fun i => v.get (r + i.1)

/-- The filter with another body state. -/
def Ekf.withBody (e : Ekf K) (b : BodyState K) : Ekf K := { e with state := { e.state with body := b } }
/-- The filter with another state of IMU `id`. -/
def Ekf.withImu (e : Ekf K) (id : Nat) (s : ImuState K) : Ekf K :=
  { e with state := { e.state with imus := UMap.insert e.state.imus id s } }
/-- The filter with another state of GPS antenna `id`. -/
def Ekf.withGps (e : Ekf K) (id : Nat) (s : GpsState K) : Ekf K :=
  { e with state := { e.state with gpss := UMap.insert e.state.gpss id s } }
/-- The filter with another state of camera `id`. -/
def Ekf.withCam (e : Ekf K) (id : Nat) (s : CamState K) : Ekf K :=
  { e with state := { e.state with cams := UMap.insert e.state.cams id s } }

/-- Column `c` lies in the range of `n` columns that starts at `i`. -/
def InCols (c i n : Nat) : Prop := i ≤ c ∧ c < i + n

end EkfCal
