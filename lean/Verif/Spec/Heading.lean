import Verif.Spec.Optimal
import Verif.Model.Linear3

/-!
# Specification: the same history in a local frame with another heading

The vertical axis of the local frame is given by gravity, its heading is a choice.  Another choice turns every vector of the local frame
about the vertical by the same angle and leaves what is measured in the body frame as it is.
-/

namespace EkfCal
open Finset
variable {K : Type} [Field K]

/-- A unit rotation about the vertical. -/
structure Quat.Vertical (q : Quat K) : Prop where
  x : q.x = 0
  y : q.y = 0
  unit : q.normSq = 1

/-- The body seen in the turned frame: position, velocity, acceleration, angular rate and angular acceleration are vectors of the local
frame, the orientation is the rotation from the body to the local frame. -/
def BodyState.turned (q : Quat K) (b : BodyState K) : BodyState K :=
  { b with
    pos := q.rotate b.pos
    vel := q.rotate b.vel
    acc := q.rotate b.acc
    ang := q.mul b.ang
    angVel := q.rotate b.angVel
    angAcc := q.rotate b.angAcc }

/-- The first (`k = 0`) or second (`k = 1`) horizontal component of one of the five vectors of the local frame in the state vector.  The
orientation, components 9 to 11, is corrected by a rotation in the body frame. -/
def Horizontal (k i : Nat) : Prop := i < 18 ∧ i / 3 ≠ 3 ∧ i % 3 = k

instance (k i : Nat) : Decidable (Horizontal k i) := inferInstanceAs (Decidable (_ ∧ _))

/-- The matrix that turns an error of the state vector: by the angle with the given cosine and sine on the horizontal components, nothing
else. -/
def turning (c s : K) (i j : Nat) : K :=
  if i = j then (if Horizontal 0 i ∨ Horizontal 1 i then c else 1)
  else if Horizontal 0 i ∧ j = i + 1 then -s
  else if Horizontal 1 i ∧ i = j + 1 then s
  else 0

/-- The cosine and the sine of the angle of a vertical rotation. -/
def Quat.cosine (q : Quat K) : K := q.w * q.w - q.z * q.z
def Quat.sine (q : Quat K) : K := 2 * q.w * q.z

/-- The turning of an error of the state by `q`. -/
def Quat.turning (q : Quat K) : Nat → Nat → K := EkfCal.turning q.cosine q.sine

/-- A matrix of size `n` that has the same entries in the turned frame: the same uncertainty in all horizontal directions. -/
def Level (n : Nat) (q : Quat K) (A : Nat → Nat → K) : Prop := ∀ i j, i < n → j < n → congr n q.turning A i j = A i j

/-- Process noise that is the same in both horizontal directions of each vector. -/
def Mat.EvenHorizontally (Q : Mat K) : Prop := ∀ i, Horizontal 0 i → Q.get i i = Q.get (i + 1) (i + 1)

/-- What is needed of the conversion from rotation vectors: a turned vector stands for the turned rotation. -/
def Prim.TurnsWith [LT K] [DecidableLT K] (N : Prim K) (q : Quat K) : Prop :=
  ∀ v : V3 K, N.rotVecToQuat (q.rotate v) = (q.mul (N.rotVecToQuat v)).mul q.inverse

/-- The same measurement made in the turned frame.  Its components may be components of a vector of the local frame: `U` turns them (`U` is
the identity for what is measured in the body frame). -/
structure SameTurned (n : Nat) (q : Quat K) (H : Mat K) (r : Vec K) (R H' : Mat K) (r' : Vec K) (R' : Mat K) : Prop where
  rows : H'.rows = H.rows
  ex : ∃ U : Nat → Nat → K,
    (∀ a b, a < H.rows → b < H.rows → ∑ k ∈ range H.rows, U a k * U b k = if a = b then 1 else 0) ∧
    (∀ a j, a < H.rows → j < n → H'.get a j = ∑ b ∈ range H.rows, U a b * ∑ k ∈ range n, H.get b k * q.turning j k) ∧
    (∀ a, a < H.rows → r'.get a = ∑ b ∈ range H.rows, U a b * r.get b) ∧
    (∀ a b, a < H.rows → b < H.rows → R'.get a b = congr H.rows U R.get a b)

/-- What happens, seen in both frames. -/
inductive Seen (K : Type)
  | predict (t : K)
  | measure (H : Mat K) (r : Vec K) (R H' : Mat K) (r' : Vec K) (R' : Mat K)
  | still (b : Bool)
  | gravity
  | restart (t : K) (b : BodyState K)

/-- The calls on the filter in the first frame. -/
def Seen.here : Seen K → Ekf.Op K
  | .predict t => .predict t
  | .measure H r R _ _ _ => .kalman H r R
  | .still b => .setZeroAcceleration b
  | .gravity => .initializeGravity
  | .restart t b => .initializeAt t b
/-- The calls on the filter in the turned frame. -/
def Seen.there (q : Quat K) : Seen K → Ekf.Op K
  | .predict t => .predict t
  | .measure _ _ _ H' r' R' => .kalman H' r' R'
  | .still b => .setZeroAcceleration b
  | .gravity => .initializeGravity
  | .restart t b => .initializeAt t (b.turned q)

/-- Measurement covariances are covariances with an inverse and the two measurements are the same; the body keeps its place in the state
vector. -/
def Seen.OK [LinearOrder K] (n : Nat) (q : Quat K) : Seen K → Prop
  | .measure H r R H' r' R' => R.IsCov ∧ R'.IsCov ∧ (∃ Ri, AreInverse H.rows R.get Ri) ∧ SameTurned n q H r R H' r' R'
  | .restart _ b => b.index = 0
  | _ => True

/-- `f` is the filter `e` in the turned frame: the same but for the body, which is turned, and the covariance, which is that of the turned
errors. -/
structure Ekf.TurnedTo (q : Quat K) (e f : Ekf K) : Prop where
  rest : f = { e with state := { e.state with body := e.state.body.turned q }, cov := f.cov }
  rows : f.cov.rows = e.cov.rows
  cols : f.cov.cols = e.cov.cols
  cov : ∀ i j, i < e.cov.rows → j < e.cov.rows → f.cov.get i j = congr e.cov.rows q.turning e.cov.get i j

end EkfCal
