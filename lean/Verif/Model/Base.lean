import Mathlib.Algebra.Order.Field.Basic
import Mathlib.Algebra.BigOperators.Fin
import Mathlib.Data.Fin.VecNotation

/-!
# Base of the model: outcomes, numbers, vectors, quaternions, dynamic matrices, ordered maps

`double` is modelled by an ordered field `K` (see DESIGN.md).  Undefined behaviour is a distinct
outcome of every function that can run into it.
-/

namespace EkfCal

/-- Reasons for which the C++ program has no defined result.  (Modelling device, no C++ source.)
`nonFinite` is not undefined behaviour in C++: it marks an IEEE infinity or NaN, which the
exact-number model cannot represent. `assertFailed` is a defined abort. -/
inductive UB
  | outOfRange      -- Eigen block/segment or `vector::operator[]` outside the object
  | sizeMismatch    -- Eigen assignment or product of objects of different size
  | emptyVector     -- `back()` or `[0]` on an empty `std::vector`
  | uninitialised   -- read of a variable that was never written
  | aliasing        -- Eigen assignment between overlapping blocks
  | nonFinite       -- division by zero: IEEE inf/NaN
  | badCast         -- `static_pointer_cast` to a class the object does not have, `double` to an integer it does not fit
  | assertFailed    -- `assert` aborts the program (builds without `NDEBUG`)
  deriving DecidableEq, Repr

/-- Result of a C++ call: a value, or no defined result. -/
abbrev Res (α : Type) := Except UB α

/-- Guard: continue if `b` holds, otherwise the given kind of undefined behaviour. -/
def guardUB (b : Prop) [Decidable b] (e : UB) : Res Unit := if b then .ok () else .error e

/-- `Eigen::Vector3d`. -/
abbrev V3 (K : Type) := Fin 3 → K

/-- `Eigen::VectorXd`: a size and the entries (entries at or beyond `size` are meaningless). -/
structure Vec (K : Type) where
  size : Nat
  get : Nat → K

/-- `Eigen::MatrixXd`: row and column count and the entries (entries outside are meaningless). -/
structure Mat (K : Type) where
  rows : Nat
  cols : Nat
  get : Nat → Nat → K

/-- Two matrices are the same matrix: same shape, same entries inside the shape. -/
def Mat.Same {K : Type} (a b : Mat K) : Prop :=
  a.rows = b.rows ∧ a.cols = b.cols ∧
    ∀ i j, i < a.rows → j < a.cols → a.get i j = b.get i j

/-- `Eigen::Quaterniond`, scalar first as in its constructor. -/
@[ext] structure Quat (K : Type) where
  w : K
  x : K
  y : K
  z : K
  deriving DecidableEq

section Ops
variable {K : Type}

/-- `v.segment<3>(i)` (Eigen): out of range unless `i + 3 ≤ size`. -/
def Vec.segment3 (v : Vec K) (i : Nat) : Res (V3 K) :=
  if i + 3 ≤ v.size then .ok ![v.get i, v.get (i + 1), v.get (i + 2)] else .error .outOfRange

/-- `v.segment(i, n)` (Eigen). -/
def Vec.segment (v : Vec K) (i n : Nat) : Res (Vec K) :=
  if i + n ≤ v.size then .ok ⟨n, fun k => v.get (i + k)⟩ else .error .outOfRange

/-- `MatrixXd::Zero(r, c)` (Eigen). -/
def Mat.zero [Zero K] (r c : Nat) : Mat K := ⟨r, c, fun _ _ => 0⟩

/-- `MatrixXd::Identity(r, c)` (Eigen). -/
def Mat.identity [Zero K] [One K] (r c : Nat) : Mat K := ⟨r, c, fun i j => if i = j then 1 else 0⟩

/-- `m.block(i, j, p, q)` as a value (Eigen): out of range unless it lies inside `m`. -/
def Mat.block (m : Mat K) (i j p q : Nat) : Res (Mat K) :=
  if i + p ≤ m.rows ∧ j + q ≤ m.cols then .ok ⟨p, q, fun a b => m.get (i + a) (j + b)⟩
  else .error .outOfRange

/-- `m.block(i, j, p, q) = s` (Eigen): the block must lie inside `m`, the sizes must agree. -/
def Mat.setBlock (m : Mat K) (i j p q : Nat) (s : Mat K) : Res (Mat K) :=
  if i + p ≤ m.rows ∧ j + q ≤ m.cols then
    if s.rows = p ∧ s.cols = q then
      .ok ⟨m.rows, m.cols, fun a b =>
        if i ≤ a ∧ a < i + p ∧ j ≤ b ∧ b < j + q then s.get (a - i) (b - j) else m.get a b⟩
    else .error .sizeMismatch
  else .error .outOfRange

/-- `m.transpose()` (Eigen). -/
def Mat.transpose (m : Mat K) : Mat K := ⟨m.cols, m.rows, fun i j => m.get j i⟩

/-- `m.cwiseSqrt()` etc.: apply a function to every entry (Eigen). -/
def Mat.map {L : Type} (f : K → L) (m : Mat K) : Mat L := ⟨m.rows, m.cols, fun i j => f (m.get i j)⟩

/-- Sum of `f 0 … f (n-1)`, the inner product loop of a matrix product. -/
def sumTo [Add K] [Zero K] (n : Nat) (f : Nat → K) : K :=
  match n with
  | 0 => 0
  | n + 1 => sumTo n f + f n

/-- `a * b` (Eigen): inner sizes must agree. -/
def Mat.mul [Add K] [Zero K] [Mul K] (a b : Mat K) : Res (Mat K) :=
  if a.cols = b.rows then
    .ok ⟨a.rows, b.cols, fun i j => sumTo a.cols fun k => a.get i k * b.get k j⟩
  else .error .sizeMismatch

/-- `a + b` (Eigen): sizes must agree. -/
def Mat.add [Add K] (a b : Mat K) : Res (Mat K) :=
  if a.rows = b.rows ∧ a.cols = b.cols then .ok ⟨a.rows, a.cols, fun i j => a.get i j + b.get i j⟩
  else .error .sizeMismatch

/-- `a - b` (Eigen): sizes must agree. -/
def Mat.sub [Sub K] (a b : Mat K) : Res (Mat K) :=
  if a.rows = b.rows ∧ a.cols = b.cols then .ok ⟨a.rows, a.cols, fun i j => a.get i j - b.get i j⟩
  else .error .sizeMismatch

/-- `a * v` for a vector `v` (Eigen): inner sizes must agree. -/
def Mat.mulVec [Add K] [Zero K] [Mul K] (a : Mat K) (v : Vec K) : Res (Vec K) :=
  if a.cols = v.size then .ok ⟨a.rows, fun i => sumTo a.cols fun k => a.get i k * v.get k⟩
  else .error .sizeMismatch

/-- `m * s` for a scalar `s` (Eigen). -/
def Mat.smul [Mul K] (m : Mat K) (s : K) : Mat K := ⟨m.rows, m.cols, fun i j => m.get i j * s⟩

/-- Quaternion product (Eigen `operator*`, Hamilton convention). -/
def Quat.mul [Add K] [Sub K] [Mul K] (a b : Quat K) : Quat K where
  w := a.w * b.w - a.x * b.x - a.y * b.y - a.z * b.z
  x := a.w * b.x + a.x * b.w + a.y * b.z - a.z * b.y
  y := a.w * b.y + a.y * b.w + a.z * b.x - a.x * b.z
  z := a.w * b.z + a.z * b.w + a.x * b.y - a.y * b.x

/-- The quaternion `{1, 0, 0, 0}`. -/
def Quat.one [Zero K] [One K] : Quat K := ⟨1, 0, 0, 0⟩

/-- Squared norm of a quaternion (Eigen `squaredNorm`). -/
def Quat.normSq [Add K] [Mul K] (q : Quat K) : K := q.w * q.w + q.x * q.x + q.y * q.y + q.z * q.z

/-- `q.inverse()` (Eigen): conjugate divided by the squared norm; Eigen returns the zero quaternion when
the squared norm is not positive. -/
def Quat.inverse [Zero K] [LT K] [DecidableLT K] [Add K] [Mul K] [Neg K] [Div K] (q : Quat K) :
    Quat K :=
  if 0 < q.normSq then
    ⟨q.w / q.normSq, -q.x / q.normSq, -q.y / q.normSq, -q.z / q.normSq⟩
  else ⟨0, 0, 0, 0⟩

end Ops

/-! ## `std::map<unsigned int, V>` -/

/-- `std::map<unsigned int, V>` as its list of entries in iteration order. -/
abbrev UMap (V : Type) := List (Nat × V)

namespace UMap
variable {V : Type}

/-- `m.find(k)`: the stored value, if any. -/
def find? (m : UMap V) (k : Nat) : Option V :=
  match m with
  | [] => none
  | (k', v) :: rest => if k' = k then some v else find? rest k

/-- `m[k] = v`: overwrite the entry of `k`, or insert a new one at its place in key order. -/
def insert (m : UMap V) (k : Nat) (v : V) : UMap V :=
  match m with
  | [] => [(k, v)]
  | (k', v') :: rest =>
    if k < k' then (k, v) :: (k', v') :: rest
    else if k = k' then (k, v) :: rest
    else (k', v') :: insert rest k v

/-- Evaluating `m[k]` as an rvalue: the map afterwards, which has gained a default entry if there was none. -/
def touch (m : UMap V) (k : Nat) (dflt : V) : UMap V :=
  match find? m k with
  | some _ => m
  | none => insert m k dflt

/-- Value of `m[k]`. -/
def getD (m : UMap V) (k : Nat) (dflt : V) : V := (find? m k).getD dflt

/-- Iteration order of a `std::map`: keys strictly increasing. -/
def Sorted (m : UMap V) : Prop := m.Pairwise fun a b => a.1 < b.1

/-- Keys in iteration order. -/
def keys (m : UMap V) : List Nat := m.map Prod.fst

end UMap

end EkfCal
