import Verif.Model.Base

/-!
# Model of `src/utility/math_helper.cpp` (matrix surgery part)
-/

namespace EkfCal
variable {K : Type} [Zero K]

/-- math_helper.cpp:50-82 `InsertInMatrix`.  `in_rows - row` and `in_cols - col` are unsigned; they wrap
exactly when the first block read is already out of range. -/
def insertInMatrix (sub inMat : Mat K) (row col : Nat) : Res (Mat K) := do
  let out := Mat.zero (inMat.rows + sub.rows) (inMat.cols + sub.cols)
  -- Top Left (66)
  let out ← out.setBlock 0 0 row col (← inMat.block 0 0 row col)
  -- Top Right (69)
  let out ← out.setBlock 0 (col + sub.cols) row (inMat.cols - col)
    (← inMat.block 0 col row (inMat.cols - col))
  -- Bottom Left (72)
  let out ← out.setBlock (row + sub.rows) 0 (inMat.rows - row) col
    (← inMat.block row 0 (inMat.rows - row) col)
  -- Bottom Right (75-76)
  let out ← out.setBlock (row + sub.rows) (col + sub.cols) (inMat.rows - row) (inMat.cols - col)
    (← inMat.block row col (inMat.rows - row) (inMat.cols - col))
  -- Center (79)
  out.setBlock row col sub.rows sub.cols sub

/-- math_helper.cpp:84-107 `RemoveFromMatrix`.  The unsigned differences wrap when `size`, `row + size` or
`col + size` exceed the matrix; the following block accesses are then out of range, which the explicit
guard records. -/
def removeFromMatrix (inMat : Mat K) (row col size : Nat) : Res (Mat K) := do
  guardUB (row + size ≤ inMat.rows ∧ col + size ≤ inMat.cols) .outOfRange
  let out := Mat.zero (inMat.rows - size) (inMat.cols - size)
  -- 95
  let out ← out.setBlock 0 0 row col (← inMat.block 0 0 row col)
  -- 97-98
  let out ← out.setBlock row col (inMat.rows - row - size) (inMat.cols - col - size)
    (← inMat.block (row + size) (col + size) (inMat.rows - row - size) (inMat.cols - col - size))
  -- 100-101
  let out ← out.setBlock row 0 (inMat.rows - row - size) col
    (← inMat.block (row + size) 0 (inMat.rows - row - size) col)
  -- 103-104
  out.setBlock 0 col row (inMat.cols - col - size)
    (← inMat.block 0 (col + size) row (inMat.cols - col - size))

/-- math_helper.cpp:43-47: the loop of `MinBoundVector`, the first `n` entries -/
def minBoundLoop [LT K] [DecidableLT K] (bound : K) : Nat → Vec K → Vec K
  | 0, v => v
  | n + 1, v =>
    let v := minBoundLoop bound n v
    if v.get n < bound then ⟨v.size, fun i => if i = n then bound else v.get i⟩ else v

/-- math_helper.cpp:41-48 `MinBoundVector` -/
def minBoundVector [LT K] [DecidableLT K] (v : Vec K) (bound : K) : Vec K := minBoundLoop bound v.size v

end EkfCal
