import Verif.Model.Linear3

/-!
# Model of measurement reduction: `ApplyLeftNullspace` and `CompressMeasurements` of `src/utility/math_helper.cpp`
-/

namespace EkfCal
variable {K : Type} [Field K] [LinearOrder K]

/-- math_helper.cpp:109-116 `ApplyLeftNullspace`: the new Jacobian and residual.  Line 113 takes the bottom *rows* of
the orthogonal factor.  A feature Jacobian with fewer rows than columns gives a negative block size. -/
def applyLeftNullspace (N : Num K) (Hf Hx : Mat K) (res : Vec K) : Res (Mat K × Vec K) := do
  let Q : Mat K := ⟨Hf.rows, Hf.rows, N.hq Hf⟩
  guardUB (Hf.cols ≤ Hf.rows) .outOfRange
  let Qnull ← Q.block Hf.cols 0 (Hf.rows - Hf.cols) Hf.rows
  pure (← Qnull.mul Hx, ← Qnull.mulVec res)

/-- `Eigen::JacobiRotation::makeGivens(p, q)` (Eigen, real case): cosine and sine. -/
def makeGivens (N : Prim K) (p q : K) : K × K :=
  if q = 0 then (if p < 0 then -1 else 1, 0)
  else if p = 0 then (0, if q < 0 then 1 else -1)
  else if |p| > |q| then
    let t := q / p
    let u := N.sqrt (1 + t * t)
    let u := if p < 0 then -u else u
    (1 / u, -t * (1 / u))
  else
    let t := p / q
    let u := N.sqrt (1 + t * t)
    let u := if q < 0 then -u else u
    (-t * (-(1 / u)), -(1 / u))

/-- math_helper.cpp:128-134: one rotation of rows `i - 1` and `i` (`applyOnTheLeft(0, 1, givens.adjoint())`); only the
columns from `j` on are touched -/
def givensStep (N : Prim K) (j i : Nat) (s : Mat K × Vec K) : Mat K × Vec K :=
  let g := makeGivens N (s.1.get (i - 1) j) (s.1.get i j)
  (⟨s.1.rows, s.1.cols, fun a b =>
      if b < j then s.1.get a b
      else if a = i - 1 then g.1 * s.1.get (i - 1) b - g.2 * s.1.get i b
      else if a = i then g.2 * s.1.get (i - 1) b + g.1 * s.1.get i b
      else s.1.get a b⟩,
    ⟨s.2.size, fun a =>
      if a = i - 1 then g.1 * s.2.get (i - 1) - g.2 * s.2.get i
      else if a = i then g.2 * s.2.get (i - 1) + g.1 * s.2.get i
      else s.2.get a⟩)

/-- math_helper.cpp:127: `for (i = m_rows - 1; i > j; --i)`, with `n` rotations left, the last one at row `j + 1` -/
def givensColumn (N : Prim K) (j : Nat) : Nat → Mat K × Vec K → Mat K × Vec K
  | 0, s => s
  | n + 1, s => givensColumn N j n (givensStep N j (j + (n + 1)) s)

/-- math_helper.cpp:126: `for (j = 0; j < n_cols; j++)`, the first `n` columns -/
def givensAll (N : Prim K) : Nat → Mat K × Vec K → Mat K × Vec K
  | 0, s => s
  | n + 1, s => let s' := givensAll N n s; givensColumn N n (s.1.rows - 1 - n) s'

/-- math_helper.cpp:138: number of rows with an entry above `1e-9` in absolute value -/
def countRows (m : Mat K) : Nat :=
  ((List.range m.rows).filter fun i =>
    decide (∃ j ∈ List.range m.cols, 1 / 10 ^ 9 < |m.get i j|)).length

/-- math_helper.cpp:118-144 `CompressMeasurements`: the new Jacobian and residual.  The residual is accessed with
`segment<2>(i - 1)` for rows of the Jacobian. -/
def compressMeasurements (N : Prim K) (jac : Mat K) (res : Vec K) : Res (Mat K × Vec K) :=
  if jac.cols ≤ jac.rows then do
    guardUB (jac.cols = 0 ∨ jac.rows ≤ res.size ∨ jac.rows ≤ 1) .outOfRange
    let s := givensAll N jac.cols (jac, res)
    let rows := countRows s.1
    pure (⟨rows, jac.cols, s.1.get⟩, ⟨rows, s.2.get⟩)
  else pure (jac, res)

end EkfCal
