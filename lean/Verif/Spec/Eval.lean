import Verif.Model.Eval
import Mathlib.Algebra.BigOperators.Group.Finset.Basic
import Mathlib.Algebra.BigOperators.Fin

/-!
# What a recorded quantity and its root mean square error are
-/

namespace EkfCal.Eval

/-- `v` is the value at `τ` of the quantity recorded as `xs` at `times`: the first or last value outside of them, and on the
line through the two neighbours between them. -/
def RecordedAt (times xs : List ℝ) (τ v : ℝ) : Prop :=
  (∃ t, times[0]? = some t ∧ τ < t ∧ xs[0]? = some v) ∨
  (∃ t, times.getLast? = some t ∧ t ≤ τ ∧ xs.getLast? = some v) ∨
  ∃ j t0 t1 x0 x1, times[j]? = some t0 ∧ times[j + 1]? = some t1 ∧ xs[j]? = some x0 ∧ xs[j + 1]? = some x1 ∧
    t0 ≤ τ ∧ τ < t1 ∧ (t1 - t0) * (v - x0) = (τ - t0) * (x1 - x0)

/-- The table has the column. -/
def Frame.Has (f : Frame) (name : String) (c : List ℝ) : Prop := f.cols.lookup name = some c

/-- `r` is the root of the mean, over the estimates, of the squared distance of the estimated vector from the recorded true one. -/
def IsRmse (truthT : List ℝ) (truthX : Fin 3 → List ℝ) (estT : List ℝ) (estX : Fin 3 → List ℝ) (r : ℝ) : Prop :=
  ∃ v : Fin 3 → Nat → ℝ,
    (∀ i k τ, estT[k]? = some τ → RecordedAt truthT (truthX i) τ (v i k)) ∧ 0 ≤ r ∧
    r ^ 2 * estT.length = ∑ k ∈ Finset.range estT.length, ∑ i : Fin 3, ((estX i).getD k 0 - v i k) ^ 2

/-- A table with three columns of a quantity beside the column of times, all of one length. -/
structure Frame.Gives (f : Frame) (name : Fin 3 → String) (t : List ℝ) (x : Fin 3 → List ℝ) : Prop where
  time : f.Has "time" t
  value : ∀ i, f.Has (name i) (x i)
  length : ∀ i, (x i).length = t.length

/-- `r` is the root mean square error of a run: of the columns of one table against those of another. -/
def RmseOf (truthName estName : Fin 3 → String) (est truth : Frame) (r : ℝ) : Prop :=
  ∃ tt tx et ex, truth.Gives truthName tt tx ∧ est.Gives estName et ex ∧ IsRmse tt tx et ex r

/-- A usable pair of tables: truth at increasing times, and at least one estimate. -/
def Usable (truthName estName : Fin 3 → String) (est truth : Frame) : Prop :=
  ∃ tt tx et ex, truth.Gives truthName tt tx ∧ est.Gives estName et ex ∧ tt.Pairwise (· < ·) ∧ tt ≠ [] ∧ et ≠ []

/-- The directory of a run that has the file of its estimate and that of its truth, and no second file for the body. -/
structure Complete (d : Dir) (estFile : String) (est truth : Frame) : Prop where
  est : d.lookup estFile = some est
  truth : d.lookup "body_truth.csv" = some truth
  single : d.lookup "body_truth_0.csv" = none
  single' : d.lookup "body_state_0.csv" = none

end EkfCal.Eval
