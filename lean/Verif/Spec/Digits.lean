import Verif.Spec.Csv
import Mathlib.Algebra.Order.Field.Basic

/-!
# Specification: numbers printed with a number of significant digits
-/

namespace EkfCal

/-- `y` is `x` rounded to `p` significant decimal digits; which way a tie goes is left open. -/
def Rounds {K : Type} [Field K] [LinearOrder K] (p : Nat) (x y : K) : Prop :=
  (x = 0 ∧ y = 0) ∨ ∃ e n : ℤ, (10 : K) ^ e ≤ |x| ∧ |x| < (10 : K) ^ (e + 1) ∧ y = n * (10 : K) ^ (e + 1 - p) ∧
    |y - x| ≤ (10 : K) ^ (e + 1 - p) / 2

/-- What `operator<<` writes with precision `p` reads back as the number rounded to `p` significant digits. -/
def Printer.Digits {K : Type} [Field K] [LinearOrder K] (P : Printer K) (read : String → Option K) : Prop :=
  ∀ (p : Nat) (x : K), 0 < p → ∃ y, read (P.num p x) = some y ∧ Rounds p x y

/-- The text before the first comma of a line. -/
def firstField (line : String) : String := String.ofList (line.toList.takeWhile (· ≠ ','))

/-- The time that a row of a log says. -/
def rowTime {K : Type} (read : String → Option K) (row : String) : Option K := read (firstField row)

end EkfCal
