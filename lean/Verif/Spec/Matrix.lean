import Verif.Model.Base

/-! # Specification: positions after inserting rows or columns -/

namespace EkfCal

/-- Position, after `n` rows (or columns) have been inserted at `at_`, of the row (or column) that was at `i`. -/
def shiftUp (at_ n i : Nat) : Nat := if i < at_ then i else i + n

end EkfCal
