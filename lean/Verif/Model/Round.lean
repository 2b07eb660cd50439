import Verif.Basic

/-!
# Rounding and truncation
-/

namespace Verif.Model

variable {K : Type*} [Field K] [LinearOrder K] [FloorRing K]

/-- `np.round` and Python's `round` to an integer: nearest integer, ties to the even one. -/
def roundHalfEven (x : K) : ℤ :=
  let f := ⌊x⌋
  let r := x - f
  if r < 1 / 2 then f
  else if 1 / 2 < r then f + 1
  else if f % 2 = 0 then f else f + 1

/-- Python's `int(x)` of a float: truncation towards zero. -/
def truncInt (x : K) : ℤ := if 0 ≤ x then ⌊x⌋ else ⌈x⌉

end Verif.Model
