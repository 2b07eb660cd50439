import Verif.Model.Round
import Mathlib.Data.Int.Log
import Mathlib.Algebra.Order.Floor.Ring

/-!
# Rounded arithmetic

The other parts of the model compute exactly. Python computes with numbers of 53 binary digits, and the
fields of the model and of the sediment routers have 24 (pyDeltaRCM/init_tools.py 495-515,
pyDeltaRCM/sed_tools.py 315-360). Here an operation is the exact one followed by rounding.
-/

namespace Verif.Model

/-- A way of rounding: it keeps the order and the sign, leaves rounded numbers alone, and has a
relative error of at most `u`. Overflow and numbers too small for the exponent are left out. -/
structure Rounding (K : Type*) [Field K] [LinearOrder K] where
  fl : K → K
  u : K
  u_nonneg : 0 ≤ u
  u_half : u ≤ 1 / 2
  mono : Monotone fl
  idem : ∀ x, fl (fl x) = fl x
  neg : ∀ x, fl (-x) = -fl x
  err : ∀ x, |fl x - x| ≤ u * |x|

variable {K : Type*} [Field K] [LinearOrder K] [IsStrictOrderedRing K] [FloorRing K]

/-- The nearest number with `p` binary digits, ties to the even one (IEEE 754, round to nearest). -/
def nearest (p : ℕ) (x : K) : K :=
  (roundHalfEven (x / 2 ^ (Int.log 2 |x| + 1 - p)) : K) * 2 ^ (Int.log 2 |x| + 1 - p)

end Verif.Model
