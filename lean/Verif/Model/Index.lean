import Verif.Basic

/-!
# Flat and two-dimensional cell indices

Model of `custom_unravel`, `custom_ravel` (`pyDeltaRCM/shared_tools.py`), the
D8 walk tables of `set_constants` (`pyDeltaRCM/init_tools.py`) and
`_calculate_new_inds` (`pyDeltaRCM/water_tools.py`).
-/

namespace Verif.Model

/-- Errors of the index functions. `zeroDivision` is the Python `ZeroDivisionError`
of `i // 0`. -/
inductive IndexErr
  | outOfBounds
  | zeroDivision
  deriving DecidableEq, Repr

/-- `custom_unravel` (pyDeltaRCM/shared_tools.py 243-288).
The guard compares with `>` exactly as the code does; `//` and `%` are floor
division and floor modulus. 64-bit overflow is not modelled. -/
def customUnravel (i : ℤ) (shape : ℤ × ℤ) : Except IndexErr (ℤ × ℤ) :=
  if i > shape.2 * shape.1 then .error .outOfBounds
  else if shape.2 = 0 then .error .zeroDivision
  else .ok (Int.fdiv i shape.2, Int.fmod i shape.2)

/-- `custom_ravel` (pyDeltaRCM/shared_tools.py 291-334), guard as in the code. -/
def customRavel (tup : ℤ × ℤ) (shape : ℤ × ℤ) : Except IndexErr ℤ :=
  if tup.1 > shape.1 ∨ tup.2 > shape.2 then .error .outOfBounds
  else .ok (tup.1 * shape.2 + tup.2)

/-- `iwalk_flat`, the cross-domain (column) step of each direction
(pyDeltaRCM/init_tools.py 371-373, 382). -/
def iwalk : Fin 9 → ℤ := ![-1, 0, 1, -1, 0, 1, -1, 0, 1]

/-- `jwalk_flat`, the down-domain (row) step of each direction
(pyDeltaRCM/init_tools.py 374-376, 383). -/
def jwalk : Fin 9 → ℤ := ![-1, -1, -1, 0, 0, 0, 1, 1, 1]

/-- `ravel_walk_flat = jwalk * W + iwalk` (pyDeltaRCM/init_tools.py 384-385). -/
def ravelWalk (W : ℤ) (d : Fin 9) : ℤ := jwalk d * W + iwalk d

/-- One parcel of `_calculate_new_inds` (pyDeltaRCM/water_tools.py 827-866):
a parcel that does not move (direction 4) gets index 0. -/
def calcNewInd (W : ℤ) (ind : ℤ) (newd : Fin 9) : ℤ :=
  if newd ≠ 4 then ind + ravelWalk W newd else 0

/-- The vectorised `_calculate_new_inds` (pyDeltaRCM/water_tools.py 827-866). -/
def calcNewInds {n : ℕ} (W : ℤ) (inds : Fin n → ℤ) (newd : Fin n → Fin 9) : Fin n → ℤ :=
  fun p => calcNewInd W (inds p) (newd p)

end Verif.Model
