import Mathlib.Algebra.Order.Field.Basic
import Mathlib.Tactic.Ring

/-!
# Model time and real time

Model of `scale_model_time` and `_scale_factor` (`pyDeltaRCM/shared_tools.py` 522-605) and of
`scale_relative_sea_level_rise_rate` (`pyDeltaRCM/preprocessor.py` 1193-1236).
-/

namespace Verif.Model

/-- What the functions raise. -/
inductive ScaleErr
  /-- ``ValueError("Intermittency `If` is not 0 < If <= 1")`` -/
  | intermittency
  /-- ``ValueError("Bad value for `units`")`` -/
  | units
  /-- `ZeroDivisionError` -/
  | zeroDivision
deriving DecidableEq

variable {K : Type*} [Field K] [LinearOrder K]

/-- `_scale_factor` (pyDeltaRCM/shared_tools.py 580-605) with the constants of lines 14-15. -/
def scaleFactor (If : K) (units : String) : Except ScaleErr K :=
  if units = "seconds" then .ok (If * 1)
  else if units = "days" then .ok (If * 86400)
  else if units = "years" then .ok (If * (86400 * (1461 / 4)))
  else .error .units

/-- `scale_model_time` (pyDeltaRCM/shared_tools.py 522-577). -/
def scaleModelTime (time If : K) (units : String) : Except ScaleErr K :=
  if If ≤ 0 ∨ 1 < If then .error .intermittency
  else
    match scaleFactor If units with
    | .error e => .error e
    | .ok f => .ok (time / f)

/-- `scale_relative_sea_level_rise_rate` (pyDeltaRCM/preprocessor.py 1193-1236). The intermittency is
not checked. -/
def scaleRate (mmyr If : K) : Except ScaleErr K :=
  match scaleFactor If "years" with
  | .error e => .error e
  | .ok f => if f = 0 then .error .zeroDivision else .ok (mmyr / 1000 * (1 / f))

end Verif.Model
