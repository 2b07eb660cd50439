import Verif.Basic

/-!
# Errors raised by the code
-/

namespace Verif.Model

/-- Exceptions raised while the model runs. The message text is not modelled; each
constructor names the `raise` statement or the built-in failure. -/
inductive Err
  /-- `RuntimeError("No non-wall cells surrounding cell...")` (water_tools.py 692-695) -/
  | waterNoNonWall
  /-- `RuntimeError("Water sum(weight) less than 0...")` (water_tools.py 700) -/
  | waterNegativeSum
  /-- `RuntimeError("No weights encountered in sediment weighting...")` (sed_tools.py 303-306) -/
  | sedNoWeights
  /-- out-of-range array access -/
  | index
  /-- `UnboundLocalError`: a local variable is read before it is assigned -/
  | unbound
  /-- the loop does not end -/
  | diverge
  deriving DecidableEq, Repr

/-- What a call of `update`, `finalize` or of the constructor with `resume_checkpoint` may raise. -/
inductive CallErr
  /-- `RuntimeError` in `update` / `finalize` of a finalized model (model.py 188-189, 233-234) -/
  | finalized
  /-- `OverflowError` of `int(inf)` (init_tools.py 892) -/
  | overflow
  /-- raised inside the timestep -/
  | inner (e : Err)
  deriving DecidableEq, Repr

end Verif.Model
