import Verif.Spec.Local
import Verif.Model.Float

/-!
# Specification: a bed that does nothing but subside, in rounded arithmetic
-/

namespace Verif.Spec

open Verif.Model

variable {K : Type*} [Field K] [LinearOrder K] {L W m : ℕ}

/-- The bed `x` of a cell after a timestep that began at `time` and did nothing but subside: it is lowered by the rate
of the cell, once rounded as a double and once as a number of the field; it stays as it is if there is no subsidence. -/
def sunk (F D : Rounding K) (P : Params L W m K) (time : K) (c : Cell L W) (x : K) : K :=
  if P.toggleSub = true ∧ P.startSub ≤ time then F.fl (D.fl (x - P.sigma c)) else x

end Verif.Spec
