import Verif.Model.Float

/-!
# A clock that rounds
-/

namespace Verif.Spec

open Verif.Model

variable {K : Type*} [Field K] [LinearOrder K]

/-- What a clock shows after `n` times adding `dt`, if it shows `t` at first. -/
def ticks (R : Rounding K) (dt t : K) : ℕ → K
  | 0 => t
  | n + 1 => R.fl (ticks R dt t n + dt)

/-- `m` is the number of additions after which a clock that starts at zero reaches `d`. -/
def Reaches (R : Rounding K) (dt d : K) (m : ℕ) : Prop :=
  0 < m ∧ d ≤ ticks R dt 0 m ∧ ∀ k, 0 < k → k < m → ticks R dt 0 k < d

end Verif.Spec
