import Mathlib.Order.Lattice
import Mathlib.Logic.Function.Basic

/-!
# Stratigraphic preprocessing

Model of lines 20-25 of `strat_preprocess.py`: the surfaces that are preserved. The drawing of the
section (lines 28-51) is not modelled.
-/

namespace Verif.Model

variable {X α : Type*} [LinearOrder α]

/-- The loop `for i in range(1, dz)` (strat_preprocess.py 24-25), from `i` on, `fuel` turns. The index
`-i-1` of an axis of length `dz` is `dz-i-1`. A surface is a function of the cell. -/
def strataLoop (dz : ℕ) (depth : ℕ → X → α) : ℕ → ℕ → (ℕ → X → α) → ℕ → X → α
  | 0, _, strata => strata
  | fuel + 1, i, strata =>
    strataLoop dz depth fuel (i + 1)
      (Function.update strata (dz - i - 1) (fun c => min (depth (dz - i - 1) c) (strata (dz - i) c)))

/-- `strata` (strat_preprocess.py 21-25) for `dz` saved surfaces; `zero` fills the new array. Without
any surface the index `-1` is out of range. -/
def preserved (zero : α) (dz : ℕ) (depth : ℕ → X → α) : Option (ℕ → X → α) :=
  if dz = 0 then none
  else some (strataLoop dz depth (dz - 1) 1
    (Function.update (fun _ _ => zero) (dz - 1) (depth (dz - 1))))

end Verif.Model
