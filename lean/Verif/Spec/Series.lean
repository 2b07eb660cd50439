import Mathlib.Algebra.Order.Field.Basic
import Mathlib.Data.List.Basic

/-!
# Values of a series

Independent vocabulary for C117.
-/

namespace Verif.Spec

variable {K : Type*} [Field K] [LinearOrder K]

/-- At the time `t` a series of points (time, value) has the value `v`: `t` is not after the first point and `v` its value, or
not before the last one and `v` its value, or `(t, v)` lies on the line between two consecutive points. -/
def OnSeries (tbl : List (K × K)) (t v : K) : Prop :=
  (∃ p ∈ tbl.head?, t ≤ p.1 ∧ v = p.2) ∨ (∃ p ∈ tbl.getLast?, p.1 ≤ t ∧ v = p.2) ∨
    ∃ (i : ℕ) (p q : K × K), tbl[i]? = some p ∧ tbl[i + 1]? = some q ∧ p.1 ≤ t ∧ t ≤ q.1 ∧
      (v - p.2) * (q.1 - p.1) = (q.2 - p.2) * (t - p.1)

end Verif.Spec
