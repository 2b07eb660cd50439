import Mathlib.Data.Int.Order.Basic
import Mathlib.Algebra.Order.Field.Basic
import Mathlib.Order.Monotone.Basic
import Verif.Model.Region

/-!
# The region of the documentation, in whole numbers
-/

namespace Verif.Spec

open Verif.Model

/-- Cell `(i, j)` of a domain of `L` rows and `W` columns, whose basin begins at row `L0`, is in the region: in the
basin; in the left half, with the middle; not more than 60 degrees to the left of the direction of the flow as seen from
the middle of the row before the basin (`(W / 2 - j) / (i - L0 + 1) ≤ √3`); and between 0.3 and 0.8 times the length of the
domain away from the middle of the first row of the basin. -/
def InRegion (L W : ℕ) (L0 : ℤ) (i j : ℕ) : Prop :=
  L0 ≤ i ∧ 2 * (j : ℤ) ≤ W ∧ ((W : ℤ) - 2 * j) ^ 2 ≤ 12 * (i - L0 + 1) ^ 2 ∧
    9 * (L : ℤ) ^ 2 ≤ 25 * (4 * (i - L0) ^ 2 + (2 * j - W) ^ 2) ∧
    25 * (4 * (i - L0) ^ 2 + (2 * j - W) ^ 2) ≤ 64 * (L : ℤ) ^ 2

instance (L W : ℕ) (L0 : ℤ) (i j : ℕ) : Decidable (InRegion L W L0 i j) := by unfold InRegion; infer_instance

variable {K : Type*} [Field K] [LinearOrder K]

/-- What is used of square root, arctangent and π. -/
structure AnglesOk (A : Angles K) : Prop where
  sqrt : ∀ x, 0 ≤ x → 0 ≤ A.sqrt x ∧ A.sqrt x * A.sqrt x = x
  mono : StrictMono A.atan
  zero : A.atan 0 = 0
  third : A.atan (A.sqrt 3) = A.pi / 3
  odd : ∀ x, A.atan (-x) = -A.atan x

end Verif.Spec
