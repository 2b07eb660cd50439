import Mathlib.Data.Fintype.Basic
import Mathlib.Algebra.BigOperators.Fin
import Mathlib.Algebra.BigOperators.Group.Finset.Basic
import Mathlib.Algebra.Order.Field.Basic

/-!
# Specification: random decisions

Each random decision takes the next number of one sequence. A weighted choice divides the interval of
numbers in proportion to the weights, in their order.
-/

namespace Verif.Spec

variable {K : Type*} {σ : Type*}

/-- The decisions `ps`, each a condition on a number, are met one after the other by the numbers that
`next` gives from state `s` on; `s'` is the state after the last. -/
inductive Uses (next : σ → K × σ) : σ → List (K → Prop) → σ → Prop
  | done (s : σ) : Uses next s [] s
  | step {s : σ} {p : K → Prop} {ps : List (K → Prop)} {s' : σ} (h : p (next s).1)
      (hs : Uses next (next s).2 ps s') : Uses next s (p :: ps) s'

/-- Number `x` in `[0, 1]` chooses `k` among weights `w`: as a part of the total, `x` lies above the
weights before `k` and not above the weights up to `k`. (The number 0 chooses the first.) -/
def Chosen [Field K] [LinearOrder K] {n : ℕ} (w : Fin n → K) (x : K) (k : Fin n) : Prop :=
  (k.val = 0 ∨ ∑ i with i < k, w i < x * ∑ i, w i) ∧ x * ∑ i, w i ≤ ∑ i with i ≤ k, w i

end Verif.Spec
