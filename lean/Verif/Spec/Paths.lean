import Verif.Spec.Draws
import Verif.Model.Rng

/-!
# Random decisions and their probabilities

Independent vocabulary for C114.
-/

namespace Verif.Spec

open Verif.Model

/-- A random decision: option `k` was taken among `n` with weights `w`. -/
structure Decision (K : Type*) where
  n : ℕ
  w : Fin n → K
  k : Fin n

variable {K : Type*} [Field K] [LinearOrder K]

/-- A number makes the decision. -/
def Decision.By (d : Decision K) (x : K) : Prop := Chosen d.w x d.k

/-- Weights are not negative and the option has a chance. -/
def Decision.Proper (d : Decision K) : Prop := (∀ i, 0 ≤ d.w i) ∧ 0 < d.w d.k

/-- The part of the total weight that the option has. -/
def Decision.chance (d : Decision K) : K := d.w d.k / ∑ i, d.w i

/-- The start of a parcel in cell `k` of an inlet of `m` cells. -/
def evenly (K : Type*) [One K] {m : ℕ} (k : Fin m) : Decision K := ⟨m, fun _ => 1, k⟩

/-- The generator that gives the numbers of a sequence. -/
def stream : Rng K (ℕ → K) where
  next := fun s => (s 0, fun i => s (i + 1))

end Verif.Spec
