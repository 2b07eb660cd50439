import Verif.Model.Blobs
import Verif.Spec.DocClasses

/-!
# What the class that adds blobs is said to do

Independent vocabulary for C122.
-/

namespace Verif.Spec

open Verif.Model

variable {K : Type*} [Field K] [LinearOrder K] {σ : Type*} {L W : ℕ}

/-- Numbers from zero on, less than one. -/
def UnitDraws (g : Rng K σ) : Prop := ∀ s, 0 ≤ (g.next s).1 ∧ (g.next s).1 < 1

/-- A patch of `p` cells of `n` cells begins at `r`, if the random number is `u`. -/
def Begins (u : K) (n p r : ℕ) : Prop := (r : K) ≤ u * ((n : K) - p) ∧ u * ((n : K) - p) < r + 1

/-- The cell belongs to the square patch whose first cell is `(r, q)`. -/
def InPatch (p r q : ℕ) (a : Cell L W) : Prop := r ≤ a.1.val ∧ a.1.val < r + p ∧ q ≤ a.2.val ∧ a.2.val < q + p

instance (p r q : ℕ) (a : Cell L W) : Decidable (InPatch p r q a) := by unfold InPatch; infer_instance

/-- What a heap `b` with its first cell at `(r, q)` adds to the bed of a cell. -/
def heapAt (b : ℕ → ℕ → K) (p r q : ℕ) (a : Cell L W) : K :=
  if InPatch p r q a then b (a.1.val - r) (a.2.val - q) else 0

/-- The number of the first `n` timesteps from `t` on, of length `dt`, that begin at `start` or later. -/
def lateSteps (start t dt : K) (n : ℕ) : ℕ := ((Finset.range n).filter fun k : ℕ => start ≤ t + k * dt).card

end Verif.Spec
