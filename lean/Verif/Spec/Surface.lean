import Verif.Spec.FreeSurface

/-!
# Specification of smoothing
-/

namespace Verif.Spec

open Verif.Model Verif.Props

variable {K : Type*} [Field K] [LinearOrder K] {L W : ℕ}

/-- `f d` is the domain cell nearest to the neighbour of `c` in direction `d` (the neighbour itself
if it is inside). -/
def NearestNeighbours (c : Cell L W) (f : Fin 9 → Cell L W) : Prop :=
  ∀ d, ((f d).1.val : ℤ) = nearest L (c.1.val + rowOff d) ∧
    ((f d).2.val : ℤ) = nearest W (c.2.val + colOff d)

/-- One smoothing pass: edge cells keep their value; other cells get the weighted mean of their
value and the average over the neighbours that are not land (outside of the domain, the nearest
cell counts), or keep their value if there is none. -/
def SmoothedOnce (ct : Grid L W ℤ) (C : K) (H H' : Grid L W K) : Prop :=
  ∀ c, (ct c = -1 → H' c = H c) ∧
    (ct c ≠ -1 → ∀ f, NearestNeighbours c f → ∀ N : Finset (Fin 9),
      (∀ d, d ∈ N ↔ d ≠ 4 ∧ ct (f d) ≠ -2) →
      (N = ∅ → H' c = H c) ∧
      (N ≠ ∅ → H' c = C * H c + (1 - C) * ((∑ d ∈ N, H (f d)) / (N.card : K))))

/-- `n` smoothing passes. -/
inductive Smoothed (ct : Grid L W ℤ) (C : K) : ℕ → Grid L W K → Grid L W K → Prop
  | zero (H) : Smoothed ct C 0 H H
  | succ {n H H1 H2} : SmoothedOnce ct C H H1 → Smoothed ct C n H1 H2 → Smoothed ct C (n + 1) H H2

end Verif.Spec
