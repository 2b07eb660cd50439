import Verif.Model.Grid

/-!
# Specification: where parcels go

The rules of docs/source/info/hydrodynamics.rst and docs/source/info/morphodynamics.rst: a parcel
chooses a neighbour with a chance proportional to the depth there, and to how much the surface slopes
and the water flows towards it. Directions are numbered row by row, 4 is the cell itself.
-/

namespace Verif.Spec

open Verif.Model

variable {K : Type*} [Field K] [LinearOrder K] {L W : ℕ}

/-- Rows gone down-domain by a step in direction `d`. -/
def stepRow (d : Fin 9) : ℤ := (d.val / 3 : ℕ) - 1

/-- Columns gone to the right by a step in direction `d`. -/
def stepCol (d : Fin 9) : ℤ := (d.val % 3 : ℕ) - 1

/-- Length of a step: 1 along an axis, `s2` (the square root of two) along a diagonal. -/
def stepLen (s2 : K) (d : Fin 9) : K := if stepRow d = 0 ∨ stepCol d = 0 then 1 else s2

/-- The number in `[0, n)` closest to `x`. -/
def closest (n : ℕ) [NeZero n] (x : ℤ) : Fin n :=
  ⟨(max 0 (min x ((n : ℤ) - 1))).toNat, by have := NeZero.pos n; omega⟩

/-- The cell seen in direction `d`: the neighbour, or the cell of the domain closest to it. -/
def seen [NeZero L] [NeZero W] (c : Cell L W) (d : Fin 9) : Cell L W :=
  (closest L ((c.1.val : ℤ) + stepRow d), closest W ((c.2.val : ℤ) + stepCol d))

/-- How steeply the surface falls towards direction `d` (zero if it rises). -/
def fall [NeZero L] [NeZero W] (stage : Grid L W K) (s2 : K) (c : Cell L W) (d : Fin 9) : K :=
  max 0 ((stage c - stage (seen c d)) / stepLen s2 d)

/-- How much of the discharge `(qx, qy)` of the cell goes towards direction `d`: its component along
the unit vector, over the length of the step (zero if it goes away). -/
def pull (qx qy : Grid L W K) (s2 : K) (c : Cell L W) (d : Fin 9) : K :=
  max 0 ((qx c * (stepRow d / stepLen s2 d) + qy c * (stepCol d / stepLen s2 d)) / stepLen s2 d)

/-- The share of direction `d` among the directions `open_`. -/
def share (open_ : Finset (Fin 9)) (f : Fin 9 → K) (d : Fin 9) : K :=
  if d ∈ open_ then f d / ∑ e ∈ open_, f e else 0

/-- `w` chooses evenly among the directions of `A`. -/
def Evenly (w : Fin 9 → K) (A : Finset (Fin 9)) : Prop :=
  ∀ d, w d = if d ∈ A then 1 / (A.card : K) else 0

/-- `w` chooses in proportion to `a`. -/
def Proportional (w a : Fin 9 → K) : Prop := ∀ d, w d = a d / ∑ e, a e

section water

variable [NeZero L] [NeZero W] (depth stage modW : Grid L W K) (cellType : Grid L W ℤ)
  (qx qy : Grid L W K) (s2 dryDepth gamma : K) (pw : K → K)

/-- Directions to a neighbour that is wet and not land. -/
def openWater (c : Cell L W) : Finset (Fin 9) :=
  Finset.univ.filter fun d => d ≠ 4 ∧ dryDepth ≤ depth (seen c d) ∧ cellType (seen c d) ≠ -2

/-- The attraction of direction `d` on water: a mean of surface slope and flow direction, times the
(modified) depth to a power. -/
def attractWater (c : Cell L W) (d : Fin 9) : K :=
  pw (depth (seen c d) * modW (seen c d)) *
    (gamma * share (openWater depth cellType dryDepth c) (fall stage s2 c) d +
      (1 - gamma) * share (openWater depth cellType dryDepth c) (pull qx qy s2 c) d)

end water

/-- The attraction of direction `d` on sediment: the flow towards it times the (modified) depth to a
power, if the cell is wet and not land. `view` is the depth in each direction. -/
def attractSed [NeZero L] [NeZero W] (view : Fin 9 → K) (modS : Grid L W K) (cellType : Grid L W ℤ)
    (qx qy : Grid L W K) (s2 dryDepth : K) (pw : K → K) (c : Cell L W) (d : Fin 9) : K :=
  if d ≠ 4 ∧ dryDepth < view d ∧ cellType (seen c d) ≠ -2 then
    pw (view d * modS (seen c d)) * pull qx qy s2 c d
  else 0

end Verif.Spec
