import Verif.Model.Sediment

/-!
# Specification vocabulary for sediment routing
-/

namespace Verif.Spec

open Verif.Model

variable {K : Type*} [Field K] [LinearOrder K] {L W m : ℕ}

/-- Coefficients as the model sets them up: positive spacing, timestep and thresholds, parcel volume
and erosion factors not negative, `lam` (sed_lag) in [0, 1], and a power function `x ** beta` that is
increasing and positive. -/
structure SedSetup (P : Params L W m K) : Prop where
  dx : 0 < P.dx
  dt : 0 < P.dt
  vp : 0 ≤ P.VpSed
  mod : ∀ c, 0 ≤ P.modErosion c
  lam0 : 0 ≤ P.lam
  lam1 : P.lam ≤ 1
  pwNonneg : ∀ x, 0 ≤ x → 0 ≤ P.pwBeta x
  pwPos : ∀ x, 0 < x → 0 < P.pwBeta x
  pwMono : ∀ x y, 0 ≤ x → x ≤ y → P.pwBeta x ≤ P.pwBeta y
  eroSand : 0 < P.UeroSand
  eroMud : 0 < P.UeroMud
  depMud : 0 < P.UdepMud
  uMax : 0 ≤ P.uMax
  s2 : 0 < P.s2

/-- Flow fields as they are after the water routing (C20, C21). -/
def FlowOk (P : Params L W m K) (S : State L W K) : Prop :=
  ∀ c, 0 ≤ S.uw c ∧ S.uw c ≤ P.uMax ∧ 0 ≤ S.qw c

/-- Total volume of the bed. -/
def bedVolume (dx : K) (S : State L W K) : K := ∑ c, S.eta c * (dx * dx)

/-- The volume deposited in a cell by the steps of the parcels (erosion not counted). -/
def deposited (logs : List (SedLog L W K)) (c : Cell L W) : K :=
  ((logs.flatMap (·.steps)).map (fun r => if r.cell = c ∧ 0 < r.change then r.change else 0)).sum

/-- Row and column of a cell. -/
def coords (c : Cell L W) : ℤ × ℤ := (c.1.val, c.2.val)

/-- Neither edge nor land. -/
def ActiveCell (P : Params L W m K) (c : Cell L W) : Prop := P.cellType c ≠ -1 ∧ P.cellType c ≠ -2

/-- The layout of the domain as seen by sediment parcels: active cells are not in the last row nor in
the first or last column, the last row is edge, no land lies downstream of an active cell, the inlet
is active. Coefficients are in their ranges. -/
structure SedDomain [NeZero L] (P : Params L W m K) : Prop where
  hL : 3 ≤ L
  active : ∀ c : Cell L W, ActiveCell P c → c.1.val + 1 < L ∧ 0 < c.2.val ∧ c.2.val + 1 < W
  last : ∀ c : Cell L W, c.1.val + 1 = L → P.cellType c = -1
  below : ∀ c n : Cell L W, ActiveCell P c → n.1.val = c.1.val + 1 → n.2 = c.2 → P.cellType n ≠ -2
  inlet : ∀ k, ActiveCell P (0, P.inlet k)
  hm : 0 < m
  steps : 1 ≤ P.stepmax
  s2 : 0 < P.s2
  pw : ∀ k x, 0 ≤ x → 0 ≤ P.pwSed k x
  mod : ∀ c, 0 ≤ P.modSed c

end Verif.Spec
