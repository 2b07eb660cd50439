import Verif.Model.State
import Verif.Model.Setup
import Verif.Spec.Sediment

/-!
# How deep the bed can be scoured
-/

namespace Verif.Spec

open Verif.Model

variable {K : Type*} [Field K] [LinearOrder K] {L W m : ℕ}

/-- The bed is nowhere below `lo`. -/
def NotBelow (lo : K) (S : State L W K) : Prop := ∀ c, lo ≤ S.eta c

/-- What the length of a vector has to do with its components. -/
structure IsLength (nrm : K → K → K) : Prop where
  nonneg : ∀ x y, 0 ≤ nrm x y
  scale : ∀ a x y, 0 ≤ a → nrm (a * x) (a * y) = a * nrm x y
  triangle : ∀ x y x' y', nrm (x + x') (y + y') ≤ nrm x y + nrm x' y'

/-- No cell carries more water than this: the discharge of the inlet, or that of all parcels, each of
which passes at most three times with half its discharge in each of its steps. -/
def mostDischarge (P : Params L W m K) : K :=
  max P.qw0 (P.QpWater / P.dx / 2 * (1 + 3 * (P.NpWater * P.stepmax)))

/-- No flow slower than this takes sediment from the bed. -/
def slowestErosion (P : Params L W m K) : K := min P.UeroSand P.UeroMud

/-- Diffusion with the coefficient `mult` moves the bed of a cell in one pass by at most the share `lam`
of the way to a common level of its neighbours. -/
def MovesShare (lam : K) (mult : K) (qs : Grid L W K) (near : Cell L W → Finset (Cell L W)) : Prop :=
  ∀ c, mult * (∑ n ∈ near c, (qs c + qs n) + (8 - ((near c).card : K)) * qs c) ≤ lam

/-- The depth of water below which the bed is not scoured, if no cell carries more than `Q` and flows slower
than `U` take nothing. In water deeper than `Q / U` the flow is slower than `U`; a parcel takes at most a
quarter of the depth; and `keep` is the share of its old height that a bed keeps in the diffusion of a
timestep, 1 without diffusion. -/
def scourDepth (Q U keep : K) : K := 5 * keep / (5 * keep - 1) * (Q / U)

/-- The coefficients of the under-relaxation of the flow in their documented range. -/
structure RelaxedFlow (P : Params L W m K) : Prop where
  len : IsLength P.nrm
  first0 : 0 ≤ P.omegaFlow
  first1 : P.omegaFlow ≤ 1
  iter0 : 0 ≤ P.omegaFlowIter
  /-- the first iteration of a timestep does not use it -/
  iter1 : 1 < P.itermax → P.omegaFlowIter ≤ 1
  parcel : 0 ≤ P.QpWater

/-- The depth of the inlet channel or of the basin, whichever is deeper. -/
def deepest (I : Input K) : K := max I.h0 (I.hb.getD I.h0)

end Verif.Spec
