import Verif.Model.State
import Verif.Spec.Sediment

/-!
# Bounds of elevations
-/

namespace Verif.Spec

open Verif.Model

variable {K : Type*} [Field K] [LinearOrder K] {L W m : ℕ}

/-- Bed, water surface and top of the water column are nowhere above `hi`. -/
def AtMost (hi : K) (S : State L W K) : Prop :=
  ∀ c, S.eta c ≤ hi ∧ S.stage c ≤ hi ∧ S.eta c + S.depth c ≤ hi

/-- The components of the velocity do not exceed the speed. -/
def FlowVector (S : State L W K) : Prop := ∀ c, |S.ux c| ≤ S.uw c ∧ |S.uy c| ≤ S.uw c

/-- How far above the sea the way of a parcel can begin: the reference slope along `stepmax` steps, none
longer than the domain is long and wide. -/
def reach (P : Params L W m K) : K := P.stepmax * (P.S0 * P.dx * ((L : K) + W))

/-- Settings in the documented ranges, as far as the bound depends on them. -/
structure GentleSetup (P : Params L W m K) : Prop where
  slope : 0 ≤ P.S0
  omega0 : 0 ≤ P.omegaSfc
  omega1 : P.omegaSfc ≤ 1
  smooth0 : 0 ≤ P.Csmooth
  smooth1 : P.Csmooth ≤ 1
  nrmX : ∀ x y, |x| ≤ P.nrm x y
  nrmY : ∀ x y, |y| ≤ P.nrm x y
  sinks : ∀ c, 0 ≤ P.sigma c
  diffusion : 0 ≤ P.diffMult

end Verif.Spec
