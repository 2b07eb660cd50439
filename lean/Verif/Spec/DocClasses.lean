import Verif.Model.DocClasses
import Verif.Spec.Custom

/-!
# What the classes of the documentation are said to do

Independent vocabulary for C116.
-/

namespace Verif.Spec

open Verif.Model

variable {K : Type*} [Field K] [LinearOrder K] {α σ : Type*} {L W m : ℕ}

/-- In the last `n` of a number of depths, the oldest first, the cell was dry. -/
def DryFor (dryDepth : K) (ds : List (Grid L W K)) (n : ℕ) (x : Cell L W) : Prop :=
  n ≤ ds.length ∧ ∀ d ∈ ds.drop (ds.length - n), d x < dryDepth

/-- The number that a generator gives after `i` others. -/
def numberAt (g : Rng K σ) (s : σ) (i : ℕ) : K := (g.next ((fun s => (g.next s).2)^[i] s)).1

/-- A model without its added attributes. -/
def stripped (c : Custom L W m K α σ) : Custom L W m K Unit σ := { c with extra := () }

/-- As long as the added attributes satisfy `A`, `f` does what `f0` does but for the added attributes, and these still
satisfy `A`. -/
def MimicsOn (A : α → Prop) (f : Doing L W m K α σ) (f0 : Doing L W m K Unit σ) : Prop :=
  ∀ c, A c.extra → (f c).map stripped = f0 (stripped c) ∧ ∀ c', f c = .ok c' → A c'.extra

/-- The bed load fraction that the documentation describes: mirrored from `t1` to `t2`. -/
def bedloadAt (t1 t2 f t : K) : K := if t ≤ t1 then f else if t ≤ t2 then 1 - f else f

section

variable [FloorRing K] [NeZero L] [NeZero W]

/-- The methods of `DeltaModel`. -/
def methodOf (g : Rng K σ) : Step → Doing L W m K Unit σ
  | .initWaterIteration => initWaterAct
  | .runWaterIteration => runWaterAct g
  | .computeFreeSurface => freeSurfaceAct
  | .finalizeWaterIteration i => finalizeWaterAct i
  | .initSedimentIteration => initSedimentAct
  | .routeAllSandParcels => routeParcelsAct g .sand
  | .topoDiffusion => diffusionAct
  | .routeAllMudParcels => routeParcelsAct g .mud
  | .computeSandFrac => sandFracAct
  | .applySubsidence => subsidenceAct
  | .routeWater => routeWaterAct plainClass g
  | .routeSediment => routeSedimentAct plainClass g
  | .finalizeTimestep => finalizeAct plainClass
  | .solveWaterAndSediment => solveAct plainClass g
  | _ => .ok

/-- A class that leaves everything as it is, as long as its added attributes satisfy `A`: its hooks change only these, and
its own methods do what the methods of `DeltaModel` do. -/
structure Transparent (A : α → Prop) (U : UserClass L W m K α σ) (g : Rng K σ) : Prop where
  hook : ∀ s, MimicsOn A (U.hook s) .ok
  after : ∀ s, MimicsOn A (U.after s) .ok
  own : ∀ s f, U.own s = some f → MimicsOn A f (methodOf g s)

/-- `TreeThrowModel` without its hook. -/
def hookless (g : Rng K σ) : UserClass L W m K (Trees L W K) σ := { treeClass g with after := fun _ => .ok }

end

end Verif.Spec
