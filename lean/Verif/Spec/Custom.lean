import Verif.Model.Custom

/-!
# What the hooks and own methods of a derived class may do
-/

namespace Verif.Spec

open Verif.Model

variable {K : Type*} {α σ : Type*} {L W m : ℕ}

/-- It changes nothing but the attributes that the class has added, and raises no error. -/
def Quiet (f : Doing L W m K α σ) : Prop := ∀ c, ∃ a, f c = .ok { c with extra := a }

/-- Whenever it raises no error, it takes what satisfies `A` to what satisfies `A`. -/
def Keeps (A : Custom L W m K α σ → Prop) (f : Doing L W m K α σ) : Prop := ∀ c c', A c → f c = .ok c' → A c'

/-- It takes what satisfies `A` to what satisfies `A`, without error. -/
def Serves (A : Custom L W m K α σ → Prop) (f : Doing L W m K α σ) : Prop := ∀ c, A c → ∃ c', f c = .ok c' ∧ A c'

/-- All hooks and own methods of a class do. -/
structure All (F : Doing L W m K α σ → Prop) (U : UserClass L W m K α σ) : Prop where
  hook : ∀ s, F (U.hook s)
  after : ∀ s, F (U.after s)
  own : ∀ s f, U.own s = some f → F f

/-- The fields a model shows. -/
def shown (c : Custom L W m K α σ) : Params L W m K × Params L W m K × State L W K × σ := (c.P, c.R, c.S, c.rng)

/-- A model that adds a list of events to its attributes at every hook, and does nothing else. -/
def recorder : UserClass L W m K (List Ev) σ :=
  ⟨fun s c => .ok { c with extra := c.extra ++ [.hook s] }, fun s c => .ok { c with extra := c.extra ++ [.hookAfter s] },
    fun _ => none⟩

/-- Makes a note of a call. -/
def note (e : Ev) : Doing L W m K (List Ev) σ := fun c => .ok { c with extra := c.extra ++ [e] }

/-- An own version of a method that makes a note, calls the method of `DeltaModel` (`super().method()`), and makes a note. -/
def traced (s : Step) (body : Doing L W m K (List Ev) σ) : Option (Doing L W m K (List Ev) σ) :=
  some (Doing.andThen (note (.enter s)) (Doing.andThen body (note (.exit s))))

section

variable [Field K] [LinearOrder K] [FloorRing K] [NeZero L] [NeZero W]

/-- A class with such versions of the methods that call no other with a hook. -/
def tracer1 (g : Rng K σ) : UserClass L W m K (List Ev) σ :=
  ⟨fun s => note (.hook s), fun s => note (.hookAfter s), fun s => match s with
    | .initWaterIteration => traced .initWaterIteration initWaterAct
    | .runWaterIteration => traced .runWaterIteration (runWaterAct g)
    | .computeFreeSurface => traced .computeFreeSurface freeSurfaceAct
    | .finalizeWaterIteration i => traced (.finalizeWaterIteration i) (finalizeWaterAct i)
    | .initSedimentIteration => traced .initSedimentIteration initSedimentAct
    | .routeAllSandParcels => traced .routeAllSandParcels (routeParcelsAct g .sand)
    | .topoDiffusion => traced .topoDiffusion diffusionAct
    | .routeAllMudParcels => traced .routeAllMudParcels (routeParcelsAct g .mud)
    | .computeSandFrac => traced .computeSandFrac sandFracAct
    | .applySubsidence => traced .applySubsidence subsidenceAct
    | _ => none⟩

/-- Derived from this, with such versions of the methods that call those. -/
def tracer2 (g : Rng K σ) : UserClass L W m K (List Ev) σ :=
  { tracer1 g with own := fun s => match s with
    | .routeWater => traced .routeWater (routeWaterAct (tracer1 g) g)
    | .routeSediment => traced .routeSediment (routeSedimentAct (tracer1 g) g)
    | .finalizeTimestep => traced .finalizeTimestep (finalizeAct (tracer1 g))
    | s => (tracer1 g).own s }

/-- Derived from this, with such a version of `solve_water_and_sediment_timestep`. -/
def tracer (g : Rng K σ) : UserClass L W m K (List Ev) σ :=
  { tracer2 g with own := fun s => match s with
    | .solveWaterAndSediment => traced .solveWaterAndSediment (solveAct (tracer2 g) g)
    | s => (tracer2 g).own s }

end

/-- Two models with the same parameters, bed, water surface, depths and sea level. -/
structure SameSurface (c d : Custom L W m K α σ) : Prop where
  P : d.P = c.P
  eta : d.S.eta = c.S.eta
  stage : d.S.stage = c.S.stage
  depth : d.S.depth = c.S.depth
  HSL : d.S.HSL = c.S.HSL

/-- Bed, depth and water surface fit together, as the documentation of outputs has it: the depth is what is between bed and
surface, at the inlet it is the given depth, and the surface is nowhere below the sea level `H`. -/
structure Fitting (P : Params L W m K) [NeZero L] [Zero K] [Sub K] [Max K] [LE K] (S : State L W K) (H : K) : Prop where
  depth : ∀ x : Cell L W, (∀ k, x ≠ (0, P.inlet k)) → S.depth x = max (S.stage x - S.eta x) 0
  inlet : ∀ k, S.depth (0, P.inlet k) = P.h0 ∧ S.eta (0, P.inlet k) = S.stage (0, P.inlet k) - P.h0
  sea : ∀ x, H ≤ S.stage x

/-- The class without what it does before solving. -/
def withoutSolveHook (U : UserClass L W m K α σ) : UserClass L W m K α σ :=
  { U with hook := fun s => match s with
    | .solveWaterAndSediment => .ok
    | s => U.hook s }

/-- Calls of hooks. -/
def isHook : Ev → Bool
  | .hook _ => true
  | .hookAfter _ => true
  | _ => false

end Verif.Spec
