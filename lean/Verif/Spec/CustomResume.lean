import Verif.Model.CustomResume
import Verif.Spec.Resume
import Verif.Spec.DocClasses

/-!
# Two models of a derived class at the same point

Independent vocabulary for C124.
-/

namespace Verif.Spec

open Verif.Model

variable {K : Type*} {α σ : Type*} {L W m : ℕ}

/-- The same parcel, apart from the part of its record that it has not used. -/
def SameWalk (p p' : WParcel) : Prop :=
  p'.ind = p.ind ∧ p'.flag = p.flag ∧ ∃ (l : List ℤ) (a b : ℕ), p.walk = l ++ List.replicate a 0 ∧ p'.walk = l ++ List.replicate b 0

/-- What is certain to be from this update, and not from before the break: the bed it began with, the present water iteration,
and the records of the sediment. -/
structure Known where
  bed : Bool
  water : Bool
  sediment : Bool

/-- The models `c` and `d` are at the same point: parameters, routers, added attributes, random numbers, all fields that are saved,
and what is known to be from this update. -/
structure Alike (A : Known) (c d : Custom L W m K α σ) : Prop where
  P : d.P = c.P
  R : d.R = c.R
  extra : d.extra = c.extra
  rng : d.rng = c.rng
  fields : SameFields c.S d.S
  record : 0 < c.S.ncols ∧ 0 < d.S.ncols
  steps : 4 ≤ c.P.stepmax
  bed : A.bed = true → d.eta0 = c.eta0
  water : A.water = true → d.flux = c.flux ∧ List.Forall₂ SameWalk c.parcels d.parcels
  sediment : A.sediment = true → d.S.qs = c.S.qs ∧ d.S.depSand = c.S.depSand ∧ d.S.depMud = c.S.depMud

/-- Both raise the same error, or both return what is related. -/
def Together {β : Type*} (Rel : β → β → Prop) (x y : Except Err β) : Prop :=
  (∃ e, x = .error e ∧ y = .error e) ∨ ∃ a b, x = .ok a ∧ y = .ok b ∧ Rel a b

/-- What is known when the hook before a step is called. -/
def knownBefore : Step → Known
  | .routeWater | .initWaterIteration | .routeSediment | .initSedimentIteration => ⟨true, false, false⟩
  | .runWaterIteration | .computeFreeSurface | .finalizeWaterIteration _ => ⟨true, true, false⟩
  | .routeAllSandParcels | .topoDiffusion | .routeAllMudParcels | .computeSandFrac | .applySubsidence | .finalizeTimestep =>
    ⟨true, false, true⟩
  | _ => ⟨false, false, false⟩

/-- What is known when a step has been made. -/
def knownPast : Step → Known
  | .routeWater => ⟨true, false, false⟩
  | .initWaterIteration | .runWaterIteration | .computeFreeSurface | .finalizeWaterIteration _ => ⟨true, true, false⟩
  | _ => ⟨true, false, true⟩

/-- A method treats alike models alike: it uses nothing from before the break that is not saved, and leaves a record of walks and
a number of steps that can be used. -/
def Heeds (A B : Known) (f : Doing L W m K α σ) : Prop := ∀ c d, Alike A c d → Together (Alike B) (f c) (f d)

/-- All hooks and own methods of a class do. -/
structure Resumes (U : UserClass L W m K α σ) : Prop where
  hook : ∀ s, Heeds (knownBefore s) (knownBefore s) (U.hook s)
  after : ∀ s, Heeds (knownPast s) (knownPast s) (U.after s)
  own : ∀ s f, U.own s = some f → Heeds (knownBefore s) (knownPast s) f

/-- Nothing but what is saved. -/
def atBreak : Known := ⟨false, false, false⟩

/-- What is known after an update. -/
def afterUpdate : Known := ⟨true, false, true⟩

/-- A break after `n` of `n + k` updates: the model `c0` is made again and loads the checkpoint. -/
def broken [Field K] [LinearOrder K] [FloorRing K] [NeZero L] [NeZero W] (U : UserClass L W m K α σ) (g : Rng K σ) (n k : ℕ)
    (c0 : Custom L W m K α σ) : Except Err (Custom L W m K α σ) :=
  match customRun U g n c0 with
  | .error e => .error e
  | .ok c => customRun U g k (loadCustom c0 c)

end Verif.Spec
