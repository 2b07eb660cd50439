import Verif.Model.Calls

/-!
# What calls of methods one by one are said to do

Independent vocabulary for C123.
-/

namespace Verif.Spec

open Verif.Model

variable {K : Type*} {α σ : Type*} {L W m : ℕ}

/-- The present name of a method. -/
def presentName : MethodCall → MethodCall
  | .runOneTimestep => .solve
  | .sedRoute => .routeSediment
  | a => a

/-- The same model with another clock. -/
def atClock (t : K) (k : ℕ) (c : Custom L W m K α σ) : Custom L W m K α σ := { c with S := { c.S with time := t, timeIter := k } }

/-- How often the sea level goes on: with every update and every call of `finalize_timestep`. -/
def movesSea : MethodCall → Bool
  | .update => true
  | .finalizeTimestep => true
  | _ => false

/-- `n` times what an update does, but for the clock. -/
def rounds : ℕ → List MethodCall
  | 0 => []
  | n + 1 => .solve :: .subsidence :: .finalizeTimestep :: rounds n

end Verif.Spec
