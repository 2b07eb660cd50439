import Verif.Props.WaterWalk
import Verif.Lemmas.WaterIteration
import Mathlib.Data.List.FinRange

/-!
# Specification: the water parcels of an iteration one by one

What is recorded of a parcel: its first position, its steps and the directions it took. Used to
say that parcels do not see each other and that their numbering does not matter.
-/

namespace Verif.Spec

open Verif.Model Verif.Props

variable {K : Type*} {L W : ℕ}

/-- The steps of parcel `j`, first step first. -/
def ownSteps (log : List (List StepRec)) (j : ℕ) : List StepRec :=
  log.filterMap (fun row => row[j]?)

/-- The directions parcel `j` took, first step first. -/
def turns (log : List (List StepRec)) (j : ℕ) : List (Fin 9) :=
  (ownSteps log j).map (·.dir)

/-- The parcels of the second iteration are those of the first under other numbers: number `j` of
the second starts where `π j` of the first starts and takes the same directions. -/
structure Renumbered (np : ℕ) (π : Equiv.Perm (Fin np)) (st st' : WState L W K)
    (log log' : List (List StepRec)) : Prop where
  first : ∀ j : Fin np, pathEntry st' j 0 = pathEntry st (π j) 0
  turns : ∀ j : Fin np, turns log' j = turns log (π j)

end Verif.Spec
