import Verif.Model.WaterParts

/-!
# What calls of the parts of a water iteration are said to do

Independent vocabulary for C130.
-/

namespace Verif.Spec

open Verif.Model

variable {K : Type*} {L W m : ℕ}

/-- The parts in the order of a water iteration, `n` times, the first with the number `i`. -/
def iterations : ℕ → ℕ → List WaterCall
  | _, 0 => []
  | i, n + 1 => .init :: .run :: .surface :: .finalize i :: iterations (i + 1) n

/-- The surface is computed only if parcels have been routed since the record was last cleared; `b`: this is so at the beginning. -/
def RoutedFirst : Bool → List WaterCall → Prop
  | _, [] => True
  | _, .init :: l => RoutedFirst false l
  | _, .run :: l => RoutedFirst true l
  | b, .surface :: l => b = true ∧ RoutedFirst b l
  | b, .finalize _ :: l => RoutedFirst b l

/-- The sum of two discharges. -/
def bothFlux [Add K] (f g : Flux L W K) : Flux L W K :=
  ⟨fun c => f.qx c + g.qx c, fun c => f.qy c + g.qy c, fun c => f.qw c + g.qw c⟩

/-- The record has a row for each parcel and a column for each step that it was made for. -/
structure Shaped (P : Params L W m K) (h : WaterHold L W K) : Prop where
  rows : h.rows.length = P.NpWater
  cols : ∀ p ∈ h.rows, p.walk.length = h.S.ncols

/-- The component `v` of a discharge, scaled so that the length of the vector is the discharge of the parcels. -/
def scaledTo [Field K] [LinearOrder K] (nrm : K → K → K) (f : Flux L W K) (v : Grid L W K) : Grid L W K := fun c =>
  if 0 < nrm (f.qx c) (f.qy c) then f.qw c * (v c / nrm (f.qx c) (f.qy c)) else v c

end Verif.Spec
