import Verif.Model.Sediment

/-!
# Sediment parcels one after another: specification

The router keeps a padded copy of the depth and changes it together with the depth. Here there is no copy: the depth is padded anew
before each step.
-/

namespace Verif.Spec

open Verif.Model

variable {K : Type*} [Field K] [LinearOrder K] {σ : Type*} {L W m : ℕ} [NeZero L] [NeZero W]

/-- The walk of one parcel. -/
def freshLoop (g : Rng K σ) (k : Sed) (P : Params L W m K) :
    ℕ → State L W K → ℤ → ℤ → K → σ → Except Err (State L W K × K × List (SedRec L W K) × σ)
  | 0, _, _, _, _, _ => .error .diverge
  | n + 1, S, px, py, res, s =>
    match sedStep g k P ⟨S, customPad S.depth⟩ px py res s with
    | .error e => .error e
    | .ok (st1, res1, r, s1) =>
      if P.cellType r.cell = -1 ∨ n = 0 then .ok (st1.S, res1, [r], s1)
      else
        match freshLoop g k P n st1.S r.new.1 r.new.2 res1 s1 with
        | .error e => .error e
        | .ok (S2, res2, rs, s2) => .ok (S2, res2, r :: rs, s2)

/-- The walks of parcels that start in the columns of a list. -/
def freshParcels (g : Rng K σ) (k : Sed) (P : Params L W m K) :
    List ℤ → State L W K → σ → Except Err (State L W K × List (SedLog L W K) × σ)
  | [], S, s => .ok (S, [], s)
  | py :: pys, S, s =>
    match pyCell L W 0 py with
    | none => .error .index
    | some c =>
      match freshLoop g k P P.stepmax (enterState k P ⟨S, customPad S.depth⟩ c).S 0 py P.VpSed s with
      | .error e => .error e
      | .ok (S2, res, rs, s1) =>
        match freshParcels g k P pys S2 s1 with
        | .error e => .error e
        | .ok (S3, logs, s2) => .ok (S3, ⟨c.2, rs, res⟩ :: logs, s2)

/-- All parcels of one kind. -/
def freshRoute [FloorRing K] (g : Rng K σ) (k : Sed) (P : Params L W m K) (S : State L W K) (s : σ) :
    Except Err (State L W K × List (SedLog L W K) × σ) :=
  match getStartIndices (fun i => ((P.inlet i).val : ℤ)) (fun _ => (1 : K)) (drawN g (numStarts k P) s).1 with
  | none => .error .index
  | some starts => freshParcels g k P starts S (drawN g (numStarts k P) s).2

/-- The sediment routing of a timestep. -/
def freshSediment [FloorRing K] (g : Rng K σ) (P : Params L W m K) (S : State L W K) (s : σ) :
    Except Err (State L W K × List (SedLog L W K) × List (SedLog L W K) × σ) :=
  match freshRoute g .sand P { S with qs := fun _ => 0, depSand := fun _ => 0, depMud := fun _ => 0 } s with
  | .error e => .error e
  | .ok (S1, sand, s1) =>
    match freshRoute g .mud P { S1 with eta := topoDiffusion P.cellType P.diffMult S1.qs P.Ncross S1.eta } s1 with
    | .error e => .error e
    | .ok (S2, mud, s2) => .ok (S2, sand, mud, s2)

/-- No parcel leaves the domain upstream. -/
def StaysIn (logs : List (SedLog L W K)) : Prop := ∀ l ∈ logs, ∀ r ∈ l.steps, r.new = ((r.cell.1.val : ℤ), (r.cell.2.val : ℤ))

/-- In the first row the water does not flow upstream or sideways. -/
def FlowsIn (P : Params L W m K) (S : State L W K) : Prop :=
  ∀ c : Cell L W, c.1.val = 0 → P.cellType c ≠ -1 → P.cellType c ≠ -2 → 0 ≤ S.qx c ∧ S.qy c = 0

end Verif.Spec
