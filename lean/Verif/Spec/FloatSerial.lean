import Verif.Model.FloatSediment

/-!
# Sediment parcels one after another, in rounded arithmetic: specification

As Spec/SedSerial.
-/

namespace Verif.Spec

open Verif.Model

variable {K : Type*} [Field K] [LinearOrder K] {σ : Type*} {L W m : ℕ} [NeZero L] [NeZero W]

/-- The walk of one parcel. -/
def freshLoopR (F D : Rounding K) (g : Rng K σ) (k : Sed) (P : Params L W m K) :
    ℕ → State L W K → ℤ → ℤ → K → σ → Except Err (State L W K × K × List (SedRec L W K) × σ)
  | 0, _, _, _, _, _ => .error .diverge
  | n + 1, S, px, py, res, s =>
    match sedStepR F D g k P ⟨S, customPad S.depth⟩ px py res s with
    | .error e => .error e
    | .ok (st1, res1, r, s1) =>
      if P.cellType r.cell = -1 ∨ n = 0 then .ok (st1.S, res1, [r], s1)
      else
        match freshLoopR F D g k P n st1.S r.new.1 r.new.2 res1 s1 with
        | .error e => .error e
        | .ok (S2, res2, rs, s2) => .ok (S2, res2, r :: rs, s2)

/-- The walks of parcels that start in the columns of a list. -/
def freshParcelsR (F D : Rounding K) (g : Rng K σ) (k : Sed) (P : Params L W m K) :
    List ℤ → State L W K → σ → Except Err (State L W K × List (SedLog L W K) × σ)
  | [], S, s => .ok (S, [], s)
  | py :: pys, S, s =>
    match pyCell L W 0 py with
    | none => .error .index
    | some c =>
      match freshLoopR F D g k P P.stepmax (enterStateR F D k P ⟨S, customPad S.depth⟩ c).S 0 py P.VpSed s with
      | .error e => .error e
      | .ok (S2, res, rs, s1) =>
        match freshParcelsR F D g k P pys S2 s1 with
        | .error e => .error e
        | .ok (S3, logs, s2) => .ok (S3, ⟨c.2, rs, res⟩ :: logs, s2)

end Verif.Spec
