import Verif.Model.Output

/-!
# What it means that two models are at the same point
-/

namespace Verif.Spec

open Verif.Model

variable {K : Type*} {σ : Type*} {L W : ℕ}

/-- The same time, counter, sea level and fields. The sand flux and the deposit records belong to one
timestep (they are cleared when the next one begins); the size of the path record is internal. -/
structure SameFields (S S' : State L W K) : Prop where
  time : S'.time = S.time
  timeIter : S'.timeIter = S.timeIter
  HSL : S'.HSL = S.HSL
  eta : S'.eta = S.eta
  stage : S'.stage = S.stage
  depth : S'.depth = S.depth
  qx : S'.qx = S.qx
  qy : S'.qy = S.qy
  qw : S'.qw = S.qw
  ux : S'.ux = S.ux
  uy : S'.uy = S.uy
  uw : S'.uw = S.uw
  sandFrac : S'.sandFrac = S.sandFrac
  activeLayer : S'.activeLayer = S.activeLayer

/-- The same fields and the same results of the last timestep. -/
structure SameState (S S' : State L W K) : Prop extends SameFields S S' where
  qs : S'.qs = S.qs
  depSand : S'.depSand = S.depSand
  depMud : S'.depMud = S.depMud

/-- The same saved record. -/
def SameRecord : Option (Record L W K) → Option (Record L W K) → Prop
  | none, none => True
  | some r, some r' => r'.time = r.time ∧ SameState r.state r'.state
  | _, _ => False

/-- `R` is at the same point as `M`: fields, random numbers, counters, and the records saved so far (if
there is an output file). -/
structure SamePoint (cfg : OutCfg K) (M R : Sim L W K σ) : Prop where
  fields : SameFields M.S R.S
  rng : R.rng = M.rng
  saveIter : R.saveIter = M.saveIter
  saveSince : R.saveSince = M.saveSince
  finalized : R.finalized = M.finalized
  records : cfg.saveNc = true → ∀ i < M.saveIter, SameRecord (M.nc i) (R.nc i)

end Verif.Spec
