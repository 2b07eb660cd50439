import Verif.Model.Output

/-!
# What a checkpoint holds
-/

namespace Verif.Spec

open Verif.Model

variable {K : Type*} {σ : Type*} {L W : ℕ}

/-- The checkpoint holds the fields of this state, and this state of the generator. -/
structure KeepsState (c : Ckpt L W K σ) (S : State L W K) (s : σ) : Prop where
  time : c.time = S.time
  timeIter : c.timeIter = S.timeIter
  HSL : c.HSL = S.HSL
  eta : c.eta = S.eta
  depth : c.depth = S.depth
  stage : c.stage = S.stage
  uw : c.uw = S.uw
  ux : c.ux = S.ux
  uy : c.uy = S.uy
  qw : c.qw = S.qw
  qx : c.qx = S.qx
  qy : c.qy = S.qy
  sandFrac : c.sandFrac = S.sandFrac
  activeLayer : c.activeLayer = S.activeLayer
  rng : c.rng = s

end Verif.Spec
