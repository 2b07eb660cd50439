import Verif.Model.Custom
import Verif.Model.Series

/-!
# Customised models that are resumed

What a model of a derived class is like that is made again with `resume_checkpoint`
(docs/source/guides/user_guide.rst, docs/source/examples/resume_from_checkpoint.rst): the constructor makes it as ever and then
loads the checkpoint (pyDeltaRCM/model.py 104-131, pyDeltaRCM/init_tools.py 838-997). Nothing of what the derived class has added is in a
checkpoint (pyDeltaRCM/iteration_tools.py 442-493), nor are parameters that were changed.

Not modelled: lines of the derived class after `super().__init__` that read what was loaded; output (see `Model/Output`).
-/

namespace Verif.Model

variable {K : Type*} {α σ : Type*} {L W m : ℕ}

/-- The fields that `load_checkpoint` sets (pyDeltaRCM/init_tools.py 885-905), from the state `S` that was saved; the others are
those of the new model. -/
def loadFields (S0 S : State L W K) : State L W K :=
  { S0 with
    time := S.time, HSL := S.HSL, timeIter := S.timeIter
    eta := S.eta, depth := S.depth, stage := S.stage, uw := S.uw, ux := S.ux, uy := S.uy
    qw := S.qw, qx := S.qx, qy := S.qy, sandFrac := S.sandFrac, activeLayer := S.activeLayer }

/-- The new model `c0` of a derived class with the checkpoint of the model `c` (pyDeltaRCM/init_tools.py 838-911). -/
def loadCustom (c0 c : Custom L W m K α σ) : Custom L W m K α σ := { c0 with S := loadFields c0.S c.S, rng := c.rng }

/-- The same for an object; the random numbers are apart. -/
def loadObj (X0 X : Obj L W m K) : Obj L W m K := { X0 with S := loadFields X0.S X.S }

end Verif.Model
