import Verif.Model.Output
import Verif.Model.Setup

/-!
# Starting a model in a folder

Model of the last part of `DeltaModel.__init__` (pyDeltaRCM/model.py 126-143) with the parameter `resume_checkpoint`,
which may name another folder: the checkpoint is taken from there (pyDeltaRCM/init_tools.py 880), output is in the folder
of the model (915).
-/

namespace Verif.Model

variable {K : Type*} [Field K] [LinearOrder K] [FloorRing K] {σ D : Type*} {L W : ℕ}

/-- What a folder has: the file `checkpoint.npz` and the records in `pyDeltaRCM_output.nc`. -/
structure FolderFiles (L W : ℕ) (K σ : Type*) where
  ckpt : Option (Ckpt L W K σ)
  nc : Option (ℕ → Option (Record L W K))

/-- What may be raised. -/
inductive StartErr
  /-- `FileNotFoundError`: no checkpoint in the folder -/
  | noCheckpoint
  | load (e : CallErr)
  deriving DecidableEq

/-- A checkpoint is loaded (pyDeltaRCM/init_tools.py 839-997). -/
def loadIn (cfg : OutCfg K) (nc : Option (ℕ → Option (Record L W K))) (S : State L W K) (s : σ) :
    Option (Ckpt L W K σ) → Except StartErr (Sim L W K σ)
  | none => .error .noCheckpoint
  | some ck =>
    match loadCkpt cfg nc ck (newSim S s) with
    | .error e => .error (.load e)
    | .ok M => .ok M

/-- A model is made in the folder `p` (pyDeltaRCM/model.py 126-143). An existing output file is an error or is replaced
without resuming; that is in `Verif.Model.Disk`. -/
def startIn (cfg : OutCfg K) (files : D → FolderFiles L W K σ) (p : D) (arg : Bool ⊕ D) (S : State L W K) (s : σ) :
    Except StartErr (Sim L W K σ) :=
  if (resolveResume p arg).1 then loadIn cfg (files p).nc S s (files (resolveResume p arg).2).ckpt
  else .ok (startSim cfg S s)

/-- The output settings of a configuration (pyDeltaRCM/model.py 1009-1040, pyDeltaRCM/init_tools.py 232-258); the flags
are those of `OutCfg`. -/
def outCfgOf (I : Input K) (saveCkpt saveNc : Bool) (figs : List (List Char)) (sequential : Bool) : OutCfg K where
  saveDt := (I.saveDt : K)
  ckptDt := (resolveCkptDt I : K)
  saveCkpt := saveCkpt
  saveNc := saveNc
  figs := figs
  sequential := sequential

end Verif.Model
