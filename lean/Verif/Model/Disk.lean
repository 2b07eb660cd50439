import Verif.Model.Output

/-!
# The files of a model on disk, and crashes

The checkpoint, the output file and its copy made while resuming. Each of `save_the_checkpoint`
(`pyDeltaRCM/iteration_tools.py`), `init_output_file` and `load_checkpoint`
(`pyDeltaRCM/init_tools.py`) is a list of steps on the disk; a crash is a stop after any number of
them. A file that is being written is torn until it is closed. Writing one record is taken as one
step, and the operating system is taken to keep the order of the steps.
-/

namespace Verif.Model

/-- The contents of a file: whole, or torn by a write that is not finished. What a library makes of a
torn file is left open: nothing or something. -/
inductive Blob (α : Type*)
  | whole (a : α)
  | torn (r : Option α)

/-- What can be read from a file. -/
def Blob.read {α : Type*} : Blob α → Option α
  | .whole a => some a
  | .torn r => r

/-- The output folder: `checkpoint.npz`, `pyDeltaRCM_output.nc`, `old_pyDeltaRCM_output.nc`. -/
structure Disk (C R : Type*) where
  ckpt : Option (Blob C)
  out : Option (Blob (ℕ → Option R))
  old : Option (Blob (ℕ → Option R))

/-- A step on the disk. -/
inductive DStep (C R : Type*)
  /-- `checkpoint.npz` is opened for writing, which empties it. A part of an archive is unreadable,
  its directory is at its end. -/
  | ckptOpen
  /-- the archive is complete and closed -/
  | ckptWrite (ck : C)
  /-- `os.rename(file_path, _tmp_name)`, which replaces a file of that name -/
  | outMove
  /-- `Dataset(file_path, "w")` -/
  | outOpen
  /-- while a new output file is written, `r` is what could be read from it -/
  | outPart (r : Option (ℕ → Option R))
  /-- the new output file is complete -/
  | outWrite (n : ℕ → Option R)
  /-- a record is saved and synchronised -/
  | outRec (i : ℕ) (r : R)
  /-- `os.remove(file_path)` -/
  | outRemove
  /-- `os.remove(_tmp_name)` -/
  | oldRemove

variable {C R : Type*}

/-- Effect of a step. -/
def DStep.apply (d : Disk C R) : DStep C R → Disk C R
  | .ckptOpen => { d with ckpt := some (.torn none) }
  | .ckptWrite ck => { d with ckpt := some (.whole ck) }
  | .outMove => { d with out := none, old := d.out }
  | .outOpen => { d with out := some (.torn none) }
  | .outPart r => { d with out := some (.torn r) }
  | .outWrite n => { d with out := some (.whole n) }
  | .outRec i r =>
    match d.out with
    | some (.whole n) => { d with out := some (.whole (Function.update n i (some r))) }
    | _ => d
  | .outRemove => { d with out := none }
  | .oldRemove => { d with old := none }

/-- Several steps. -/
def steps (l : List (DStep C R)) (d : Disk C R) : Disk C R := l.foldl DStep.apply d

/-- The disk after a stop when `k` of the steps are done. -/
def crash (k : ℕ) (l : List (DStep C R)) (d : Disk C R) : Disk C R := steps (l.take k) d

/-- `save_the_checkpoint` (pyDeltaRCM/iteration_tools.py 442-493): the file is written in place. -/
def ckptSteps (ck : C) : List (DStep C R) := [.ckptOpen, .ckptWrite ck]

/-- Errors from the files. -/
inductive DiskErr
  /-- `FileExistsError`: an output file is there and `clobber_netcdf` is off -/
  | fileExists
  /-- `np.load` finds no file -/
  | noCheckpoint
  /-- `np.load` finds no archive -/
  | badCheckpoint
  /-- `RuntimeError`: the output file cannot be opened -/
  | badOutput
deriving DecidableEq

/-- `init_output_file` (pyDeltaRCM/init_tools.py 633-757). -/
def initSteps (saveNc clobber : Bool) (d : Disk C R) : Except DiskErr (List (DStep C R)) :=
  if saveNc then
    match d.out with
    | none => .ok [.outOpen, .outWrite (fun _ => none)]
    | some _ =>
      if clobber then .ok [.outRemove, .outOpen, .outWrite (fun _ => none)]
      else .error .fileExists
  else .ok []

/-- The part of `load_checkpoint` on the output file (pyDeltaRCM/init_tools.py 912-993). `parts` are
the readable contents of the new file while records are copied. The second value is what
`loadCkpt` takes as the file found. -/
def carrySteps (saveNc : Bool) (parts : List (Option (ℕ → Option R))) (d : Disk C R) :
    Except DiskErr (Option (ℕ → Option R) × List (DStep C R)) :=
  if saveNc then
    match d.out with
    | none => .ok (none, [.outOpen, .outWrite (fun _ => none)])
    | some b =>
      match b.read with
      | none => .error .badOutput
      | some n => .ok (some n,
          [.outMove, .outOpen] ++ parts.map .outPart ++ [.outWrite n, .oldRemove])
  else .ok (none, [])

/-- `load_checkpoint` (pyDeltaRCM/init_tools.py 839-997): the checkpoint found, the records found and
the steps on the disk. The checkpoint is looked for in the output folder, the default of
`resume_checkpoint`. -/
def resumeSteps (saveNc : Bool) (parts : List (Option (ℕ → Option R))) (d : Disk C R) :
    Except DiskErr (C × Option (ℕ → Option R) × List (DStep C R)) :=
  match d.ckpt with
  | none => .error .noCheckpoint
  | some b =>
    match b.read with
    | none => .error .badCheckpoint
    | some ck =>
      match carrySteps saveNc parts d with
      | .error e => .error e
      | .ok (n, l) => .ok (ck, n, l)

variable {K σ : Type*} [Field K] [LinearOrder K] {L W : ℕ}

/-- The steps on the disk in `output_data` and `output_checkpoint` (pyDeltaRCM/iteration_tools.py
145-182) of a model `M`. -/
def outputSteps (cfg : OutCfg K) (M : Sim L W K σ) : List (DStep (Ckpt L W K σ) (Record L W K)) :=
  (if due cfg.saveDt M.saveSince then
    if cfg.saveNc then [.outRec M.saveIter ⟨M.S.time, M.S⟩] else []
  else []) ++
  (if due cfg.ckptDt M.ckptSince then
    if cfg.saveCkpt then ckptSteps (takeCkpt (outputData cfg M)) else []
  else [])

/-- The steps on the disk in a sequence of updates. -/
def runSteps {m : ℕ} [NeZero L] [NeZero W] [FloorRing K] (g : Rng K σ) (cfg : OutCfg K) :
    List (Params L W m K) → Sim L W K σ → List (DStep (Ckpt L W K σ) (Record L W K))
  | [], _ => []
  | P :: Ps, M =>
    if M.finalized then []
    else
      match timestep g P M.S M.rng with
      | .error _ => []
      | .ok (S, _, s) =>
        outputSteps cfg { M with
          S := S, rng := s, saveSince := addSince P.dt M.saveSince,
          ckptSince := addSince P.dt M.ckptSince } ++
        runSteps g cfg Ps (afterStep cfg P.dt M S s)

/-- The files of a model between updates. -/
def diskOf (cfg : OutCfg K) (M : Sim L W K σ) : Disk (Ckpt L W K σ) (Record L W K) where
  ckpt := M.ckpt.map .whole
  out := if cfg.saveNc then some (.whole M.nc) else none
  old := none

end Verif.Model
