import Verif.Model.SimEngine
import Verif.Model.Branch

/-!
# Jobs that resume

The models of `Verif.Model.Output` as a class for `run_jobs`, made in folders that may have a checkpoint. A model with
`resume_checkpoint` loads it in `__init__` (pyDeltaRCM/model.py 126-130) and sets the generator of the process. In a
parallel job that is done with `defer_output=True`, and the checkpoint is loaded once more in the process of the job
(pyDeltaRCM/preprocessor.py 881-886).
-/

namespace Verif.Model

variable {K : Type*} [Field K] [LinearOrder K] [FloorRing K] {σ : Type*}

/-- What a configuration gives, with `resume_checkpoint` and the files the model finds: the checkpoint of the folder to
resume from, and the output file of its own folder. -/
structure Folder (K σ : Type*) extends Setting K σ where
  resume : Bool
  files : FolderFiles L W K σ

/-- A model in a folder. -/
structure FolderModel (K σ : Type*) where
  at_ : Folder K σ
  sim : Sim at_.L at_.W K σ

/-- The type of what is raised by `load_checkpoint`. None is caught by a job. -/
def excStart : StartErr → Exc
  | .noCheckpoint => ⟨.other, "FileNotFoundError"⟩
  | .load e => excOf e

/-- The end of `__init__` (pyDeltaRCM/model.py 126-143) with `defer_output=False`. -/
def Folder.start (f : Folder K σ) : Except StartErr (Sim f.L f.W K σ) :=
  if f.resume then loadIn f.out f.files.nc f.S f.seeded f.files.ckpt
  else .ok (startSim f.out f.S f.seeded)

/-- The end of `__init__` with `defer_output=True`: the output file is not touched (pyDeltaRCM/init_tools.py 914), as
if there were none to write. -/
def Folder.startDeferred (f : Folder K σ) : Except StartErr (Sim f.L f.W K σ) :=
  if f.resume then loadIn { f.out with saveNc := false } none f.S f.seeded f.files.ckpt
  else .ok (newSim f.S f.seeded)

/-- What `__init__` leaves: a model, and the state of the generator. If no checkpoint can be loaded the generator is as
the seed has left it (pyDeltaRCM/init_tools.py 880-911: it is set last). -/
def Folder.made (f : Folder K σ) : Except StartErr (Sim f.L f.W K σ) → Except Exc (FolderModel K σ) × σ
  | .error e => (.error (excStart e), f.seeded)
  | .ok M => (.ok ⟨f, M⟩, M.rng)

/-- The beginning of `_ParallelJob.run` (pyDeltaRCM/preprocessor.py 881-896): the checkpoint is loaded into the model
that has it already, or the first output is made. -/
def FolderModel.begin (mo : FolderModel K σ) (s : σ) : Option Exc × FolderModel K σ × σ :=
  if mo.at_.resume then
    match mo.at_.files.ckpt with
    | none => (some (excStart .noCheckpoint), mo, s)
    | some ck =>
      match loadCkpt mo.at_.out mo.at_.files.nc ck { mo.sim with rng := s } with
      | .error e => (some (excOf e), mo, s)
      | .ok M => (none, ⟨mo.at_, M⟩, M.rng)
  else (none, ⟨mo.at_, outputCheckpoint mo.at_.out (outputData mo.at_.out { mo.sim with rng := s })⟩, s)

/-- `update` (pyDeltaRCM/model.py 149-215) with the generator of the process, as in `AnyModel.update`. -/
def FolderModel.update (g : Rng K σ) (mo : FolderModel K σ) (s : σ) : Option Exc × FolderModel K σ × σ :=
  have := mo.at_.hL
  have := mo.at_.hW
  match Verif.Model.update g mo.at_.out mo.at_.P { mo.sim with rng := s } with
  | .ok M => (none, ⟨mo.at_, M⟩, M.rng)
  | .error e => (some (excOf e), mo, s)

/-- `finalize` (pyDeltaRCM/model.py 217-246). -/
def FolderModel.finalize (mo : FolderModel K σ) (s : σ) : Option Exc × FolderModel K σ × σ :=
  match Verif.Model.finalize mo.sim with
  | .ok M => (none, ⟨mo.at_, M⟩, s)
  | .error e => (some (excOf e), mo, s)

/-- The class of models that may resume. -/
def folderEngine (g : Rng K σ) : Engine K (Folder K σ) (FolderModel K σ) σ where
  make f _ := f.made f.start
  defer f _ := f.made f.startDeferred
  begin := FolderModel.begin
  time mo := mo.sim.S.time
  dt mo := mo.at_.P.dt
  update := FolderModel.update g
  finalize := FolderModel.finalize

end Verif.Model
