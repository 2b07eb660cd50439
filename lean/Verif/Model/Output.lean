import Verif.Model.Timestep
import Mathlib.Data.Nat.Digits.Defs

/-!
# Saving data, figures and checkpoints; the life cycle of a model

Model of `output_data`, `output_checkpoint`, `save_grids_and_figs`, `save_figure`,
`save_the_checkpoint` (`pyDeltaRCM/iteration_tools.py`), of `load_checkpoint`
(`pyDeltaRCM/init_tools.py`) and of `__init__`, `update`, `finalize` (`pyDeltaRCM/model.py`).
A saved record holds the whole state: which grids are saved is a choice of the user.
-/

namespace Verif.Model

variable {K : Type*} [Field K] [LinearOrder K] {σ : Type*} {L W m : ℕ}

/-- The settings of output (pyDeltaRCM/init_tools.py 232-258, pyDeltaRCM/model.py 590-800). -/
structure OutCfg (K : Type*) where
  saveDt : K
  ckptDt : K
  /-- `_save_checkpoint` -/
  saveCkpt : Bool
  /-- `_save_metadata or _save_any_grids` -/
  saveNc : Bool
  /-- keys of `_save_fig_list` -/
  figs : List (List Char)
  /-- `_save_figs_sequential` -/
  sequential : Bool

/-- What is put in the output file or in a figure: the time and the state. -/
structure Record (L W : ℕ) (K : Type*) where
  time : K
  state : State L W K

/-- Contents of `checkpoint.npz` (pyDeltaRCM/iteration_tools.py 471-493). -/
structure Ckpt (L W : ℕ) (K σ : Type*) where
  time : K
  timeIter : ℕ
  saveIter : ℕ
  /-- `none` stands for `inf` -/
  saveSince : Option K
  eta : Grid L W K
  depth : Grid L W K
  stage : Grid L W K
  uw : Grid L W K
  ux : Grid L W K
  uy : Grid L W K
  qw : Grid L W K
  qx : Grid L W K
  qy : Grid L W K
  sandFrac : Grid L W K
  activeLayer : Grid L W K
  HSL : K
  rng : σ

/-- A model with its output. `rng` is the state of the random number generator. -/
structure Sim (L W : ℕ) (K σ : Type*) where
  S : State L W K
  rng : σ
  /-- `_save_time_since_data`; `none` stands for `inf` -/
  saveSince : Option K
  /-- `_save_time_since_checkpoint` -/
  ckptSince : Option K
  saveIter : ℕ
  finalized : Bool
  /-- records of the output file by index -/
  nc : ℕ → Option (Record L W K)
  /-- figure files by name -/
  figFiles : List Char → Option (Record L W K)
  /-- `checkpoint.npz` -/
  ckpt : Option (Ckpt L W K σ)
  /-- the saves so far, with their index. Ghost information. -/
  saves : List (ℕ × Record L W K)
  /-- the checkpoints written so far. Ghost information. -/
  ckpts : List (Ckpt L W K σ)

/-- `str(n)` of a number that is not negative. -/
def strNat (n : ℕ) : List Char :=
  if n = 0 then ['0'] else (Nat.digits 10 n).reverse.map Nat.digitChar

/-- `str.zfill(5)` of a string without sign. -/
def zfill5 (s : List Char) : List Char := List.replicate (5 - s.length) '0' ++ s

/-- The file name in `save_figure` (pyDeltaRCM/iteration_tools.py 396-406) with `filename_root` as in
`save_grids_and_figs` (266). -/
def figName (sequential : Bool) (f : List Char) (saveIter : ℕ) : List Char :=
  if sequential then f ++ ['_'] ++ zfill5 (strNat saveIter) ++ ['.', 'p', 'n', 'g']
  else f ++ ['_'] ++ ['l', 'a', 't', 'e', 's', 't'] ++ ['.', 'p', 'n', 'g']

/-- The figures of one save: one file for each variable. -/
def saveFigs (sequential : Bool) (i : ℕ) (r : Record L W K) :
    List (List Char) → (List Char → Option (Record L W K)) → List Char → Option (Record L W K)
  | [], files => files
  | f :: fs, files => saveFigs sequential i r fs (Function.update files (figName sequential f i) (some r))

/-- `save_grids_and_figs` (pyDeltaRCM/iteration_tools.py 232-324). Errors of the netCDF library and
wrong user attributes are not modelled. -/
def saveGridsAndFigs (cfg : OutCfg K) (M : Sim L W K σ) : Sim L W K σ :=
  let r : Record L W K := ⟨M.S.time, M.S⟩
  { M with
    nc := if cfg.saveNc then Function.update M.nc M.saveIter (some r) else M.nc
    figFiles := saveFigs cfg.sequential M.saveIter r cfg.figs M.figFiles
    saves := M.saves ++ [(M.saveIter, r)] }

/-- `since >= dt`, where `none` stands for `inf`. -/
def due (d : K) : Option K → Bool
  | none => true
  | some x => decide (d ≤ x)

/-- `output_data` (pyDeltaRCM/iteration_tools.py 145-151). -/
def outputData (cfg : OutCfg K) (M : Sim L W K σ) : Sim L W K σ :=
  if due cfg.saveDt M.saveSince then
    { saveGridsAndFigs cfg M with saveIter := M.saveIter + 1, saveSince := some 0 }
  else M

/-- The values collected in `save_the_checkpoint` (pyDeltaRCM/iteration_tools.py 464-493). -/
def takeCkpt (M : Sim L W K σ) : Ckpt L W K σ where
  time := M.S.time
  timeIter := M.S.timeIter
  saveIter := M.saveIter
  saveSince := M.saveSince
  eta := M.S.eta
  depth := M.S.depth
  stage := M.S.stage
  uw := M.S.uw
  ux := M.S.ux
  uy := M.S.uy
  qw := M.S.qw
  qx := M.S.qx
  qy := M.S.qy
  sandFrac := M.S.sandFrac
  activeLayer := M.S.activeLayer
  HSL := M.S.HSL
  rng := M.rng

/-- `output_checkpoint` (pyDeltaRCM/iteration_tools.py 153-182). -/
def outputCheckpoint (cfg : OutCfg K) (M : Sim L W K σ) : Sim L W K σ :=
  if due cfg.ckptDt M.ckptSince then
    if cfg.saveCkpt then
      { M with ckpt := some (takeCkpt M), ckpts := M.ckpts ++ [takeCkpt M], ckptSince := some 0 }
    else M
  else M

/-- A new model before any output (pyDeltaRCM/model.py 80-84). -/
def newSim (S : State L W K) (s : σ) : Sim L W K σ where
  S := S
  rng := s
  saveSince := none
  ckptSince := none
  saveIter := 0
  finalized := false
  nc := fun _ => none
  figFiles := fun _ => none
  ckpt := none
  saves := []
  ckpts := []

/-- The end of `__init__` without resume (pyDeltaRCM/model.py 130-143): initial conditions are
recorded. -/
def startSim (cfg : OutCfg K) (S : State L W K) (s : σ) : Sim L W K σ :=
  outputCheckpoint cfg (outputData cfg (newSim S s))

/-- `float('inf') + dt` is `inf`. -/
def addSince (d : K) : Option K → Option K
  | none => none
  | some x => some (x + d)

/-- The part of `update` after the timestep (pyDeltaRCM/model.py 201-215), given the state of the
model and of the random numbers after it. -/
def afterStep (cfg : OutCfg K) (dt : K) (M : Sim L W K σ) (S : State L W K) (s : σ) : Sim L W K σ :=
  outputCheckpoint cfg (outputData cfg
    { M with
      S := S, rng := s, saveSince := addSince dt M.saveSince, ckptSince := addSince dt M.ckptSince })

/-- `update` (pyDeltaRCM/model.py 149-215). -/
def update [NeZero L] [NeZero W] [FloorRing K] (g : Rng K σ) (cfg : OutCfg K) (P : Params L W m K)
    (M : Sim L W K σ) : Except CallErr (Sim L W K σ) :=
  if M.finalized then .error .finalized
  else
    match timestep g P M.S M.rng with
    | .error e => .error (.inner e)
    | .ok (S, _, s) => .ok (afterStep cfg P.dt M S s)

/-- Several updates; the settings may change in between. -/
def updates [NeZero L] [NeZero W] [FloorRing K] (g : Rng K σ) (cfg : OutCfg K) :
    List (Params L W m K) → Sim L W K σ → Except CallErr (Sim L W K σ)
  | [], M => .ok M
  | P :: Ps, M =>
    match update g cfg P M with
    | .error e => .error e
    | .ok M1 => updates g cfg Ps M1

/-- `finalize` (pyDeltaRCM/model.py 217-246). The output file is closed; an error while closing it
is only logged. -/
def finalize (M : Sim L W K σ) : Except CallErr (Sim L W K σ) :=
  if M.finalized then .error .finalized
  else .ok { M with finalized := true }

/-- A call of the user. -/
inductive Call (L W m : ℕ) (K : Type*)
  | update (P : Params L W m K)
  | finalize

/-- One call. A raised exception leaves the model as it is: true for the checks of the life cycle;
an exception inside a timestep leaves it in the middle, which is not modelled. -/
def call [NeZero L] [NeZero W] [FloorRing K] (g : Rng K σ) (cfg : OutCfg K) (M : Sim L W K σ) :
    Call L W m K → Except CallErr (Sim L W K σ)
  | .update P => update g cfg P M
  | .finalize => finalize M

/-- A sequence of calls: what each raised, and the model at the end. -/
def calls [NeZero L] [NeZero W] [FloorRing K] (g : Rng K σ) (cfg : OutCfg K) :
    List (Call L W m K) → Sim L W K σ → List (Option CallErr) × Sim L W K σ
  | [], M => ([], M)
  | c :: cs, M =>
    match call g cfg M c with
    | .error e => (some e :: (calls g cfg cs M).1, (calls g cfg cs M).2)
    | .ok M1 => (none :: (calls g cfg cs M1).1, (calls g cfg cs M1).2)

/-- `int(x)` of a float: truncation towards zero; `int(inf)` raises. -/
def pyTrunc [FloorRing K] (x : K) : K := if 0 ≤ x then ((⌊x⌋ : ℤ) : K) else ((⌈x⌉ : ℤ) : K)

/-- `load_checkpoint` (pyDeltaRCM/init_tools.py 839-997) into a model freshly made from the same
configuration (`M`, as `newSim`). `disk` are the records in the output file found on disk, `none`
if there is no file: then the counter of saves starts again. The records are carried over.
`int(save_time_since_data)` truncates; the time since the last checkpoint is not restored. -/
def loadCkpt [FloorRing K] (cfg : OutCfg K) (disk : Option (ℕ → Option (Record L W K)))
    (ck : Ckpt L W K σ) (M : Sim L W K σ) : Except CallErr (Sim L W K σ) :=
  match ck.saveSince with
  | none => .error .overflow
  | some x => .ok { M with
      S := { M.S with
        time := ck.time, HSL := ck.HSL, timeIter := ck.timeIter
        eta := ck.eta, depth := ck.depth, stage := ck.stage, uw := ck.uw, ux := ck.ux, uy := ck.uy
        qw := ck.qw, qx := ck.qx, qy := ck.qy, sandFrac := ck.sandFrac
        activeLayer := ck.activeLayer }
      rng := ck.rng
      saveSince := some (pyTrunc x)
      saveIter := if cfg.saveNc ∧ disk.isNone then 0 else ck.saveIter
      nc := if cfg.saveNc then disk.getD (fun _ => none) else M.nc }

end Verif.Model
