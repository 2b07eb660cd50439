import Verif.Model.Clock
import Verif.Model.FloatTimestep
import Verif.Model.Parallel
import Verif.Model.SimEngine

/-!
# Models and jobs in rounded arithmetic

As `Model/Output`, `Model/SimEngine`, `Model/Jobs` and `Model/Parallel` with the timestep of
`Model/FloatTimestep` and the time keeping of `Model/Clock`. Saving copies numbers without rounding: the
files hold the types of the fields, and times and sea level as doubles. Reading a checkpoint is `loadCkpt`.
-/

namespace Verif.Model

variable {K : Type*} [Field K] [LinearOrder K] {σ : Type*} {L W m : ℕ}

/-- The part of `update` after the timestep (pyDeltaRCM/model.py 201-215). -/
def afterStepR (D : Rounding K) (cfg : OutCfg K) (dt : K) (M : Sim L W K σ) (S : State L W K) (s : σ) :
    Sim L W K σ :=
  outputCheckpoint cfg (outputData cfg
    { M with
      S := S, rng := s, saveSince := addSinceR D dt M.saveSince, ckptSince := addSinceR D dt M.ckptSince })

/-- `update` (pyDeltaRCM/model.py 149-215). -/
def updateR [NeZero L] [NeZero W] [FloorRing K] (F D : Rounding K) (g : Rng K σ) (cfg : OutCfg K)
    (P : Params L W m K) (M : Sim L W K σ) : Except CallErr (Sim L W K σ) :=
  if M.finalized then .error .finalized
  else
    match timestepR F D g P M.S M.rng with
    | .error e => .error (.inner e)
    | .ok (S, _, s) => .ok (afterStepR D cfg P.dt M S s)

/-- Several updates; the settings may change in between. -/
def updatesR [NeZero L] [NeZero W] [FloorRing K] (F D : Rounding K) (g : Rng K σ) (cfg : OutCfg K) :
    List (Params L W m K) → Sim L W K σ → Except CallErr (Sim L W K σ)
  | [], M => .ok M
  | P :: Ps, M =>
    match updateR F D g cfg P M with
    | .error e => .error e
    | .ok M1 => updatesR F D g cfg Ps M1

/-- `update` (pyDeltaRCM/model.py 149-215) with the generator of the process. After an exception the
model is left as it was, a simplification. -/
def AnyModel.updateR [FloorRing K] (F D : Rounding K) (g : Rng K σ) (mo : AnyModel K σ) (s : σ) :
    Option Exc × AnyModel K σ × σ :=
  have := mo.hL
  have := mo.hW
  match Verif.Model.updateR F D g mo.out mo.P { mo.sim with rng := s } with
  | .ok M => (none, { mo with sim := M }, M.rng)
  | .error e => (some (excOf e), mo, s)

/-- The class of models without resume (pyDeltaRCM/model.py 78-147), as `simEngine`. -/
def simEngineR [FloorRing K] (F D : Rounding K) (g : Rng K σ) : Engine K (Setting K σ) (AnyModel K σ) σ :=
  { simEngine g with update := AnyModel.updateR F D g }

variable {In M G : Type*}

/-- All jobs are made first (pyDeltaRCM/preprocessor.py 640-658). -/
def makeJobsR (R : Rounding K) (E : Engine K In M G) (parse : String → Option ℚ) :
    ℕ → List (In × Dict Yaml) → G → Except Exc (List (Job K M)) × G
  | _, [], s => (.ok [], s)
  | i, (inp, cfg) :: js, s =>
    match makeJobR R E parse i inp cfg s with
    | (.error e, s1) => (.error e, s1)
    | (.ok j, s1) =>
      match makeJobsR R E parse (i + 1) js s1 with
      | (.error e, s2) => (.error e, s2)
      | (.ok l, s2) => (.ok (j :: l), s2)

/-- `run_jobs` (pyDeltaRCM/preprocessor.py 534-669) for serial jobs. -/
def runJobsSerialR (R : Rounding K) (E : Engine K In M G) (parse : String → Option ℚ) (fuel : ℕ)
    (js : List (In × Dict Yaml)) (s : G) : Option (Done M G) :=
  match makeJobsR R E parse 0 js s with
  | (.error e, s1) => some ⟨[], some e, s1⟩
  | (.ok l, s1) =>
    match runSerial E fuel l s1 with
    | none => none
    | some (rs, e, s2) => some ⟨rs, e, s2⟩

/-- What parallel jobs do (pyDeltaRCM/preprocessor.py 599-621), as `forkJobs`. -/
def forkJobsR (R : Rounding K) (E : Engine K In M G) (parse : String → Option ℚ) (fuel : ℕ) :
    ℕ → List (In × Dict Yaml) → G → List (Except Exc (Option (Ran M G)))
  | _, [], _ => []
  | i, (inp, cfg) :: js, s =>
    match makeJobR R E.deferred parse i inp cfg s with
    | (.error e, _) => [.error e]
    | (.ok j, s1) => .ok (runParallelJob E fuel j s1) :: forkJobsR R E parse fuel (i + 1) js s1

end Verif.Model
