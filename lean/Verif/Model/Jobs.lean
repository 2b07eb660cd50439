import Verif.Model.Expand
import Verif.Model.TimeScale
import Mathlib.Data.Rat.Cast.Defs

/-!
# Running jobs

Model of the preprocessors' handling of arguments, of `run_jobs` without the parallel part, and of
`_BaseJob` and `_SerialJob` (`pyDeltaRCM/preprocessor.py` 534-836 and 931-1145). The parallel part is
in `Verif.Model.Parallel`.

`run_jobs` takes the class of the models as an argument. It is an `Engine` here: what `__init__`,
`update` and `finalize` do to a model and to the random number generator, which all models of a
process share. An exception leaves a changed model behind.
-/

namespace Verif.Model

/-- The types of exceptions that `run` tells apart. -/
inductive ExcKind
  | runtimeError
  | valueError
  | typeError
  | notImplemented
  | other
deriving DecidableEq, Repr

/-- An exception with its message. -/
structure Exc where
  kind : ExcKind
  msg : String
deriving DecidableEq

/-- `except (RuntimeError, ValueError)` (pyDeltaRCM/preprocessor.py 799, 821). `NotImplementedError`
is a `RuntimeError`. -/
def Exc.caught (e : Exc) : Bool :=
  match e.kind with
  | .runtimeError | .valueError | .notImplemented => true
  | .typeError | .other => false

/-- A class of models. `G` is the state of the shared random number generator, `In` the contents of
the input file, `M` all that belongs to one model, files included. -/
structure Engine (K In M G : Type*) where
  /-- `DeltaModel(input_file=..., defer_output=False)` -/
  make : In → G → Except Exc M × G
  /-- `DeltaModel(input_file=..., defer_output=True)` -/
  defer : In → G → Except Exc M × G
  /-- the deferred part (pyDeltaRCM/preprocessor.py 881-896) -/
  begin : M → G → Option Exc × M × G
  time : M → K
  dt : M → K
  update : M → G → Option Exc × M × G
  finalize : M → G → Option Exc × M × G

/-! ## Arguments -/

/-- The value in arithmetic: numbers and booleans (Python's `bool` is an `int`). -/
def numOf : Yaml → Option ℚ
  | .scalar (.int i) => some i
  | .scalar (.float q) => some q
  | .scalar (.bool b) => some (if b then 1 else 0)
  | _ => none

/-- `float(v)`; `parse` reads a string. -/
def floatOf (parse : String → Option ℚ) : Yaml → Except Exc ℚ
  | .scalar (.str s) =>
    match parse s with
    | some q => .ok q
    | none => .error ⟨.valueError, "could not convert string to float"⟩
  | v =>
    match numOf v with
    | some q => .ok q
    | none => .error ⟨.typeError, "float() argument must be a string or a real number"⟩

/-- `bool(v)`. -/
def truthy : Yaml → Bool
  | .scalar (.str s) => decide (s ≠ "")
  | .scalar (.int i) => decide (i ≠ 0)
  | .scalar (.float q) => decide (q ≠ 0)
  | .scalar (.bool b) => b
  | .scalar .null => false
  | .scalar .other => true
  | .list l => !l.isEmpty
  | .dict d => !d.isEmpty

/-- The options of the command line after `parse_args`. -/
structure Cli where
  config : Option String
  timesteps : Option ℤ
  time : Option ℚ
  timeYears : Option ℚ
  /-- not converted to a number -/
  If : Option String
  dryrun : Bool
  parallel : Option Val

/-- An entry that is there only if it is given. -/
def entry (k : String) : Option Val → Dict Yaml
  | some v => [(k, .scalar v)]
  | none => []

/-- `process_arguments` (pyDeltaRCM/preprocessor.py 980-1075) after the options are read: `config` and
`dryrun` are always there. -/
def cliDict (a : Cli) : Dict Yaml :=
  [("config", .scalar (match a.config with | some s => .str s | none => .null))] ++
  entry "timesteps" (a.timesteps.map .int) ++ entry "time" (a.time.map .float) ++
  entry "time_years" (a.timeYears.map .float) ++ entry "If" (a.If.map .str) ++
  [("dryrun", .scalar (.bool a.dryrun))] ++ entry "parallel" a.parallel

/-- `config_dict` (pyDeltaRCM/preprocessor.py 972-975 and 1139-1142): options or keywords are put over
the values of the file. -/
def combined (file : Option (Dict Yaml)) (kw : Dict Yaml) : Dict Yaml :=
  dupdate (dupdate [] (file.getD [])) kw

/-- `PreprocessorCLI.__init__` and `Preprocessor.__init__` (pyDeltaRCM/preprocessor.py 952-978 and
1101-1145) with the contents of the input file, if there is one. -/
def preprocess {D : Type*} [DecidableEq D] (resolve : String → D) (rt : Yaml → Yaml) (seeds : ℕ → ℕ)
    (F : Folders D) (file : Option (Dict Yaml)) (kw : Dict Yaml) : Except PpErr (Expanded D) :=
  constructFileList resolve rt seeds F (combined file kw)

/-- `_open_yaml(self.file_list[i])` (pyDeltaRCM/preprocessor.py 603, 644): the job's file, or the input
file; `none` if there is no file. -/
def jobFile {D : Type*} (R : Expanded D) (file : Option (Dict Yaml)) : Source D → Option (Dict Yaml)
  | .input => file
  | .folder d => some (R.disk.job d)

/-- The jobs: what the model reads and the `job_config` (pyDeltaRCM/preprocessor.py 602-609 and
643-650). -/
def jobInputs {D : Type*} (R : Expanded D) (file : Option (Dict Yaml)) :
    List (Option (Dict Yaml) × Dict Yaml) :=
  List.zipWith (fun c s => (jobFile R file s, dupdate c ((jobFile R file s).getD []))) R.configs R.sources

/-! ## Length of a run -/

variable {K : Type*} [Field K] [LinearOrder K]

/-- A number times another; a value without arithmetic raises. -/
def timesNum (v : Yaml) (x : K) : Except Exc K :=
  match numOf v with
  | some q => .ok ((q : K) * x)
  | none => .error ⟨.typeError, "unsupported operand"⟩

/-- The intermittency of a job (pyDeltaRCM/preprocessor.py 711-715). -/
def jobIf (parse : String → Option ℚ) (cfg : Dict Yaml) : Except Exc ℚ :=
  match dget cfg "If" with
  | none => .ok 1
  | some v => floatOf parse v

/-- The time a job is to run (pyDeltaRCM/preprocessor.py 711-749). -/
def duration (parse : String → Option ℚ) (cfg : Dict Yaml) (dt : K) : Except Exc K :=
  match jobIf parse cfg with
  | .error e => .error e
  | .ok If =>
    match dget cfg "timesteps" with
    | some v => timesNum v dt
    | none =>
      match dget cfg "time" with
      | some v => timesNum v (If : K)
      | none =>
        match dget cfg "time_years" with
        | some v => timesNum v ((If : K) * 86400 * (1461 / 4))
        | none => .error ⟨.valueError, "You must specify a run duration"⟩

/-- A job with its model and `_job_end_time`. -/
structure Job (K M : Type*) where
  i : ℕ
  model : M
  stop : K

variable {In M G : Type*}

/-- `_BaseJob.__init__` (pyDeltaRCM/preprocessor.py 684-749). -/
def makeJob (E : Engine K In M G) (parse : String → Option ℚ) (i : ℕ) (inp : In) (cfg : Dict Yaml)
    (s : G) : Except Exc (Job K M) × G :=
  match E.make inp s with
  | (.error e, s1) => (.error e, s1)
  | (.ok mo, s1) =>
    match duration parse cfg (E.dt mo) with
    | .error e => (.error e, s1)
    | .ok d => (.ok ⟨i, mo, E.time mo + d⟩, s1)

/-- What the loop of updates ended with; `updates` counts those that did not raise. -/
structure Looped (M G : Type*) where
  raised : Option Exc
  model : M
  rng : G
  updates : ℕ

/-- `while self.deltamodel._time < self._job_end_time: self.deltamodel.update()`
(pyDeltaRCM/preprocessor.py 795-796, 899-900), for at most so many updates; `none` if more are needed. -/
def runLoop (E : Engine K In M G) (stop : K) : ℕ → M → G → Option (Looped M G)
  | fuel, mo, s =>
    if E.time mo < stop then
      match fuel with
      | 0 => none
      | fuel + 1 =>
        match E.update mo s with
        | (some e, mo1, s1) => some ⟨some e, mo1, s1, 0⟩
        | (none, mo1, s1) =>
          match runLoop E stop fuel mo1 s1 with
          | none => none
          | some r => some { r with updates := r.updates + 1 }
    else some ⟨none, mo, s, 0⟩

/-! ## Serial jobs -/

/-- An entry of the log or the queue: job, stage and code. -/
structure Report where
  job : ℕ
  stage : ℕ
  code : ℕ
deriving DecidableEq

/-- How a job ended: what it raised to the caller, its model, the generator and what it reported. -/
structure Ran (M G : Type*) where
  raised : Option Exc
  model : M
  rng : G
  reports : List Report
  updates : ℕ

/-- The second half of `run` (pyDeltaRCM/preprocessor.py 816-836, 912-924). -/
def finishJob (E : Engine K In M G) (i : ℕ) (mo : M) (s : G) (reports : List Report) (n : ℕ) : Ran M G :=
  match E.finalize mo s with
  | (none, mo1, s1) => ⟨none, mo1, s1, reports ++ [⟨i, 2, 0⟩], n⟩
  | (some e, mo1, s1) =>
    if e.caught then ⟨none, mo1, s1, reports ++ [⟨i, 2, 1⟩], n⟩
    else ⟨some e, mo1, s1, reports, n⟩

/-- `_SerialJob.run` (pyDeltaRCM/preprocessor.py 786-836). -/
def runJob (E : Engine K In M G) (fuel : ℕ) (j : Job K M) (s : G) : Option (Ran M G) :=
  match runLoop E j.stop fuel j.model s with
  | none => none
  | some r =>
    match r.raised with
    | none => some (finishJob E j.i r.model r.rng [⟨j.i, 1, 0⟩] r.updates)
    | some e =>
      if e.caught then some (finishJob E j.i r.model r.rng [⟨j.i, 1, 1⟩] r.updates)
      else some ⟨some e, r.model, r.rng, [], r.updates⟩

/-- All jobs are made first (pyDeltaRCM/preprocessor.py 640-658). -/
def makeJobs (E : Engine K In M G) (parse : String → Option ℚ) :
    ℕ → List (In × Dict Yaml) → G → Except Exc (List (Job K M)) × G
  | _, [], s => (.ok [], s)
  | i, (inp, cfg) :: js, s =>
    match makeJob E parse i inp cfg s with
    | (.error e, s1) => (.error e, s1)
    | (.ok j, s1) =>
      match makeJobs E parse (i + 1) js s1 with
      | (.error e, s2) => (.error e, s2)
      | (.ok l, s2) => (.ok (j :: l), s2)

/-- Then they are run in order (pyDeltaRCM/preprocessor.py 660-664): the jobs that were started, and
what was raised. -/
def runSerial (E : Engine K In M G) (fuel : ℕ) :
    List (Job K M) → G → Option (List (Ran M G) × Option Exc × G)
  | [], s => some ([], none, s)
  | j :: js, s =>
    match runJob E fuel j s with
    | none => none
    | some r =>
      match r.raised with
      | some e => some ([r], some e, r.rng)
      | none =>
        match runSerial E fuel js r.rng with
        | none => none
        | some (rs, e, s1) => some (r :: rs, e, s1)

/-- How jobs are to be run. -/
inductive Mode
  | serial
  /-- with so many processes -/
  | parallel (n : ℤ)
deriving DecidableEq

/-- The choice in `run_jobs` (pyDeltaRCM/preprocessor.py 555-594, 640, 667-668) on a machine with
`cpus` processors; `v` is the value of `parallel`, if given. A negative number is refused by
`multiprocessing.Semaphore`. -/
def runMode (linux : Bool) (cpus njobs : ℕ) (v : Option Yaml) : Except Exc Mode :=
  match v with
  | none => .ok .serial
  | some v =>
    if truthy v then
      if linux = false then .error ⟨.notImplemented, "Parallel simulations only implemented on Linux."⟩
      else
        match v with
        | .scalar (.bool _) => .ok (.parallel (min (if cpus - 1 = 0 then 1 else (cpus - 1 : ℕ)) njobs))
        | .scalar (.int n) =>
          if min n njobs < 0 then .error ⟨.valueError, "semaphore or lock released too many times"⟩
          else .ok (.parallel (min n njobs))
        | _ => .error ⟨.valueError, "Parallel flag must be boolean or integer"⟩
    else
      match v with
      | .scalar (.bool _) => .ok .serial
      | _ => .error ⟨.valueError, ""⟩

/-- What `run_jobs` did. -/
structure Done (M G : Type*) where
  jobs : List (Ran M G)
  raised : Option Exc
  rng : G

/-- `run_jobs` (pyDeltaRCM/preprocessor.py 534-669) for serial jobs. -/
def runJobsSerial (E : Engine K In M G) (parse : String → Option ℚ) (fuel : ℕ)
    (js : List (In × Dict Yaml)) (s : G) : Option (Done M G) :=
  match makeJobs E parse 0 js s with
  | (.error e, s1) => some ⟨[], some e, s1⟩
  | (.ok l, s1) =>
    match runSerial E fuel l s1 with
    | none => none
    | some (rs, e, s2) => some ⟨rs, e, s2⟩

/-- `run_jobs` begins with `if self._dryrun: return` (pyDeltaRCM/preprocessor.py 541-542). -/
def dry (cfg : Dict Yaml) : Bool :=
  match dget cfg "dryrun" with
  | some v => truthy v
  | none => false

end Verif.Model
