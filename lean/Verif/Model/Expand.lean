import Verif.Model.Config
import Verif.Model.Output

/-!
# Expansion of a configuration into jobs

Model of `BasePreprocessor.construct_file_list` and the functions it calls
(`pyDeltaRCM/preprocessor.py` 115-532). The model starts from the dictionary that is left after
keywords are put over the values of the YAML file. The table `jobs_parameters.txt` is in `Verif.Model.Table`. Not modelled:
printing, the warning on a key with one value, and `mkdir` failing because a parent folder is missing.
-/

namespace Verif.Model

/-- Values in a YAML file, with lists and dictionaries; keys are strings. -/
inductive Yaml
  | scalar (v : Val)
  | list (l : List Yaml)
  | dict (d : List (String × Yaml))

/-- What `construct_file_list` raises. -/
inductive PpErr
  /-- `ValueError('Cannot use "matrix" and "set" expansion together.')` -/
  | setAndMatrix
  /-- `TypeError("Invalid ensemble type, must be an integer.")` -/
  | ensembleType
  /-- `ValueError('Invalid matrix specification, was not evaluated to "dict".')` -/
  | matrixType
  /-- `ValueError("Random seeds cannot be specified in the matrix ...")` -/
  | seedInMatrix
  /-- `ValueError('You must specify "out_dir" in YAML ...')` -/
  | noOutDir
  /-- `TypeError` of `Path` -/
  | outDirType
  /-- `FileExistsError` -/
  | folderExists
  /-- `ValueError('You cannot specify "out_dir" as a matrix expansion key.')` -/
  | outDirInMatrix
  /-- `TypeError` of `len` -/
  | noLength (k : String)
  /-- `ValueError("Depth of matrix expansion must not be > 1")` -/
  | depth (k : String)
  /-- `ValueError("Colon operator found in matrix expansion key.")` -/
  | colon (k : String)
  /-- `ValueError("You cannot specify the same key in the matrix ...")` -/
  | bothKeys (k : String)
  /-- `TypeError`: the product of an empty list is a float, not the size of an array -/
  | emptyMatrix
  /-- `TypeError("Set list must be type list")` -/
  | setType
  /-- `TypeError("Set must specify as a list of dictionaries")` -/
  | setDicts
  /-- `IndexError` of `_set[0]` -/
  | emptySet
  /-- `ValueError("All keys in all sets must be identical.")` -/
  | keysDiffer
  /-- `ValueError("Config list empty!")` -/
  | emptyList
deriving DecidableEq

/-- `isinstance(v, int)` with the value: a boolean is an integer. -/
def Yaml.asInt : Yaml → Option ℤ
  | .scalar (.int i) => some i
  | .scalar (.bool b) => some (if b then 1 else 0)
  | _ => none

/-- `isinstance(v, dict)` -/
def Yaml.asDict : Yaml → Option (Dict Yaml)
  | .dict d => some d
  | _ => none

/-- `isinstance(v, list)` -/
def Yaml.isList : Yaml → Bool
  | .list _ => true
  | _ => false

/-- The items of a value that has a length: a string is a sequence of characters, a dictionary one of
keys. -/
def Yaml.items : Yaml → Option (List Yaml)
  | .list l => some l
  | .scalar (.str s) => some (s.toList.map (fun c => .scalar (.str (String.singleton c))))
  | .dict d => some (d.map (fun p => .scalar (.str p.1)))
  | _ => none

/-- `d.update(e)` -/
def dupdate {V : Type*} (d : Dict V) (e : Dict V) : Dict V := e.foldl (fun d p => dset d p.1 p.2) d

/-- A seed drawn in the preprocessor. -/
def seedVal (n : ℕ) : Yaml := .scalar (.int n)

/-- The preprocessor: `config_dict` and the flags (pyDeltaRCM/preprocessor.py 39-55). -/
structure Pp where
  cfg : Dict Yaml
  hasEnsemble : Bool
  hasSet : Bool
  hasMatrix : Bool

/-- `_prelim_config_parsing` (pyDeltaRCM/preprocessor.py 146-181). -/
def prelimParse (cfg : Dict Yaml) : Except PpErr Pp :=
  if "set" ∈ dkeys cfg ∧ "matrix" ∈ dkeys cfg then .error .setAndMatrix
  else .ok ⟨cfg, "ensemble" ∈ dkeys cfg, "set" ∈ dkeys cfg, "matrix" ∈ dkeys cfg⟩

/-- The loops over the sets and over the members of the ensemble (pyDeltaRCM/preprocessor.py 275-288).
`c` draws are made before. -/
def expandSets (seeds : ℕ → ℕ) (n : ℕ) : ℕ → List Yaml → Except PpErr (List Yaml)
  | _, [] => .ok []
  | c, y :: ys =>
    if n = 0 then expandSets seeds n c ys
    else
      match y.asDict with
      | none => .error .setDicts
      | some d =>
        match expandSets seeds n (c + n) ys with
        | .error e => .error e
        | .ok zs => .ok ((List.range n).map (fun j => .dict (dset d "seed" (seedVal (seeds (c + j))))) ++ zs)

/-- `_expand_ensemble` (pyDeltaRCM/preprocessor.py 232-325). `seeds` are the draws of
`np.random.randint`. A set that is not a list raises here or in `_expand_set`; the kind of the
exception is not kept. -/
def expandEnsemble (seeds : ℕ → ℕ) (P : Pp) : Except PpErr Pp :=
  match dget P.cfg "ensemble" with
  | none => .ok P
  | some y =>
    let cfg := ddel P.cfg "ensemble"
    match y.asInt with
    | none => .error .ensembleType
    | some n =>
      if n = 1 then .ok { P with cfg := cfg, hasEnsemble := false }
      else if P.hasSet then
        match dget cfg "set" with
        | some (.list l) =>
          match expandSets seeds n.toNat 0 l with
          | .error e => .error e
          | .ok l' => .ok { P with cfg := dset (ddel cfg "set") "set" (.list l') }
        | _ => .error .setType
      else
        match (dget cfg "matrix").getD (.dict []) with
        | .dict m =>
          if "seed" ∈ dkeys m then .error .seedInMatrix
          else
            .ok { P with
              cfg := dset (ddel cfg "matrix") "matrix"
                (.dict (dset m "seed" (.list ((List.range n.toNat).map (fun j => seedVal (seeds j))))))
              hasMatrix := true }
        | _ => .error .matrixType

/-- `os.path.join` of a folder and a name that is not absolute. -/
def pathJoin (root : String) (name : List Char) : String :=
  if root.toList = [] ∨ root.toList.getLast? = some '/' then String.ofList (root.toList ++ name)
  else String.ofList (root.toList ++ '/' :: name)

/-- `"job_" + str(i).zfill(3)` -/
def jobId (i : ℕ) : List Char :=
  ['j', 'o', 'b', '_'] ++ (List.replicate (3 - (strNat i).length) '0' ++ strNat i)

/-- The configuration of job `i` (pyDeltaRCM/preprocessor.py 370-388 and 462-482). -/
def jobConfig (root : String) (fixed : Dict Yaml) (i : ℕ) (vals : Dict Yaml) : Dict Yaml :=
  dupdate (dset fixed "out_dir" (.scalar (.str (pathJoin root (jobId i))))) vals

/-- The configurations of all jobs, numbered from `i` on. -/
def jobConfigs (root : String) (fixed : Dict Yaml) : ℕ → List (Dict Yaml) → List (Dict Yaml)
  | _, [] => []
  | i, vs :: rest => jobConfig root fixed i vs :: jobConfigs root fixed (i + 1) rest

/-- The checks of the sets, one after the other (pyDeltaRCM/preprocessor.py 336-341). -/
def checkSets : List Yaml → Except PpErr (List (Dict Yaml))
  | [] => .ok []
  | y :: ys =>
    match y.asDict with
    | none => .error .setDicts
    | some d =>
      match (dkeys d).find? (fun k => decide (':' ∈ k.toList)) with
      | some k => .error (.colon k)
      | none =>
        match checkSets ys with
        | .error e => .error e
        | .ok ds => .ok (d :: ds)

/-- Equality of two sets of keys. -/
def sameKeys (d e : Dict Yaml) : Bool :=
  (dkeys d).all (fun k => decide (k ∈ dkeys e)) && (dkeys e).all (fun k => decide (k ∈ dkeys d))

/-- `_expand_set` (pyDeltaRCM/preprocessor.py 327-403): the configurations of the jobs, and the
configuration without the key `set`. -/
def expandSet (root : String) (cfg : Dict Yaml) : Except PpErr (List (Dict Yaml)) :=
  match dget cfg "set" with
  | some (.list l) =>
    match checkSets l with
    | .error e => .error e
    | .ok [] => .error .emptySet
    | .ok (d :: ds) =>
      if ds.all (fun e => sameKeys d e) then .ok (jobConfigs root (ddel cfg "set") 0 (d :: ds))
      else .error .keysDiffer
  | _ => .error .setType

/-- The checks of the keys of a matrix, one after the other (pyDeltaRCM/preprocessor.py 420-439). -/
def checkMatrix (cfg : Dict Yaml) : Dict Yaml → Except PpErr (Dict (List Yaml))
  | [] => .ok []
  | (k, v) :: m =>
    match v.items with
    | none => .error (.noLength k)
    | some l =>
      if l.any Yaml.isList then .error (.depth k)
      else if ':' ∈ k.toList then .error (.colon k)
      else if k ∈ dkeys cfg then .error (.bothKeys k)
      else
        match checkMatrix cfg m with
        | .error e => .error e
        | .ok vs => .ok ((k, l) :: vs)

/-- `itertools.product`, each value with its key. -/
def combos {V : Type*} : Dict (List V) → List (Dict V)
  | [] => [[]]
  | (k, l) :: m => l.flatMap (fun v => (combos m).map (fun c => (k, v) :: c))

/-- `_expand_matrix` (pyDeltaRCM/preprocessor.py 405-497). -/
def expandMatrix (root : String) (cfg : Dict Yaml) : Except PpErr (List (Dict Yaml)) :=
  match dget cfg "matrix" with
  | some (.dict m) =>
    if "out_dir" ∈ dkeys m then .error .outDirInMatrix
    else
      match checkMatrix (ddel cfg "matrix") m with
      | .error e => .error e
      | .ok [] => .error .emptyMatrix
      | .ok (v :: vs) => .ok (jobConfigs root (ddel cfg "matrix") 0 (combos (v :: vs)))
  | _ => .error .matrixType

/-- What the preprocessor finds on the disk: which folders exist, and what is loaded from the YAML file
of a job in a folder. -/
structure Folders (D : Type*) where
  present : D → Bool
  job : D → Dict Yaml

variable {D : Type*} [DecidableEq D]

/-- `_write_job_configs` (pyDeltaRCM/preprocessor.py 499-532) for one job. `resolve` gives the folder of a
path. `rt` is what a value becomes by being written as text and loaded again. Files are opened for
appending, and later lines count. -/
def writeJob (resolve : String → D) (rt : Yaml → Yaml) (resume : Bool) (F : Folders D)
    (c : Dict Yaml) : Except PpErr (Folders D × D) :=
  match dget c "out_dir" with
  | some (.scalar (.str p)) =>
    if F.present (resolve p) ∧ resume = false then .error .folderExists
    else .ok (⟨fun d => decide (d = resolve p) || F.present d,
      Function.update F.job (resolve p)
        (dupdate (F.job (resolve p)) (c.map (fun q => (q.1, rt q.2))))⟩, resolve p)
  | _ => .error .outDirType

/-- The loop of `_write_job_configs`: the folders of the jobs. -/
def writeJobs (resolve : String → D) (rt : Yaml → Yaml) (resume : Bool) :
    Folders D → List (Dict Yaml) → Except PpErr (Folders D × List D)
  | F, [] => .ok (F, [])
  | F, c :: cs =>
    match writeJob resolve rt resume F c with
    | .error e => .error e
    | .ok (F1, d) =>
      match writeJobs resolve rt resume F1 cs with
      | .error e => .error e
      | .ok (F2, ds) => .ok (F2, d :: ds)

/-- `"resume_checkpoint" in config and config["resume_checkpoint"] is True` -/
def resuming (cfg : Dict Yaml) : Bool :=
  match dget cfg "resume_checkpoint" with
  | some (.scalar (.bool b)) => b
  | _ => false

/-- `_prepare_multijob_output` (pyDeltaRCM/preprocessor.py 208-230). -/
def prepareOutput (resolve : String → D) (F : Folders D) (cfg : Dict Yaml) :
    Except PpErr (Folders D × String) :=
  match dget cfg "out_dir" with
  | none => .error .noOutDir
  | some (.scalar (.str p)) =>
    if F.present (resolve p) ∧ resuming cfg = false then .error .folderExists
    else .ok ({ F with present := fun d => decide (d = resolve p) || F.present d }, p)
  | some _ => .error .outDirType

/-- Where the configuration of a job is loaded from. -/
inductive Source (D : Type*)
  /-- the input file of the user, if any -/
  | input
  /-- the file written into a folder -/
  | folder (d : D)

/-- The result of `construct_file_list`: `config_dict`, `config_list`, `file_list` and the disk. -/
structure Expanded (D : Type*) where
  cfg : Dict Yaml
  configs : List (Dict Yaml)
  sources : List (Source D)
  disk : Folders D

/-- `construct_file_list` (pyDeltaRCM/preprocessor.py 115-144). -/
def constructFileList (resolve : String → D) (rt : Yaml → Yaml) (seeds : ℕ → ℕ)
    (F : Folders D) (cfg : Dict Yaml) : Except PpErr (Expanded D) :=
  match prelimParse cfg with
  | .error e => .error e
  | .ok P0 =>
    match (if P0.hasEnsemble then expandEnsemble seeds P0 else .ok P0) with
    | .error e => .error e
    | .ok P =>
      if P.hasEnsemble || P.hasSet || P.hasMatrix then
        match prepareOutput resolve F P.cfg with
        | .error e => .error e
        | .ok (F1, root) =>
          match (if P.hasMatrix then expandMatrix root P.cfg else expandSet root P.cfg) with
          | .error e => .error e
          | .ok configs =>
            if configs.length = 0 then .error .emptyList
            else
              match writeJobs resolve rt (resuming P.cfg) F1 configs with
              | .error e => .error e
              | .ok (F2, ds) =>
                .ok ⟨ddel P.cfg (if P.hasMatrix then "matrix" else "set"), configs,
                  ds.map .folder, F2⟩
      else .ok ⟨P.cfg, [P.cfg], [.input], F⟩

end Verif.Model
