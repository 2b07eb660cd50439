import Verif.Model.Jobs

/-!
# A configuration given as a dictionary

Model of `Preprocessor.__init__` (pyDeltaRCM/preprocessor.py 1101-1145) for all kinds of arguments, of the files that
`run_jobs` opens, and of what becomes of the dictionary of the user: `config_dict` is a new dictionary, but its values
are those of the user, and the ensemble writes into the value of `matrix`.
-/

namespace Verif.Model

/-- The argument `input_file`. A path comes with what is loaded from the file; an empty file has no content. -/
inductive InputArg
  | none
  | dict (d : Dict Yaml)
  | path (content : Option (Dict Yaml))
  | other

/-- What the preprocessor raises. -/
inductive ArgErr
  /-- `ValueError("Cannot use Preprocessor with no arguments.")` -/
  | noArguments
  /-- `ValueError("Invalid input file argument.")` -/
  | invalid
  /-- `TypeError` of `update(None)` -/
  | emptyFile
  /-- raised by `construct_file_list` -/
  | expand (e : PpErr)
  /-- `TypeError` of `open`, given a dictionary -/
  | openDict
  deriving DecidableEq

/-- `not input_file`; a path is not empty here. -/
def InputArg.missing : InputArg → Bool
  | .none => true
  | .dict d => d.isEmpty
  | .path _ => false
  | .other => false

/-- `open_input_file_to_dict` (pyDeltaRCM/preprocessor.py 85-113) and the branch for `None` (1132-1137). -/
def openInput : InputArg → Except ArgErr (Option (Dict Yaml))
  | .none => .ok Option.none
  | .dict d => .ok (some d)
  | .path (some d) => .ok (some d)
  | .path Option.none => .error .emptyFile
  | .other => .error .invalid

variable {D : Type*} [DecidableEq D]

/-- An exception of `construct_file_list` is not caught. -/
def fromExpand {α : Type*} : Except PpErr α → Except ArgErr α
  | .error e => .error (.expand e)
  | .ok a => .ok a

/-- `Preprocessor.__init__` (pyDeltaRCM/preprocessor.py 1101-1145). -/
def preprocessArg (resolve : String → D) (rt : Yaml → Yaml) (seeds : ℕ → ℕ) (F : Folders D) (inp : InputArg)
    (kw : Dict Yaml) : Except ArgErr (Expanded D) :=
  if inp.missing = true ∧ kw = [] then .error .noArguments
  else
    match openInput inp with
    | .error e => .error e
    | .ok file => fromExpand (preprocess resolve rt seeds F file kw)

/-- The element of `file_list` is the argument itself. -/
def Source.isInput {D : Type*} : Source D → Bool
  | .input => true
  | .folder _ => false

/-- `_open_yaml(self.file_list[i])` (pyDeltaRCM/preprocessor.py 183-206, 602, 644) for all jobs, with the job
configurations: the element for a single job is the argument itself (139), and a dictionary cannot be opened. -/
def runInputs (R : Expanded D) (inp : InputArg) : Except ArgErr (List (Option (Dict Yaml) × Dict Yaml)) :=
  match inp with
  | .dict _ =>
    if R.sources.any Source.isInput then .error .openDict
    else .ok (jobInputs R Option.none)
  | .none => .ok (jobInputs R Option.none)
  | .path c => .ok (jobInputs R c)
  | .other => .ok (jobInputs R Option.none)

/-- The dictionary of the user after `Preprocessor(d, **kw)`: the ensemble writes the seeds into the value of `matrix`
(pyDeltaRCM/preprocessor.py 291-319), which is that of the user if no keyword replaces it. -/
def dictAfter (seeds : ℕ → ℕ) (d kw : Dict Yaml) : Dict Yaml :=
  let cfg := combined (some d) kw
  match prelimParse cfg with
  | .error _ => d
  | .ok P =>
    match dget P.cfg "ensemble" with
    | none => d
    | some y =>
      match y.asInt with
      | none => d
      | some n =>
        if n = 1 ∨ P.hasSet = true ∨ "matrix" ∈ dkeys kw then d
        else
          match dget d "matrix" with
          | some (.dict m) =>
            if "seed" ∈ dkeys m then d
            else dset d "matrix" (.dict (dset m "seed" (.list ((List.range n.toNat).map (fun j => seedVal (seeds j))))))
          | _ => d

end Verif.Model
