import Mathlib.Data.List.Count
import Mathlib.Data.List.Infix

/-!
# Log files

Model of `init_logger` (pyDeltaRCM/init_tools.py 41-76) and of what the module `logging` does with the messages of all
models of a process. A logger is found by its name and never removed; a message goes to the handlers of its logger and
of those whose names are its beginnings up to a dot. Which messages are handed to the logger is in `Verif.Model.Log`.
-/

namespace Verif.Model

/-- A log file: the folder of the model (`prefix_abspath`) and the time stamp. The file is `pyDeltaRCM_<stamp>.log` in the
folder (pyDeltaRCM/init_tools.py 53-55). -/
abbrev LogId := List Char × List Char

/-- The name of the logger (pyDeltaRCM/init_tools.py 49). -/
def loggerName (m : LogId) : List Char := m.1 ++ m.2

/-- Whether a message for the logger `n` reaches the handlers of the logger `a`. -/
def reaches (n a : List Char) : Bool := n == a || (a ++ ['.']).isPrefixOf n

/-- What happens in a process. -/
inductive LogAct
  /-- a model is made: a handler for the file is added to the logger (pyDeltaRCM/init_tools.py 48-60) -/
  | create (m : LogId)
  /-- a model with this file hands a message to its logger -/
  | tell (m : LogId) (text : String)

/-- What a file receives; `hs` are the files of the handlers so far. -/
def logLines (hs : List LogId) : List LogAct → LogId → List String
  | [], _ => []
  | .create m :: as, f => logLines (m :: hs) as f
  | .tell m text :: as, f =>
    (if reaches (loggerName m) (loggerName f) then List.replicate (hs.count f) text else []) ++ logLines hs as f

end Verif.Model
