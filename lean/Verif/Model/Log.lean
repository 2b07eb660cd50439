import Mathlib.Data.Int.Order.Basic
import Mathlib.Data.List.Basic

/-!
# The log

Model of `log_info` and `log_model_time` (`pyDeltaRCM/iteration_tools.py` 117-143) and of the calls of
the logger that do not look at the verbosity.
-/

namespace Verif.Model

/-- A request made by the code to say something. -/
inductive LogReq
  /-- `self.log_info(message, verbosity=level)` -/
  | info (level : ℤ) (msg : String)
  /-- `self.logger.warning(message)`, `.error`, `.exception` -/
  | always (msg : String)
  /-- `self.log_model_time()` with the formatted time -/
  | modelTime (msg : String)
deriving DecidableEq

/-- What a user sees: the log file and the standard output. -/
structure Said where
  log : List String
  out : List String
deriving DecidableEq

/-- One request at the verbosity `v` (pyDeltaRCM/iteration_tools.py 117-143). -/
def say (v : ℤ) : LogReq → Said
  | .info level msg => ⟨if v ≥ level then [msg] else [], []⟩
  | .always msg => ⟨[msg], []⟩
  | .modelTime msg => ⟨[msg], if v > 0 then [msg] else []⟩

/-- A sequence of requests, each with the verbosity at that moment: `verbose` may be changed at any
time (pyDeltaRCM/model.py 262-276). -/
def sayAll : List (ℤ × LogReq) → Said
  | [] => ⟨[], []⟩
  | (v, r) :: rs => ⟨(say v r).log ++ (sayAll rs).log, (say v r).out ++ (sayAll rs).out⟩

end Verif.Model
