import Verif.Model.Config
import Mathlib.Data.Finset.Insert

/-!
# Specification of configuration values

A dictionary is seen as a partial function; what the code builds is compared with these functions.
-/

namespace Verif.Spec

open Verif.Model

variable {T V : Type*}

/-- The value a user supplies for a key: the keyword if given, else the one in the file. -/
def supplied (yaml kw : String → Option V) (k : String) : Option V :=
  match kw k with
  | some v => some v
  | none => yaml k

/-- The keys that control a run and are not parameters of the model. -/
def runControl : Finset String :=
  {"timesteps", "time", "time_years", "config", "dryrun", "parallel"}

/-- The keys that only the Preprocessor understands. -/
def preprocessorOnly : Finset String := {"matrix", "ensemble", "set"}

end Verif.Spec
