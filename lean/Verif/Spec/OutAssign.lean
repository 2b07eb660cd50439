import Verif.Model.OutAssign
import Verif.Spec.Schedule

/-!
# Specification: schedules with settings that change

When events happen if the interval between them may be changed at any time, and which value a setting has.
-/

namespace Verif.Spec

open Verif.Model

variable {K : Type*} [Field K] [LinearOrder K] {L W m : ℕ}

/-- Events at update numbers up to `n`: the first at the first update with `start`, and after one at update `a` the next
at the first later update `k` with `D k` of the time since. -/
structure Events (start : ℕ → Prop) (D : ℕ → K → Prop) (T : ℕ → K) (n : ℕ) (is : List ℕ) : Prop where
  none : is = [] → ∀ k ≤ n, ¬ start k
  first : ∀ a ∈ is.head?, start a ∧ ∀ k < a, ¬ start k
  next : is.IsChain fun a b => a < b ∧ D b (T b - T a) ∧ ∀ k, a < k → k < b → ¬ D k (T k - T a)
  last : ∀ a ∈ is.getLast?, a ≤ n ∧ ∀ k, a < k → k ≤ n → ¬ D k (T k - T a)

/-- The updates of a session. -/
def updatesOf : List (OutAct L W m K) → List (Params L W m K)
  | [] => []
  | .assign _ :: r => updatesOf r
  | .update P :: r => P :: updatesOf r

/-- The assignments of a session. -/
def assignsOf : List (OutAct L W m K) → List (OutAssign K)
  | [] => []
  | .assign a :: r => a :: assignsOf r
  | .update _ :: r => assignsOf r

/-- The assignments before update number `k`, where 0 is the creation of the model. -/
def assignedBefore : List (OutAct L W m K) → ℕ → List (OutAssign K)
  | _, 0 => []
  | [], _ => []
  | .assign a :: r, k + 1 => a :: assignedBefore r (k + 1)
  | .update _ :: r, k + 1 => assignedBefore r k

/-- The value last assigned, or the one at the beginning. -/
def lastValue {A : Type*} (p : OutAssign K → Option A) (v : A) (as : List (OutAssign K)) : A :=
  ((as.filterMap p).getLast?).getD v

/-- `save_dt` -/
def isSaveDt : OutAssign K → Option K
  | .saveDt x => some x
  | _ => none

/-- `save_checkpoint` -/
def isSaveCkpt : OutAssign K → Option Bool
  | .saveCkpt b => some b
  | _ => none

/-- `save_figs_sequential` -/
def isSequential : OutAssign K → Option Bool
  | .sequential b => some b
  | _ => none

/-- `save_metadata` -/
def isMetadata : OutAssign K → Option Bool
  | .metadata b => some b
  | _ => none

/-- `checkpoint_dt` -/
def isCkptDt : OutAssign K → Option (Option K)
  | .ckptDt x => some x
  | _ => none

/-- The interval of checkpoints after assignments, from `d` for saves and `c` for checkpoints: the value last assigned, where
`None` is the interval of saves at that moment. -/
def ckptValue (d c : K) : List (OutAssign K) → K
  | [] => c
  | .saveDt x :: r => ckptValue x c r
  | .ckptDt none :: r => ckptValue d d r
  | .ckptDt (some x) :: r => ckptValue d x r
  | _ :: r => ckptValue d c r

/-- The flags of figures. -/
def isFig : OutAssign K → Option (FigFlag × Bool)
  | .fig f b => some (f, b)
  | _ => none

/-- The checkpoint has the fields and the random numbers. -/
structure HoldsState {σ : Type*} (c : Ckpt L W K σ) (S : State L W K) (s : σ) : Prop where
  time : c.time = S.time
  iter : c.timeIter = S.timeIter
  eta : c.eta = S.eta
  depth : c.depth = S.depth
  stage : c.stage = S.stage
  uw : c.uw = S.uw
  ux : c.ux = S.ux
  uy : c.uy = S.uy
  qw : c.qw = S.qw
  qx : c.qx = S.qx
  qy : c.qy = S.qy
  sand : c.sandFrac = S.sandFrac
  active : c.activeLayer = S.activeLayer
  sea : c.HSL = S.HSL
  rng : c.rng = s

end Verif.Spec
