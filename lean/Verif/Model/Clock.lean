import Verif.Model.Float
import Verif.Model.Jobs
import Verif.Model.Output
import Verif.Model.Setup

/-!
# Time in rounded arithmetic

The time step, the end of a job, the clock of a model and the times since the last save and the last
checkpoint are Python floats. Here they are computed with a rounding after each operation. What the
timestep does to the rest of the model is left open.
-/

namespace Verif.Model

variable {K : Type*} [Field K] [LinearOrder K]

/-- The time step (pyDeltaRCM/init_tools.py 421-452) for an inlet of `N0` cells. A power with exponent
two is a product; `0.1` and `100.0` are literals, the other numbers are as read. -/
def timeStepR (R : Rounding K) (I : Input K) (N0 : ℤ) : K :=
  let C0 := R.fl (R.fl (I.C0pct * 1) / 100)
  let V0 := R.fl (I.h0 * R.fl (I.dx * I.dx))
  let Qw0 := R.fl (R.fl (R.fl (I.u0 * I.h0) * (N0 : K)) * I.dx)
  let dVs := R.fl (R.fl (R.fl (1 / 10) * R.fl ((N0 : K) * (N0 : K))) * V0)
  let Qs0 := R.fl (Qw0 * C0)
  R.fl (dVs / Qs0)

/-- `v * x` for a float `x`: an integer is converted first. -/
def timesNumR (R : Rounding K) (v : Yaml) (x : K) : Except Exc K :=
  match numOf v with
  | some q => .ok (R.fl (R.fl (q : K) * x))
  | none => .error ⟨.typeError, "unsupported operand"⟩

/-- The time a job is to run (pyDeltaRCM/preprocessor.py 711-749). The factors of a time in years are
multiplied from the left. -/
def durationR (R : Rounding K) (parse : String → Option ℚ) (cfg : Dict Yaml) (dt : K) : Except Exc K :=
  match jobIf parse cfg with
  | .error e => .error e
  | .ok If =>
    match dget cfg "timesteps" with
    | some v => timesNumR R v dt
    | none =>
      match dget cfg "time" with
      | some v => timesNumR R v (R.fl (If : K))
      | none =>
        match dget cfg "time_years" with
        | some v =>
          match timesNumR R v (R.fl (If : K)) with
          | .error e => .error e
          | .ok x => .ok (R.fl (R.fl (x * 86400) * (1461 / 4)))
        | none => .error ⟨.valueError, "You must specify a run duration"⟩

variable {In M G : Type*}

/-- `_BaseJob.__init__` (pyDeltaRCM/preprocessor.py 684-749). -/
def makeJobR (R : Rounding K) (E : Engine K In M G) (parse : String → Option ℚ) (i : ℕ) (inp : In)
    (cfg : Dict Yaml) (s : G) : Except Exc (Job K M) × G :=
  match E.make inp s with
  | (.error e, s1) => (.error e, s1)
  | (.ok mo, s1) =>
    match durationR R parse cfg (E.dt mo) with
    | .error e => (.error e, s1)
    | .ok d => (.ok ⟨i, mo, R.fl (E.time mo + d)⟩, s1)

/-! ## Saving -/

/-- The part of a model that keeps the time; `x` is everything else, with the random generator. -/
structure Timed (X K : Type*) where
  x : X
  time : K
  /-- `_save_time_since_data`; `none` stands for `inf` -/
  saveSince : Option K
  /-- `_save_time_since_checkpoint` -/
  ckptSince : Option K
  saveIter : ℕ
  /-- the saves so far: index, time and model. Ghost information. -/
  saves : List (ℕ × K × X)
  /-- the checkpoints written so far: time and model. Ghost information. -/
  ckpts : List (K × X)

variable {X : Type*}

/-- `output_data` (pyDeltaRCM/iteration_tools.py 145-151). -/
def Timed.output (cfg : OutCfg K) (T : Timed X K) : Timed X K :=
  if due cfg.saveDt T.saveSince then
    { T with
      saves := T.saves ++ [(T.saveIter, T.time, T.x)], saveIter := T.saveIter + 1, saveSince := some 0 }
  else T

/-- `output_checkpoint` (pyDeltaRCM/iteration_tools.py 153-182). -/
def Timed.checkpoint (cfg : OutCfg K) (T : Timed X K) : Timed X K :=
  if due cfg.ckptDt T.ckptSince then
    if cfg.saveCkpt then { T with ckpts := T.ckpts ++ [(T.time, T.x)], ckptSince := some 0 } else T
  else T

/-- A new model (pyDeltaRCM/model.py 79-84, 130-143). -/
def Timed.start (cfg : OutCfg K) (x : X) : Timed X K :=
  Timed.checkpoint cfg (Timed.output cfg ⟨x, 0, none, none, 0, [], []⟩)

/-- `+= dt`; `inf` stays. -/
def addSinceR (R : Rounding K) (d : K) : Option K → Option K
  | none => none
  | some x => some (R.fl (x + d))

/-- `update` (pyDeltaRCM/model.py 188-215), where the timestep makes `x` of the model. -/
def Timed.update (R : Rounding K) (cfg : OutCfg K) (dt : K) (x : X) (T : Timed X K) : Timed X K :=
  Timed.checkpoint cfg (Timed.output cfg
    { T with
      x := x, time := R.fl (T.time + dt), saveSince := addSinceR R dt T.saveSince
      ckptSince := addSinceR R dt T.ckptSince })

/-- So many updates with timestep `f`. -/
def Timed.run (R : Rounding K) (cfg : OutCfg K) (dt : K) (f : X → X) : ℕ → Timed X K → Timed X K
  | 0, T => T
  | n + 1, T => Timed.run R cfg dt f n (Timed.update R cfg dt (f T.x) T)

end Verif.Model
