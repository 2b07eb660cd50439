import Verif.Model.Jobs

/-!
# Models as jobs

The models of `Verif.Model.Output` as a class for `run_jobs`. The generator belongs to the process and
not to the model: `update` goes on from its state.
-/

namespace Verif.Model

variable {K : Type*} [Field K] [LinearOrder K] [FloorRing K] {σ : Type*}

/-- What a configuration gives: sizes, parameters, settings of output, the initial state, and the state
of the generator that its seed gives. -/
structure Setting (K σ : Type*) where
  L : ℕ
  W : ℕ
  m : ℕ
  hL : NeZero L
  hW : NeZero W
  P : Params L W m K
  out : OutCfg K
  S : State L W K
  seeded : σ

/-- A model of any size. -/
structure AnyModel (K σ : Type*) where
  L : ℕ
  W : ℕ
  m : ℕ
  hL : NeZero L
  hW : NeZero W
  P : Params L W m K
  out : OutCfg K
  sim : Sim L W K σ

/-- The model of a setting. -/
def Setting.live (c : Setting K σ) (X : Sim c.L c.W K σ) : AnyModel K σ :=
  ⟨c.L, c.W, c.m, c.hL, c.hW, c.P, c.out, X⟩

/-- The type of what is raised (see `Verif.Model.Err`). -/
def excOf : CallErr → Exc
  | .finalized => ⟨.runtimeError, "model already finalized"⟩
  | .overflow => ⟨.other, "OverflowError"⟩
  | .inner .waterNoNonWall => ⟨.runtimeError, "No non-wall cells"⟩
  | .inner .waterNegativeSum => ⟨.runtimeError, "Water sum(weight) less than 0"⟩
  | .inner .sedNoWeights => ⟨.runtimeError, "No weights encountered"⟩
  | .inner .index => ⟨.other, "IndexError"⟩
  | .inner .unbound => ⟨.other, "UnboundLocalError"⟩
  | .inner .diverge => ⟨.other, "the loop does not end"⟩

/-- `update` (pyDeltaRCM/model.py 149-215) with the generator of the process. After an exception the
model is left as it was, a simplification. -/
def AnyModel.update (g : Rng K σ) (mo : AnyModel K σ) (s : σ) : Option Exc × AnyModel K σ × σ :=
  have := mo.hL
  have := mo.hW
  match Verif.Model.update g mo.out mo.P { mo.sim with rng := s } with
  | .ok M => (none, { mo with sim := M }, M.rng)
  | .error e => (some (excOf e), mo, s)

/-- `finalize` (pyDeltaRCM/model.py 217-246). -/
def AnyModel.finalize (mo : AnyModel K σ) (s : σ) : Option Exc × AnyModel K σ × σ :=
  match Verif.Model.finalize mo.sim with
  | .ok M => (none, { mo with sim := M }, s)
  | .error e => (some (excOf e), mo, s)

/-- The class of models without resume: `__init__` (pyDeltaRCM/model.py 78-147) seeds the generator of
the process; with `defer_output` the first output is left to the job
(pyDeltaRCM/preprocessor.py 887-896). -/
def simEngine (g : Rng K σ) : Engine K (Setting K σ) (AnyModel K σ) σ where
  make c _ := (.ok (c.live (startSim c.out c.S c.seeded)), c.seeded)
  defer c _ := (.ok (c.live (newSim c.S c.seeded)), c.seeded)
  begin mo s := (none, { mo with
    sim := outputCheckpoint mo.out (outputData mo.out { mo.sim with rng := s }) }, s)
  time mo := mo.sim.S.time
  dt mo := mo.P.dt
  update := AnyModel.update g
  finalize := AnyModel.finalize

end Verif.Model
