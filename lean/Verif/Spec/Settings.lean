import Verif.Model.Timestep
import Verif.Model.Setup

/-!
# C125: settings that have no effect

Which settings a run cannot show: a change of settings is written as a function of the settings, and
two configurations are compared by the models made from them and all their runs.
-/

namespace Verif.Spec

open Verif.Model

variable {K : Type*} {L W m : ℕ}

/-- Other settings of the mud: the two thresholds, the lag and the exponent of its routing. -/
def otherMud (dep ero lag : K) (pw : K → K) (P : Params L W m K) : Params L W m K :=
  { P with
    UdepMud := dep, UeroMud := ero, lam := lag
    pwSed := fun k => match k with
      | .sand => P.pwSed .sand
      | .mud => pw }

/-- Other settings of the sand: its threshold, its capacity, the exponent of its routing and the
diffusion of the bed that follows its flux. -/
def otherSand (ero q cap mult : K) (times : ℕ) (pw : K → K) (P : Params L W m K) : Params L W m K :=
  { P with
    UeroSand := ero, qs0 := q, fCap := cap, diffMult := mult, Ncross := times
    pwSed := fun k => match k with
      | .sand => pw
      | .mud => P.pwSed .mud }

/-- Other settings of the subsidence: on or off, where, how much and from when on. -/
def otherSubsidence (on : Bool) (sigma : Grid L W K) (start : K) (P : Params L W m K) : Params L W m K :=
  { P with toggleSub := on, sigma := sigma, startSub := start }

/-- Another weight of a cell in the smoothing of the surface. -/
def otherWeight (C : K) (P : Params L W m K) : Params L W m K := { P with Csmooth := C }

/-- Other settings of the smoothing: weight and number of passes. -/
def otherSmoothing (C : K) (n : ℕ) (P : Params L W m K) : Params L W m K :=
  { P with Csmooth := C, Nsmooth := n }

/-- Other settings of the relaxation of surface and flow. -/
def otherRelaxation (sfc flow iter : K) (P : Params L W m K) : Params L W m K :=
  { P with omegaSfc := sfc, omegaFlow := flow, omegaFlowIter := iter }

variable [Field K] [LinearOrder K] [FloorRing K] {σ : Type*}

/-- Two configurations with which one sees the same: making a model fails with both and in the same
way, or gives models of the same size and with the same fields, and runs of these of any length do the
same: every parcel in every timestep, the fields, the random numbers used, the errors. -/
structure SameRuns (O : Oracle K) (g : Rng K σ) (I I' : Input K) : Prop where
  fails : ∀ e, create O I = .error e → create O I' = .error e
  runs : ∀ b, create O I = .ok b → ∃ P', create O I' = .ok ⟨b.L, b.W, b.m, P', b.S⟩ ∧
    ∀ (_ : NeZero b.L) (_ : NeZero b.W) (n : ℕ) (s : σ),
      timesteps g (List.replicate n P') b.S s = timesteps g (List.replicate n b.P) b.S s

end Verif.Spec
