import Verif.Spec.Settings
import Verif.Spec.Clock
import Verif.Model.FloatSetup
import Verif.Model.FloatTimestep

/-!
# C125 in rounded arithmetic: settings that have no effect
-/

namespace Verif.Spec

open Verif.Model

variable {K : Type*} [Field K] [LinearOrder K] [FloorRing K] {σ : Type*}

/-- As `SameRuns`, for models made and run in rounded arithmetic. -/
structure SameRunsR (F D : Rounding K) (O : Oracle K) (g : Rng K σ) (I I' : Input K) : Prop where
  fails : ∀ e, createR F D O I = .error e → createR F D O I' = .error e
  runs : ∀ b, createR F D O I = .ok b → ∃ P', createR F D O I' = .ok ⟨b.L, b.W, b.m, P', b.S⟩ ∧
    ∀ (_ : NeZero b.L) (_ : NeZero b.W) (n : ℕ) (s : σ),
      timestepsR F D g (List.replicate n P') b.S s = timestepsR F D g (List.replicate n b.P) b.S s

end Verif.Spec
