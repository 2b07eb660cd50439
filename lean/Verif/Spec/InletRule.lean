import Verif.Model.InletRule
import Verif.Spec.Paths

/-!
# Weights of inlet cells

Independent vocabulary for C115.
-/

namespace Verif.Spec

open Verif.Model

variable {K : Type*} [Field K] [LinearOrder K] {L W m : ℕ}

/-- Weights that can be used for a choice. -/
def Usable {n : ℕ} (w : Fin n → K) : Prop := (∀ i, 0 ≤ w i) ∧ 0 < ∑ i, w i

/-- The weights that a class gives are usable whenever depths are not negative. -/
structure UsableRule (R : InletRule L W m K) : Prop where
  water : ∀ P S, (∀ c, 0 ≤ S.depth c) → Usable (R.water P S)
  sediment : ∀ k P S, (∀ c, 0 ≤ S.depth c) → Usable (R.sediment k P S)

/-- The start of a parcel in cell `k` of the inlet by weights `w`. -/
def weighed (w : Fin m → K) (k : Fin m) : Decision K := ⟨m, w, k⟩

/-- The generator that gives the numbers of a sequence of numbers that a generator can give. -/
def unitStream : Rng K (ℕ → {x : K // 0 < x ∧ x ≤ 1}) where
  next := fun s => ((s 0).val, fun i => s (i + 1))

end Verif.Spec
