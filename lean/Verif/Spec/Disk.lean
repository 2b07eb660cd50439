import Verif.Model.Disk

/-!
# What a folder must hold after a crash
-/

namespace Verif.Spec

open Verif.Model

variable {C R : Type*}

/-- The checkpoint in the folder can be loaded. -/
def Loadable (d : Disk C R) : Prop := ∃ b ck, d.ckpt = some b ∧ b.read = some ck

/-- All the records `n` can be read from one of the two output files. -/
def Holds (d : Disk C R) (n : ℕ → Option R) : Prop :=
  ∃ b n', (d.out = some b ∨ d.old = some b) ∧ b.read = some n' ∧ ∀ i r, n i = some r → n' i = some r

end Verif.Spec
