import Verif.Model.Pick

/-!
# The random number generator

The numba generator state is global (pyDeltaRCM/shared_tools.py 20-104). The model threads a state
`σ` through every draw. `next` is arbitrary; theorems state what they need about its outputs.
-/

namespace Verif.Model

variable {K σ : Type*}

/-- A source of uniform draws: one call of `np.random.uniform` (pyDeltaRCM/shared_tools.py 146)
returns a number and changes the generator state. -/
structure Rng (K σ : Type*) where
  next : σ → K × σ

/-- `n` consecutive draws. -/
def drawN (g : Rng K σ) : ℕ → σ → List K × σ
  | 0, s => ([], s)
  | n + 1, s =>
    let (r, s1) := g.next s
    let (rs, s2) := drawN g n s1
    (r :: rs, s2)

end Verif.Model
