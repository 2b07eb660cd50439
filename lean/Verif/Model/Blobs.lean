import Verif.Model.Custom

/-!
# The class of the documentation that adds blobs to the bed

`CustomRandomModel` of docs/source/examples/custom_class_preprocessor.rst (lines 16-57). Exact arithmetic; `np.exp` and `np.pi` are
given.
-/

namespace Verif.Model

variable {K : Type*} [Field K] [LinearOrder K] [FloorRing K] {σ : Type*} {L W m : ℕ}

/-- The attributes that the class adds (docs/source/examples/custom_class_preprocessor.rst 30-32). -/
structure Noise (K : Type*) where
  patch : ℕ
  size : K
  scale : K

/-- The values of the documentation. -/
def docNoise : Noise K := ⟨25, 5, 200⟩

/-- Entry `i` of `np.linspace(-half, half, num=patch)`, where `half` is `patch // 2`
(docs/source/examples/custom_class_preprocessor.rst 33-36). -/
def Noise.coord (N : Noise K) (i : ℕ) : K :=
  -((N.patch / 2 : ℕ) : K) + i * (2 * ((N.patch / 2 : ℕ) : K) / ((N.patch : K) - 1))

/-- Entry `[i, j]` of `blob` (docs/source/examples/custom_class_preprocessor.rst 52-54). `noise_x` changes with the column and `noise_y`
with the row. -/
def Noise.blob (ex : K → K) (pi : K) (N : Noise K) (i j : ℕ) : K :=
  1 / (2 * pi * N.size * N.size) *
    ex (-(N.coord j ^ 2 / (2 * N.size ^ 2) + N.coord i ^ 2 / (2 * N.size ^ 2))) * N.scale

/-- `solve_water_and_sediment_timestep` of the class (docs/source/examples/custom_class_preprocessor.rst 38-57). In a domain with fewer rows
or columns than the patch the slice has never the shape of the blob, and numpy raises a `ValueError` (here an error).
`int` of a number that is not negative is the floor, and the slice is then inside the domain. -/
def blobAct (ex : K → K) (pi : K) (g : Rng K σ) : Doing L W m K (Noise K) σ := fun c =>
  let (x, s1) := g.next c.rng
  let (y, s2) := g.next s1
  let (_, s3) := g.next s2
  let p := c.extra.patch
  if L < p ∨ W < p then .error .index
  else
    let r := ⌊x * ((L : K) - p)⌋
    let q := ⌊y * ((W : K) - p)⌋
    let eta : Grid L W K := fun a =>
      if (r ≤ a.1.val ∧ (a.1.val : ℤ) < r + p) ∧ q ≤ a.2.val ∧ (a.2.val : ℤ) < q + p then
        c.S.eta a + c.extra.blob ex pi (a.1.val - r).toNat (a.2.val - q).toNat
      else c.S.eta a
    .ok { c with S := { c.S with eta := eta }, rng := s3 }

/-- `CustomRandomModel` (docs/source/examples/custom_class_preprocessor.rst 16-57). -/
def blobClass (ex : K → K) (pi : K) (g : Rng K σ) : UserClass L W m K (Noise K) σ :=
  { plainClass with
    own := fun s =>
      match s with
      | .solveWaterAndSediment => some (blobAct ex pi g)
      | _ => none }

end Verif.Model
