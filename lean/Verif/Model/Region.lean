import Verif.Model.Setup

/-!
# The class of the documentation whose subsidence is constrained to a region

docs/source/examples/subsidence_region.rst: `ConstrainedSubsidenceModel` overwrites `init_subsidence`. Exact arithmetic;
square root, arctangent and π are given.
-/

namespace Verif.Model

variable {K : Type*} [Field K] [LinearOrder K] [IsStrictOrderedRing K] [FloorRing K]

/-- `np.sqrt`, `np.arctan` and `np.pi`. -/
structure Angles (K : Type*) where
  sqrt : K → K
  atan : K → K
  pi : K

/-- `subsidence_mask` of `ConstrainedSubsidenceModel.init_subsidence` (docs/source/examples/subsidence_region.rst) as
zero or one. `y` and `x` are the row and the column of a cell (pyDeltaRCM/init_tools.py 488). -/
def regionMask (A : Angles K) (L W : ℕ) (L0 : ℤ) : Grid L W K :=
  let theta1 : K := -(A.pi / 3)
  let theta2 : K := 0
  let R1 : K := 3 / 10 * L
  let R2 : K := 8 / 10 * L
  let inside : Grid L W K := fun c =>
    let y : K := c.1.val
    let x : K := c.2.val
    let Rloc := A.sqrt ((y - L0) ^ 2 + (x - W / 2) ^ 2)
    let thetaloc := if (L0 : K) - 1 < y then A.atan ((x - W / 2) / (y - L0 + 1)) else 0
    if R1 ≤ Rloc ∧ Rloc ≤ R2 ∧ theta1 ≤ thetaloc ∧ thetaloc ≤ theta2 then 1 else 0
  assign inside (landRows L W L0) (fun _ => 0)

/-- `sigma` of `ConstrainedSubsidenceModel.init_subsidence`. -/
def regionSigma (A : Angles K) (L W : ℕ) (I : Input K) (D : Derived K) : Grid L W K :=
  if I.toggleSub then fun c => regionMask A L W D.L0 c * I.subRate * D.dt else fun _ => 0

/-- The construction of such a model, as `create` (pyDeltaRCM/model.py 103-123) with the overwritten method. -/
def createRegion (A : Angles K) (O : Oracle K) (I : Input K) : Except SetupErr (Built K) :=
  match validate I with
  | .error e => .error e
  | .ok _ =>
    let L := cellsAlong I.Length I.dx
    let W := cellsAlong I.Width I.dx
    match boundaryConditions I L W with
    | .error e => .error e
    | .ok D =>
      if D.sizeInd < 0 then .error .negativeDim
      else
        let CTR := centre W
        let ct := cellTypes L.toNat W.toNat CTR D.L0 D.N0
        .ok ⟨L.toNat, W.toNat, (inletCols ct).length,
          { initialParams CTR ct O I D with sigma := regionSigma A L.toNat W.toNat I D },
          initialState L.toNat W.toNat CTR O I D⟩

end Verif.Model
