import Verif.Model.Campaign
import Verif.Model.Setup

/-!
# A class that changes fields at the end of its `__init__`

The class of docs/source/examples/slight_slope.rst, made directly, in jobs, or resumed.
-/

namespace Verif.Model

variable {K : Type*} [Field K] [LinearOrder K] [FloorRing K] {σ : Type*} {L W : ℕ}

/-- The last lines of `SlightSlopeModel.__init__` (docs/source/examples/slight_slope.rst, "modify the basin").
`np.arange(0, Width, step=dx)` has `ceil(Width / dx)` entries; a row of another length than that of the domain cannot be
added (a row of one entry is added to every column). Rows from `L0` on are changed; `L0` is not negative and not more
than the number of rows. -/
def tilt (slope width dx : K) (L0 : ℤ) (S : State L W K) : Except Exc (State L W K) :=
  let n := ⌈width / dx⌉.toNat
  let line : ℕ → K := fun j => slope * ((j : K) * dx)
  if n = W then
    .ok { S with eta := fun c => if L0 ≤ c.1.val then S.eta c + (line c.2.val - slope * width / 2) else S.eta c }
  else if n = 1 then
    .ok { S with eta := fun c => if L0 ≤ c.1.val then S.eta c + (line 0 - slope * width / 2) else S.eta c }
  else .error ⟨.valueError, "operands could not be broadcast together"⟩

/-- `__init__` of a class that calls `super().__init__` and then changes fields by `t`. -/
def Folder.reshaped (f : Folder K σ) (t : State f.L f.W K → Except Exc (State f.L f.W K)) :
    Except StartErr (Sim f.L f.W K σ) → Except Exc (FolderModel K σ) × σ
  | .error e => (.error (excStart e), f.seeded)
  | .ok M =>
    match t M.S with
    | .error e => (.error e, M.rng)
    | .ok S => (.ok ⟨f, { M with S := S }⟩, M.rng)

/-- The class of such models (pyDeltaRCM/preprocessor.py 708: jobs make the model with or without output deferred). -/
def shapedEngine (g : Rng K σ) (t : (f : Folder K σ) → State f.L f.W K → Except Exc (State f.L f.W K)) :
    Engine K (Folder K σ) (FolderModel K σ) σ :=
  { folderEngine g with
    make := fun f _ => f.reshaped (t f) f.start
    defer := fun f _ => f.reshaped (t f) f.startDeferred }

end Verif.Model
