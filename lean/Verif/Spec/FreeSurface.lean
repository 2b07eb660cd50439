import Verif.Props.WaterWalk
import Verif.Model.FreeSurface

/-!
# Specifications for the water surface

These definitions do not use the loops or helper functions of the model.
-/

namespace Verif.Spec

open Verif.Model Verif.Props

variable {K : Type*} [Field K] [LinearOrder K] {L W : ℕ}

/-- `cs` are the cells recorded in `walk` (entries above zero are flat positions, others are
unused slots). -/
def IsPath (walk : List ℤ) (cs : List (Cell L W)) : Prop :=
  walk.filter (fun i => decide (0 < i)) = cs.map position

/-- A parcel shapes the surface: it was not disqualified and ended in an edge cell. -/
def Contributes (E : SfcEnv L W K) (cs : List (Cell L W)) (flag : Bool) : Prop :=
  flag = true ∧ ∃ last, cs.getLast? = some last ∧ E.cellType last = -1

instance (E : SfcEnv L W K) (cs : List (Cell L W)) (flag : Bool) :
    Decidable (Contributes E cs flag) :=
  match h : cs.getLast? with
  | none => isFalse (by rintro ⟨-, l, hl, -⟩; rw [h] at hl; cases hl)
  | some l =>
    if hf : flag = true ∧ E.cellType l = -1 then isTrue ⟨hf.1, l, h, hf.2⟩
    else isFalse (by
      rintro ⟨h1, l', hl', h2⟩
      rw [h] at hl'
      cases hl'
      exact hf ⟨h1, h2⟩)

/-- A cell landward of the shoreline: fast or shallow water. -/
def Shore (E : SfcEnv L W K) (c : Cell L W) : Prop :=
  E.u0 / 2 < E.uw c ∨ E.depth c < E.h0 / 10

instance (E : SfcEnv L W K) (c : Cell L W) : Decidable (Shore E c) := by
  unfold Shore; infer_instance

/-- Rise of the surface from `n` up to `c`: reference slope times the step projected on the flow
direction in `c`; no rise where the water is still. -/
def rise (E : SfcEnv L W K) (c n : Cell L W) : K :=
  if E.uw c = 0 then 0 else
    E.S0 * E.dx * ((E.ux c * ((n.1.val : K) - c.1.val) + E.uy c * ((n.2.val : K) - c.2.val)) / E.uw c)

/-- The surface elevation along a path, from its first to its last cell: sea level in the last
cell; each cell lies above the next one by the rise of the step if the shoreline is crossed
further down the path, and level with it otherwise. -/
def profile (E : SfcEnv L W K) : List (Cell L W) → List K
  | [] => []
  | [_] => [E.HSL]
  | c :: n :: rest =>
    ((profile E (n :: rest)).headD 0
        + if ∃ m ∈ (n :: rest).dropLast, Shore E m then rise E c n else 0)
      :: profile E (n :: rest)

/-- All consecutive cells of the path differ. -/
def Moves : List (Cell L W) → Prop
  | [] => True
  | [_] => True
  | c :: n :: rest => c ≠ n ∧ Moves (n :: rest)

/-- The sum of the elevations of a path at its passages through `c`, without the last cell. -/
def heightAt (E : SfcEnv L W K) (cs : List (Cell L W)) (c : Cell L W) : K :=
  (((cs.dropLast.zip (profile E cs)).filter (fun x : Cell L W × K => decide (x.1 = c))).map
    (fun x : Cell L W × K => x.2)).sum

/-- The length of a path measured with `nrm`, in units of the cell size. -/
def pathLength (nrm : K → K → K) : List (Cell L W) → K
  | [] => 0
  | [_] => 0
  | c :: n :: rest =>
    nrm ((n.1.val : K) - c.1.val) ((n.2.val : K) - c.2.val) + pathLength nrm (n :: rest)

/-- Row and column offset of the eight neighbour positions. -/
def off8 : Fin 8 → ℤ × ℤ :=
  ![(0, 1), (-1, 1), (-1, 0), (-1, -1), (0, -1), (1, -1), (1, 0), (1, 1)]

end Verif.Spec
