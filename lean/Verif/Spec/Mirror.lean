import Verif.Model.State

/-!
# Specification: the basin seen in a mirror

Left and right exchanged: columns are read from the other end, the flow across changes its sign.
-/

namespace Verif.Spec

open Verif.Model

variable {L W : ℕ}

/-- The cell at the same distance from the other side. -/
def mirrorCell (c : Cell L W) : Cell L W := (c.1, c.2.rev)

/-- A field seen in the mirror. -/
def mirror {α : Type*} (f : Grid L W α) : Grid L W α := fun c => f (mirrorCell c)

/-- The flow across, seen in the mirror. -/
def mirrorAcross {K : Type*} [Neg K] (f : Grid L W K) : Grid L W K := fun c => - f (mirrorCell c)

/-- A direction seen in the mirror: left and right exchanged. -/
def mirrorDir : Fin 9 → Fin 9 := ![2, 1, 0, 5, 4, 3, 8, 7, 6]

/-- Settings of the mirrored basin. The inlet cells are listed from left to right again. -/
def mirrorParams {K : Type*} {m : ℕ} (P : Params L W m K) : Params L W m K :=
  { P with
    cellType := mirror P.cellType
    inlet := fun k => (P.inlet k.rev).rev
    modWater := mirror P.modWater
    modSed := mirror P.modSed
    modErosion := mirror P.modErosion
    sigma := mirror P.sigma
    CTR := (W : ℤ) - 1 - P.CTR }

/-- The fields of the mirrored basin. -/
def mirrorState {K : Type*} [Neg K] (S : State L W K) : State L W K :=
  { S with
    eta := mirror S.eta, stage := mirror S.stage, depth := mirror S.depth
    qx := mirror S.qx, qy := mirrorAcross S.qy, qw := mirror S.qw
    ux := mirror S.ux, uy := mirrorAcross S.uy, uw := mirror S.uw
    qs := mirror S.qs, depSand := mirror S.depSand, depMud := mirror S.depMud
    sandFrac := mirror S.sandFrac, activeLayer := mirror S.activeLayer }

end Verif.Spec
