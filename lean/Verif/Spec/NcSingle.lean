import Verif.Spec.OutputFile
import Verif.Model.Float

/-!
# What the output file holds in single precision
-/

namespace Verif.Spec

open Verif.Model

variable {K : Type*} [Field K] [LinearOrder K] [FloorRing K] {L W m : ℕ}

/-- The file of a model `M` when the file was made, with the model `Ms[i]` at save number `i`; `on` are the
flags that are true. Each number is the one of the model (`FileOk`), rounded once by `F`; the coordinates are
computed with `D` before. -/
structure FileRounded (F D : Rounding K) (legacy : Bool) (on : GridFlag → Prop) (M : Live L W m K)
    (Ms : List (Live L W m K)) (f : NcFile L W K) : Prop where
  time : f.time.data = fun i => (Ms[i]?).map fun M => F.fl M.S.time
  grids : ∀ g, on g → ∀ name ∈ askedFor g, ∃ u d, dget f.vars name = some ⟨u, d⟩ ∧
    ∀ i, d i = (Ms[i]?).bind fun M => (documentedGrid M.S name).map fun h c => F.fl (h c)
  only : ∀ name ∈ dkeys f.vars, ∃ g, on g ∧ name ∈ askedFor g
  dims : f.dims = if legacy then [("length", some L), ("width", some W), ("total_time", none)]
    else [("x", some L), ("y", some W), ("time", none)]
  x : legacy = false → ∃ xs : List K, f.x.2 = .line xs ∧ xs.length = L ∧
    ∀ i < L, xs[i]? = some (F.fl (D.fl (i * M.I.dx)))
  y : legacy = false → ∃ ys : List K, f.y.2 = .line ys ∧ ys.length = W ∧
    ∀ j < W, ys[j]? = some (F.fl (D.fl (j * M.I.dx)))
  legacyX : legacy = true → f.x.2 = .cells fun c => F.fl (c.2.val : K)
  legacyY : legacy = true → f.y.2 = .cells fun c => F.fl (c.1.val : K)
  sea : ∃ u, dget f.varying "H_SL" = some ⟨u, fun i => (Ms[i]?).map fun M => F.fl M.S.HSL⟩
  bedload : ∃ u, dget f.varying "f_bedload" = some ⟨u, fun i => (Ms[i]?).map fun M => F.fl M.I.fBedload⟩
  conc : ∃ u, dget f.varying "C0_percent" = some ⟨u, fun i => (Ms[i]?).map fun M => F.fl M.I.C0pct⟩
  velocity : ∃ u, dget f.varying "u0" = some ⟨u, fun i => (Ms[i]?).map fun M => F.fl M.I.u0⟩
  onlyVarying : dkeys f.varying = ["H_SL", "f_bedload", "C0_percent", "u0"]
  L0 : ∃ u, dget f.fixed "L0" = some (u, .int M.D.L0)
  N0 : ∃ u, dget f.fixed "N0" = some (u, .int M.D.N0)
  CTR : ∃ u, dget f.fixed "CTR" = some (u, .int M.P.CTR)
  dx : ∃ u, dget f.fixed "dx" = some (u, .num (F.fl M.I.dx))
  h0 : ∃ u, dget f.fixed "h0" = some (u, .num (F.fl M.I.h0))
  hb : ∃ u x, dget f.fixed "hb" = some (u, .num (F.fl x)) ∧ (M.I.hb = none → x = M.I.h0) ∧
    ∀ b, M.I.hb = some b → b ≠ 0 → x = b
  cells : ∃ u, dget f.fixed "cell_type" = some (u, .ints M.P.cellType)
  sigma : M.I.toggleSub = true → ∃ u, dget f.fixed "sigma" = some (u, .nums fun c => F.fl (M.P.sigma c))
  start : M.I.toggleSub = true → ∃ u n, dget f.fixed "start_subsidence" = some (u, .int n) ∧
    |(n : K)| ≤ |M.I.startSub| ∧ |M.I.startSub - n| < 1
  off : M.I.toggleSub = false → dget f.fixed "sigma" = none ∧ dget f.fixed "start_subsidence" = none

end Verif.Spec
