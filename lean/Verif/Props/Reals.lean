import Mathlib.Analysis.SpecialFunctions.Pow.Real
import Verif.Props.Created

/-!
# The real numbers with square roots and powers

The theorems about whole runs take square roots and powers as functions with some properties
(`OracleOk`). Here the real functions are shown to have them, so that nothing about roots and powers
is assumed.
-/

set_option linter.unusedSectionVars false

namespace Verif.Props

open Verif.Model

/-- The functions that the code calls, over the real numbers. -/
noncomputable def realOracle : Oracle ℝ where
  s2 := Real.sqrt 2
  s05 := Real.sqrt (1 / 2)
  nrm := fun x y => Real.sqrt (x ^ 2 + y ^ 2)
  pow := fun x y => x ^ y

lemma realOracleOk : OracleOk realOracle where
  s2 := Real.sqrt_pos.2 (by norm_num)
  s05 := Real.sqrt_pos.2 (by norm_num)
  nrm := fun _ _ => Real.sqrt_nonneg _
  nrmZero := by
    intro x y h
    have h0 : 0 ≤ x ^ 2 + y ^ 2 := add_nonneg (sq_nonneg x) (sq_nonneg y)
    have h1 : x ^ 2 + y ^ 2 = 0 := (Real.sqrt_eq_zero h0).1 h
    have hx : x ^ 2 = 0 := le_antisymm (by nlinarith [sq_nonneg y]) (sq_nonneg x)
    have hy : y ^ 2 = 0 := le_antisymm (by nlinarith [sq_nonneg x]) (sq_nonneg y)
    exact ⟨pow_eq_zero_iff (two_ne_zero) |>.1 hx, pow_eq_zero_iff (two_ne_zero) |>.1 hy⟩
  nrmAxis := by
    intro x hx
    show Real.sqrt (x ^ 2 + 0 ^ 2) = x
    rw [zero_pow two_ne_zero, add_zero]
    exact Real.sqrt_sq hx
  powNonneg := fun x e _ hx => Real.rpow_nonneg hx e
  powPos := fun x e _ hx => Real.rpow_pos_of_pos hx e
  powMono := fun _ _ _ he hx hxy => Real.rpow_le_rpow hx hxy he

/-- C74 over the real numbers: a configuration in the documented ranges gives a model that makes any
number of updates. Nothing is assumed about roots and powers. -/
theorem C74_real {σ : Type*} {I : Input ℝ} (hI : Runnable I) {g : Rng ℝ σ} (hg : PositiveDraws g) :
    ∃ (L W m : ℕ) (_ : NeZero L) (_ : NeZero W) (P : Params L W m ℝ) (S : State L W ℝ),
      create realOracle I = .ok ⟨L, W, m, P, S⟩ ∧ 0 < P.dt ∧
      ∀ (n : ℕ) (s : σ), ∃ S' ls s', timesteps g (List.replicate n P) S s = .ok (S', ls, s') ∧
        S'.time = n * P.dt ∧ S'.HSL = I.HSL + n * (I.SLR * P.dt) ∧
        (∀ c, P.cellType c = -2 → S'.eta c = S.eta c) ∧
        (∀ c, 0 ≤ S'.depth c) ∧ (∀ c, 0 ≤ S'.sandFrac c ∧ S'.sandFrac c ≤ 1) ∧
        (0 < n → ∀ c, S'.depth c = max (S'.stage c - S'.eta c) 0 ∧ 0 ≤ S'.uw c ∧ S'.uw c ≤ 2 * I.u0) ∧
        (0 < n → ∀ k, S'.depth (0, P.inlet k) = I.h0 ∧ S'.qx (0, P.inlet k) = I.u0 * I.h0 ∧
          S'.qy (0, P.inlet k) = 0) :=
  C74_run realOracleOk hI hg

/-! ## Non-trivial case: the default configuration -/

/-- The defaults of pyDeltaRCM/default.yml, as real numbers. -/
noncomputable def realInput : Input ℝ where
  Length := 5000
  Width := 10000
  dx := 50
  L0m := 150
  S0 := 3 / 20000
  itermax := 3
  NpWater := 2000
  u0 := 1
  N0m := 250
  h0 := 5
  hb := none
  HSL := 0
  SLR := 0
  NpSed := 2000
  fBedload := 1 / 2
  actThick := none
  C0pct := 1 / 10
  Csmooth := 9 / 10
  toggleSub := false
  subRate := 1 / 500000000
  startSub := 216000
  saveDt := 86400
  ckptDt := none
  omegaSfc := 1 / 10
  omegaFlow := 9 / 10
  Nsmooth := 10
  thetaWater := 1
  coeffThetaSand := 2
  coeffThetaMud := 1
  beta := 3
  sedLag := 1
  coeffUdepMud := 3 / 10
  coeffUeroMud := 3 / 2
  coeffUeroSand := 21 / 20
  alpha := 1 / 10
  stepmax := none
  sandFracBc := 0

/-- The default configuration can be run. -/
lemma realRunnable : Runnable realInput where
  accepted := by
    constructor <;> first | (norm_num [realInput]; done) | simp [realInput]
  flowing := ⟨by norm_num [realInput], by norm_num [realInput], by norm_num [realInput],
    by norm_num [realInput]⟩
  hb := by simp [realInput]
  rows := by
    have : realInput.L0m / realInput.dx = ((3 : ℤ) : ℝ) := by norm_num [realInput]
    rw [this, round_int]; norm_num
  L := by
    have : realInput.Length / realInput.dx = ((100 : ℤ) : ℝ) := by norm_num [realInput]
    rw [cellsAlong, this, round_int]; norm_num
  W := by
    have : realInput.Width / realInput.dx = ((200 : ℤ) : ℝ) := by norm_num [realInput]
    rw [cellsAlong, this, round_int]; norm_num
  slope0 := by norm_num [realInput]
  slope1 := by norm_num [realInput]
  steps := by simp [realInput]
  lag0 := by norm_num [realInput]
  lag1 := by norm_num [realInput]
  eroSand := by norm_num [realInput]
  eroMud := by norm_num [realInput]
  depMud := by norm_num [realInput]
  theta := by norm_num [realInput]
  thetaSand := by norm_num [realInput]
  thetaMud := by norm_num [realInput]
  beta := by norm_num [realInput]
  sand0 := by norm_num [realInput]
  sand1 := by norm_num [realInput]

end Verif.Props
