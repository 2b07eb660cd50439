import Verif.Model.Setup
import Mathlib.Tactic.Linarith

/-!
# C50, C55: validation, derived quantities, defaults
-/

set_option linter.unusedSectionVars false
set_option linter.unusedSimpArgs false

namespace Verif.Props

open Verif.Model

variable {K : Type*} [Field K] [LinearOrder K] [IsStrictOrderedRing K] [FloorRing K]

/-! ## Rounding -/

/-- Rounding changes a number by at most a half. -/
lemma round_near (x : K) : |(roundHalfEven x : K) - x| ≤ 1 / 2 := by
  have h1 := Int.floor_le x
  have h2 := Int.lt_floor_add_one x
  unfold roundHalfEven
  rw [abs_le]
  simp only
  split_ifs with a b c <;> push_cast <;> constructor <;> linarith

lemma round_lower {x : K} {n : ℤ} (h : (n : K) ≤ x) : n ≤ roundHalfEven x := by
  have hf : n ≤ ⌊x⌋ := Int.le_floor.2 h
  unfold roundHalfEven
  simp only
  split_ifs <;> omega

lemma round_upper {x : K} {n : ℤ} (h : x ≤ n) : roundHalfEven x ≤ n := by
  have h0 := round_near x
  by_contra hc
  push Not at hc
  have : ((n : K) + 1) ≤ (roundHalfEven x : K) := by exact_mod_cast hc
  rw [abs_le] at h0
  linarith

/-- A whole number is not changed. -/
lemma round_int (n : ℤ) : roundHalfEven (n : K) = n :=
  le_antisymm (round_upper le_rfl) (round_lower le_rfl)

lemma round_mono_half {x : K} {n : ℤ} (h : (n : K) - 1 / 2 < x) : n ≤ roundHalfEven x := by
  have h0 := round_near x
  rw [abs_le] at h0
  by_contra hc
  push Not at hc
  have : (roundHalfEven x : K) + 1 ≤ n := by exact_mod_cast hc
  linarith

/-! ## Validation -/

/-- The values that a configuration may have. -/
structure Accepted (I : Input K) : Prop where
  length : 0 < I.Length
  width : 0 < I.Width
  dx : 0 < I.dx
  dxLength : I.dx ≤ I.Length
  dxWidth : I.dx ≤ I.Width
  L0m : 0 ≤ I.L0m
  itermax : 0 ≤ I.itermax
  NpWater : 0 < I.NpWater
  N0m : 0 < I.N0m
  NpSed : 0 < I.NpSed
  f0 : 0 ≤ I.fBedload
  f1 : I.fBedload ≤ 1
  act : ∀ t, I.actThick = some t → 0 ≤ t
  C0 : 0 ≤ I.C0pct
  Csmooth : 0 ≤ I.Csmooth

lemma reject_bind {b : Bool} {n : String} {f : Unit → Except SetupErr Unit} :
    (reject b n >>= f) = if b then .error (.invalid n) else f () := by
  cases b <;> rfl

lemma reject_bind_ok {b : Bool} {n : String} {f : Unit → Except SetupErr Unit} :
    (reject b n >>= f) = .ok () ↔ b = false ∧ f () = .ok () := by
  cases b <;> simp [reject_bind]

lemma reject_ok {b : Bool} {n : String} : reject b n = .ok () ↔ b = false := by
  cases b <;> simp [reject]

/-- C50: exactly these configurations pass validation. -/
theorem C50_validate (I : Input K) : validate I = .ok () ↔ Accepted I := by
  have act : badThick I.actThick = false ↔ ∀ t, I.actThick = some t → 0 ≤ t := by
    cases I.actThick with
    | none => simp [badThick]
    | some t => simp [badThick]
  unfold validate
  rw [reject_bind_ok, reject_bind_ok, reject_bind_ok, reject_bind_ok, reject_bind_ok, reject_bind_ok,
    reject_bind_ok, reject_bind_ok, reject_bind_ok, reject_bind_ok, reject_bind_ok, reject_ok, act]
  simp only [Bool.or_eq_false_iff, decide_eq_false_iff_not, not_le, not_lt]
  constructor
  · rintro ⟨h1, h2, ⟨⟨h3, h4⟩, h5⟩, h6, h7, h8, h9, h10, ⟨h11, h12⟩, h13, h14, h15⟩
    exact ⟨h1, h2, h3, h4, h5, h6, h7, h8, h9, h10, h11, h12, h13, h14, h15⟩
  · rintro ⟨h1, h2, h3, h4, h5, h6, h7, h8, h9, h10, h11, h12, h13, h14, h15⟩
    exact ⟨h1, h2, ⟨⟨h3, h4⟩, h5⟩, h6, h7, h8, h9, h10, ⟨h11, h12⟩, h13, h14, h15⟩

/-- C50: a rejected configuration names the first parameter in the order of the default table that is
out of range; here for a cell size, which must not exceed the length or the width. -/
theorem C50_dx_rejected (I : Input K) (h1 : 0 < I.Length) (h2 : 0 < I.Width)
    (h : I.dx ≤ 0 ∨ I.Length < I.dx ∨ I.Width < I.dx) : validate I = .error (.invalid "dx") := by
  unfold validate
  simp only [reject_bind]
  rw [if_neg (by simpa using h1), if_neg (by simpa using h2), if_pos (by simpa [or_assoc] using h)]

/-! ## Derived quantities -/

/-- C50: there is at least one cell in each direction and the domain has the requested size up to half
a cell. -/
theorem C50_cells {len dx : K} (hdx : 0 < dx) (h : dx ≤ len) :
    1 ≤ cellsAlong len dx ∧ |(cellsAlong len dx : K) * dx - len| ≤ dx / 2 := by
  constructor
  · apply round_lower
    rw [Int.cast_one, le_div_iff₀ hdx, one_mul]
    exact h
  · have := round_near (len / dx)
    unfold cellsAlong
    have e : (roundHalfEven (len / dx) : K) * dx - len =
        ((roundHalfEven (len / dx) : K) - len / dx) * dx := by
      field_simp
    rw [e, abs_mul, abs_of_pos hdx]
    nlinarith

/-- The hypotheses beyond validation under which the derived quantities are usable. -/
structure Flowing (I : Input K) : Prop where
  u0 : 0 < I.u0
  h0 : 0 < I.h0
  C0 : 0 < I.C0pct
  itermax : 0 < I.itermax

/-- The equations that define the derived quantities, and what is not zero. -/
structure BcFacts (I : Input K) (L W : ℤ) (D : Derived K) : Prop where
  u0 : I.u0 ≠ 0
  Qs : D.Qs0 ≠ 0
  iter : I.itermax ≠ 0
  V : D.V0 ≠ 0
  Nc : D.Ncross ≠ 0
  eL0 : D.L0 = max 1 (min (roundHalfEven (I.L0m / I.dx)) (L / 4))
  eN0 : D.N0 = max 3 (min (roundHalfEven (I.N0m / I.dx)) (W / 4))
  euMax : D.uMax = 2 * I.u0
  eC0 : D.C0 = I.C0pct * 1 / 100
  edry : D.dryDepth = min (1 / 10) (1 / 10 * I.h0)
  egamma : D.gamma = 981 / 100 * I.S0 * I.dx / (I.u0 * I.u0)
  eV0 : D.V0 = I.h0 * (I.dx * I.dx)
  eQw0 : D.Qw0 = I.u0 * I.h0 * (D.N0 : K) * I.dx
  eqw0 : D.qw0 = I.u0 * I.h0
  eQp : D.QpWater = D.Qw0 / (I.NpWater : K)
  eqs0 : D.qs0 = D.qw0 * D.C0
  edVs : D.dVs = 1 / 10 * ((D.N0 : K) * (D.N0 : K)) * D.V0
  eQs0 : D.Qs0 = D.Qw0 * D.C0
  eVp : D.VpSed = D.dVs / (I.NpSed : K)
  estepNone : I.stepmax = none → D.stepmax = 2 * (L + W)
  estepSome : ∀ x, I.stepmax = some x → D.stepmax = truncInt x
  esize : D.sizeInd = Int.tdiv D.stepmax 2
  edt : D.dt = D.dVs / D.Qs0
  eomega : D.omegaFlowIter = 2 / (I.itermax : K)
  eNcross : D.Ncross = roundHalfEven (D.dVs / D.V0)
  elam : D.lam = I.sedLag
  ediff : D.diffMult = D.dt / (D.Ncross : K) * I.alpha * (1 / 2) / (I.dx * I.dx)

lemma bc_ok {I : Input K} {L W : ℤ} {D : Derived K} (h : boundaryConditions I L W = .ok D) :
    BcFacts I L W D := by
  unfold boundaryConditions at h
  simp only at h
  split_ifs at h with hz
  simp only [Except.ok.injEq] at h
  subst h
  push Not at hz
  obtain ⟨a, b, c, d, e⟩ := hz
  exact ⟨a, b, c, d, e, rfl, rfl, rfl, rfl, rfl, rfl, rfl, rfl, rfl, rfl, rfl, rfl, rfl, rfl,
    fun h => by rw [h], fun x h => by rw [h], rfl, rfl, rfl, rfl, rfl, rfl⟩

/-- C50: inlet length and width are within their limits, for every configuration that is accepted at
all, and are the requested ones, rounded, if that is within the limits. -/
theorem C50_inlet_size {I : Input K} {L W : ℤ} {D : Derived K}
    (h : boundaryConditions I L W = .ok D) :
    1 ≤ D.L0 ∧ D.L0 ≤ max 1 (L / 4) ∧ 3 ≤ D.N0 ∧ D.N0 ≤ max 3 (W / 4) ∧
    (1 ≤ roundHalfEven (I.L0m / I.dx) → roundHalfEven (I.L0m / I.dx) ≤ L / 4 →
      D.L0 = roundHalfEven (I.L0m / I.dx)) ∧
    (3 ≤ roundHalfEven (I.N0m / I.dx) → roundHalfEven (I.N0m / I.dx) ≤ W / 4 →
      D.N0 = roundHalfEven (I.N0m / I.dx)) := by
  rw [(bc_ok h).eL0, (bc_ok h).eN0]
  refine ⟨by omega, by omega, by omega, by omega, by omega, by omega⟩

/-- C50: `dry_depth` is at most a tenth of `h0`, for every configuration that is accepted at all. -/
theorem C50_dry {I : Input K} {L W : ℤ} {D : Derived K} (h : boundaryConditions I L W = .ok D) :
    D.dryDepth ≤ I.h0 / 10 ∧ D.dryDepth ≤ 1 / 10 := by
  rw [(bc_ok h).edry]
  exact ⟨(min_le_right _ _).trans (by linarith [show (1 : K) / 10 * I.h0 = I.h0 / 10 by ring]),
    min_le_left _ _⟩

lemma ncross_pos {n : ℤ} (h : 3 ≤ n) : 1 ≤ roundHalfEven (1 / 10 * ((n : K) * (n : K))) := by
  apply round_mono_half
  have : (3 : K) ≤ n := by exact_mod_cast h
  push_cast
  nlinarith

/-- C50: with positive flow velocity, depth and sediment concentration and at least one water
iteration, an accepted configuration has well-defined derived quantities: the time step, the parcels
and the thresholds are positive, the parcels of water together carry the discharge through `N0` inlet
cells and the parcels of sediment together the supply of one time step.
Partial: C50 claims this of every accepted configuration, see `C50_zero_division` and
`C50_negative_step`. -/
theorem C50_derived_partial {I : Input K} (hA : Accepted I) (hF : Flowing I) (L W : ℤ) :
    ∃ D, boundaryConditions I L W = .ok D ∧
      0 < D.dt ∧ 0 < D.QpWater ∧ 0 < D.VpSed ∧ 0 < D.dryDepth ∧ 0 < D.uMax ∧ 1 ≤ D.Ncross ∧
      0 < D.omegaFlowIter ∧
      (I.NpWater : K) * D.QpWater = I.u0 * I.h0 * (D.N0 * I.dx) ∧
      (I.NpSed : K) * D.VpSed = I.u0 * I.h0 * (D.N0 * I.dx) * (I.C0pct / 100) * D.dt := by
  have hdx := hA.dx
  have hN : (3 : ℤ) ≤ max 3 (min (roundHalfEven (I.N0m / I.dx)) (W / 4)) := le_max_left _ _
  have hNK : (0 : K) < (max 3 (min (roundHalfEven (I.N0m / I.dx)) (W / 4)) : ℤ) := by
    have : (3 : K) ≤ (max 3 (min (roundHalfEven (I.N0m / I.dx)) (W / 4)) : ℤ) := by exact_mod_cast hN
    linarith
  have hV : 0 < I.h0 * (I.dx * I.dx) := mul_pos hF.h0 (mul_pos hdx hdx)
  have hC : 0 < I.C0pct * 1 / 100 := by have := hF.C0; linarith
  have hQ : 0 < I.u0 * I.h0 * ((max 3 (min (roundHalfEven (I.N0m / I.dx)) (W / 4)) : ℤ) : K) * I.dx :=
    mul_pos (mul_pos (mul_pos hF.u0 hF.h0) hNK) hdx
  have hQs := mul_pos hQ hC
  have hNc : 1 ≤ roundHalfEven ((1 / 10 *
      (((max 3 (min (roundHalfEven (I.N0m / I.dx)) (W / 4)) : ℤ) : K) *
      ((max 3 (min (roundHalfEven (I.N0m / I.dx)) (W / 4)) : ℤ) : K)) *
      (I.h0 * (I.dx * I.dx))) / (I.h0 * (I.dx * I.dx))) := by
    rw [mul_div_assoc, div_self hV.ne', mul_one]
    exact ncross_pos hN
  have hi : (0 : K) < I.itermax := by exact_mod_cast hF.itermax
  have hok : ∃ D, boundaryConditions I L W = .ok D := by
    unfold boundaryConditions
    simp only
    rw [if_neg]
    · exact ⟨_, rfl⟩
    · push Not
      exact ⟨hF.u0.ne', hQs.ne', hF.itermax.ne', hV.ne', by omega⟩
  obtain ⟨D, hD⟩ := hok
  have b := bc_ok hD
  have eN := b.eN0
  rw [← eN] at hNK hQ hQs hNc
  have eQw := b.eQw0
  have eC := b.eC0
  have eQs := b.eQs0
  have eV := b.eV0
  have edV := b.edVs
  have edt := b.edt
  have eVp := b.eVp
  have eQp := b.eQp
  have eNc := b.eNcross
  have edry := b.edry
  have eu := b.euMax
  have eo := b.eomega
  have hdVs : 0 < D.dVs := by
    rw [edV, eV]
    positivity
  rw [← eC, ← eQw, ← eQs] at hQs
  have hNp : (0 : K) < I.NpWater := by exact_mod_cast hA.NpWater
  have hNs : (0 : K) < I.NpSed := by exact_mod_cast hA.NpSed
  refine ⟨D, hD, by rw [edt]; positivity, by rw [eQp]; rw [← eQw] at hQ; positivity,
    by rw [eVp]; positivity, ?_, by rw [eu]; linarith [hF.u0], ?_, by rw [eo]; positivity, ?_, ?_⟩
  · rw [edry]
    have := hF.h0
    exact lt_min (by norm_num) (by linarith)
  · rw [eNc, edV, eV]; exact hNc
  · rw [eQp, mul_div_cancel₀ _ hNp.ne', eQw]; ring
  · rw [eVp, mul_div_cancel₀ _ hNs.ne', edt]
    have : I.u0 * I.h0 * (↑D.N0 * I.dx) * (I.C0pct / 100) = D.Qs0 := by
      rw [eQs, eC, eQw]; ring
    rw [this, mul_div_cancel₀ _ hQs.ne']

/-- C50 fails: without sediment, without flow or without water iterations an accepted configuration
ends in a division by zero. -/
theorem C50_zero_division (I : Input K) (L W : ℤ)
    (h : I.C0pct = 0 ∨ I.u0 = 0 ∨ I.h0 = 0 ∨ I.itermax = 0) :
    boundaryConditions I L W = .error .zeroDivision := by
  unfold boundaryConditions
  simp only
  rw [if_pos]
  rcases h with h | h | h | h <;> simp [h]

/-- C50 fails: a negative velocity is accepted and gives a negative time step. -/
theorem C50_negative_step {I : Input K} (hA : Accepted I) (hu : I.u0 < 0) (hh : 0 < I.h0)
    {L W : ℤ} {D : Derived K} (h : boundaryConditions I L W = .ok D) : D.dt < 0 := by
  have b := bc_ok h
  have hQ0 := b.Qs
  have eQw := b.eQw0
  have eC := b.eC0
  have eQs := b.eQs0
  have eV := b.eV0
  have edV := b.edVs
  have edt := b.edt
  have hN : (0 : K) < D.N0 := by
    have : (3 : K) ≤ D.N0 := by exact_mod_cast (C50_inlet_size h).2.2.1
    linarith
  have hdx := hA.dx
  have hC : 0 < D.C0 := by
    rcases lt_or_eq_of_le hA.C0 with hc | hc
    · rw [eC]; linarith
    · exfalso; apply hQ0; rw [eQs, eC, ← hc]; simp
  have hw : D.Qw0 < 0 := by
    rw [eQw]
    exact mul_neg_of_neg_of_pos (mul_neg_of_neg_of_pos (mul_neg_of_neg_of_pos hu hh) hN) hdx
  rw [edt]
  apply div_neg_of_pos_of_neg
  · rw [edV, eV]; positivity
  · rw [eQs]; exact mul_neg_of_neg_of_pos hw hC

/-! ## C55: unset options -/

/-- C55: an unset active layer thickness is half of `h0` in the created model, a set one is used. -/
theorem C55_active_layer (O : Oracle K) {I : Input K} {M : Built K} (h : create O I = .ok M) :
    (I.actThick = none → M.P.actThick = I.h0 / 2) ∧ ∀ t, I.actThick = some t → M.P.actThick = t := by
  have e : M.P.actThick = resolveActThick I := by
    unfold create at h
    cases hv : validate I with
    | error e => rw [hv] at h; simp at h
    | ok u =>
      rw [hv] at h
      simp only at h
      cases hb : boundaryConditions I (cellsAlong I.Length I.dx) (cellsAlong I.Width I.dx) with
      | error e => rw [hb] at h; simp at h
      | ok D =>
        rw [hb] at h
        simp only at h
        split_ifs at h
        cases h
        rfl
  rw [e]
  unfold resolveActThick
  constructor
  · intro h; rw [h]
  · intro t h; rw [h]

lemma resolveHb_cases (I : Input K) :
    (I.hb = none → resolveHb I = I.h0) ∧ ∀ b, I.hb = some b → b ≠ 0 → resolveHb I = b := by
  unfold resolveHb
  constructor
  · intro h; rw [h]
  · intro b h hb; rw [h]; simp [hb]

lemma resolveHb_zero (I : Input K) (h : I.hb = some 0) : resolveHb I = I.h0 := by
  unfold resolveHb
  rw [h]; simp

end Verif.Props
