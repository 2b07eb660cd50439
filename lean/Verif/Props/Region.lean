import Verif.Spec.Region
import Verif.Props.Created
import Verif.Props.FromConfig
import Verif.Props.TimeScale
import Verif.Props.PathLaw
import Mathlib.Analysis.SpecialFunctions.Trigonometric.Arctan

/-!
# C120: subsidence in a region, as in the documentation
-/

set_option linter.unusedSectionVars false
set_option linter.unusedSimpArgs false

namespace Verif.Props

open Verif.Model Verif.Lemmas Verif.Spec

variable {K : Type*} [Field K] [LinearOrder K] [IsStrictOrderedRing K] [FloorRing K] {σ : Type*} {L W m : ℕ}

/-! ## The region -/

lemma sqrt_ge {A : Angles K} (hA : AnglesOk A) {r x : K} (hr : 0 ≤ r) (hx : 0 ≤ x) : r ≤ A.sqrt x ↔ r ^ 2 ≤ x := by
  obtain ⟨h1, h2⟩ := hA.sqrt x hx
  constructor <;> intro h <;> nlinarith

lemma sqrt_le' {A : Angles K} (hA : AnglesOk A) {r x : K} (hr : 0 ≤ r) (hx : 0 ≤ x) : A.sqrt x ≤ r ↔ x ≤ r ^ 2 := by
  obtain ⟨h1, h2⟩ := hA.sqrt x hx
  constructor <;> intro h <;> nlinarith

lemma angle_ge {A : Angles K} (hA : AnglesOk A) {x y : K} (hy : 0 < y) :
    -(A.pi / 3) ≤ A.atan (x / y) ↔ 0 ≤ x ∨ x ^ 2 ≤ 3 * y ^ 2 := by
  rw [← hA.third, ← hA.odd, hA.mono.le_iff_le, le_div_iff₀ hy]
  obtain ⟨h1, h2⟩ := hA.sqrt 3 (by norm_num)
  have h3 : 0 ≤ A.sqrt 3 * y := mul_nonneg h1 hy.le
  have h4 : (A.sqrt 3 * y) ^ 2 = 3 * y ^ 2 := by rw [mul_pow, pow_two (A.sqrt 3), h2]
  rw [← h4]
  constructor
  · intro h
    by_cases hx : 0 ≤ x
    · exact .inl hx
    · right; nlinarith
  · rintro (h | h)
    · linarith
    · nlinarith [abs_le_of_sq_le_sq' h h3]

lemma angle_le {A : Angles K} (hA : AnglesOk A) {x y : K} (hy : 0 < y) : A.atan (x / y) ≤ 0 ↔ x ≤ 0 := by
  rw [← hA.zero, hA.mono.le_iff_le, div_le_iff₀ hy, zero_mul, hA.zero]

/-- C120: the mask is one in the region and zero elsewhere. -/
theorem C120_region {A : Angles K} (hA : AnglesOk A) {L0 : ℤ} (h0 : 0 ≤ L0) (c : Cell L W) :
    regionMask A L W L0 c = if InRegion L W L0 c.1.val c.2.val then 1 else 0 := by
  unfold regionMask assign
  simp only
  by_cases hl : landRows L W L0 c = true
  · rw [if_pos hl, if_neg]
    intro h
    have := (landRows_iff h0 c).1 hl
    have := h.1
    omega
  · rw [if_neg hl]
    have hi : L0 ≤ (c.1.val : ℤ) := by
      by_contra hn
      exact hl ((landRows_iff h0 c).2 (by omega))
    have hiK : (L0 : K) ≤ (c.1.val : K) := by exact_mod_cast hi
    have hy : (0 : K) < (c.1.val : K) - L0 + 1 := by linarith
    rw [if_pos (by linarith : (L0 : K) - 1 < (c.1.val : K))]
    have hq : (0 : K) ≤ ((c.1.val : K) - L0) ^ 2 + ((c.2.val : K) - W / 2) ^ 2 := by positivity
    have hL : (0 : K) ≤ (L : K) := by positivity
    congr 1
    rw [sqrt_ge hA (by positivity) hq, sqrt_le' hA (by positivity) hq, angle_ge hA hy, angle_le hA hy]
    have e1 : (3 / 10 * (L : K)) ^ 2 ≤ ((c.1.val : K) - L0) ^ 2 + ((c.2.val : K) - W / 2) ^ 2 ↔
        9 * (L : ℤ) ^ 2 ≤ 25 * (4 * ((c.1.val : ℤ) - L0) ^ 2 + (2 * (c.2.val : ℤ) - W) ^ 2) := by
      rw [← Int.cast_le (R := K)]
      push_cast
      constructor <;> intro h <;> nlinarith
    have e2 : ((c.1.val : K) - L0) ^ 2 + ((c.2.val : K) - W / 2) ^ 2 ≤ (8 / 10 * (L : K)) ^ 2 ↔
        25 * (4 * ((c.1.val : ℤ) - L0) ^ 2 + (2 * (c.2.val : ℤ) - W) ^ 2) ≤ 64 * (L : ℤ) ^ 2 := by
      rw [← Int.cast_le (R := K)]
      push_cast
      constructor <;> intro h <;> nlinarith
    have e3 : (c.2.val : K) - W / 2 ≤ 0 ↔ 2 * (c.2.val : ℤ) ≤ W := by
      rw [← Int.cast_le (R := K)]
      push_cast
      constructor <;> intro h <;> linarith
    have e4 : ((c.2.val : K) - W / 2) ^ 2 ≤ 3 * ((c.1.val : K) - L0 + 1) ^ 2 ↔
        ((W : ℤ) - 2 * (c.2.val : ℤ)) ^ 2 ≤ 12 * ((c.1.val : ℤ) - L0 + 1) ^ 2 := by
      rw [← Int.cast_le (R := K)]
      push_cast
      constructor <;> intro h <;> nlinarith
    rw [e1, e2, e4, e3]
    have e5 : (0 : K) ≤ (c.2.val : K) - W / 2 → (c.2.val : K) - W / 2 ≤ 0 →
        ((W : ℤ) - 2 * (c.2.val : ℤ)) ^ 2 ≤ 12 * ((c.1.val : ℤ) - L0 + 1) ^ 2 := by
      intro h h'
      rw [← e4]
      have : (c.2.val : K) - W / 2 = 0 := le_antisymm h' h
      rw [this, zero_pow two_ne_zero]
      positivity
    unfold InRegion
    rw [eq_iff_iff]
    constructor
    · rintro ⟨a, b, d, e⟩
      refine ⟨hi, e, ?_, a, b⟩
      rcases d with d | d
      · exact e5 d (e3.2 e)
      · exact d
    · rintro ⟨-, a, b, d, e⟩
      exact ⟨d, e, .inr b, a⟩

/-! ## The model -/

/-- A model but for its subsidence. -/
def withSigma (M : Built K) (f : Grid M.L M.W K) : Built K := ⟨M.L, M.W, M.m, { M.P with sigma := f }, M.S⟩

/-- C120: a model of the class is a model of the base class, with the same errors, but for the subsidence: in the region it
is what it is in the base class, elsewhere it is zero. -/
theorem C120_create {A : Angles K} (hA : AnglesOk A) (O : Oracle K) (I : Input K) :
    (∀ e, createRegion A O I = .error e ↔ create O I = .error e) ∧
    ∀ M, create O I = .ok M → 0 ≤ M.P.L0 → createRegion A O I = .ok (withSigma M fun c =>
      if InRegion M.L M.W M.P.L0 c.1.val c.2.val then M.P.sigma c else 0) := by
  unfold createRegion create
  cases validate I with
  | error e => simp
  | ok u =>
    simp only
    cases boundaryConditions I (cellsAlong I.Length I.dx) (cellsAlong I.Width I.dx) with
    | error e => simp
    | ok D =>
      simp only
      split
      · simp
      · refine ⟨fun e => by simp, fun M hM h0 => ?_⟩
        simp only [Except.ok.injEq] at hM
        subst hM
        have h0' : 0 ≤ D.L0 := h0
        simp only [withSigma, Except.ok.injEq, Built.mk.injEq, heq_eq_eq, true_and, and_true]
        have : regionSigma A (cellsAlong I.Length I.dx).toNat (cellsAlong I.Width I.dx).toNat I D = fun c =>
            if InRegion (cellsAlong I.Length I.dx).toNat (cellsAlong I.Width I.dx).toNat D.L0 c.1.val c.2.val
              then initialSigma _ _ I D c else 0 := by
          funext c
          unfold regionSigma initialSigma
          split
          · simp only [C120_region hA h0', assign]
            split_ifs with h1 h2
            · have := (landRows_iff h0' c).1 h2
              have := h1.1
              omega
            · rfl
            · ring
          · simp
        rw [this]
        rfl

lemma sigma_basin {O : Oracle K} {I : Input K} (hs : I.toggleSub = true) {P : Params L W m K} {S : State L W K}
    (h : create O I = .ok ⟨L, W, m, P, S⟩) (h0 : 0 ≤ P.L0) (c : Cell L W) (hc : P.L0 ≤ c.1.val) :
    P.sigma c = I.subRate * P.dt := by
  obtain ⟨-, D, hB, -, e⟩ := create_ok h
  cases e
  have hl : ¬ landRows (cellsAlong I.Length I.dx).toNat (cellsAlong I.Width I.dx).toNat D.L0 c = true := by
    intro hl
    have h2 := (landRows_iff (L0 := D.L0) h0 c).1 hl
    have h3 : D.L0 ≤ (c.1.val : ℤ) := hc
    omega
  show initialSigma _ _ I D c = I.subRate * D.dt
  unfold initialSigma
  simp only [hs, if_true, assign, if_neg hl, one_mul]

/-- C120: how much the cells of a created model sink: by the configured rate in the region, nowhere else. -/
theorem C120_sigma {A : Angles K} (hA : AnglesOk A) {O : Oracle K} (hO : OracleOk O) {I : Input K} (hI : Runnable I)
    (hs : I.toggleSub = true) {M : Built K} (h : createRegion A O I = .ok M) (c : Cell M.L M.W) :
    M.P.sigma c = if InRegion M.L M.W M.P.L0 c.1.val c.2.val then I.subRate * M.P.dt else 0 := by
  obtain ⟨L, W, m, iL, iW, P, S, hc, hWa, -⟩ := C74_created hO hI
  have h0 : 0 ≤ P.L0 := by have := hWa.hL0; omega
  have h1 := (C120_create hA O I).2 _ hc h0
  rw [h] at h1
  simp only [Except.ok.injEq] at h1
  subst h1
  show (if InRegion L W P.L0 c.1.val c.2.val then P.sigma c else 0) =
    if InRegion L W P.L0 c.1.val c.2.val then I.subRate * P.dt else 0
  by_cases hr : InRegion L W P.L0 c.1.val c.2.val
  · rw [if_pos hr, if_pos hr]
    exact sigma_basin hs hc h0 c hr.1
  · rw [if_neg hr, if_neg hr]

/-- C120: a created model of the class runs for any number of updates without error. The bed outside of the inlet is what
the sediment routing makes of it; in the region it sinks besides by the configured rate for each update that begins when
subsidence has started. The bed of the land stays as it is. -/
theorem C120_run {A : Angles K} (hA : AnglesOk A) {O : Oracle K} (hO : OracleOk O) {I : Input K} (hI : Runnable I)
    (hs : I.toggleSub = true) {g : Rng K σ} (hg : PositiveDraws g) :
    ∃ (L W m : ℕ) (_ : NeZero L) (_ : NeZero W) (P : Params L W m K) (S : State L W K),
      createRegion A O I = .ok ⟨L, W, m, P, S⟩ ∧ 0 < P.dt ∧
      ∀ (n : ℕ) (s : σ), ∃ S' ls s', timesteps g (List.replicate n P) S s = .ok (S', ls, s') ∧
        (∀ c, ¬ InletCell P c → S'.eta c = S.eta c + (ls.map fun l => l.routed.eta c - l.start.eta c).sum -
          if InRegion L W P.L0 c.1.val c.2.val then
            ((n - ⌈I.startSub / P.dt⌉₊ : ℕ) : K) * (I.subRate * P.dt) else 0) ∧
        (∀ c, P.cellType c = -2 → S'.eta c = S.eta c) ∧
        (0 < n → ∀ c, S'.depth c = max (S'.stage c - S'.eta c) 0) := by
  obtain ⟨L, W, m, iL, iW, P0, S, hc, hWa, hD, -, hR, hd, hn, hsig⟩ := C74_created hO hI
  have h0 : 0 ≤ P0.L0 := by have := hWa.hL0; omega
  have h1 := (C120_create hA O I).2 _ hc h0
  have hfix : P0.toggleSub = I.toggleSub ∧ P0.startSub = I.startSub ∧ S.time = 0 := by
    obtain ⟨-, D, hB, -, e⟩ := create_ok hc
    cases e
    exact ⟨rfl, rfl, rfl⟩
  obtain ⟨f1, f2, f3⟩ := hfix
  let P : Params L W m K := { P0 with sigma := fun c => if InRegion L W P0.L0 c.1.val c.2.val then P0.sigma c else 0 }
  have hWa' : WaterSetup P := ⟨hWa.hL0, hWa.hL, hWa.hW, hWa.active, hWa.last, hWa.land, hWa.nrm, hWa.mod, hWa.pw,
    hWa.gamma0, hWa.gamma1, hWa.steps, hWa.hm, hWa.inlet⟩
  have hD' : SedDomain P := ⟨hD.hL, hD.active, hD.last, hD.below, hD.inlet, hD.hm, hD.steps, hD.s2, hD.pw, hD.mod⟩
  refine ⟨L, W, m, iL, iW, P, S, h1, hR.sed.dt, fun n s => ?_⟩
  obtain ⟨S', ls, s', h⟩ := C71_run hg (Ps := List.replicate n P)
    (fun Q hQ => by rw [List.eq_of_mem_replicate hQ]; exact ⟨hWa', hD', hR.h0⟩) hd hn s
  refine ⟨S', ls, s', h, fun c hcI => ?_, fun c hcl => ?_, fun hpos c => ?_⟩
  · rw [C34_run c hcI h, if_pos (by show P0.toggleSub = true; rw [f1, hs]), C34_count hR.sed.dt, f3, sub_zero]
    congr 1
    have := C120_sigma hA hO hI hs h1 c
    rw [show P.startSub = I.startSub from f2]
    rw [show P.sigma c = _ from this]
    split_ifs with h2 h3 h3
    · rfl
    · exact absurd h2 h3
    · exact absurd h3 h2
    · exact mul_zero _
  · refine C38_land hg (fun Q hQ => ?_) hd h
    rw [List.eq_of_mem_replicate hQ]
    refine ⟨hD', hR.h0, hcl, ?_⟩
    show (if _ then P0.sigma c else 0) = 0
    rw [hsig c hcl, ite_self]
  · obtain ⟨k, rfl⟩ : ∃ k, n = k + 1 := ⟨n - 1, by omega⟩
    rw [List.replicate_succ'] at h
    exact (C36_run (P := P) hR.h0 h c).1

/-- C120: the rate that the documentation shows of a model whose rate was scaled from millimetres a year is that number
in the region and zero elsewhere. -/
theorem C120_shown {A : Angles K} (hA : AnglesOk A) {O : Oracle K} (hO : OracleOk O) {I : Input K} (hI : Runnable I)
    (hs : I.toggleSub = true) {mmyr If f : K} (hr : scaleRate mmyr If = .ok I.subRate)
    (hf : scaleFactor If "years" = .ok f) {M : Built K} (h : createRegion A O I = .ok M) (c : Cell M.L M.W) :
    M.P.sigma c / M.P.dt * 1000 * f = if InRegion M.L M.W M.P.L0 c.1.val c.2.val then mmyr else 0 := by
  have hdt : 0 < M.P.dt := by
    obtain ⟨L, W, m, iL, iW, P, S, hc, hWa, -, -, hR, -⟩ := C74_created hO hI
    have h1 := (C120_create hA O I).2 _ hc (by have := hWa.hL0; show 0 ≤ P.L0; omega)
    rw [h] at h1
    simp only [Except.ok.injEq] at h1
    subst h1
    exact hR.sed.dt
  rw [C120_sigma hA hO hI hs h c]
  unfold scaleRate at hr
  rw [hf] at hr
  simp only at hr
  split_ifs at hr with h0
  simp only [Except.ok.injEq] at hr
  split_ifs with hc
  · rw [← hr]
    field_simp
  · simp

/-! ## The angle -/

/-- C120: the documentation says that the region is 30 degrees wide. It is 60: there are cells in the region, here of the
default domain, that are farther to the left than 30 degrees (`tan 30° = 1 / √3`). -/
theorem C120_angle_witness : ∃ i j : ℕ, i < 100 ∧ j < 200 ∧ InRegion 100 200 3 i j ∧
    ¬ 3 * ((200 : ℤ) - 2 * j) ^ 2 ≤ 4 * (i - 3 + 1) ^ 2 := ⟨52, 50, by decide +kernel⟩

/-! ## Non-trivial case: real numbers, the default domain -/

/-- Square root, arctangent and π. -/
noncomputable def realAngles : Angles ℝ := ⟨Real.sqrt, Real.arctan, Real.pi⟩

lemma realAnglesOk : AnglesOk realAngles where
  sqrt x hx := ⟨Real.sqrt_nonneg x, Real.mul_self_sqrt hx⟩
  mono := Real.arctan_strictMono
  zero := Real.arctan_zero
  third := by
    show Real.arctan (Real.sqrt 3) = Real.pi / 3
    rw [← Real.tan_pi_div_three, Real.arctan_tan] <;> linarith [Real.pi_pos]
  odd := Real.arctan_neg

/-- The default configuration with subsidence of three millimetres a year, seven of 365 days of flood. -/
noncomputable def sinkingInput : Input ℝ :=
  { realInput with toggleSub := true, subRate := 3 / 1000 * (1 / (19 / 1000 * (86400 * (1461 / 4)))) }

lemma sinkingRunnable : Runnable sinkingInput := by
  have h := realRunnable
  have ha := h.accepted
  have hf := h.flowing
  exact { h with
    accepted := { ha with }
    flowing := ⟨hf.1, hf.2, hf.3, hf.4⟩ }

/-- The model of the documentation runs; cells of the region sink, cells to its right do not. -/
example : ∃ (M : Built ℝ), createRegion realAngles realOracle sinkingInput = .ok M ∧
    (∀ c : Cell M.L M.W, M.P.sigma c / M.P.dt * 1000 * (19 / 1000 * (86400 * (1461 / 4))) =
      if InRegion M.L M.W M.P.L0 c.1.val c.2.val then 3 else 0) ∧
    InRegion 100 200 3 52 50 ∧ ¬ InRegion 100 200 3 52 150 ∧ ¬ InRegion 100 200 3 20 50 := by
  obtain ⟨L, W, m, iL, iW, P, S, h, -⟩ := C120_run realAnglesOk realOracleOk sinkingRunnable rfl halfPositive
  refine ⟨_, h, fun c => ?_, by decide +kernel, by decide +kernel, by decide +kernel⟩
  refine C120_shown realAnglesOk realOracleOk sinkingRunnable rfl (mmyr := 3) (If := 19 / 1000) ?_ ?_ h c
  · have : scaleFactor (19 / 1000 : ℝ) "years" = .ok (19 / 1000 * (86400 * (1461 / 4))) := by simp [scaleFactor]
    unfold scaleRate
    rw [this]
    simp only
    rw [if_neg (by norm_num)]
    rfl
  · simp [scaleFactor]

end Verif.Props
