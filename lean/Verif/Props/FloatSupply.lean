import Verif.Spec.Supply
import Verif.Props.FloatBudget
import Verif.Props.FloatSetup
import Verif.Props.FloatParcels

/-!
# C126 in rounded arithmetic: what the inlet supplies
-/

set_option linter.unusedSectionVars false
set_option linter.unusedSimpArgs false

namespace Verif.Props

open Verif.Model Verif.Lemmas Verif.Spec

/-! ## The volume of the parcels of a run -/

section
variable {K : Type*} [Field K] [LinearOrder K] [IsStrictOrderedRing K] [FloorRing K] {σ : Type*} {L W m : ℕ}
  [NeZero L] [NeZero W] {F D : Rounding K}

lemma sedLoopR_enters {g : Rng K σ} {k : Sed} {P : Params L W m K} {n : ℕ} {st st' : SedSt L W K} {px py : ℤ}
    {res res' : K} {s s' : σ} {rs : List (SedRec L W K)}
    (h : sedLoopR F D g k P n st px py res s = .ok (st', res', rs, s')) : ∃ r rs', rs = r :: rs' ∧ r.res = res := by
  cases n with
  | zero => simp [sedLoopR] at h
  | succ n =>
    unfold sedLoopR at h
    generalize hx : sedStepR F D g k P st px py res s = x at h
    cases x with
    | error e => cases h
    | ok v =>
      obtain ⟨st1, res1, r, s1⟩ := v
      obtain ⟨c0, d, c, cp, w, -, -, -, -, -, -, -, -, -, -, -, hr, -⟩ := sedStepR_ok hx
      simp only at h
      split_ifs at h with h1
      · simp only [Except.ok.injEq, Prod.mk.injEq] at h
        exact ⟨r, [], h.2.2.1.symm, hr⟩
      · generalize hy : sedLoopR F D g k P n st1 r.new.1 r.new.2 res1 s1 = y at h
        cases y with
        | error e => cases h
        | ok v =>
          obtain ⟨st2, res2, rs2, s2⟩ := v
          simp only [Except.ok.injEq, Prod.mk.injEq] at h
          exact ⟨r, rs2, h.2.2.1.symm, hr⟩

lemma sedParcelsR_enters {g : Rng K σ} {k : Sed} {P : Params L W m K} : ∀ {pys : List ℤ} {st st' : SedSt L W K}
    {s s' : σ} {logs : List (SedLog L W K)}, sedParcelsR F D g k P pys st s = .ok (st', logs, s') →
    logs.length = pys.length ∧ (logs.map entering).sum = logs.length * P.VpSed := by
  intro pys
  induction pys with
  | nil =>
    intro st st' s s' logs h
    simp only [sedParcelsR, Except.ok.injEq, Prod.mk.injEq] at h
    obtain ⟨-, rfl, -⟩ := h
    simp
  | cons py pys ih =>
    intro st st' s s' logs h
    unfold sedParcelsR at h
    cases hp : pyCell L W 0 py with
    | none => rw [hp] at h; cases h
    | some c =>
      rw [hp] at h
      simp only at h
      generalize hx : sedLoopR F D g k P P.stepmax (enterStateR F D k P st c) 0 py P.VpSed s = x at h
      cases x with
      | error e => cases h
      | ok v =>
        obtain ⟨st2, res, rs, s1⟩ := v
        simp only at h
        generalize hy : sedParcelsR F D g k P pys st2 s1 = y at h
        cases y with
        | error e => cases h
        | ok v =>
          obtain ⟨st3, logs', s2⟩ := v
          simp only [Except.ok.injEq, Prod.mk.injEq] at h
          obtain ⟨-, rfl, -⟩ := h
          obtain ⟨r, rs', rfl, hr⟩ := sedLoopR_enters hx
          have e : entering (⟨c.2, r :: rs', res⟩ : SedLog L W K) = P.VpSed := hr
          obtain ⟨i1, i2⟩ := ih hy
          refine ⟨by simp [i1], ?_⟩
          simp only [List.map_cons, List.sum_cons, e, i2, List.length_cons]
          push_cast
          ring

lemma routeParcelsR_enters {g : Rng K σ} {k : Sed} {P : Params L W m K} {S S' : State L W K} {s s' : σ}
    {logs : List (SedLog L W K)} (h : routeParcelsR F D g k P S s = .ok (S', logs, s')) :
    logs.length = numStartsR D k P ∧ (logs.map entering).sum = numStartsR D k P * P.VpSed := by
  unfold routeParcelsR at h
  simp only at h
  split at h
  · cases h
  · rename_i starts hst
    split at h
    · cases h
    · rename_i hp
      simp only [Except.ok.injEq, Prod.mk.injEq] at h
      obtain ⟨-, rfl, -⟩ := h
      obtain ⟨a, b⟩ := sedParcelsR_enters hp
      have : starts.length = numStartsR D k P := by
        unfold getStartIndicesR at hst
        rw [startLoopR_length hst, drawN_length]
      rw [b, a, this]
      exact ⟨rfl, rfl⟩

/-- C126 in rounded arithmetic: in a run of `n` timesteps enters the stored volume of as many parcels of a kind as are
configured for a timestep, `n` times. -/
theorem C126_rounded_entered {g : Rng K σ} {P : Params L W m K} :
    ∀ (n : ℕ) {S S' : State L W K} {s s' : σ} {ls : List (StepLog L W K)},
    timestepsR F D g (List.replicate n P) S s = .ok (S', ls, s') →
    enteredSand ls = n * (numStartsR D .sand P * F.fl P.VpSed) ∧
      enteredMud ls = n * (numStartsR D .mud P * F.fl P.VpSed) := by
  intro n
  induction n with
  | zero =>
    intro S S' s s' ls h
    simp only [List.replicate_zero, timestepsR, Except.ok.injEq, Prod.mk.injEq] at h
    obtain ⟨rfl, rfl, -⟩ := h
    simp [enteredSand, enteredMud]
  | succ n ih =>
    intro S S' s s' ls h
    rw [List.replicate_succ] at h
    obtain ⟨S1, l, s1, ls', h1, h2, rfl⟩ := timestepsR_cons h
    obtain ⟨a1, a2⟩ := ih h2
    obtain ⟨t1, -, h3, -⟩ := timestepR_ok h1
    obtain ⟨T, t2, b1, b2⟩ := routeSedimentR_ok h3
    have c1 := (routeParcelsR_enters b1).2
    have c2 := (routeParcelsR_enters b2).2
    have e1 : ∀ k, numStartsR D k (routerParams F P) = numStartsR D k P := fun _ => rfl
    have e2 : (routerParams F P).VpSed = F.fl P.VpSed := rfl
    rw [e1, e2] at c1 c2
    simp only [enteredSand, enteredMud, List.map_cons, List.sum_cons] at a1 a2 ⊢
    rw [c1, c2, a1, a2]
    push_cast
    exact ⟨by ring, by ring⟩

end

/-! ## The numbers of parcels -/

section
variable {K : Type*} [Field K] [LinearOrder K] [IsStrictOrderedRing K] [FloorRing K] {L W m : ℕ}

lemma rhe_below {x : K} {n : ℤ} (h : roundHalfEven x < n) : x ≤ n - 1 / 2 ∧ (n % 2 = 0 → x < n - 1 / 2) := by
  have h0 := Int.floor_le x
  have h1 := Int.lt_floor_add_one x
  rcases rhe_cases x with ⟨e, hr, ht⟩ | ⟨e, hr, -⟩
  · rw [e] at h
    have hc : (⌊x⌋ : K) + 1 ≤ n := by exact_mod_cast h
    refine ⟨by linarith, fun h2 => ?_⟩
    rcases lt_or_eq_of_le (show x ≤ n - 1 / 2 by linarith) with h3 | h3
    · exact h3
    · have h5 : x - ⌊x⌋ = 1 / 2 := le_antisymm hr (by linarith)
      have h6 : (⌊x⌋ : K) + 1 = n := by linarith
      have h7 : ⌊x⌋ + 1 = n := by exact_mod_cast h6
      have := ht h5
      omega
  · rw [e] at h
    have hc : (⌊x⌋ : K) + 2 ≤ n := by
      have : ⌊x⌋ + 2 ≤ n := by omega
      exact_mod_cast this
    exact ⟨by linarith, fun _ => by linarith⟩

/-- A number that is rounded to less than a whole number is less by more than half of the last digit. -/
lemma nearest_gap {p : ℕ} (hp : 1 ≤ p) {x : K} (hx : 0 ≤ x) {M : ℕ} (hM : M ≤ 2 ^ p) (h : Model.nearest p x < M) :
    x < M * (1 - (1 / 2) ^ (p + 1)) := by
  have hh : (1 / 2 : K) ^ (p + 1) < 1 := pow_lt_one₀ (by norm_num) (by norm_num) (by omega)
  rcases hx.eq_or_lt with rfl | hx
  · rw [nearest_zero] at h
    exact mul_pos h (by linarith)
  have hxM : x < M := by
    by_contra hc
    have h1 := nearest_mono (K := K) hp (not_lt.1 hc)
    have h2 : Model.nearest p (M : K) = M := by
      have := nearest_exact (K := K) hp (m := (M : ℤ)) (by simpa using (by exact_mod_cast hM : (M : ℤ) ≤ 2 ^ p)) 0
      simpa using this
    rw [h2] at h1
    exact absurd h (not_lt.2 h1)
  have hl1 := log_le x hx.ne'
  have hl2 := lt_log x
  unfold Model.nearest at h
  rw [abs_of_pos hx] at h hl1 hl2
  generalize Int.log 2 x = e at h hl1 hl2
  have he : e < p := by
    by_contra hc
    have h1 : (2 : K) ^ (p : ℤ) ≤ 2 ^ e := zpow_le_zpow_right₀ (by norm_num) (not_lt.1 hc)
    have h2 : (M : K) ≤ 2 ^ (p : ℤ) := by rw [zpow_natCast]; exact_mod_cast hM
    linarith
  obtain ⟨q, hq⟩ : ∃ q : ℕ, e + 1 - p = -(q : ℤ) := ⟨(p - (e + 1)).toNat, by omega⟩
  rw [hq, zpow_neg, zpow_natCast] at h
  have h2q : (0 : K) < 2 ^ q := by positivity
  rw [div_inv_eq_mul, ← div_eq_mul_inv, div_lt_iff₀ h2q] at h
  have hint : roundHalfEven (x * 2 ^ q) < ((M * 2 ^ q : ℕ) : ℤ) := by exact_mod_cast h
  have e2 : (2 : K) ^ (e + 1) * 2 ^ q = 2 ^ p := by
    rw [← zpow_natCast, ← zpow_natCast (2 : K) p, ← zpow_add₀ (by norm_num)]
    congr 1
    omega
  have hx2 : x * 2 ^ q < 2 ^ p := by
    rw [← e2]
    exact mul_lt_mul_of_pos_right hl2 h2q
  have goal : x * 2 ^ q < M * 2 ^ q - M * 2 ^ q * (1 / 2) ^ (p + 1) := by
    have e3 : (2 : K) ^ p * (1 / 2) ^ (p + 1) = 1 / 2 := by
      rw [pow_succ, ← mul_assoc, ← mul_pow]
      norm_num
    have hpp : (0 : K) < (1 / 2) ^ (p + 1) := by positivity
    rcases le_or_gt (2 ^ p) (M * 2 ^ q) with hc | hc
    · rcases hc.eq_or_lt with hc | hc
      · rw [← hc] at hint
        have h4 := (rhe_below hint).2 (by
          obtain ⟨r, rfl⟩ : ∃ r, p = r + 1 := ⟨p - 1, by omega⟩
          rw [pow_succ]
          omega)
        have hcK : (M : K) * 2 ^ q = 2 ^ p := by exact_mod_cast hc.symm
        rw [hcK, e3]
        push_cast at h4
        exact h4
      · have hcK : (2 : K) ^ p + 1 ≤ M * 2 ^ q := by exact_mod_cast hc
        have hsm : (1 / 2 : K) ^ (p + 1) ≤ 1 / 2 := by
          calc (1 / 2 : K) ^ (p + 1) ≤ (1 / 2) ^ 1 := pow_le_pow_of_le_one (by norm_num) (by norm_num) (by omega)
            _ = _ := pow_one _
        have : ((2 : K) ^ p + 1) * (1 - (1 / 2) ^ (p + 1)) ≤ M * 2 ^ q * (1 - (1 / 2) ^ (p + 1)) :=
          mul_le_mul_of_nonneg_right hcK (by linarith)
        nlinarith
    · have h4 := (rhe_below hint).1
      push_cast at h4
      have hcK : (M : K) * 2 ^ q < 2 ^ p := by exact_mod_cast hc
      have := mul_lt_mul_of_pos_right hcK hpp
      linarith
  have : (x - M * (1 - (1 / 2) ^ (p + 1))) * 2 ^ q < 0 := by linarith
  have := neg_of_mul_neg_left this h2q.le
  linarith

/-- The error of rounding a number up to one. -/
lemma nearest_low {p : ℕ} (hp : 1 ≤ p) {x : K} (h0 : 0 ≤ x) (h1 : x ≤ 1) :
    x - Model.nearest p x ≤ (1 / 2) ^ (p + 1) := by
  have hpp : (0 : K) < (1 / 2) ^ (p + 1) := by positivity
  rcases h1.eq_or_lt with rfl | h1
  · have := nearest_exact (K := K) hp (m := 1) (by rw [abs_one]; exact one_le_pow₀ (by norm_num)) 0
    simp only [Int.cast_one, zpow_zero, mul_one] at this
    rw [this, sub_self]
    exact hpp.le
  rcases h0.eq_or_lt with rfl | h0
  · rw [nearest_zero, sub_zero]
    exact hpp.le
  have hl := log_le x h0.ne'
  unfold Model.nearest
  rw [abs_of_pos h0] at hl ⊢
  generalize Int.log 2 x = e at hl
  have he : e < 0 := by
    by_contra hc
    have : (1 : K) ≤ 2 ^ e := one_le_zpow₀ (by norm_num) (not_lt.1 hc)
    linarith
  have hs : (0 : K) < 2 ^ (e + 1 - p) := by positivity
  have h := (abs_le.1 (rhe_err (x / 2 ^ (e + 1 - p)))).1
  have h2 : x - (roundHalfEven (x / 2 ^ (e + 1 - p)) : K) * 2 ^ (e + 1 - p) ≤ 1 / 2 * 2 ^ (e + 1 - p) := by
    have := mul_le_mul_of_nonneg_right h hs.le
    rw [sub_mul, div_mul_cancel₀ _ hs.ne'] at this
    linarith
  refine h2.trans ?_
  have h3 : (2 : K) ^ (e + 1 - p) ≤ 2 ^ (-(p : ℤ)) := zpow_le_zpow_right₀ (by norm_num) (by omega)
  rw [zpow_neg, zpow_natCast] at h3
  calc (1 / 2 : K) * 2 ^ (e + 1 - p) ≤ 1 / 2 * (2 ^ p)⁻¹ := by linarith
    _ = _ := by rw [pow_succ, one_div, inv_pow]; ring

lemma truncInt_toNat {x : K} (h : 0 ≤ x) : (truncInt x).toNat = ⌊x⌋.toNat ∧ ((truncInt x).toNat : K) ≤ x ∧
    x < (truncInt x).toNat + 1 := by
  unfold truncInt
  rw [if_pos h]
  have hf : 0 ≤ ⌊x⌋ := Int.floor_nonneg.2 h
  have e : ((⌊x⌋.toNat : ℕ) : K) = (⌊x⌋ : K) := by
    have : ((⌊x⌋.toNat : ℕ) : ℤ) = ⌊x⌋ := Int.toNat_of_nonneg hf
    exact_mod_cast this
  rw [e]
  exact ⟨rfl, Int.floor_le x, Int.lt_floor_add_one x⟩

/-- C126 in rounded arithmetic: of each kind there are as many parcels as the share says, up to rounding and the
remainder of less than a parcel. -/
theorem C126_rounded_share {D : Rounding K} {P : Params L W m K} (h0 : 0 ≤ P.fBedload) (h1 : P.fBedload ≤ 1) :
    (P.NpSed * P.fBedload * (1 - D.u) - 1 < numStartsR D .sand P ∧
      (numStartsR D .sand P : K) ≤ P.NpSed * P.fBedload * (1 + D.u)) ∧
    (P.NpSed * (1 - P.fBedload) * (1 - D.u) ^ 2 - 1 < numStartsR D .mud P ∧
      (numStartsR D .mud P : K) ≤ P.NpSed * (1 - P.fBedload) * (1 + D.u) ^ 2) := by
  have hN : (0 : K) ≤ P.NpSed := Nat.cast_nonneg _
  have hu := D.u_half
  have hu0 := D.u_nonneg
  have hs : 0 ≤ (P.NpSed : K) * P.fBedload := mul_nonneg hN h0
  have hm : 0 ≤ 1 - P.fBedload := by linarith
  have hm2 : 0 ≤ (P.NpSed : K) * D.fl (1 - P.fBedload) := mul_nonneg hN (fl_nonneg D hm)
  obtain ⟨-, a1, a2⟩ := truncInt_toNat (fl_nonneg D hs)
  obtain ⟨-, b1, b2⟩ := truncInt_toNat (fl_nonneg D hm2)
  have c1 := fl_ge D hs
  have c2 := fl_le D hs
  have d1 := fl_ge D hm2
  have d2 := fl_le D hm2
  have e1 := mul_le_mul_of_nonneg_left (fl_ge D hm) hN
  have e2 := mul_le_mul_of_nonneg_left (fl_le D hm) hN
  have f1 := mul_le_mul_of_nonneg_right e1 (show 0 ≤ 1 - D.u by linarith)
  have f2 := mul_le_mul_of_nonneg_right e2 (show 0 ≤ 1 + D.u by linarith)
  simp only [numStartsR]
  refine ⟨⟨by linarith, by linarith⟩, by nlinarith, by nlinarith⟩

/-- C126 in rounded arithmetic: altogether there are never more parcels than configured, and at most one less. -/
theorem C126_rounded_count {p : ℕ} (hp : 1 ≤ p) {P : Params L W m K} (h0 : 0 ≤ P.fBedload) (h1 : P.fBedload ≤ 1)
    (hN : 4 * P.NpSed ≤ 2 ^ p) :
    P.NpSed ≤ numStartsR (binary K p hp) .sand P + numStartsR (binary K p hp) .mud P + 1 ∧
      numStartsR (binary K p hp) .sand P + numStartsR (binary K p hp) .mud P ≤ P.NpSed := by
  have hNK : (0 : K) ≤ P.NpSed := Nat.cast_nonneg _
  have hs : 0 ≤ (P.NpSed : K) * P.fBedload := mul_nonneg hNK h0
  have hm : 0 ≤ 1 - P.fBedload := by linarith
  have hm2 : 0 ≤ (P.NpSed : K) * (binary K p hp).fl (1 - P.fBedload) := mul_nonneg hNK (fl_nonneg _ hm)
  constructor
  · by_contra hc
    push Not at hc
    obtain ⟨-, -, a2⟩ := truncInt_toNat (fl_nonneg (binary K p hp) hs)
    obtain ⟨-, -, b2⟩ := truncInt_toNat (fl_nonneg (binary K p hp) hm2)
    simp only [numStartsR] at hc
    set a := (truncInt ((binary K p hp).fl ((P.NpSed : K) * P.fBedload))).toNat
    set b := (truncInt ((binary K p hp).fl ((P.NpSed : K) * (binary K p hp).fl (1 - P.fBedload)))).toNat
    have g1 := nearest_gap hp hs (M := a + 1) (by omega) (by push_cast; exact a2)
    have g2 := nearest_gap hp hm2 (M := b + 1) (by omega) (by push_cast; exact b2)
    have g3 := mul_le_mul_of_nonneg_left (nearest_low (K := K) hp hm (by linarith)) hNK
    have hh : (0 : K) < 1 - (1 / 2) ^ (p + 1) := by
      have : (1 / 2 : K) ^ (p + 1) < 1 := pow_lt_one₀ (by norm_num) (by norm_num) (by omega)
      linarith
    have hab : (a : K) + 1 + (b + 1) ≤ P.NpSed := by
      have : a + 1 + (b + 1) ≤ P.NpSed := by omega
      exact_mod_cast this
    have := mul_le_mul_of_nonneg_right hab hh.le
    have e : (binary K p hp).fl (1 - P.fBedload) = Model.nearest p (1 - P.fBedload) := rfl
    rw [e] at g2
    push_cast at g1 g2
    nlinarith
  · obtain ⟨⟨-, a⟩, -, b⟩ := C126_rounded_share (D := binary K p hp) h0 h1
    have hu : (binary K p hp).u * 2 ^ p = 1 := by
      show (1 / 2 : K) ^ p * 2 ^ p = 1
      rw [← mul_pow]
      norm_num
    have hu0 := (binary K p hp).u_nonneg
    have huh := (binary K p hp).u_half
    set u := (binary K p hp).u
    have hN4 : u * (4 * (P.NpSed : K)) ≤ 1 := by
      rw [← hu]
      exact mul_le_mul_of_nonneg_left (by exact_mod_cast hN) hu0
    have h5 : (P.NpSed : K) * P.fBedload * (1 + u) ≤ P.NpSed * P.fBedload * (1 + u) ^ 2 := by
      refine mul_le_mul_of_nonneg_left ?_ hs
      nlinarith
    have h6 : ((numStartsR (binary K p hp) .sand P + numStartsR (binary K p hp) .mud P : ℕ) : K) < P.NpSed + 1 := by
      push_cast
      have : (P.NpSed : K) * P.fBedload * (1 + u) ^ 2 + P.NpSed * (1 - P.fBedload) * (1 + u) ^ 2 =
        P.NpSed + u * (4 * (P.NpSed : K)) * ((2 + u) / 4) := by ring
      nlinarith
    have : numStartsR (binary K p hp) .sand P + numStartsR (binary K p hp) .mud P < P.NpSed + 1 := by exact_mod_cast h6
    omega

end

/-! ## Created models -/

section
variable {K : Type} [Field K] [LinearOrder K] [IsStrictOrderedRing K] [FloorRing K] {σ : Type}

/-- C126 in rounded arithmetic: over a run of any length from creation the inlet supplies the sediment discharge times
the time steps, of it the share `f_bedload` as sand, each up to a few roundings and less than one parcel per
timestep. -/
theorem C126_rounded_supply {F : Rounding K} {p : ℕ} (hp : 4 ≤ p) {O : Oracle K} (hO : OracleOk O) {I : Input K}
    (hI : RunnableR (binary K p (by omega)) I) (hN : 4 * I.NpSed ≤ 2 ^ p) :
    ∃ M, createR F (binary K p (by omega)) O I = .ok M ∧ ∃ (_ : NeZero M.L) (_ : NeZero M.W),
      ∀ {g : Rng K σ} {n : ℕ} {S' : State M.L M.W K} {ls : List (StepLog M.L M.W K)} {s s' : σ},
      timestepsR F (binary K p (by omega)) g (List.replicate n M.P) M.S s = .ok (S', ls, s') →
      let V := sedimentDischarge I M.m * (n * M.P.dt)
      let u := (1 / 2 : K) ^ p
      let keep := (1 - F.u) * (1 - u) ^ 8
      S'.time = ticks (binary K p (by omega)) M.P.dt 0 n ∧ 0 ≤ V ∧
      (keep * (V - V / I.NpSed) ≤ enteredSand ls + enteredMud ls ∧ keep * (enteredSand ls + enteredMud ls) ≤ V) ∧
      (keep * (I.fBedload * (1 - u) * V - V / I.NpSed) ≤ enteredSand ls ∧
        keep * enteredSand ls ≤ I.fBedload * (1 + u) * V) ∧
      (keep * ((1 - I.fBedload) * (1 - u) ^ 2 * V - V / I.NpSed) ≤ enteredMud ls ∧
        keep * enteredMud ls ≤ (1 - I.fBedload) * (1 + u) ^ 2 * V) := by
  set D := binary K p (by omega : 1 ≤ p) with hD
  have huD : D.u = (1 / 2) ^ p := rfl
  have hu16 : D.u ≤ 1 / 16 := by
    rw [huD]
    calc (1 / 2 : K) ^ p ≤ (1 / 2) ^ 4 := pow_le_pow_of_le_one (by norm_num) (by norm_num) hp
      _ = _ := by norm_num
  obtain ⟨L, W, m, iL, iW, P, S, hc, hL, hW, hm, hdt, -⟩ :=
    C107_created (F := F) hu16 (digits_binary p (by omega)).one hO hI
  refine ⟨_, hc, iL, iW, fun {g n S' ls s s'} hr => ?_⟩
  obtain ⟨hA, B, hB, e⟩ := createR_ok hc
  have hmN : (m : ℤ) = B.N0 := by
    rw [hm, (bcR_ok hB).eN0, hW]
  have hV8 := (C107_derived hA hI.flowing hB).2.2.2.2.2.2.2.2.2.2
  have e1 : P.NpSed = I.NpSed.toNat ∧ P.fBedload = I.fBedload ∧ P.VpSed = B.VpSed ∧ P.dt = B.dt ∧ S.time = 0 := by
    cases e
    exact ⟨rfl, rfl, rfl, rfl, rfl⟩
  clear e
  obtain ⟨e1, e2, e3, e4, e5⟩ := e1
  have hNp := hA.NpSed
  have eN : (P.NpSed : K) = I.NpSed := by
    rw [e1]
    have : ((I.NpSed.toNat : ℕ) : ℤ) = I.NpSed := Int.toNat_of_nonneg hNp.le
    exact_mod_cast this
  have hNK : (0 : K) < I.NpSed := by exact_mod_cast hNp
  have hf0 : 0 ≤ P.fBedload := by rw [e2]; exact hA.f0
  have hf1 : P.fBedload ≤ 1 := by rw [e2]; exact hA.f1
  have hcount := C126_rounded_count (K := K) (p := p) (by omega) hf0 hf1
    (by rw [e1]; have := Int.toNat_of_nonneg hNp.le; zify; rw [this]; exact hN)
  have hshare := C126_rounded_share (D := D) hf0 hf1
  obtain ⟨ha, hb⟩ := C126_rounded_entered n hr
  rw [← hD] at hcount
  rw [eN, e2, huD] at hshare
  rw [ha, hb, e3]
  rw [huD] at hV8
  have hmK : (B.N0 : K) = m := by exact_mod_cast hmN.symm
  rw [hmK, ← e4] at hV8
  have hVnn : 0 ≤ B.VpSed := by
    have := hV8.pos' (by rw [← huD]; linarith)
    exact nonneg_of_mul_nonneg_right this hNK
  have hq : 0 ≤ I.u0 * I.h0 * (m * I.dx) * (I.C0pct / 100) * P.dt := hV8.pos
  have hlow := hV8.low
  have hhigh := hV8.high
  have v1 := fl_ge F hVnn
  have v2 := fl_le F hVnn
  have hFu := F.u_half
  have hFu0 := F.u_nonneg
  have eV : sedimentDischarge I m * (n * P.dt) = n * (I.u0 * I.h0 * (m * I.dx) * (I.C0pct / 100) * P.dt) := by
    unfold sedimentDischarge
    ring
  have htime := (C101_clock hr).1
  rw [e5] at htime
  simp only [eV]
  set q := I.u0 * I.h0 * (m * I.dx) * (I.C0pct / 100) * P.dt
  set u := (1 / 2 : K) ^ p
  have hu0 : 0 ≤ u := by positivity
  have hu1 : u ≤ 1 / 16 := by rw [← huD]; exact hu16
  set v := F.fl B.VpSed
  have hv : 0 ≤ v := fl_nonneg F hVnn
  have hk8 : 0 ≤ (1 - u) ^ 8 := pow_nonneg (by linarith) _
  have hk : 0 ≤ (1 - F.u) * (1 - u) ^ 8 := mul_nonneg (by linarith) hk8
  have w1 : (1 - F.u) * (1 - u) ^ 8 * q ≤ I.NpSed * v := by
    have a1 := mul_le_mul_of_nonneg_left hlow (show 0 ≤ 1 - F.u by linarith)
    have a2 := mul_le_mul_of_nonneg_left v1 hNK.le
    linarith
  have w2 : (1 - F.u) * (1 - u) ^ 8 * (I.NpSed * v) ≤ q := by
    have a1 : (1 - F.u) * v ≤ B.VpSed := by
      have a2 := mul_le_mul_of_nonneg_left v2 (show 0 ≤ 1 - F.u by linarith)
      have a3 := mul_nonneg hVnn (mul_nonneg hFu0 hFu0)
      linarith
    have a4 := mul_le_mul_of_nonneg_left a1 (mul_nonneg hk8 hNK.le)
    linarith
  generalize (1 - F.u) * (1 - u) ^ 8 = keep at hk w1 w2
  have hn : (0 : K) ≤ n := Nat.cast_nonneg _
  have key : ∀ c a b : K, 0 ≤ c → 0 ≤ b → I.NpSed * a - 1 ≤ c → c ≤ I.NpSed * b →
      keep * (a * (n * q) - n * q / I.NpSed) ≤ n * (c * v) ∧ keep * (n * (c * v)) ≤ b * (n * q) := by
    intro c a b hc hb h1 h2
    constructor
    · have e : keep * (a * (n * q) - n * q / I.NpSed) = n * ((I.NpSed * a - 1) * (keep * q / I.NpSed)) := by
        field_simp
      rw [e]
      refine mul_le_mul_of_nonneg_left ?_ hn
      have hz : keep * q / I.NpSed ≤ v := by
        rw [div_le_iff₀ hNK]
        linarith
      have hz0 : 0 ≤ keep * q / I.NpSed := div_nonneg (mul_nonneg hk hq) hNK.le
      calc (I.NpSed * a - 1) * (keep * q / I.NpSed) ≤ c * (keep * q / I.NpSed) := mul_le_mul_of_nonneg_right h1 hz0
        _ ≤ c * v := mul_le_mul_of_nonneg_left hz hc
    · have a1 := mul_le_mul_of_nonneg_right h2 hv
      have a2 := mul_le_mul_of_nonneg_left a1 hk
      have a3 := mul_le_mul_of_nonneg_left w2 hb
      have a4 := mul_le_mul_of_nonneg_left (a2.trans (by linarith : _ ≤ b * q)) hn
      linarith
  set a := numStartsR D .sand P
  set b := numStartsR D .mud P
  have k1 := key (a + b) 1 1 (by positivity) zero_le_one
    (by
      have : (P.NpSed : K) ≤ (a : K) + b + 1 := by exact_mod_cast hcount.1
      rw [eN] at this
      linarith)
    (by
      have : (a : K) + b ≤ P.NpSed := by exact_mod_cast hcount.2
      rw [eN] at this
      linarith)
  have hf0' : 0 ≤ I.fBedload := hA.f0
  have hf1' : 0 ≤ 1 - I.fBedload := by have := hA.f1; linarith
  have k2 := key a (I.fBedload * (1 - u)) (I.fBedload * (1 + u)) (by positivity) (by positivity)
    (by have := hshare.1.1; linarith) (by have := hshare.1.2; linarith)
  have k3 := key b ((1 - I.fBedload) * (1 - u) ^ 2) ((1 - I.fBedload) * (1 + u) ^ 2) (by positivity)
    (mul_nonneg hf1' (by positivity)) (by have := hshare.2.1; linarith) (by have := hshare.2.2; linarith)
  have eab : (n : K) * (a * v) + n * (b * v) = n * ((a + b) * v) := by ring
  rw [eab]
  rw [one_mul] at k1
  exact ⟨htime, mul_nonneg hn hq, k1, k2, k3⟩

end

/-! ## Non-trivial cases -/

/-- The default configuration with a share of sand of 0.8, read into doubles. -/
def exShare : Input ℚ := { exDoubles with fBedload := double.fl (4 / 5) }

/-- C126 is not exact in rounded arithmetic, though the share is a whole number of parcels: of the 2000 parcels of the
default configuration with `f_bedload` of 0.8 there are 1600 of sand and 399 of mud, in every timestep of runs of any
length. -/
theorem C126_rounded_witness {σ : Type} {g : Rng ℚ σ} (hg : PositiveDraws g) :
    exShare.NpSed = 2000 ∧ (2000 : ℚ) * (4 / 5) = 1600 ∧
    ∃ M, createR single double exOracle exShare = .ok M ∧ numStartsR double .sand M.P = 1600 ∧
      numStartsR double .mud M.P = 399 ∧ ∃ (_ : NeZero M.L) (_ : NeZero M.W), ∀ (n : ℕ) (s : σ), ∃ S' ls s',
        timestepsR single double g (List.replicate n M.P) M.S s = .ok (S', ls, s') ∧
        enteredSand ls + enteredMud ls = n * (1999 * single.fl M.P.VpSed) := by
  have hR : RunnableR double exShare :=
    { exDoublesRunnable with
      accepted := (C50_validate _).1 (by decide +kernel)
      flowing := ⟨by decide +kernel, by decide +kernel, by decide +kernel, by decide +kernel⟩
      hb := by intro b h; cases h
      rows := by decide +kernel
      L := by decide +kernel
      W := by decide +kernel
      steps := by intro x h; cases h }
  have hFD : Within single double := within_binary _ _ (by norm_num)
  obtain ⟨L, W, m, iL, iW, P, S, h, -, -, hr⟩ := C107_run (σ := σ) hFD double_small
    (by decide +kernel) (by decide +kernel) exOracleOk hR hg
  have e1 : P.NpSed = 2000 ∧ P.fBedload = double.fl (4 / 5) := by
    obtain ⟨-, B, -, e⟩ := createR_ok h
    cases e
    exact ⟨rfl, rfl⟩
  have c1 : numStartsR double .sand P = 1600 := by
    simp only [numStartsR, e1.1, e1.2]
    decide +kernel
  have c2 : numStartsR double .mud P = 399 := by
    simp only [numStartsR, e1.1, e1.2]
    decide +kernel
  refine ⟨rfl, by norm_num, _, h, c1, c2, iL, iW, fun n s => ?_⟩
  obtain ⟨S', ls, s', h1, -⟩ := hr n s
  obtain ⟨a, b⟩ := C126_rounded_entered n h1
  refine ⟨S', ls, s', h1, ?_⟩
  rw [a, b, c1, c2]
  push_cast
  ring

-- C126: the hypotheses of the rounded supply are met by the default configuration
example {σ : Type} {g : Rng ℚ σ} (hg : PositiveDraws g) :
    ∃ M, createR single double exOracle exDoubles = .ok M ∧ ∃ (_ : NeZero M.L) (_ : NeZero M.W), ∀ (n : ℕ) (s : σ),
      ∃ S' ls s', timestepsR single double g (List.replicate n M.P) M.S s = .ok (S', ls, s') ∧
        (1 - (1 / 2) ^ 24) * (1 - (1 / 2) ^ 53) ^ 8 * (enteredSand ls + enteredMud ls) ≤
          sedimentDischarge exDoubles M.m * (n * M.P.dt) := by
  have hFD : Within single double := within_binary _ _ (by norm_num)
  obtain ⟨L, W, m, iL, iW, P, S, h, -, -, hr⟩ := C107_run (σ := σ) hFD double_small
    (by decide +kernel) (by decide +kernel) exOracleOk exDoublesRunnable hg
  obtain ⟨M, hM, i1, i2, hs⟩ := C126_rounded_supply (σ := σ) (F := single) (p := 53) (by norm_num) exOracleOk exDoublesRunnable
    (by decide +kernel)
  have e : (⟨L, W, m, P, S⟩ : Built ℚ) = M := Except.ok.inj (h.symm.trans hM)
  subst e
  refine ⟨_, h, iL, iW, fun n s => ?_⟩
  obtain ⟨S', ls, s', h1, -⟩ := hr n s
  exact ⟨S', ls, s', h1, (hs h1).2.2.1.2⟩

end Verif.Props
