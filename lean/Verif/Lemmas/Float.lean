import Verif.Model.Float
import Mathlib.Tactic.Linarith
import Mathlib.Tactic.Positivity
import Mathlib.Tactic.FieldSimp
import Mathlib.Tactic.Ring
import Mathlib.Tactic.SplitIfs
import Mathlib.Tactic.NormNum

/-!
# Facts about rounding
-/

namespace Verif.Lemmas

open Verif.Model

set_option linter.unusedSectionVars false

variable {K : Type*} [Field K] [LinearOrder K] [IsStrictOrderedRing K]

section
variable [FloorRing K]

lemma rhe_cases (x : K) :
    (roundHalfEven x = ⌊x⌋ ∧ x - ⌊x⌋ ≤ 1 / 2 ∧ (x - ⌊x⌋ = 1 / 2 → ⌊x⌋ % 2 = 0)) ∨
    (roundHalfEven x = ⌊x⌋ + 1 ∧ 1 / 2 ≤ x - ⌊x⌋ ∧ (x - ⌊x⌋ = 1 / 2 → ⌊x⌋ % 2 ≠ 0)) := by
  simp only [roundHalfEven]
  split_ifs with h1 h2 h3
  · exact .inl ⟨rfl, h1.le, fun h => absurd h h1.ne⟩
  · exact .inr ⟨rfl, h2.le, fun h => absurd h h2.ne'⟩
  · exact .inl ⟨rfl, le_of_not_gt h2, fun _ => h3⟩
  · exact .inr ⟨rfl, le_of_not_gt h1, fun _ => h3⟩

lemma rhe_err (x : K) : |(roundHalfEven x : K) - x| ≤ 1 / 2 := by
  have h0 := Int.floor_le x
  have h1 := Int.lt_floor_add_one x
  rcases rhe_cases x with ⟨h, hr, -⟩ | ⟨h, hr, -⟩ <;> rw [h, abs_le] <;> push_cast <;>
    constructor <;> linarith

lemma rhe_int (n : ℤ) : roundHalfEven (n : K) = n := by
  simp [roundHalfEven]

lemma rhe_mono {x y : K} (h : x ≤ y) : roundHalfEven x ≤ roundHalfEven y := by
  have hf := Int.floor_le_floor h
  rcases hf.lt_or_eq with hlt | he
  · have : roundHalfEven x ≤ ⌊x⌋ + 1 := by
      rcases rhe_cases x with ⟨e, -⟩ | ⟨e, -⟩ <;> omega
    have : ⌊y⌋ ≤ roundHalfEven y := by
      rcases rhe_cases y with ⟨e, -⟩ | ⟨e, -⟩ <;> omega
    omega
  · rcases rhe_cases x with ⟨e, hx, hx'⟩ | ⟨e, hx, hx'⟩ <;> rcases rhe_cases y with ⟨e', hy, hy'⟩ | ⟨e', hy, hy'⟩
    · omega
    · omega
    · rw [he] at hx hx'
      have h2 : y - ⌊y⌋ = 1 / 2 := by linarith
      have h3 : x - ⌊y⌋ = 1 / 2 := by linarith
      exact absurd (hy' h2) (hx' h3)
    · omega

lemma rhe_neg (x : K) : roundHalfEven (-x) = -roundHalfEven x := by
  have key : ∀ (n : ℤ) (y : K), |(n : K) - y| ≤ 1 / 2 → (|(n : K) - y| = 1 / 2 → n % 2 = 0) →
      roundHalfEven y = n := by
    intro n y h he
    have e := rhe_err y
    by_contra hne
    have h1 : (1 : K) ≤ |((roundHalfEven y - n : ℤ) : K)| := by
      have : (1 : ℤ) ≤ |roundHalfEven y - n| := Int.one_le_abs (sub_ne_zero.2 hne)
      have := (Int.cast_le (R := K)).2 this
      push_cast at this ⊢
      exact this
    have h2 : |((roundHalfEven y - n : ℤ) : K)| ≤ |(roundHalfEven y : K) - y| + |(n : K) - y| := by
      have := abs_sub_le (roundHalfEven y : K) y n
      rw [abs_sub_comm y] at this
      push_cast
      exact this
    have h3 : |(n : K) - y| = 1 / 2 := by linarith
    have h4 : |(roundHalfEven y : K) - y| = 1 / 2 := by linarith
    have hn := he h3
    have hd : |roundHalfEven y - n| = 1 := by
      have : (|roundHalfEven y - n| : ℤ) ≤ 1 := by
        have : ((|roundHalfEven y - n| : ℤ) : K) ≤ ((1 : ℤ) : K) := by
          push_cast; push_cast at h2; linarith
        exact Int.cast_le.1 this
      have : (1 : ℤ) ≤ |roundHalfEven y - n| := Int.one_le_abs (sub_ne_zero.2 hne)
      omega
    have hm : roundHalfEven y % 2 = 0 := by
      rcases rhe_cases y with ⟨e1, hy, hy'⟩ | ⟨e1, hy, hy'⟩
      · rw [e1] at h4 ⊢
        rw [abs_sub_comm, abs_of_nonneg (sub_nonneg.2 (Int.floor_le y))] at h4
        exact hy' h4
      · rw [e1] at h4 ⊢
        push_cast at h4
        have h1 := Int.lt_floor_add_one y
        rw [abs_of_nonneg (by linarith)] at h4
        have := hy' (by linarith)
        omega
    rcases abs_eq (by norm_num : (0 : ℤ) ≤ 1) |>.1 hd with h | h <;> omega
  refine key _ _ ?_ ?_
  · push_cast
    rw [show -(roundHalfEven x : K) - -x = -((roundHalfEven x : K) - x) by ring, abs_neg]
    exact rhe_err x
  · push_cast
    rw [show -(roundHalfEven x : K) - -x = -((roundHalfEven x : K) - x) by ring, abs_neg]
    intro h4
    rcases rhe_cases x with ⟨e1, hy, hy'⟩ | ⟨e1, hy, hy'⟩
    · rw [e1] at h4 ⊢
      rw [abs_sub_comm, abs_of_nonneg (sub_nonneg.2 (Int.floor_le x))] at h4
      have := hy' h4
      omega
    · rw [e1] at h4 ⊢
      push_cast at h4
      have h1 := Int.lt_floor_add_one x
      rw [abs_of_nonneg (by linarith)] at h4
      have := hy' (by linarith)
      omega

lemma two_zpow_pos (e : ℤ) : (0 : K) < 2 ^ e := zpow_pos (by norm_num) e

lemma two_zpow_add (a b : ℤ) : (2 : K) ^ (a + b) = 2 ^ a * 2 ^ b := zpow_add₀ (by norm_num) a b

lemma nearest_neg (p : ℕ) (x : K) : nearest p (-x) = -nearest p x := by
  simp [nearest, abs_neg, neg_div, rhe_neg]

lemma nearest_zero (p : ℕ) : nearest p (0 : K) = 0 := by
  have := rhe_int (K := K) 0
  simp only [Int.cast_zero] at this
  simp [nearest, this]

lemma log_le (x : K) (hx : x ≠ 0) : (2 : K) ^ Int.log 2 |x| ≤ |x| := by
  exact_mod_cast Int.zpow_log_le_self (b := 2) (by norm_num) (abs_pos.2 hx)

lemma lt_log (x : K) : |x| < (2 : K) ^ (Int.log 2 |x| + 1) := by
  exact_mod_cast Int.lt_zpow_succ_log_self (b := 2) (by norm_num) |x|

lemma nearest_err (p : ℕ) (x : K) : |nearest p x - x| ≤ (1 / 2) ^ p * |x| := by
  by_cases hx : x = 0
  · subst hx; simp [nearest_zero]
  set e := Int.log 2 |x| + 1 - p with he
  have hp := two_zpow_pos (K := K) e
  have h := rhe_err (x / 2 ^ e)
  have e1 : nearest p x - x = ((roundHalfEven (x / 2 ^ e) : K) - x / 2 ^ e) * 2 ^ e := by
    rw [sub_mul, div_mul_cancel₀ _ hp.ne']; rfl
  rw [e1, abs_mul, abs_of_pos hp]
  have h2 : (1 / 2 : K) * 2 ^ e = (1 / 2) ^ p * 2 ^ Int.log 2 |x| := by
    rw [he, show Int.log 2 |x| + 1 - (p : ℤ) = Int.log 2 |x| + (1 + -(p : ℤ)) by ring, two_zpow_add,
      two_zpow_add, zpow_one, zpow_neg, zpow_natCast, div_pow, one_pow]
    field_simp
  calc _ ≤ (1 / 2 : K) * 2 ^ e := mul_le_mul_of_nonneg_right h hp.le
    _ = (1 / 2) ^ p * 2 ^ Int.log 2 |x| := h2
    _ ≤ _ := mul_le_mul_of_nonneg_left (log_le x hx) (by positivity)

lemma nearest_exact {p : ℕ} (hp : 1 ≤ p) {m : ℤ} (hm : |m| ≤ 2 ^ p) (e : ℤ) :
    nearest p ((m : K) * 2 ^ e) = (m : K) * 2 ^ e := by
  by_cases h0 : m = 0
  · subst h0; simp [nearest_zero]
  set x : K := (m : K) * 2 ^ e with hx
  set l := Int.log 2 |x| + 1 - p with hl
  have hpos := two_zpow_pos (K := K) l
  suffices h : ∃ n : ℤ, x / 2 ^ l = n by
    obtain ⟨n, hn⟩ := h
    have : nearest p x = (roundHalfEven (x / 2 ^ l) : K) * 2 ^ l := rfl
    rw [this, hn, rhe_int, ← hn, div_mul_cancel₀ _ hpos.ne']
  have hle : l ≤ e + 1 ∧ (l = e + 1 → |m| = 2 ^ p) := by
    have hxa : |x| = |(m : K)| * 2 ^ e := by rw [hx, abs_mul, abs_of_pos (two_zpow_pos (K := K) e)]
    have hx0 : x ≠ 0 := by
      rw [hx]; exact mul_ne_zero (by exact_mod_cast h0) (two_zpow_pos e).ne'
    have h1 : |x| ≤ 2 ^ (e + p) := by
      rw [hxa, two_zpow_add, mul_comm, zpow_natCast]
      refine mul_le_mul_of_nonneg_left ?_ (two_zpow_pos e).le
      have := (Int.cast_le (R := K)).2 hm
      push_cast at this
      exact this
    have h2 := (log_le x hx0).trans h1
    have h3 : Int.log 2 |x| ≤ e + p := (zpow_le_zpow_iff_right₀ (by norm_num : (1 : K) < 2)).1 h2
    refine ⟨by omega, fun h => ?_⟩
    have h4 : Int.log 2 |x| = e + p := by omega
    have h5 := log_le x hx0
    rw [h4] at h5
    have h6 : |x| = 2 ^ (e + p) := le_antisymm h1 h5
    rw [hxa, two_zpow_add, mul_comm] at h6
    have h7 := mul_left_cancel₀ (two_zpow_pos (K := K) e).ne' h6
    rw [zpow_natCast] at h7
    exact_mod_cast h7
  rcases hle.1.lt_or_eq with h | h
  · refine ⟨m * 2 ^ (e - l).toNat, ?_⟩
    push_cast
    rw [← zpow_natCast, Int.toNat_of_nonneg (by omega), zpow_sub₀ (by norm_num) e l, ← mul_div_assoc]
  · have hmp := hle.2 h
    obtain ⟨q, rfl⟩ : ∃ q, p = q + 1 := ⟨p - 1, by omega⟩
    have : ∃ k : ℤ, m = 2 * k := by
      rcases abs_eq (by positivity) |>.1 hmp with h | h
      · exact ⟨2 ^ q, by rw [h]; ring⟩
      · exact ⟨-2 ^ q, by rw [h]; ring⟩
    obtain ⟨k, hk⟩ := this
    refine ⟨k, ?_⟩
    rw [h, hx, hk, zpow_add₀ (by norm_num), zpow_one]
    push_cast
    have := (two_zpow_pos (K := K) e).ne'
    field_simp

lemma nearest_repr (p : ℕ) (x : K) : ∃ m : ℤ, |m| ≤ 2 ^ p ∧ ∃ e : ℤ, nearest p x = (m : K) * 2 ^ e := by
  refine ⟨_, ?_, _, rfl⟩
  set l := Int.log 2 |x| + 1 - p with hl
  have hpos := two_zpow_pos (K := K) l
  have h : |x / 2 ^ l| ≤ ((2 ^ p : ℤ) : K) := by
    rw [abs_div, abs_of_pos hpos, div_le_iff₀ hpos]
    push_cast
    rw [← zpow_natCast, ← two_zpow_add]
    refine (lt_log x).le.trans (le_of_eq ?_)
    rw [hl]; congr 1; ring
  rw [abs_le] at h ⊢
  constructor
  · have := rhe_mono (K := K) (x := ((-2 ^ p : ℤ) : K)) (by push_cast at h ⊢; exact h.1)
    rwa [rhe_int] at this
  · have := rhe_mono h.2
    rwa [rhe_int] at this

lemma nearest_nonneg (p : ℕ) {x : K} (h : 0 ≤ x) : 0 ≤ nearest p x := by
  have hpos := two_zpow_pos (K := K) (Int.log 2 |x| + 1 - p)
  refine mul_nonneg ?_ hpos.le
  have := rhe_mono (K := K) (x := ((0 : ℤ) : K)) (y := x / 2 ^ (Int.log 2 |x| + 1 - p))
    (by push_cast; positivity)
  rw [rhe_int] at this
  exact_mod_cast this

lemma nearest_mono_pos {p : ℕ} (hp : 1 ≤ p) {x y : K} (hx : 0 < x) (h : x ≤ y) :
    nearest p x ≤ nearest p y := by
  have hy := hx.trans_le h
  have hl : Int.log 2 |x| ≤ Int.log 2 |y| := by
    rw [abs_of_pos hx, abs_of_pos hy]; exact Int.log_mono_right hx h
  rcases hl.lt_or_eq with hlt | he
  · have h1 : nearest p x ≤ 2 ^ (Int.log 2 |x| + 1) := by
      set l := Int.log 2 |x| + 1 - p with hle
      have hpos := two_zpow_pos (K := K) l
      have e1 : (2 : K) ^ (Int.log 2 |x| + 1) = ((2 ^ p : ℤ) : K) * 2 ^ l := by
        push_cast
        rw [← zpow_natCast, ← two_zpow_add]
        congr 1; rw [hle]; ring
      rw [e1]
      refine mul_le_mul_of_nonneg_right ?_ hpos.le
      have := rhe_mono (K := K) (x := x / 2 ^ l) (y := ((2 ^ p : ℤ) : K)) (by
        rw [div_le_iff₀ hpos, ← e1]
        exact (le_abs_self x).trans (lt_log x).le)
      rw [rhe_int] at this
      exact_mod_cast this
    have h2 : (2 : K) ^ Int.log 2 |y| ≤ nearest p y := by
      set l := Int.log 2 |y| + 1 - p with hle
      have hpos := two_zpow_pos (K := K) l
      have e1 : (2 : K) ^ Int.log 2 |y| = ((2 ^ (p - 1) : ℤ) : K) * 2 ^ l := by
        push_cast
        rw [← zpow_natCast, ← two_zpow_add]
        congr 1; rw [hle]; omega
      rw [e1]
      refine mul_le_mul_of_nonneg_right ?_ hpos.le
      have := rhe_mono (K := K) (x := ((2 ^ (p - 1) : ℤ) : K)) (y := y / 2 ^ l) (by
        rw [le_div_iff₀ hpos, ← e1, ← abs_of_pos hy, abs_abs]
        exact log_le y hy.ne')
      rw [rhe_int] at this
      exact_mod_cast this
    refine h1.trans (le_trans ?_ h2)
    exact zpow_le_zpow_right₀ (by norm_num) (by omega)
  · unfold nearest
    rw [he]
    have hpos := two_zpow_pos (K := K) (Int.log 2 |y| + 1 - p)
    refine mul_le_mul_of_nonneg_right ?_ hpos.le
    exact_mod_cast rhe_mono ((div_le_div_iff_of_pos_right hpos).2 h)

lemma nearest_mono {p : ℕ} (hp : 1 ≤ p) : Monotone (nearest p : K → K) := by
  intro x y h
  rcases lt_trichotomy x 0 with hx | rfl | hx
  · rcases lt_or_ge y 0 with hy | hy
    · have := nearest_mono_pos hp (neg_pos.2 hy) (neg_le_neg h)
      rw [nearest_neg, nearest_neg] at this
      linarith
    · have h1 := nearest_nonneg p (neg_pos.2 hx).le
      rw [nearest_neg] at h1
      have h2 := nearest_nonneg p hy
      linarith
  · rw [nearest_zero]; exact nearest_nonneg p h
  · exact nearest_mono_pos hp hx h

/-- Numbers of `p` binary digits, `p ≥ 1`. -/
def binary (K : Type*) [Field K] [LinearOrder K] [IsStrictOrderedRing K] [FloorRing K] (p : ℕ)
    (hp : 1 ≤ p) : Rounding K where
  fl := nearest p
  u := (1 / 2) ^ p
  u_nonneg := by positivity
  u_half := by
    calc ((1 : K) / 2) ^ p ≤ (1 / 2) ^ 1 := pow_le_pow_of_le_one (by norm_num) (by norm_num) hp
      _ = _ := pow_one _
  mono := nearest_mono hp
  idem x := by
    obtain ⟨m, hm, e, h⟩ := nearest_repr p x
    rw [h, nearest_exact hp hm]
  neg := nearest_neg p
  err := nearest_err p

end

/-! ## Any rounding -/

variable (R : Rounding K)

lemma fl_zero : R.fl 0 = 0 := by
  have := R.err 0
  simpa using this

lemma fl_nonneg {x : K} (h : 0 ≤ x) : 0 ≤ R.fl x := by
  have := R.mono h
  rwa [fl_zero] at this

lemma fl_nonpos {x : K} (h : x ≤ 0) : R.fl x ≤ 0 := by
  have := R.mono h
  rwa [fl_zero] at this

lemma fl_ge {x : K} (h : 0 ≤ x) : x * (1 - R.u) ≤ R.fl x := by
  have := (abs_le.1 (R.err x)).1
  rw [abs_of_nonneg h] at this
  linarith

lemma fl_le {x : K} (h : 0 ≤ x) : R.fl x ≤ x * (1 + R.u) := by
  have := (abs_le.1 (R.err x)).2
  rw [abs_of_nonneg h] at this
  linarith

lemma fl_pos {x : K} (h : 0 < x) : 0 < R.fl x := by
  have h1 := fl_ge R h.le
  have h2 := R.u_half
  have : 0 < x * (1 - R.u) := mul_pos h (by linarith)
  linarith

lemma fl_pos_iff {x : K} : 0 < R.fl x ↔ 0 < x := by
  constructor
  · intro h
    by_contra hx
    exact absurd (fl_nonpos R (not_lt.1 hx)) (not_le.2 h)
  · exact fl_pos R

lemma fl_eq_zero {x : K} : R.fl x = 0 ↔ x = 0 := by
  constructor
  · intro h
    rcases lt_trichotomy x 0 with hx | hx | hx
    · have := fl_pos R (neg_pos.2 hx)
      rw [R.neg, h] at this
      simp at this
    · exact hx
    · exact absurd h (fl_pos R hx).ne'
  · rintro rfl; exact fl_zero R

/-- Rounding does not pass over a rounded number. -/
lemma fl_le_of_le {x y : K} (hy : R.fl y = y) (h : x ≤ y) : R.fl x ≤ y := by
  have := R.mono h
  rwa [hy] at this

lemma le_fl_of_le {x y : K} (hx : R.fl x = x) (h : x ≤ y) : x ≤ R.fl y := by
  have := R.mono h
  rwa [hx] at this

/-- No rounding. -/
def exact (K : Type*) [Field K] [LinearOrder K] [IsStrictOrderedRing K] : Rounding K where
  fl := id
  u := 0
  u_nonneg := le_rfl
  u_half := by norm_num
  mono := monotone_id
  idem _ := rfl
  neg _ := rfl
  err x := by simp

end Verif.Lemmas
