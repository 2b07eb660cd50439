import Verif.Model.Index

/-!
# C01, C02: cell indices

Specification: a cell of an `L × W` domain is a pair `(x, y)` with `0 ≤ x < L`,
`0 ≤ y < W`; its flat index is its position in row-major order.
-/

namespace Verif.Props

open Verif.Model

/-- Specification: `(x, y)` is a cell of the `L × W` domain. -/
def InDomain (L W : ℤ) (c : ℤ × ℤ) : Prop := 0 ≤ c.1 ∧ c.1 < L ∧ 0 ≤ c.2 ∧ c.2 < W

/-- Specification: `i` is the row-major position of the cell `c`: the number of
cells in the full rows above plus the offset in the row. -/
def IsPosition (W : ℤ) (c : ℤ × ℤ) (i : ℤ) : Prop := i = W * c.1 + c.2

lemma isPosition_unique {L W : ℤ} {c d : ℤ × ℤ} {i : ℤ} (hc : InDomain L W c)
    (hd : InDomain L W d) (h1 : IsPosition W c i) (h2 : IsPosition W d i) : c = d := by
  obtain ⟨a, b⟩ := c
  obtain ⟨a', b'⟩ := d
  simp only [InDomain, IsPosition] at *
  obtain ⟨-, -, hb0, hbW⟩ := hc
  obtain ⟨-, -, hb0', hbW'⟩ := hd
  have hW : 0 < W := lt_of_le_of_lt hb0 hbW
  have e1 : i / W = a := by
    rw [h1, Int.mul_add_ediv_left _ _ (ne_of_gt hW), Int.ediv_eq_zero_of_lt hb0 hbW, add_zero]
  have e2 : i / W = a' := by
    rw [h2, Int.mul_add_ediv_left _ _ (ne_of_gt hW), Int.ediv_eq_zero_of_lt hb0' hbW', add_zero]
  have : a = a' := e1.symm.trans e2
  subst this
  have : b = b' := by linarith
  rw [this]

/-- C01: a valid cell has a flat index inside `[0, L*W)`, it is the row-major
position, and unravelling gives the cell back. -/
theorem C01_ravel_unravel {L W : ℤ} {c : ℤ × ℤ} (hc : InDomain L W c) :
    ∃ i, customRavel c (L, W) = .ok i ∧ IsPosition W c i ∧ 0 ≤ i ∧ i < L * W ∧
      customUnravel i (L, W) = .ok c := by
  obtain ⟨x, y⟩ := c
  obtain ⟨hx0, hxL, hy0, hyW⟩ := hc
  simp only at hx0 hxL hy0 hyW
  have hW : 0 < W := lt_of_le_of_lt hy0 hyW
  have hL : 0 < L := lt_of_le_of_lt hx0 hxL
  have hlt : x * W + y < L * W := by nlinarith
  have h0 : 0 ≤ x * W + y := by positivity
  refine ⟨x * W + y, ?_, ?_, h0, hlt, ?_⟩
  · unfold customRavel
    rw [if_neg]
    push Not
    exact ⟨le_of_lt hxL, le_of_lt hyW⟩
  · simp only [IsPosition]; ring
  · unfold customUnravel
    have h1 : ¬ (x * W + y > W * L) := by
      have : L * W = W * L := mul_comm _ _
      omega
    simp only [h1, if_false, ne_of_gt hW]
    have e1 : Int.fdiv (x * W + y) W = x := by
      rw [Int.fdiv_eq_ediv_of_nonneg _ hW.le, add_comm,
        Int.add_mul_ediv_right _ _ (ne_of_gt hW), Int.ediv_eq_zero_of_lt hy0 hyW, zero_add]
    have e2 : Int.fmod (x * W + y) W = y := by
      rw [Int.fmod_eq_emod_of_nonneg _ hW.le, add_comm, Int.add_mul_emod_self_right,
        Int.emod_eq_of_lt hy0 hyW]
    rw [e1, e2]

/-- C01: a valid flat index unravels to a valid cell whose flat index it is. -/
theorem C01_unravel_ravel {L W i : ℤ} (hW : 0 < W) (h0 : 0 ≤ i) (hi : i < L * W) :
    ∃ c, customUnravel i (L, W) = .ok c ∧ InDomain L W c ∧ IsPosition W c i ∧
      customRavel c (L, W) = .ok i := by
  have hm0 : 0 ≤ i % W := Int.emod_nonneg _ (ne_of_gt hW)
  have hmW : i % W < W := Int.emod_lt_of_pos _ hW
  have hd0 : 0 ≤ i / W := Int.ediv_nonneg h0 hW.le
  have hdm : W * (i / W) + i % W = i := Int.mul_ediv_add_emod i W
  have hdL : i / W < L := by
    rw [Int.ediv_lt_iff_lt_mul hW]; exact hi
  refine ⟨(i / W, i % W), ?_, ⟨hd0, hdL, hm0, hmW⟩, ?_, ?_⟩
  · unfold customUnravel
    have h1 : ¬ (i > W * L) := by
      have : L * W = W * L := mul_comm _ _
      omega
    simp only [h1, if_false, ne_of_gt hW]
    rw [Int.fdiv_eq_ediv_of_nonneg _ hW.le, Int.fmod_eq_emod_of_nonneg _ hW.le]
  · simp only [IsPosition]; omega
  · unfold customRavel
    rw [if_neg]
    · congr 1; simp only; rw [mul_comm]; exact hdm
    · push Not; exact ⟨hdL.le, hmW.le⟩

/-- C01 (what is rejected): every index beyond one past the end is rejected, and so is
every pair beyond one past the end. Missing for the full property: rejection of the
one-past-the-end and of negative indices (see the two negative theorems). -/
theorem C01_reject_partial {L W i : ℤ} (hi : L * W < i) (c : ℤ × ℤ) (hc : L < c.1 ∨ W < c.2) :
    customUnravel i (L, W) = .error .outOfBounds ∧
      customRavel c (L, W) = .error .outOfBounds := by
  constructor
  · unfold customUnravel
    rw [if_pos]
    simp only [gt_iff_lt]; rw [mul_comm]; exact hi
  · unfold customRavel
    rw [if_pos]
    exact hc

/-- C01 fails at the boundary: the one-past-the-end index is accepted and gives a cell
outside the domain, for every domain. -/
theorem C01_unravel_accepts_end {L W : ℤ} (hW : 0 < W) :
    customUnravel (L * W) (L, W) = .ok (L, 0) ∧ ¬ InDomain L W (L, 0) := by
  constructor
  · unfold customUnravel
    rw [if_neg (by simp only [gt_iff_lt, not_lt]; rw [mul_comm]), if_neg (ne_of_gt hW)]
    simp only
    rw [Int.fdiv_eq_ediv_of_nonneg _ hW.le, Int.fmod_eq_emod_of_nonneg _ hW.le,
      Int.mul_ediv_cancel _ (ne_of_gt hW), Int.mul_emod_left]
  · simp [InDomain]

/-- C01 fails for pairs: a column equal to the width is accepted and aliases the first
cell of the next row. -/
theorem C01_ravel_accepts_alias {L W x : ℤ} (hx : x < L) (hW : 0 ≤ W) :
    customRavel (x, W) (L, W) = .ok ((x + 1) * W) ∧ customRavel (x + 1, 0) (L, W) = .ok ((x + 1) * W) := by
  unfold customRavel
  rw [if_neg (by push Not; exact ⟨hx.le, le_refl _⟩), if_neg (by push Not; exact ⟨by omega, hW⟩)]
  constructor <;> · congr 1; simp only; ring

example : InDomain 4 6 (2, 5) ∧ customRavel (2, 5) (4, 6) = .ok 17 ∧
    customUnravel 17 (4, 6) = .ok (2, 5) := by
  refine ⟨by simp [InDomain], by decide, by decide⟩
example : customUnravel 25 (4, 6) = .error .outOfBounds := by decide
example : customUnravel 24 (4, 6) = .ok (4, 0) := by decide

/-- Specification: the neighbour of `c` in direction `d`, numbering the directions
row by row from the upstream-left corner. -/
def neighbour (c : ℤ × ℤ) (d : Fin 9) : ℤ × ℤ :=
  (c.1 + ((d.val / 3 : ℕ) : ℤ) - 1, c.2 + ((d.val % 3 : ℕ) : ℤ) - 1)

/-- The row-major position moves by the neighbour offset (in or out of the domain). -/
lemma calcNewInd_position {W : ℤ} {c : ℤ × ℤ} {i : ℤ} {d : Fin 9} (hd : d ≠ 4)
    (hi : IsPosition W c i) : IsPosition W (neighbour c d) (calcNewInd W i d) := by
  simp only [IsPosition] at *
  subst hi
  unfold calcNewInd ravelWalk neighbour
  rw [if_pos hd]
  fin_cases d <;> simp [iwalk, jwalk] <;> ring

/-- C02: from a cell, moving in any of the eight directions towards a cell of the domain
gives exactly that cell's flat index. -/
theorem C02_flat_walk {L W : ℤ} {c : ℤ × ℤ} {i : ℤ} {d : Fin 9} (hd : d ≠ 4)
    (hi : customRavel c (L, W) = .ok i)
    (hn : InDomain L W (neighbour c d)) :
    customRavel (neighbour c d) (L, W) = .ok (calcNewInd W i d) := by
  have hpos : IsPosition W c i := by
    unfold customRavel at hi
    split at hi
    · cases hi
    · cases hi; simp only [IsPosition]; ring
  obtain ⟨j, hj, hjp, -⟩ := C01_ravel_unravel hn
  rw [hj]
  have := calcNewInd_position hd hpos
  simp only [IsPosition] at this hjp
  rw [hjp, this]

/-- C02: the flat move decodes to the true neighbour exactly when the neighbour is inside
the domain; so aliasing to another cell happens only at the border. -/
theorem C02_alias_only_at_border {L W : ℤ} {c : ℤ × ℤ} {i : ℤ} {d : Fin 9} (hW : 0 < W)
    (hd : d ≠ 4) (hi : customRavel c (L, W) = .ok i)
    (h0 : 0 ≤ calcNewInd W i d) (h1 : calcNewInd W i d < L * W) :
    customUnravel (calcNewInd W i d) (L, W) = .ok (neighbour c d) ↔
      InDomain L W (neighbour c d) := by
  obtain ⟨e, he, hin, -, hr⟩ := C01_unravel_ravel hW h0 h1
  constructor
  · intro h
    rw [he] at h
    cases h
    exact hin
  · intro hn
    have h2 := C02_flat_walk hd hi hn
    obtain ⟨j, hj, -, -, -, hu⟩ := C01_ravel_unravel hn
    rw [h2] at hj
    cases hj
    exact hu

/-- C02: at the left border the flat move to the left lands on the last cell of the row
above: the aliasing case really occurs. -/
theorem C02_alias_witness {L W x : ℤ} (hx : 0 < x) (hxL : x < L) (hW : 0 < W) :
    ∃ i, customRavel (x, 0) (L, W) = .ok i ∧
      customUnravel (calcNewInd W i 3) (L, W) = .ok (x - 1, W - 1) := by
  have hin : InDomain L W (x, 0) := ⟨hx.le, hxL, le_refl _, hW⟩
  have hin' : InDomain L W (x - 1, W - 1) :=
    ⟨by simp only; omega, by simp only; omega, by simp only; omega, by simp only; omega⟩
  obtain ⟨i, hi, hip, -⟩ := C01_ravel_unravel hin
  obtain ⟨j, -, hjp, -, -, hu⟩ := C01_ravel_unravel hin'
  refine ⟨i, hi, ?_⟩
  have : calcNewInd W i 3 = j := by
    simp only [IsPosition] at hip hjp
    subst hip hjp
    unfold calcNewInd ravelWalk
    rw [if_pos (by decide)]
    simp [iwalk, jwalk]; ring
  rw [this]; exact hu

/-- C02: a parcel that does not move is sent to index 0 (a finished parcel). -/
theorem C02_no_move (W i : ℤ) : calcNewInd W i 4 = 0 := by simp [calcNewInd]

example : customRavel (2, 3) (5, 7) = .ok 17 ∧ InDomain 5 7 (neighbour (2, 3) 8) ∧
    calcNewInd 7 17 8 = 25 ∧ customUnravel 25 (5, 7) = .ok (3, 4) := by
  refine ⟨by decide, by simp [InDomain, neighbour], by decide, by decide⟩

end Verif.Props
