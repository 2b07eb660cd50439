import Verif.Model.Grid

/-!
# C03: neighbourhoods with repeated edge
-/

namespace Verif.Props

open Verif.Model

/-- Specification: the nearest position to `x` on an axis of length `n`. -/
def nearest (n : ℕ) (x : ℤ) : ℤ := max 0 (min x (n - 1))

/-- Specification: the value of the in-domain cell nearest to the integer point `(x, y)`. -/
def IsNearestValue {L W : ℕ} {α : Type*} (arr : Grid L W α) (x y : ℤ) (v : α) : Prop :=
  ∃ c : Cell L W, (c.1.val : ℤ) = nearest L x ∧ (c.2.val : ℤ) = nearest W y ∧ v = arr c

lemma axis_val {n : ℕ} [NeZero n] {i : ℕ} (h : i < n) : (axis n i).val = i := by
  simp [axis, Fin.ofNat, Nat.mod_eq_of_lt h]

/-- C03: padding is edge padding: position `(i, j)` of the padded array holds the value of
the cell nearest to `(i - 1, j - 1)`. -/
theorem C03_pad_edge {L W : ℕ} [NeZero L] [NeZero W] {α : Type*} [Zero α] (arr : Grid L W α)
    (c : Cell (L + 2) (W + 2)) :
    IsNearestValue arr ((c.1.val : ℤ) - 1) ((c.2.val : ℤ) - 1) (customPad arr c) := by
  obtain ⟨⟨i, hi⟩, ⟨j, hj⟩⟩ := c
  have hL : 0 < L := Nat.pos_of_ne_zero (NeZero.ne L)
  have hW : 0 < W := Nat.pos_of_ne_zero (NeZero.ne W)
  refine ⟨(axis L (max 0 (min (i - 1) (L - 1))), axis W (max 0 (min (j - 1) (W - 1)))), ?_, ?_, ?_⟩
  · rw [axis_val (by omega)]; simp only [nearest]; omega
  · rw [axis_val (by omega)]; simp only [nearest]; omega
  · rcases Nat.lt_trichotomy i 0 with h | h | h
    · omega
    · subst h
      rcases Nat.lt_trichotomy j 0 with h' | h' | h'
      · omega
      · subst h'; simp [customPad, assign]
      · rcases Nat.lt_or_ge W j with h'' | h''
        · have : j = W + 1 := by omega
          subst this; simp [customPad, assign]
        · have e : min (j - 1) (W - 1) = j - 1 := by omega
          have h1 : ¬ j = 0 := by omega
          have h2 : ¬ j = W + 1 := by omega
          simp [customPad, assign, e, h1, h2]; omega
    · rcases Nat.lt_or_ge L i with h3 | h3
      · have : i = L + 1 := by omega
        subst this
        rcases Nat.eq_zero_or_pos j with h' | h'
        · subst h'; simp [customPad, assign]
        · rcases Nat.lt_or_ge W j with h'' | h''
          · have : j = W + 1 := by omega
            subst this; simp [customPad, assign]
          · have e : min (j - 1) (W - 1) = j - 1 := by omega
            have h1 : ¬ j = 0 := by omega
            have h2 : ¬ j = W + 1 := by omega
            simp [customPad, assign, e, h1, h2]; omega
      · have ei : min (i - 1) (L - 1) = i - 1 := by omega
        have h1i : ¬ i = 0 := by omega
        have h2i : ¬ i = L + 1 := by omega
        have h3i : 1 ≤ i := h
        rcases Nat.eq_zero_or_pos j with h' | h'
        · subst h'; simp [customPad, assign, ei, h1i, h2i, h3i, h3]
        · rcases Nat.lt_or_ge W j with h'' | h''
          · have : j = W + 1 := by omega
            subst this; simp [customPad, assign, ei, h1i, h2i, h3i, h3]
          · have e : min (j - 1) (W - 1) = j - 1 := by omega
            have h1 : ¬ j = 0 := by omega
            have h2 : ¬ j = W + 1 := by omega
            have h4 : 1 ≤ j := h'
            simp [customPad, assign, e, h1, h2, ei, h1i, h2i, h3i, h3, h4, h'']

/-- C03: the nine values around a cell: position `d` holds the value of the cell nearest to
the true neighbour in row offset `d / 3 - 1` and column offset `d % 3 - 1`. -/
theorem C03_neighbourhood {L W : ℕ} [NeZero L] [NeZero W] {α : Type*} [Zero α] (arr : Grid L W α)
    (c : Cell L W) (d : Fin 9) :
    IsNearestValue arr ((c.1.val : ℤ) + (d.val / 3 : ℕ) - 1) ((c.2.val : ℤ) + (d.val % 3 : ℕ) - 1)
      (nbrs arr c d) := by
  have := C03_pad_edge arr (⟨c.1.val + d.val / 3, by have := c.1.isLt; have := d.isLt; omega⟩,
       ⟨c.2.val + d.val % 3, by have := c.2.isLt; omega⟩)
  simpa [nbrs, padSlice] using this

/-- C03: an in-domain neighbour is seen exactly. -/
theorem C03_interior_exact {L W : ℕ} [NeZero L] [NeZero W] {α : Type*} [Zero α] (arr : Grid L W α)
    (c n : Cell L W) (d : Fin 9)
    (h1 : (n.1.val : ℤ) = c.1.val + (d.val / 3 : ℕ) - 1)
    (h2 : (n.2.val : ℤ) = c.2.val + (d.val % 3 : ℕ) - 1) :
    nbrs arr c d = arr n := by
  obtain ⟨m, hm1, hm2, hv⟩ := C03_neighbourhood arr c d
  rw [hv]
  congr 1
  have a1 := n.1.isLt
  have a2 := n.2.isLt
  have e1 : m.1 = n.1 := by
    apply Fin.ext; rw [← h1] at hm1; simp only [nearest] at hm1; omega
  have e2 : m.2 = n.2 := by
    apply Fin.ext; rw [← h2] at hm2; simp only [nearest] at hm2; omega
  exact Prod.ext e1 e2

/-- C03: the centre of the neighbourhood is the cell itself. -/
theorem C03_centre {L W : ℕ} [NeZero L] [NeZero W] {α : Type*} [Zero α] (arr : Grid L W α)
    (c : Cell L W) : nbrs arr c 4 = arr c :=
  C03_interior_exact arr c c 4 (by simp) (by simp)

/-- The 2×3 array with rows 1 2 3 and 4 5 6. -/
def padExample : Grid 2 3 ℤ := fun c => 3 * c.1.val + c.2.val + 1

example : (List.ofFn (nbrs padExample (1, 2))) = [2, 3, 3, 5, 6, 6, 5, 6, 6] := by decide
example : (List.ofFn (nbrs padExample (0, 0))) = [1, 1, 2, 1, 1, 2, 4, 4, 5] := by decide
-- the hypotheses of `C03_interior_exact`: the right neighbour of `(1, 1)`
example : nbrs padExample (1, 1) 5 = padExample (1, 2) :=
  C03_interior_exact padExample (1, 1) (1, 2) 5 (by decide) (by decide)

end Verif.Props
