import Verif.Model.Index

/-!
# Grids, Python indexing and edge padding
-/

namespace Verif.Model

/-- A cell of an `L × W` array (0-based row and column). -/
abbrev Cell (L W : ℕ) := Fin L × Fin W

/-- A 2-D array of shape `(L, W)`, e.g. `self.eta`, `self.depth`
(pyDeltaRCM/init_tools.py 298-318). -/
abbrev Grid (L W : ℕ) (α : Type*) := Cell L W → α

/-- Python / numba indexing of an axis of length `n`: an index in `[-n, -1]` wraps
around to `n + i`, an index outside `[-n, n)` is an error (`IndexError` in Python; numba
does not check, we never rely on such reads). Used for every `arr[px, py]` and
`arr.flat[ind]` of pyDeltaRCM/water_tools.py and pyDeltaRCM/sed_tools.py. -/
def pyIdx (n : ℕ) (i : ℤ) : Option (Fin n) :=
  if h : 0 ≤ i ∧ i < n then some ⟨i.toNat, by omega⟩
  else if h : i < 0 ∧ 0 ≤ i + n then some ⟨(i + n).toNat, by omega⟩
  else none

/-- `arr[px, py]` as a cell (Python index pair). -/
def pyCell (L W : ℕ) (px py : ℤ) : Option (Cell L W) :=
  match pyIdx L px, pyIdx W py with
  | some i, some j => some (i, j)
  | _, _ => none

/-- The cell addressed by `arr.flat[ind]` for an index in `[0, n*m)`: quotient and
remainder by the row length. -/
def divModCell {L W : ℕ} (k : Fin (L * W)) : Cell L W :=
  have hW : 0 < W := by
    rcases Nat.eq_zero_or_pos W with h | h
    · subst h; exact absurd k.isLt (by simp)
    · exact h
  (⟨k.val / W, by rw [Nat.div_lt_iff_lt_mul hW]; exact k.isLt⟩,
   ⟨k.val % W, Nat.mod_lt _ hW⟩)

/-- `arr.flat[ind]` as a cell, with negative indices counted from the end. -/
def flatCell (L W : ℕ) (ind : ℤ) : Option (Cell L W) :=
  (pyIdx (L * W) ind).map divModCell

/-- One slice assignment: the cells selected by `p` get the value `v`. -/
def assign {L W : ℕ} {α : Type*} (g : Grid L W α) (p : Cell L W → Bool) (v : Cell L W → α) :
    Grid L W α :=
  fun c => if p c then v c else g c

/-- Element `i` of an axis of length `n > 0` (reads used in `customPad`; in range there). -/
def axis (n : ℕ) [NeZero n] (i : ℕ) : Fin n := Fin.ofNat n i

/-- `custom_pad` (pyDeltaRCM/shared_tools.py 337-413): zero array, then the centre, the four
edges and the four corners assigned in the order of the code. Arrays with no rows or no
columns (for which the code fails) are excluded by `NeZero`. -/
def customPad {L W : ℕ} [NeZero L] [NeZero W] {α : Type*} [Zero α] (arr : Grid L W α) :
    Grid (L + 2) (W + 2) α :=
  let rowIn : Cell (L + 2) (W + 2) → Bool := fun c => decide (1 ≤ c.1.val ∧ c.1.val ≤ L)
  let colIn : Cell (L + 2) (W + 2) → Bool := fun c => decide (1 ≤ c.2.val ∧ c.2.val ≤ W)
  let row0 : Cell (L + 2) (W + 2) → Bool := fun c => decide (c.1.val = 0)
  let rowN : Cell (L + 2) (W + 2) → Bool := fun c => decide (c.1.val = L + 1)
  let col0 : Cell (L + 2) (W + 2) → Bool := fun c => decide (c.2.val = 0)
  let colN : Cell (L + 2) (W + 2) → Bool := fun c => decide (c.2.val = W + 1)
  let p0 : Grid (L + 2) (W + 2) α := fun _ => 0
  -- center
  let p1 := assign p0 (fun c => rowIn c && colIn c)
    (fun c => arr (axis L (c.1.val - 1), axis W (c.2.val - 1)))
  -- left, right, top, bottom
  let p2 := assign p1 (fun c => rowIn c && col0 c) (fun c => arr (axis L (c.1.val - 1), axis W 0))
  let p3 := assign p2 (fun c => rowIn c && colN c)
    (fun c => arr (axis L (c.1.val - 1), axis W (W - 1)))
  let p4 := assign p3 (fun c => row0 c && colIn c) (fun c => arr (axis L 0, axis W (c.2.val - 1)))
  let p5 := assign p4 (fun c => rowN c && colIn c)
    (fun c => arr (axis L (L - 1), axis W (c.2.val - 1)))
  -- corners ul, ur, ll, lr
  let p6 := assign p5 (fun c => row0 c && col0 c) (fun _ => arr (axis L 0, axis W 0))
  let p7 := assign p6 (fun c => row0 c && colN c) (fun _ => arr (axis L 0, axis W (W - 1)))
  let p8 := assign p7 (fun c => rowN c && col0 c) (fun _ => arr (axis L (L - 1), axis W 0))
  assign p8 (fun c => rowN c && colN c) (fun _ => arr (axis L (L - 1), axis W (W - 1)))

/-- The flattened slice `pad[px:px+3, py:py+3].ravel()` (e.g. pyDeltaRCM/water_tools.py
756-763, pyDeltaRCM/sed_tools.py 398-407): entry `d` is row `d / 3`, column `d % 3`. -/
def padSlice {L W : ℕ} {α : Type*} (pad : Grid (L + 2) (W + 2) α) (c : Cell L W) (d : Fin 9) : α :=
  pad (⟨c.1.val + d.val / 3, by have := c.1.isLt; have := d.isLt; omega⟩,
       ⟨c.2.val + d.val % 3, by have := c.2.isLt; omega⟩)

/-- The nine values around a cell in the padded array. -/
def nbrs {L W : ℕ} [NeZero L] [NeZero W] {α : Type*} [Zero α] (arr : Grid L W α) (c : Cell L W) :
    Fin 9 → α :=
  padSlice (customPad arr) c

end Verif.Model
