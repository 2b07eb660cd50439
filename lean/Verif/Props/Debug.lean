import Verif.Model.Debug
import Verif.Props.Index

/-!
# C86: points and lines are shown at their cells
-/

namespace Verif.Props

open Verif.Model

variable {L W : ℕ}

/-- Where the picture of a field shows the value of a cell (`imshow`): columns to the right, rows downwards. -/
def placeOf (c : Cell L W) : ℤ × ℤ := (c.2.val, c.1.val)

/-- The flat index of a cell: cells are counted row by row. -/
def flatOf (c : Cell L W) : ℤ := c.1.val * W + c.2.val

/-- An argument that means the cell. -/
inductive Means : IndArg → Cell L W → Prop
  | flat (c) : Means (.flat (flatOf c)) c
  | tuple (c) : Means (.tuple [c.1.val, c.2.val]) c

lemma unravel_flat (c : Cell L W) :
    customUnravel (flatOf c) ((L : ℤ), (W : ℤ)) = .ok ((c.1.val : ℤ), (c.2.val : ℤ)) := by
  have hc : InDomain (L : ℤ) (W : ℤ) ((c.1.val : ℤ), (c.2.val : ℤ)) := by
    refine ⟨by simp, by simp, by simp, by simp⟩
  obtain ⟨i, h1, h2, -, -, h3⟩ := C01_ravel_unravel hc
  have : i = flatOf c := by
    unfold IsPosition at h2
    unfold flatOf
    simp only at h2
    linarith
  rw [← this]
  exact h3

/-- C86: any mixture of flat indices and pairs is shown at the places of the cells meant, each once and in order. -/
theorem C86_points : ∀ {as : List IndArg} {cs : List (Cell L W)}, List.Forall₂ Means as cs →
    showInd L W as = .ok (cs.map placeOf)
  | [], [], _ => rfl
  | a :: as, c :: cs, h => by
    obtain ⟨h1, h2⟩ := List.forall₂_cons.1 h
    have hp : plotInd L W a = .ok (placeOf c) := by
      cases h1 with
      | flat => simp only [plotInd, unravel_flat]; rfl
      | tuple => rfl
    simp only [showInd, hp, C86_points h2, List.map_cons]

/-- C86: a tuple that is not a pair is rejected. -/
theorem C86_no_pair {t : List ℤ} (h : t.length ≠ 2) (as : List IndArg) :
    showInd L W (.tuple t :: as) = .error .tupleLength := by
  have : plotInd L W (.tuple t) = .error .tupleLength := by
    match t, h with
    | [], _ => rfl
    | [_], _ => rfl
    | [_, _], h => exact absurd rfl h
    | _ :: _ :: _ :: _, _ => rfl
  simp only [showInd, this]

/-- The line through cells; the cell with flat index 0 is left out if asked. -/
def lineThrough (nozeros : Bool) (cs : List (Cell L W)) : Line :=
  cs.map fun c => if nozeros = true ∧ c.1.val = 0 ∧ c.2.val = 0 then none else some (placeOf c)

lemma flat_zero (c : Cell L W) : flatOf c = 0 ↔ c.1.val = 0 ∧ c.2.val = 0 := by
  unfold flatOf
  have hW : 0 < W := lt_of_le_of_lt (Nat.zero_le _) c.2.isLt
  constructor
  · intro h
    have h' : c.1.val * W + c.2.val = 0 := by exact_mod_cast h
    have h1 : c.1.val * W = 0 := by omega
    rcases Nat.mul_eq_zero.1 h1 with h2 | h2 <;> omega
  · rintro ⟨h1, h2⟩; simp [h1, h2]

lemma linePoints_eq (nozeros : Bool) : ∀ cs : List (Cell L W),
    linePoints L W nozeros (cs.map flatOf) = .ok (lineThrough nozeros cs)
  | [] => rfl
  | c :: cs => by
    have hp : linePoint L W nozeros (flatOf c) =
        .ok (if nozeros = true ∧ c.1.val = 0 ∧ c.2.val = 0 then none else some (placeOf c)) := by
      unfold linePoint
      have := flat_zero c
      rw [unravel_flat]
      by_cases h1 : nozeros = true <;> by_cases h2 : c.1.val = 0 ∧ c.2.val = 0 <;> simp [h1, h2, this, placeOf]
    simp only [List.map_cons, linePoints, hp, linePoints_eq nozeros cs]
    rfl

/-- C86: a one-dimensional array of flat indices is shown as one line through the cells, in order, and that line is
returned. -/
theorem C86_line (multiline nozeros : Bool) (cs : List (Cell L W)) :
    showLine L W multiline nozeros (.arr1 (cs.map flatOf)) =
      .ok ([lineThrough nozeros cs], [lineThrough nozeros cs]) := by
  simp only [showLine, linePoints_eq]

lemma manyLines_eq (nozeros : Bool) : ∀ css : List (List (Cell L W)),
    manyLines L W nozeros (css.map fun cs => cs.map flatOf) = .ok (css.map (lineThrough nozeros))
  | [] => rfl
  | cs :: css => by
    simp only [List.map_cons, manyLines, linePoints_eq, manyLines_eq nozeros css]

/-- C86: with `multiline` every column of an array of flat indices, such as the walks of the water parcels, is shown
as a line, and all are returned. -/
theorem C86_multiline (nozeros : Bool) {n m : ℕ} (a : Fin n → Fin m → Cell L W) :
    showLine L W true nozeros (.arr2 n m fun i j => flatOf (a i j)) =
      .ok ((List.finRange m).map fun j => lineThrough nozeros ((List.finRange n).map fun i => a i j),
        (List.finRange m).map fun j => lineThrough nozeros ((List.finRange n).map fun i => a i j)) := by
  have := manyLines_eq nozeros ((List.finRange m).map fun j => (List.finRange n).map fun i => a i j)
  simp only [List.map_map, Function.comp_def] at this
  simp only [showLine, if_true, this]

lemma listLines_eq (nozeros : Bool) : ∀ css : List (List (Cell L W)),
    listLines L W nozeros (css.map fun cs => .array (cs.map flatOf)) = .ok (css.map (lineThrough nozeros))
  | [] => rfl
  | cs :: css => by
    simp only [List.map_cons, listLines, linePoints_eq, listLines_eq nozeros css]

/-- C86: a list of arrays is shown as lines. Partial: C86 claims that all of them are returned; it is only the last. -/
theorem C86_list_partial (multiline nozeros : Bool) (css : List (List (Cell L W))) (cs : List (Cell L W)) :
    showLine L W multiline nozeros (.list ((css ++ [cs]).map fun cs => .array (cs.map flatOf))) =
      .ok ((css ++ [cs]).map (lineThrough nozeros), [lineThrough nozeros cs]) := by
  simp only [showLine, listLines_eq]
  simp

/-- C86 fails for the lists of flat indices and the lists of tuples that the documentation names, and for the empty
list: they are never shown. -/
theorem C86_list_documented (multiline nozeros : Bool) (items : List LineItem) :
    (∀ i, showLine L W multiline nozeros (.list (.int i :: items)) = .error .noFlatten) ∧
    (∀ t, showLine L W multiline nozeros (.list (.tuple t :: items)) = .error .noFlatten) ∧
    showLine L W multiline nozeros (.list []) = .error .unbound :=
  ⟨fun _ => rfl, fun _ => rfl, rfl⟩

/-- C86 fails for an array of pairs: cells on the diagonal excepted, each is shown at the place of the cell with row and
column exchanged, and not where the same pair is shown as a point. -/
theorem C86_pairs_exchanged (nozeros : Bool) {n : ℕ} (a : Fin n → Cell L W) :
    ∃ l : Line, showLine L W false nozeros (.arr2 n 2 fun i j => if j = 0 then (a i).1.val else (a i).2.val) =
      .ok ([l], [l]) ∧ ∀ i : Fin n, ∃ p : ℤ × ℤ, l[i.val]? = some (some p) ∧ p = (((a i).1.val : ℤ), ((a i).2.val : ℤ)) ∧
        (p = placeOf (a i) ↔ (a i).1.val = (a i).2.val) := by
  refine ⟨_, rfl, fun i => ⟨(((a i).1.val : ℤ), ((a i).2.val : ℤ)), ?_, rfl, ?_⟩⟩
  · simp
  · simp only [placeOf, Prod.mk.injEq, Nat.cast_inj]
    constructor
    · exact fun h => h.1
    · exact fun h => ⟨h, h.symm⟩

/-- C86: only two-dimensional arrays are shown as fields. -/
theorem C86_attribute (d : Option ℕ) : getAttribute d = .ok () ↔ d = some 2 := by
  cases d with
  | none => simp [getAttribute]
  | some n => by_cases h : n = 2 <;> simp [getAttribute, h]

/-- A pair and a flat index in a domain of 3 × 4 cells, and a line from the first cell. -/
example : showInd 3 4 [.tuple [2, 1], .flat 7] = .ok [(1, 2), (3, 1)] := by decide
example : List.Forall₂ (Means (L := 3) (W := 4)) [.tuple [2, 1], .flat 7] [(2, 1), (1, 3)] :=
  .cons (.tuple (2, 1)) (.cons (.flat (1, 3)) .nil)
example : showLine 3 4 false true (.arr1 [0, 5, 10]) =
    .ok ([[none, some (1, 1), some (2, 2)]], [[none, some (1, 1), some (2, 2)]]) := by decide

end Verif.Props
