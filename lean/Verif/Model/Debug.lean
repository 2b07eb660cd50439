import Verif.Model.Index
import Verif.Model.Grid

/-!
# Showing points and lines

Model of `_get_attribute`, `show_ind` and `show_line` with `plot_ind` and `plot_line` (pyDeltaRCM/debug_tools.py).
A picture is what is drawn: for a point its horizontal and vertical position, for a line the list of its positions, with
a gap (`nan`) as `none`. Colours and markers are left out. Numbers are whole.
-/

namespace Verif.Model

/-- What may be raised. -/
inductive DebugErr
  /-- `TypeError`: no array -/
  | noArray
  /-- `ValueError`: not two-dimensional -/
  | notTwoDim
  /-- `ValueError`: a tuple that is not a pair -/
  | tupleLength
  /-- `IndexError` of `custom_unravel` -/
  | index (e : IndexErr)
  /-- `AttributeError`: neither integers nor tuples can be flattened -/
  | noFlatten
  /-- `UnboundLocalError`: no line was drawn -/
  | unbound
  /-- `IndexError`: an array of one column -/
  | noColumn
  /-- `NotImplementedError` -/
  | notImplemented
  deriving DecidableEq

/-- `_get_attribute` (pyDeltaRCM/debug_tools.py 40-52); the argument is the number of dimensions if it is an array. -/
def getAttribute : Option ℕ → Except DebugErr Unit
  | none => .error .noArray
  | some n => if n = 2 then .ok () else .error .notTwoDim

/-- A cell as an argument: a flat index or a tuple. -/
inductive IndArg
  | flat (i : ℤ)
  | tuple (t : List ℤ)

/-- `plot_ind` (pyDeltaRCM/debug_tools.py 276-316): the position drawn, horizontal first. -/
def plotInd (L W : ℕ) : IndArg → Except DebugErr (ℤ × ℤ)
  | .tuple [a, b] => .ok (b, a)
  | .tuple _ => .error .tupleLength
  | .flat i =>
    match customUnravel i ((L : ℤ), (W : ℤ)) with
    | .error e => .error (.index e)
    | .ok (x, y) => .ok (y, x)

/-- `show_ind` of a list (pyDeltaRCM/debug_tools.py 116-120). A single index is a list of one. -/
def showInd (L W : ℕ) : List IndArg → Except DebugErr (List (ℤ × ℤ))
  | [] => .ok []
  | a :: as =>
    match plotInd L W a with
    | .error e => .error e
    | .ok p =>
      match showInd L W as with
      | .error e => .error e
      | .ok ps => .ok (p :: ps)

/-- A line: its positions, horizontal first; `none` is a gap. -/
abbrev Line := List (Option (ℤ × ℤ))

/-- One position of a line (pyDeltaRCM/debug_tools.py 354-363, 374-383). -/
def linePoint (L W : ℕ) (nozeros : Bool) (i : ℤ) : Except DebugErr (Option (ℤ × ℤ)) :=
  if i = 0 ∧ nozeros = true then .ok none
  else
    match customUnravel i ((L : ℤ), (W : ℤ)) with
    | .error e => .error (.index e)
    | .ok (x, y) => .ok (some (y, x))

/-- The positions of flat indices (pyDeltaRCM/debug_tools.py 353-363, 373-383). -/
def linePoints (L W : ℕ) (nozeros : Bool) : List ℤ → Except DebugErr Line
  | [] => .ok []
  | i :: is =>
    match linePoint L W nozeros i with
    | .error e => .error e
    | .ok p =>
      match linePoints L W nozeros is with
      | .error e => .error e
      | .ok ps => .ok (p :: ps)

/-- An element of a list given to `show_line`. -/
inductive LineItem
  | int (i : ℤ)
  | tuple (t : List ℤ)
  | array (is : List ℤ)

/-- An argument of `show_line`. A two-dimensional array has `n` rows and `m` columns. -/
inductive LineArg
  | list (items : List LineItem)
  | arr1 (is : List ℤ)
  | arr2 (n m : ℕ) (a : Fin n → Fin m → ℤ)
  | other

/-- The lines of a list of arrays (pyDeltaRCM/debug_tools.py 172-177). -/
def listLines (L W : ℕ) (nozeros : Bool) : List LineItem → Except DebugErr (List Line)
  | [] => .ok []
  | .array is :: items =>
    match linePoints L W nozeros is with
    | .error e => .error e
    | .ok l =>
      match listLines L W nozeros items with
      | .error e => .error e
      | .ok ls => .ok (l :: ls)
  | _ :: _ => .error .noFlatten

/-- The lines of several lists of flat indices. -/
def manyLines (L W : ℕ) (nozeros : Bool) : List (List ℤ) → Except DebugErr (List Line)
  | [] => .ok []
  | is :: iss =>
    match linePoints L W nozeros is with
    | .error e => .error e
    | .ok l =>
      match manyLines L W nozeros iss with
      | .error e => .error e
      | .ok ls => .ok (l :: ls)

/-- `show_line` (pyDeltaRCM/debug_tools.py 124-211) with `plot_line` (319-390): the lines drawn and the lines
returned. Without `multiline` the columns of a two-dimensional array are reversed (`np.fliplr`, 367), and then the
second is drawn horizontally and the first vertically (385): of `m` columns the last but one and the last. -/
def showLine (L W : ℕ) (multiline nozeros : Bool) : LineArg → Except DebugErr (List Line × List Line)
  | .list items =>
    match listLines L W nozeros items with
    | .error e => .error e
    | .ok ls =>
      match ls.getLast? with
      | none => .error .unbound
      | some l => .ok (ls, [l])
  | .arr1 is =>
    match linePoints L W nozeros is with
    | .error e => .error e
    | .ok l => .ok ([l], [l])
  | .arr2 n m a =>
    if multiline then
      match manyLines L W nozeros ((List.finRange m).map fun j => (List.finRange n).map fun i => a i j) with
      | .error e => .error e
      | .ok ls => .ok (ls, ls)
    else if h : 2 ≤ m then
      let l : Line := (List.finRange n).map fun i => some (a i ⟨m - 2, by omega⟩, a i ⟨m - 1, by omega⟩)
      .ok ([l], [l])
    else .error .noColumn
  | .other => .error .notImplemented

end Verif.Model
