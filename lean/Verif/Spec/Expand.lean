import Verif.Model.Config
import Mathlib.Data.List.Forall2

/-!
# Specification of expansion

Jobs are described by choices: for a matrix, a choice is the position of a value for each key.
-/

namespace Verif.Spec

variable {V : Type*}

/-- A choice of one of the listed values for every key. -/
def IsChoice (m : List (String × List V)) (ix : List ℕ) : Prop :=
  List.Forall₂ (fun (p : String × List V) (i : ℕ) => i < p.2.length) m ix

/-- The value a choice gives to a key, if the key is in the matrix. -/
def chosen : List (String × List V) → List ℕ → String → Option V
  | (a, l) :: m, i :: ix, k => if a = k then l[i]? else chosen m ix k
  | _, _, _ => none

/-- Two dictionaries put together, seen as functions: the second counts. -/
def over (base top : String → Option V) (k : String) : Option V :=
  match top k with
  | some v => some v
  | none => base k

/-- A dictionary without a key. -/
def without (f : String → Option V) (a : String) (k : String) : Option V := if k = a then none else f k

end Verif.Spec
