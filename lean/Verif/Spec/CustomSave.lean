import Verif.Model.CustomSave

/-!
# What a subclass may expect of the entries it adds to the output

docs/source/examples/custom_saving.rst: "the key ... is the name of the variable as it will be recorded",
the value names "the model attribute to be saved, its units, the variable type, and ... dimensions".
-/

namespace Verif.Spec

open Verif.Model

variable {K : Type*} [Field K] [LinearOrder K] [FloorRing K] {L W m : ℕ}

/-- An attribute holds an array of the size of the domain. -/
def HoldsArray (X : SubModel L W m K) (a : String) (g : Grid L W K) : Prop :=
  X.getAttr a = some (.nums g)

/-- An attribute holds a number. -/
def HoldsNum (X : SubModel L W m K) (a : String) (x : K) : Prop := X.getAttr a = some (.num x)

/-- The entries are as documented: each name once, none of the names of the coordinates, the three
dimensions of the file. -/
structure Documented (legacy : Bool) (h : OutHook) : Prop where
  figs : (dkeys h.figs).Nodup
  grids : (dkeys h.grids).Nodup
  metas : (dkeys h.metas).Nodup
  names : ∀ k ∈ dkeys h.grids, k ≠ "time" ∧ k ≠ "x" ∧ k ≠ "y"
  dims : ∀ k e, dget h.grids k = some e →
    e.dims = if legacy then ["total_time", "length", "width"] else ["time", "x", "y"]

/-- The attributes that the entries name are there, and are of the kind asked for. -/
structure Present (h : OutHook) (X : SubModel L W m K) : Prop where
  figs : ∀ k a, dget h.figs k = some a → ∃ g, HoldsArray X a g
  grids : ∀ k e, dget h.grids k = some e → ∃ g, HoldsArray X e.attr g
  fixed : ∀ k a u, dget h.metas k = some ⟨some a, u⟩ → ∃ v, X.getAttr a = some v
  varying : ∀ k u, dget h.metas k = some ⟨none, u⟩ → ∃ x, HoldsNum X k x

/-- The names of the standard metadata (docs/source/info/outputfile.rst). -/
def standardNames : List String :=
  ["L0", "N0", "CTR", "dx", "h0", "hb", "cell_type", "start_subsidence", "sigma", "H_SL", "f_bedload",
    "C0_percent", "u0"]

/-- A variable has one record for each save, the one the attribute had at that time. -/
def Recorded {A : Type*} (Xs : List (SubModel L W m K)) (holds : SubModel L W m K → A → Prop) (v : NcVar A) : Prop :=
  (∀ i X x, Xs[i]? = some X → holds X x → v.data i = some x) ∧ ∀ i, Xs.length ≤ i → v.data i = none

end Verif.Spec
