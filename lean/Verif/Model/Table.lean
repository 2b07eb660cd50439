import Verif.Model.Expand

/-!
# The table of the jobs

Model of the table that `_expand_set` and `_expand_matrix` (pyDeltaRCM/preprocessor.py) write into
`jobs_parameters.txt`: the names in its header and the values in its rows, before they are written as text.
-/

namespace Verif.Model

/-- The table: the names after `job_id`, and for every job its identifier and the values. -/
structure JobTable where
  header : List String
  rows : List (List Char × List Yaml)

/-- The rows for the values of the jobs, numbered from `i` on (pyDeltaRCM/preprocessor.py 365-388 and 457-482): each in
the order of its own items. -/
def tableRows : ℕ → List (Dict Yaml) → List (List Char × List Yaml)
  | _, [] => []
  | i, d :: ds => (jobId i, d.map Prod.snd) :: tableRows (i + 1) ds

/-- The table of `_expand_set` (pyDeltaRCM/preprocessor.py 327-403); the names are the keys of the first set (394). -/
def setTable (cfg : Dict Yaml) : Option JobTable :=
  match dget cfg "set" with
  | some (.list l) =>
    match checkSets l with
    | .ok (d :: ds) => if ds.all (fun e => sameKeys d e) then some ⟨dkeys d, tableRows 0 (d :: ds)⟩ else none
    | _ => none
  | _ => none

/-- The table of `_expand_matrix` (pyDeltaRCM/preprocessor.py 405-497). -/
def matrixTable (cfg : Dict Yaml) : Option JobTable :=
  match dget cfg "matrix" with
  | some (.dict m) =>
    if "out_dir" ∈ dkeys m then none
    else
      match checkMatrix (ddel cfg "matrix") m with
      | .ok (v :: vs) => some ⟨(v :: vs).map Prod.fst, tableRows 0 (combos (v :: vs))⟩
      | _ => none
  | _ => none

/-- The table that `construct_file_list` (pyDeltaRCM/preprocessor.py 115-144) leaves, `none` if it writes none. -/
def jobsTable (seeds : ℕ → ℕ) (cfg : Dict Yaml) : Option JobTable :=
  match prelimParse cfg with
  | .error _ => none
  | .ok P0 =>
    match (if P0.hasEnsemble then expandEnsemble seeds P0 else .ok P0) with
    | .error _ => none
    | .ok P => if P.hasMatrix then matrixTable P.cfg else if P.hasSet then setTable P.cfg else none

end Verif.Model
