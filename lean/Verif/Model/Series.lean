import Verif.Model.Assign

/-!
# A velocity of the inlet that changes with time

`ChangingVelocityModel` of docs/source/examples/variable_velocity.rst (lines 62-91), with any series in the place of the one
of lines 19-25. The hook is the first thing an update does (pyDeltaRCM/model.py 192), so an
update of this class is an assignment, `create_boundary_conditions` and an update of `DeltaModel`. The message of lines 89-91 is
not modelled.
-/

namespace Verif.Model

variable {K : Type*} [Field K] [LinearOrder K] {σ : Type*} {L W m : ℕ}

/-- `np.interp(t, times, values)` (docs/source/examples/variable_velocity.rst 83) for points with increasing times: the value of
the first point before it, that of the last point after it, and a straight line between two points. -/
def interp : K × K → List (K × K) → K → K
  | p, [], _ => p.2
  | p, q :: ps, t =>
    if t ≤ p.1 then p.2
    else if t < q.1 then (q.2 - p.2) / (q.1 - p.1) * (t - p.1) + p.2
    else interp q ps t

/-- `update` of `ChangingVelocityModel` (docs/source/examples/variable_velocity.rst 79-86). -/
def seriesUpdate [FloorRing K] [NeZero L] [NeZero W] (O : Oracle K) (g : Rng K σ) (p : K × K) (ps : List (K × K))
    (X : Obj L W m K) (s : σ) : Except ObjErr (Obj L W m K × σ) :=
  deeds O g [.assign (.u0 (interp p ps X.S.time)), .createBc, .update] X s

/-- `n` updates. -/
def seriesRun [FloorRing K] [NeZero L] [NeZero W] (O : Oracle K) (g : Rng K σ) (p : K × K) (ps : List (K × K)) :
    ℕ → Obj L W m K → σ → Except ObjErr (Obj L W m K × σ)
  | 0, X, s => .ok (X, s)
  | n + 1, X, s =>
    match seriesRun O g p ps n X s with
    | .error e => .error e
    | .ok (X1, s1) => seriesUpdate O g p ps X1 s1

/-- The loop `while mdl.time < end_time: mdl.update()` (docs/source/examples/variable_velocity.rst 109-110), at most `n` times;
nothing if it has not ended then. -/
def seriesLoop [FloorRing K] [NeZero L] [NeZero W] (O : Oracle K) (g : Rng K σ) (p : K × K) (ps : List (K × K)) (tEnd : K) :
    ℕ → Obj L W m K → σ → Except ObjErr (Option (Obj L W m K × σ))
  | n, X, s =>
    if X.S.time < tEnd then
      match n with
      | 0 => .ok none
      | n + 1 =>
        match seriesUpdate O g p ps X s with
        | .error e => .error e
        | .ok (X1, s1) => seriesLoop O g p ps tEnd n X1 s1
    else .ok (some (X, s))

end Verif.Model
