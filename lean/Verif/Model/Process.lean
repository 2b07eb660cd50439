import Verif.Model.Setup
import Verif.Model.Timestep

/-!
# Several models in one process

Model of `determine_random_seed` (pyDeltaRCM/init_tools.py 260-277) and of the two random number generators of a
process: the one of `numpy`, which draws seeds, and the one of `numba`, which models use
(pyDeltaRCM/shared_tools.py 18-54, 107-146).

Simplified: an update that raises an error leaves model and generator as they were; the value of a seed may be any
natural number; models do not resume.
-/

namespace Verif.Model

variable {K : Type*} [Field K] [LinearOrder K] [FloorRing K] {σ ν : Type*}

/-- The random number generators: `numba` started from a seed, a number drawn by `numba`, and
`np.random.randint((2**32) - 1, dtype="u8")`. -/
structure Gens (K σ ν : Type*) where
  seeded : ℕ → σ
  draw : Rng K σ
  randint : ν → ℕ × ν

/-- A model in the process: what it is, its attribute `seed` and the seed in its log. -/
structure Hosted (K : Type*) where
  B : Built K
  seed : ℕ
  logged : ℕ

/-- A process: the generators of `numpy` and of `numba`, and the models made so far. -/
structure Proc (K σ ν : Type*) where
  np : ν
  nb : σ
  models : List (Hosted K)

/-- `update` (pyDeltaRCM/model.py 149-215) without output. -/
def updateBuilt (g : Rng K σ) : Built K → σ → Except Err (Built K × σ)
  | ⟨L + 1, W + 1, m, P, S⟩, s =>
    match timestep g P S s with
    | .error e => .error e
    | .ok (S1, _, s1) => .ok (⟨L + 1, W + 1, m, P, S1⟩, s1)
  | _, _ => .error .index

/-- What is done in the process. -/
inductive HostAct (K σ ν : Type*)
  /-- a new model with configuration values and perhaps a seed -/
  | make (I : Input K) (seed : Option ℕ)
  /-- `update` of the `i`-th model -/
  | update (i : ℕ)
  /-- anything with the generator of `numpy` -/
  | numpy (f : ν → ν)
  /-- anything with the generator of `numba`, such as drawing numbers with the functions of the package -/
  | numba (f : σ → σ)

/-- `determine_random_seed` (pyDeltaRCM/init_tools.py 260-277): the seed, and `numpy` afterwards. -/
def determineSeed (G : Gens K σ ν) (np : ν) : Option ℕ → ℕ × ν
  | none => G.randint np
  | some n => (n, np)

/-- One action. The seed is set between `process_input_to_model` and `create_other_variables`
(pyDeltaRCM/model.py 104-115). -/
def procAct (O : Oracle K) (G : Gens K σ ν) (p : Proc K σ ν) : HostAct K σ ν → Proc K σ ν
  | .make I seed =>
    match validate I with
    | .error _ => p
    | .ok _ =>
      let (n, np) := determineSeed G p.np seed
      match create O I with
      | .error _ => { p with np := np, nb := G.seeded n }
      | .ok B => ⟨np, G.seeded n, p.models ++ [⟨B, n, n⟩]⟩
  | .update i =>
    match p.models[i]? with
    | none => p
    | some h =>
      match updateBuilt G.draw h.B p.nb with
      | .error _ => p
      | .ok (B, s) => { p with nb := s, models := p.models.set i { h with B := B } }
  | .numpy f => { p with np := f p.np }
  | .numba f => { p with nb := f p.nb }

/-- Any sequence of actions. -/
def procActs (O : Oracle K) (G : Gens K σ ν) (p : Proc K σ ν) (as : List (HostAct K σ ν)) : Proc K σ ν :=
  as.foldl (procAct O G) p

end Verif.Model
