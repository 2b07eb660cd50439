import Verif.Model.Custom

/-!
# Classes of the documentation

Two of the derived classes that docs/source/examples shows, as classes of `Verif.Model.Custom`: `TreeThrowModel`
(docs/source/examples/overwrite_topo_diffusion.rst 28-127), with hooks and an own version of `topo_diffusion`, and
`VariableBedloadModel` (docs/source/examples/variable_bedload.rst 14-42). Their saved variables and figures are not modelled
(see `Model/CustomSave`), nor their messages.
-/

namespace Verif.Model

variable {K : Type*} [Field K] [LinearOrder K] [FloorRing K] {σ : Type*} {L W m : ℕ}

/-- The attributes that `TreeThrowModel` adds (docs/source/examples/overwrite_topo_diffusion.rst 41-58, 73-76): the
parameters `tree_throw`, `p_tt_mult`, `p_tt_iter`, `p_tt_prob` and the fields `tree`, `dry_count`, `tree_multiplier`. -/
structure Trees (L W : ℕ) (K : Type*) where
  throw : Bool
  mult : K
  iter : K
  prob : K
  tree : Grid L W ℤ
  dryCount : Grid L W ℕ
  factor : Grid L W K

/-- `hook_after_create_domain` (docs/source/examples/overwrite_topo_diffusion.rst 70-76). -/
def newTrees (throw : Bool) (mult iter prob : K) : Trees L W K :=
  ⟨throw, mult, iter, prob, fun _ => 0, fun _ => 0, fun _ => 1⟩

/-- One random number for each cell, row by row (docs/source/examples/overwrite_topo_diffusion.rst 98). -/
def drawGrid (g : Rng K σ) (L W : ℕ) (s : σ) : Grid L W K × σ :=
  let (xs, s1) := drawN g (L * W) s
  (fun x => xs.getD (x.1.val * W + x.2.val) 0, s1)

/-- `hook_after_route_sediment` up to line 84 (docs/source/examples/overwrite_topo_diffusion.rst 82-84): the cells that are
dry now are counted on. -/
def countDry (dryDepth : K) (depth : Grid L W K) (T : Trees L W K) : Trees L W K :=
  { T with dryCount := fun x => if depth x < dryDepth then T.dryCount x + 1 else 0 }

/-- The rest for `tree_throw` (docs/source/examples/overwrite_topo_diffusion.rst 90-106), with the random numbers `rand`. -/
def growTrees (cellType : Grid L W ℤ) (dryDepth : K) (depth rand : Grid L W K) (T : Trees L W K) : Trees L W K :=
  let tree1 : Grid L W ℤ := fun x => if depth x < dryDepth then T.tree x else 0
  let tree2 : Grid L W ℤ := fun x => if T.iter ≤ T.dryCount x then 1 else tree1 x
  let thrown : Grid L W Bool := fun x => decide (rand x < T.prob) && decide (tree2 x ≠ 0)
  let thrown1 : Grid L W Bool := assign thrown (fun x => decide (cellType x = -2)) (fun _ => false)
  { T with tree := tree2, factor := fun x => if thrown1 x then T.mult else 1 }

/-- `hook_after_route_sediment` (docs/source/examples/overwrite_topo_diffusion.rst 78-106). -/
def treeHook (g : Rng K σ) : Doing L W m K (Trees L W K) σ := fun c =>
  let T := countDry c.P.dryDepth c.S.depth c.extra
  if T.throw then
    let (rand, s1) := drawGrid g L W c.rng
    .ok { c with extra := growTrees c.P.cellType c.P.dryDepth c.S.depth rand T, rng := s1 }
  else .ok { c with extra := T }

/-- One pass of the own `topo_diffusion` (docs/source/examples/overwrite_topo_diffusion.rst 116-125). -/
def treeChange (cellType : Grid L W ℤ) (factor : Grid L W K) (mult : K) (qs eta : Grid L W K) : Grid L W K :=
  let a := convolve kernel1 eta
  let b := convolve kernel2 qs
  let c := convolve kernel2 (fun x => qs x * eta x)
  let cf : Grid L W K := fun x => factor x * mult * (qs x * a x - eta x * b x + c x)
  let cf1 := assign cf (fun x => decide (cellType x = -2)) (fun _ => 0)
  assign cf1 (fun x => decide (x.1.val = 0)) (fun _ => 0)

/-- The own `topo_diffusion` (docs/source/examples/overwrite_topo_diffusion.rst 108-127), `n` passes. -/
def treeDiffusion (cellType : Grid L W ℤ) (factor : Grid L W K) (mult : K) (qs : Grid L W K) :
    ℕ → Grid L W K → Grid L W K
  | 0, eta => eta
  | n + 1, eta => treeDiffusion cellType factor mult qs n (fun x => eta x + treeChange cellType factor mult qs eta x)

/-- The own `topo_diffusion` as a method. -/
def treeDiffusionAct : Doing L W m K (Trees L W K) σ := fun c =>
  .ok { c with S := { c.S with
    eta := treeDiffusion c.P.cellType c.extra.factor c.P.diffMult c.S.qs c.P.Ncross c.S.eta } }

/-- `TreeThrowModel` (docs/source/examples/overwrite_topo_diffusion.rst 28-127). -/
def treeClass (g : Rng K σ) : UserClass L W m K (Trees L W K) σ where
  hook := fun _ => .ok
  after := fun s => match s with
    | .routeSediment => treeHook g
    | _ => .ok
  own := fun s => match s with
    | .topoDiffusion => some treeDiffusionAct
    | _ => none

/-- The attributes that `VariableBedloadModel` adds (docs/source/examples/variable_bedload.rst 20-21). -/
structure Switches where
  changed : Bool
  changedBack : Bool

/-- The assignment `self.f_bedload = (1 - self.f_bedload)` (docs/source/examples/variable_bedload.rst 28, 37). The setter
refuses values that are not between 0 and 1 (pyDeltaRCM/model.py 549-555); from a value between 0 and 1 it never does. -/
def mirrorBedload {α : Type*} (c : Custom L W m K α σ) : Custom L W m K α σ :=
  { c with P := { c.P with fBedload := 1 - c.P.fBedload, fCap := 1 - c.P.fBedload } }

/-- `hook_solve_water_and_sediment_timestep` (docs/source/examples/variable_bedload.rst 23-42), with the times `t1` and `t2` of
lines 27 and 36. -/
def bedloadHook (t1 t2 : K) : Doing L W m K Switches σ := fun c =>
  let c1 := if !c.extra.changed && decide (t1 < c.S.time) then
    { mirrorBedload c with extra := { c.extra with changed := true } } else c
  let c2 := if !c1.extra.changedBack && decide (t2 < c1.S.time) then
    { mirrorBedload c1 with extra := { c1.extra with changedBack := true } } else c1
  .ok c2

/-- `VariableBedloadModel` (docs/source/examples/variable_bedload.rst 14-42). -/
def bedloadClass (t1 t2 : K) : UserClass L W m K Switches σ :=
  { plainClass with hook := fun s => match s with
    | .solveWaterAndSediment => bedloadHook t1 t2
    | _ => .ok }

end Verif.Model
