import Verif.Lemmas.WaterIteration
import Verif.Props.FreeSurface
import Verif.Props.WaterWalk
import Mathlib.Analysis.Real.Sqrt

/-!
# Depth, discharge and velocity after water routing (C19, C20, C21)
-/

set_option linter.unusedSectionVars false
set_option linter.unusedSimpArgs false

namespace Verif.Props

open Verif.Model Verif.Lemmas

variable {K : Type*} [Field K] [LinearOrder K] [IsStrictOrderedRing K] [FloorRing K] {σ : Type*}
  {L W m : ℕ} [NeZero L] [NeZero W]

/-! ## C19 -/

/-- Depth is the water column between bed and water surface, and the surface is not below the
sea. -/
def WaterConsistent (S : State L W K) : Prop :=
  ∀ c, S.HSL ≤ S.stage c ∧ 0 ≤ S.depth c ∧
    (S.eta c ≤ S.stage c → S.eta c + S.depth c = S.stage c) ∧
    (S.stage c ≤ S.eta c → S.depth c = 0)

lemma consistent_of (S : State L W K) (h1 : ∀ c, S.HSL ≤ S.stage c)
    (h2 : ∀ c, S.depth c = max (S.stage c - S.eta c) 0) : WaterConsistent S := by
  intro c
  refine ⟨h1 c, ?_, ?_, ?_⟩
  · rw [h2]; exact le_max_right _ _
  · intro h; rw [h2, max_eq_left (by linarith)]; ring
  · intro h; rw [h2, max_eq_right (by linarith)]

/-- C19: after a water iteration the depth equals the positive part of stage minus bed and the
stage is at least sea level. The iteration changes neither the bed nor the sea level. -/
theorem C19_iteration {g : Rng K σ} {P : Params L W m K} {it : ℕ} {S S' : State L W K} {s s' : σ}
    (h : waterIteration g P it S s = .ok (S', s')) :
    WaterConsistent S' ∧ S'.eta = S.eta ∧ S'.HSL = S.HSL := by
  obtain ⟨a, b, -⟩ := waterIteration_frame h
  obtain ⟨w, wst, log, n, stage, -, -, -, rfl⟩ := waterIteration_ok h
  exact ⟨consistent_of _ (fun c => le_max_right _ _) (fun c => rfl), a, b⟩

/-- C19: the same holds at the end of the water routing of a timestep. -/
theorem C19_route {g : Rng K σ} {P : Params L W m K} {S S' : State L W K} {s s' : σ}
    (hit : 0 < P.itermax) (h : routeWater g P S s = .ok (S', s')) :
    WaterConsistent S' ∧ S'.eta = S.eta ∧ S'.HSL = S.HSL := by
  refine ⟨routeWaterFrom_post WaterConsistent (fun it S s S' s' h => (C19_iteration h).1) _ _ _ _ _
    _ hit h, (routeWater_frame h).1, (routeWater_frame h).2.1⟩

/-! ## C20 -/

/-- A cell of the inlet: first row, one of the inlet columns. -/
def InletCell (P : Params L W m K) (c : Cell L W) : Prop := c.1.val = 0 ∧ ∃ k, P.inlet k = c.2

lemma isInlet_iff (P : Params L W m K) (c : Cell L W) :
    isInlet P.inlet c = true ↔ InletCell P c := by
  unfold isInlet InletCell
  simp [List.any_eq_true]

/-- Discharge as it must be after a water iteration: the magnitude is the length of the vector,
and inlet cells carry the inlet discharge downstream. -/
structure DischargeConsistent (P : Params L W m K) (S : State L W K) : Prop where
  magnitude : ∀ c, S.qw c = P.nrm (S.qx c) (S.qy c)
  inlet : ∀ c, InletCell P c → S.qx c = P.qw0 ∧ S.qy c = 0 ∧ S.qw c = P.qw0

/-- C20: after each water iteration the discharge magnitude is the length of the discharge vector
(`nrm` is the Euclidean length) and inlet cells carry the inlet discharge, directed downstream. -/
theorem C20_iteration {g : Rng K σ} {P : Params L W m K} {it : ℕ} {S S' : State L W K} {s s' : σ}
    (hn : P.nrm P.qw0 0 = P.qw0) (h : waterIteration g P it S s = .ok (S', s')) :
    DischargeConsistent P S' := by
  obtain ⟨w, wst, log, n, stage, -, -, -, rfl⟩ := waterIteration_ok h
  constructor
  · intro c
    simp only [finalizeWaterIteration, updateFlow, assign]
    by_cases hi : isInlet P.inlet c = true
    · simp only [hi, if_true, hn]
    · simp only [hi, Bool.false_eq_true, if_false]
  · intro c hc
    have hi := (isInlet_iff P c).mpr hc
    simp only [finalizeWaterIteration, updateFlow, assign, hi, if_true]
    trivial

/-- C20: the same at the end of the water routing of a timestep. -/
theorem C20_route {g : Rng K σ} {P : Params L W m K} {S S' : State L W K} {s s' : σ}
    (hn : P.nrm P.qw0 0 = P.qw0) (hit : 0 < P.itermax)
    (h : routeWater g P S s = .ok (S', s')) : DischargeConsistent P S' :=
  routeWaterFrom_post _ (fun _ _ _ _ _ h => C20_iteration hn h) _ _ _ _ _ _ hit h

/-- C20: away from the inlet, the new discharge is the relaxed combination of the old discharge
with a vector that points where the parcels stepped and whose length is the routed discharge
(first timestep: that vector itself). -/
theorem C20_relaxation {g : Rng K σ} {P : Params L W m K} {it : ℕ} {S S' : State L W K} {s s' : σ}
    (h : waterIteration g P it S s = .ok (S', s')) :
    ∃ w wst log n, waterWeightArray P S = .ok w ∧
      runWaterIteration g (waterEnv P S w) (fun k => ((P.inlet k).val : ℤ)) P.NpWater S.ncols s =
        .ok (wst, log, n, s') ∧
      ∀ c, ¬ InletCell P c → 0 < P.nrm (wst.flux.qx c) (wst.flux.qy c) →
        ∃ vx vy, vx * P.nrm (wst.flux.qx c) (wst.flux.qy c) = wst.flux.qw c * wst.flux.qx c ∧
          vy * P.nrm (wst.flux.qx c) (wst.flux.qy c) = wst.flux.qw c * wst.flux.qy c ∧
          (S.timeIter = 0 → S'.qx c = vx ∧ S'.qy c = vy) ∧
          (0 < S.timeIter → ∀ om, om = (if it = 0 then P.omegaFlow else P.omegaFlowIter) →
            S'.qx c = S.qx c + om * (vx - S.qx c) ∧ S'.qy c = S.qy c + om * (vy - S.qy c)) := by
  obtain ⟨w, wst, log, n, stage, h1, h2, -, rfl⟩ := waterIteration_ok h
  refine ⟨w, wst, log, n, h1, h2, ?_⟩
  intro c hc hpos
  have hi : isInlet P.inlet c = false := by
    rw [Bool.eq_false_iff]; exact fun h => hc ((isInlet_iff P c).mp h)
  have hd : qwnDiv P.nrm wst.flux c = wst.flux.qw c / P.nrm (wst.flux.qx c) (wst.flux.qy c) := by
    simp only [qwnDiv, hpos, gt_iff_lt, if_true]
  refine ⟨wst.flux.qx c * qwnDiv P.nrm wst.flux c, wst.flux.qy c * qwnDiv P.nrm wst.flux c,
    ?_, ?_, ?_, ?_⟩
  · rw [hd]; field_simp
  · rw [hd]; field_simp
  · intro ht
    simp only [finalizeWaterIteration, updateFlow, assign, hi, ht, lt_irrefl, gt_iff_lt, if_false,
      Bool.false_eq_true]
    trivial
  · intro ht om hom
    subst hom
    simp only [finalizeWaterIteration, updateFlow, assign, hi, ht, gt_iff_lt, if_true,
      Bool.false_eq_true, if_false]
    constructor <;> ring

/-- C20: a cell where no net step was taken only relaxes towards zero. -/
theorem C20_unvisited {g : Rng K σ} {P : Params L W m K} {it : ℕ} {S S' : State L W K} {s s' : σ}
    (h : waterIteration g P it S s = .ok (S', s')) :
    ∃ w wst log n, waterWeightArray P S = .ok w ∧
      runWaterIteration g (waterEnv P S w) (fun k => ((P.inlet k).val : ℤ)) P.NpWater S.ncols s =
        .ok (wst, log, n, s') ∧
      ∀ c, ¬ InletCell P c → wst.flux.qx c = 0 → wst.flux.qy c = 0 →
          (S.timeIter = 0 → S'.qx c = 0 ∧ S'.qy c = 0) ∧
          (0 < S.timeIter → ∀ om, om = (if it = 0 then P.omegaFlow else P.omegaFlowIter) →
            S'.qx c = (1 - om) * S.qx c ∧ S'.qy c = (1 - om) * S.qy c) := by
  obtain ⟨w, wst, log, n, stage, h1, h2, -, rfl⟩ := waterIteration_ok h
  refine ⟨w, wst, log, n, h1, h2, ?_⟩
  intro c hc hx hy
  have hi : isInlet P.inlet c = false := by
    rw [Bool.eq_false_iff]; exact fun h => hc ((isInlet_iff P c).mp h)
  refine ⟨?_, ?_⟩
  · intro ht
    simp only [finalizeWaterIteration, updateFlow, assign, hi, ht, lt_irrefl, gt_iff_lt, if_false,
      Bool.false_eq_true, hx, hy, zero_mul]
    trivial
  · intro ht om hom
    subst hom
    simp only [finalizeWaterIteration, updateFlow, assign, hi, ht, gt_iff_lt, if_true,
      Bool.false_eq_true, if_false, hx, hy, zero_mul]
    constructor <;> ring

/-! ## C21 -/

/-- Velocity as it must be after a water iteration. -/
structure VelocityConsistent (P : Params L W m K) (S : State L W K) : Prop where
  bounds : ∀ c, 0 ≤ S.uw c ∧ S.uw c ≤ P.uMax
  dry : ∀ c, S.depth c ≤ P.dryDepth → S.uw c = 0 ∧ S.ux c = 0 ∧ S.uy c = 0
  still : ∀ c, S.qw c ≤ 0 → S.uw c = 0 ∧ S.ux c = 0 ∧ S.uy c = 0
  wet : ∀ c, P.dryDepth < S.depth c → 0 < S.qw c →
    S.uw c * S.depth c ≤ S.qw c ∧ (S.uw c < P.uMax → S.uw c * S.depth c = S.qw c)
  aligned : ∀ c, S.ux c * S.qw c = S.uw c * S.qx c ∧ S.uy c * S.qw c = S.uw c * S.qy c

/-- C21: after each water iteration, velocity is between 0 and the limit `uMax` (set to twice the
inlet velocity), zero in dry cells and where there is no discharge, otherwise discharge over depth
up to the limit, and its components are parallel to the discharge. -/
theorem C21_iteration {g : Rng K σ} {P : Params L W m K} {it : ℕ} {S S' : State L W K} {s s' : σ}
    (hu : 0 ≤ P.uMax) (hd : 0 ≤ P.dryDepth) (h : waterIteration g P it S s = .ok (S', s')) :
    VelocityConsistent P S' := by
  obtain ⟨w, wst, log, n, stage, -, -, -, rfl⟩ := waterIteration_ok h
  simp only [finalizeWaterIteration]
  generalize updateFlow P.nrm P.omegaFlow P.omegaFlowIter P.qw0 P.inlet S.timeIter it S.qx S.qy
    wst.flux = q
  generalize depthOf (stageAboveSea stage S.HSL) S.eta = dep
  constructor
  · intro c
    simp only [updateVelocity]
    split_ifs with hm
    · simp only [Bool.and_eq_true, decide_eq_true_eq] at hm
      exact ⟨le_min hu (div_nonneg hm.2.le (by linarith [hm.1])), min_le_left _ _⟩
    · exact ⟨le_refl _, hu⟩
  · intro c hc
    have : ¬ dep c > P.dryDepth := not_lt.mpr hc
    simp [updateVelocity, this]
  · intro c hc
    have : ¬ q.qw c > 0 := not_lt.mpr hc
    simp [updateVelocity, this]
  · intro c h1 h2
    have hp : (0 : K) < dep c := lt_of_le_of_lt hd h1
    have hm : (decide (dep c > P.dryDepth) && decide (q.qw c > 0)) = true := by simp [h1, h2]
    simp only [updateVelocity, hm, if_true]
    constructor
    · calc min P.uMax (q.qw c / dep c) * dep c ≤ q.qw c / dep c * dep c :=
            mul_le_mul_of_nonneg_right (min_le_right _ _) hp.le
        _ = q.qw c := div_mul_cancel₀ _ hp.ne'
    · intro hlt
      rw [min_eq_right (by
        by_contra hcon
        push Not at hcon
        rw [min_eq_left hcon.le] at hlt
        exact lt_irrefl _ hlt)]
      exact div_mul_cancel₀ _ hp.ne'
  · intro c
    simp only [updateVelocity]
    split_ifs with hm
    · simp only [Bool.and_eq_true, decide_eq_true_eq] at hm
      exact ⟨div_mul_cancel₀ _ hm.2.ne', div_mul_cancel₀ _ hm.2.ne'⟩
    · simp

/-- C21: the same at the end of the water routing of a timestep. -/
theorem C21_route {g : Rng K σ} {P : Params L W m K} {S S' : State L W K} {s s' : σ}
    (hu : 0 ≤ P.uMax) (hd : 0 ≤ P.dryDepth) (hit : 0 < P.itermax)
    (h : routeWater g P S s = .ok (S', s')) : VelocityConsistent P S' :=
  routeWaterFrom_post _ (fun _ _ _ _ _ h => C21_iteration hu hd h) _ _ _ _ _ _ hit h

/-- C21: the components have the length given by the magnitude: where `nrm` is the length of the
discharge vector, the velocity vector has length `uw`. -/
theorem C21_length {g : Rng K σ} {P : Params L W m K} {S S' : State L W K} {s s' : σ}
    (hu : 0 ≤ P.uMax) (hd : 0 ≤ P.dryDepth) (hit : 0 < P.itermax)
    (hn : P.nrm P.qw0 0 = P.qw0) (h : routeWater g P S s = .ok (S', s')) (c : Cell L W)
    (hc : P.nrm (S'.qx c) (S'.qy c) ^ 2 = S'.qx c ^ 2 + S'.qy c ^ 2) :
    S'.ux c ^ 2 + S'.uy c ^ 2 = S'.uw c ^ 2 := by
  have hv := C21_route hu hd hit h
  have hq := (C20_route hn hit h).magnitude c
  rcases le_or_gt (S'.qw c) 0 with h0 | h0
  · obtain ⟨a, b, e⟩ := hv.still c h0
    rw [a, b, e]; ring
  · obtain ⟨a, b⟩ := hv.aligned c
    rw [← hq] at hc
    have h2 : S'.qw c ^ 2 ≠ 0 := pow_ne_zero _ h0.ne'
    apply mul_right_cancel₀ h2
    calc (S'.ux c ^ 2 + S'.uy c ^ 2) * S'.qw c ^ 2
        = (S'.ux c * S'.qw c) ^ 2 + (S'.uy c * S'.qw c) ^ 2 := by ring
      _ = S'.uw c ^ 2 * (S'.qx c ^ 2 + S'.qy c ^ 2) := by rw [a, b]; ring
      _ = S'.uw c ^ 2 * S'.qw c ^ 2 := by rw [hc]

-- over the real numbers the Euclidean length meets the hypotheses on `nrm`
example (x y : ℝ) : Real.sqrt (x * x + y * y) ^ 2 = x ^ 2 + y ^ 2 := by
  rw [Real.sq_sqrt (by nlinarith [mul_self_nonneg x, mul_self_nonneg y])]; ring
example (q : ℝ) (h : 0 ≤ q) : Real.sqrt (q * q + 0 * 0) = q := by
  rw [mul_zero, add_zero, Real.sqrt_mul_self h]

/-! ## Examples -/

/-- Example parameters on the small domain. -/
def exParams : Params 4 3 1 ℚ where
  cellType := exType
  inlet := fun _ => 1
  modWater := fun _ => 1
  modSed := fun _ => 1
  modErosion := fun _ => 1
  sigma := fun c => if c.1.val < 2 then 0 else 1 / 100
  L0 := 2
  CTR := 1
  stepmax := 8
  NpWater := 3
  NpSed := 4
  itermax := 2
  Nsmooth := 1
  Ncross := 1
  dx := 1
  u0 := 1
  h0 := 1
  S0 := 1 / 10
  SLR := 1 / 1000
  dt := 1
  qw0 := 1
  QpWater := 1 / 3
  uMax := 2
  dryDepth := 1 / 10
  gamma := 1 / 2
  Csmooth := 9 / 10
  omegaSfc := 1 / 10
  omegaFlow := 9 / 10
  omegaFlowIter := 2 / 3
  VpSed := 1 / 4
  qs0 := 1 / 2
  fBedload := 1 / 2
  fCap := 1 / 2
  UeroSand := 21 / 20
  UeroMud := 3 / 2
  UdepMud := 3 / 10
  lam := 1
  diffMult := 1 / 20
  actThick := 1 / 2
  sandFracBc := 1
  toggleSub := true
  startSub := 0
  s2 := 7 / 5
  s05 := 7 / 10
  nrm := fun x y => |x| + |y|
  pwWater := fun x => x
  pwSed := fun _ x => x * x
  pwBeta := fun x => x * x * x

/-- Example state: flat bed one below the water surface, water flowing down the middle column. -/
def exState : State 4 3 ℚ where
  eta := fun _ => -1
  stage := fun _ => 0
  depth := fun _ => 1
  qx := fun c => if c.2.val = 1 then 1 else 1 / 5
  qy := fun _ => 0
  qw := fun c => if c.2.val = 1 then 1 else 1 / 5
  ux := fun c => if c.2.val = 1 then 1 else 1 / 5
  uy := fun _ => 0
  uw := fun c => if c.2.val = 1 then 1 else 1 / 5
  qs := fun _ => 0
  depSand := fun _ => 0
  depMud := fun _ => 0
  sandFrac := fun _ => 0
  activeLayer := fun _ => 0
  HSL := 0
  time := 0
  timeIter := 1
  ncols := 4

-- that the example can be routed is shown in `Verif.Props.RouteWater`

example : exParams.nrm exParams.qw0 0 = exParams.qw0 := by decide +kernel

end Verif.Props
