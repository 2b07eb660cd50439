import Verif.Spec.Similar
import Verif.Props.Mirror
import Verif.Props.Timestep
import Verif.Props.Created

/-!
# C92: similar basins

Scale, velocity and concentration only set the unit of distance and of time.
-/

set_option linter.unusedSectionVars false
set_option linter.unusedSimpArgs false

namespace Verif.Props

open Verif.Model Verif.Lemmas Verif.Spec

variable {K : Type*} [Field K] [LinearOrder K] [IsStrictOrderedRing K] {σ : Type*} {L W m : ℕ}

/-- What is asked of the factors, of the root of a sum of squares and of the power: the factors are
positive, the root is positively homogeneous and zero at the origin only, and the power takes products to
products. -/
structure Proper (z : Factors K) (nrm : K → K → K) (pw : K → K) : Prop where
  a : 0 < z.a
  v : 0 < z.v
  c : 0 < z.c
  nrmScale : ∀ x y, nrm (z.v * x) (z.v * y) = z.v * nrm x y
  nrmZero : ∀ x y, nrm x y ≤ 0 → x = 0 ∧ y = 0
  pw : ∃ k, k ≠ 0 ∧ ∀ x, pw (z.v * x) = k * pw x

/-! ### Water -/

lemma pos_mul_pos {k x : K} (hk : 0 < k) : k * x > 0 ↔ x > 0 := mul_pos_iff_of_pos_left hk

lemma weightInt_sim {v : K} (hv : 0 < v) (qx qy s05 s2 : K) :
    weightInt (v * qx) (v * qy) s05 s2 = fun d => v * weightInt qx qy s05 s2 d := by
  funext d
  unfold weightInt
  rw [mul_max_of_nonneg _ _ hv.le, mul_zero]
  congr 1
  ring

lemma weightInt_nonneg (qx qy s05 s2 : K) (d : Fin 9) : 0 ≤ weightInt qx qy s05 s2 d := le_max_left _ _

lemma rebalance_sim {v : K} (hv : 0 < v) {w : Fin 9 → K} (hw : ∀ d, 0 ≤ w d) :
    rebalance (fun d => v * w d) = rebalance w := by
  unfold rebalance
  simp only [← Finset.mul_sum]
  by_cases h : 0 < ∑ d, w d
  · rw [if_pos h, if_pos (mul_pos hv h)]
    funext d
    rw [mul_div_mul_left _ _ hv.ne']
  · rw [if_neg h, if_neg (by rw [mul_pos_iff_of_pos_left hv]; exact h)]
    have h0 : ∑ d, w d = 0 := le_antisymm (not_lt.1 h) (Finset.sum_nonneg fun d _ => hw d)
    funext d
    rw [(Finset.sum_eq_zero_iff_of_nonneg fun d _ => hw d).1 h0 d (Finset.mem_univ d), mul_zero]

lemma waterRaw_sim {v : K} (hv : 0 < v) (wSfc : Fin 9 → K) {wInt : Fin 9 → K} (hw : ∀ d, 0 ≤ wInt d)
    (depthN modN : Fin 9 → K) (ctN : Fin 9 → ℤ) (dryDepth gamma : K) (pw : K → K) :
    waterRaw wSfc (fun d => v * wInt d) depthN modN ctN dryDepth gamma pw =
      waterRaw wSfc wInt depthN modN ctN dryDepth gamma pw := by
  have e : (fun d : Fin 9 => if decide (d = 4) = true then (0 : K) else
      if (decide (depthN d < dryDepth) || decide (ctN d = -2)) = true then 0 else v * wInt d) =
      fun d => v * (if decide (d = 4) = true then 0 else
        if (decide (depthN d < dryDepth) || decide (ctN d = -2)) = true then 0 else wInt d) := by
    funext d
    split_ifs <;> simp
  unfold waterRaw
  simp only
  rw [e, rebalance_sim hv]
  intro d
  split_ifs
  · exact le_rfl
  · exact le_rfl
  · exact hw d

/-- C92: water parcels have the same weights. -/
theorem C92_water_weights [NeZero L] [NeZero W] (z : Factors K) (hv : 0 < z.v) (P : Params L W m K)
    (S : State L W K) : waterWeightArray (simParams z P) (simState z S) = waterWeightArray P S := by
  have hf : waterWeights (simState z S).depth (simState z S).stage (simParams z P).modWater
      (simParams z P).cellType (simState z S).qx (simState z S).qy (simParams z P).s2 (simParams z P).s05
      (simParams z P).dryDepth (simParams z P).gamma (simParams z P).pwWater =
      waterWeights S.depth S.stage P.modWater P.cellType S.qx S.qy P.s2 P.s05 P.dryDepth P.gamma P.pwWater := by
    funext c
    unfold waterWeights
    have e : weightInt ((simState z S).qx c) ((simState z S).qy c) (simParams z P).s05 (simParams z P).s2 =
      fun d => z.v * weightInt (S.qx c) (S.qy c) P.s05 P.s2 d := weightInt_sim hv _ _ _ _
    rw [e, waterWeightAtCell_eq, waterWeightAtCell_eq, waterRaw_sim hv _ (weightInt_nonneg _ _ _ _)]
    rfl
  unfold waterWeightArray
  simp only [hf]

/-- The flux accumulated while routing, of the similar basin: directions are counted, the discharge is
scaled. -/
def simFlux (v : K) (f : Flux L W K) : Flux L W K := { f with qw := times v f.qw }

/-- The state of the loop over steps. -/
def simWater (v : K) (st : WState L W K) : WState L W K := { st with flux := simFlux v st.flux }

/-- Two environments of the walk of water parcels that differ in the discharge of a parcel. -/
structure SimEnv (v : K) (E F : WEnv L W K) : Prop where
  weights : F.weights = E.weights
  cellType : F.cellType = E.cellType
  stage : F.stageAboveSL = E.stageAboveSL
  L0 : F.L0 = E.L0
  CTR : F.CTR = E.CTR
  stepmax : F.stepmax = E.stepmax
  s2 : F.s2 = E.s2
  nrm : F.nrm = E.nrm
  flow : F.Qp / F.dx = v * (E.Qp / E.dx)

lemma parcelSteps_sim [FloorRing K] {v : K} {E F : WEnv L W K} (h : SimEnv v E F) (step : ℕ) :
    ∀ (ps : List WParcel) (ds : List (Fin 9)), parcelSteps F step ps ds = parcelSteps E step ps ds := by
  have h1 : ∀ p d, parcelStep F step p d = parcelStep E step p d := by
    intro p d
    unfold parcelStep checkLoop isBoundary
    simp only [h.cellType, h.stage, h.L0, h.CTR, h.nrm]
  intro ps
  induction ps with
  | nil => intro ds; cases ds <;> rfl
  | cons p ps ih =>
    intro ds
    cases ds with
    | nil => rfl
    | cons d ds => rw [parcelSteps, parcelSteps, h1, ih]

lemma update_times (k : K) (f : Grid L W K) (c : Cell L W) (x : K) :
    Function.update (times k f) c (k * x) = times k (Function.update f c x) := by
  funext y
  unfold times
  by_cases hy : y = c
  · subst hy; simp only [Function.update_self]
  · simp only [Function.update_of_ne hy]

lemma addFluxes_sim {v : K} {E F : WEnv L W K} (h : SimEnv v E F) (sel : StepRec → ℤ) (p : StepRec → Bool) :
    ∀ (rs : List StepRec) (f : Flux L W K),
      addFluxes F sel p rs (simFlux v f) = (addFluxes E sel p rs f).map (simFlux v) := by
  have h1 : ∀ (f : Flux L W K) ind d, addFlux F (simFlux v f) ind d = (addFlux E f ind d).map (simFlux v) := by
    intro f ind d
    unfold addFlux
    split_ifs
    · cases flatCell L W ind with
      | none => rfl
      | some c =>
        simp only [Except.map, h.s2]
        unfold simFlux
        simp only [Except.ok.injEq, Flux.mk.injEq, true_and]
        rw [← update_times]
        congr 1
        unfold times
        rw [h.flow]
        ring
    · rfl
  intro rs
  induction rs with
  | nil => intro f; rfl
  | cons r rs ih =>
    intro f
    rw [addFluxes, addFluxes, h1]
    split_ifs
    · cases addFlux E f (sel r) r.dir with
      | error e => rfl
      | ok f1 => exact ih f1
    · exact ih f

lemma waterStep_sim [FloorRing K] (g : Rng K σ) {v : K} {E F : WEnv L W K} (h : SimEnv v E F) (step : ℕ)
    (st : WState L W K) (s : σ) :
    waterStep g F step (simWater v st) s =
      (waterStep g E step st s).map fun x => (simWater v x.1, x.2) := by
  have hc : checkSize F.stepmax step (simWater v st) = simWater v (checkSize E.stepmax step st) := by
    unfold checkSize
    rw [h.stepmax]
    have : (simWater v st).ncols = st.ncols := rfl
    rw [this]
    split_ifs <;> rfl
  unfold waterStep
  simp only [hc]
  generalize checkSize E.stepmax step st = st1
  have e1 : (simWater v st1).ncols = st1.ncols := rfl
  have e2 : (simWater v st1).parcels = st1.parcels := rfl
  have e3 : (simWater v st1).flux = simFlux v st1.flux := rfl
  rw [e1, e2, e3, h.weights]
  split_ifs
  · cases chooseDirs g E.weights (st1.parcels.map (·.ind)) s with
    | error e => rfl
    | ok r =>
      obtain ⟨ds, s1⟩ := r
      simp only [parcelSteps_sim h]
      cases parcelSteps E step st1.parcels ds with
      | error e => rfl
      | ok r =>
        obtain ⟨ps, recs⟩ := r
        simp only [addFluxes_sim h]
        cases addFluxes E (·.cur) (fun _ => true) recs st1.flux with
        | error e => rfl
        | ok f1 =>
          simp only [Except.map, addFluxes_sim h]
          cases addFluxes E (·.new1) (fun _ => true) recs f1 with
          | error e => rfl
          | ok f2 =>
            simp only [Except.map, addFluxes_sim h]
            cases addFluxes E (·.new2) (·.bnd) recs f2 <;> rfl
  · rfl

lemma waterLoop_sim [FloorRing K] (g : Rng K σ) {v : K} {E F : WEnv L W K} (h : SimEnv v E F) :
    ∀ (n step : ℕ), E.stepmax - step = n → ∀ (st : WState L W K) (s : σ),
    waterLoop g F step (simWater v st) s =
      (waterLoop g E step st s).map fun x => (simWater v x.1, x.2) := by
  intro n
  induction n with
  | zero =>
    intro step hn st s
    rw [waterLoop, waterLoop, if_neg (by rw [h.stepmax]; omega), if_neg (by omega)]
    rfl
  | succ n ih =>
    intro step hn st s
    rw [waterLoop, waterLoop, h.stepmax, waterStep_sim g h]
    have e2 : (simWater v st).parcels = st.parcels := rfl
    rw [e2]
    split_ifs
    · cases waterStep g E (step + 1) st s with
      | error e => rfl
      | ok r =>
        obtain ⟨st1, recs, s1⟩ := r
        simp only [Except.map]
        rw [ih (step + 1) (by omega)]
        cases waterLoop g E (step + 1) st1 s1 <;> rfl
    · rfl

/-- C92: all water parcels go the same way; the discharge that they add up is `v` times as large. -/
theorem C92_water_walks [FloorRing K] (g : Rng K σ) (z : Factors K) (ha : 0 < z.a) (P : Params L W m K)
    (S : State L W K) (w : Grid L W (Fin 9 → K)) (inlet : Fin m → ℤ) (np ncols : ℕ) (s : σ) :
    runWaterIteration g (waterEnv (simParams z P) (simState z S) w) inlet np ncols s =
      (runWaterIteration g (waterEnv P S w) inlet np ncols s).map fun x => (simWater z.v x.1, x.2) := by
  have h : SimEnv z.v (waterEnv P S w) (waterEnv (simParams z P) (simState z S) w) := by
    refine ⟨rfl, rfl, rfl, rfl, rfl, rfl, rfl, rfl, ?_⟩
    show z.v * z.a * P.QpWater / (z.a * P.dx) = z.v * (P.QpWater / P.dx)
    rw [mul_comm z.v z.a, mul_assoc, mul_div_mul_left _ _ ha.ne', mul_div_assoc]
  unfold runWaterIteration
  simp only
  cases getStartIndices inlet (getInletWeights inlet : Fin m → K) (drawN g np s).1 with
  | none => rfl
  | some starts =>
    have hs : waterStart (waterEnv (simParams z P) (simState z S) w) ncols starts =
        (waterStart (waterEnv P S w) ncols starts).map (simWater z.v) := by
      unfold waterStart
      split_ifs
      · simp only [Except.map]
        unfold simWater simFlux
        simp only [Except.ok.injEq, WState.mk.injEq, Flux.mk.injEq, true_and, and_true]
        funext c
        simp only [fancyAdd, times]
        rw [h.flow]
        split_ifs
        · ring
        · ring
      · rfl
    simp only [hs]
    cases waterStart (waterEnv P S w) ncols starts with
    | error e => rfl
    | ok st => exact waterLoop_sim g h _ 0 rfl st _

/-- C92: the elevations found along the walks are the same. -/
theorem C92_surface_walks (z : Factors K) (ha : 0 < z.a) (hv : 0 < z.v) (P : Params L W m K) (S : State L W K)
    (ps : List (List ℤ × Bool)) : accumulateFreeSurface (sfcEnv (simParams z P) (simState z S)) ps =
      accumulateFreeSurface (sfcEnv P S) ps := by
  have hb : ∀ nx c s, backStep (sfcEnv (simParams z P) (simState z S)) nx c s = backStep (sfcEnv P S) nx c s := by
    intro nx c s
    have e1 : (z.v * S.uw c > z.v * P.u0 * (1 / 2)) = (S.uw c > P.u0 * (1 / 2)) := by
      rw [mul_assoc, gt_iff_lt, gt_iff_lt, mul_lt_mul_iff_right₀ hv]
    have e2 : (z.v * S.uw c = 0) = (S.uw c = 0) := by
      simp [hv.ne']
    have e3 : P.S0 / z.a * (z.v * S.ux c * ((nx.1.val : K) - (c.1.val : K)) * (z.a * P.dx) +
        z.v * S.uy c * ((nx.2.val : K) - (c.2.val : K)) * (z.a * P.dx)) / (z.v * S.uw c) =
        P.S0 * (S.ux c * ((nx.1.val : K) - (c.1.val : K)) * P.dx +
        S.uy c * ((nx.2.val : K) - (c.2.val : K)) * P.dx) / S.uw c := by
      have : P.S0 / z.a * (z.v * S.ux c * ((nx.1.val : K) - (c.1.val : K)) * (z.a * P.dx) +
        z.v * S.uy c * ((nx.2.val : K) - (c.2.val : K)) * (z.a * P.dx)) =
        z.v * (P.S0 * (S.ux c * ((nx.1.val : K) - (c.1.val : K)) * P.dx +
        S.uy c * ((nx.2.val : K) - (c.2.val : K)) * P.dx)) := by
        have := ha.ne'
        field_simp
      rw [this, mul_div_mul_left _ _ hv.ne']
    unfold backStep sfcEnv simParams simState times
    simp only [e1, e2, e3]
  have hw : ∀ (cs : List (Cell L W)) nx s,
      backWalk (sfcEnv (simParams z P) (simState z S)) nx cs s = backWalk (sfcEnv P S) nx cs s := by
    intro cs
    induction cs with
    | nil => intro nx s; rfl
    | cons c cs ih => intro nx s; rw [backWalk, backWalk, hb, ih]
  have hp : ∀ walk flag a, sfcParcel (sfcEnv (simParams z P) (simState z S)) walk flag a =
      sfcParcel (sfcEnv P S) walk flag a := by
    intro walk flag a
    unfold sfcParcel
    simp only [hw]
    rfl
  have ha : ∀ (ps : List (List ℤ × Bool)) a, sfcParcels (sfcEnv (simParams z P) (simState z S)) ps a =
      sfcParcels (sfcEnv P S) ps a := by
    intro ps
    induction ps with
    | nil => intro a; rfl
    | cons p ps ih =>
      intro a
      obtain ⟨walk, flag⟩ := p
      rw [sfcParcels, sfcParcels, hp]
      cases sfcParcel (sfcEnv P S) walk flag a with
      | error e => rfl
      | ok a1 => exact ih a1
  exact ha ps _

lemma assign_times (k : K) (f : Grid L W K) (p : Cell L W → Bool) (x : K) :
    assign (times k f) p (fun _ => k * x) = times k (assign f p fun _ => x) := by
  funext c
  simp only [assign, times]
  split_ifs <;> rfl

/-- C92: discharge and velocity are `v` times as large. -/
theorem C92_water_fields {z : Factors K} {P : Params L W m K} (hz : Proper z P.nrm P.pwBeta) (S : State L W K)
    (it : ℕ) (stage : Grid L W K) (f : Flux L W K) :
    finalizeWaterIteration (simParams z P) (simState z S) it stage (simFlux z.v f) =
      simState z (finalizeWaterIteration P S it stage f) := by
  have hv := hz.v
  have hq : updateFlow P.nrm P.omegaFlow P.omegaFlowIter (z.v * P.qw0) P.inlet S.timeIter it
      (times z.v S.qx) (times z.v S.qy) (simFlux z.v f) =
      (⟨times z.v (updateFlow P.nrm P.omegaFlow P.omegaFlowIter P.qw0 P.inlet S.timeIter it S.qx S.qy f).qx,
        times z.v (updateFlow P.nrm P.omegaFlow P.omegaFlowIter P.qw0 P.inlet S.timeIter it S.qx S.qy f).qy,
        times z.v (updateFlow P.nrm P.omegaFlow P.omegaFlowIter P.qw0 P.inlet S.timeIter it S.qx S.qy f).qw⟩ :
        Flux L W K) := by
    have hx : ∀ c, f.qx c * qwnDiv P.nrm (simFlux z.v f) c = z.v * (f.qx c * qwnDiv P.nrm f c) := by
      intro c
      unfold qwnDiv simFlux times
      simp only
      split_ifs with h
      · ring
      · rw [(hz.nrmZero _ _ (not_lt.1 h)).1]; ring
    have hy : ∀ c, f.qy c * qwnDiv P.nrm (simFlux z.v f) c = z.v * (f.qy c * qwnDiv P.nrm f c) := by
      intro c
      unfold qwnDiv simFlux times
      simp only
      split_ifs with h
      · ring
      · rw [(hz.nrmZero _ _ (not_lt.1 h)).2]; ring
    have h1 : ∀ (o : K) (q n : Grid L W K), (if S.timeIter > 0 then fun c => z.v * n c * o + times z.v q c * (1 - o)
        else fun c => z.v * n c) = times z.v (if S.timeIter > 0 then fun c => n c * o + q c * (1 - o) else n) := by
      intro o q n
      split_ifs
      · funext c; unfold times; ring
      · rfl
    unfold updateFlow
    have e1 : (simFlux z.v f).qx = f.qx := rfl
    have e2 : (simFlux z.v f).qy = f.qy := rfl
    simp only [e1, e2, hx, hy]
    rw [h1 _ S.qx (fun c => f.qx c * qwnDiv P.nrm f c), h1 _ S.qy (fun c => f.qy c * qwnDiv P.nrm f c)]
    generalize (if S.timeIter > 0 then fun c => f.qx c * qwnDiv P.nrm f c *
      (if it = 0 then P.omegaFlow else P.omegaFlowIter) + S.qx c *
      (1 - (if it = 0 then P.omegaFlow else P.omegaFlowIter)) else fun c => f.qx c * qwnDiv P.nrm f c) = A
    generalize (if S.timeIter > 0 then fun c => f.qy c * qwnDiv P.nrm f c *
      (if it = 0 then P.omegaFlow else P.omegaFlowIter) + S.qy c *
      (1 - (if it = 0 then P.omegaFlow else P.omegaFlowIter)) else fun c => f.qy c * qwnDiv P.nrm f c) = B
    have hn : (fun c => P.nrm (times z.v A c) (times z.v B c)) = times z.v (fun c => P.nrm (A c) (B c)) := by
      funext c
      exact hz.nrmScale _ _
    rw [hn, assign_times, assign_times]
    have h0 : assign (times z.v B) (isInlet P.inlet) (fun _ => 0) =
        times z.v (assign B (isInlet P.inlet) fun _ => 0) := by
      have := assign_times z.v B (isInlet P.inlet) 0
      rw [mul_zero] at this
      exact this
    rw [h0]
  have hu : ∀ (d : Grid L W K) (q : Flux L W K), updateVelocity (z.v * P.uMax) P.dryDepth d
      (⟨times z.v q.qx, times z.v q.qy, times z.v q.qw⟩ : Flux L W K) =
      (⟨times z.v (updateVelocity P.uMax P.dryDepth d q).uw, times z.v (updateVelocity P.uMax P.dryDepth d q).ux,
        times z.v (updateVelocity P.uMax P.dryDepth d q).uy⟩ : Vel L W K) := by
    intro d q
    have hm : ∀ c, (times z.v q.qw c > 0) = (q.qw c > 0) := fun c => propext (pos_mul_pos hv)
    have hmin : ∀ c, min (z.v * P.uMax) (times z.v q.qw c / d c) = z.v * min P.uMax (q.qw c / d c) := by
      intro c
      rw [mul_min_of_nonneg _ _ hv.le]
      unfold times
      rw [mul_div_assoc]
    have hr : ∀ (x y w : K), z.v * x * (z.v * y) / (z.v * w) = z.v * (x * y / w) := by
      intro x y w
      rw [mul_assoc, mul_div_mul_left _ _ hv.ne', mul_left_comm, mul_div_assoc]
    unfold updateVelocity
    simp only [hm, hmin, Vel.mk.injEq]
    refine ⟨?_, ?_, ?_⟩
    · funext c
      simp only [times]
      split_ifs <;> simp
    · funext c
      simp only [times]
      split_ifs
      · rw [hr]
      · simp
    · funext c
      simp only [times]
      split_ifs
      · rw [hr]
      · simp
  unfold finalizeWaterIteration
  have e0 : (simState z S).qx = times z.v S.qx := rfl
  have e0' : (simState z S).qy = times z.v S.qy := rfl
  have e1 : (simParams z P).nrm = P.nrm := rfl
  have e2 : (simParams z P).qw0 = z.v * P.qw0 := rfl
  have e3 : (simParams z P).uMax = z.v * P.uMax := rfl
  have e4 : (simParams z P).omegaFlow = P.omegaFlow := rfl
  have e5 : (simParams z P).omegaFlowIter = P.omegaFlowIter := rfl
  have e6 : (simParams z P).inlet = P.inlet := rfl
  have e7 : (simState z S).timeIter = S.timeIter := rfl
  have e8 : (simParams z P).dryDepth = P.dryDepth := rfl
  simp only [e0, e0', e1, e2, e3, e4, e5, e6, e7, e8, hq]
  have e9 : depthOf (stageAboveSea stage (simState z S).HSL) (simState z S).eta =
      depthOf (stageAboveSea stage S.HSL) S.eta := rfl
  rw [e9, hu]
  rfl

/-- C92: the new surface is the same. -/
theorem C92_surface [NeZero L] [NeZero W] (z : Factors K) (ha : 0 < z.a) (hv : 0 < z.v) (P : Params L W m K)
    (S : State L W K) (ps : List WParcel) :
    computeFreeSurface (simParams z P) (simState z S) ps = computeFreeSurface P S ps := by
  unfold computeFreeSurface
  rw [C92_surface_walks z ha hv]
  cases accumulateFreeSurface (sfcEnv P S) (ps.map fun p => (p.walk, p.flag)) <;> rfl

/-- C92: a whole water iteration. -/
theorem C92_water_iteration [NeZero L] [NeZero W] [FloorRing K] (g : Rng K σ) {z : Factors K}
    {P : Params L W m K} (hz : Proper z P.nrm P.pwBeta) (it : ℕ) (S : State L W K) (s : σ) :
    waterIteration g (simParams z P) it (simState z S) s =
      (waterIteration g P it S s).map fun x => (simState z x.1, x.2) := by
  unfold waterIteration
  rw [C92_water_weights z hz.v]
  cases waterWeightArray P S with
  | error e => rfl
  | ok w =>
    simp only [C92_water_walks g z hz.a]
    have e1 : (simState z S).ncols = S.ncols := rfl
    have e2 : (simParams z P).inlet = P.inlet := rfl
    have e3 : (simParams z P).NpWater = P.NpWater := rfl
    rw [e1, e2, e3]
    cases runWaterIteration g (waterEnv P S w) (fun k => ((P.inlet k).val : ℤ)) P.NpWater S.ncols s with
    | error e => rfl
    | ok r =>
      obtain ⟨wst, l, n, s1⟩ := r
      simp only [Except.map]
      have e4 : (simWater z.v wst).parcels = wst.parcels := rfl
      have e5 : (simWater z.v wst).flux = simFlux z.v wst.flux := rfl
      have e6 : (simWater z.v wst).ncols = wst.ncols := rfl
      rw [e4, e5, e6, C92_surface z hz.a hz.v]
      cases computeFreeSurface P S wst.parcels with
      | error e => rfl
      | ok stage =>
        simp only [C92_water_fields hz]
        rfl

/-- C92: the water routing of a timestep. -/
theorem C92_water [NeZero L] [NeZero W] [FloorRing K] (g : Rng K σ) {z : Factors K}
    {P : Params L W m K} (hz : Proper z P.nrm P.pwBeta) (S : State L W K) (s : σ) :
    routeWater g (simParams z P) (simState z S) s =
      (routeWater g P S s).map fun x => (simState z x.1, x.2) := by
  unfold routeWater
  have : (simParams z P).itermax = P.itermax := rfl
  rw [this]
  generalize P.itermax = n
  generalize (0 : ℕ) = it
  induction n generalizing it S s with
  | zero => rfl
  | succ n ih =>
    unfold routeWaterFrom
    rw [C92_water_iteration g hz]
    cases waterIteration g P it S s with
    | error e => rfl
    | ok r => exact ih r.1 r.2 (it + 1)

/-! ### Sediment -/

lemma time_pos {z : Factors K} {nrm : K → K → K} {pw : K → K} (hz : Proper z nrm pw) : 0 < z.time :=
  div_pos hz.a (mul_pos hz.v hz.c)

lemma limitChange_sim {a : K} (ha : 0 < a) (V stage eta dx : K) (ero : Bool) :
    limitChange (a * a * V) stage eta (a * dx) ero = a * a * limitChange V stage eta dx ero := by
  have hA : 0 ≤ a * a := (mul_pos ha ha).le
  have e : ∀ y : K, y / 4 * (a * dx * (a * dx)) = a * a * (y / 4 * (dx * dx)) := fun y => by ring
  unfold limitChange
  simp only [e, ← mul_min_of_nonneg _ _ hA]
  split_ifs <;> simp

lemma eroVolume_sim {v k A : K} {pw : K → K} (hk : k ≠ 0) (h : ∀ x, pw (v * x) = k * pw x) (V U Ue md : K) :
    eroVolume pw (A * V) (v * U) (v * Ue) md = A * eroVolume pw V U Ue md := by
  unfold eroVolume
  rw [h, h]
  have : md * (A * V) * (k * pw U - k * pw Ue) = k * (A * (md * V * (pw U - pw Ue))) := by ring
  rw [this, mul_div_mul_left _ _ hk, mul_div_assoc]

/-- C92: the volume that a parcel leaves or takes is `a²` times as large. -/
theorem C92_volume {z : Factors K} {P : Params L W m K} (hz : Proper z P.nrm P.pwBeta) (kind : Sed)
    (S : State L W K) (c : Cell L W) (res : K) :
    volumeChange kind (simParams z P) (simState z S) c (z.a * z.a * res) =
      z.a * z.a * volumeChange kind P S c res := by
  obtain ⟨k, hk, hp⟩ := hz.pw
  have hvc := mul_pos hz.v hz.c
  cases kind
  · show sandChange (simParams z P) (simState z S) c (z.a * z.a * res) = z.a * z.a * sandChange P S c res
    unfold sandChange
    have e1 : (simState z S).uw c = z.v * S.uw c := rfl
    have e2 : (simState z S).qs c = z.v * z.c * S.qs c := rfl
    have e3 : (simParams z P).UeroSand = z.v * P.UeroSand := rfl
    have e4 : (simParams z P).VpSed = z.a * z.a * P.VpSed := rfl
    have e5 : (simParams z P).dx = z.a * P.dx := rfl
    have e6 : (simParams z P).pwBeta = P.pwBeta := rfl
    have e7 : (simState z S).stage = S.stage := rfl
    have e8 : (simState z S).eta = S.eta := rfl
    have e9 : (simParams z P).modErosion = P.modErosion := rfl
    have ec : (simParams z P).qs0 * (simParams z P).fCap / P.pwBeta (simParams z P).u0 * P.pwBeta (z.v * S.uw c) =
        z.v * z.c * (P.qs0 * P.fCap / P.pwBeta P.u0 * P.pwBeta (S.uw c)) := by
      show z.v * z.c * P.qs0 * P.fCap / P.pwBeta (z.v * P.u0) * P.pwBeta (z.v * S.uw c) = _
      rw [hp, hp]
      by_cases h0 : P.pwBeta P.u0 = 0
      · simp [h0]
      · field_simp
    simp only [e1, e2, e3, e4, e5, e6, e7, e8, e9, ec, eroVolume_sim hk hp, limitChange_sim hz.a, gt_iff_lt,
      mul_lt_mul_iff_right₀ hvc, mul_lt_mul_iff_right₀ hz.v]
    split_ifs
    · rfl
    · ring
    · simp
  · show mudChange (simParams z P) (simState z S) c (z.a * z.a * res) = z.a * z.a * mudChange P S c res
    unfold mudChange
    have e1 : (simState z S).uw c = z.v * S.uw c := rfl
    have e3 : (simParams z P).UeroMud = z.v * P.UeroMud := rfl
    have e3' : (simParams z P).UdepMud = z.v * P.UdepMud := rfl
    have e4 : (simParams z P).VpSed = z.a * z.a * P.VpSed := rfl
    have e5 : (simParams z P).dx = z.a * P.dx := rfl
    have e6 : (simParams z P).pwBeta = P.pwBeta := rfl
    have e7 : (simState z S).stage = S.stage := rfl
    have e8 : (simState z S).eta = S.eta := rfl
    have e9 : (simParams z P).modErosion = P.modErosion := rfl
    have ec : (simParams z P).lam * (z.a * z.a * res) * (P.pwBeta (z.v * P.UdepMud) - P.pwBeta (z.v * S.uw c)) /
        P.pwBeta (z.v * P.UdepMud) = z.a * z.a *
        (P.lam * res * (P.pwBeta P.UdepMud - P.pwBeta (S.uw c)) / P.pwBeta P.UdepMud) := by
      show P.lam * (z.a * z.a * res) * _ / _ = _
      rw [hp, hp]
      have : P.lam * (z.a * z.a * res) * (k * P.pwBeta P.UdepMud - k * P.pwBeta (S.uw c)) =
        k * (z.a * z.a * (P.lam * res * (P.pwBeta P.UdepMud - P.pwBeta (S.uw c)))) := by ring
      rw [this, mul_div_mul_left _ _ hk, mul_div_assoc]
    simp only [e1, e3, e3', e4, e5, e6, e7, e8, e9, ec, eroVolume_sim hk hp, limitChange_sim hz.a, gt_iff_lt,
      mul_lt_mul_iff_right₀ hz.v]
    split_ifs
    · ring
    · ring
    · simp

/-- The flux that a parcel adds to a cell is `v c` times as large. -/
lemma parcelFlux_sim {z : Factors K} {nrm : K → K → K} {pw : K → K} (hz : Proper z nrm pw) (V dt dx : K) :
    z.a * z.a * V / 2 / (z.time * dt) / (z.a * dx) = z.v * z.c * (V / 2 / dt / dx) := by
  have ha := hz.a.ne'
  unfold Factors.time
  have e1 : z.a * z.a * V / 2 = (z.a * z.a) * (V / 2) := by ring
  have e2 : z.a / (z.v * z.c) * dt * (z.a * dx) = (z.a * z.a) * ((dt * dx) / (z.v * z.c)) := by ring
  rw [e1, div_div, e2, mul_div_mul_left _ _ (mul_ne_zero ha ha), div_div_eq_mul_div, div_div]
  ring

lemma fieldsAt_sim {z : Factors K} {P : Params L W m K} (hz : Proper z P.nrm P.pwBeta) (kind : Sed)
    (S : State L W K) (c0 c : Cell L W) (d : Fin 9) (res : K) :
    fieldsAt kind (simParams z P) (simState z S) c0 c d (z.a * z.a * res) =
      simState z (fieldsAt kind P S c0 c d res) := by
  cases kind
  · have hp := parcelFlux_sim hz res P.dt P.dx
    show partitionSand (simParams z P) (simState z S) c0 c d (z.a * z.a * res) =
      simState z (partitionSand P S c0 c d res)
    unfold partitionSand
    have e1 : (simParams z P).s2 = P.s2 := rfl
    have e2 : (simParams z P).dt = z.time * P.dt := rfl
    have e3 : (simParams z P).dx = z.a * P.dx := rfl
    have e4 : (simState z S).qs = times (z.v * z.c) S.qs := rfl
    simp only [e1, e2, e3, e4, hp]
    split_ifs
    · have u1 : Function.update (times (z.v * z.c) S.qs) c0
          (times (z.v * z.c) S.qs c0 + z.v * z.c * (res / 2 / P.dt / P.dx)) =
          times (z.v * z.c) (Function.update S.qs c0 (S.qs c0 + res / 2 / P.dt / P.dx)) := by
        rw [← update_times]
        congr 1
        unfold times
        ring
      rw [u1]
      have u2 : ∀ q : Grid L W K, Function.update (times (z.v * z.c) q) c
          (times (z.v * z.c) q c + z.v * z.c * (res / 2 / P.dt / P.dx)) =
          times (z.v * z.c) (Function.update q c (q c + res / 2 / P.dt / P.dx)) := by
        intro q
        rw [← update_times]
        congr 1
        unfold times
        ring
      rw [u2]
      rfl
    · rfl
  · rfl

lemma recordDeposit_sim {z : Factors K} (ha : 0 < z.a) (kind : Sed) (S : State L W K) (c : Cell L W) (v : K) :
    recordDeposit kind (simState z S) c (z.a * z.a * v) = simState z (recordDeposit kind S c v) := by
  have hu : ∀ q : Grid L W K, Function.update (times (z.a * z.a) q) c (times (z.a * z.a) q c + z.a * z.a * v) =
      times (z.a * z.a) (Function.update q c (q c + v)) := by
    intro q
    rw [← update_times]
    congr 1
    unfold times
    ring
  have e1 : (simState z S).depSand = times (z.a * z.a) S.depSand := rfl
  have e2 : (simState z S).depMud = times (z.a * z.a) S.depMud := rfl
  unfold recordDeposit
  simp only [pos_mul_pos (mul_pos ha ha), e1, e2, hu]
  split_ifs
  · cases kind <;> rfl
  · rfl

lemma updateFields_sim {z : Factors K} (ha : 0 < z.a) (hv : 0 < z.v) (P : Params L W m K) (S : State L W K)
    (c : Cell L W) (v : K) : updateFields (simParams z P) (simState z S) c (z.a * z.a * v) =
      simState z (updateFields P S c v) := by
  have h1 : (z.a * z.a * v) / ((simParams z P).dx * (simParams z P).dx) = v / (P.dx * P.dx) := by
    show _ / (z.a * P.dx * (z.a * P.dx)) = _
    have : z.a * P.dx * (z.a * P.dx) = (z.a * z.a) * (P.dx * P.dx) := by ring
    rw [this, mul_div_mul_left _ _ (mul_pos ha ha).ne']
  have h2 : ∀ d : K, (if d > 0 then min (simParams z P).uMax ((simState z S).qw c / d) else (simState z S).uw c) =
      z.v * (if d > 0 then min P.uMax (S.qw c / d) else S.uw c) := by
    intro d
    split_ifs
    · rw [mul_min_of_nonneg _ _ hv.le]
      show min (z.v * P.uMax) (z.v * S.qw c / d) = _
      rw [mul_div_assoc]
    · rfl
  have h3 : ∀ x y : K, (if (simState z S).qw c > 0 then z.v * x * (z.v * y) / (simState z S).qw c else 0) =
      z.v * (if S.qw c > 0 then x * y / S.qw c else 0) := by
    intro x y
    have e : ((simState z S).qw c > 0) = (S.qw c > 0) := propext (pos_mul_pos hv)
    simp only [e]
    split_ifs
    · show z.v * x * (z.v * y) / (z.v * S.qw c) = _
      rw [mul_assoc, mul_div_mul_left _ _ hv.ne', mul_left_comm, mul_div_assoc]
    · simp
  have e1 : (simState z S).eta = S.eta := rfl
  have e2 : (simState z S).stage = S.stage := rfl
  have e3 : (simState z S).qx c = z.v * S.qx c := rfl
  have e4 : (simState z S).qy c = z.v * S.qy c := rfl
  unfold updateFields
  simp only [h1, h2, e1, e2, e3, e4, h3]
  have u1 : (simState z S).uw = times z.v S.uw := rfl
  have u2 : (simState z S).ux = times z.v S.ux := rfl
  have u3 : (simState z S).uy = times z.v S.uy := rfl
  rw [u1, u2, u3, update_times, update_times, update_times]
  rfl

lemma sedBranches_sim {v : K} (hv : 0 < v) (w f : Fin 9 → K) :
    sedBranches (fun d => v * w d) f = sedBranches w f := by
  unfold sedBranches
  have h0 : (∑ d, v * w d = 0) = (∑ d, w d = 0) := by
    rw [← Finset.mul_sum]; simp [hv.ne']
  simp only [h0]
  by_cases h : ∑ d, w d = 0
  · simp only [if_pos h]
  · simp only [if_neg h]
    have e : (fun d : Fin 9 => if decide (d = 4) = true then (0 : K) else v * w d) =
        fun d => v * (if decide (d = 4) = true then 0 else w d) := by
      funext d
      split_ifs <;> simp
    have e' : ∀ d : Fin 9, (if decide (d = 4) = true then (0 : K) else v * w d) =
        v * (if decide (d = 4) = true then 0 else w d) := fun d => congrFun e d
    simp only [e', ← Finset.mul_sum, mul_div_mul_left _ _ hv.ne', mul_eq_zero, hv.ne', false_or]

/-- C92: sediment parcels have the same weights. -/
theorem C92_sediment_weights {v : K} (hv : 0 < v) (padD padM : Grid (L + 2) (W + 2) K)
    (padT : Grid (L + 2) (W + 2) ℤ) (qx qy : Grid L W K) (s2 s05 dry : K) (pw : K → K) (c : Cell L W) :
    sedWeights padD padM padT (times v qx) (times v qy) s2 s05 dry pw c =
      sedWeights padD padM padT qx qy s2 s05 dry pw c := by
  have hi : weightInt (times v qx c) (times v qy c) s05 s2 = fun d => v * weightInt (qx c) (qy c) s05 s2 d :=
    weightInt_sim hv _ _ _ _
  have key : ∀ (wInt depthN modN : Fin 9 → K) (ctN : Fin 9 → ℤ),
      sedWeightAtCell wInt depthN modN ctN dry pw (distances s2) =
      sedBranches (fun d => if (decide (depthN d ≤ dry) || decide (ctN d = -2)) = true then 0 else
        if decide (d = 4) = true then 0 else pw (depthN d * modN d) * (if decide (d = 4) = true then 0 else wInt d))
        (fun d => if decide (ctN d = -2) = true then 0 else 1 / distances s2 d) := fun _ _ _ _ => rfl
  unfold sedWeights
  rw [hi, key, key]
  conv_rhs => rw [← sedBranches_sim hv]
  congr 1
  funext d
  split_ifs <;> ring

/-- The router of the similar basin. -/
def simSt (z : Factors K) (st : SedSt L W K) : SedSt L W K := { st with S := simState z st.S }

lemma sedStep_sim [NeZero L] [NeZero W] (g : Rng K σ) {z : Factors K} {P : Params L W m K}
    (hz : Proper z P.nrm P.pwBeta) (kind : Sed) (st : SedSt L W K) (px py : ℤ) (res : K) (s : σ) :
    sedStep g kind (simParams z P) (simSt z st) px py (z.a * z.a * res) s =
      (sedStep g kind P st px py res s).map fun x =>
        (simSt z x.1, z.a * z.a * x.2.1, simRec z x.2.2.1, x.2.2.2) := by
  have hc : chooseNext g kind (simParams z P) (simSt z st) px py s = chooseNext g kind P st px py s := by
    unfold chooseNext
    have e1 : (simSt z st).S.qx = times z.v st.S.qx := rfl
    have e2 : (simSt z st).S.qy = times z.v st.S.qy := rfl
    simp only [e1, e2, C92_sediment_weights hz.v]
    rfl
  unfold sedStep
  rw [hc]
  cases chooseNext g kind P st px py s with
  | error e => rfl
  | ok r =>
    obtain ⟨c0, d, s1⟩ := r
    have hS : (simSt z st).S = simState z st.S := rfl
    simp only [hS, fieldsAt_sim hz, C92_volume hz, recordDeposit_sim hz.a, updateFields_sim hz.a hz.v]
    cases pyCell L W (px + jwalk d) (py + iwalk d) with
    | none => rfl
    | some c =>
      cases pyCell (L + 2) (W + 2) (px + jwalk d + 1) (py + iwalk d + 1) with
      | none => rfl
      | some cp =>
        simp only [Except.map, ← mul_sub]
        rfl

lemma sedLoop_sim [NeZero L] [NeZero W] (g : Rng K σ) {z : Factors K} {P : Params L W m K}
    (hz : Proper z P.nrm P.pwBeta) (kind : Sed) (n : ℕ) :
    ∀ (st : SedSt L W K) (px py : ℤ) (res : K) (s : σ),
      sedLoop g kind (simParams z P) n (simSt z st) px py (z.a * z.a * res) s =
      (sedLoop g kind P n st px py res s).map fun x =>
        (simSt z x.1, z.a * z.a * x.2.1, x.2.2.1.map (simRec z), x.2.2.2) := by
  induction n with
  | zero => intro st px py res s; rfl
  | succ n ih =>
    intro st px py res s
    rw [sedLoop, sedLoop, sedStep_sim g hz]
    cases sedStep g kind P st px py res s with
    | error e => rfl
    | ok r =>
      obtain ⟨st1, res1, r, s1⟩ := r
      simp only [Except.map]
      have h1 : (simRec z r).cell = r.cell := rfl
      have h2 : (simRec z r).new = r.new := rfl
      have h3 : (simParams z P).cellType = P.cellType := rfl
      rw [h1, h2, h3, ih]
      split_ifs
      · rfl
      · cases sedLoop g kind P n st1 r.new.1 r.new.2 res1 s1 <;> rfl

lemma sedParcels_sim [NeZero L] [NeZero W] (g : Rng K σ) {z : Factors K} {P : Params L W m K}
    (hz : Proper z P.nrm P.pwBeta) (kind : Sed) :
    ∀ (pys : List ℤ) (st : SedSt L W K) (s : σ), sedParcels g kind (simParams z P) pys (simSt z st) s =
      (sedParcels g kind P pys st s).map fun x => (simSt z x.1, x.2.1.map (simSed z), x.2.2) := by
  intro pys
  induction pys with
  | nil => intro st s; rfl
  | cons py pys ih =>
    intro st s
    rw [sedParcels, sedParcels]
    cases pyCell L W 0 py with
    | none => rfl
    | some c =>
      have he : enterState kind (simParams z P) (simSt z st) c = simSt z (enterState kind P st c) := by
        cases kind
        · show ({ simSt z st with S := enterSand (simParams z P) (simState z st.S) c } : SedSt L W K) =
            { st with S := simState z (enterSand P st.S c) }
          have hp := parcelFlux_sim hz P.VpSed P.dt P.dx
          have u : Function.update (times (z.v * z.c) st.S.qs) c
              (times (z.v * z.c) st.S.qs c + z.a * z.a * P.VpSed / 2 / (z.time * P.dt) / (z.a * P.dx)) =
              times (z.v * z.c) (Function.update st.S.qs c (st.S.qs c + P.VpSed / 2 / P.dt / P.dx)) := by
            rw [hp, ← update_times]
            congr 1
            unfold times
            ring
          have e : enterSand (simParams z P) (simState z st.S) c = simState z (enterSand P st.S c) := by
            unfold enterSand
            have e4 : (simState z st.S).qs = times (z.v * z.c) st.S.qs := rfl
            have e5 : (simParams z P).VpSed = z.a * z.a * P.VpSed := rfl
            have e6 : (simParams z P).dt = z.time * P.dt := rfl
            have e7 : (simParams z P).dx = z.a * P.dx := rfl
            rw [e4, e5, e6, e7, u]
            rfl
          rw [e]
          rfl
        · rfl
      have e5 : (simParams z P).VpSed = z.a * z.a * P.VpSed := rfl
      have e6 : (simParams z P).stepmax = P.stepmax := rfl
      simp only [he, e5, e6, sedLoop_sim g hz]
      cases sedLoop g kind P P.stepmax (enterState kind P st c) 0 py P.VpSed s with
      | error e => rfl
      | ok r =>
        obtain ⟨st2, res, rs, s1⟩ := r
        simp only [Except.map, ih]
        cases sedParcels g kind P pys st2 s1 <;> rfl

/-- C92: all sediment parcels of a kind go the same way and leave the bed the same; volumes are `a²` times
as large. -/
theorem C92_parcels [NeZero L] [NeZero W] [FloorRing K] (g : Rng K σ) {z : Factors K} {P : Params L W m K}
    (hz : Proper z P.nrm P.pwBeta) (kind : Sed) (S : State L W K) (s : σ) :
    routeParcels g kind (simParams z P) (simState z S) s =
      (routeParcels g kind P S s).map fun x => (simState z x.1, x.2.1.map (simSed z), x.2.2) := by
  have hn : numStarts kind (simParams z P) = numStarts kind P := by cases kind <;> rfl
  have hi : (simParams z P).inlet = P.inlet := rfl
  unfold routeParcels
  simp only [hn, hi]
  cases getStartIndices (fun i => ((P.inlet i).val : ℤ))
      (getInletWeights (fun i => ((P.inlet i).val : ℤ)) : Fin m → K) (drawN g (numStarts kind P) s).1 with
  | none => rfl
  | some starts =>
    have := sedParcels_sim g hz kind starts ⟨S, customPad S.depth⟩ (drawN g (numStarts kind P) s).2
    have e : (⟨simState z S, customPad (simState z S).depth⟩ : SedSt L W K) =
        simSt z ⟨S, customPad S.depth⟩ := rfl
    simp only [e, this]
    cases sedParcels g kind P starts ⟨S, customPad S.depth⟩ (drawN g (numStarts kind P) s).2 <;> rfl

lemma convolve_times (k : K) (ker : Fin 9 → K) (f : Grid L W K) :
    convolve ker (times k f) = times k (convolve ker f) := by
  have h : ∀ i j, at0 (times k f) i j = k * at0 f i j := by
    intro i j
    unfold at0
    cases cellAt L W i j with
    | none => simp
    | some c => rfl
  funext c
  unfold convolve times
  rw [Finset.mul_sum]
  refine Finset.sum_congr rfl fun d _ => ?_
  have := h ((c.1.val : ℤ) - ((d.val / 3 : ℕ) - 1)) ((c.2.val : ℤ) - ((d.val % 3 : ℕ) - 1))
  unfold times at this
  rw [this]
  ring

/-- C92: diffusion is the same. -/
theorem C92_diffusion {k : K} (hk : k ≠ 0) (cellType : Grid L W ℤ) (mult : K) (qs : Grid L W K) (n : ℕ)
    (eta : Grid L W K) :
    topoDiffusion cellType (mult / k) (times k qs) n eta = topoDiffusion cellType mult qs n eta := by
  have h : ∀ eta, diffusionChange cellType (mult / k) (times k qs) eta = diffusionChange cellType mult qs eta := by
    intro eta
    have e : (fun x => times k qs x * eta x) = times k (fun x => qs x * eta x) := by
      funext x; unfold times; ring
    unfold diffusionChange
    simp only [e, convolve_times]
    have : (fun x => mult / k * (times k qs x * convolve kernel1 eta x - eta x * times k (convolve kernel2 qs) x +
        times k (convolve kernel2 fun x => qs x * eta x) x)) = fun x => mult * (qs x * convolve kernel1 eta x -
        eta x * convolve kernel2 qs x + convolve kernel2 (fun x => qs x * eta x) x) := by
      funext x
      unfold times
      field_simp
    rw [this]
  induction n generalizing eta with
  | zero => rfl
  | succ n ih => rw [topoDiffusion, topoDiffusion, h, ih]

/-- C92: the sediment routing of a timestep. -/
theorem C92_sediment [NeZero L] [NeZero W] [FloorRing K] (g : Rng K σ) {z : Factors K} {P : Params L W m K}
    (hz : Proper z P.nrm P.pwBeta) (S : State L W K) (s : σ) :
    routeSediment g (simParams z P) (simState z S) s = (routeSediment g P S s).map fun x =>
      (simState z x.1, x.2.1.map (simSed z), x.2.2.1.map (simSed z), x.2.2.2) := by
  unfold routeSediment
  have e0 : initSediment (simState z S) = simState z (initSediment S) := by
    unfold initSediment simState times
    simp
  rw [e0, C92_parcels g hz]
  cases routeParcels g .sand P (initSediment S) s with
  | error e => rfl
  | ok r =>
    obtain ⟨S1, sand, s1⟩ := r
    simp only [Except.map]
    have hd : topoDiffusion (simParams z P).cellType (simParams z P).diffMult (simState z S1).qs
        (simParams z P).Ncross (simState z S1).eta = topoDiffusion P.cellType P.diffMult S1.qs P.Ncross S1.eta :=
      C92_diffusion (mul_pos hz.v hz.c).ne' _ _ _ _ _
    rw [hd]
    generalize topoDiffusion P.cellType P.diffMult S1.qs P.Ncross S1.eta = D
    have e1 : ({ simState z S1 with eta := D } : State L W K) = simState z { S1 with eta := D } := rfl
    rw [e1, C92_parcels g hz]
    cases routeParcels g .mud P { S1 with eta := D } s1 <;> rfl

/-! ### The end of a timestep, and runs -/

/-- The amounts of mud that count as a deposit are the same: more than a millionth of a cubic meter. -/
def SameMud (z : Factors K) (S : State L W K) : Prop :=
  ∀ c, 1 / 1000000 < z.a * z.a * S.depMud c ↔ 1 / 1000000 < S.depMud c

lemma computeSandFrac_sim {z : Factors K} (ha : 0 < z.a) (P : Params L W m K) (eta0 : Grid L W K)
    (S : State L W K) (h : SameMud z S) :
    computeSandFrac (simParams z P) eta0 (simState z S) = simState z (computeSandFrac P eta0 S) := by
  have e1 : ∀ c, ((simState z S).depSand c > 0) = (S.depSand c > 0) := fun c =>
    propext (pos_mul_pos (mul_pos ha ha))
  have e2 : ∀ c, ((simState z S).depMud c > 1 / 1000000) = (S.depMud c > 1 / 1000000) := fun c => propext (h c)
  have e3 : (fun c => (simState z S).depSand c / ((simState z S).depMud c + (simState z S).depSand c)) =
      fun c => S.depSand c / (S.depMud c + S.depSand c) := by
    funext c
    show z.a * z.a * S.depSand c / (z.a * z.a * S.depMud c + z.a * z.a * S.depSand c) = _
    rw [← mul_add, mul_div_mul_left _ _ (mul_pos ha ha).ne']
  unfold computeSandFrac
  simp only [e1, e2, e3]
  rfl

/-- C92: the end of a timestep. -/
theorem C92_end [NeZero L] [NeZero W] {z : Factors K} {P : Params L W m K} (hz : Proper z P.nrm P.pwBeta)
    (eta0 : Grid L W K) (S : State L W K) (h : SameMud z S) :
    finalizeTimestep (simParams z P) eta0 (applySubsidence (simParams z P) (simState z S)) =
      simState z (finalizeTimestep P eta0 (applySubsidence P S)) := by
  have ht := time_pos hz
  have hs : applySubsidence (simParams z P) (simState z S) = simState z (applySubsidence P S) := by
    have e : ((simParams z P).startSub ≤ (simState z S).time) = (P.startSub ≤ S.time) := by
      show (z.time * P.startSub ≤ z.time * S.time) = _
      rw [mul_le_mul_iff_right₀ ht]
    unfold applySubsidence
    simp only [e]
    have e2 : (simParams z P).toggleSub = P.toggleSub := rfl
    rw [e2]
    split_ifs <;> rfl
  rw [hs]
  have h' : SameMud z (applySubsidence P S) := by
    intro c
    have : (applySubsidence P S).depMud = S.depMud := by
      unfold applySubsidence
      split_ifs <;> rfl
    rw [this]
    exact h c
  generalize applySubsidence P S = S at h'
  unfold finalizeTimestep
  simp only
  set F := floodingCorrection S.eta S.depth S.stage P.dryDepth with hF
  have e1 : floodingCorrection (simState z S).eta (simState z S).depth (simState z S).stage
      (simParams z P).dryDepth = F := rfl
  rw [e1]
  have e5 := computeSandFrac_sim hz.a P eta0 { S with
    stage := fun c => max (F c) S.HSL
    depth := assign (fun c => max (max (F c) S.HSL - S.eta c) 0) (isInlet P.inlet) (fun _ => P.h0)
    eta := assign S.eta (isInlet P.inlet) (fun c => max (F c) S.HSL - P.h0) } h'
  unfold simState at e5 ⊢
  simp only at e5 ⊢
  have e6 : (simParams z P).inlet = P.inlet := rfl
  have e7 : (simParams z P).h0 = P.h0 := rfl
  rw [e6, e7, e5]
  simp only
  congr 1
  show _ + P.SLR / z.time * (z.time * P.dt) = _ + P.SLR * P.dt
  rw [← mul_assoc, div_mul_cancel₀ _ ht.ne']

/-- C92: a timestep, with the same random numbers. -/
theorem C92_timestep [NeZero L] [NeZero W] [FloorRing K] (g : Rng K σ) {z : Factors K} {P : Params L W m K}
    (hz : Proper z P.nrm P.pwBeta) (S : State L W K) (s : σ)
    (h : ∀ S' l s', timestep g P S s = .ok (S', l, s') → SameMud z l.routed) :
    timestep g (simParams z P) (simState z S) s =
      (timestep g P S s).map fun x => (simState z x.1, simLog z x.2.1, x.2.2) := by
  unfold timestep at h ⊢
  rw [C92_water g hz]
  cases hw : routeWater g P S s with
  | error e => rfl
  | ok r =>
    obtain ⟨S1, s1⟩ := r
    rw [hw] at h
    simp only [Except.map, C92_sediment g hz] at h ⊢
    cases hr : routeSediment g P S1 s1 with
    | error e => rfl
    | ok r =>
      obtain ⟨S2, sand, mud, s2⟩ := r
      rw [hr] at h
      simp only [Except.map] at h ⊢
      have e := C92_end hz S.eta S2 (h _ _ _ rfl)
      have e0 : (simState z S).eta = S.eta := rfl
      rw [e0, e]
      unfold simState
      simp only [Except.ok.injEq, Prod.mk.injEq, State.mk.injEq, true_and, and_true]
      refine ⟨?_, rfl⟩
      show z.time * _ + z.time * P.dt = _
      rw [mul_add]

/-- C92: concentration and velocity only set the clock. A run of any length in which the water is `v` times
as fast and carries `c` times as much sediment, with rates of sea level and subsidence that are `v c` times as
large, goes through the same beds, surfaces and compositions, with the same errors and random numbers. -/
theorem C92_run [NeZero L] [NeZero W] [FloorRing K] (g : Rng K σ) {z : Factors K} (h1 : z.a = 1)
    {Ps : List (Params L W m K)} (hz : ∀ P ∈ Ps, Proper z P.nrm P.pwBeta) (S : State L W K) (s : σ) :
    timesteps g (Ps.map (simParams z)) (simState z S) s =
      (timesteps g Ps S s).map fun x => (simState z x.1, x.2.1.map (simLog z), x.2.2) := by
  induction Ps generalizing S s with
  | nil => rfl
  | cons P Ps ih =>
    rw [List.map_cons, timesteps, timesteps, C92_timestep g (hz P List.mem_cons_self) S s
      (fun S' l s' _ c => by rw [h1]; simp)]
    cases timestep g P S s with
    | error e => rfl
    | ok r =>
      obtain ⟨S1, l, s1⟩ := r
      simp only [Except.map]
      rw [ih (fun P hP => hz P (List.mem_cons_of_mem _ hP))]
      cases timesteps g Ps S1 s1 <;> rfl

/-- C92: a run in a basin `a` times as long and wide, with a slope `a` times as gentle.
Partial: asked is that no deposit of mud in a cell is on different sides of a millionth of a cubic meter in the
two basins, see `C92_mud_threshold`. -/
theorem C92_run_partial [NeZero L] [NeZero W] [FloorRing K] (g : Rng K σ) {z : Factors K}
    {Ps : List (Params L W m K)} (hz : ∀ P ∈ Ps, Proper z P.nrm P.pwBeta) {S S' : State L W K} {s s' : σ}
    {ls : List (StepLog L W K)} (h : timesteps g Ps S s = .ok (S', ls, s')) (hm : ∀ l ∈ ls, SameMud z l.routed) :
    timesteps g (Ps.map (simParams z)) (simState z S) s = .ok (simState z S', ls.map (simLog z), s') := by
  induction Ps generalizing S s ls with
  | nil =>
    simp only [timesteps, Except.ok.injEq, Prod.mk.injEq] at h
    obtain ⟨rfl, rfl, rfl⟩ := h
    rfl
  | cons P Ps ih =>
    obtain ⟨S1, l, s1, ls1, h1, h2, rfl⟩ := timesteps_cons h
    have t := C92_timestep g (hz P List.mem_cons_self) S s (fun S'' l' s'' h' => by
      rw [h1] at h'
      simp only [Except.ok.injEq, Prod.mk.injEq] at h'
      obtain ⟨-, rfl, -⟩ := h'
      exact hm l List.mem_cons_self)
    rw [h1] at t
    have r := ih (fun P hP => hz P (List.mem_cons_of_mem _ hP)) h2 (fun l hl => hm l (List.mem_cons_of_mem _ hl))
    rw [List.map_cons, timesteps, t]
    simp only [Except.map, r]
    rfl

/-! ### Created models -/

section Created

variable [FloorRing K]

/-- The derived quantities of the similar basin. -/
def simDerived (z : Factors K) (D : Derived K) : Derived K :=
  { D with
    uMax := z.v * D.uMax, C0 := z.c * D.C0, V0 := z.a * z.a * D.V0, Qw0 := z.v * z.a * D.Qw0
    qw0 := z.v * D.qw0, QpWater := z.v * z.a * D.QpWater, qs0 := z.v * z.c * D.qs0
    dVs := z.a * z.a * D.dVs, Qs0 := z.v * z.a * z.c * D.Qs0, VpSed := z.a * z.a * D.VpSed
    dt := z.time * D.dt, diffMult := D.diffMult / (z.v * z.c) }

/-- The similar model. -/
def simBuilt (z : Factors K) (B : Built K) : Built K := ⟨B.L, B.W, B.m, simParams z B.P, simState z B.S⟩

lemma validate_sim {z : Factors K} (ha : 0 < z.a) (hc : 0 < z.c) (I : Input K) :
    validate (simInput z I) = validate I := by
  have e1 : ∀ x : K, (z.a * x ≤ 0) = (x ≤ 0) := fun x => by
    rw [← not_lt, ← not_lt]
    exact congrArg Not (propext (pos_mul_pos ha))
  have e2 : ∀ x : K, (z.a * x < 0) = (x < 0) := fun x => by
    rw [mul_neg_iff]; simp [ha, ha.not_gt]
  have e3 : ∀ x y : K, (z.a * x < z.a * y) = (x < y) := fun x y => by
    rw [mul_lt_mul_iff_right₀ ha]
  have e4 : ∀ x : K, (z.c * x < 0) = (x < 0) := fun x => by
    rw [mul_neg_iff]; simp [hc, hc.not_gt]
  unfold validate simInput
  simp only [e1, e2, e3, e4]

lemma boundary_sim {z : Factors K} (ha : 0 < z.a) (hv : 0 < z.v) (hc : 0 < z.c) {I : Input K}
    (hg : z.v = 1 ∨ I.S0 = 0) (L W : ℤ) :
    boundaryConditions (simInput z I) L W = (boundaryConditions I L W).map (simDerived z) := by
  have ha' := ha.ne'
  have hv' := hv.ne'
  have hc' := hc.ne'
  have haa := mul_ne_zero ha' ha'
  have hvac := mul_ne_zero (mul_ne_zero hv' ha') hc'
  have f1 : (simInput z I).L0m / (simInput z I).dx = I.L0m / I.dx := mul_div_mul_left _ _ ha'
  have f2 : (simInput z I).N0m / (simInput z I).dx = I.N0m / I.dx := mul_div_mul_left _ _ ha'
  have f3 : (simInput z I).h0 * ((simInput z I).dx * (simInput z I).dx) = z.a * z.a * (I.h0 * (I.dx * I.dx)) := by
    show I.h0 * (z.a * I.dx * (z.a * I.dx)) = _
    ring
  have f4 : ∀ N : K, (simInput z I).u0 * (simInput z I).h0 * N * (simInput z I).dx =
      z.v * z.a * (I.u0 * I.h0 * N * I.dx) := by
    intro N
    show z.v * I.u0 * I.h0 * N * (z.a * I.dx) = _
    ring
  have f5 : (simInput z I).C0pct * 1 / 100 = z.c * (I.C0pct * 1 / 100) := by
    show z.c * I.C0pct * 1 / 100 = _
    ring
  have f6 : ∀ q C : K, z.v * z.a * q * (z.c * C) = z.v * z.a * z.c * (q * C) := fun q C => by ring
  have f7 : ∀ n V : K, 1 / 10 * (n * n) * (z.a * z.a * V) = z.a * z.a * (1 / 10 * (n * n) * V) := fun n V => by ring
  have f8 : ∀ x y : K, z.a * z.a * x / (z.v * z.a * z.c * y) = z.time * (x / y) := by
    intro x y
    unfold Factors.time
    have : z.v * z.a * z.c * y = z.a * (z.v * z.c * y) := by ring
    rw [this, mul_assoc z.a z.a x, mul_div_mul_left _ _ ha', mul_div_mul_comm]
  have f9 : ∀ x y : K, z.a * z.a * x / (z.a * z.a * y) = x / y := fun x y => mul_div_mul_left _ _ haa
  have f10 : ((simInput z I).u0 = 0) = (I.u0 = 0) := by
    show (z.v * I.u0 = 0) = _
    simp [hv']
  have f11 : ∀ y : K, (z.v * z.a * z.c * y = 0) = (y = 0) := fun y => by simp [hv', ha', hc']
  have f12 : ∀ y : K, (z.a * z.a * y = 0) = (y = 0) := fun y => by simp [ha']
  have f13 : 981 / 100 * (simInput z I).S0 * (simInput z I).dx / ((simInput z I).u0 * (simInput z I).u0) =
      981 / 100 * I.S0 * I.dx / (I.u0 * I.u0) := by
    show 981 / 100 * (I.S0 / z.a) * (z.a * I.dx) / (z.v * I.u0 * (z.v * I.u0)) = _
    rcases hg with hg | hg
    · rw [hg, one_mul]
      congr 1
      field_simp
    · rw [hg]; simp
  have f14 : ∀ t n : K, z.time * t / n * (simInput z I).alpha * (1 / 2) / ((simInput z I).dx * (simInput z I).dx) =
      t / n * I.alpha * (1 / 2) / (I.dx * I.dx) / (z.v * z.c) := by
    intro t n
    show z.time * t / n * (z.a * I.alpha) * (1 / 2) / (z.a * I.dx * (z.a * I.dx)) = _
    have e1 : z.time * t / n * (z.a * I.alpha) * (1 / 2) =
        z.a * z.a * (t / n * I.alpha * (1 / 2) / (z.v * z.c)) := by
      unfold Factors.time
      ring
    have e2 : z.a * I.dx * (z.a * I.dx) = z.a * z.a * (I.dx * I.dx) := by ring
    rw [e1, e2, f9, div_right_comm]
  have f15 : (simInput z I).u0 * (simInput z I).h0 = z.v * (I.u0 * I.h0) := mul_assoc _ _ _
  have f16 : 2 * (simInput z I).u0 = z.v * (2 * I.u0) := mul_left_comm _ _ _
  have f17 : ∀ x y : K, z.v * x * (z.c * y) = z.v * z.c * (x * y) := fun x y => by ring
  have g1 : (simInput z I).h0 = I.h0 := rfl
  have g2 : (simInput z I).NpWater = I.NpWater := rfl
  have g3 : (simInput z I).NpSed = I.NpSed := rfl
  have g4 : (simInput z I).stepmax = I.stepmax := rfl
  have g5 : (simInput z I).itermax = I.itermax := rfl
  have g6 : (simInput z I).sedLag = I.sedLag := rfl
  unfold boundaryConditions
  simp only [f1, f2, f3, f4, f5, f6, f7, f8, f9, f10, f11, f12, f13, f14]
  simp only [f15, f16, f17, g2, g3, g4, g5, g6]
  simp only [g1]
  split_ifs
  · rfl
  · simp only [Except.map, simDerived, mul_div_assoc]

lemma initialSigma_sim {z : Factors K} (ht : z.time ≠ 0) (I : Input K) (D : Derived K) (L W : ℕ) :
    initialSigma L W (simInput z I) (simDerived z D) = initialSigma L W I D := by
  unfold initialSigma
  have t : (simInput z I).toggleSub = I.toggleSub := rfl
  rw [t]
  split_ifs
  · funext c
    show _ * (I.subRate / z.time) * (z.time * D.dt) = _ * I.subRate * D.dt
    rw [mul_assoc, ← mul_assoc (I.subRate / z.time), div_mul_cancel₀ _ ht, mul_assoc]
    rfl
  · rfl

lemma initialParams_sim {z : Factors K} (ht : z.time ≠ 0) (O : Oracle K) (I : Input K) (D : Derived K) {L W : ℕ}
    (CTR : ℤ) (ct : Grid L W ℤ) :
    initialParams CTR ct O (simInput z I) (simDerived z D) = simParams z (initialParams CTR ct O I D) := by
  unfold initialParams
  rw [initialSigma_sim ht]
  have e1 : ∀ x : K, x * (simInput z I).u0 = z.v * (x * I.u0) := fun x => mul_left_comm _ _ _
  simp only [e1]
  rfl

lemma assign_times' (k : K) (f g : Grid L W K) (p : Cell L W → Bool) :
    assign (times k f) p (times k g) = times k (assign f p g) := by
  funext c
  simp only [assign, times]
  split_ifs <;> rfl

lemma assign_zero_times (k : K) (p : Cell L W → Bool) {f g : Grid L W K} (h : ∀ c, g c = k * f c) :
    assign (fun _ => 0) p g = times k (assign (fun _ => 0) p f) := by
  funext c
  simp only [assign, times, h]
  split_ifs
  · rfl
  · simp

lemma initialState_sim {z : Factors K} {O : Oracle K} {pw : K → K} (hz : Proper z O.nrm pw) (I : Input K)
    (D : Derived K) (L W : ℕ) (CTR : ℤ) :
    initialState L W CTR O (simInput z I) (simDerived z D) = simState z (initialState L W CTR O I D) := by
  have ha := hz.a.ne'
  have e1 : ∀ n : K, n * (simInput z I).dx * (simInput z I).S0 = n * I.dx * I.S0 := by
    intro n
    show n * (z.a * I.dx) * (I.S0 / z.a) = _
    field_simp
  have e2 : (fun _ => 0 : Grid L W K) = times z.v fun _ => 0 := by
    funext c; simp [times]
  have e3 : (fun _ => 0 : Grid L W K) = times (z.v * z.c) fun _ => 0 := by
    funext c; simp [times]
  have e4 : (fun _ => 0 : Grid L W K) = times (z.a * z.a) fun _ => 0 := by
    funext c; simp [times]
  have hq : ∀ (ch oc : Cell L W → Bool), assign (assign (fun _ => 0) ch fun _ => (simDerived z D).qw0) oc
      (fun _ => (simDerived z D).qw0 / 5) =
      times z.v (assign (assign (fun _ => 0) ch fun _ => D.qw0) oc fun _ => D.qw0 / 5) := by
    intro ch oc
    rw [← assign_times', ← assign_times', ← e2]
    congr 1
    funext c
    show z.v * D.qw0 / 5 = z.v * (D.qw0 / 5)
    rw [mul_div_assoc]
  have hn : ∀ (q : Grid L W K) (c : Cell L W), O.nrm (times z.v q c) 0 = z.v * O.nrm (q c) 0 := by
    intro q c
    have := hz.nrmScale (q c) 0
    rwa [mul_zero] at this
  unfold initialState
  simp only [e1, hq, hn]
  unfold simState
  simp only [State.mk.injEq]
  refine ⟨rfl, rfl, rfl, rfl, e2, rfl, ?_, ?_, ?_, e3, e4, e4, rfl, rfl, rfl, ?_, trivial, rfl⟩
  · exact assign_zero_times _ _ fun c => mul_div_assoc _ _ _
  · exact assign_zero_times _ _ fun c => by simp
  · exact assign_zero_times _ _ fun c => mul_div_assoc _ _ _
  · show (0 : K) = z.time * 0
    rw [mul_zero]

/-- C92: the configuration of a similar basin gives the similar model, or the same refusal. Velocities may
change only without a slope of the water surface, whose pull is compared to the velocity. -/
theorem C92_created {z : Factors K} (O : Oracle K) {I : Input K} (hz : Proper z O.nrm fun x => O.pow x I.beta)
    (hg : z.v = 1 ∨ I.S0 = 0) : create O (simInput z I) = (create O I).map (simBuilt z) := by
  have ha := hz.a
  have ha' := ha.ne'
  have h1 : cellsAlong (simInput z I).Length (simInput z I).dx = cellsAlong I.Length I.dx := by
    unfold cellsAlong
    congr 1
    exact mul_div_mul_left _ _ ha'
  have h2 : cellsAlong (simInput z I).Width (simInput z I).dx = cellsAlong I.Width I.dx := by
    unfold cellsAlong
    congr 1
    exact mul_div_mul_left _ _ ha'
  unfold create
  rw [validate_sim ha hz.c, h1, h2]
  cases validate I with
  | error e => rfl
  | ok u =>
    simp only
    rw [boundary_sim ha hz.v hz.c hg]
    cases boundaryConditions I (cellsAlong I.Length I.dx) (cellsAlong I.Width I.dx) with
    | error e => rfl
    | ok D =>
      simp only [Except.map]
      rw [initialParams_sim (time_pos hz).ne', initialState_sim hz]
      have e0 : (simDerived z D).sizeInd = D.sizeInd := rfl
      have e1 : (simDerived z D).L0 = D.L0 := rfl
      have e2 : (simDerived z D).N0 = D.N0 := rfl
      rw [e0, e1, e2]
      split_ifs
      · rfl
      · rfl

/-- C92: concentration and velocity only set the clock, from configuration to result. If the water carries `c`
times as much sediment, is `v` times as fast (with a slope, `v = 1`), and rates of sea level and subsidence are
`v c` times as large, then after any number of timesteps with the same random numbers bed, surface, depth, sea
level and composition are the same, `v c` times as early. -/
theorem C92_model {z : Factors K} (h1 : z.a = 1) (O : Oracle K) {I : Input K}
    (hz : Proper z O.nrm fun x => O.pow x I.beta) (hg : z.v = 1 ∨ I.S0 = 0) [NeZero L] [NeZero W]
    {P : Params L W m K} {S : State L W K} (h : create O I = .ok ⟨L, W, m, P, S⟩) (g : Rng K σ) :
    ∃ P' S', create O (simInput z I) = .ok ⟨L, W, m, P', S'⟩ ∧
      ∀ n s, (∀ e, timesteps g (List.replicate n P) S s = .error e →
          timesteps g (List.replicate n P') S' s = .error e) ∧
        ∀ S1 ls s1, timesteps g (List.replicate n P) S s = .ok (S1, ls, s1) →
          ∃ S1' ls', timesteps g (List.replicate n P') S' s = .ok (S1', ls', s1) ∧ S1'.eta = S1.eta ∧
            S1'.stage = S1.stage ∧ S1'.depth = S1.depth ∧ S1'.HSL = S1.HSL ∧ S1'.sandFrac = S1.sandFrac ∧
            S1'.activeLayer = S1.activeLayer ∧ S1'.timeIter = S1.timeIter ∧ S1'.time = S1.time / (z.v * z.c) ∧
            ∀ c, S1'.uw c = z.v * S1.uw c := by
  have hc := C92_created O hz hg
  rw [h] at hc
  refine ⟨simParams z P, simState z S, hc, fun n s => ?_⟩
  have hP : P.nrm = O.nrm ∧ P.pwBeta = fun x => O.pow x I.beta := by
    unfold create at h
    cases hv : validate I with
    | error e => rw [hv] at h; simp at h
    | ok u =>
      rw [hv] at h
      simp only at h
      cases hb : boundaryConditions I (cellsAlong I.Length I.dx) (cellsAlong I.Width I.dx) with
      | error e => rw [hb] at h; simp at h
      | ok D =>
        rw [hb] at h
        simp only at h
        split_ifs at h
        simp only [Except.ok.injEq, Built.mk.injEq] at h
        obtain ⟨rfl, rfl, rfl, hP, -⟩ := h
        obtain rfl := eq_of_heq hP
        exact ⟨rfl, rfl⟩
  have hz' : Proper z P.nrm P.pwBeta := by rw [hP.1, hP.2]; exact hz
  have hr := C92_run g h1 (Ps := List.replicate n P)
    (fun Q hQ => by rw [List.eq_of_mem_replicate hQ]; exact hz') S s
  rw [List.map_replicate] at hr
  rw [hr]
  refine ⟨fun e he => by rw [he]; rfl, fun S1 ls s1 hS => ?_⟩
  rw [hS]
  refine ⟨_, _, rfl, rfl, rfl, rfl, rfl, rfl, rfl, rfl, ?_, fun c => rfl⟩
  show z.time * S1.time = _
  unfold Factors.time
  rw [h1]
  ring

lemma create_dx {O : Oracle K} {I : Input K} {B : Built K} (h : create O I = .ok B) : B.P.dx = I.dx := by
  unfold create at h
  cases hv : validate I with
  | error e => rw [hv] at h; simp at h
  | ok u =>
    rw [hv] at h
    simp only at h
    cases hb : boundaryConditions I (cellsAlong I.Length I.dx) (cellsAlong I.Width I.dx) with
    | error e => rw [hb] at h; simp at h
    | ok D =>
      rw [hb] at h
      simp only at h
      split_ifs at h
      simp only [Except.ok.injEq] at h
      subst h
      rfl

/-- C92: with a slope, velocities matter: the pull of gravity on the water is `v²` times weaker. -/
theorem C92_slope {z : Factors K} (ha : 0 < z.a) (hv : 0 < z.v) (hv1 : z.v ≠ 1) {O : Oracle K}
    {I : Input K} {B B' : Built K} (h : create O I = .ok B) (h' : create O (simInput z I) = .ok B') :
    B.P.gamma = z.v * z.v * B'.P.gamma ∧ (I.S0 ≠ 0 → B.P.gamma ≠ B'.P.gamma) := by
  have key : ∀ {J : Input K} {C : Built K}, create O J = .ok C →
      C.P.gamma = 981 / 100 * J.S0 * J.dx / (J.u0 * J.u0) ∧ 0 < J.dx ∧ J.u0 ≠ 0 := by
    intro J C hC
    have hv' : validate J = .ok () := by
      unfold create at hC
      cases hv : validate J with
      | error e => rw [hv] at hC; simp at hC
      | ok u => rfl
    have hacc := (C50_validate _).1 hv'
    unfold create at hC
    rw [hv'] at hC
    simp only at hC
    unfold boundaryConditions at hC
    simp only at hC
    split_ifs at hC with h1
    simp only at hC
    split_ifs at hC with h2
    · simp only [Except.ok.injEq] at hC
      subst hC
      exact ⟨rfl, hacc.dx, fun h0 => h1 (Or.inl h0)⟩
  obtain ⟨g1, d1, u1⟩ := key h
  obtain ⟨g2, -, -⟩ := key h'
  have e : B.P.gamma = z.v * z.v * B'.P.gamma := by
    rw [g1, g2]
    show _ = z.v * z.v * (981 / 100 * (I.S0 / z.a) * (z.a * I.dx) / (z.v * I.u0 * (z.v * I.u0)))
    have := ha.ne'
    have := hv.ne'
    field_simp
  refine ⟨e, fun hS he => ?_⟩
  have hB : B.P.gamma ≠ 0 := by
    rw [g1]
    have := d1.ne'
    positivity
  rw [← he] at e
  have : z.v * z.v = 1 := by
    have := mul_right_cancel₀ hB (e.symm.trans (one_mul _).symm)
    exact this
  rcases mul_self_eq_one_iff.1 this with h | h
  · exact hv1 h
  · rw [h] at hv
    linarith

end Created

/-- C92, where it fails: mud counts as a deposit from a millionth of a cubic meter, whatever the size of a cell.
In a cell that is not eroded and has mud only, the same deposit per area changes the composition of the bed in
the large basin but not in the small one. -/
theorem C92_mud_threshold [NeZero L] [NeZero W] {z : Factors K} (P : Params L W m K) (eta0 : Grid L W K) (S : State L W K) (c : Cell L W)
    (h1 : 1 / 1000000 < S.depMud c) (h2 : z.a * z.a * S.depMud c ≤ 1 / 1000000) (hs : S.depSand c = 0)
    (he : eta0 c ≤ S.eta c) (ht : 0 ≤ P.actThick) :
    (computeSandFrac P eta0 S).sandFrac c = 0 ∧
      (computeSandFrac (simParams z P) eta0 (simState z S)).sandFrac c = S.sandFrac c := by
  constructor
  · have ha : anyCell (fun c => decide (S.depSand c > 0) || decide (S.depMud c > 1 / 1000000)) = true :=
      (anyCell_iff _).2 ⟨c, by simp only [hs, gt_iff_lt, h1]; simp⟩
    unfold computeSandFrac
    simp only [ha, if_true]
    simp only [assign, hs, gt_iff_lt, h1]
    simp
  · have e1 : ((simState z S).depSand c > 0) = False := by
      show (z.a * z.a * S.depSand c > 0) = False
      rw [hs]; simp
    have e2 : ((simState z S).depMud c > 1 / 1000000) = False := by
      show (z.a * z.a * S.depMud c > 1 / 1000000) = False
      exact eq_false (not_lt.2 h2)
    have e3 : ((simState z S).eta c - eta0 c < 0) = False := eq_false (by
      show ¬ S.eta c - eta0 c < 0
      linarith)
    have e4 : ((simState z S).eta c < eta0 c - (simParams z P).actThick) = False := eq_false (by
      show ¬ S.eta c < eta0 c - P.actThick
      linarith)
    have h0 : (simState z S).sandFrac c = S.sandFrac c := rfl
    rw [← h0]
    unfold computeSandFrac
    simp only
    split_ifs <;> simp only [assign, e1, e2, e3, e4] <;> simp

/-! ### Examples -/

/-- Half the distances, the same velocity, three times the concentration. -/
def exFactors : Factors ℚ := ⟨1 / 2, 1, 3⟩

lemma exProper (z : Factors ℚ) (ha : 0 < z.a) (hv : 0 < z.v) (hc : 0 < z.c) (b : ℚ) :
    Proper z exOracle.nrm fun x => exOracle.pow x b where
  a := ha
  v := hv
  c := hc
  nrmScale := fun x y => by
    show |z.v * x| + |z.v * y| = z.v * (|x| + |y|)
    rw [abs_mul, abs_mul, abs_of_pos hv, mul_add]
  nrmZero := fun x y h => by
    change |x| + |y| ≤ 0 at h
    have h1 := abs_nonneg x
    have h2 := abs_nonneg y
    exact ⟨abs_eq_zero.1 (by linarith), abs_eq_zero.1 (by linarith)⟩
  pw := ⟨z.v * z.v, (mul_pos hv hv).ne', fun x => by
    show z.v * x * (z.v * x) = z.v * z.v * (x * x)
    ring⟩

-- C92_created: the default configuration at half its scale with three times the sediment is accepted
example : ∃ B, create exOracle (simInput exFactors exInput) = .ok B ∧ B.P.dx = 25 ∧ B.L = 100 := by
  obtain ⟨L, W, m, iL, iW, P, S, h, -⟩ := C74_created exOracleOk exRunnable
  have hc := C92_created exOracle (I := exInput) (z := exFactors)
    (exProper _ (by norm_num [exFactors]) (by norm_num [exFactors]) (by norm_num [exFactors]) _)
    (Or.inl rfl)
  obtain ⟨s1, s2, s3, s4⟩ := create_size h
  have e1 : cellsAlong exInput.Length exInput.dx = 100 := by decide +kernel
  rw [e1] at s3
  simp only at s3
  rw [h] at hc
  refine ⟨_, hc, ?_, ?_⟩
  · show 1 / 2 * P.dx = 25
    have : P.dx = 50 := by
      exact create_dx h
    rw [this]
    norm_num
  · show L = 100
    omega

-- C92_model: the default configuration with three times the concentration: a hundred timesteps, all of which
-- succeed, give the same bed in a third of the time
example : ∃ (L W m : ℕ) (_ : NeZero L) (_ : NeZero W) (P P' : Params L W m ℚ) (S S' : State L W ℚ),
    create exOracle exInput = .ok ⟨L, W, m, P, S⟩ ∧
      create exOracle (simInput ⟨1, 1, 3⟩ exInput) = .ok ⟨L, W, m, P', S'⟩ ∧
      ∃ S1 ls s1 S1' ls', timesteps constRng (List.replicate 100 P) S () = .ok (S1, ls, s1) ∧
        timesteps constRng (List.replicate 100 P') S' () = .ok (S1', ls', s1) ∧ S1'.eta = S1.eta ∧
        S1'.time = S1.time / 3 := by
  obtain ⟨L, W, m, iL, iW, P, S, h, w1, w2, w3, w4, w5, w6, -⟩ := C74_created exOracleOk exRunnable
  obtain ⟨P', S', h1, h2⟩ := C92_model (z := ⟨1, 1, 3⟩) rfl exOracle (I := exInput)
    (exProper _ (by norm_num) (by norm_num) (by norm_num) _) (Or.inl rfl) h constRng
  obtain ⟨S1, ls, s1, r⟩ := C71_run exPositive (Ps := List.replicate 100 P) (by
    intro Q hQ
    rw [List.eq_of_mem_replicate hQ]
    exact ⟨w1, w2, w4.h0⟩) w5 w6 ()
  obtain ⟨S1', ls', r', e1, -, -, -, -, -, -, e2, -⟩ := (h2 100 ()).2 S1 ls s1 r
  refine ⟨L, W, m, iL, iW, P, P', S, S', h, h1, S1, ls, s1, S1', ls', r, r', e1, ?_⟩
  rw [e2]
  norm_num

-- C92_mud_threshold
example : ∃ S : State 4 3 ℚ, ∃ c, (computeSandFrac exParams exState.eta S).sandFrac c = 0 ∧
    (computeSandFrac (simParams exFactors exParams) exState.eta (simState exFactors S)).sandFrac c = 1 / 2 := by
  refine ⟨{ exState with depSand := fun _ => 0, depMud := fun _ => 2 / 1000000, sandFrac := fun _ => 1 / 2 },
    (2, 1), C92_mud_threshold exParams _ _ _ ?_ ?_ rfl ?_ ?_⟩
  all_goals norm_num [exFactors, exState, exParams]

end Verif.Props
