import Verif.Props.Similar
import Verif.Props.FloatPassive
import Verif.Props.FloatDefined

/-!
# C129: similar basins to the last digit

As C92, in rounded arithmetic: a factor by which rounding does not mind being multiplied, such as a power of two
for binary digits.
-/

set_option linter.unusedSectionVars false
set_option linter.unusedSimpArgs false

namespace Verif.Props

open Verif.Model Verif.Lemmas Verif.Spec

variable {K : Type} [Field K] [LinearOrder K] [IsStrictOrderedRing K] {σ : Type*} {L W m : ℕ}

/-- Multiplication by `k` is exact: it only moves the binary point. -/
def PassesThrough (R : Rounding K) (k : K) : Prop := ∀ x, R.fl (k * x) = k * R.fl x

lemma PassesThrough.mul {R : Rounding K} {k l : K} (hk : PassesThrough R k) (hl : PassesThrough R l) : PassesThrough R (k * l) := fun x => by
  rw [mul_assoc, hk, hl, mul_assoc]

lemma PassesThrough.inv {R : Rounding K} {k : K} (h0 : k ≠ 0) (hk : PassesThrough R k) : PassesThrough R k⁻¹ := fun x => by
  have h := hk (k⁻¹ * x)
  rw [mul_inv_cancel_left₀ h0] at h
  rw [h, inv_mul_cancel_left₀ h0]

lemma PassesThrough.div {R : Rounding K} {k l : K} (hk : PassesThrough R k) (h0 : l ≠ 0) (hl : PassesThrough R l) : PassesThrough R (k / l) := by
  rw [div_eq_mul_inv]
  exact hk.mul (hl.inv h0)

/-- What is asked of the factors, of the root and of the power: as `Proper`, and products with the factors and with
the factor of the power are exact. -/
structure Exactly (F D : Rounding K) (z : Factors K) (nrm : K → K → K) (pw : K → K) : Prop where
  a : 0 < z.a
  v : 0 < z.v
  c : 0 < z.c
  Fa : PassesThrough F z.a
  Fv : PassesThrough F z.v
  Fc : PassesThrough F z.c
  Da : PassesThrough D z.a
  Dv : PassesThrough D z.v
  Dc : PassesThrough D z.c
  nrmScale : ∀ x y, nrm (z.v * x) (z.v * y) = z.v * nrm x y
  nrmZero : ∀ x y, nrm x y ≤ 0 → x = 0 ∧ y = 0
  pw : ∃ k, k ≠ 0 ∧ PassesThrough F k ∧ ∀ x, pw (z.v * x) = k * pw x

variable {F D : Rounding K}

/-! ### Water -/

lemma sumR_times {R : Rounding K} {k : K} (hk : PassesThrough R k) {n : ℕ} (w : Fin n → K) :
    sumR R (List.ofFn fun d => k * w d) = k * sumR R (List.ofFn w) := by
  have h : ∀ (l : List K) (a : K), (l.map fun x => k * x).foldl (fun a x => R.fl (a + x)) (k * a) =
      k * l.foldl (fun a x => R.fl (a + x)) a := by
    intro l
    induction l with
    | nil => intro a; rfl
    | cons x l ih =>
      intro a
      rw [List.map_cons, List.foldl_cons, List.foldl_cons, ← mul_add, hk, ih]
  have e : (List.ofFn fun d => k * w d) = (List.ofFn w).map fun x => k * x := by
    rw [List.map_ofFn]
    rfl
  unfold sumR
  rw [e, ← h, mul_zero]

lemma weightIntR_sim {v : K} (hv : 0 < v) (hF : PassesThrough F v) (qx qy s05 s2 : K) :
    weightIntR F (v * qx) (v * qy) s05 s2 = fun d => v * weightIntR F qx qy s05 s2 d := by
  funext d
  unfold weightIntR
  rw [mul_max_of_nonneg _ _ hv.le, mul_zero, mul_assoc, mul_assoc, hF, hF, ← mul_add, hF, mul_div_assoc, hF]

lemma weightIntR_nonneg (qx qy s05 s2 : K) (d : Fin 9) : 0 ≤ weightIntR F qx qy s05 s2 d := le_max_left _ _

lemma rebalanceR_sim {R : Rounding K} {v : K} (hv : 0 < v) (hR : PassesThrough R v) {w : Fin 9 → K} (hw : ∀ d, 0 ≤ w d) :
    rebalanceR R (fun d => v * w d) = rebalanceR R w := by
  unfold rebalanceR
  rw [sumR_times hR]
  by_cases h : 0 < sumR R (List.ofFn w)
  · rw [if_pos h, if_pos (mul_pos hv h)]
    funext d
    rw [mul_div_mul_left _ _ hv.ne']
  · rw [if_neg h, if_neg (by rw [mul_pos_iff_of_pos_left hv]; exact h)]
    funext d
    have h0 : w d = 0 := by
      rcases (hw d).lt_or_eq with h1 | h1
      · exact absurd (sumR_pos hw h1) h
      · exact h1.symm
    rw [h0, mul_zero]

lemma waterWeightAtCellR_sim {R : Rounding K} {v : K} (hv : 0 < v) (hR : PassesThrough R v) (row0 : Bool) (wSfc : Fin 9 → K)
    {wInt : Fin 9 → K} (hw : ∀ d, 0 ≤ wInt d) (depthN modN : Fin 9 → K) (ctN : Fin 9 → ℤ) (dryDepth gamma : K)
    (pw : K → K) :
    waterWeightAtCellR R row0 wSfc (fun d => v * wInt d) depthN modN ctN dryDepth gamma pw =
      waterWeightAtCellR R row0 wSfc wInt depthN modN ctN dryDepth gamma pw := by
  have e : (fun d : Fin 9 => if decide (d = 4) = true then (0 : K) else
      if (decide (depthN d < dryDepth) || decide (ctN d = -2)) = true then 0 else v * wInt d) =
      fun d => v * (if decide (d = 4) = true then 0 else
        if (decide (depthN d < dryDepth) || decide (ctN d = -2)) = true then 0 else wInt d) := by
    funext d
    split_ifs <;> simp
  unfold waterWeightAtCellR
  simp only
  rw [e, rebalanceR_sim hv hR]
  intro d
  split_ifs
  · exact le_rfl
  · exact le_rfl
  · exact hw d

/-- C129: water parcels have the same weights. -/
theorem C129_water_weights [NeZero L] [NeZero W] {z : Factors K} {P : Params L W m K}
    (hz : Exactly F D z P.nrm P.pwBeta) (S : State L W K) :
    waterWeightArrayR F D (simParams z P) (simState z S) = waterWeightArrayR F D P S := by
  have hf : waterWeightsR F D (simState z S).depth (simState z S).stage (simParams z P).modWater
      (simParams z P).cellType (simState z S).qx (simState z S).qy (simParams z P).s2 (simParams z P).s05
      (simParams z P).dryDepth (simParams z P).gamma (simParams z P).pwWater =
      waterWeightsR F D S.depth S.stage P.modWater P.cellType S.qx S.qy P.s2 P.s05 P.dryDepth P.gamma P.pwWater := by
    funext c
    unfold waterWeightsR
    have e : weightIntR F ((simState z S).qx c) ((simState z S).qy c) (F.fl (simParams z P).s05) (F.fl (simParams z P).s2) =
      fun d => z.v * weightIntR F (S.qx c) (S.qy c) (F.fl P.s05) (F.fl P.s2) d := weightIntR_sim hz.v hz.Fv _ _ _ _
    rw [e, waterWeightAtCellR_sim hz.v hz.Dv _ _ (weightIntR_nonneg _ _ _ _)]
    rfl
  unfold waterWeightArrayR
  simp only [hf]

/-- Two environments of the walk of water parcels that differ in the discharge of a parcel. -/
structure SimEnvR (D : Rounding K) (v : K) (E E' : WEnv L W K) : Prop where
  weights : E'.weights = E.weights
  cellType : E'.cellType = E.cellType
  stage : E'.stageAboveSL = E.stageAboveSL
  L0 : E'.L0 = E.L0
  CTR : E'.CTR = E.CTR
  stepmax : E'.stepmax = E.stepmax
  s2 : E'.s2 = E.s2
  nrm : E'.nrm = E.nrm
  flow : halfShareR D E' = v * halfShareR D E

lemma parcelStepsR_sim [FloorRing K] {v : K} {E E' : WEnv L W K} (h : SimEnvR D v E E') (step : ℕ) :
    ∀ (ps : List WParcel) (ds : List (Fin 9)), parcelStepsR D E' step ps ds = parcelStepsR D E step ps ds := by
  have h1 : ∀ p d, parcelStepR D E' step p d = parcelStepR D E step p d := by
    intro p d
    unfold parcelStepR checkLoopR isBoundary
    simp only [h.cellType, h.stage, h.L0, h.CTR, h.nrm]
  intro ps
  induction ps with
  | nil => intro ds; cases ds <;> rfl
  | cons p ps ih =>
    intro ds
    cases ds with
    | nil => rfl
    | cons d ds => rw [parcelStepsR, parcelStepsR, h1, ih]

lemma addFluxesR_sim {v : K} (hF : PassesThrough F v) (hD : PassesThrough D v) {E E' : WEnv L W K} (h : SimEnvR D v E E')
    (sel : StepRec → ℤ) (p : StepRec → Bool) :
    ∀ (rs : List StepRec) (f : Flux L W K),
      addFluxesR F D E' sel p rs (simFlux v f) = (addFluxesR F D E sel p rs f).map (simFlux v) := by
  have h1 : ∀ (f : Flux L W K) ind d,
      addFluxR F D E' (simFlux v f) ind d = (addFluxR F D E f ind d).map (simFlux v) := by
    intro f ind d
    unfold addFluxR
    split_ifs
    · cases flatCell L W ind with
      | none => rfl
      | some c =>
        simp only [Except.map, h.s2]
        unfold simFlux
        simp only [Except.ok.injEq, Flux.mk.injEq, true_and]
        rw [← update_times]
        congr 1
        unfold times
        rw [h.flow, ← mul_add, hD, hF]
    · rfl
  intro rs
  induction rs with
  | nil => intro f; rfl
  | cons r rs ih =>
    intro f
    rw [addFluxesR, addFluxesR, h1]
    split_ifs
    · cases addFluxR F D E f (sel r) r.dir with
      | error e => rfl
      | ok f1 => exact ih f1
    · exact ih f

lemma waterStepR_sim [FloorRing K] (g : Rng K σ) {v : K} (hF : PassesThrough F v) (hD : PassesThrough D v) {E E' : WEnv L W K}
    (h : SimEnvR D v E E') (step : ℕ) (st : WState L W K) (s : σ) :
    waterStepR F D g E' step (simWater v st) s =
      (waterStepR F D g E step st s).map fun x => (simWater v x.1, x.2) := by
  have hc : checkSize E'.stepmax step (simWater v st) = simWater v (checkSize E.stepmax step st) := by
    unfold checkSize
    rw [h.stepmax]
    have : (simWater v st).ncols = st.ncols := rfl
    rw [this]
    split_ifs <;> rfl
  unfold waterStepR
  simp only [hc]
  generalize checkSize E.stepmax step st = st1
  have e1 : (simWater v st1).ncols = st1.ncols := rfl
  have e2 : (simWater v st1).parcels = st1.parcels := rfl
  have e3 : (simWater v st1).flux = simFlux v st1.flux := rfl
  rw [e1, e2, e3, h.weights]
  split_ifs
  · cases chooseDirsR D g E.weights (st1.parcels.map (·.ind)) s with
    | error e => rfl
    | ok r =>
      obtain ⟨ds, s1⟩ := r
      simp only [parcelStepsR_sim h]
      cases parcelStepsR D E step st1.parcels ds with
      | error e => rfl
      | ok r =>
        obtain ⟨ps, recs⟩ := r
        simp only [addFluxesR_sim hF hD h]
        cases addFluxesR F D E (·.cur) (fun _ => true) recs st1.flux with
        | error e => rfl
        | ok f1 =>
          simp only [Except.map, addFluxesR_sim hF hD h]
          cases addFluxesR F D E (·.new1) (fun _ => true) recs f1 with
          | error e => rfl
          | ok f2 =>
            simp only [Except.map, addFluxesR_sim hF hD h]
            cases addFluxesR F D E (·.new2) (·.bnd) recs f2 <;> rfl
  · rfl

lemma waterLoopR_sim [FloorRing K] (g : Rng K σ) {v : K} (hF : PassesThrough F v) (hD : PassesThrough D v) {E E' : WEnv L W K}
    (h : SimEnvR D v E E') :
    ∀ (n step : ℕ), E.stepmax - step = n → ∀ (st : WState L W K) (s : σ),
    waterLoopR F D g E' step (simWater v st) s =
      (waterLoopR F D g E step st s).map fun x => (simWater v x.1, x.2) := by
  intro n
  induction n with
  | zero =>
    intro step hn st s
    rw [waterLoopR, waterLoopR, if_neg (by rw [h.stepmax]; omega), if_neg (by omega)]
    rfl
  | succ n ih =>
    intro step hn st s
    rw [waterLoopR, waterLoopR, h.stepmax, waterStepR_sim g hF hD h]
    have e2 : (simWater v st).parcels = st.parcels := rfl
    rw [e2]
    split_ifs
    · cases waterStepR F D g E (step + 1) st s with
      | error e => rfl
      | ok r =>
        obtain ⟨st1, recs, s1⟩ := r
        simp only [Except.map]
        rw [ih (step + 1) (by omega)]
        cases waterLoopR F D g E (step + 1) st1 s1 <;> rfl
    · rfl

/-- C129: all water parcels go the same way; the discharge that they add up is exactly `v` times as large. -/
theorem C129_water_walks [FloorRing K] (g : Rng K σ) {z : Factors K} {P : Params L W m K}
    (hz : Exactly F D z P.nrm P.pwBeta) (S : State L W K) (w : Grid L W (Fin 9 → K)) (inlet : Fin m → ℤ)
    (np ncols : ℕ) (s : σ) :
    runWaterIterationR F D g (waterEnvR F (simParams z P) (simState z S) w) inlet np ncols s =
      (runWaterIterationR F D g (waterEnvR F P S w) inlet np ncols s).map fun x => (simWater z.v x.1, x.2) := by
  have h : SimEnvR D z.v (waterEnvR F P S w) (waterEnvR F (simParams z P) (simState z S) w) := by
    refine ⟨rfl, rfl, rfl, rfl, rfl, rfl, rfl, rfl, ?_⟩
    show D.fl (D.fl (z.v * z.a * P.QpWater / (z.a * P.dx)) / 2) = z.v * D.fl (D.fl (P.QpWater / P.dx) / 2)
    rw [mul_comm z.v z.a, mul_assoc, mul_div_mul_left _ _ hz.a.ne', mul_div_assoc, hz.Dv, mul_div_assoc, hz.Dv]
  unfold runWaterIterationR
  simp only
  cases getStartIndicesR D inlet (getInletWeights inlet : Fin m → K) (drawN g np s).1 with
  | none => rfl
  | some starts =>
    have hs : waterStartR F D (waterEnvR F (simParams z P) (simState z S) w) ncols starts =
        (waterStartR F D (waterEnvR F P S w) ncols starts).map (simWater z.v) := by
      unfold waterStartR
      split_ifs
      · simp only [Except.map]
        unfold simWater simFlux
        simp only [Except.ok.injEq, WState.mk.injEq, Flux.mk.injEq, true_and, and_true]
        funext c
        simp only [fancyAddR, times]
        rw [h.flow]
        split_ifs
        · rw [zero_add, zero_add, hz.Fv, hz.Fv]
        · ring
      · rfl
    simp only [hs]
    cases waterStartR F D (waterEnvR F P S w) ncols starts with
    | error e => rfl
    | ok st => exact waterLoopR_sim g hz.Fv hz.Dv h _ 0 rfl st _

/-- C129: the elevations found along the walks are the same. -/
theorem C129_surface_walks {z : Factors K} {P : Params L W m K} (hz : Exactly F D z P.nrm P.pwBeta)
    (S : State L W K) (ps : List (List ℤ × Bool)) (a : SfcAcc L W K) :
    sfcParcelsR D (sfcEnv (simParams z P) (simState z S)) ps a = sfcParcelsR D (sfcEnv P S) ps a := by
  have hv := hz.v
  have ha := hz.a
  have hb : ∀ nx c s, backStepR D (sfcEnv (simParams z P) (simState z S)) nx c s = backStepR D (sfcEnv P S) nx c s := by
    intro nx c s
    have e1 : (z.v * S.uw c > D.fl (z.v * P.u0 * (1 / 2))) = (S.uw c > D.fl (P.u0 * (1 / 2))) := by
      rw [mul_assoc, hz.Dv, gt_iff_lt, gt_iff_lt, mul_lt_mul_iff_right₀ hv]
    have e2 : (z.v * S.uw c = 0) = (S.uw c = 0) := by
      simp [hv.ne']
    have m1 : ∀ x n d : K, D.fl (D.fl (z.v * x * n) * (z.a * d)) = z.v * z.a * D.fl (D.fl (x * n) * d) := by
      intro x n d
      have : z.v * D.fl (x * n) * (z.a * d) = z.v * z.a * (D.fl (x * n) * d) := by ring
      rw [mul_assoc, hz.Dv, this, (hz.Dv.mul hz.Da)]
    have e3 : D.fl (D.fl (P.S0 / z.a * D.fl (D.fl (D.fl (z.v * S.ux c * ((nx.1.val : K) - (c.1.val : K))) * (z.a * P.dx)) +
        D.fl (D.fl (z.v * S.uy c * ((nx.2.val : K) - (c.2.val : K))) * (z.a * P.dx)))) / (z.v * S.uw c)) =
        D.fl (D.fl (P.S0 * D.fl (D.fl (D.fl (S.ux c * ((nx.1.val : K) - (c.1.val : K))) * P.dx) +
        D.fl (D.fl (S.uy c * ((nx.2.val : K) - (c.2.val : K))) * P.dx))) / S.uw c) := by
      rw [m1, m1, ← mul_add, (hz.Dv.mul hz.Da)]
      generalize D.fl (_ + _) = X
      have : P.S0 / z.a * (z.v * z.a * X) = z.v * (P.S0 * X) := by
        have := ha.ne'
        field_simp
      rw [this, hz.Dv, mul_div_mul_left _ _ hv.ne']
    unfold backStepR sfcEnv simParams simState times
    simp only [e1, e2, e3]
  have hw : ∀ (cs : List (Cell L W)) nx s,
      backWalkR D (sfcEnv (simParams z P) (simState z S)) nx cs s = backWalkR D (sfcEnv P S) nx cs s := by
    intro cs
    induction cs with
    | nil => intro nx s; rfl
    | cons c cs ih => intro nx s; rw [backWalkR, backWalkR, hb, ih]
  have hp : ∀ walk flag a, sfcParcelR D (sfcEnv (simParams z P) (simState z S)) walk flag a =
      sfcParcelR D (sfcEnv P S) walk flag a := by
    intro walk flag a
    unfold sfcParcelR
    simp only [hw]
    rfl
  induction ps generalizing a with
  | nil => rfl
  | cons p ps ih =>
    obtain ⟨walk, flag⟩ := p
    rw [sfcParcelsR, sfcParcelsR, hp]
    cases sfcParcelR D (sfcEnv P S) walk flag a with
    | error e => rfl
    | ok a1 => exact ih a1

/-- C129: discharge and velocity are exactly `v` times as large. -/
theorem C129_water_fields {z : Factors K} {P : Params L W m K} (hz : Exactly F D z P.nrm P.pwBeta) (S : State L W K)
    (it : ℕ) (stage : Grid L W K) (f : Flux L W K) :
    finalizeWaterIterationR F D (simParams z P) (simState z S) it stage (simFlux z.v f) =
      simState z (finalizeWaterIterationR F D P S it stage f) := by
  have hv := hz.v
  have hq : updateFlowR F D P.nrm P.omegaFlow P.omegaFlowIter (z.v * P.qw0) P.inlet S.timeIter it
      (times z.v S.qx) (times z.v S.qy) (simFlux z.v f) =
      (⟨times z.v (updateFlowR F D P.nrm P.omegaFlow P.omegaFlowIter P.qw0 P.inlet S.timeIter it S.qx S.qy f).qx,
        times z.v (updateFlowR F D P.nrm P.omegaFlow P.omegaFlowIter P.qw0 P.inlet S.timeIter it S.qx S.qy f).qy,
        times z.v (updateFlowR F D P.nrm P.omegaFlow P.omegaFlowIter P.qw0 P.inlet S.timeIter it S.qx S.qy f).qw⟩ :
        Flux L W K) := by
    have h0 : ∀ c, ¬ F.fl (P.nrm (f.qx c) (f.qy c)) > 0 → f.qx c = 0 ∧ f.qy c = 0 := by
      intro c h
      rw [gt_iff_lt, fl_pos_iff] at h
      exact hz.nrmZero _ _ (not_lt.1 h)
    have hx : ∀ c, F.fl (D.fl (f.qx c * qwnDivR F P.nrm (simFlux z.v f) c)) =
        z.v * F.fl (D.fl (f.qx c * qwnDivR F P.nrm f c)) := by
      intro c
      unfold qwnDivR simFlux times
      simp only
      split_ifs with h
      · rw [mul_div_assoc, hz.Fv, mul_left_comm, hz.Dv, hz.Fv]
      · rw [(h0 c h).1, zero_mul, fl_zero, fl_zero, mul_zero]
    have hy : ∀ c, F.fl (D.fl (f.qy c * qwnDivR F P.nrm (simFlux z.v f) c)) =
        z.v * F.fl (D.fl (f.qy c * qwnDivR F P.nrm f c)) := by
      intro c
      unfold qwnDivR simFlux times
      simp only
      split_ifs with h
      · rw [mul_div_assoc, hz.Fv, mul_left_comm, hz.Dv, hz.Fv]
      · rw [(h0 c h).2, zero_mul, fl_zero, fl_zero, mul_zero]
    have h1 : ∀ (o p : K) (q n : Grid L W K), (if S.timeIter > 0 then fun c =>
        F.fl (F.fl (z.v * n c * o) + F.fl (times z.v q c * p))
        else fun c => z.v * n c) =
        times z.v (if S.timeIter > 0 then fun c => F.fl (F.fl (n c * o) + F.fl (q c * p)) else n) := by
      intro o p q n
      split_ifs
      · funext c
        unfold times
        rw [mul_assoc, mul_assoc, hz.Fv, hz.Fv, ← mul_add, hz.Fv]
      · rfl
    unfold updateFlowR
    have e1 : (simFlux z.v f).qx = f.qx := rfl
    have e2 : (simFlux z.v f).qy = f.qy := rfl
    simp only [e1, e2, hx, hy]
    rw [h1 _ _ S.qx (fun c => F.fl (D.fl (f.qx c * qwnDivR F P.nrm f c))),
      h1 _ _ S.qy (fun c => F.fl (D.fl (f.qy c * qwnDivR F P.nrm f c)))]
    generalize (if S.timeIter > 0 then fun c => F.fl (F.fl (F.fl (D.fl (f.qx c * qwnDivR F P.nrm f c)) * _) + _)
      else fun c => F.fl (D.fl (f.qx c * qwnDivR F P.nrm f c)) : Grid L W K) = A
    generalize (if S.timeIter > 0 then fun c => F.fl (F.fl (F.fl (D.fl (f.qy c * qwnDivR F P.nrm f c)) * _) + _)
      else fun c => F.fl (D.fl (f.qy c * qwnDivR F P.nrm f c)) : Grid L W K) = B
    have hn : (fun c => F.fl (P.nrm (times z.v A c) (times z.v B c))) = times z.v (fun c => F.fl (P.nrm (A c) (B c))) := by
      funext c
      show F.fl (P.nrm (z.v * A c) (z.v * B c)) = _
      rw [hz.nrmScale, hz.Fv]
      rfl
    rw [hn, hz.Fv, assign_times, assign_times]
    have h0 : assign (times z.v B) (isInlet P.inlet) (fun _ => 0) =
        times z.v (assign B (isInlet P.inlet) fun _ => 0) := by
      have := assign_times z.v B (isInlet P.inlet) 0
      rw [mul_zero] at this
      exact this
    rw [h0]
  have hu : ∀ (d : Grid L W K) (q : Flux L W K), updateVelocityR F (z.v * P.uMax) P.dryDepth d
      (⟨times z.v q.qx, times z.v q.qy, times z.v q.qw⟩ : Flux L W K) =
      (⟨times z.v (updateVelocityR F P.uMax P.dryDepth d q).uw, times z.v (updateVelocityR F P.uMax P.dryDepth d q).ux,
        times z.v (updateVelocityR F P.uMax P.dryDepth d q).uy⟩ : Vel L W K) := by
    intro d q
    have hm : ∀ c, (times z.v q.qw c > 0) = (q.qw c > 0) := fun c => propext (pos_mul_pos hv)
    have hmin : ∀ c, min (F.fl (z.v * P.uMax)) (F.fl (times z.v q.qw c / d c)) =
        z.v * min (F.fl P.uMax) (F.fl (q.qw c / d c)) := by
      intro c
      rw [mul_min_of_nonneg _ _ hv.le]
      unfold times
      rw [mul_div_assoc, hz.Fv, hz.Fv]
    have hr : ∀ (x y w : K), F.fl (F.fl (z.v * x * (z.v * y)) / (z.v * w)) = z.v * F.fl (F.fl (x * y) / w) := by
      intro x y w
      rw [mul_assoc, hz.Fv, mul_div_mul_left _ _ hv.ne', mul_left_comm, hz.Fv, mul_div_assoc, hz.Fv]
    unfold updateVelocityR
    simp only [hm, hmin, Vel.mk.injEq]
    refine ⟨?_, ?_, ?_⟩
    · funext c
      simp only [times]
      split_ifs <;> simp
    · funext c
      simp only [times]
      split_ifs
      · rw [hr]
      · simp
    · funext c
      simp only [times]
      split_ifs
      · rw [hr]
      · simp
  unfold finalizeWaterIterationR
  have e0 : (simState z S).qx = times z.v S.qx := rfl
  have e0' : (simState z S).qy = times z.v S.qy := rfl
  have e1 : (simParams z P).nrm = P.nrm := rfl
  have e2 : (simParams z P).qw0 = z.v * P.qw0 := rfl
  have e3 : (simParams z P).uMax = z.v * P.uMax := rfl
  have e4 : (simParams z P).omegaFlow = P.omegaFlow := rfl
  have e5 : (simParams z P).omegaFlowIter = P.omegaFlowIter := rfl
  have e6 : (simParams z P).inlet = P.inlet := rfl
  have e7 : (simState z S).timeIter = S.timeIter := rfl
  have e8 : (simParams z P).dryDepth = P.dryDepth := rfl
  have e9 : (simState z S).eta = S.eta := rfl
  have e10 : (simState z S).HSL = S.HSL := rfl
  simp only [e0, e0', e1, e2, e3, e4, e5, e6, e7, e8, e9, e10, hq, hu]
  rfl

/-- C129: a whole water iteration. -/
theorem C129_water_iteration [NeZero L] [NeZero W] [FloorRing K] (g : Rng K σ) {z : Factors K}
    {P : Params L W m K} (hz : Exactly F D z P.nrm P.pwBeta) (it : ℕ) (S : State L W K) (s : σ) :
    waterIterationR F D g (simParams z P) it (simState z S) s =
      (waterIterationR F D g P it S s).map fun x => (simState z x.1, x.2) := by
  unfold waterIterationR
  rw [C129_water_weights hz]
  cases waterWeightArrayR F D P S with
  | error e => rfl
  | ok w =>
    simp only [C129_water_walks g hz]
    have e1 : (simState z S).ncols = S.ncols := rfl
    have e2 : (simParams z P).inlet = P.inlet := rfl
    have e3 : (simParams z P).NpWater = P.NpWater := rfl
    rw [e1, e2, e3]
    cases runWaterIterationR F D g (waterEnvR F P S w) (fun k => ((P.inlet k).val : ℤ)) P.NpWater S.ncols s with
    | error e => rfl
    | ok r =>
      obtain ⟨wst, l, n, s1⟩ := r
      simp only [Except.map]
      have e4 : (simWater z.v wst).parcels = wst.parcels := rfl
      have e5 : (simWater z.v wst).flux = simFlux z.v wst.flux := rfl
      have e6 : (simWater z.v wst).ncols = wst.ncols := rfl
      have e7 : computeFreeSurfaceR F D (simParams z P) (simState z S) wst.parcels =
          computeFreeSurfaceR F D P S wst.parcels := by
        unfold computeFreeSurfaceR
        rw [C129_surface_walks hz]
        cases sfcParcelsR D (sfcEnv P S) (wst.parcels.map fun p => (p.walk, p.flag)) ⟨fun _ => 0, fun _ => 0⟩ <;> rfl
      rw [e4, e5, e6, e7]
      cases computeFreeSurfaceR F D P S wst.parcels with
      | error e => rfl
      | ok stage =>
        simp only [C129_water_fields hz]
        rfl

/-- C129: the water routing of a timestep. -/
theorem C129_water [NeZero L] [NeZero W] [FloorRing K] (g : Rng K σ) {z : Factors K}
    {P : Params L W m K} (hz : Exactly F D z P.nrm P.pwBeta) (S : State L W K) (s : σ) :
    routeWaterR F D g (simParams z P) (simState z S) s =
      (routeWaterR F D g P S s).map fun x => (simState z x.1, x.2) := by
  unfold routeWaterR
  have : (simParams z P).itermax = P.itermax := rfl
  rw [this]
  generalize P.itermax = n
  generalize (0 : ℕ) = it
  induction n generalizing it S s with
  | zero => rfl
  | succ n ih =>
    unfold routeWaterFromR
    rw [C129_water_iteration g hz]
    cases waterIterationR F D g P it S s with
    | error e => rfl
    | ok r => exact ih r.1 r.2 (it + 1)

/-! ### Sediment -/

section Sizes

variable {z : Factors K} {nrm : K → K → K} {pw : K → K}

lemma Exactly.time (hz : Exactly F D z nrm pw) : 0 < z.time := div_pos hz.a (mul_pos hz.v hz.c)

lemma Exactly.Ftime (hz : Exactly F D z nrm pw) : PassesThrough F z.time :=
  hz.Fa.div (mul_pos hz.v hz.c).ne' (hz.Fv.mul hz.Fc)

lemma Exactly.Dtime (hz : Exactly F D z nrm pw) : PassesThrough D z.time :=
  hz.Da.div (mul_pos hz.v hz.c).ne' (hz.Dv.mul hz.Dc)

lemma Exactly.Faa (hz : Exactly F D z nrm pw) : PassesThrough F (z.a * z.a) := hz.Fa.mul hz.Fa

lemma Exactly.Daa (hz : Exactly F D z nrm pw) : PassesThrough D (z.a * z.a) := hz.Da.mul hz.Da

lemma Exactly.Fvc (hz : Exactly F D z nrm pw) : PassesThrough F (z.v * z.c) := hz.Fv.mul hz.Fc

lemma Exactly.Dvc (hz : Exactly F D z nrm pw) : PassesThrough D (z.v * z.c) := hz.Dv.mul hz.Dc

lemma Exactly.aa (hz : Exactly F D z nrm pw) : 0 < z.a * z.a := mul_pos hz.a hz.a

lemma limitChangeR_sim (hz : Exactly F D z nrm pw) (V stage eta dx : K) (ero : Bool) :
    limitChangeR F D (z.a * z.a * V) stage eta (z.a * dx) ero = z.a * z.a * limitChangeR F D V stage eta dx ero := by
  have e : ∀ y : K, D.fl (D.fl (y / 4) * F.fl (z.a * dx * (z.a * dx))) =
      z.a * z.a * D.fl (D.fl (y / 4) * F.fl (dx * dx)) := by
    intro y
    have : z.a * dx * (z.a * dx) = z.a * z.a * (dx * dx) := by ring
    rw [this, hz.Faa, mul_left_comm, hz.Daa]
  unfold limitChangeR
  simp only [e, ← mul_min_of_nonneg _ _ hz.aa.le]
  split_ifs <;> simp

lemma eroVolumeR_sim {v k A : K} (hA : PassesThrough F A) (hk : k ≠ 0) (hF : PassesThrough F k) (h : ∀ x, pw (v * x) = k * pw x)
    (V U Ue md : K) :
    eroVolumeR F pw (A * V) (v * U) (v * Ue) md = A * eroVolumeR F pw V U Ue md := by
  unfold eroVolumeR
  have e : ∀ x y : K, A * x * (k * y) = A * k * (x * y) := fun x y => by ring
  have e' : ∀ x y : K, A * k * x / (k * y) = A * (x / y) := by
    intro x y
    rw [mul_comm A k, mul_assoc, mul_div_mul_left _ _ hk, mul_div_assoc]
  rw [h, h, ← mul_sub, hF, mul_left_comm md A V, hA, e, hA.mul hF, e', hA]

end Sizes

/-- C129: the volume that a parcel leaves or takes is exactly `a²` times as large. -/
theorem C129_volume {z : Factors K} {P : Params L W m K} (hz : Exactly F D z P.nrm P.pwBeta) (kind : Sed)
    (S : State L W K) (c : Cell L W) (res : K) :
    volumeChangeR F D kind (simParams z P) (simState z S) c (z.a * z.a * res) =
      z.a * z.a * volumeChangeR F D kind P S c res := by
  obtain ⟨k, hk, hF, hp⟩ := hz.pw
  have hvc := mul_pos hz.v hz.c
  cases kind
  · show sandChangeR F D (simParams z P) (simState z S) c (z.a * z.a * res) = z.a * z.a * sandChangeR F D P S c res
    unfold sandChangeR
    have e1 : (simState z S).uw c = z.v * S.uw c := rfl
    have e2 : (simState z S).qs c = z.v * z.c * S.qs c := rfl
    have e3 : (simParams z P).UeroSand = z.v * P.UeroSand := rfl
    have e4 : (simParams z P).VpSed = z.a * z.a * P.VpSed := rfl
    have e5 : (simParams z P).dx = z.a * P.dx := rfl
    have e6 : (simParams z P).pwBeta = P.pwBeta := rfl
    have e7 : (simState z S).stage = S.stage := rfl
    have e8 : (simState z S).eta = S.eta := rfl
    have e9 : (simParams z P).modErosion = P.modErosion := rfl
    have ec : F.fl (F.fl (F.fl ((simParams z P).qs0 * (simParams z P).fCap) / P.pwBeta (simParams z P).u0) *
          P.pwBeta (z.v * S.uw c)) =
        z.v * z.c * F.fl (F.fl (F.fl (P.qs0 * P.fCap) / P.pwBeta P.u0) * P.pwBeta (S.uw c)) := by
      show F.fl (F.fl (F.fl (z.v * z.c * P.qs0 * P.fCap) / P.pwBeta (z.v * P.u0)) * P.pwBeta (z.v * S.uw c)) = _
      rw [hp, hp, mul_assoc, hz.Fvc, mul_div_mul_comm, hz.Fvc.div hk hF]
      have : ∀ x y : K, z.v * z.c / k * x * (k * y) = z.v * z.c * (x * y) := by
        intro x y
        field_simp
      rw [this, hz.Fvc]
    simp only [e1, e2, e3, e4, e5, e6, e7, e8, e9, ec, eroVolumeR_sim hz.Faa hk hF hp, limitChangeR_sim hz, gt_iff_lt,
      mul_lt_mul_iff_right₀ hvc, mul_lt_mul_iff_right₀ hz.v]
    split_ifs
    · rfl
    · ring
    · simp
  · show mudChangeR F D (simParams z P) (simState z S) c (z.a * z.a * res) = z.a * z.a * mudChangeR F D P S c res
    unfold mudChangeR
    have e1 : (simState z S).uw c = z.v * S.uw c := rfl
    have e3 : (simParams z P).UeroMud = z.v * P.UeroMud := rfl
    have e3' : (simParams z P).UdepMud = z.v * P.UdepMud := rfl
    have e4 : (simParams z P).VpSed = z.a * z.a * P.VpSed := rfl
    have e5 : (simParams z P).dx = z.a * P.dx := rfl
    have e6 : (simParams z P).pwBeta = P.pwBeta := rfl
    have e7 : (simState z S).stage = S.stage := rfl
    have e8 : (simState z S).eta = S.eta := rfl
    have e9 : (simParams z P).modErosion = P.modErosion := rfl
    have ec : F.fl (F.fl (F.fl ((simParams z P).lam * (z.a * z.a * res)) *
          F.fl (P.pwBeta (z.v * P.UdepMud) - P.pwBeta (z.v * S.uw c))) / P.pwBeta (z.v * P.UdepMud)) = z.a * z.a *
        F.fl (F.fl (F.fl (P.lam * res) * F.fl (P.pwBeta P.UdepMud - P.pwBeta (S.uw c))) / P.pwBeta P.UdepMud) := by
      show F.fl (F.fl (F.fl (P.lam * (z.a * z.a * res)) * _) / _) = _
      have e : ∀ x y : K, z.a * z.a * x * (k * y) = z.a * z.a * k * (x * y) := fun x y => by ring
      have e' : ∀ x y : K, z.a * z.a * k * x / (k * y) = z.a * z.a * (x / y) := by
        intro x y
        rw [mul_comm (z.a * z.a) k, mul_assoc, mul_div_mul_left _ _ hk, mul_div_assoc]
      rw [hp, hp, ← mul_sub, hF, mul_left_comm P.lam (z.a * z.a) res, hz.Faa, e, hz.Faa.mul hF, e', hz.Faa]
    simp only [e1, e3, e3', e4, e5, e6, e7, e8, e9, ec, eroVolumeR_sim hz.Faa hk hF hp, limitChangeR_sim hz, gt_iff_lt,
      mul_lt_mul_iff_right₀ hz.v]
    split_ifs
    · ring
    · ring
    · simp

lemma halfRateR_sim {z : Factors K} {P : Params L W m K} (hz : Exactly F D z P.nrm P.pwBeta) (res : K) :
    halfRateR D (simParams z P) (z.a * z.a * res) = z.v * z.c * halfRateR D P res := by
  unfold halfRateR
  show D.fl (D.fl (D.fl (z.a * z.a * res / 2) / (z.time * P.dt)) / (z.a * P.dx)) = _
  have ht := hz.time.ne'
  have ha := hz.a.ne'
  rw [mul_div_assoc, hz.Daa, mul_div_mul_comm, hz.Daa.div ht hz.Dtime, mul_div_mul_comm,
    (hz.Daa.div ht hz.Dtime).div ha hz.Da]
  congr 1
  unfold Factors.time
  have hv := hz.v.ne'
  have hc := hz.c.ne'
  field_simp

lemma fieldsAtR_sim {z : Factors K} {P : Params L W m K} (hz : Exactly F D z P.nrm P.pwBeta) (kind : Sed)
    (S : State L W K) (c0 c : Cell L W) (d : Fin 9) (res : K) :
    fieldsAtR F D kind (simParams z P) (simState z S) c0 c d (z.a * z.a * res) =
      simState z (fieldsAtR F D kind P S c0 c d res) := by
  cases kind
  · show partitionSandR F D (simParams z P) (simState z S) c0 c d (z.a * z.a * res) =
      simState z (partitionSandR F D P S c0 c d res)
    unfold partitionSandR
    have e1 : (simParams z P).s2 = P.s2 := rfl
    have e4 : (simState z S).qs = times (z.v * z.c) S.qs := rfl
    simp only [e1, e4, halfRateR_sim hz]
    split_ifs
    · have u2 : ∀ (c : Cell L W) (q : Grid L W K), Function.update (times (z.v * z.c) q) c
          (F.fl (D.fl (times (z.v * z.c) q c + z.v * z.c * halfRateR D P res))) =
          times (z.v * z.c) (Function.update q c (F.fl (D.fl (q c + halfRateR D P res)))) := by
        intro c q
        rw [← update_times]
        congr 1
        unfold times
        rw [← mul_add, hz.Dvc, hz.Fvc]
      rw [u2, u2]
      rfl
    · rfl
  · rfl

lemma recordDepositR_sim {z : Factors K} {nrm : K → K → K} {pw : K → K} (hz : Exactly F D z nrm pw) (kind : Sed)
    (S : State L W K) (c : Cell L W) (v : K) :
    recordDepositR F D kind (simState z S) c (z.a * z.a * v) = simState z (recordDepositR F D kind S c v) := by
  have hu : ∀ q : Grid L W K, Function.update (times (z.a * z.a) q) c
      (F.fl (D.fl (times (z.a * z.a) q c + z.a * z.a * v))) =
      times (z.a * z.a) (Function.update q c (F.fl (D.fl (q c + v)))) := by
    intro q
    rw [← update_times]
    congr 1
    unfold times
    rw [← mul_add, hz.Daa, hz.Faa]
  have e1 : (simState z S).depSand = times (z.a * z.a) S.depSand := rfl
  have e2 : (simState z S).depMud = times (z.a * z.a) S.depMud := rfl
  unfold recordDepositR
  simp only [pos_mul_pos hz.aa, e1, e2, hu]
  split_ifs
  · cases kind <;> rfl
  · rfl

lemma updateFieldsR_sim {z : Factors K} {P : Params L W m K} (hz : Exactly F D z P.nrm P.pwBeta) (S : State L W K)
    (c : Cell L W) (v : K) : updateFieldsR F D (simParams z P) (simState z S) c (z.a * z.a * v) =
      simState z (updateFieldsR F D P S c v) := by
  have hv := hz.v
  have h1 : (z.a * z.a * v) / F.fl ((simParams z P).dx * (simParams z P).dx) = v / F.fl (P.dx * P.dx) := by
    show _ / F.fl (z.a * P.dx * (z.a * P.dx)) = _
    have : z.a * P.dx * (z.a * P.dx) = (z.a * z.a) * (P.dx * P.dx) := by ring
    rw [this, hz.Faa, mul_div_mul_left _ _ hz.aa.ne']
  have h2 : ∀ d : K, (if d > 0 then min (simParams z P).uMax (D.fl ((simState z S).qw c / d)) else (simState z S).uw c) =
      z.v * (if d > 0 then min P.uMax (D.fl (S.qw c / d)) else S.uw c) := by
    intro d
    split_ifs
    · rw [mul_min_of_nonneg _ _ hv.le]
      show min (z.v * P.uMax) (D.fl (z.v * S.qw c / d)) = _
      rw [mul_div_assoc, hz.Dv]
    · rfl
  have h3 : ∀ x y : K, (if (simState z S).qw c > 0 then F.fl (D.fl (D.fl (z.v * x * (z.v * y)) / (simState z S).qw c))
      else 0) = z.v * (if S.qw c > 0 then F.fl (D.fl (D.fl (x * y) / S.qw c)) else 0) := by
    intro x y
    have e : ((simState z S).qw c > 0) = (S.qw c > 0) := propext (pos_mul_pos hv)
    simp only [e]
    split_ifs
    · show F.fl (D.fl (D.fl (z.v * x * (z.v * y)) / (z.v * S.qw c))) = _
      rw [mul_assoc, hz.Dv, mul_div_mul_left _ _ hv.ne', mul_left_comm, hz.Dv, mul_div_assoc, hz.Dv, hz.Fv]
    · simp
  have e1 : (simState z S).eta = S.eta := rfl
  have e2 : (simState z S).stage = S.stage := rfl
  have e3 : (simState z S).qx c = z.v * S.qx c := rfl
  have e4 : (simState z S).qy c = z.v * S.qy c := rfl
  unfold updateFieldsR
  simp only [h1, h2, e1, e2, e3, e4, h3, hz.Fv _]
  have u1 : (simState z S).uw = times z.v S.uw := rfl
  have u2 : (simState z S).ux = times z.v S.ux := rfl
  have u3 : (simState z S).uy = times z.v S.uy := rfl
  rw [u1, u2, u3, update_times, update_times, update_times]
  rfl

/-- The end of `sedWeightAtCellR`. -/
def sedBranchesR (R : Rounding K) (w f : Fin 9 → K) : Except Err (Fin 9 → K) :=
  let weight3 : Fin 9 → K := if sumR R (List.ofFn w) = 0 then f else w
  let weight : Fin 9 → K := fun d => if decide (d = 4) then 0 else weight3 d
  if sumR R (List.ofFn weight) = 0 then .error .sedNoWeights
  else .ok (fun d => R.fl (weight d / sumR R (List.ofFn weight)))

lemma sedBranchesR_sim {R : Rounding K} {v : K} (hv : 0 < v) (hR : PassesThrough R v) (w f : Fin 9 → K) :
    sedBranchesR R (fun d => v * w d) f = sedBranchesR R w f := by
  have hz : ∀ x : K, (v * x = 0) = (x = 0) := fun x => by simp [hv.ne']
  unfold sedBranchesR
  simp only [sumR_times hR, hz]
  by_cases h0 : sumR R (List.ofFn w) = 0
  · simp only [if_pos h0]
  · simp only [if_neg h0]
    have e2 : ∀ d : Fin 9, (if decide (d = 4) = true then (0 : K) else v * w d) =
        v * (if decide (d = 4) = true then 0 else w d) := by
      intro d
      split_ifs <;> simp
    simp only [e2, sumR_times hR, hz, mul_div_mul_left _ _ hv.ne']

/-- C129: sediment parcels have the same weights. -/
theorem C129_sediment_weights {v : K} (hv : 0 < v) (hF : PassesThrough F v) (padD padM : Grid (L + 2) (W + 2) K)
    (padT : Grid (L + 2) (W + 2) ℤ) (qx qy : Grid L W K) (s2 s05 dry : K) (pw : K → K) (c : Cell L W) :
    sedWeightsR F padD padM padT (times v qx) (times v qy) s2 s05 dry pw c =
      sedWeightsR F padD padM padT qx qy s2 s05 dry pw c := by
  have hi : weightIntR F (times v qx c) (times v qy c) s05 s2 = fun d => v * weightIntR F (qx c) (qy c) s05 s2 d :=
    weightIntR_sim hv hF _ _ _ _
  have key : ∀ (wInt depthN modN : Fin 9 → K) (ctN : Fin 9 → ℤ),
      sedWeightAtCellR F wInt depthN modN ctN dry pw (distances s2) =
      sedBranchesR F (fun d => if (decide (depthN d ≤ dry) || decide (ctN d = -2)) = true then 0 else
        if decide (d = 4) = true then 0 else
          F.fl (pw (F.fl (depthN d * modN d)) * (if decide (d = 4) = true then 0 else wInt d)))
        (fun d => if decide (ctN d = -2) = true then 0 else F.fl (1 / distances s2 d)) := fun _ _ _ _ => rfl
  unfold sedWeightsR
  rw [hi, key, key]
  conv_rhs => rw [← sedBranchesR_sim hv hF]
  congr 1
  funext d
  split_ifs
  · simp
  · simp
  · rw [mul_left_comm, hF]

lemma sedStepR_sim [NeZero L] [NeZero W] (g : Rng K σ) {z : Factors K} {P : Params L W m K}
    (hz : Exactly F D z P.nrm P.pwBeta) (kind : Sed) (st : SedSt L W K) (px py : ℤ) (res : K) (s : σ) :
    sedStepR F D g kind (simParams z P) (simSt z st) px py (z.a * z.a * res) s =
      (sedStepR F D g kind P st px py res s).map fun x =>
        (simSt z x.1, z.a * z.a * x.2.1, simRec z x.2.2.1, x.2.2.2) := by
  have hc : chooseNextR F D g kind (simParams z P) (simSt z st) px py s = chooseNextR F D g kind P st px py s := by
    unfold chooseNextR
    have e1 : (simSt z st).S.qx = times z.v st.S.qx := rfl
    have e2 : (simSt z st).S.qy = times z.v st.S.qy := rfl
    simp only [e1, e2, C129_sediment_weights hz.v hz.Fv]
    rfl
  unfold sedStepR
  rw [hc]
  cases chooseNextR F D g kind P st px py s with
  | error e => rfl
  | ok r =>
    obtain ⟨c0, d, s1⟩ := r
    have hS : (simSt z st).S = simState z st.S := rfl
    simp only [hS, fieldsAtR_sim hz, C129_volume hz, recordDepositR_sim hz, updateFieldsR_sim hz]
    cases pyCell L W (px + jwalk d) (py + iwalk d) with
    | none => rfl
    | some c =>
      cases pyCell (L + 2) (W + 2) (px + jwalk d + 1) (py + iwalk d + 1) with
      | none => rfl
      | some cp =>
        simp only [Except.map, ← mul_sub, hz.Daa _, hz.Faa _]
        rfl

lemma sedLoopR_sim [NeZero L] [NeZero W] (g : Rng K σ) {z : Factors K} {P : Params L W m K}
    (hz : Exactly F D z P.nrm P.pwBeta) (kind : Sed) (n : ℕ) :
    ∀ (st : SedSt L W K) (px py : ℤ) (res : K) (s : σ),
      sedLoopR F D g kind (simParams z P) n (simSt z st) px py (z.a * z.a * res) s =
      (sedLoopR F D g kind P n st px py res s).map fun x =>
        (simSt z x.1, z.a * z.a * x.2.1, x.2.2.1.map (simRec z), x.2.2.2) := by
  induction n with
  | zero => intro st px py res s; rfl
  | succ n ih =>
    intro st px py res s
    rw [sedLoopR, sedLoopR, sedStepR_sim g hz]
    cases sedStepR F D g kind P st px py res s with
    | error e => rfl
    | ok r =>
      obtain ⟨st1, res1, r, s1⟩ := r
      simp only [Except.map]
      have h1 : (simRec z r).cell = r.cell := rfl
      have h2 : (simRec z r).new = r.new := rfl
      have h3 : (simParams z P).cellType = P.cellType := rfl
      rw [h1, h2, h3, ih]
      split_ifs
      · rfl
      · cases sedLoopR F D g kind P n st1 r.new.1 r.new.2 res1 s1 <;> rfl

lemma sedParcelsR_sim [NeZero L] [NeZero W] (g : Rng K σ) {z : Factors K} {P : Params L W m K}
    (hz : Exactly F D z P.nrm P.pwBeta) (kind : Sed) :
    ∀ (pys : List ℤ) (st : SedSt L W K) (s : σ), sedParcelsR F D g kind (simParams z P) pys (simSt z st) s =
      (sedParcelsR F D g kind P pys st s).map fun x => (simSt z x.1, x.2.1.map (simSed z), x.2.2) := by
  intro pys
  induction pys with
  | nil => intro st s; rfl
  | cons py pys ih =>
    intro st s
    rw [sedParcelsR, sedParcelsR]
    cases pyCell L W 0 py with
    | none => rfl
    | some c =>
      have e5 : (simParams z P).VpSed = z.a * z.a * P.VpSed := rfl
      have he : enterStateR F D kind (simParams z P) (simSt z st) c = simSt z (enterStateR F D kind P st c) := by
        cases kind
        · show ({ simSt z st with S := enterSandR F D (simParams z P) (simState z st.S) c } : SedSt L W K) =
            { st with S := simState z (enterSandR F D P st.S c) }
          have e : enterSandR F D (simParams z P) (simState z st.S) c = simState z (enterSandR F D P st.S c) := by
            unfold enterSandR
            have e4 : (simState z st.S).qs = times (z.v * z.c) st.S.qs := rfl
            have u : Function.update (times (z.v * z.c) st.S.qs) c
                (F.fl (D.fl (times (z.v * z.c) st.S.qs c + z.v * z.c * halfRateR D P P.VpSed))) =
                times (z.v * z.c) (Function.update st.S.qs c (F.fl (D.fl (st.S.qs c + halfRateR D P P.VpSed)))) := by
              rw [← update_times]
              congr 1
              unfold times
              rw [← mul_add, hz.Dvc, hz.Fvc]
            rw [e4, e5, halfRateR_sim hz, u]
            rfl
          rw [e]
          rfl
        · rfl
      have e6 : (simParams z P).stepmax = P.stepmax := rfl
      simp only [he, e5, e6, sedLoopR_sim g hz]
      cases sedLoopR F D g kind P P.stepmax (enterStateR F D kind P st c) 0 py P.VpSed s with
      | error e => rfl
      | ok r =>
        obtain ⟨st2, res, rs, s1⟩ := r
        simp only [Except.map, ih]
        cases sedParcelsR F D g kind P pys st2 s1 <;> rfl

/-- C129: all sediment parcels of a kind go the same way and leave the bed the same; volumes are exactly `a²` times
as large. -/
theorem C129_parcels [NeZero L] [NeZero W] [FloorRing K] (g : Rng K σ) {z : Factors K} {P : Params L W m K}
    (hz : Exactly F D z P.nrm P.pwBeta) (kind : Sed) (S : State L W K) (s : σ) :
    routeParcelsR F D g kind (simParams z P) (simState z S) s =
      (routeParcelsR F D g kind P S s).map fun x => (simState z x.1, x.2.1.map (simSed z), x.2.2) := by
  have hn : numStartsR D kind (simParams z P) = numStartsR D kind P := by cases kind <;> rfl
  have hi : (simParams z P).inlet = P.inlet := rfl
  unfold routeParcelsR
  simp only [hn, hi]
  cases getStartIndicesR D (fun i => ((P.inlet i).val : ℤ))
      (getInletWeights (fun i => ((P.inlet i).val : ℤ)) : Fin m → K) (drawN g (numStartsR D kind P) s).1 with
  | none => rfl
  | some starts =>
    have := sedParcelsR_sim g hz kind starts ⟨S, customPad S.depth⟩ (drawN g (numStartsR D kind P) s).2
    have e : (⟨simState z S, customPad (simState z S).depth⟩ : SedSt L W K) =
        simSt z ⟨S, customPad S.depth⟩ := rfl
    simp only [e, this]
    cases sedParcelsR F D g kind P starts ⟨S, customPad S.depth⟩ (drawN g (numStartsR D kind P) s).2 <;> rfl

lemma convolveR_times {k : K} (hF : PassesThrough F k) (hD : PassesThrough D k) (ker : Fin 9 → K) (f : Grid L W K) :
    convolveR F D ker (times k f) = times k (convolveR F D ker f) := by
  have h : ∀ i j, at0 (times k f) i j = k * at0 f i j := by
    intro i j
    unfold at0
    cases cellAt L W i j with
    | none => simp
    | some c => rfl
  funext c
  unfold convolveR
  simp only [h, mul_left_comm _ k, hD _]
  rw [sumR_times hD, hF]
  rfl

/-- C129: diffusion is the same. -/
theorem C129_diffusion {k : K} (hk : k ≠ 0) (hF : PassesThrough F k) (hD : PassesThrough D k) (cellType : Grid L W ℤ) (mult : K)
    (qs : Grid L W K) (n : ℕ) (eta : Grid L W K) :
    topoDiffusionR F D cellType (mult / k) (times k qs) n eta = topoDiffusionR F D cellType mult qs n eta := by
  have h : ∀ eta, diffusionChangeR F D cellType (mult / k) (times k qs) eta = diffusionChangeR F D cellType mult qs eta := by
    intro eta
    have e : (fun x => F.fl (times k qs x * eta x)) = times k (fun x => F.fl (qs x * eta x)) := by
      funext x
      unfold times
      rw [mul_assoc, hF]
    have e' : ∀ y, F.fl (mult / k * (k * y)) = F.fl (mult * y) := fun y => by
      rw [← mul_assoc, div_mul_cancel₀ _ hk]
    have em : F.fl (mult / k) = F.fl mult / k := by
      rw [div_eq_inv_mul, hF.inv hk, div_eq_inv_mul]
    unfold diffusionChangeR
    simp only [e, convolveR_times hF hD]
    have : (fun x => F.fl (F.fl (mult / k) * F.fl (F.fl (F.fl (times k qs x * convolveR F D kernel1 eta x) -
        F.fl (eta x * times k (convolveR F D kernel2 qs) x)) +
        times k (convolveR F D kernel2 fun x => F.fl (qs x * eta x)) x))) =
        fun x => F.fl (F.fl mult * F.fl (F.fl (F.fl (qs x * convolveR F D kernel1 eta x) -
        F.fl (eta x * convolveR F D kernel2 qs x)) + convolveR F D kernel2 (fun x => F.fl (qs x * eta x)) x)) := by
      funext x
      unfold times
      rw [mul_assoc, hF, mul_left_comm (eta x), hF, ← mul_sub, hF, ← mul_add, hF, em, ← mul_assoc, div_mul_cancel₀ _ hk]
    rw [this]
  induction n generalizing eta with
  | zero => rfl
  | succ n ih => rw [topoDiffusionR, topoDiffusionR, h, ih]

/-- The numbers of the sediment routers. -/
lemma routerParams_sim {z : Factors K} {P : Params L W m K} (hz : Exactly F D z P.nrm P.pwBeta) :
    routerParams F (simParams z P) = simParams z (routerParams F P) := by
  unfold routerParams simParams
  simp only [hz.Fa _, hz.Fv _, hz.Faa _, hz.Fvc _, hz.Ftime _]

/-- C129: the sediment routing of a timestep. -/
theorem C129_sediment [NeZero L] [NeZero W] [FloorRing K] (g : Rng K σ) {z : Factors K} {P : Params L W m K}
    (hz : Exactly F D z P.nrm P.pwBeta) (S : State L W K) (s : σ) :
    routeSedimentR F D g (simParams z P) (simState z S) s = (routeSedimentR F D g P S s).map fun x =>
      (simState z x.1, x.2.1.map (simSed z), x.2.2.1.map (simSed z), x.2.2.2) := by
  have hr : Exactly F D z (routerParams F P).nrm (routerParams F P).pwBeta := hz
  unfold routeSedimentR
  have e0 : initSediment (simState z S) = simState z (initSediment S) := by
    unfold initSediment simState times
    simp
  rw [e0, routerParams_sim hz, C129_parcels g hr]
  cases routeParcelsR F D g .sand (routerParams F P) (initSediment S) s with
  | error e => rfl
  | ok r =>
    obtain ⟨S1, sand, s1⟩ := r
    simp only [Except.map]
    have hd : topoDiffusionR F D (simParams z P).cellType (simParams z P).diffMult (simState z S1).qs
        (simParams z P).Ncross (simState z S1).eta = topoDiffusionR F D P.cellType P.diffMult S1.qs P.Ncross S1.eta :=
      C129_diffusion (mul_pos hz.v hz.c).ne' hz.Fvc hz.Dvc _ _ _ _ _
    rw [hd]
    generalize topoDiffusionR F D P.cellType P.diffMult S1.qs P.Ncross S1.eta = B
    have e1 : ({ simState z S1 with eta := B } : State L W K) = simState z { S1 with eta := B } := rfl
    rw [e1, C129_parcels g hr]
    cases routeParcelsR F D g .mud (routerParams F P) { S1 with eta := B } s1 <;> rfl

/-! ### The end of a timestep, and runs -/

lemma applySubsidenceR_sim {z : Factors K} {P : Params L W m K} (hz : Exactly F D z P.nrm P.pwBeta) (S : State L W K) :
    applySubsidenceR F D (simParams z P) (simState z S) = simState z (applySubsidenceR F D P S) := by
  have e : ((simParams z P).startSub ≤ (simState z S).time) = (P.startSub ≤ S.time) := by
    show (z.time * P.startSub ≤ z.time * S.time) = _
    rw [mul_le_mul_iff_right₀ hz.time]
  unfold applySubsidenceR
  simp only [e]
  have e2 : (simParams z P).toggleSub = P.toggleSub := rfl
  rw [e2]
  split_ifs <;> rfl

/-- The amounts of mud that count as a deposit are the same: more than a millionth of a cubic meter. -/
def SameMudR (F : Rounding K) (z : Factors K) (S : State L W K) : Prop :=
  ∀ c, F.fl (1 / 1000000) < z.a * z.a * S.depMud c ↔ F.fl (1 / 1000000) < S.depMud c

lemma computeSandFracR_sim {z : Factors K} {P : Params L W m K} (hz : Exactly F D z P.nrm P.pwBeta)
    (eta0 : Grid L W K) (S : State L W K) (h : SameMudR F z S) :
    computeSandFracR F (simParams z P) eta0 (simState z S) = simState z (computeSandFracR F P eta0 S) := by
  have e1 : ∀ c, ((simState z S).depSand c > 0) = (S.depSand c > 0) := fun c =>
    propext (pos_mul_pos hz.aa)
  have e2 : ∀ c, ((simState z S).depMud c > F.fl (1 / 1000000)) = (S.depMud c > F.fl (1 / 1000000)) :=
    fun c => propext (h c)
  have e3 : (fun c => F.fl ((simState z S).depSand c / F.fl ((simState z S).depMud c + (simState z S).depSand c))) =
      fun c => F.fl (S.depSand c / F.fl (S.depMud c + S.depSand c)) := by
    funext c
    show F.fl (z.a * z.a * S.depSand c / F.fl (z.a * z.a * S.depMud c + z.a * z.a * S.depSand c)) = _
    rw [← mul_add, hz.Faa, mul_div_mul_left _ _ hz.aa.ne']
  unfold computeSandFracR
  simp only [e1, e2, e3]
  rfl

/-- C129: the end of a timestep. -/
theorem C129_end [NeZero L] [NeZero W] {z : Factors K} {P : Params L W m K} (hz : Exactly F D z P.nrm P.pwBeta)
    (eta0 : Grid L W K) (S : State L W K) (h : SameMudR F z S) :
    finalizeTimestepR F D (simParams z P) eta0 (applySubsidenceR F D (simParams z P) (simState z S)) =
      simState z (finalizeTimestepR F D P eta0 (applySubsidenceR F D P S)) := by
  have ht := hz.time
  rw [applySubsidenceR_sim hz]
  have h' : SameMudR F z (applySubsidenceR F D P S) := by
    intro c
    have : (applySubsidenceR F D P S).depMud = S.depMud := by
      unfold applySubsidenceR
      split_ifs <;> rfl
    rw [this]
    exact h c
  generalize applySubsidenceR F D P S = S at h'
  unfold finalizeTimestepR
  simp only
  set B := floodingCorrection S.eta S.depth S.stage (F.fl P.dryDepth) with hB
  have e1 : floodingCorrection (simState z S).eta (simState z S).depth (simState z S).stage
      (F.fl (simParams z P).dryDepth) = B := rfl
  rw [e1]
  have e5 := computeSandFracR_sim hz eta0 { S with
    stage := fun c => max (B c) (F.fl S.HSL)
    depth := assign (fun c => max (F.fl (max (B c) (F.fl S.HSL) - S.eta c)) 0) (isInlet P.inlet) (fun _ => F.fl P.h0)
    eta := assign S.eta (isInlet P.inlet) (fun c => F.fl (max (B c) (F.fl S.HSL) - F.fl P.h0)) } h'
  unfold simState at e5 ⊢
  simp only at e5 ⊢
  have e6 : (simParams z P).inlet = P.inlet := rfl
  have e7 : (simParams z P).h0 = P.h0 := rfl
  rw [e6, e7, e5]
  simp only
  congr 1
  show D.fl (_ + D.fl (P.SLR / z.time * (z.time * P.dt))) = D.fl (_ + D.fl (P.SLR * P.dt))
  rw [← mul_assoc, div_mul_cancel₀ _ ht.ne']

/-- C129: a timestep, with the same random numbers. -/
theorem C129_timestep [NeZero L] [NeZero W] [FloorRing K] (g : Rng K σ) {z : Factors K} {P : Params L W m K}
    (hz : Exactly F D z P.nrm P.pwBeta) (S : State L W K) (s : σ)
    (h : ∀ S' l s', timestepR F D g P S s = .ok (S', l, s') → SameMudR F z l.routed) :
    timestepR F D g (simParams z P) (simState z S) s =
      (timestepR F D g P S s).map fun x => (simState z x.1, simLog z x.2.1, x.2.2) := by
  unfold timestepR at h ⊢
  rw [C129_water g hz]
  cases hw : routeWaterR F D g P S s with
  | error e => rfl
  | ok r =>
    obtain ⟨S1, s1⟩ := r
    rw [hw] at h
    simp only [Except.map, C129_sediment g hz] at h ⊢
    cases hr : routeSedimentR F D g P S1 s1 with
    | error e => rfl
    | ok r =>
      obtain ⟨S2, sand, mud, s2⟩ := r
      rw [hr] at h
      simp only [Except.map] at h ⊢
      have e := C129_end hz S.eta S2 (h _ _ _ rfl)
      have e0 : (simState z S).eta = S.eta := rfl
      rw [e0, e]
      unfold simState
      simp only [Except.ok.injEq, Prod.mk.injEq, State.mk.injEq, true_and, and_true]
      refine ⟨?_, rfl⟩
      show D.fl (z.time * _ + z.time * P.dt) = _
      rw [← mul_add, hz.Dtime]

/-- C129: concentration and velocity only set the clock, to the last digit. A run of any length in which the water
is `v` times as fast and carries `c` times as much sediment, with rates of sea level and subsidence that are `v c`
times as large, goes through the same beds, surfaces and compositions, with the same errors and random numbers. -/
theorem C129_run [NeZero L] [NeZero W] [FloorRing K] (g : Rng K σ) {z : Factors K} (h1 : z.a = 1)
    {Ps : List (Params L W m K)} (hz : ∀ P ∈ Ps, Exactly F D z P.nrm P.pwBeta) (S : State L W K) (s : σ) :
    timestepsR F D g (Ps.map (simParams z)) (simState z S) s =
      (timestepsR F D g Ps S s).map fun x => (simState z x.1, x.2.1.map (simLog z), x.2.2) := by
  induction Ps generalizing S s with
  | nil => rfl
  | cons P Ps ih =>
    rw [List.map_cons, timestepsR, timestepsR, C129_timestep g (hz P List.mem_cons_self) S s
      (fun S' l s' _ c => by rw [h1]; simp)]
    cases timestepR F D g P S s with
    | error e => rfl
    | ok r =>
      obtain ⟨S1, l, s1⟩ := r
      simp only [Except.map]
      rw [ih (fun P hP => hz P (List.mem_cons_of_mem _ hP))]
      cases timestepsR F D g Ps S1 s1 <;> rfl

/-- C129: a timestep in a similar basin of any size, apart from the composition of the bed. -/
theorem C129_timestep_shape [NeZero L] [NeZero W] [FloorRing K] (g : Rng K σ) {z : Factors K} {P : Params L W m K}
    (hz : Exactly F D z P.nrm P.pwBeta) (S : State L W K) (s : σ) :
    (timestepR F D g (simParams z P) (simState z S) s).map (fun x => (plainState x.1, plainLog x.2.1, x.2.2)) =
      (timestepR F D g P S s).map fun x => (plainState (simState z x.1), plainLog (simLog z x.2.1), x.2.2) := by
  have ht := hz.time
  unfold timestepR
  rw [C129_water g hz]
  cases hw : routeWaterR F D g P S s with
  | error e => rfl
  | ok r =>
    obtain ⟨S1, s1⟩ := r
    simp only [Except.map, C129_sediment g hz]
    cases hr : routeSedimentR F D g P S1 s1 with
    | error e => rfl
    | ok r =>
      obtain ⟨S2, sand, mud, s2⟩ := r
      simp only [Except.map]
      rw [applySubsidenceR_sim hz]
      generalize applySubsidenceR F D P S2 = S3
      simp only [Except.ok.injEq, Prod.mk.injEq, and_true]
      refine ⟨?_, rfl⟩
      unfold plainState
      simp only [State.mk.injEq, and_true, true_and]
      refine ⟨rfl, rfl, rfl, rfl, rfl, rfl, rfl, rfl, rfl, rfl, rfl, rfl, ?_, ?_, rfl, rfl⟩
      · show D.fl (S3.HSL + D.fl (P.SLR / z.time * (z.time * P.dt))) = D.fl (S3.HSL + D.fl (P.SLR * P.dt))
        rw [← mul_assoc, div_mul_cancel₀ _ ht.ne']
      · show D.fl (z.time * S3.time + z.time * P.dt) = z.time * D.fl (S3.time + P.dt)
        rw [← mul_add, hz.Dtime]

/-- C129: a run in a similar basin of any size: the same parcels, bed, surface, depth and sea level to the last
digit. Only the composition of the bed may differ, see `C92_mud_threshold`. -/
theorem C129_run_shape [NeZero L] [NeZero W] [FloorRing K] (g : Rng K σ) {z : Factors K}
    {Ps : List (Params L W m K)} (hz : ∀ P ∈ Ps, Exactly F D z P.nrm P.pwBeta) (S : State L W K) (s : σ) :
    (timestepsR F D g (Ps.map (simParams z)) (simState z S) s).map plainRun =
      (timestepsR F D g Ps S s).map fun x => plainRun (simState z x.1, x.2.1.map (simLog z), x.2.2) := by
  induction Ps generalizing S s with
  | nil => rfl
  | cons P Ps ih =>
    have ht := C129_timestep_shape g (hz P List.mem_cons_self) S s
    rw [List.map_cons, timestepsR, timestepsR]
    cases h1 : timestepR F D g P S s with
    | error e =>
      rw [h1] at ht
      cases h2 : timestepR F D g (simParams z P) (simState z S) s with
      | error e' => rw [h2] at ht; simpa [Except.map] using ht
      | ok r => rw [h2] at ht; simp [Except.map] at ht
    | ok r =>
      rw [h1] at ht
      cases h2 : timestepR F D g (simParams z P) (simState z S) s with
      | error e' => rw [h2] at ht; simp [Except.map] at ht
      | ok r' =>
        rw [h2] at ht
        obtain ⟨S1, l, s1⟩ := r
        obtain ⟨S1', l', s1'⟩ := r'
        simp only [Except.map, Except.ok.injEq, Prod.mk.injEq] at ht
        obtain ⟨t1, t2, rfl⟩ := ht
        have hr := ih (fun P hP => hz P (List.mem_cons_of_mem _ hP)) S1 s1'
        rw [← C93_rounded_run g (Ps := Ps.map (simParams z)) rfl t1 s1'] at hr
        simp only
        cases h3 : timestepsR F D g Ps S1 s1' with
        | error e =>
          rw [h3] at hr
          cases h4 : timestepsR F D g (Ps.map (simParams z)) S1' s1' with
          | error e' => rw [h4] at hr; simpa [Except.map] using hr
          | ok r => rw [h4] at hr; simp [Except.map] at hr
        | ok r =>
          rw [h3] at hr
          cases h4 : timestepsR F D g (Ps.map (simParams z)) S1' s1' with
          | error e' => rw [h4] at hr; simp [Except.map] at hr
          | ok r' =>
            rw [h4] at hr
            obtain ⟨S2, ls, s2⟩ := r
            obtain ⟨S2', ls', s2'⟩ := r'
            simp only [Except.map, plainRun, Except.ok.injEq, Prod.mk.injEq] at hr
            simp only [Except.map, plainRun, Except.ok.injEq, Prod.mk.injEq, List.map_cons, List.cons.injEq]
            exact ⟨hr.1, ⟨t2, hr.2.1⟩, hr.2.2⟩

/-! ### Created models -/

section Created

variable [FloorRing K]

lemma boundaryR_sim {z : Factors K} {nrm : K → K → K} {pw : K → K} (hz : Exactly F D z nrm pw) {I : Input K}
    (hg : z.v = 1 ∨ I.S0 = 0) (L W : ℤ) :
    boundaryConditionsR D (simInput z I) L W = (boundaryConditionsR D I L W).map (simDerived z) := by
  have ha' := hz.a.ne'
  have hv' := hz.v.ne'
  have hc' := hz.c.ne'
  have haa := mul_ne_zero ha' ha'
  have ht := hz.time.ne'
  have hva := hz.Dv.mul hz.Da
  have hvac := hva.mul hz.Dc
  have f1 : cellsAlongR D (simInput z I).L0m (simInput z I).dx = cellsAlongR D I.L0m I.dx := by
    unfold cellsAlongR
    rw [show (simInput z I).L0m / (simInput z I).dx = I.L0m / I.dx from mul_div_mul_left _ _ ha']
  have f2 : cellsAlongR D (simInput z I).N0m (simInput z I).dx = cellsAlongR D I.N0m I.dx := by
    unfold cellsAlongR
    rw [show (simInput z I).N0m / (simInput z I).dx = I.N0m / I.dx from mul_div_mul_left _ _ ha']
  have f0 : D.fl ((simInput z I).dx * (simInput z I).dx) = z.a * z.a * D.fl (I.dx * I.dx) := by
    rw [← hz.Daa]
    congr 1
    show z.a * I.dx * (z.a * I.dx) = _
    ring
  have f3 : D.fl ((simInput z I).h0 * D.fl ((simInput z I).dx * (simInput z I).dx)) =
      z.a * z.a * D.fl (I.h0 * D.fl (I.dx * I.dx)) := by
    rw [f0, mul_left_comm, hz.Daa]
    rfl
  have f15 : D.fl ((simInput z I).u0 * (simInput z I).h0) = z.v * D.fl (I.u0 * I.h0) := by
    rw [← hz.Dv]
    congr 1
    exact mul_assoc _ _ _
  have f4 : ∀ N : K, D.fl (D.fl (D.fl ((simInput z I).u0 * (simInput z I).h0) * N) * (simInput z I).dx) =
      z.v * z.a * D.fl (D.fl (D.fl (I.u0 * I.h0) * N) * I.dx) := by
    intro N
    rw [f15, mul_assoc, hz.Dv, ← hva]
    congr 1
    show z.v * _ * (z.a * I.dx) = _
    ring
  have f5 : D.fl (D.fl ((simInput z I).C0pct * 1) / 100) = z.c * D.fl (D.fl (I.C0pct * 1) / 100) := by
    show D.fl (D.fl (z.c * I.C0pct * 1) / 100) = _
    rw [mul_assoc, hz.Dc, mul_div_assoc, hz.Dc]
  have f6 : ∀ q C : K, D.fl (z.v * z.a * q * (z.c * C)) = z.v * z.a * z.c * D.fl (q * C) := fun q C => by
    rw [← hvac]
    congr 1
    ring
  have f7 : ∀ n V : K, D.fl (n * (z.a * z.a * V)) = z.a * z.a * D.fl (n * V) := fun n V => by
    rw [mul_left_comm, hz.Daa]
  have f8 : ∀ x y : K, D.fl (z.a * z.a * x / (z.v * z.a * z.c * y)) = z.time * D.fl (x / y) := by
    intro x y
    rw [← hz.Dtime]
    congr 1
    unfold Factors.time
    have : z.v * z.a * z.c * y = z.a * (z.v * z.c * y) := by ring
    rw [this, mul_assoc z.a z.a x, mul_div_mul_left _ _ ha', mul_div_mul_comm]
  have f9 : ∀ x y : K, z.a * z.a * x / (z.a * z.a * y) = x / y := fun x y => mul_div_mul_left _ _ haa
  have fu : D.fl ((simInput z I).u0 * (simInput z I).u0) = z.v * z.v * D.fl (I.u0 * I.u0) := by
    rw [← hz.Dv.mul hz.Dv]
    congr 1
    show z.v * I.u0 * (z.v * I.u0) = _
    ring
  have f10 : (z.v * z.v * D.fl (I.u0 * I.u0) = 0) = (D.fl (I.u0 * I.u0) = 0) := by simp [hv']
  have f11 : ∀ y : K, (z.v * z.a * z.c * y = 0) = (y = 0) := fun y => by simp [hv', ha', hc']
  have f12 : ∀ y : K, (z.a * z.a * y = 0) = (y = 0) := fun y => by simp [ha']
  have f13 : D.fl (D.fl (D.fl (D.fl (981 / 100) * (simInput z I).S0) * (simInput z I).dx) /
        (z.v * z.v * D.fl (I.u0 * I.u0))) =
      D.fl (D.fl (D.fl (D.fl (981 / 100) * I.S0) * I.dx) / D.fl (I.u0 * I.u0)) := by
    show D.fl (D.fl (D.fl (D.fl (981 / 100) * (I.S0 / z.a)) * (z.a * I.dx)) / (z.v * z.v * D.fl (I.u0 * I.u0))) = _
    rcases hg with hg | hg
    · have e1 : D.fl (D.fl (981 / 100) * (I.S0 / z.a)) = z.a⁻¹ * D.fl (D.fl (981 / 100) * I.S0) := by
        rw [← hz.Da.inv ha']
        congr 1
        ring
      have e2 : ∀ x y : K, z.a⁻¹ * x * (z.a * y) = x * y := fun x y => by field_simp
      rw [hg, one_mul, one_mul, e1, e2]
    · rw [hg]; simp [fl_zero]
  have f14 : ∀ t n : K, D.fl (D.fl (D.fl (D.fl (z.time * t / n) * (simInput z I).alpha) * (1 / 2)) /
        (z.a * z.a * D.fl (I.dx * I.dx))) =
      D.fl (D.fl (D.fl (D.fl (t / n) * I.alpha) * (1 / 2)) / D.fl (I.dx * I.dx)) / (z.v * z.c) := by
    intro t n
    have e1 : D.fl (D.fl (z.time * t / n) * (simInput z I).alpha) = z.time * z.a * D.fl (D.fl (t / n) * I.alpha) := by
      rw [mul_div_assoc, hz.Dtime, ← hz.Dtime.mul hz.Da]
      congr 1
      show _ * (z.a * I.alpha) = _
      ring
    rw [e1, mul_assoc (z.time * z.a), hz.Dtime.mul hz.Da, mul_div_mul_comm,
      (hz.Dtime.mul hz.Da).div haa hz.Daa]
    have : z.time * z.a / (z.a * z.a) = (z.v * z.c)⁻¹ := by
      unfold Factors.time
      field_simp
    rw [this, inv_mul_eq_div]
  have f16 : D.fl (2 * (simInput z I).u0) = z.v * D.fl (2 * I.u0) := by
    rw [← hz.Dv]
    congr 1
    exact mul_left_comm _ _ _
  have f17 : ∀ x y : K, D.fl (z.v * x * (z.c * y)) = z.v * z.c * D.fl (x * y) := fun x y => by
    rw [← hz.Dvc]
    congr 1
    ring
  have f18 : ∀ x y : K, D.fl (z.v * z.a * x / y) = z.v * z.a * D.fl (x / y) := fun x y => by
    rw [mul_div_assoc, hva]
  have f19 : ∀ x y : K, D.fl (z.a * z.a * x / y) = z.a * z.a * D.fl (x / y) := fun x y => by
    rw [mul_div_assoc, hz.Daa]
  have g1 : (simInput z I).h0 = I.h0 := rfl
  have g2 : (simInput z I).NpWater = I.NpWater := rfl
  have g3 : (simInput z I).NpSed = I.NpSed := rfl
  have g4 : (simInput z I).stepmax = I.stepmax := rfl
  have g5 : (simInput z I).itermax = I.itermax := rfl
  have g6 : (simInput z I).sedLag = I.sedLag := rfl
  unfold boundaryConditionsR
  simp only [f1, f2, f3, f4, f5, f6, f7, f8, f9, f0, fu, f10, f11, f12, f13, f14]
  simp only [f15, f16, f17, f18, f19, g2, g3, g4, g5, g6]
  simp only [g1]
  split_ifs
  · rfl
  · simp only [Except.map, simDerived]

lemma initialParamsR_sim {z : Factors K} {nrm : K → K → K} {pw : K → K} (hz : Exactly F D z nrm pw) (O : Oracle K)
    (I : Input K) (B : Derived K) {L W : ℕ} (CTR : ℤ) (ct : Grid L W ℤ) :
    initialParamsR CTR F D ct O (simInput z I) (simDerived z B) = simParams z (initialParamsR CTR F D ct O I B) := by
  have hs : initialSigmaR L W D (simInput z I) (simDerived z B) = initialSigmaR L W D I B := by
    unfold initialSigmaR
    have t : (simInput z I).toggleSub = I.toggleSub := rfl
    rw [t]
    split_ifs
    · funext c
      show D.fl (D.fl (assign (fun _ => 1) (landRows L W B.L0) (fun _ => 0) c * (I.subRate / z.time)) * (z.time * B.dt)) =
        D.fl (D.fl (_ * I.subRate) * B.dt)
      have e : ∀ x y : K, D.fl (x * (y / z.time)) = z.time⁻¹ * D.fl (x * y) := fun x y => by
        rw [← hz.Dtime.inv hz.time.ne']
        congr 1
        ring
      have e' : ∀ x y : K, z.time⁻¹ * x * (z.time * y) = x * y := fun x y => by
        have := hz.time.ne'
        field_simp
      rw [e, e']
    · rfl
  unfold initialParamsR
  rw [hs]
  have e1 : ∀ x : K, D.fl (x * (simInput z I).u0) = z.v * D.fl (x * I.u0) := fun x => by
    rw [← hz.Dv]
    congr 1
    exact mul_left_comm _ _ _
  simp only [e1]
  rfl

lemma initialStateR_sim {z : Factors K} {O : Oracle K} {pw : K → K} (hz : Exactly F D z O.nrm pw) (I : Input K)
    (B : Derived K) (L W : ℕ) (CTR : ℤ) :
    initialStateR L W CTR F D O (simInput z I) (simDerived z B) = simState z (initialStateR L W CTR F D O I B) := by
  have ha := hz.a.ne'
  have e1 : ∀ n : K, D.fl (D.fl (n * (simInput z I).dx) * (simInput z I).S0) = D.fl (D.fl (n * I.dx) * I.S0) := by
    intro n
    show D.fl (D.fl (n * (z.a * I.dx)) * (I.S0 / z.a)) = _
    rw [mul_left_comm, hz.Da]
    congr 1
    field_simp
  have e2 : (fun _ => 0 : Grid L W K) = times z.v fun _ => 0 := by
    funext c; simp [times]
  have e3 : (fun _ => 0 : Grid L W K) = times (z.v * z.c) fun _ => 0 := by
    funext c; simp [times]
  have e4 : (fun _ => 0 : Grid L W K) = times (z.a * z.a) fun _ => 0 := by
    funext c; simp [times]
  have hq : ∀ (ch oc : Cell L W → Bool), assign (assign (fun _ => 0) ch fun _ => F.fl (simDerived z B).qw0) oc
      (fun _ => F.fl (D.fl ((simDerived z B).qw0 / 5))) =
      times z.v (assign (assign (fun _ => 0) ch fun _ => F.fl B.qw0) oc fun _ => F.fl (D.fl (B.qw0 / 5))) := by
    intro ch oc
    rw [← assign_times', ← assign_times', ← e2]
    congr 1
    · congr 1
      funext c
      exact hz.Fv _
    · funext c
      show F.fl (D.fl (z.v * B.qw0 / 5)) = z.v * F.fl (D.fl (B.qw0 / 5))
      rw [mul_div_assoc, hz.Dv, hz.Fv]
  have hn : ∀ (q : Grid L W K) (c : Cell L W), F.fl (O.nrm (times z.v q c) 0) = z.v * F.fl (O.nrm (q c) 0) := by
    intro q c
    have := hz.nrmScale (q c) 0
    rw [mul_zero] at this
    rw [← hz.Fv, ← this]
    rfl
  unfold initialStateR
  simp only [e1, hq, hn]
  unfold simState
  simp only [State.mk.injEq]
  refine ⟨rfl, rfl, rfl, rfl, e2, rfl, ?_, ?_, ?_, e3, e4, e4, rfl, rfl, rfl, ?_, trivial, rfl⟩
  · exact assign_zero_times _ _ fun c => (congrArg F.fl (mul_div_assoc _ _ _)).trans (hz.Fv _)
  · exact assign_zero_times _ _ fun c => by simp [fl_zero]
  · exact assign_zero_times _ _ fun c => (congrArg F.fl (mul_div_assoc _ _ _)).trans (hz.Fv _)
  · show (0 : K) = z.time * 0
    rw [mul_zero]

/-- C129: the configuration of a similar basin gives the similar model, to the last digit, or the same refusal.
Velocities may change only without a slope of the water surface, as in `C92_created`. -/
theorem C129_created {z : Factors K} (O : Oracle K) {I : Input K}
    (hz : Exactly F D z O.nrm fun x => O.pow x I.beta) (hg : z.v = 1 ∨ I.S0 = 0) :
    createR F D O (simInput z I) = (createR F D O I).map (simBuilt z) := by
  have ha' := hz.a.ne'
  have h1 : cellsAlongR D (simInput z I).Length (simInput z I).dx = cellsAlongR D I.Length I.dx := by
    unfold cellsAlongR
    rw [show (simInput z I).Length / (simInput z I).dx = I.Length / I.dx from mul_div_mul_left _ _ ha']
  have h2 : cellsAlongR D (simInput z I).Width (simInput z I).dx = cellsAlongR D I.Width I.dx := by
    unfold cellsAlongR
    rw [show (simInput z I).Width / (simInput z I).dx = I.Width / I.dx from mul_div_mul_left _ _ ha']
  unfold createR
  rw [validate_sim hz.a hz.c, h1, h2]
  cases validate I with
  | error e => rfl
  | ok u =>
    simp only
    rw [boundaryR_sim hz hg]
    cases boundaryConditionsR D I (cellsAlongR D I.Length I.dx) (cellsAlongR D I.Width I.dx) with
    | error e => rfl
    | ok B =>
      simp only [Except.map]
      rw [initialParamsR_sim hz, initialStateR_sim hz]
      have e0 : (simDerived z B).sizeInd = B.sizeInd := rfl
      have e1 : (simDerived z B).L0 = B.L0 := rfl
      have e2 : (simDerived z B).N0 = B.N0 := rfl
      rw [e0, e1, e2]
      split_ifs
      · rfl
      · rfl

lemma createR_funs {O : Oracle K} {I : Input K} {B : Built K} (h : createR F D O I = .ok B) :
    B.P.nrm = O.nrm ∧ B.P.pwBeta = fun x => O.pow x I.beta := by
  unfold createR at h
  cases hv : validate I with
  | error e => rw [hv] at h; simp at h
  | ok u =>
    rw [hv] at h
    simp only at h
    cases hb : boundaryConditionsR D I (cellsAlongR D I.Length I.dx) (cellsAlongR D I.Width I.dx) with
    | error e => rw [hb] at h; simp at h
    | ok E =>
      rw [hb] at h
      simp only at h
      split_ifs at h
      simp only [Except.ok.injEq] at h
      subst h
      exact ⟨rfl, rfl⟩

/-- C129: concentration and velocity only set the clock, from configuration to result and to the last digit. -/
theorem C129_model {z : Factors K} (h1 : z.a = 1) (O : Oracle K) {I : Input K}
    (hz : Exactly F D z O.nrm fun x => O.pow x I.beta) (hg : z.v = 1 ∨ I.S0 = 0) [NeZero L] [NeZero W]
    {P : Params L W m K} {S : State L W K} (h : createR F D O I = .ok ⟨L, W, m, P, S⟩) (g : Rng K σ) :
    ∃ P' S', createR F D O (simInput z I) = .ok ⟨L, W, m, P', S'⟩ ∧
      ∀ n s, (∀ e, timestepsR F D g (List.replicate n P) S s = .error e →
          timestepsR F D g (List.replicate n P') S' s = .error e) ∧
        ∀ S1 ls s1, timestepsR F D g (List.replicate n P) S s = .ok (S1, ls, s1) →
          ∃ S1' ls', timestepsR F D g (List.replicate n P') S' s = .ok (S1', ls', s1) ∧ S1'.eta = S1.eta ∧
            S1'.stage = S1.stage ∧ S1'.depth = S1.depth ∧ S1'.HSL = S1.HSL ∧ S1'.sandFrac = S1.sandFrac ∧
            S1'.activeLayer = S1.activeLayer ∧ S1'.timeIter = S1.timeIter ∧ S1'.time = S1.time / (z.v * z.c) ∧
            ∀ c, S1'.uw c = z.v * S1.uw c := by
  have hc := C129_created O hz hg
  have hf := createR_funs h
  rw [h] at hc
  refine ⟨simParams z P, simState z S, hc, fun n s => ?_⟩
  simp only at hf
  have hz' : Exactly F D z P.nrm P.pwBeta := by rw [hf.1, hf.2]; exact hz
  have hr := C129_run g h1 (Ps := List.replicate n P)
    (fun Q hQ => by rw [List.eq_of_mem_replicate hQ]; exact hz') S s
  rw [List.map_replicate] at hr
  rw [hr]
  refine ⟨fun e he => by rw [he]; rfl, fun S1 ls s1 hS => ?_⟩
  rw [hS]
  refine ⟨_, _, rfl, rfl, rfl, rfl, rfl, rfl, rfl, rfl, ?_, fun c => rfl⟩
  show z.time * S1.time = _
  unfold Factors.time
  rw [h1]
  ring

/-- C129: similar basins of any size, from configuration to result and to the last digit: with the same random
numbers, after any number of timesteps, bed, surface, depth and sea level are the same and velocities `v` times as
large, at a time `a / (v c)` times as late. -/
theorem C129_basin {z : Factors K} (O : Oracle K) {I : Input K}
    (hz : Exactly F D z O.nrm fun x => O.pow x I.beta) (hg : z.v = 1 ∨ I.S0 = 0) [NeZero L] [NeZero W]
    {P : Params L W m K} {S : State L W K} (h : createR F D O I = .ok ⟨L, W, m, P, S⟩) (g : Rng K σ) :
    ∃ P' S', createR F D O (simInput z I) = .ok ⟨L, W, m, P', S'⟩ ∧
      ∀ n s, (∀ e, timestepsR F D g (List.replicate n P) S s = .error e →
          timestepsR F D g (List.replicate n P') S' s = .error e) ∧
        ∀ S1 ls s1, timestepsR F D g (List.replicate n P) S s = .ok (S1, ls, s1) →
          ∃ S1' ls', timestepsR F D g (List.replicate n P') S' s = .ok (S1', ls', s1) ∧ S1'.eta = S1.eta ∧
            S1'.stage = S1.stage ∧ S1'.depth = S1.depth ∧ S1'.HSL = S1.HSL ∧ S1'.timeIter = S1.timeIter ∧
            S1'.time = z.a / (z.v * z.c) * S1.time ∧ ∀ c, S1'.uw c = z.v * S1.uw c ∧ S1'.qw c = z.v * S1.qw c ∧
              S1'.depSand c = z.a * z.a * S1.depSand c ∧ S1'.depMud c = z.a * z.a * S1.depMud c := by
  have hc := C129_created O hz hg
  have hf := createR_funs h
  rw [h] at hc
  refine ⟨simParams z P, simState z S, hc, fun n s => ?_⟩
  simp only at hf
  have hz' : Exactly F D z P.nrm P.pwBeta := by rw [hf.1, hf.2]; exact hz
  have hr := C129_run_shape g (Ps := List.replicate n P)
    (fun Q hQ => by rw [List.eq_of_mem_replicate hQ]; exact hz') S s
  rw [List.map_replicate] at hr
  refine ⟨fun e he => ?_, fun S1 ls s1 hS => ?_⟩
  · rw [he] at hr
    cases h4 : timestepsR F D g (List.replicate n (simParams z P)) (simState z S) s with
    | error e' => rw [h4] at hr; simpa [Except.map] using hr
    | ok r => rw [h4] at hr; simp [Except.map] at hr
  · rw [hS] at hr
    cases h4 : timestepsR F D g (List.replicate n (simParams z P)) (simState z S) s with
    | error e' => rw [h4] at hr; simp [Except.map] at hr
    | ok r =>
      rw [h4] at hr
      obtain ⟨S1', ls', s1'⟩ := r
      simp only [Except.map, plainRun, Except.ok.injEq, Prod.mk.injEq] at hr
      obtain ⟨r1, -, rfl⟩ := hr
      unfold plainState simState at r1
      simp only [State.mk.injEq] at r1
      obtain ⟨e1, e2, e3, -, -, e6, -, -, e9, -, e11, e12, -, -, e15, e16, e17, -⟩ := r1
      exact ⟨S1', ls', rfl, e1, e2, e3, e15, e17, e16, fun c =>
        ⟨congrFun e9 c, congrFun e6 c, congrFun e11 c, congrFun e12 c⟩⟩

/-! ### Powers of two -/

/-- C129: multiplying by a power of two, also by one below one, is exact for numbers of any number of binary
digits. -/
theorem C129_two (p : ℕ) (hp : 1 ≤ p) (e : ℤ) : PassesThrough (binary K p hp) (2 ^ e) := by
  intro x
  show Model.nearest p (2 ^ e * x) = 2 ^ e * Model.nearest p x
  by_cases hx : x = 0
  · subst hx
    rw [mul_zero, nearest_zero, mul_zero]
  have h2 : (0 : K) < 2 ^ e := by positivity
  have hx' : 0 < |x| := abs_pos.2 hx
  have hl : Int.log 2 |2 ^ e * x| = e + Int.log 2 |x| := by
    rw [abs_mul, abs_of_pos h2]
    have h1 : (2 : K) ^ Int.log 2 |x| ≤ |x| := log_le x hx
    have h3 : |x| < (2 : K) ^ (Int.log 2 |x| + 1) := by
      exact_mod_cast Int.lt_zpow_succ_log_self (b := 2) (by norm_num) |x|
    apply le_antisymm
    · have : Int.log 2 (2 ^ e * |x|) < e + Int.log 2 |x| + 1 := by
        rw [← Int.lt_zpow_iff_log_lt (by norm_num) (by positivity)]
        push_cast
        rw [add_assoc, zpow_add₀ two_ne_zero]
        exact mul_lt_mul_of_pos_left h3 h2
      omega
    · rw [← Int.zpow_le_iff_le_log (by norm_num) (by positivity)]
      push_cast
      rw [zpow_add₀ two_ne_zero]
      exact mul_le_mul_of_nonneg_left h1 h2.le
  unfold Model.nearest
  rw [hl]
  have e1 : (2 : K) ^ (e + Int.log 2 |x| + 1 - (p : ℤ)) = 2 ^ e * 2 ^ (Int.log 2 |x| + 1 - (p : ℤ)) := by
    rw [← zpow_add₀ two_ne_zero]
    congr 1
    ring
  rw [e1, mul_div_mul_left _ _ h2.ne', mul_left_comm]

/-- C129: no other factors are exact. -/
theorem C129_only_two (p : ℕ) (hp : 1 ≤ p) {k : K} (hk : 0 < k) :
    PassesThrough (binary K p hp) k ↔ ∃ e : ℤ, k = 2 ^ e := by
  refine ⟨fun h => ?_, fun ⟨e, he⟩ => by rw [he]; exact C129_two p hp e⟩
  have h2 : ∀ e : ℤ, (0 : K) < 2 ^ e := fun e => by positivity
  have f1 : Model.nearest p (1 : K) = 1 := by
    have := nearest_exact (K := K) hp (m := 1) (by simpa using one_le_pow₀ (one_le_two)) 0
    simpa using this
  have fk : k = Model.nearest p k := by
    have := h 1
    change Model.nearest p (k * 1) = k * Model.nearest p 1 at this
    rw [f1, mul_one] at this
    exact this.symm
  obtain ⟨m, hm, e, he⟩ := nearest_repr p k
  rw [← fk] at he
  have hm0 : 0 < m := by
    have : (0 : K) < (m : K) := by
      by_contra h0
      have := mul_nonpos_of_nonpos_of_nonneg (not_lt.1 h0) (h2 e).le
      linarith
    exact_mod_cast this
  obtain ⟨n, rfl⟩ : ∃ n : ℕ, m = n := ⟨m.toNat, by omega⟩
  obtain ⟨r, q, hq, hn⟩ := Nat.exists_eq_two_pow_mul_odd (n := n) (by omega)
  have hkq : k = (q : K) * 2 ^ (e + r) := by
    rw [he, hn, zpow_add₀ two_ne_zero]
    push_cast
    rw [zpow_natCast]
    ring
  by_cases hq1 : q = 1
  · exact ⟨e + r, by rw [hkq, hq1]; simp⟩
  exfalso
  have hq3 : 3 ≤ q := by
    obtain ⟨j, rfl⟩ := hq
    omega
  have hnp : n ≤ 2 ^ p := by
    have := hm
    rw [abs_of_pos hm0] at this
    exact_mod_cast this
  have hqn : q ≤ 2 ^ p := le_trans (by rw [hn]; exact Nat.le_mul_of_pos_left _ (by positivity)) hnp
  have hP : 3 ≤ 2 ^ p := hq3.trans hqn
  have hev : Even (2 ^ p) := by
    rw [Nat.even_pow]
    exact ⟨even_two, by omega⟩
  set x : ℕ := 2 ^ p - 1 with hx
  have hxo : Odd x := by
    rw [hx]
    exact Nat.Even.sub_odd (by omega) hev odd_one
  have fx : Model.nearest p (x : K) = x := by
    have := nearest_exact (K := K) hp (m := x) (by
      rw [Nat.abs_cast]
      have : x ≤ 2 ^ p := Nat.sub_le _ _
      exact_mod_cast this) 0
    simpa using this
  have hkx : k * (x : K) = Model.nearest p (k * (x : K)) := by
    have := h x
    change Model.nearest p (k * (x : K)) = k * Model.nearest p (x : K) at this
    rw [fx] at this
    exact this.symm
  obtain ⟨m', hm', e', he'⟩ := nearest_repr p (k * (x : K))
  rw [← hkx, hkq] at he'
  have hN : 2 ^ p < q * x := by
    have : 3 * x ≤ q * x := Nat.mul_le_mul_right _ hq3
    omega
  have hNo : Odd (q * x) := hq.mul hxo
  have key : ((q * x : ℕ) : K) * 2 ^ (e + r) = (m' : K) * 2 ^ e' := by
    rw [← he']
    push_cast
    ring
  generalize e + (r : ℤ) = d at key
  rcases le_total d e' with hle | hle
  · obtain ⟨j, hj⟩ := Int.le.dest hle
    rw [← hj, zpow_add₀ two_ne_zero, zpow_natCast, mul_comm ((2 : K) ^ d), ← mul_assoc] at key
    have key2 := mul_right_cancel₀ (h2 _).ne' key
    have key3 : ((q * x : ℕ) : ℤ) = m' * 2 ^ j := by exact_mod_cast key2
    cases j with
    | zero =>
      rw [pow_zero, mul_one] at key3
      rw [← key3, Nat.abs_cast] at hm'
      have : q * x ≤ 2 ^ p := by exact_mod_cast hm'
      omega
    | succ j =>
      have ho : Odd ((q * x : ℕ) : ℤ) := by exact_mod_cast hNo
      rw [key3, pow_succ] at ho
      have hev : Even (m' * (2 ^ j * 2)) := ⟨m' * 2 ^ j, by ring⟩
      exact (Int.not_even_iff_odd.2 ho) hev
  · obtain ⟨j, hj⟩ := Int.le.dest hle
    rw [← hj, zpow_add₀ two_ne_zero, zpow_natCast, mul_comm ((2 : K) ^ e'), ← mul_assoc] at key
    have key2 := mul_right_cancel₀ (h2 _).ne' key
    have key3 : ((q * x : ℕ) : ℤ) * 2 ^ j = m' := by exact_mod_cast key2
    have h1 : ((q * x : ℕ) : ℤ) ≤ m' := by
      rw [← key3]
      exact le_mul_of_one_le_right (by positivity) (one_le_pow₀ (by norm_num))
    have h3 : m' ≤ 2 ^ p := (le_abs_self _).trans hm'
    have h4 : ((2 ^ p : ℕ) : ℤ) < ((q * x : ℕ) : ℤ) := by exact_mod_cast hN
    push_cast at h1 h4
    linarith

/-- C129: what is asked holds in the arithmetic of the program for factors that are powers of two, if the exponent of
the velocity is a number of which powers of two have powers of two: `pow` and `nrm` may be rounded themselves. -/
theorem C129_factors {p q : ℕ} {hp : 1 ≤ p} {hq : 1 ≤ q} {z : Factors K} {nrm : K → K → K} {pw : K → K}
    (ha : ∃ i : ℤ, z.a = 2 ^ i) (hv : ∃ i : ℤ, z.v = 2 ^ i) (hc : ∃ i : ℤ, z.c = 2 ^ i)
    (hn : ∀ x y, nrm (z.v * x) (z.v * y) = z.v * nrm x y) (h0 : ∀ x y, nrm x y ≤ 0 → x = 0 ∧ y = 0)
    (hk : ∃ i : ℤ, ∀ x, pw (z.v * x) = 2 ^ i * pw x) : Exactly (binary K p hp) (binary K q hq) z nrm pw := by
  obtain ⟨i, hi⟩ := ha
  obtain ⟨j, hj⟩ := hv
  obtain ⟨l, hl⟩ := hc
  obtain ⟨k, hk⟩ := hk
  refine ⟨?_, ?_, ?_, ?_, ?_, ?_, ?_, ?_, ?_, hn, h0, (2 : K) ^ k, ?_, C129_two _ _ _, hk⟩
  · rw [hi]; positivity
  · rw [hj]; positivity
  · rw [hl]; positivity
  · rw [hi]; exact C129_two _ _ _
  · rw [hj]; exact C129_two _ _ _
  · rw [hl]; exact C129_two _ _ _
  · rw [hi]; exact C129_two _ _ _
  · rw [hj]; exact C129_two _ _ _
  · rw [hl]; exact C129_two _ _ _
  · positivity

end Created

/-! ### Examples -/

/-- Half the distances, the same velocity, four times the concentration. -/
def exHalf : Factors ℚ := ⟨1 / 2, 1, 4⟩

lemma exExactly (b : ℚ) : Exactly single double exHalf exOracle.nrm fun x => exOracle.pow x b :=
  C129_factors ⟨-1, by norm_num [exHalf]⟩ ⟨0, by norm_num [exHalf]⟩ ⟨2, by norm_num [exHalf]⟩
    (fun x y => by simp [exHalf]) (fun x y h => by
      change |x| + |y| ≤ 0 at h
      have h1 := abs_nonneg x
      have h2 := abs_nonneg y
      exact ⟨abs_eq_zero.1 (by linarith), abs_eq_zero.1 (by linarith)⟩) ⟨0, fun x => by simp [exHalf]⟩

-- C129_basin: the default configuration in the arithmetic of the program, at half its size with four times the
-- sediment: any number of timesteps runs and gives the same bed in an eighth of the time
example {τ : Type} {g : Rng ℚ τ} (hg : PositiveDraws g) (n : ℕ) (s : τ) :
    ∃ (L W m : ℕ) (_ : NeZero L) (_ : NeZero W) (P P' : Params L W m ℚ) (S S' : State L W ℚ),
    createR single double exOracle exDoubles = .ok ⟨L, W, m, P, S⟩ ∧
      createR single double exOracle (simInput exHalf exDoubles) = .ok ⟨L, W, m, P', S'⟩ ∧
      ∃ S1 ls s1 S1' ls', timestepsR single double g (List.replicate n P) S s = .ok (S1, ls, s1) ∧
        timestepsR single double g (List.replicate n P') S' s = .ok (S1', ls', s1) ∧ S1'.eta = S1.eta ∧
        S1'.time = S1.time / 8 := by
  obtain ⟨L, W, m, iL, iW, P, S, h, -, hr⟩ := C107_default hg
  obtain ⟨P', S', h1, h2⟩ := C129_basin exOracle (exExactly _) (Or.inl rfl) h g
  obtain ⟨S1, ls, s1, r, -⟩ := hr n s
  obtain ⟨S1', ls', r', e1, -, -, -, -, e2, -⟩ := (h2 n s).2 S1 ls s1 r
  refine ⟨L, W, m, iL, iW, P, P', S, S', h, h1, S1, ls, s1, S1', ls', r, r', e1, ?_⟩
  rw [e2]
  norm_num [exHalf]
  ring

-- C129_model: with four times the concentration only, also the composition is the same
example {τ : Type} {g : Rng ℚ τ} (hg : PositiveDraws g) (n : ℕ) (s : τ) :
    ∃ (L W m : ℕ) (_ : NeZero L) (_ : NeZero W) (P P' : Params L W m ℚ) (S S' : State L W ℚ),
    createR single double exOracle exDoubles = .ok ⟨L, W, m, P, S⟩ ∧
      createR single double exOracle (simInput ⟨1, 1, 4⟩ exDoubles) = .ok ⟨L, W, m, P', S'⟩ ∧
      ∃ S1 ls s1 S1' ls', timestepsR single double g (List.replicate n P) S s = .ok (S1, ls, s1) ∧
        timestepsR single double g (List.replicate n P') S' s = .ok (S1', ls', s1) ∧ S1'.eta = S1.eta ∧
        S1'.sandFrac = S1.sandFrac ∧ S1'.time = S1.time / 4 := by
  obtain ⟨L, W, m, iL, iW, P, S, h, -, hr⟩ := C107_default hg
  obtain ⟨P', S', h1, h2⟩ := C129_model (z := ⟨1, 1, 4⟩) rfl exOracle (I := exDoubles)
    (C129_factors ⟨0, by norm_num⟩ ⟨0, by norm_num⟩ ⟨2, by norm_num⟩
    (fun x y => by simp) (exExactly 0).nrmZero ⟨0, fun x => by simp⟩) (Or.inl rfl) h g
  obtain ⟨S1, ls, s1, r, -⟩ := hr n s
  obtain ⟨S1', ls', r', e1, -, -, -, e3, -, -, e2, -⟩ := (h2 n s).2 S1 ls s1 r
  refine ⟨L, W, m, iL, iW, P, P', S, S', h, h1, S1, ls, s1, S1', ls', r, r', e1, e3, ?_⟩
  rw [e2]
  norm_num

end Verif.Props
