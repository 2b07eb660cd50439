import Verif.Model.Defined
import Verif.Props.Created

/-!
# Every operation of a run is defined (C104)

The functions of `Model/Defined` check each division and each power. Here: with settings as the
initialization makes them they give what the unchecked functions of `Model/Timestep` give, so no timestep
divides by zero or takes a power of a negative number, and the value that the model gives to such
operations never matters.
-/

set_option linter.unusedSectionVars false
set_option linter.unusedSimpArgs false

namespace Verif.Props

open Verif.Model Verif.Lemmas Verif.Spec

variable {K : Type} [Field K] [LinearOrder K] [IsStrictOrderedRing K] {σ : Type} {L W m : ℕ}

lemma ok_bind {α β : Type} (a : α) (f : α → Except Fault β) :
    ((Except.ok a : Except Fault α) >>= f) = f a := rfl

lemma error_bind {α β : Type} (e : Fault) (f : α → Except Fault β) :
    ((Except.error e : Except Fault α) >>= f) = .error e := rfl

lemma pure_ok {α : Type} (a : α) : (pure a : Except Fault α) = .ok a := rfl

lemma divD_ok {a b : K} (h : b ≠ 0) : divD a b = .ok (a / b) := if_neg h

lemma powD_ok {pw : K → K} {x : K} (h : 0 ≤ x) : powD pw x = .ok (pw x) := if_neg (not_lt.2 h)

lemma allD_ok {ι : Type} [Fintype ι] {f : ι → Except Fault K} {v : ι → K} (h : ∀ i, f i = .ok (v i)) :
    allD f = .ok v := by
  unfold allD
  rw [if_pos (fun i => by rw [h]; rfl)]
  congr 1
  funext i
  rw [h]
  rfl

/-! ## Weights -/

lemma distances_ne {s2 : K} (h : s2 ≠ 0) (d : Fin 9) : distances s2 d ≠ 0 := by
  fin_cases d <;> simp [distances, h]

lemma weightSfcD_ok {s2 : K} (h : s2 ≠ 0) (stage : K) (n : Fin 9 → K) :
    weightSfcD stage n s2 = .ok (weightSfc stage n s2) :=
  allD_ok fun d => by rw [divD_ok (distances_ne h d)]; rfl

lemma weightIntD_ok {s2 : K} (h : s2 ≠ 0) (qx qy s05 : K) :
    weightIntD qx qy s05 s2 = .ok (weightInt qx qy s05 s2) :=
  allD_ok fun d => by rw [divD_ok (distances_ne h d)]; rfl

lemma normD_ok {w : Fin 9 → K} (h : ∑ e, w e ≠ 0) : normD w = .ok (fun d => w d / ∑ e, w e) :=
  allD_ok fun d => divD_ok h

lemma rebalanceD_ok (w : Fin 9 → K) : rebalanceD w = .ok (rebalance w) := by
  unfold rebalanceD rebalance
  split_ifs with h
  · exact normD_ok h.ne'
  · rfl

lemma waterWeightAtCellD_eq (row0 : Bool) (wSfc wInt : Fin 9 → K) {depthN modN : Fin 9 → K}
    (ctN : Fin 9 → ℤ) (dryDepth gamma : K) (pw : K → K) (hd : ∀ d, 0 ≤ depthN d)
    (hm : ∀ d, 0 ≤ modN d) :
    waterWeightAtCellD row0 wSfc wInt depthN modN ctN dryDepth gamma pw =
      ofErr (waterWeightAtCell row0 wSfc wInt depthN modN ctN dryDepth gamma pw) := by
  have hp : (allD fun d => powD pw (depthN d * modN d)) = .ok (fun d => pw (depthN d * modN d)) :=
    allD_ok fun d => powD_ok (mul_nonneg (hd d) (hm d))
  unfold waterWeightAtCellD waterWeightAtCell
  simp only [rebalanceD_ok, ok_bind, hp]
  split_ifs with h1 h2 h3 h4 h5
  · rw [normD_ok h1.ne']; rfl
  · rfl
  · rw [divD_ok (by exact_mod_cast h4.ne'), ok_bind, normD_ok]
    · rfl
    · rw [uniform_sum _ h4]; exact one_ne_zero
  · rw [divD_ok (by exact_mod_cast h5.ne'), ok_bind, normD_ok]
    · rfl
    · have := uniform_sum (K := K) (fun d => !decide (ctN d = -2)) h5
      rw [this]; exact one_ne_zero
  · rfl
  · rfl

lemma sedWeightAtCellD_eq (wInt : Fin 9 → K) {depthN modN : Fin 9 → K} (ctN : Fin 9 → ℤ)
    (dryDepth : K) (pw : K → K) {dist : Fin 9 → K} (hd : ∀ d, 0 ≤ depthN d) (hm : ∀ d, 0 ≤ modN d)
    (hdist : ∀ d, dist d ≠ 0) :
    sedWeightAtCellD wInt depthN modN ctN dryDepth pw dist =
      ofErr (sedWeightAtCell wInt depthN modN ctN dryDepth pw dist) := by
  have hp : (allD fun d => powD pw (depthN d * modN d)) = .ok (fun d => pw (depthN d * modN d)) :=
    allD_ok fun d => powD_ok (mul_nonneg (hd d) (hm d))
  have hi : (allD fun d => divD 1 (dist d)) = .ok (fun d => 1 / dist d) :=
    allD_ok fun d => divD_ok (hdist d)
  have key : ∀ w : Fin 9 → K,
      (if ∑ d, w d = 0 then (.error (.raised .sedNoWeights) : Except Fault (Fin 9 → K)) else normD w) =
        ofErr (if ∑ d, w d = 0 then .error .sedNoWeights else .ok (fun d => w d / ∑ e, w e)) := by
    intro w
    split_ifs with h
    · rfl
    · rw [normD_ok h]; rfl
  unfold sedWeightAtCellD sedWeightAtCell
  simp only [ok_bind, hp, hi, pure_ok]
  by_cases h1 : (∑ d, if (decide (depthN d ≤ dryDepth) || decide (ctN d = -2)) = true then 0
      else if decide (d = 4) = true then 0
      else pw (depthN d * modN d) * if decide (d = 4) = true then 0 else wInt d) = 0
  · simp only [if_pos h1, ok_bind]
    exact key _
  · simp only [if_neg h1, ok_bind]
    exact key _

lemma pad_nonneg' [NeZero L] [NeZero W] {arr : Grid L W K} (h : ∀ c, 0 ≤ arr c)
    (p : Cell (L + 2) (W + 2)) : 0 ≤ customPad arr p := by
  obtain ⟨c, -, -, hv⟩ := C03_pad_edge arr p
  rw [hv]
  exact h c

/-- Settings as the initialization makes them, as far as divisions and powers depend on them. -/
structure DefinedSetup (P : Params L W m K) : Prop where
  dx : P.dx ≠ 0
  dt : P.dt ≠ 0
  s2 : P.s2 ≠ 0
  dry : 0 ≤ P.dryDepth
  uMax : 0 ≤ P.uMax
  qw0 : 0 ≤ P.qw0
  h0 : 0 ≤ P.h0
  nrm : ∀ x y, 0 ≤ P.nrm x y
  modWater : ∀ c, 0 ≤ P.modWater c
  modSed : ∀ c, 0 ≤ P.modSed c
  u0 : 0 < P.u0
  eroSand : 0 < P.UeroSand
  eroMud : 0 < P.UeroMud
  depMud : 0 < P.UdepMud
  pw : ∀ x, 0 < x → P.pwBeta x ≠ 0
  hm : 0 < m

/-- No depth, speed or discharge is negative. -/
structure NonnegFlow (S : State L W K) : Prop where
  depth : ∀ c, 0 ≤ S.depth c
  uw : ∀ c, 0 ≤ S.uw c
  qw : ∀ c, 0 ≤ S.qw c

section water

variable [NeZero L] [NeZero W]

lemma waterWeightArrayD_eq {P : Params L W m K} (hP : DefinedSetup P) {S : State L W K}
    (hd : ∀ c, 0 ≤ S.depth c) : waterWeightArrayD P S = ofErr (waterWeightArray P S) := by
  have hc : ∀ c, waterWeightsD S.depth S.stage P.modWater P.cellType S.qx S.qy P.s2 P.s05 P.dryDepth
      P.gamma P.pwWater c = ofErr (waterWeights S.depth S.stage P.modWater P.cellType S.qx S.qy P.s2
      P.s05 P.dryDepth P.gamma P.pwWater c) := by
    intro c
    unfold waterWeightsD waterWeights
    rw [weightSfcD_ok hP.s2, ok_bind, weightIntD_ok hP.s2, ok_bind]
    exact waterWeightAtCellD_eq _ _ _ _ _ _ _ (fun d => pad_nonneg' hd _)
      (fun d => pad_nonneg' hP.modWater _)
  have hl : ∀ (f : Cell L W → Except Err (Fin 9 → K)) (fD : Cell L W → Except Fault (Fin 9 → K)),
      (∀ c, fD c = ofErr (f c)) → ∀ l, firstFault fD l = (firstErr f l).map .raised := by
    intro f fD h l
    induction l with
    | nil => rfl
    | cons c cs ih =>
      simp only [firstFault, firstErr, h c]
      cases f c with
      | error e => rfl
      | ok a => simpa [ofErr] using ih
  unfold waterWeightArrayD waterWeightArray
  simp only []
  rw [hl (waterWeights S.depth S.stage P.modWater P.cellType S.qx S.qy P.s2 P.s05 P.dryDepth
      P.gamma P.pwWater) _ hc]
  generalize firstErr _ _ = x
  cases x with
  | some e => rfl
  | none =>
    simp only [Option.map_none, ofErr]
    congr 1
    funext c
    rw [hc c]
    generalize waterWeights S.depth S.stage P.modWater P.cellType S.qx S.qy P.s2 P.s05 P.dryDepth
      P.gamma P.pwWater c = y
    cases y <;> rfl

omit [NeZero L] [NeZero W] in
lemma getStartIndicesD_eq (hm : 0 < m) (inlet : Fin m → ℤ) (draws : List K) :
    getStartIndicesD inlet (getInletWeights inlet : Fin m → K) draws =
      match getStartIndices inlet (getInletWeights inlet : Fin m → K) draws with
      | none => .error (.raised .index)
      | some starts => .ok starts := by
  have hs : (List.ofFn (getInletWeights inlet : Fin m → K)).sum ≠ 0 := by
    unfold getInletWeights
    rw [List.sum_ofFn]
    simp [hm.ne']
  unfold getStartIndicesD getStartIndices
  rw [allD_ok (fun k => divD_ok hs), ok_bind]
  rfl

omit [NeZero L] [NeZero W] in
lemma stepDist_ne {s2 : K} (h : s2 ≠ 0) {d : Fin 9} (hd : d ≠ 4) : stepDist s2 d ≠ 0 := by
  fin_cases d <;> first | exact absurd rfl hd | simp [stepDist, iwalk, jwalk, h]

omit [NeZero L] [NeZero W] in
lemma addFluxD_eq {E : WEnv L W K} (h2 : E.s2 ≠ 0) (hx : E.dx ≠ 0) (f : Flux L W K) (ind : ℤ)
    (d : Fin 9) : addFluxD E f ind d = ofErr (addFlux E f ind d) := by
  unfold addFluxD addFlux
  split_ifs with hd
  · cases flatCell L W ind with
    | none => rfl
    | some c =>
      simp only []
      rw [divD_ok (stepDist_ne h2 hd), ok_bind, divD_ok (stepDist_ne h2 hd), ok_bind, divD_ok hx,
        ok_bind]
      rfl
  · rfl

omit [NeZero L] [NeZero W] in
lemma addFluxesD_eq {E : WEnv L W K} (h2 : E.s2 ≠ 0) (hx : E.dx ≠ 0) (sel : StepRec → ℤ)
    (p : StepRec → Bool) : ∀ (rs : List StepRec) (f : Flux L W K),
    addFluxesD E sel p rs f = ofErr (addFluxes E sel p rs f)
  | [], f => rfl
  | r :: rs, f => by
    unfold addFluxesD addFluxes
    split_ifs with hp
    · rw [addFluxD_eq h2 hx]
      cases addFlux E f (sel r) r.dir with
      | error e => rfl
      | ok f1 => exact addFluxesD_eq h2 hx sel p rs f1
    · exact addFluxesD_eq h2 hx sel p rs f

variable [FloorRing K]

omit [NeZero L] [NeZero W] in
lemma checkLoopD_eq (E : WEnv L W K) (step : ℕ) (walk : List ℤ) (newInd : ℤ) :
    checkLoopD E step walk newInd = ofErr (checkLoop E step walk newInd) := by
  unfold checkLoopD checkLoop
  simp only []
  split_ifs
  · cases customUnravel newInd ((L : ℤ), (W : ℤ)) with
    | error e => rfl
    | ok v =>
      obtain ⟨px0, py0⟩ := v
      simp only []
      split_ifs with hw
      · rw [divD_ok hw, ok_bind, divD_ok hw, ok_bind]
        generalize customRavel _ _ = x
        generalize pyCell L W px0 py0 = y
        cases x <;> cases y <;> rfl
      · rfl
  all_goals rfl

omit [NeZero L] [NeZero W] in
lemma parcelStepD_eq (E : WEnv L W K) (step : ℕ) (p : WParcel) (d : Fin 9) :
    parcelStepD E step p d = ofErr (parcelStep E step p d) := by
  unfold parcelStepD parcelStep
  simp only [checkLoopD_eq]
  generalize checkLoop E step p.walk _ = x
  cases x with
  | error e => rfl
  | ok v =>
    obtain ⟨new2, looped⟩ := v
    simp only [ofErr, ok_bind]
    generalize isBoundary E new2 = y
    cases y <;> rfl

omit [NeZero L] [NeZero W] in
lemma parcelStepsD_eq (E : WEnv L W K) (step : ℕ) : ∀ (ps : List WParcel) (ds : List (Fin 9)),
    parcelStepsD E step ps ds = ofErr (parcelSteps E step ps ds)
  | [], [] => rfl
  | [], _ :: _ => rfl
  | _ :: _, [] => rfl
  | p :: ps, d :: ds => by
    unfold parcelStepsD parcelSteps
    rw [parcelStepD_eq, parcelStepsD_eq E step ps ds]
    cases parcelStep E step p d with
    | error e => rfl
    | ok v =>
      obtain ⟨p1, r1⟩ := v
      simp only [ofErr, ok_bind]
      cases parcelSteps E step ps ds <;> rfl

omit [NeZero L] [NeZero W] in
lemma waterStepD_eq (g : Rng K σ) {E : WEnv L W K} (h2 : E.s2 ≠ 0) (hx : E.dx ≠ 0) (step : ℕ)
    (st : WState L W K) (s : σ) : waterStepD g E step st s = ofErr (waterStep g E step st s) := by
  unfold waterStepD waterStep
  simp only []
  split_ifs with hn
  · generalize chooseDirs g E.weights _ s = x
    cases x with
    | error e => rfl
    | ok v =>
      obtain ⟨ds, s1⟩ := v
      simp only [ofErr, ok_bind, parcelStepsD_eq]
      generalize parcelSteps E step _ ds = y
      cases y with
      | error e => rfl
      | ok v =>
        obtain ⟨ps, recs⟩ := v
        simp only [ofErr, ok_bind, addFluxesD_eq h2 hx]
        generalize addFluxes E (·.cur) (fun _ => true) recs _ = z
        cases z with
        | error e => rfl
        | ok f1 =>
          simp only [ofErr, ok_bind]
          generalize addFluxes E (·.new1) (fun _ => true) recs _ = z
          cases z with
          | error e => rfl
          | ok f2 =>
            simp only [ofErr, ok_bind]
            generalize addFluxes E (·.new2) (·.bnd) recs _ = z
            cases z <;> rfl
  · rfl

omit [NeZero L] [NeZero W] in
lemma waterLoopD_eq (g : Rng K σ) {E : WEnv L W K} (h2 : E.s2 ≠ 0) (hx : E.dx ≠ 0) (step : ℕ)
    (st : WState L W K) (s : σ) : waterLoopD g E step st s = ofErr (waterLoop g E step st s) := by
  rw [waterLoopD, waterLoop]
  split_ifs with hc
  · rw [waterStepD_eq g h2 hx]
    generalize hy : waterStep g E (step + 1) st s = y
    cases y with
    | error e => rfl
    | ok v =>
      obtain ⟨st1, recs, s1⟩ := v
      simp only [ofErr]
      rw [waterLoopD_eq g h2 hx (step + 1) st1 s1]
      generalize waterLoop g E (step + 1) st1 s1 = z
      cases z <;> rfl
  · rfl
  termination_by E.stepmax - step

omit [NeZero L] [NeZero W] in
lemma runWaterIterationD_eq (g : Rng K σ) {E : WEnv L W K} (h2 : E.s2 ≠ 0) (hx : E.dx ≠ 0)
    (hm : 0 < m) (inlet : Fin m → ℤ) (np ncols : ℕ) (s : σ) :
    runWaterIterationD g E inlet np ncols s = ofErr (runWaterIteration g E inlet np ncols s) := by
  unfold runWaterIterationD runWaterIteration
  simp only [getStartIndicesD_eq hm]
  generalize getStartIndices inlet (getInletWeights inlet : Fin m → K) (drawN g np s).1 = x
  cases x with
  | none => rfl
  | some starts =>
    simp only [ok_bind]
    unfold waterStartD waterStart
    rw [divD_ok hx, ok_bind]
    split_ifs with hs
    · simp only [ok_bind]; exact waterLoopD_eq g h2 hx _ _ _
    · rfl

/-! ## The water surface -/

omit [NeZero L] [NeZero W] in
lemma backStepD_eq (E : SfcEnv L W K) (nx c : Cell L W) (s : SfcState L W K) :
    backStepD E nx c s = .ok (backStep E nx c s) := by
  unfold backStepD backStep
  split_ifs with h1 h2 h3 h4
  · rfl
  · rfl
  · rfl
  · rw [divD_ok h4]; rfl
  · rfl

omit [NeZero L] [NeZero W] in
lemma backWalkD_eq (E : SfcEnv L W K) : ∀ (cs : List (Cell L W)) (nx : Cell L W)
    (s : SfcState L W K), backWalkD E nx cs s = .ok (backWalk E nx cs s)
  | [], _, _ => rfl
  | c :: cs, nx, s => by
    unfold backWalkD backWalk
    rw [backStepD_eq, ok_bind]
    exact backWalkD_eq E cs c _

omit [NeZero L] [NeZero W] in
lemma sfcParcelD_eq (E : SfcEnv L W K) (walk : List ℤ) (flag : Bool) (a : SfcAcc L W K) :
    sfcParcelD E walk flag a = ofErr (sfcParcel E walk flag a) := by
  unfold sfcParcelD sfcParcel
  cases walkCells L W walk with
  | error e => rfl
  | ok cs =>
    simp only [ofErr, ok_bind]
    cases cs.reverse with
    | nil => rfl
    | cons last rest =>
      simp only [backWalkD_eq, ok_bind, pure_ok]
      split_ifs <;> rfl

omit [NeZero L] [NeZero W] in
lemma sfcParcelsD_eq (E : SfcEnv L W K) : ∀ (ps : List (List ℤ × Bool)) (a : SfcAcc L W K),
    sfcParcelsD E ps a = ofErr (sfcParcels E ps a)
  | [], _ => rfl
  | (walk, flag) :: ps, a => by
    unfold sfcParcelsD sfcParcels
    rw [sfcParcelD_eq]
    cases sfcParcel E walk flag a with
    | error e => rfl
    | ok a1 => exact sfcParcelsD_eq E ps a1

omit [NeZero L] [NeZero W] in
lemma computeHnewD_eq (eta depth : Grid L W K) (a : SfcAcc L W K) (HSL : K) :
    computeHnewD eta depth a HSL = .ok (computeHnew eta depth a HSL) := by
  refine allD_ok fun c => ?_
  unfold computeHnew
  by_cases hv : a.visit c > 0
  · simp only [if_pos hv]
    rw [divD_ok hv.ne', ok_bind]; rfl
  · simp only [if_neg hv]; rfl

lemma smoothPassD_eq (cellType : Grid L W ℤ) (C : K) (H : Grid L W K) :
    smoothPassD cellType C H = .ok (smoothPass cellType C H) := by
  refine allD_ok fun c => ?_
  simp only [smoothPass]
  split_ifs with h1 h2
  · rw [divD_ok (by exact_mod_cast h2.ne'), ok_bind]; rfl
  · rfl
  · rfl

lemma smoothD_eq (cellType : Grid L W ℤ) (C : K) : ∀ (n : ℕ) (H : Grid L W K),
    smoothD cellType C n H = .ok (smooth cellType C n H)
  | 0, _ => rfl
  | n + 1, H => by
    unfold smoothD smooth
    rw [smoothPassD_eq, ok_bind]
    exact smoothD_eq cellType C n _

lemma computeFreeSurfaceD_eq (P : Params L W m K) (S : State L W K) (parcels : List WParcel) :
    computeFreeSurfaceD P S parcels = ofErr (computeFreeSurface P S parcels) := by
  unfold computeFreeSurfaceD computeFreeSurface accumulateFreeSurface
  rw [sfcParcelsD_eq]
  generalize sfcParcels (sfcEnv P S) (parcels.map (fun p => (p.walk, p.flag)))
    ⟨fun _ => 0, fun _ => 0⟩ = x
  cases x with
  | error e => rfl
  | ok a =>
    simp only [ofErr, ok_bind, computeHnewD_eq, smoothD_eq]
    rfl

/-! ## Discharge and velocity -/

omit [NeZero L] [NeZero W] [FloorRing K] in
lemma qwnDivD_eq (nrm : K → K → K) (f : Flux L W K) : qwnDivD nrm f = .ok (qwnDiv nrm f) := by
  refine allD_ok fun c => ?_
  unfold qwnDiv
  simp only []
  split_ifs with h
  · exact divD_ok h.ne'
  · rfl

omit [NeZero L] [NeZero W] [FloorRing K] in
lemma updateFlowD_eq (nrm : K → K → K) (o1 o2 qw0 : K) (inlet : Fin m → Fin W) (t i : ℕ)
    (qx qy : Grid L W K) (f : Flux L W K) :
    updateFlowD nrm o1 o2 qw0 inlet t i qx qy f = .ok (updateFlow nrm o1 o2 qw0 inlet t i qx qy f) := by
  unfold updateFlowD
  rw [qwnDivD_eq, ok_bind]
  rfl

omit [NeZero L] [NeZero W] [FloorRing K] in
lemma updateVelocityD_eq {uMax dryDepth : K} (hd : 0 ≤ dryDepth) (depth : Grid L W K)
    (q : Flux L W K) :
    updateVelocityD uMax dryDepth depth q = .ok (updateVelocity uMax dryDepth depth q) := by
  unfold updateVelocityD
  have e1 := allD_ok (f := fun c : Cell L W =>
    if (decide (depth c > dryDepth) && decide (q.qw c > 0)) = true then do
      let u ← divD (q.qw c) (depth c)
      pure (min uMax u)
    else pure 0) (v := (updateVelocity uMax dryDepth depth q).uw) (by
      intro c
      simp only [updateVelocity]
      split_ifs with h
      · simp only [Bool.and_eq_true, decide_eq_true_eq] at h
        rw [divD_ok (by linarith [h.1] : 0 < depth c).ne', ok_bind]; rfl
      · rfl)
  have e2 : ∀ v : Grid L W K, allD (fun c : Cell L W =>
    if (decide (depth c > dryDepth) && decide (q.qw c > 0)) = true then
      divD ((updateVelocity uMax dryDepth depth q).uw c * v c) (q.qw c) else pure 0) = .ok (fun c =>
      if (decide (depth c > dryDepth) && decide (q.qw c > 0)) = true then
        min uMax (q.qw c / depth c) * v c / q.qw c else 0) := by
    intro v
    refine allD_ok fun c => ?_
    simp only [updateVelocity]
    split_ifs with h
    · simp only [Bool.and_eq_true, decide_eq_true_eq] at h
      rw [divD_ok h.2.ne']
    · rfl
  simp only []
  rw [e1, ok_bind, e2, ok_bind, e2, ok_bind]
  rfl

lemma waterIterationD_eq (g : Rng K σ) {P : Params L W m K} (hP : DefinedSetup P) (it : ℕ)
    {S : State L W K} (hd : ∀ c, 0 ≤ S.depth c) (s : σ) :
    waterIterationD g P it S s = ofErr (waterIteration g P it S s) := by
  unfold waterIterationD waterIteration
  rw [waterWeightArrayD_eq hP hd]
  generalize waterWeightArray P S = x
  cases x with
  | error e => rfl
  | ok w =>
    simp only [ofErr, ok_bind]
    rw [runWaterIterationD_eq g (E := waterEnv P S w) hP.s2 hP.dx hP.hm]
    generalize runWaterIteration g _ _ _ _ s = y
    cases y with
    | error e => rfl
    | ok v =>
      obtain ⟨wst, log, n, s1⟩ := v
      simp only [ofErr, ok_bind, computeFreeSurfaceD_eq]
      generalize computeFreeSurface P S wst.parcels = z
      cases z with
      | error e => rfl
      | ok stage =>
        simp only [ofErr, ok_bind]
        unfold finalizeWaterIterationD
        simp only [updateFlowD_eq, ok_bind, updateVelocityD_eq hP.dry]
        rfl

/-- The fields after a water iteration. -/
lemma waterIteration_nonneg {g : Rng K σ} {P : Params L W m K} (hP : DefinedSetup P) {it : ℕ}
    {S S' : State L W K} {s s' : σ} (h : waterIteration g P it S s = .ok (S', s')) :
    NonnegFlow S' := by
  obtain ⟨w, wst, log, n, stage, -, -, -, rfl⟩ := waterIteration_ok h
  have hq : ∀ c, 0 ≤ (updateFlow P.nrm P.omegaFlow P.omegaFlowIter P.qw0 P.inlet S.timeIter it S.qx S.qy
      wst.flux).qw c := by
    intro c
    simp only [updateFlow, assign]
    split_ifs
    · exact hP.qw0
    all_goals exact hP.nrm _ _
  refine ⟨fun c => le_max_right _ _, fun c => ?_, hq⟩
  simp only [finalizeWaterIteration, updateVelocity]
  split_ifs with hm
  · exact le_min hP.uMax (div_nonneg (hq c) (le_max_right _ _))
  · exact le_refl _

lemma routeWaterFromD_eq (g : Rng K σ) {P : Params L W m K} (hP : DefinedSetup P) :
    ∀ (n it : ℕ) {S : State L W K} (_ : NonnegFlow S) (s : σ),
    routeWaterFromD g P it n S s = ofErr (routeWaterFrom g P it n S s) ∧
      ∀ S' s', routeWaterFrom g P it n S s = .ok (S', s') → NonnegFlow S'
  | 0, _, _, hS, _ => ⟨rfl, fun S' s' h => by
      simp only [routeWaterFrom, Except.ok.injEq, Prod.mk.injEq] at h
      rw [← h.1]; exact hS⟩
  | n + 1, it, S, hS, s => by
    unfold routeWaterFromD routeWaterFrom
    rw [waterIterationD_eq g hP it hS.depth]
    generalize hx : waterIteration g P it S s = x
    cases x with
    | error e => exact ⟨rfl, fun _ _ h => by simp at h⟩
    | ok v =>
      obtain ⟨S1, s1⟩ := v
      simp only [ofErr, ok_bind]
      exact routeWaterFromD_eq g hP n (it + 1) (waterIteration_nonneg hP hx) s1

end water

/-! ## Sediment -/

lemma eroVolumeD_eq {pw : K → K} {Vp U Uero mod : K} (hU : 0 ≤ U) (h : 0 < Uero)
    (hp : ∀ x, 0 < x → pw x ≠ 0) : eroVolumeD pw Vp U Uero mod = .ok (eroVolume pw Vp U Uero mod) := by
  unfold eroVolumeD
  rw [powD_ok hU, ok_bind, powD_ok h.le, ok_bind, divD_ok (hp _ h)]
  rfl

lemma volumeChangeD_eq {P : Params L W m K} (hP : DefinedSetup P) (k : Sed) {S : State L W K}
    (hu : ∀ c, 0 ≤ S.uw c) (c : Cell L W) (res : K) :
    volumeChangeD k P S c res = .ok (volumeChange k P S c res) := by
  cases k with
  | sand =>
    simp only [volumeChangeD, volumeChange]
    unfold sandChangeD sandChange
    simp only []
    rw [powD_ok hP.u0.le, ok_bind, divD_ok (hP.pw _ hP.u0), ok_bind, powD_ok (hu c), ok_bind,
      eroVolumeD_eq (hu c) hP.eroSand hP.pw]
    split_ifs <;> rfl
  | mud =>
    simp only [volumeChangeD, volumeChange]
    unfold mudChangeD mudChange
    simp only []
    rw [powD_ok hP.depMud.le, ok_bind, powD_ok (hu c), ok_bind, divD_ok (hP.pw _ hP.depMud), ok_bind,
      eroVolumeD_eq (hu c) hP.eroMud hP.pw]
    split_ifs <;> rfl

lemma updateFieldsD_eq {P : Params L W m K} (hP : DefinedSetup P) (S : State L W K) (c : Cell L W)
    (v : K) : updateFieldsD P S c v = .ok (updateFields P S c v) := by
  unfold updateFieldsD updateFields
  rw [divD_ok (mul_ne_zero hP.dx hP.dx), ok_bind]
  simp only []
  by_cases hd : max 0 (S.stage c - (S.eta c + v / (P.dx * P.dx))) > 0
  · rw [if_pos hd, divD_ok hd.ne', ok_bind]
    by_cases hq : S.qw c > 0
    · simp only [if_pos hq, if_pos hd, divD_ok hq.ne', ok_bind, pure_ok]
    · simp only [if_neg hq, if_pos hd, ok_bind, pure_ok]
  · rw [if_neg hd]
    by_cases hq : S.qw c > 0
    · simp only [if_pos hq, if_neg hd, divD_ok hq.ne', ok_bind, pure_ok]
    · simp only [if_neg hq, if_neg hd, ok_bind, pure_ok]

lemma halfFluxD_eq {P : Params L W m K} (hP : DefinedSetup P) (res : K) :
    halfFluxD P res = .ok (res / 2 / P.dt / P.dx) := by
  unfold halfFluxD
  rw [divD_ok hP.dt, ok_bind, divD_ok hP.dx]

lemma fieldsAtD_eq {P : Params L W m K} (hP : DefinedSetup P) (k : Sed) (S : State L W K)
    (c0 c : Cell L W) (d : Fin 9) (res : K) :
    fieldsAtD k P S c0 c d res = .ok (fieldsAt k P S c0 c d res) := by
  cases k with
  | mud => rfl
  | sand =>
    simp only [fieldsAtD, fieldsAt]
    unfold partitionSandD partitionSand
    rw [halfFluxD_eq hP, ok_bind]
    simp only []
    split_ifs <;> rfl

lemma enterStateD_eq {P : Params L W m K} (hP : DefinedSetup P) (k : Sed) (st : SedSt L W K)
    (c : Cell L W) : enterStateD k P st c = .ok (enterState k P st c) := by
  cases k with
  | mud => rfl
  | sand =>
    simp only [enterStateD, enterState]
    rw [halfFluxD_eq hP, ok_bind]
    rfl

/-- The state of a router: no depth, speed, discharge or deposit is negative. -/
structure NonnegSed (st : SedSt L W K) : Prop where
  flow : NonnegFlow st.S
  pad : ∀ p, 0 ≤ st.padDepth p
  sand : ∀ c, 0 ≤ st.S.depSand c
  mud : ∀ c, 0 ≤ st.S.depMud c

section sediment

variable [NeZero L] [NeZero W]

lemma chooseNextD_eq (g : Rng K σ) (k : Sed) {P : Params L W m K} (hP : DefinedSetup P)
    {st : SedSt L W K} (hst : NonnegSed st) (px py : ℤ) (s : σ) :
    chooseNextD g k P st px py s = ofErr (chooseNext g k P st px py s) := by
  unfold chooseNextD chooseNext
  cases cellAt L W px py with
  | none => rfl
  | some c =>
    simp only []
    have e : sedWeightsD st.padDepth (customPad P.modSed) (customPad P.cellType) st.S.qx st.S.qy P.s2
        P.s05 P.dryDepth (P.pwSed k) c = ofErr (sedWeights st.padDepth (customPad P.modSed)
        (customPad P.cellType) st.S.qx st.S.qy P.s2 P.s05 P.dryDepth (P.pwSed k) c) := by
      unfold sedWeightsD sedWeights
      rw [weightIntD_ok hP.s2, ok_bind]
      exact sedWeightAtCellD_eq _ _ _ _ (fun d => hst.pad _) (fun d => pad_nonneg' hP.modSed _)
        (distances_ne hP.s2)
    rw [e]
    generalize sedWeights st.padDepth (customPad P.modSed) (customPad P.cellType) st.S.qx st.S.qy P.s2
      P.s05 P.dryDepth (P.pwSed k) c = x
    cases x with
    | error e => rfl
    | ok w =>
      simp only [ofErr, ok_bind]
      generalize randomPick w _ = y
      cases y <;> rfl

lemma fieldsAt_same (k : Sed) (P : Params L W m K) (S : State L W K) (c0 c : Cell L W) (d : Fin 9)
    (res : K) : ∃ qs, fieldsAt k P S c0 c d res = { S with qs := qs } := by
  cases k with
  | mud => exact ⟨S.qs, rfl⟩
  | sand =>
    simp only [fieldsAt, partitionSand]
    split_ifs
    · exact ⟨_, rfl⟩
    · exact ⟨S.qs, rfl⟩

lemma recordDeposit_nonneg (k : Sed) {S : State L W K} (h1 : ∀ c, 0 ≤ S.depSand c)
    (h2 : ∀ c, 0 ≤ S.depMud c) (c : Cell L W) (v : K) :
    (∀ x, 0 ≤ (recordDeposit k S c v).depSand x) ∧ ∀ x, 0 ≤ (recordDeposit k S c v).depMud x := by
  have hu : ∀ (f : Grid L W K), (∀ x, 0 ≤ f x) → v > 0 → ∀ x, 0 ≤ Function.update f c (f c + v) x := by
    intro f hf hv x
    by_cases hx : x = c
    · subst hx; rw [Function.update_self]; exact add_nonneg (hf _) hv.le
    · rw [Function.update_of_ne hx]; exact hf x
  unfold recordDeposit
  split_ifs with hv
  · cases k with
    | sand => exact ⟨hu _ h1 hv, h2⟩
    | mud => exact ⟨h1, hu _ h2 hv⟩
  · exact ⟨h1, h2⟩

lemma recordDeposit_flow (k : Sed) (S : State L W K) (c : Cell L W) (v : K) :
    (recordDeposit k S c v).depth = S.depth ∧ (recordDeposit k S c v).uw = S.uw ∧
      (recordDeposit k S c v).qw = S.qw := by
  unfold recordDeposit
  split_ifs
  · cases k <;> exact ⟨rfl, rfl, rfl⟩
  · exact ⟨rfl, rfl, rfl⟩

lemma updateFields_nonneg {P : Params L W m K} (hP : DefinedSetup P) {S : State L W K}
    (hS : NonnegFlow S) (c : Cell L W) (v : K) : NonnegFlow (updateFields P S c v) := by
  have hu : ∀ (f : Grid L W K) (a : K), (∀ x, 0 ≤ f x) → 0 ≤ a → ∀ x, 0 ≤ Function.update f c a x := by
    intro f a hf ha x
    by_cases hx : x = c
    · subst hx; rw [Function.update_self]; exact ha
    · rw [Function.update_of_ne hx]; exact hf x
  refine ⟨hu _ _ hS.depth (le_max_left _ _), hu _ _ hS.uw ?_, hS.qw⟩
  split_ifs with hd
  · exact le_min hP.uMax (div_nonneg (hS.qw c) (le_of_lt hd))
  · exact hS.uw c

lemma sedStepD_eq (g : Rng K σ) (k : Sed) {P : Params L W m K} (hP : DefinedSetup P)
    {st : SedSt L W K} (hst : NonnegSed st) (px py : ℤ) (res : K) (s : σ) :
    sedStepD g k P st px py res s = ofErr (sedStep g k P st px py res s) ∧
      ∀ st1 res1 r s1, sedStep g k P st px py res s = .ok (st1, res1, r, s1) → NonnegSed st1 := by
  unfold sedStepD sedStep
  rw [chooseNextD_eq g k hP hst]
  generalize chooseNext g k P st px py s = x
  cases x with
  | error e => exact ⟨rfl, fun _ _ _ _ h => by simp at h⟩
  | ok v =>
    obtain ⟨c0, d, s1⟩ := v
    simp only [ofErr, ok_bind]
    generalize pyCell L W _ _ = y
    generalize pyCell (L + 2) (W + 2) _ _ = z
    cases y with
    | none => exact ⟨rfl, fun _ _ _ _ h => by simp at h⟩
    | some c =>
      cases z with
      | none => exact ⟨rfl, fun _ _ _ _ h => by simp at h⟩
      | some cp =>
        obtain ⟨qs, hq⟩ := fieldsAt_same k P st.S c0 c d res
        have f1 : NonnegFlow (fieldsAt k P st.S c0 c d res) := by
          rw [hq]; exact ⟨hst.flow.depth, hst.flow.uw, hst.flow.qw⟩
        simp only [fieldsAtD_eq hP, ok_bind, volumeChangeD_eq hP k f1.uw, updateFieldsD_eq hP, pure_ok,
          true_and]
        intro st1 res1 r s2 h
        simp only [Except.ok.injEq, Prod.mk.injEq] at h
        rw [← h.1]
        obtain ⟨a1, a2, a3⟩ := recordDeposit_flow k (fieldsAt k P st.S c0 c d res) c
          (volumeChange k P (fieldsAt k P st.S c0 c d res) c res)
        have f2 : NonnegFlow (recordDeposit k (fieldsAt k P st.S c0 c d res) c
            (volumeChange k P (fieldsAt k P st.S c0 c d res) c res)) :=
          ⟨by rw [a1]; exact f1.depth, by rw [a2]; exact f1.uw, by rw [a3]; exact f1.qw⟩
        have f3 := updateFields_nonneg hP f2 c
          (volumeChange k P (fieldsAt k P st.S c0 c d res) c res)
        obtain ⟨b1, b2⟩ := recordDeposit_nonneg k (S := fieldsAt k P st.S c0 c d res)
          (by rw [hq]; exact hst.sand) (by rw [hq]; exact hst.mud) c
          (volumeChange k P (fieldsAt k P st.S c0 c d res) c res)
        refine ⟨f3, ?_, b1, b2⟩
        intro p
        by_cases hp : p = cp
        · subst hp; simp only [Function.update_self]; exact f3.depth c
        · simp only [Function.update_of_ne hp]; exact hst.pad p

lemma sedLoopD_eq (g : Rng K σ) (k : Sed) {P : Params L W m K} (hP : DefinedSetup P) :
    ∀ (n : ℕ) {st : SedSt L W K} (_ : NonnegSed st) (px py : ℤ) (res : K) (s : σ),
    sedLoopD g k P n st px py res s = ofErr (sedLoop g k P n st px py res s) ∧
      ∀ st1 res1 rs s1, sedLoop g k P n st px py res s = .ok (st1, res1, rs, s1) → NonnegSed st1
  | 0, _, _, _, _, _, _ => ⟨rfl, fun _ _ _ _ h => by simp [sedLoop] at h⟩
  | n + 1, st, hst, px, py, res, s => by
    obtain ⟨e, hn⟩ := sedStepD_eq g k hP hst px py res s
    unfold sedLoopD sedLoop
    rw [e]
    generalize hx : sedStep g k P st px py res s = x at hn
    cases x with
    | error e => exact ⟨rfl, fun _ _ _ _ h => by simp at h⟩
    | ok v =>
      obtain ⟨st1, res1, r, s1⟩ := v
      have h1 := hn _ _ _ _ rfl
      simp only [ofErr, ok_bind]
      split_ifs with hc
      · refine ⟨rfl, fun _ _ _ _ h => ?_⟩
        simp only [Except.ok.injEq, Prod.mk.injEq] at h
        rw [← h.1]; exact h1
      · obtain ⟨e2, hn2⟩ := sedLoopD_eq g k hP n h1 r.new.1 r.new.2 res1 s1
        rw [e2]
        generalize sedLoop g k P n st1 r.new.1 r.new.2 res1 s1 = y at hn2
        cases y with
        | error e => exact ⟨rfl, fun _ _ _ _ h => by simp at h⟩
        | ok v =>
          obtain ⟨st2, res2, rs, s2⟩ := v
          refine ⟨rfl, fun _ _ _ _ h => ?_⟩
          simp only [Except.ok.injEq, Prod.mk.injEq] at h
          rw [← h.1]; exact hn2 _ _ _ _ rfl

lemma sedParcelsD_eq (g : Rng K σ) (k : Sed) {P : Params L W m K} (hP : DefinedSetup P) :
    ∀ (pys : List ℤ) {st : SedSt L W K} (_ : NonnegSed st) (s : σ),
    sedParcelsD g k P pys st s = ofErr (sedParcels g k P pys st s) ∧
      ∀ st1 logs s1, sedParcels g k P pys st s = .ok (st1, logs, s1) → NonnegSed st1
  | [], st, hst, s => ⟨rfl, fun _ _ _ h => by
      simp only [sedParcels, Except.ok.injEq, Prod.mk.injEq] at h
      rw [← h.1]; exact hst⟩
  | py :: pys, st, hst, s => by
    unfold sedParcelsD sedParcels
    cases pyCell L W 0 py with
    | none => exact ⟨rfl, fun _ _ _ h => by simp at h⟩
    | some c =>
      have h0 : NonnegSed (enterState k P st c) := by
        cases k with
        | mud => exact hst
        | sand => exact ⟨⟨hst.flow.depth, hst.flow.uw, hst.flow.qw⟩, hst.pad, hst.sand, hst.mud⟩
      simp only [enterStateD_eq hP, ok_bind]
      obtain ⟨e, hn⟩ := sedLoopD_eq g k hP P.stepmax h0 0 py P.VpSed s
      rw [e]
      generalize sedLoop g k P P.stepmax (enterState k P st c) 0 py P.VpSed s = x at hn
      cases x with
      | error e => exact ⟨rfl, fun _ _ _ h => by simp at h⟩
      | ok v =>
        obtain ⟨st2, res, rs, s1⟩ := v
        simp only [ofErr, ok_bind]
        obtain ⟨e2, hn2⟩ := sedParcelsD_eq g k hP pys (hn _ _ _ _ rfl) s1
        rw [e2]
        generalize sedParcels g k P pys st2 s1 = y at hn2
        cases y with
        | error e => exact ⟨rfl, fun _ _ _ h => by simp at h⟩
        | ok v =>
          obtain ⟨st3, logs, s2⟩ := v
          refine ⟨rfl, fun _ _ _ h => ?_⟩
          simp only [Except.ok.injEq, Prod.mk.injEq] at h
          rw [← h.1]; exact hn2 _ _ _ rfl

variable [FloorRing K]

/-- No depth, speed, discharge or deposit is negative. -/
structure NonnegBed (S : State L W K) : Prop where
  flow : NonnegFlow S
  sand : ∀ c, 0 ≤ S.depSand c
  mud : ∀ c, 0 ≤ S.depMud c

lemma routeParcelsD_eq (g : Rng K σ) (k : Sed) {P : Params L W m K} (hP : DefinedSetup P)
    {S : State L W K} (hS : NonnegBed S) (s : σ) :
    routeParcelsD g k P S s = ofErr (routeParcels g k P S s) ∧
      ∀ S1 logs s1, routeParcels g k P S s = .ok (S1, logs, s1) → NonnegBed S1 := by
  unfold routeParcelsD routeParcels
  simp only [getStartIndicesD_eq hP.hm]
  generalize getStartIndices (fun k => ((P.inlet k).val : ℤ))
    (getInletWeights fun k => ((P.inlet k).val : ℤ)) (drawN g (numStarts k P) s).1 = x
  cases x with
  | none => exact ⟨rfl, fun _ _ _ h => by simp at h⟩
  | some starts =>
    simp only [ok_bind]
    obtain ⟨e, hn⟩ := sedParcelsD_eq g k hP starts (st := ⟨S, customPad S.depth⟩)
      ⟨hS.flow, fun p => pad_nonneg' hS.flow.depth p, hS.sand, hS.mud⟩ (drawN g (numStarts k P) s).2
    rw [e]
    generalize sedParcels g k P starts _ _ = y at hn
    cases y with
    | error e => exact ⟨rfl, fun _ _ _ h => by simp at h⟩
    | ok v =>
      obtain ⟨st, logs, s2⟩ := v
      refine ⟨rfl, fun _ _ _ h => ?_⟩
      simp only [Except.ok.injEq, Prod.mk.injEq] at h
      have := hn _ _ _ rfl
      rw [← h.1]; exact ⟨this.flow, this.sand, this.mud⟩

lemma routeSedimentD_eq (g : Rng K σ) {P : Params L W m K} (hP : DefinedSetup P)
    {S : State L W K} (hS : NonnegFlow S) (s : σ) :
    routeSedimentD g P S s = ofErr (routeSediment g P S s) ∧
      ∀ S1 sand mud s1, routeSediment g P S s = .ok (S1, sand, mud, s1) → NonnegBed S1 := by
  unfold routeSedimentD routeSediment
  obtain ⟨e, hn⟩ := routeParcelsD_eq g .sand hP (S := initSediment S)
    ⟨⟨hS.depth, hS.uw, hS.qw⟩, fun _ => le_refl _, fun _ => le_refl _⟩ s
  rw [e]
  generalize routeParcels g .sand P (initSediment S) s = x at hn
  cases x with
  | error e => exact ⟨rfl, fun _ _ _ _ h => by simp at h⟩
  | ok v =>
    obtain ⟨S1, sand, s1⟩ := v
    have h1 := hn _ _ _ rfl
    simp only [ofErr, ok_bind]
    obtain ⟨e2, hn2⟩ := routeParcelsD_eq g .mud hP (S := { S1 with
      eta := topoDiffusion P.cellType P.diffMult S1.qs P.Ncross S1.eta })
      ⟨⟨h1.flow.depth, h1.flow.uw, h1.flow.qw⟩, h1.sand, h1.mud⟩ s1
    rw [e2]
    generalize routeParcels g .mud P _ s1 = y at hn2
    cases y with
    | error e => exact ⟨rfl, fun _ _ _ _ h => by simp at h⟩
    | ok v =>
      obtain ⟨S3, mud, s2⟩ := v
      refine ⟨rfl, fun _ _ _ _ h => ?_⟩
      simp only [Except.ok.injEq, Prod.mk.injEq] at h
      rw [← h.1]; exact hn2 _ _ _ rfl

/-! ## Timesteps -/

lemma computeSandFracD_eq (P : Params L W m K) (eta0 : Grid L W K) {S : State L W K}
    (h1 : ∀ c, 0 ≤ S.depSand c) (h2 : ∀ c, 0 ≤ S.depMud c) :
    computeSandFracD P eta0 S = .ok (computeSandFrac P eta0 S) := by
  have e : allD (fun c => if (decide (S.depSand c > 0) || decide (S.depMud c > 1 / 1000000)) = true then
      divD (S.depSand c) (S.depMud c + S.depSand c) else pure 0) = .ok (fun c =>
      if (decide (S.depSand c > 0) || decide (S.depMud c > 1 / 1000000)) = true then
      S.depSand c / (S.depMud c + S.depSand c) else 0) := by
    refine allD_ok fun c => ?_
    split_ifs with h
    · refine divD_ok (ne_of_gt ?_)
      have ha := h1 c
      have hb := h2 c
      simp only [Bool.or_eq_true, decide_eq_true_eq] at h
      rcases h with h | h
      · exact add_pos_of_nonneg_of_pos hb h
      · exact add_pos_of_pos_of_nonneg (lt_trans (by norm_num) h) ha
    · rfl
  have ha : ∀ f : Grid L W K, assign f (fun c =>
        decide (S.depSand c > 0) || decide (S.depMud c > 1 / 1000000)) (fun c =>
      if (decide (S.depSand c > 0) || decide (S.depMud c > 1 / 1000000)) = true then
      S.depSand c / (S.depMud c + S.depSand c) else 0) = assign f (fun c =>
        decide (S.depSand c > 0) || decide (S.depMud c > 1 / 1000000)) (fun c =>
      S.depSand c / (S.depMud c + S.depSand c)) := by
    intro f
    funext c
    simp only [assign]
    split_ifs <;> rfl
  unfold computeSandFracD computeSandFrac
  simp only []
  rw [e, ok_bind]
  simp only [pure_ok, ha]

lemma finalizeTimestepD_eq (P : Params L W m K) (eta0 : Grid L W K) {S : State L W K}
    (h1 : ∀ c, 0 ≤ S.depSand c) (h2 : ∀ c, 0 ≤ S.depMud c) :
    finalizeTimestepD P eta0 S = .ok (finalizeTimestep P eta0 S) := by
  unfold finalizeTimestepD
  simp only []
  rw [computeSandFracD_eq, ok_bind]
  · rfl
  · exact h1
  · exact h2

/-- C104, one timestep: the checked timestep does what the unchecked one does: every division and every
power that is executed is defined, for all random numbers, whether or not the timestep succeeds. Depths,
speeds and discharges stay nonnegative, so this goes on. -/
theorem C104_update (g : Rng K σ) {P : Params L W m K} (hP : DefinedSetup P) {S : State L W K}
    (hS : NonnegFlow S) (s : σ) :
    timestepD g P S s = ofErr (timestep g P S s) ∧
      ∀ S' l s', timestep g P S s = .ok (S', l, s') → NonnegFlow S' := by
  unfold timestepD timestep routeWater
  obtain ⟨e, hn⟩ := routeWaterFromD_eq g hP P.itermax 0 hS s
  rw [e]
  generalize routeWaterFrom g P 0 P.itermax S s = x at hn
  cases x with
  | error e => exact ⟨rfl, fun _ _ _ h => by simp at h⟩
  | ok v =>
    obtain ⟨S1, s1⟩ := v
    simp only [ofErr, ok_bind]
    obtain ⟨e2, hn2⟩ := routeSedimentD_eq g hP (hn _ _ rfl) s1
    rw [e2]
    generalize routeSediment g P S1 s1 = y at hn2
    cases y with
    | error e => exact ⟨rfl, fun _ _ _ h => by simp at h⟩
    | ok v =>
      obtain ⟨S2, sand, mud, s2⟩ := v
      have h2 := hn2 _ _ _ _ rfl
      have hs : ∃ eta, applySubsidence P S2 = { S2 with eta := eta } := by
        unfold applySubsidence
        split_ifs
        · exact ⟨_, rfl⟩
        · exact ⟨S2.eta, rfl⟩
        · exact ⟨S2.eta, rfl⟩
      obtain ⟨eta, hs⟩ := hs
      simp only [ofErr, ok_bind]
      rw [finalizeTimestepD_eq P S.eta (S := applySubsidence P S2) (by rw [hs]; exact h2.sand)
        (by rw [hs]; exact h2.mud)]
      refine ⟨rfl, fun S' l s' h => ?_⟩
      simp only [Except.ok.injEq, Prod.mk.injEq] at h
      rw [← h.1, hs]
      refine ⟨fun c => ?_, h2.flow.uw, h2.flow.qw⟩
      simp only [finalizeTimestep, computeSandFrac, assign]
      split_ifs
      · exact hP.h0
      · exact le_max_right _ _

/-- C104, runs: the same for runs of any length; settings may change between timesteps. -/
theorem C104_run (g : Rng K σ) : ∀ {Ps : List (Params L W m K)}, (∀ P ∈ Ps, DefinedSetup P) →
    ∀ {S : State L W K}, NonnegFlow S → ∀ s : σ, timestepsD g Ps S s = ofErr (timesteps g Ps S s) := by
  intro Ps
  induction Ps with
  | nil => intro _ S _ s; rfl
  | cons P Ps ih =>
    intro hPs S hS s
    obtain ⟨e, hn⟩ := C104_update g (hPs P List.mem_cons_self) hS s
    unfold timestepsD timesteps
    rw [e]
    generalize timestep g P S s = x at hn
    cases x with
    | error e => rfl
    | ok v =>
      obtain ⟨S1, l, s1⟩ := v
      simp only [ofErr, ok_bind]
      rw [ih (fun Q hQ => hPs Q (List.mem_cons_of_mem _ hQ)) (hn _ _ _ rfl)]
      generalize timesteps g Ps S1 s1 = y
      cases y <;> rfl

end sediment

/-! ## Created models -/

section created

variable [FloorRing K]

/-- The settings and the initial fields of a created model are as C104 asks for. -/
lemma created_defined {O : Oracle K} (hO : OracleOk O) {I : Input K} (hI : Runnable I)
    {P : Params L W m K} {S : State L W K} (hc : create O I = .ok ⟨L, W, m, P, S⟩) [NeZero L] [NeZero W]
    (hW : WaterSetup P) (hD : SedDomain P) (hR : RunSetup P) (hd : ∀ c, 0 ≤ S.depth c) :
    DefinedSetup P ∧ NonnegFlow S := by
  have hfix : P.u0 = I.u0 ∧ P.qw0 = I.u0 * I.h0 := by
    obtain ⟨-, D, hB, -, e⟩ := create_ok hc
    cases e
    exact ⟨rfl, (bc_ok hB).eqw0⟩
  have hF := hI.flowing
  have hP : DefinedSetup P := {
    dx := hR.sed.dx.ne'
    dt := hR.sed.dt.ne'
    s2 := hR.sed.s2.ne'
    dry := hR.dry
    uMax := hR.sed.uMax
    qw0 := by rw [hfix.2]; exact (mul_pos hF.u0 hF.h0).le
    h0 := hR.h0
    nrm := hR.nrm
    modWater := hW.mod
    modSed := hD.mod
    u0 := by rw [hfix.1]; exact hF.u0
    eroSand := hR.sed.eroSand
    eroMud := hR.sed.eroMud
    depMud := hR.sed.depMud
    pw := fun x hx => (hR.sed.pwPos x hx).ne'
    hm := hD.hm }
  have hS : NonnegFlow S := by
    have hi := fun c => C53_initial_partial hc c
    have hq : ∀ c, 0 ≤ S.qw c := by
      intro c
      have h := (hi c).2.2.2.2.2.2.1
      simp only at h
      rw [h]; exact hO.nrm _ _
    refine ⟨hd, fun c => ?_, hq⟩
    rcases (hd c).eq_or_lt with h0 | h0
    · have h := ((hi c).2.2.2.2.2.2.2.2.1 h0.ge).2.2
      simp only at h
      rw [h]
    · have h := ((hi c).2.2.2.2.2.2.2.1 h0).2.2
      simp only at h
      have := hq c
      rw [← h] at this
      exact nonneg_of_mul_nonneg_left this h0
  exact ⟨hP, hS⟩

/-- C104, from the configuration on: every timestep of a run of a created model of any length performs
only defined operations, and succeeds. -/
theorem C104_created {O : Oracle K} (hO : OracleOk O) {I : Input K} (hI : Runnable I) {g : Rng K σ}
    (hg : PositiveDraws g) :
    ∃ (L W m : ℕ) (_ : NeZero L) (_ : NeZero W) (P : Params L W m K) (S : State L W K),
      create O I = .ok ⟨L, W, m, P, S⟩ ∧
      ∀ (n : ℕ) (s : σ), ∃ S' ls s', timestepsD g (List.replicate n P) S s = .ok (S', ls, s') ∧
        timesteps g (List.replicate n P) S s = .ok (S', ls, s') := by
  obtain ⟨L, W, m, iL, iW, P, S, hc, hW, hD, -, hR, hd, hn, -⟩ := C74_created hO hI
  refine ⟨L, W, m, iL, iW, P, S, hc, fun n s => ?_⟩
  obtain ⟨hP, hS⟩ := created_defined hO hI hc hW hD hR hd
  obtain ⟨S', ls, s', h⟩ := C71_run hg (Ps := List.replicate n P)
    (fun Q hQ => by rw [List.eq_of_mem_replicate hQ]; exact ⟨hW, hD, hR.h0⟩) hd hn s
  refine ⟨S', ls, s', ?_, h⟩
  rw [C104_run g (fun Q hQ => by rw [List.eq_of_mem_replicate hQ]; exact hP) hS s, h]
  rfl

end created

/-! ## Where an operation is not defined -/

/-- C104: the threshold velocity must be positive, which validation does not ask for. With
`coeff_U_ero_sand` zero the erosion by a sand parcel divides by zero wherever water moves and the
transport is below capacity. -/
theorem C104_threshold (P : Params L W m K) (hu : 0 ≤ P.u0) (h0 : P.pwBeta P.u0 ≠ 0)
    (hE : P.UeroSand = 0) (hz : P.pwBeta 0 = 0) (S : State L W K) (c : Cell L W) (hU : 0 < S.uw c)
    (hq : S.qs c < P.qs0 * P.fCap / P.pwBeta P.u0 * P.pwBeta (S.uw c)) (res : K) :
    volumeChangeD .sand P S c res = .error .undefined := by
  simp only [volumeChangeD]
  unfold sandChangeD
  simp only []
  rw [powD_ok hu, ok_bind, divD_ok h0, ok_bind, powD_ok hU.le, ok_bind, if_neg (not_lt.2 hq.le),
    if_pos ⟨by rw [hE]; exact hU, hq⟩]
  unfold eroVolumeD
  rw [powD_ok hU.le, ok_bind, hE, powD_ok le_rfl, ok_bind, hz]
  simp [divD]

/-! ## Non-trivial case -/

lemma exDefined : DefinedSetup exParams where
  dx := by norm_num [exParams]
  dt := by norm_num [exParams]
  s2 := exSedSetup.s2.ne'
  dry := exRunSetup.dry
  uMax := exSedSetup.uMax
  qw0 := by norm_num [exParams]
  h0 := exRunSetup.h0
  nrm := exRunSetup.nrm
  modWater := exSetup.mod
  modSed := exSedDomain.mod
  u0 := by norm_num [exParams]
  eroSand := exSedSetup.eroSand
  eroMud := exSedSetup.eroMud
  depMud := exSedSetup.depMud
  pw := fun x hx => (exSedSetup.pwPos x hx).ne'
  hm := by norm_num

lemma exNonneg : NonnegFlow exState where
  depth := by decide +kernel
  uw := by decide +kernel
  qw := by decide +kernel

/-- Any number of timesteps of the example model, with checks. -/
example (n : ℕ) : ∃ r, timestepsD constRng (List.replicate n exParams) exState () = .ok r := by
  obtain ⟨S', ls, s', h⟩ := C71_run (g := constRng) exPositive (Ps := List.replicate n exParams)
    (fun Q hQ => by rw [List.eq_of_mem_replicate hQ]; exact ⟨exSetup, exSedDomain, exRunSetup.h0⟩)
    exNonneg.depth (by decide) ()
  refine ⟨(S', ls, s'), ?_⟩
  rw [C104_run constRng (fun Q hQ => by rw [List.eq_of_mem_replicate hQ]; exact exDefined) exNonneg, h]
  rfl

/-- The default configuration. -/
example : ∃ (L W m : ℕ) (_ : NeZero L) (_ : NeZero W) (P : Params L W m ℚ) (S : State L W ℚ),
    create exOracle exInput = .ok ⟨L, W, m, P, S⟩ ∧
    ∀ n, ∃ r, timestepsD constRng (List.replicate n P) S () = .ok r := by
  obtain ⟨L, W, m, iL, iW, P, S, h, hr⟩ := C104_created exOracleOk exRunnable (g := constRng) exPositive
  refine ⟨L, W, m, iL, iW, P, S, h, fun n => ?_⟩
  obtain ⟨S', ls, s', h1, -⟩ := hr n ()
  exact ⟨_, h1⟩

/-- With threshold zero and moving water the check fails; with the threshold of the example it does not. -/
example : volumeChangeD .sand { exParams with UeroSand := 0 } { exState with uw := fun _ => 1, qs := fun _ => 0 }
      (1, 1) (1 / 4) = .error .undefined ∧
    (volumeChangeD .sand exParams { exState with uw := fun _ => 1, qs := fun _ => 0 } (1, 1)
      (1 / 4)).isOk = true := by
  decide +kernel

end Verif.Props
