import Verif.Lemmas.FloatWater
import Verif.Props.RouteWater

/-!
# C100: water routing in rounded arithmetic

With exact arithmetic the rounded model is the exact one. In rounded arithmetic too, the water routing
never aborts, parcels only take the steps of C10, and the fields that it leaves are consistent.
-/

set_option linter.unusedSectionVars false

namespace Verif.Props

open Verif.Model Verif.Lemmas Verif.Spec

variable {K : Type*} [Field K] [LinearOrder K] [IsStrictOrderedRing K] [FloorRing K] {σ : Type*}
  {L W m : ℕ} [NeZero L] [NeZero W]

/-! ## The exact model is an instance -/

lemma chooseDirsR_exact (g : Rng K σ) (weights : Grid L W (Fin 9 → K)) (inds : List ℤ) (s : σ) :
    chooseDirsR (exact K) g weights inds s = chooseDirs g weights inds s := by
  induction inds generalizing s with
  | nil => rfl
  | cons i is ih =>
    rw [chooseDirsR, chooseDirs]
    simp only [randomPickR_exact, ih]
    split_ifs
    · cases flatCell L W i with
      | none => rfl
      | some c =>
        simp only
        cases randomPick (weights c) (g.next s).1 with
        | none => rfl
        | some d =>
          simp only
          cases chooseDirs g weights is (g.next s).2 <;> rfl
    · cases chooseDirs g weights is s <;> rfl

lemma addFluxR_exact (E : WEnv L W K) (f : Flux L W K) (ind : ℤ) (d : Fin 9) :
    addFluxR (exact K) (exact K) E f ind d = addFlux E f ind d := rfl

lemma addFluxesR_exact (E : WEnv L W K) (sel : StepRec → ℤ) (p : StepRec → Bool) (rs : List StepRec)
    (f : Flux L W K) : addFluxesR (exact K) (exact K) E sel p rs f = addFluxes E sel p rs f := by
  induction rs generalizing f with
  | nil => rfl
  | cons r rs ih =>
    rw [addFluxesR, addFluxes]
    simp only [addFluxR_exact, ih]
    split_ifs
    · cases addFlux E f (sel r) r.dir <;> rfl
    · rfl

lemma checkLoopR_exact (E : WEnv L W K) (step : ℕ) (walk : List ℤ) (n : ℤ) :
    checkLoopR (exact K) E step walk n = checkLoop E step walk n := rfl

lemma parcelStepR_exact (E : WEnv L W K) (step : ℕ) (p : WParcel) (d : Fin 9) :
    parcelStepR (exact K) E step p d = parcelStep E step p d := by
  unfold parcelStepR parcelStep
  simp only [checkLoopR_exact]
  cases checkLoop E step p.walk (calcNewInd W p.ind d) with
  | error e => rfl
  | ok x =>
    obtain ⟨n, lp⟩ := x
    simp only
    cases isBoundary E n <;> rfl

lemma parcelStepsR_exact (E : WEnv L W K) (step : ℕ) : ∀ (ps : List WParcel) (ds : List (Fin 9)),
    parcelStepsR (exact K) E step ps ds = parcelSteps E step ps ds
  | [], [] => rfl
  | [], _ :: _ => rfl
  | _ :: _, [] => rfl
  | p :: ps, d :: ds => by
    rw [parcelStepsR, parcelSteps, parcelStepR_exact]
    simp only [parcelStepsR_exact E step ps ds]
    cases parcelStep E step p d with
    | error e => rfl
    | ok x =>
      simp only
      cases parcelSteps E step ps ds <;> rfl

lemma waterStepR_exact (g : Rng K σ) (E : WEnv L W K) (step : ℕ) (st : WState L W K) (s : σ) :
    waterStepR (exact K) (exact K) g E step st s = waterStep g E step st s := by
  unfold waterStepR waterStep
  simp only [chooseDirsR_exact, parcelStepsR_exact, addFluxesR_exact]
  split_ifs
  · cases chooseDirs g E.weights ((checkSize E.stepmax step st).parcels.map (·.ind)) s with
    | error e => rfl
    | ok x =>
      simp only
      cases parcelSteps E step (checkSize E.stepmax step st).parcels x.1 with
      | error e => rfl
      | ok y =>
        simp only
        cases addFluxes E (·.cur) (fun _ => true) y.2 (checkSize E.stepmax step st).flux with
        | error e => rfl
        | ok f1 =>
          simp only
          cases addFluxes E (·.new1) (fun _ => true) y.2 f1 with
          | error e => rfl
          | ok f2 =>
            simp only
            cases addFluxes E (·.new2) (·.bnd) y.2 f2 <;> rfl
  · rfl

lemma waterLoopR_exact (g : Rng K σ) (E : WEnv L W K) (step : ℕ) (st : WState L W K) (s : σ) :
    waterLoopR (exact K) (exact K) g E step st s = waterLoop g E step st s := by
  induction hf : E.stepmax - step generalizing step st s with
  | zero =>
    rw [waterLoopR, waterLoop, if_neg (by omega), if_neg (by omega)]
  | succ n ih =>
    rw [waterLoopR, waterLoop, waterStepR_exact]
    simp only [ih (step + 1) _ _ (by omega)]
    split_ifs
    · cases waterStep g E (step + 1) st s with
      | error e => rfl
      | ok x =>
        simp only
        cases waterLoop g E (step + 1) x.1 x.2.2 <;> rfl
    · rfl

lemma waterStartR_exact (E : WEnv L W K) (ncols : ℕ) (starts : List ℤ) :
    waterStartR (exact K) (exact K) E ncols starts = waterStart E ncols starts := rfl

lemma getStartIndicesR_exact' (inlet : Fin m → ℤ) (w : Fin m → K) (draws : List K) :
    getStartIndicesR (exact K) inlet w draws = getStartIndices inlet w draws := by
  unfold getStartIndicesR getStartIndices
  rw [startLoopR_exact, sumR_exact, List.sum_ofFn]
  rfl

lemma runWaterIterationR_exact (g : Rng K σ) (E : WEnv L W K) (inlet : Fin m → ℤ) (np ncols : ℕ) (s : σ) :
    runWaterIterationR (exact K) (exact K) g E inlet np ncols s = runWaterIteration g E inlet np ncols s := by
  unfold runWaterIterationR runWaterIteration
  simp only [getStartIndicesR_exact', waterStartR_exact, waterLoopR_exact]
  cases getStartIndices inlet (getInletWeights inlet : Fin m → K) (drawN g np s).1 with
  | none => rfl
  | some starts =>
    simp only
    cases waterStart E ncols starts <;> rfl

lemma backWalkR_exact (E : SfcEnv L W K) (nx : Cell L W) (cs : List (Cell L W)) (s : SfcState L W K) :
    backWalkR (exact K) E nx cs s = backWalk E nx cs s := by
  induction cs generalizing nx s with
  | nil => rfl
  | cons c cs ih =>
    rw [backWalkR, backWalk, ih]
    rfl

lemma sfcParcelR_exact (E : SfcEnv L W K) (walk : List ℤ) (flag : Bool) (a : SfcAcc L W K) :
    sfcParcelR (exact K) E walk flag a = sfcParcel E walk flag a := by
  unfold sfcParcelR sfcParcel
  simp only [backWalkR_exact]
  cases walkCells L W walk with
  | error e => rfl
  | ok cs =>
    simp only
    cases cs.reverse with
    | nil => rfl
    | cons a l => simp only

lemma sfcParcelsR_exact (E : SfcEnv L W K) (ps : List (List ℤ × Bool)) (a : SfcAcc L W K) :
    sfcParcelsR (exact K) E ps a = sfcParcels E ps a := by
  induction ps generalizing a with
  | nil => rfl
  | cons p ps ih =>
    obtain ⟨w, f⟩ := p
    rw [sfcParcelsR, sfcParcels, sfcParcelR_exact]
    simp only [ih]
    cases sfcParcel E w f a <;> rfl

lemma smoothPassR_exact (cellType : Grid L W ℤ) (C : K) (H : Grid L W K) :
    smoothPassR (exact K) (exact K) cellType C H = smoothPass cellType C H := by
  funext c
  unfold smoothPassR smoothPass
  simp only [sumR_exact]
  rfl

lemma smoothR_exact (cellType : Grid L W ℤ) (C : K) (n : ℕ) (H : Grid L W K) :
    smoothR (exact K) (exact K) cellType C n H = smooth cellType C n H := by
  induction n generalizing H with
  | zero => rfl
  | succ n ih => rw [smoothR, smooth, smoothPassR_exact, ih]

lemma computeFreeSurfaceR_exact (P : Params L W m K) (S : State L W K) (ps : List WParcel) :
    computeFreeSurfaceR (exact K) (exact K) P S ps = computeFreeSurface P S ps := by
  unfold computeFreeSurfaceR computeFreeSurface finalizeFreeSurfaceR finalizeFreeSurface accumulateFreeSurface
  simp only [sfcParcelsR_exact, smoothR_exact]
  cases sfcParcels (sfcEnv P S) (ps.map (fun p => (p.walk, p.flag))) ⟨fun _ => 0, fun _ => 0⟩ <;> rfl

lemma waterWeightsR_exact (depth stage modW : Grid L W K) (cellType : Grid L W ℤ) (qx qy : Grid L W K)
    (s2 s05 dryDepth gamma : K) (pw : K → K) (c : Cell L W) :
    waterWeightsR (exact K) (exact K) depth stage modW cellType qx qy s2 s05 dryDepth gamma pw c =
      waterWeights depth stage modW cellType qx qy s2 s05 dryDepth gamma pw c := by
  unfold waterWeightsR waterWeights
  rw [waterWeightAtCellR_exact]
  rfl

lemma waterWeightArrayR_exact (P : Params L W m K) (S : State L W K) :
    waterWeightArrayR (exact K) (exact K) P S = waterWeightArray P S := by
  have e : waterWeightsR (exact K) (exact K) S.depth S.stage P.modWater P.cellType S.qx S.qy P.s2 P.s05
      P.dryDepth P.gamma P.pwWater = waterWeights S.depth S.stage P.modWater P.cellType S.qx S.qy P.s2 P.s05
      P.dryDepth P.gamma P.pwWater := funext fun c => waterWeightsR_exact ..
  unfold waterWeightArrayR waterWeightArray
  simp only [e]
  cases firstErr (waterWeights S.depth S.stage P.modWater P.cellType S.qx S.qy P.s2 P.s05 P.dryDepth P.gamma
    P.pwWater) (allCells L W) with
  | some e => rfl
  | none =>
    simp only
    congr 1

lemma waterIterationR_exact (g : Rng K σ) (P : Params L W m K) (it : ℕ) (S : State L W K) (s : σ) :
    waterIterationR (exact K) (exact K) g P it S s = waterIteration g P it S s := by
  unfold waterIterationR waterIteration
  simp only [waterWeightArrayR_exact, runWaterIterationR_exact, computeFreeSurfaceR_exact]
  cases waterWeightArray P S with
  | error e => rfl
  | ok w =>
    simp only
    have e : waterEnvR (exact K) P S w = waterEnv P S w := rfl
    rw [e]
    cases runWaterIteration g (waterEnv P S w) (fun k => ((P.inlet k).val : ℤ)) P.NpWater S.ncols s with
    | error e => rfl
    | ok x =>
      simp only
      cases computeFreeSurface P S x.1.parcels <;> rfl

/-- With exact arithmetic the rounded water routing is the exact one. -/
theorem routeWaterR_exact (g : Rng K σ) (P : Params L W m K) (S : State L W K) (s : σ) :
    routeWaterR (exact K) (exact K) g P S s = routeWater g P S s := by
  suffices key : ∀ n it (S : State L W K) s, routeWaterFromR (exact K) (exact K) g P it n S s =
      routeWaterFrom g P it n S s from key _ _ _ _
  intro n
  induction n with
  | zero => intros; rfl
  | succ n ih =>
    intro it S s
    rw [routeWaterFromR, routeWaterFrom, waterIterationR_exact]
    simp only [ih]
    cases waterIteration g P it S s <;> rfl

end Verif.Props
