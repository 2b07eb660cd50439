import Verif.Model.FloatDefined
import Verif.Props.Defined
import Verif.Props.FloatTimestep

/-!
# Every operation of a rounded run is defined (C106)

As `Props/Defined`, for the rounded timesteps of `Model/FloatTimestep`: no divisor becomes zero by rounding.
-/

set_option linter.unusedSectionVars false
set_option linter.unusedSimpArgs false

namespace Verif.Props

open Verif.Model Verif.Lemmas Verif.Spec

variable {K : Type} [Field K] [LinearOrder K] [IsStrictOrderedRing K] {σ : Type} {L W m : ℕ}

lemma fl_ne {R : Rounding K} {x : K} (h : x ≠ 0) : R.fl x ≠ 0 := fun e => h ((fl_eq_zero R).1 e)

lemma sumR_pos_aux {R : Rounding K} : ∀ (l : List K) (a : K), (∀ x ∈ l, 0 ≤ x) → 0 ≤ a →
    (0 < a ∨ ∃ x ∈ l, 0 < x) → 0 < l.foldl (fun a x => R.fl (a + x)) a
  | [], a, _, _, h => by
    rcases h with h | ⟨x, hx, -⟩
    · exact h
    · simp at hx
  | y :: l, a, hl, ha, h => by
    have hy : 0 ≤ y := hl y List.mem_cons_self
    refine sumR_pos_aux l _ (fun x hx => hl x (List.mem_cons_of_mem _ hx)) (fl_nonneg R (add_nonneg ha hy)) ?_
    rcases h with h | ⟨x, hx, h⟩
    · exact Or.inl (fl_pos R (add_pos_of_pos_of_nonneg h hy))
    · rcases List.mem_cons.1 hx with e | hx
      · exact Or.inl (fl_pos R (add_pos_of_nonneg_of_pos ha (e ▸ h)))
      · exact Or.inr ⟨x, hx, h⟩

lemma sumR_pos {R : Rounding K} {n : ℕ} {w : Fin n → K} (h : ∀ d, 0 ≤ w d) {d : Fin n} (hd : 0 < w d) :
    0 < sumR R (List.ofFn w) := by
  refine sumR_pos_aux _ _ (fun x hx => ?_) le_rfl (Or.inr ⟨w d, ?_, hd⟩)
  · obtain ⟨e, rfl⟩ := List.mem_ofFn.1 hx
    exact h e
  · exact List.mem_ofFn.2 ⟨d, rfl⟩

lemma share_pos {R : Rounding K} {p : Fin 9 → Bool}
    (h : 0 < (Finset.univ.filter (fun d => p d = true)).card) {a : K} (ha : 0 < a) :
    sumR R (List.ofFn fun d => if p d = true then R.fl a else 0) ≠ 0 := by
  obtain ⟨d, hd⟩ := Finset.card_pos.1 h
  have hd : p d = true := (Finset.mem_filter.1 hd).2
  refine (sumR_pos (d := d) (fun e => ?_) ?_).ne'
  · split_ifs
    · exact (fl_pos R ha).le
    · exact le_rfl
  · rw [if_pos hd]; exact fl_pos R ha

/-! ## Weights -/

variable {F D : Rounding K}

lemma weightSfcRD_ok {s2 : K} (h : s2 ≠ 0) (stage : K) (n : Fin 9 → K) :
    weightSfcRD F stage n s2 = .ok (weightSfcR F stage n s2) :=
  allD_ok fun d => by rw [divD_ok (distances_ne h d)]; rfl

lemma weightIntRD_ok {s2 : K} (h : s2 ≠ 0) (qx qy s05 : K) :
    weightIntRD F qx qy s05 s2 = .ok (weightIntR F qx qy s05 s2) :=
  allD_ok fun d => by rw [divD_ok (distances_ne h d)]; rfl

lemma normRD_ok {w : Fin 9 → K} (h : sumR F (List.ofFn w) ≠ 0) :
    normRD F w = .ok (fun d => F.fl (w d / sumR F (List.ofFn w))) :=
  allD_ok fun d => by rw [divD_ok h]; rfl

lemma rebalanceRD_ok (w : Fin 9 → K) : rebalanceRD F w = .ok (rebalanceR F w) := by
  unfold rebalanceRD rebalanceR
  split_ifs with h
  · exact normRD_ok h.ne'
  · rfl

lemma waterWeightAtCellRD_eq (row0 : Bool) (wSfc wInt : Fin 9 → K) {depthN modN : Fin 9 → K}
    (ctN : Fin 9 → ℤ) (dryDepth gamma : K) (pw : K → K) (hd : ∀ d, 0 ≤ depthN d)
    (hm : ∀ d, 0 ≤ modN d) :
    waterWeightAtCellRD D row0 wSfc wInt depthN modN ctN dryDepth gamma (fun x => powD pw (F.fl x)) =
      ofErr (waterWeightAtCellR D row0 wSfc wInt depthN modN ctN dryDepth gamma (fun x => pw (F.fl x))) := by
  have hp : (allD fun d => powD pw (F.fl (D.fl (depthN d * modN d)))) =
      .ok (fun d => pw (F.fl (D.fl (depthN d * modN d)))) :=
    allD_ok fun d => powD_ok (fl_nonneg F (fl_nonneg D (mul_nonneg (hd d) (hm d))))
  unfold waterWeightAtCellRD waterWeightAtCellR
  simp only [rebalanceRD_ok, ok_bind, hp]
  split_ifs with h1 h2 h3 h4 h5
  · rw [normRD_ok h1.ne']; rfl
  · rfl
  · rw [divD_ok (by exact_mod_cast h4.ne'), ok_bind, normRD_ok]
    · rfl
    · exact share_pos h4 (div_pos one_pos (by exact_mod_cast h4))
  · rw [divD_ok (by exact_mod_cast h5.ne'), ok_bind, normRD_ok]
    · rfl
    · exact share_pos h5 (div_pos one_pos (by exact_mod_cast h5))
  · rfl
  · rfl

lemma sedWeightAtCellRD_eq (wInt : Fin 9 → K) {depthN modN : Fin 9 → K} (ctN : Fin 9 → ℤ)
    (dryDepth : K) (pw : K → K) {dist : Fin 9 → K} (hd : ∀ d, 0 ≤ depthN d) (hm : ∀ d, 0 ≤ modN d)
    (hdist : ∀ d, dist d ≠ 0) :
    sedWeightAtCellRD F wInt depthN modN ctN dryDepth (powD pw) dist =
      ofErr (sedWeightAtCellR F wInt depthN modN ctN dryDepth pw dist) := by
  have hp : (allD fun d => powD pw (F.fl (depthN d * modN d))) =
      .ok (fun d => pw (F.fl (depthN d * modN d))) :=
    allD_ok fun d => powD_ok (fl_nonneg F (mul_nonneg (hd d) (hm d)))
  have hi : (allD fun d => divD 1 (dist d)) = .ok (fun d => 1 / dist d) :=
    allD_ok fun d => divD_ok (hdist d)
  have key : ∀ w : Fin 9 → K,
      (if sumR F (List.ofFn w) = 0 then (.error (.raised .sedNoWeights) : Except Fault (Fin 9 → K))
        else normRD F w) =
        ofErr (if sumR F (List.ofFn w) = 0 then .error .sedNoWeights
          else .ok (fun d => F.fl (w d / sumR F (List.ofFn w)))) := by
    intro w
    split_ifs with h
    · rfl
    · rw [normRD_ok h]; rfl
  unfold sedWeightAtCellRD sedWeightAtCellR
  simp only [ok_bind, hp, hi, pure_ok]
  by_cases h1 : sumR F (List.ofFn fun d =>
      if (decide (depthN d ≤ dryDepth) || decide (ctN d = -2)) = true then 0
      else if decide (d = 4) = true then 0
      else F.fl (pw (F.fl (depthN d * modN d)) * if decide (d = 4) = true then 0 else wInt d)) = 0
  · simp only [if_pos h1, ok_bind]
    exact key _
  · simp only [if_neg h1, ok_bind]
    exact key _

lemma defined_router (F : Rounding K) {P : Params L W m K} (hP : DefinedSetup P) :
    DefinedSetup (routerParams F P) where
  dx := fl_ne hP.dx
  dt := fl_ne hP.dt
  s2 := fl_ne hP.s2
  dry := fl_nonneg F hP.dry
  uMax := fl_nonneg F hP.uMax
  qw0 := hP.qw0
  h0 := hP.h0
  nrm := hP.nrm
  modWater := hP.modWater
  modSed := fun c => fl_nonneg F (hP.modSed c)
  u0 := fl_pos F hP.u0
  eroSand := fl_pos F hP.eroSand
  eroMud := fl_pos F hP.eroMud
  depMud := fl_pos F hP.depMud
  pw := hP.pw
  hm := hP.hm

section water

variable [NeZero L] [NeZero W]

lemma waterWeightArrayRD_eq {P : Params L W m K} (hP : DefinedSetup P) {S : State L W K}
    (hd : ∀ c, 0 ≤ S.depth c) : waterWeightArrayRD F D P S = ofErr (waterWeightArrayR F D P S) := by
  have hc : ∀ c, waterWeightsRD F D S.depth S.stage P.modWater P.cellType S.qx S.qy P.s2 P.s05 P.dryDepth
      P.gamma P.pwWater c = ofErr (waterWeightsR F D S.depth S.stage P.modWater P.cellType S.qx S.qy P.s2
      P.s05 P.dryDepth P.gamma P.pwWater c) := by
    intro c
    unfold waterWeightsRD waterWeightsR
    rw [weightSfcRD_ok (fl_ne hP.s2), ok_bind, weightIntRD_ok (fl_ne hP.s2), ok_bind]
    exact waterWeightAtCellRD_eq _ _ _ _ _ _ _ (fun d => pad_nonneg' hd _)
      (fun d => pad_nonneg' hP.modWater _)
  have hl : ∀ (f : Cell L W → Except Err (Fin 9 → K)) (fD : Cell L W → Except Fault (Fin 9 → K)),
      (∀ c, fD c = ofErr (f c)) → ∀ l, firstFault fD l = (firstErr f l).map .raised := by
    intro f fD h l
    induction l with
    | nil => rfl
    | cons c cs ih =>
      simp only [firstFault, firstErr, h c]
      cases f c with
      | error e => rfl
      | ok a => simpa [ofErr] using ih
  unfold waterWeightArrayRD waterWeightArrayR
  simp only []
  rw [hl (waterWeightsR F D S.depth S.stage P.modWater P.cellType S.qx S.qy P.s2 P.s05 P.dryDepth
      P.gamma P.pwWater) _ hc]
  generalize firstErr _ _ = x
  cases x with
  | some e => rfl
  | none =>
    simp only [Option.map_none, ofErr]
    congr 1
    funext c
    rw [hc c]
    generalize waterWeightsR F D S.depth S.stage P.modWater P.cellType S.qx S.qy P.s2 P.s05 P.dryDepth
      P.gamma P.pwWater c = y
    cases y <;> rfl

omit [NeZero L] [NeZero W] in
lemma getStartIndicesRD_eq (hm : 0 < m) (inlet : Fin m → ℤ) (draws : List K) :
    getStartIndicesRD D inlet (getInletWeights inlet : Fin m → K) draws =
      match getStartIndicesR D inlet (getInletWeights inlet : Fin m → K) draws with
      | none => .error (.raised .index)
      | some starts => .ok starts := by
  have hs : sumR D (List.ofFn (getInletWeights inlet : Fin m → K)) ≠ 0 :=
    (sumR_pos (d := ⟨0, hm⟩) (fun _ => zero_le_one) one_pos).ne'
  unfold getStartIndicesRD getStartIndicesR
  rw [allD_ok (fun k => divD_ok hs), ok_bind]
  rfl

omit [NeZero L] [NeZero W] in
lemma halfShareRD_ok {E : WEnv L W K} (hx : E.dx ≠ 0) : halfShareRD D E = .ok (halfShareR D E) := by
  unfold halfShareRD
  rw [divD_ok hx, ok_bind]
  rfl

omit [NeZero L] [NeZero W] in
lemma addFluxRD_eq {E : WEnv L W K} (h2 : E.s2 ≠ 0) (hx : E.dx ≠ 0) (f : Flux L W K) (ind : ℤ)
    (d : Fin 9) : addFluxRD F D E f ind d = ofErr (addFluxR F D E f ind d) := by
  unfold addFluxRD addFluxR
  split_ifs with hd
  · cases flatCell L W ind with
    | none => rfl
    | some c =>
      simp only []
      rw [divD_ok (stepDist_ne (fl_ne h2) hd), ok_bind, divD_ok (stepDist_ne (fl_ne h2) hd), ok_bind,
        halfShareRD_ok hx, ok_bind]
      rfl
  · rfl

omit [NeZero L] [NeZero W] in
lemma addFluxesRD_eq {E : WEnv L W K} (h2 : E.s2 ≠ 0) (hx : E.dx ≠ 0) (sel : StepRec → ℤ)
    (p : StepRec → Bool) : ∀ (rs : List StepRec) (f : Flux L W K),
    addFluxesRD F D E sel p rs f = ofErr (addFluxesR F D E sel p rs f)
  | [], f => rfl
  | r :: rs, f => by
    unfold addFluxesRD addFluxesR
    split_ifs with hp
    · rw [addFluxRD_eq h2 hx]
      cases addFluxR F D E f (sel r) r.dir with
      | error e => rfl
      | ok f1 => exact addFluxesRD_eq h2 hx sel p rs f1
    · exact addFluxesRD_eq h2 hx sel p rs f

variable [FloorRing K]

omit [NeZero L] [NeZero W] in
lemma checkLoopRD_eq (E : WEnv L W K) (step : ℕ) (walk : List ℤ) (newInd : ℤ) :
    checkLoopRD D E step walk newInd = ofErr (checkLoopR D E step walk newInd) := by
  unfold checkLoopRD checkLoopR
  simp only []
  split_ifs
  · cases customUnravel newInd ((L : ℤ), (W : ℤ)) with
    | error e => rfl
    | ok v =>
      obtain ⟨px0, py0⟩ := v
      simp only []
      split_ifs with hw
      · rw [divD_ok hw, ok_bind, divD_ok hw, ok_bind]
        generalize customRavel _ _ = x
        generalize pyCell L W px0 py0 = y
        cases x <;> cases y <;> rfl
      · rfl
  all_goals rfl

omit [NeZero L] [NeZero W] in
lemma parcelStepRD_eq (E : WEnv L W K) (step : ℕ) (p : WParcel) (d : Fin 9) :
    parcelStepRD D E step p d = ofErr (parcelStepR D E step p d) := by
  unfold parcelStepRD parcelStepR
  simp only [checkLoopRD_eq]
  generalize checkLoopR D E step p.walk _ = x
  cases x with
  | error e => rfl
  | ok v =>
    obtain ⟨new2, looped⟩ := v
    simp only [ofErr, ok_bind]
    generalize isBoundary E new2 = y
    cases y <;> rfl

omit [NeZero L] [NeZero W] in
lemma parcelStepsRD_eq (E : WEnv L W K) (step : ℕ) : ∀ (ps : List WParcel) (ds : List (Fin 9)),
    parcelStepsRD D E step ps ds = ofErr (parcelStepsR D E step ps ds)
  | [], [] => rfl
  | [], _ :: _ => rfl
  | _ :: _, [] => rfl
  | p :: ps, d :: ds => by
    unfold parcelStepsRD parcelStepsR
    rw [parcelStepRD_eq, parcelStepsRD_eq E step ps ds]
    cases parcelStepR D E step p d with
    | error e => rfl
    | ok v =>
      obtain ⟨p1, r1⟩ := v
      simp only [ofErr, ok_bind]
      cases parcelStepsR D E step ps ds <;> rfl

omit [NeZero L] [NeZero W] in
lemma waterStepRD_eq (g : Rng K σ) {E : WEnv L W K} (h2 : E.s2 ≠ 0) (hx : E.dx ≠ 0) (step : ℕ)
    (st : WState L W K) (s : σ) :
    waterStepRD F D g E step st s = ofErr (waterStepR F D g E step st s) := by
  unfold waterStepRD waterStepR
  simp only []
  split_ifs with hn
  · generalize chooseDirsR D g E.weights _ s = x
    cases x with
    | error e => rfl
    | ok v =>
      obtain ⟨ds, s1⟩ := v
      simp only [ofErr, ok_bind, parcelStepsRD_eq]
      generalize parcelStepsR D E step _ ds = y
      cases y with
      | error e => rfl
      | ok v =>
        obtain ⟨ps, recs⟩ := v
        simp only [ofErr, ok_bind, addFluxesRD_eq h2 hx]
        generalize addFluxesR F D E (·.cur) (fun _ => true) recs _ = z
        cases z with
        | error e => rfl
        | ok f1 =>
          simp only [ofErr, ok_bind]
          generalize addFluxesR F D E (·.new1) (fun _ => true) recs _ = z
          cases z with
          | error e => rfl
          | ok f2 =>
            simp only [ofErr, ok_bind]
            generalize addFluxesR F D E (·.new2) (·.bnd) recs _ = z
            cases z <;> rfl
  · rfl

omit [NeZero L] [NeZero W] in
lemma waterLoopRD_eq (g : Rng K σ) {E : WEnv L W K} (h2 : E.s2 ≠ 0) (hx : E.dx ≠ 0) (step : ℕ)
    (st : WState L W K) (s : σ) :
    waterLoopRD F D g E step st s = ofErr (waterLoopR F D g E step st s) := by
  rw [waterLoopRD, waterLoopR]
  split_ifs with hc
  · rw [waterStepRD_eq g h2 hx]
    generalize hy : waterStepR F D g E (step + 1) st s = y
    cases y with
    | error e => rfl
    | ok v =>
      obtain ⟨st1, recs, s1⟩ := v
      simp only [ofErr]
      rw [waterLoopRD_eq g h2 hx (step + 1) st1 s1]
      generalize waterLoopR F D g E (step + 1) st1 s1 = z
      cases z <;> rfl
  · rfl
  termination_by E.stepmax - step

omit [NeZero L] [NeZero W] in
lemma runWaterIterationRD_eq (g : Rng K σ) {E : WEnv L W K} (h2 : E.s2 ≠ 0) (hx : E.dx ≠ 0)
    (hm : 0 < m) (inlet : Fin m → ℤ) (np ncols : ℕ) (s : σ) :
    runWaterIterationRD F D g E inlet np ncols s =
      ofErr (runWaterIterationR F D g E inlet np ncols s) := by
  unfold runWaterIterationRD runWaterIterationR
  simp only [getStartIndicesRD_eq hm]
  generalize getStartIndicesR D inlet (getInletWeights inlet : Fin m → K) (drawN g np s).1 = x
  cases x with
  | none => rfl
  | some starts =>
    simp only [ok_bind]
    unfold waterStartRD waterStartR
    rw [halfShareRD_ok hx, ok_bind]
    split_ifs with hs
    · simp only [ok_bind]; exact waterLoopRD_eq g h2 hx _ _ _
    · rfl

/-! ## The water surface -/

omit [NeZero L] [NeZero W] in
lemma backStepRD_eq (E : SfcEnv L W K) (nx c : Cell L W) (s : SfcState L W K) :
    backStepRD D E nx c s = .ok (backStepR D E nx c s) := by
  unfold backStepRD backStepR
  split_ifs with h1 h2 h3 h4
  · rfl
  · rfl
  · rfl
  · rw [divD_ok h4]; rfl
  · rfl

omit [NeZero L] [NeZero W] in
lemma backWalkRD_eq (E : SfcEnv L W K) : ∀ (cs : List (Cell L W)) (nx : Cell L W)
    (s : SfcState L W K), backWalkRD D E nx cs s = .ok (backWalkR D E nx cs s)
  | [], _, _ => rfl
  | c :: cs, nx, s => by
    unfold backWalkRD backWalkR
    rw [backStepRD_eq, ok_bind]
    exact backWalkRD_eq E cs c _

omit [NeZero L] [NeZero W] in
lemma sfcParcelRD_eq (E : SfcEnv L W K) (walk : List ℤ) (flag : Bool) (a : SfcAcc L W K) :
    sfcParcelRD D E walk flag a = ofErr (sfcParcelR D E walk flag a) := by
  unfold sfcParcelRD sfcParcelR
  cases walkCells L W walk with
  | error e => rfl
  | ok cs =>
    simp only [ofErr, ok_bind]
    cases cs.reverse with
    | nil => rfl
    | cons last rest =>
      simp only [backWalkRD_eq, ok_bind, pure_ok]
      split_ifs <;> rfl

omit [NeZero L] [NeZero W] in
lemma sfcParcelsRD_eq (E : SfcEnv L W K) : ∀ (ps : List (List ℤ × Bool)) (a : SfcAcc L W K),
    sfcParcelsRD D E ps a = ofErr (sfcParcelsR D E ps a)
  | [], _ => rfl
  | (walk, flag) :: ps, a => by
    unfold sfcParcelsRD sfcParcelsR
    rw [sfcParcelRD_eq]
    cases sfcParcelR D E walk flag a with
    | error e => rfl
    | ok a1 => exact sfcParcelsRD_eq E ps a1

omit [NeZero L] [NeZero W] in
lemma computeHnewRD_eq (eta depth : Grid L W K) (a : SfcAcc L W K) (HSL : K) :
    computeHnewRD F D eta depth a HSL = .ok (computeHnewR F D eta depth a HSL) := by
  refine allD_ok fun c => ?_
  unfold computeHnewR
  by_cases hv : a.visit c > 0
  · simp only [if_pos hv]
    rw [divD_ok hv.ne', ok_bind]; rfl
  · simp only [if_neg hv]; rfl

lemma smoothPassRD_eq (cellType : Grid L W ℤ) (C : K) (H : Grid L W K) :
    smoothPassRD F D cellType C H = .ok (smoothPassR F D cellType C H) := by
  refine allD_ok fun c => ?_
  simp only [smoothPassR]
  split_ifs with h1 h2
  · rw [divD_ok (by exact_mod_cast h2.ne'), ok_bind]; rfl
  · rfl
  · rfl

lemma smoothRD_eq (cellType : Grid L W ℤ) (C : K) : ∀ (n : ℕ) (H : Grid L W K),
    smoothRD F D cellType C n H = .ok (smoothR F D cellType C n H)
  | 0, _ => rfl
  | n + 1, H => by
    unfold smoothRD smoothR
    rw [smoothPassRD_eq, ok_bind]
    exact smoothRD_eq cellType C n _

lemma computeFreeSurfaceRD_eq (P : Params L W m K) (S : State L W K) (parcels : List WParcel) :
    computeFreeSurfaceRD F D P S parcels = ofErr (computeFreeSurfaceR F D P S parcels) := by
  unfold computeFreeSurfaceRD computeFreeSurfaceR
  rw [sfcParcelsRD_eq]
  generalize sfcParcelsR D (sfcEnv P S) (parcels.map (fun p => (p.walk, p.flag)))
    ⟨fun _ => 0, fun _ => 0⟩ = x
  cases x with
  | error e => rfl
  | ok a =>
    simp only [ofErr, ok_bind, computeHnewRD_eq, smoothRD_eq]
    rfl

/-! ## Discharge and velocity -/

omit [NeZero L] [NeZero W] [FloorRing K] in
lemma qwnDivRD_eq (nrm : K → K → K) (f : Flux L W K) :
    qwnDivRD F nrm f = .ok (qwnDivR F nrm f) := by
  refine allD_ok fun c => ?_
  unfold qwnDivR
  simp only []
  split_ifs with h
  · rw [divD_ok h.ne']; rfl
  · rfl

omit [NeZero L] [NeZero W] [FloorRing K] in
lemma updateFlowRD_eq (nrm : K → K → K) (o1 o2 qw0 : K) (inlet : Fin m → Fin W) (t i : ℕ)
    (qx qy : Grid L W K) (f : Flux L W K) :
    updateFlowRD F D nrm o1 o2 qw0 inlet t i qx qy f =
      .ok (updateFlowR F D nrm o1 o2 qw0 inlet t i qx qy f) := by
  unfold updateFlowRD
  rw [qwnDivRD_eq, ok_bind]
  rfl

omit [NeZero L] [NeZero W] [FloorRing K] in
lemma updateVelocityRD_eq {uMax dryDepth : K} (hd : 0 ≤ dryDepth) (depth : Grid L W K)
    (q : Flux L W K) :
    updateVelocityRD F uMax dryDepth depth q = .ok (updateVelocityR F uMax dryDepth depth q) := by
  have hF := fl_nonneg F hd
  unfold updateVelocityRD
  have e1 := allD_ok (f := fun c : Cell L W =>
    if (decide (depth c > F.fl dryDepth) && decide (q.qw c > 0)) = true then do
      let u ← divD (q.qw c) (depth c)
      pure (min (F.fl uMax) (F.fl u))
    else pure 0) (v := (updateVelocityR F uMax dryDepth depth q).uw) (by
      intro c
      simp only [updateVelocityR]
      split_ifs with h
      · simp only [Bool.and_eq_true, decide_eq_true_eq] at h
        rw [divD_ok (by linarith [h.1] : 0 < depth c).ne', ok_bind]; rfl
      · rfl)
  have e2 : ∀ v : Grid L W K, allD (fun c : Cell L W =>
    if (decide (depth c > F.fl dryDepth) && decide (q.qw c > 0)) = true then do
      let x ← divD (F.fl ((updateVelocityR F uMax dryDepth depth q).uw c * v c)) (q.qw c)
      pure (F.fl x)
    else pure 0) = .ok (fun c =>
      if (decide (depth c > F.fl dryDepth) && decide (q.qw c > 0)) = true then
        F.fl (F.fl (min (F.fl uMax) (F.fl (q.qw c / depth c)) * v c) / q.qw c) else 0) := by
    intro v
    refine allD_ok fun c => ?_
    simp only [updateVelocityR]
    split_ifs with h
    · simp only [Bool.and_eq_true, decide_eq_true_eq] at h
      rw [divD_ok h.2.ne']; rfl
    · rfl
  simp only []
  rw [e1, ok_bind, e2, ok_bind, e2, ok_bind]
  rfl

lemma waterIterationRD_eq (g : Rng K σ) {P : Params L W m K} (hP : DefinedSetup P) (it : ℕ)
    {S : State L W K} (hd : ∀ c, 0 ≤ S.depth c) (s : σ) :
    waterIterationRD F D g P it S s = ofErr (waterIterationR F D g P it S s) ∧
      ∀ S' s', waterIterationR F D g P it S s = .ok (S', s') → NonnegFlow S' := by
  unfold waterIterationRD waterIterationR
  rw [waterWeightArrayRD_eq hP hd]
  generalize waterWeightArrayR F D P S = x
  cases x with
  | error e => exact ⟨rfl, fun _ _ h => by simp at h⟩
  | ok w =>
    simp only [ofErr, ok_bind]
    rw [runWaterIterationRD_eq g (E := waterEnvR F P S w) hP.s2 hP.dx hP.hm]
    generalize runWaterIterationR F D g _ _ _ _ s = y
    cases y with
    | error e => exact ⟨rfl, fun _ _ h => by simp at h⟩
    | ok v =>
      obtain ⟨wst, log, n, s1⟩ := v
      simp only [ofErr, ok_bind, computeFreeSurfaceRD_eq]
      generalize computeFreeSurfaceR F D P S wst.parcels = z
      cases z with
      | error e => exact ⟨rfl, fun _ _ h => by simp at h⟩
      | ok stage =>
        simp only [ofErr, ok_bind]
        unfold finalizeWaterIterationRD
        simp only [updateFlowRD_eq, ok_bind, updateVelocityRD_eq hP.dry]
        refine ⟨rfl, fun S' s' h => ?_⟩
        simp only [Except.ok.injEq, Prod.mk.injEq] at h
        rw [← h.1]
        have hq : ∀ c, 0 ≤ (updateFlowR F D P.nrm P.omegaFlow P.omegaFlowIter P.qw0 P.inlet S.timeIter it
            S.qx S.qy wst.flux).qw c := by
          intro c
          simp only [updateFlowR, assign]
          split_ifs
          · exact fl_nonneg F hP.qw0
          all_goals exact fl_nonneg F (hP.nrm _ _)
        refine ⟨fun c => le_max_right _ _, fun c => ?_, hq⟩
        simp only [finalizeWaterIterationR, updateVelocityR]
        split_ifs with hm
        · exact le_min (fl_nonneg F hP.uMax) (fl_nonneg F (div_nonneg (hq c) (le_max_right _ _)))
        · exact le_refl _

lemma routeWaterFromRD_eq (g : Rng K σ) {P : Params L W m K} (hP : DefinedSetup P) :
    ∀ (n it : ℕ) {S : State L W K} (_ : NonnegFlow S) (s : σ),
    routeWaterFromRD F D g P it n S s = ofErr (routeWaterFromR F D g P it n S s) ∧
      ∀ S' s', routeWaterFromR F D g P it n S s = .ok (S', s') → NonnegFlow S'
  | 0, _, _, hS, _ => ⟨rfl, fun S' s' h => by
      simp only [routeWaterFromR, Except.ok.injEq, Prod.mk.injEq] at h
      rw [← h.1]; exact hS⟩
  | n + 1, it, S, hS, s => by
    obtain ⟨e, hn⟩ := waterIterationRD_eq (F := F) (D := D) g hP it hS.depth s
    unfold routeWaterFromRD routeWaterFromR
    rw [e]
    generalize hx : waterIterationR F D g P it S s = x at hn
    cases x with
    | error e => exact ⟨rfl, fun _ _ h => by simp at h⟩
    | ok v =>
      obtain ⟨S1, s1⟩ := v
      simp only [ofErr, ok_bind]
      exact routeWaterFromRD_eq g hP n (it + 1) (hn _ _ rfl) s1

end water

/-! ## Sediment -/

lemma eroVolumeRD_eq {pw : K → K} {Vp U Uero mod : K} (hU : 0 ≤ U) (h : 0 < Uero)
    (hp : ∀ x, 0 < x → pw x ≠ 0) :
    eroVolumeRD F pw Vp U Uero mod = .ok (eroVolumeR F pw Vp U Uero mod) := by
  unfold eroVolumeRD
  rw [powD_ok hU, ok_bind, powD_ok h.le, ok_bind, divD_ok (hp _ h)]
  rfl

lemma volumeChangeRD_eq {P : Params L W m K} (hP : DefinedSetup P) (k : Sed) {S : State L W K}
    (hu : ∀ c, 0 ≤ S.uw c) (c : Cell L W) (res : K) :
    volumeChangeRD F D k P S c res = .ok (volumeChangeR F D k P S c res) := by
  cases k with
  | sand =>
    simp only [volumeChangeRD, volumeChangeR]
    unfold sandChangeRD sandChangeR
    simp only []
    rw [powD_ok hP.u0.le, ok_bind, divD_ok (hP.pw _ hP.u0), ok_bind, powD_ok (hu c), ok_bind,
      eroVolumeRD_eq (hu c) hP.eroSand hP.pw]
    split_ifs <;> rfl
  | mud =>
    simp only [volumeChangeRD, volumeChangeR]
    unfold mudChangeRD mudChangeR
    simp only []
    rw [powD_ok hP.depMud.le, ok_bind, powD_ok (hu c), ok_bind, divD_ok (hP.pw _ hP.depMud), ok_bind,
      eroVolumeRD_eq (hu c) hP.eroMud hP.pw]
    split_ifs <;> rfl

lemma updateFieldsRD_eq {P : Params L W m K} (hP : DefinedSetup P) (S : State L W K) (c : Cell L W)
    (v : K) : updateFieldsRD F D P S c v = .ok (updateFieldsR F D P S c v) := by
  unfold updateFieldsRD updateFieldsR
  rw [divD_ok (fl_ne (mul_ne_zero hP.dx hP.dx)), ok_bind]
  simp only []
  by_cases hd : max 0 (D.fl (S.stage c - D.fl (S.eta c + D.fl (v / F.fl (P.dx * P.dx))))) > 0
  · rw [if_pos hd, divD_ok hd.ne', ok_bind]
    by_cases hq : S.qw c > 0
    · simp only [if_pos hq, if_pos hd, divD_ok hq.ne', ok_bind, pure_ok]
    · simp only [if_neg hq, if_pos hd, ok_bind, pure_ok]
  · rw [if_neg hd]
    by_cases hq : S.qw c > 0
    · simp only [if_pos hq, if_neg hd, divD_ok hq.ne', ok_bind, pure_ok]
    · simp only [if_neg hq, if_neg hd, ok_bind, pure_ok]

lemma halfRateRD_eq {P : Params L W m K} (hP : DefinedSetup P) (res : K) :
    halfRateRD D P res = .ok (halfRateR D P res) := by
  unfold halfRateRD
  rw [divD_ok hP.dt, ok_bind, divD_ok hP.dx]
  rfl

lemma fieldsAtRD_eq {P : Params L W m K} (hP : DefinedSetup P) (k : Sed) (S : State L W K)
    (c0 c : Cell L W) (d : Fin 9) (res : K) :
    fieldsAtRD F D k P S c0 c d res = .ok (fieldsAtR F D k P S c0 c d res) := by
  cases k with
  | mud => rfl
  | sand =>
    simp only [fieldsAtRD, fieldsAtR]
    unfold partitionSandRD partitionSandR
    rw [halfRateRD_eq hP, ok_bind]
    simp only []
    split_ifs <;> rfl

lemma enterStateRD_eq {P : Params L W m K} (hP : DefinedSetup P) (k : Sed) (st : SedSt L W K)
    (c : Cell L W) : enterStateRD F D k P st c = .ok (enterStateR F D k P st c) := by
  cases k with
  | mud => rfl
  | sand =>
    simp only [enterStateRD, enterStateR]
    rw [halfRateRD_eq hP, ok_bind]
    rfl

section sediment

variable [NeZero L] [NeZero W]

lemma chooseNextRD_eq (g : Rng K σ) (k : Sed) {P : Params L W m K} (hP : DefinedSetup P)
    {st : SedSt L W K} (hst : NonnegSed st) (px py : ℤ) (s : σ) :
    chooseNextRD F D g k P st px py s = ofErr (chooseNextR F D g k P st px py s) := by
  unfold chooseNextRD chooseNextR
  cases cellAt L W px py with
  | none => rfl
  | some c =>
    simp only []
    have e : sedWeightsRD F st.padDepth (customPad P.modSed) (customPad P.cellType) st.S.qx st.S.qy P.s2
        P.s05 P.dryDepth (P.pwSed k) c = ofErr (sedWeightsR F st.padDepth (customPad P.modSed)
        (customPad P.cellType) st.S.qx st.S.qy P.s2 P.s05 P.dryDepth (P.pwSed k) c) := by
      unfold sedWeightsRD sedWeightsR
      rw [weightIntRD_ok hP.s2, ok_bind]
      exact sedWeightAtCellRD_eq _ _ _ _ (fun d => hst.pad _) (fun d => pad_nonneg' hP.modSed _)
        (distances_ne hP.s2)
    rw [e]
    generalize sedWeightsR F st.padDepth (customPad P.modSed) (customPad P.cellType) st.S.qx st.S.qy P.s2
      P.s05 P.dryDepth (P.pwSed k) c = x
    cases x with
    | error e => rfl
    | ok w =>
      simp only [ofErr, ok_bind]
      generalize randomPickR F D w _ = y
      cases y <;> rfl

lemma fieldsAtR_qs (k : Sed) (P : Params L W m K) (S : State L W K) (c0 c : Cell L W) (d : Fin 9)
    (res : K) : ∃ qs, fieldsAtR F D k P S c0 c d res = { S with qs := qs } := by
  cases k with
  | mud => exact ⟨S.qs, rfl⟩
  | sand =>
    simp only [fieldsAtR, partitionSandR]
    split_ifs
    · exact ⟨_, rfl⟩
    · exact ⟨S.qs, rfl⟩

lemma recordDepositR_nonneg (k : Sed) {S : State L W K} (h1 : ∀ c, 0 ≤ S.depSand c)
    (h2 : ∀ c, 0 ≤ S.depMud c) (c : Cell L W) (v : K) :
    (∀ x, 0 ≤ (recordDepositR F D k S c v).depSand x) ∧
      ∀ x, 0 ≤ (recordDepositR F D k S c v).depMud x := by
  have hu : ∀ (f : Grid L W K), (∀ x, 0 ≤ f x) → v > 0 →
      ∀ x, 0 ≤ Function.update f c (F.fl (D.fl (f c + v))) x := by
    intro f hf hv x
    by_cases hx : x = c
    · subst hx; rw [Function.update_self]
      exact fl_nonneg F (fl_nonneg D (add_nonneg (hf _) hv.le))
    · rw [Function.update_of_ne hx]; exact hf x
  unfold recordDepositR
  split_ifs with hv
  · cases k with
    | sand => exact ⟨hu _ h1 hv, h2⟩
    | mud => exact ⟨h1, hu _ h2 hv⟩
  · exact ⟨h1, h2⟩

lemma recordDepositR_flow (k : Sed) (S : State L W K) (c : Cell L W) (v : K) :
    (recordDepositR F D k S c v).depth = S.depth ∧ (recordDepositR F D k S c v).uw = S.uw ∧
      (recordDepositR F D k S c v).qw = S.qw := by
  unfold recordDepositR
  split_ifs
  · cases k <;> exact ⟨rfl, rfl, rfl⟩
  · exact ⟨rfl, rfl, rfl⟩

lemma updateFieldsR_nonneg {P : Params L W m K} (hP : DefinedSetup P) {S : State L W K}
    (hS : NonnegFlow S) (c : Cell L W) (v : K) : NonnegFlow (updateFieldsR F D P S c v) := by
  have hu : ∀ (f : Grid L W K) (a : K), (∀ x, 0 ≤ f x) → 0 ≤ a → ∀ x, 0 ≤ Function.update f c a x := by
    intro f a hf ha x
    by_cases hx : x = c
    · subst hx; rw [Function.update_self]; exact ha
    · rw [Function.update_of_ne hx]; exact hf x
  refine ⟨hu _ _ hS.depth (fl_nonneg F (le_max_left _ _)), hu _ _ hS.uw (fl_nonneg F ?_), hS.qw⟩
  split_ifs with hd
  · exact le_min hP.uMax (fl_nonneg D (div_nonneg (hS.qw c) (le_of_lt hd)))
  · exact hS.uw c

lemma sedStepRD_eq (g : Rng K σ) (k : Sed) {P : Params L W m K} (hP : DefinedSetup P)
    {st : SedSt L W K} (hst : NonnegSed st) (px py : ℤ) (res : K) (s : σ) :
    sedStepRD F D g k P st px py res s = ofErr (sedStepR F D g k P st px py res s) ∧
      ∀ st1 res1 r s1, sedStepR F D g k P st px py res s = .ok (st1, res1, r, s1) → NonnegSed st1 := by
  unfold sedStepRD sedStepR
  rw [chooseNextRD_eq g k hP hst]
  generalize chooseNextR F D g k P st px py s = x
  cases x with
  | error e => exact ⟨rfl, fun _ _ _ _ h => by simp at h⟩
  | ok v =>
    obtain ⟨c0, d, s1⟩ := v
    simp only [ofErr, ok_bind]
    generalize pyCell L W _ _ = y
    generalize pyCell (L + 2) (W + 2) _ _ = z
    cases y with
    | none => exact ⟨rfl, fun _ _ _ _ h => by simp at h⟩
    | some c =>
      cases z with
      | none => exact ⟨rfl, fun _ _ _ _ h => by simp at h⟩
      | some cp =>
        obtain ⟨qs, hq⟩ := fieldsAtR_qs (F := F) (D := D) k P st.S c0 c d res
        have f1 : NonnegFlow (fieldsAtR F D k P st.S c0 c d res) := by
          rw [hq]; exact ⟨hst.flow.depth, hst.flow.uw, hst.flow.qw⟩
        simp only [fieldsAtRD_eq hP, ok_bind, volumeChangeRD_eq hP k f1.uw, updateFieldsRD_eq hP, pure_ok,
          true_and]
        intro st1 res1 r s2 h
        simp only [Except.ok.injEq, Prod.mk.injEq] at h
        rw [← h.1]
        obtain ⟨a1, a2, a3⟩ := recordDepositR_flow (F := F) (D := D) k
          (fieldsAtR F D k P st.S c0 c d res) c
          (volumeChangeR F D k P (fieldsAtR F D k P st.S c0 c d res) c res)
        have f2 : NonnegFlow (recordDepositR F D k (fieldsAtR F D k P st.S c0 c d res) c
            (volumeChangeR F D k P (fieldsAtR F D k P st.S c0 c d res) c res)) :=
          ⟨by rw [a1]; exact f1.depth, by rw [a2]; exact f1.uw, by rw [a3]; exact f1.qw⟩
        have f3 := updateFieldsR_nonneg (F := F) (D := D) hP f2 c
          (volumeChangeR F D k P (fieldsAtR F D k P st.S c0 c d res) c res)
        obtain ⟨b1, b2⟩ := recordDepositR_nonneg (F := F) (D := D) k
          (S := fieldsAtR F D k P st.S c0 c d res)
          (by rw [hq]; exact hst.sand) (by rw [hq]; exact hst.mud) c
          (volumeChangeR F D k P (fieldsAtR F D k P st.S c0 c d res) c res)
        refine ⟨f3, ?_, b1, b2⟩
        intro p
        by_cases hp : p = cp
        · subst hp; simp only [Function.update_self]; exact f3.depth c
        · simp only [Function.update_of_ne hp]; exact hst.pad p

lemma sedLoopRD_eq (g : Rng K σ) (k : Sed) {P : Params L W m K} (hP : DefinedSetup P) :
    ∀ (n : ℕ) {st : SedSt L W K} (_ : NonnegSed st) (px py : ℤ) (res : K) (s : σ),
    sedLoopRD F D g k P n st px py res s = ofErr (sedLoopR F D g k P n st px py res s) ∧
      ∀ st1 res1 rs s1, sedLoopR F D g k P n st px py res s = .ok (st1, res1, rs, s1) → NonnegSed st1
  | 0, _, _, _, _, _, _ => ⟨rfl, fun _ _ _ _ h => by simp [sedLoopR] at h⟩
  | n + 1, st, hst, px, py, res, s => by
    obtain ⟨e, hn⟩ := sedStepRD_eq (F := F) (D := D) g k hP hst px py res s
    unfold sedLoopRD sedLoopR
    rw [e]
    generalize hx : sedStepR F D g k P st px py res s = x at hn
    cases x with
    | error e => exact ⟨rfl, fun _ _ _ _ h => by simp at h⟩
    | ok v =>
      obtain ⟨st1, res1, r, s1⟩ := v
      have h1 := hn _ _ _ _ rfl
      simp only [ofErr, ok_bind]
      split_ifs with hc
      · refine ⟨rfl, fun _ _ _ _ h => ?_⟩
        simp only [Except.ok.injEq, Prod.mk.injEq] at h
        rw [← h.1]; exact h1
      · obtain ⟨e2, hn2⟩ := sedLoopRD_eq g k hP n h1 r.new.1 r.new.2 res1 s1
        rw [e2]
        generalize sedLoopR F D g k P n st1 r.new.1 r.new.2 res1 s1 = y at hn2
        cases y with
        | error e => exact ⟨rfl, fun _ _ _ _ h => by simp at h⟩
        | ok v =>
          obtain ⟨st2, res2, rs, s2⟩ := v
          refine ⟨rfl, fun _ _ _ _ h => ?_⟩
          simp only [Except.ok.injEq, Prod.mk.injEq] at h
          rw [← h.1]; exact hn2 _ _ _ _ rfl

lemma sedParcelsRD_eq (g : Rng K σ) (k : Sed) {P : Params L W m K} (hP : DefinedSetup P) :
    ∀ (pys : List ℤ) {st : SedSt L W K} (_ : NonnegSed st) (s : σ),
    sedParcelsRD F D g k P pys st s = ofErr (sedParcelsR F D g k P pys st s) ∧
      ∀ st1 logs s1, sedParcelsR F D g k P pys st s = .ok (st1, logs, s1) → NonnegSed st1
  | [], st, hst, s => ⟨rfl, fun _ _ _ h => by
      simp only [sedParcelsR, Except.ok.injEq, Prod.mk.injEq] at h
      rw [← h.1]; exact hst⟩
  | py :: pys, st, hst, s => by
    unfold sedParcelsRD sedParcelsR
    cases pyCell L W 0 py with
    | none => exact ⟨rfl, fun _ _ _ h => by simp at h⟩
    | some c =>
      have h0 : NonnegSed (enterStateR F D k P st c) := by
        cases k with
        | mud => exact hst
        | sand => exact ⟨⟨hst.flow.depth, hst.flow.uw, hst.flow.qw⟩, hst.pad, hst.sand, hst.mud⟩
      simp only [enterStateRD_eq hP, ok_bind]
      obtain ⟨e, hn⟩ := sedLoopRD_eq (F := F) (D := D) g k hP P.stepmax h0 0 py P.VpSed s
      rw [e]
      generalize sedLoopR F D g k P P.stepmax (enterStateR F D k P st c) 0 py P.VpSed s = x at hn
      cases x with
      | error e => exact ⟨rfl, fun _ _ _ h => by simp at h⟩
      | ok v =>
        obtain ⟨st2, res, rs, s1⟩ := v
        simp only [ofErr, ok_bind]
        obtain ⟨e2, hn2⟩ := sedParcelsRD_eq g k hP pys (hn _ _ _ _ rfl) s1
        rw [e2]
        generalize sedParcelsR F D g k P pys st2 s1 = y at hn2
        cases y with
        | error e => exact ⟨rfl, fun _ _ _ h => by simp at h⟩
        | ok v =>
          obtain ⟨st3, logs, s2⟩ := v
          refine ⟨rfl, fun _ _ _ h => ?_⟩
          simp only [Except.ok.injEq, Prod.mk.injEq] at h
          rw [← h.1]; exact hn2 _ _ _ rfl

variable [FloorRing K]

lemma routeParcelsRD_eq (g : Rng K σ) (k : Sed) {P : Params L W m K} (hP : DefinedSetup P)
    {S : State L W K} (hS : NonnegBed S) (s : σ) :
    routeParcelsRD F D g k P S s = ofErr (routeParcelsR F D g k P S s) ∧
      ∀ S1 logs s1, routeParcelsR F D g k P S s = .ok (S1, logs, s1) → NonnegBed S1 := by
  unfold routeParcelsRD routeParcelsR
  simp only [getStartIndicesRD_eq hP.hm]
  generalize getStartIndicesR D (fun k => ((P.inlet k).val : ℤ))
    (getInletWeights fun k => ((P.inlet k).val : ℤ)) (drawN g (numStartsR D k P) s).1 = x
  cases x with
  | none => exact ⟨rfl, fun _ _ _ h => by simp at h⟩
  | some starts =>
    simp only [ok_bind]
    obtain ⟨e, hn⟩ := sedParcelsRD_eq (F := F) (D := D) g k hP starts (st := ⟨S, customPad S.depth⟩)
      ⟨hS.flow, fun p => pad_nonneg' hS.flow.depth p, hS.sand, hS.mud⟩ (drawN g (numStartsR D k P) s).2
    rw [e]
    generalize sedParcelsR F D g k P starts _ _ = y at hn
    cases y with
    | error e => exact ⟨rfl, fun _ _ _ h => by simp at h⟩
    | ok v =>
      obtain ⟨st, logs, s2⟩ := v
      refine ⟨rfl, fun _ _ _ h => ?_⟩
      simp only [Except.ok.injEq, Prod.mk.injEq] at h
      have := hn _ _ _ rfl
      rw [← h.1]; exact ⟨this.flow, this.sand, this.mud⟩

lemma routeSedimentRD_eq (g : Rng K σ) {P : Params L W m K} (hP : DefinedSetup P)
    {S : State L W K} (hS : NonnegFlow S) (s : σ) :
    routeSedimentRD F D g P S s = ofErr (routeSedimentR F D g P S s) ∧
      ∀ S1 sand mud s1, routeSedimentR F D g P S s = .ok (S1, sand, mud, s1) → NonnegBed S1 := by
  have hR := defined_router F hP
  unfold routeSedimentRD routeSedimentR
  obtain ⟨e, hn⟩ := routeParcelsRD_eq (F := F) (D := D) g .sand hR (S := initSediment S)
    ⟨⟨hS.depth, hS.uw, hS.qw⟩, fun _ => le_refl _, fun _ => le_refl _⟩ s
  rw [e]
  generalize routeParcelsR F D g .sand (routerParams F P) (initSediment S) s = x at hn
  cases x with
  | error e => exact ⟨rfl, fun _ _ _ _ h => by simp at h⟩
  | ok v =>
    obtain ⟨S1, sand, s1⟩ := v
    have h1 := hn _ _ _ rfl
    simp only [ofErr, ok_bind]
    obtain ⟨e2, hn2⟩ := routeParcelsRD_eq (F := F) (D := D) g .mud hR (S := { S1 with
      eta := topoDiffusionR F D P.cellType P.diffMult S1.qs P.Ncross S1.eta })
      ⟨⟨h1.flow.depth, h1.flow.uw, h1.flow.qw⟩, h1.sand, h1.mud⟩ s1
    rw [e2]
    generalize routeParcelsR F D g .mud (routerParams F P) _ s1 = y at hn2
    cases y with
    | error e => exact ⟨rfl, fun _ _ _ _ h => by simp at h⟩
    | ok v =>
      obtain ⟨S3, mud, s2⟩ := v
      refine ⟨rfl, fun _ _ _ _ h => ?_⟩
      simp only [Except.ok.injEq, Prod.mk.injEq] at h
      rw [← h.1]; exact hn2 _ _ _ rfl

/-! ## Timesteps -/

lemma computeSandFracRD_eq (P : Params L W m K) (eta0 : Grid L W K) {S : State L W K}
    (h1 : ∀ c, 0 ≤ S.depSand c) (h2 : ∀ c, 0 ≤ S.depMud c) :
    computeSandFracRD F P eta0 S = .ok (computeSandFracR F P eta0 S) := by
  have ht : 0 < F.fl (1 / 1000000) := fl_pos F (by norm_num)
  have e : allD (fun c =>
      if (decide (S.depSand c > 0) || decide (S.depMud c > F.fl (1 / 1000000))) = true then do
        let q ← divD (S.depSand c) (F.fl (S.depMud c + S.depSand c))
        pure (F.fl q)
      else pure 0) = .ok (fun c =>
      if (decide (S.depSand c > 0) || decide (S.depMud c > F.fl (1 / 1000000))) = true then
      F.fl (S.depSand c / F.fl (S.depMud c + S.depSand c)) else 0) := by
    refine allD_ok fun c => ?_
    split_ifs with h
    · rw [divD_ok (ne_of_gt (fl_pos F ?_))]
      · rfl
      have ha := h1 c
      have hb := h2 c
      simp only [Bool.or_eq_true, decide_eq_true_eq] at h
      rcases h with h | h
      · exact add_pos_of_nonneg_of_pos hb h
      · exact add_pos_of_pos_of_nonneg (lt_trans ht h) ha
    · rfl
  have ha : ∀ f : Grid L W K, assign f (fun c =>
        decide (S.depSand c > 0) || decide (S.depMud c > F.fl (1 / 1000000))) (fun c =>
      if (decide (S.depSand c > 0) || decide (S.depMud c > F.fl (1 / 1000000))) = true then
      F.fl (S.depSand c / F.fl (S.depMud c + S.depSand c)) else 0) = assign f (fun c =>
        decide (S.depSand c > 0) || decide (S.depMud c > F.fl (1 / 1000000))) (fun c =>
      F.fl (S.depSand c / F.fl (S.depMud c + S.depSand c))) := by
    intro f
    funext c
    simp only [assign]
    split_ifs <;> rfl
  unfold computeSandFracRD computeSandFracR
  simp only []
  rw [e, ok_bind]
  simp only [pure_ok, ha]

lemma finalizeTimestepRD_eq (P : Params L W m K) (eta0 : Grid L W K) {S : State L W K}
    (h1 : ∀ c, 0 ≤ S.depSand c) (h2 : ∀ c, 0 ≤ S.depMud c) :
    finalizeTimestepRD F D P eta0 S = .ok (finalizeTimestepR F D P eta0 S) := by
  unfold finalizeTimestepRD
  simp only []
  rw [computeSandFracRD_eq, ok_bind]
  · rfl
  · exact h1
  · exact h2

/-- C106, one timestep: the checked rounded timestep does what the unchecked one does: every division and
every power that is executed is defined, for all random numbers and for any two precisions, whether or not
the timestep succeeds. Depths, speeds and discharges stay nonnegative, so this goes on. -/
theorem C106_update (F D : Rounding K) (g : Rng K σ) {P : Params L W m K} (hP : DefinedSetup P)
    {S : State L W K} (hS : NonnegFlow S) (s : σ) :
    timestepRD F D g P S s = ofErr (timestepR F D g P S s) ∧
      ∀ S' l s', timestepR F D g P S s = .ok (S', l, s') → NonnegFlow S' := by
  unfold timestepRD timestepR routeWaterR
  obtain ⟨e, hn⟩ := routeWaterFromRD_eq (F := F) (D := D) g hP P.itermax 0 hS s
  rw [e]
  generalize routeWaterFromR F D g P 0 P.itermax S s = x at hn
  cases x with
  | error e => exact ⟨rfl, fun _ _ _ h => by simp at h⟩
  | ok v =>
    obtain ⟨S1, s1⟩ := v
    simp only [ofErr, ok_bind]
    obtain ⟨e2, hn2⟩ := routeSedimentRD_eq (F := F) (D := D) g hP (hn _ _ rfl) s1
    rw [e2]
    generalize routeSedimentR F D g P S1 s1 = y at hn2
    cases y with
    | error e => exact ⟨rfl, fun _ _ _ h => by simp at h⟩
    | ok v =>
      obtain ⟨S2, sand, mud, s2⟩ := v
      have h2 := hn2 _ _ _ _ rfl
      have hs : ∃ eta, applySubsidenceR F D P S2 = { S2 with eta := eta } := by
        unfold applySubsidenceR
        split_ifs
        · exact ⟨_, rfl⟩
        · exact ⟨S2.eta, rfl⟩
        · exact ⟨S2.eta, rfl⟩
      obtain ⟨eta, hs⟩ := hs
      simp only [ofErr, ok_bind]
      rw [finalizeTimestepRD_eq P S.eta (S := applySubsidenceR F D P S2) (by rw [hs]; exact h2.sand)
        (by rw [hs]; exact h2.mud)]
      refine ⟨rfl, fun S' l s' h => ?_⟩
      simp only [Except.ok.injEq, Prod.mk.injEq] at h
      rw [← h.1, hs]
      refine ⟨fun c => ?_, h2.flow.uw, h2.flow.qw⟩
      simp only [finalizeTimestepR, computeSandFracR, assign]
      split_ifs
      · exact fl_nonneg F hP.h0
      · exact le_max_right _ _

/-- C106, runs: the same for runs of any length; settings may change between timesteps. -/
theorem C106_run (F D : Rounding K) (g : Rng K σ) :
    ∀ {Ps : List (Params L W m K)}, (∀ P ∈ Ps, DefinedSetup P) → ∀ {S : State L W K}, NonnegFlow S →
    ∀ s : σ, timestepsRD F D g Ps S s = ofErr (timestepsR F D g Ps S s) := by
  intro Ps
  induction Ps with
  | nil => intro _ S _ s; rfl
  | cons P Ps ih =>
    intro hPs S hS s
    obtain ⟨e, hn⟩ := C106_update F D g (hPs P List.mem_cons_self) hS s
    unfold timestepsRD timestepsR
    rw [e]
    generalize timestepR F D g P S s = x at hn
    cases x with
    | error e => rfl
    | ok v =>
      obtain ⟨S1, l, s1⟩ := v
      simp only [ofErr, ok_bind]
      rw [ih (fun Q hQ => hPs Q (List.mem_cons_of_mem _ hQ)) (hn _ _ _ rfl)]
      generalize timestepsR F D g Ps S1 s1 = y
      cases y <;> rfl

/-- C106: depths, speeds and discharges stay nonnegative through rounded runs. -/
theorem C106_nonneg {g : Rng K σ} : ∀ {Ps : List (Params L W m K)}, (∀ P ∈ Ps, DefinedSetup P) →
    ∀ {S S' : State L W K} {ls : List (StepLog L W K)} {s s' : σ}, NonnegFlow S →
    timestepsR F D g Ps S s = .ok (S', ls, s') → NonnegFlow S' := by
  intro Ps
  induction Ps with
  | nil =>
    intro _ S S' ls s s' hS h
    simp only [timestepsR, Except.ok.injEq, Prod.mk.injEq] at h
    rw [← h.1]; exact hS
  | cons P Ps ih =>
    intro hPs S S' ls s s' hS h
    have hn := (C106_update F D g (hPs P List.mem_cons_self) hS s).2
    unfold timestepsR at h
    generalize timestepR F D g P S s = x at hn h
    cases x with
    | error e => simp at h
    | ok v =>
      obtain ⟨S1, l, s1⟩ := v
      simp only at h
      generalize hy : timestepsR F D g Ps S1 s1 = y at h
      cases y with
      | error e => simp at h
      | ok v =>
        obtain ⟨S2, ls2, s2⟩ := v
        simp only [Except.ok.injEq, Prod.mk.injEq] at h
        rw [← h.1]
        exact ih (fun Q hQ => hPs Q (List.mem_cons_of_mem _ hQ)) (hn _ _ _ rfl) hy

end sediment

/-! ## Created models -/

section created

variable [FloorRing K]

/-- C106, from the configuration on: every timestep of a run of a created model performs only defined
operations in rounded arithmetic, and succeeds, for runs of any length and from any state of its domain
with nonnegative depths, speeds and discharges, as the initial one (first part). -/
theorem C106_created (hFD : Within F D) {O : Oracle K} (hO : OracleOk O) {I : Input K} (hI : Runnable I)
    {g : Rng K σ} (hg : PositiveDraws g) :
    ∃ (L W m : ℕ) (_ : NeZero L) (_ : NeZero W) (P : Params L W m K) (S : State L W K),
      create O I = .ok ⟨L, W, m, P, S⟩ ∧ NonnegFlow S ∧ 0 < S.ncols ∧
      ∀ S0 : State L W K, NonnegFlow S0 → 0 < S0.ncols → ∀ (n : ℕ) (s : σ), ∃ S' ls s',
        timestepsRD F D g (List.replicate n P) S0 s = .ok (S', ls, s') ∧
        timestepsR F D g (List.replicate n P) S0 s = .ok (S', ls, s') ∧ NonnegFlow S' := by
  obtain ⟨L, W, m, iL, iW, P, S, hc, hW, hD, -, hR, hd, hn, -⟩ := C74_created hO hI
  obtain ⟨hP, hS⟩ := created_defined hO hI hc hW hD hR hd
  refine ⟨L, W, m, iL, iW, P, S, hc, hS, hn, fun S0 h0 hn0 n s => ?_⟩
  obtain ⟨S', ls, s', h, -⟩ := C101_run hFD hg (Ps := List.replicate n P)
    (fun Q hQ => by rw [List.eq_of_mem_replicate hQ]; exact ⟨hW, hD, hR.h0⟩) h0.depth hn0 s
  have hPs : ∀ Q ∈ List.replicate n P, DefinedSetup Q := fun Q hQ => by
    rw [List.eq_of_mem_replicate hQ]; exact hP
  refine ⟨S', ls, s', ?_, h, C106_nonneg hPs h0 h⟩
  rw [C106_run F D g hPs h0 s, h]
  rfl

end created

/-! ## Where an operation is not defined -/

/-- C106: the threshold velocity must be positive in rounded arithmetic as well: no rounding saves the
division of C104. -/
theorem C106_threshold (P : Params L W m K) (hu : 0 ≤ P.u0) (h0 : P.pwBeta P.u0 ≠ 0)
    (hE : P.UeroSand = 0) (hz : P.pwBeta 0 = 0) (S : State L W K) (c : Cell L W) (hU : 0 < S.uw c)
    (hq : S.qs c < F.fl (F.fl (F.fl (P.qs0 * P.fCap) / P.pwBeta P.u0) * P.pwBeta (S.uw c))) (res : K) :
    volumeChangeRD F D .sand P S c res = .error .undefined := by
  simp only [volumeChangeRD]
  unfold sandChangeRD
  simp only []
  rw [powD_ok hu, ok_bind, divD_ok h0, ok_bind, powD_ok hU.le, ok_bind, if_neg (not_lt.2 hq.le),
    if_pos ⟨by rw [hE]; exact hU, hq⟩]
  unfold eroVolumeRD
  rw [powD_ok hU.le, ok_bind, hE, powD_ok le_rfl, ok_bind, hz]
  simp [divD]

/-! ## Non-trivial cases -/

/-- Any number of timesteps of the example model in the precisions of the program, with checks. -/
example (n : ℕ) : ∃ r, timestepsRD single double constRng (List.replicate n exParams) exState () = .ok r := by
  have hFD : Within single double := within_binary _ _ (by norm_num)
  obtain ⟨S', ls, s', h, -⟩ := C101_run hFD (g := constRng) exPositive
    (Ps := List.replicate n exParams)
    (fun Q hQ => by rw [List.eq_of_mem_replicate hQ]; exact ⟨exSetup, exSedDomain, exRunSetup.h0⟩)
    exNonneg.depth (by decide) ()
  refine ⟨(S', ls, s'), ?_⟩
  rw [C106_run single double constRng (fun Q hQ => by rw [List.eq_of_mem_replicate hQ]; exact exDefined)
    exNonneg, h]
  rfl

/-- The default configuration. -/
example : ∃ (L W m : ℕ) (_ : NeZero L) (_ : NeZero W) (P : Params L W m ℚ) (S : State L W ℚ),
    create exOracle exInput = .ok ⟨L, W, m, P, S⟩ ∧
    ∀ n, ∃ r, timestepsRD single double constRng (List.replicate n P) S () = .ok r := by
  have hFD : Within single double := within_binary _ _ (by norm_num)
  obtain ⟨L, W, m, iL, iW, P, S, h, hS, hn, hr⟩ :=
    C106_created hFD exOracleOk exRunnable (g := constRng) exPositive
  refine ⟨L, W, m, iL, iW, P, S, h, fun n => ?_⟩
  obtain ⟨S', ls, s', h1, -⟩ := hr S hS hn n ()
  exact ⟨_, h1⟩

end Verif.Props
