import Verif.Spec.FloatSettings
import Verif.Props.Settings
import Verif.Props.FloatSetup
import Verif.Props.FloatLocal

/-!
# C125 in rounded arithmetic: settings that have no effect, to the last digit
-/

set_option linter.unusedSectionVars false
set_option linter.unusedSimpArgs false

namespace Verif.Props

open Verif.Model Verif.Lemmas Verif.Spec

variable {K : Type*} [Field K] [LinearOrder K] [IsStrictOrderedRing K] {σ : Type*} {L W m : ℕ} {F D : Rounding K}

section
variable [NeZero L] [NeZero W]

/-- A step sees the settings only in its parts. -/
lemma sedStepR_settings {g : Rng K σ} {k : Sed} {P Q : Params L W m K}
    (h1 : ∀ st px py s, chooseNextR F D g k Q st px py s = chooseNextR F D g k P st px py s)
    (h2 : ∀ S c0 c d res, fieldsAtR F D k Q S c0 c d res = fieldsAtR F D k P S c0 c d res)
    (h3 : ∀ S c res, volumeChangeR F D k Q S c res = volumeChangeR F D k P S c res)
    (h4 : ∀ S c v, updateFieldsR F D Q S c v = updateFieldsR F D P S c v) (st : SedSt L W K) (px py : ℤ) (res : K) (s : σ) :
    sedStepR F D g k Q st px py res s = sedStepR F D g k P st px py res s := by
  unfold sedStepR
  simp only [h1, h2, h3, h4]

/-- The loops of a router see the settings only in a step and by type and length. -/
lemma sedParcelsR_settings {g : Rng K σ} {k : Sed} {P Q : Params L W m K}
    (h1 : ∀ st px py res s, sedStepR F D g k Q st px py res s = sedStepR F D g k P st px py res s)
    (h2 : Q.cellType = P.cellType) (h3 : Q.stepmax = P.stepmax) (h4 : Q.VpSed = P.VpSed)
    (h5 : ∀ st c, enterStateR F D k Q st c = enterStateR F D k P st c) :
    ∀ (l : List ℤ) (st : SedSt L W K) (s : σ), sedParcelsR F D g k Q l st s = sedParcelsR F D g k P l st s := by
  have hl : ∀ (n : ℕ) (st : SedSt L W K) (px py : ℤ) (res : K) (s : σ),
      sedLoopR F D g k Q n st px py res s = sedLoopR F D g k P n st px py res s := by
    intro n
    induction n with
    | zero => intros; rfl
    | succ n ih =>
      intro st px py res s
      unfold sedLoopR
      rw [h1]
      cases sedStepR F D g k P st px py res s with
      | error e => rfl
      | ok r =>
        obtain ⟨st1, res1, r, s1⟩ := r
        simp only [h2, ih]
  intro l
  induction l with
  | nil => intros; rfl
  | cons py l ih =>
    intro st s
    unfold sedParcelsR
    cases pyCell L W 0 py with
    | none => rfl
    | some c =>
      simp only [h3, h4, h5, hl, ih]

lemma routeParcelsR_settings [FloorRing K] (g : Rng K σ) (k : Sed) (Q P : Params L W m K)
    (h1 : ∀ st px py res s, sedStepR F D g k Q st px py res s = sedStepR F D g k P st px py res s)
    (h2 : Q.cellType = P.cellType) (h3 : Q.stepmax = P.stepmax) (h4 : Q.VpSed = P.VpSed)
    (h5 : ∀ st c, enterStateR F D k Q st c = enterStateR F D k P st c) (h6 : Q.inlet = P.inlet)
    (h7 : numStartsR D k Q = numStartsR D k P) (S : State L W K) (s : σ) :
    routeParcelsR F D g k Q S s = routeParcelsR F D g k P S s := by
  unfold routeParcelsR
  rw [h6, h7]
  simp only [sedParcelsR_settings h1 h2 h3 h4 h5]

/-- Without parcels nothing is routed. -/
lemma routeParcelsR_none [FloorRing K] (g : Rng K σ) {k : Sed} {P : Params L W m K} (h : numStartsR D k P = 0)
    (S : State L W K) (s : σ) : routeParcelsR F D g k P S s = .ok (S, [], s) := by
  unfold routeParcelsR
  rw [h]
  rfl

/-- The water routing with other settings, if they differ in what it does not read. -/
lemma routeWaterR_settings [FloorRing K] (g : Rng K σ) (Q P : Params L W m K) (I : State L W K → Prop)
    (h1 : ∀ it S s, I S → waterIterationR F D g Q it S s = waterIterationR F D g P it S s)
    (h2 : ∀ it S s S' s', I S → waterIterationR F D g P it S s = .ok (S', s') → I S')
    (h3 : Q.itermax = P.itermax) (S : State L W K) (s : σ) (hS : I S) :
    routeWaterR F D g Q S s = routeWaterR F D g P S s := by
  unfold routeWaterR
  rw [h3]
  generalize P.itermax = n
  generalize (0 : ℕ) = it
  induction n generalizing it S s with
  | zero => rfl
  | succ n ih =>
    unfold routeWaterFromR
    rw [h1 it S s hS]
    cases hw : waterIterationR F D g P it S s with
    | error e => rfl
    | ok r => exact ih r.1 r.2 (h2 _ _ _ _ _ hS hw) (it + 1)

lemma waterIterationR_settings [FloorRing K] {g : Rng K σ} {P Q : Params L W m K} {it : ℕ} {S : State L W K} {s : σ}
    (h1 : waterWeightArrayR F D Q S = waterWeightArrayR F D P S)
    (h2 : ∀ w, runWaterIterationR F D g (waterEnvR F Q S w) (fun k => ((Q.inlet k).val : ℤ)) Q.NpWater S.ncols s =
      runWaterIterationR F D g (waterEnvR F P S w) (fun k => ((P.inlet k).val : ℤ)) P.NpWater S.ncols s)
    (h3 : ∀ ps, computeFreeSurfaceR F D Q S ps = computeFreeSurfaceR F D P S ps)
    (h4 : ∀ st f, finalizeWaterIterationR F D Q S it st f = finalizeWaterIterationR F D P S it st f) :
    waterIterationR F D g Q it S s = waterIterationR F D g P it S s := by
  unfold waterIterationR
  rw [h1]
  simp only [h2, h3, h4]

/-- A timestepR F D is determined by its parts. -/
lemma timestepR_settings [FloorRing K] {g : Rng K σ} {P Q : Params L W m K} {S : State L W K} {s : σ}
    (h1 : routeWaterR F D g Q S s = routeWaterR F D g P S s)
    (h2 : ∀ S1 s1, routeWaterR F D g P S s = .ok (S1, s1) → routeSedimentR F D g Q S1 s1 = routeSedimentR F D g P S1 s1)
    (h3 : ∀ S1 s1 S2 a b s2, routeWaterR F D g P S s = .ok (S1, s1) → routeSedimentR F D g P S1 s1 = .ok (S2, a, b, s2) →
      finalizeTimestepR F D Q S.eta (applySubsidenceR F D Q S2) = finalizeTimestepR F D P S.eta (applySubsidenceR F D P S2))
    (h4 : Q.dt = P.dt) : timestepR F D g Q S s = timestepR F D g P S s := by
  unfold timestepR
  rw [h1]
  cases hw : routeWaterR F D g P S s with
  | error e => rfl
  | ok r =>
    obtain ⟨S1, s1⟩ := r
    simp only
    rw [h2 S1 s1 hw]
    cases hs : routeSedimentR F D g P S1 s1 with
    | error e => rfl
    | ok r =>
      obtain ⟨S2, a, b, s2⟩ := r
      simp only
      rw [h3 S1 s1 S2 a b s2 hw hs, h4]

/-- Runs with settings changed one by one. -/
lemma timestepsR_settings [FloorRing K] {g : Rng K σ} (A : Params L W m K → Prop) (f : Params L W m K → Params L W m K)
    (h : ∀ P S s, A P → timestepR F D g (f P) S s = timestepR F D g P S s) :
    ∀ (Ps : List (Params L W m K)), (∀ P ∈ Ps, A P) → ∀ (S : State L W K) (s : σ),
      timestepsR F D g (Ps.map f) S s = timestepsR F D g Ps S s := by
  intro Ps
  induction Ps with
  | nil => intros; rfl
  | cons P Ps ih =>
    intro hP S s
    simp only [List.map_cons]
    unfold timestepsR
    rw [h P S s (hP P (by simp))]
    simp only [ih (fun Q hQ => hP Q (by simp [hQ]))]

variable [FloorRing K]

/-- Settings that the water routing does not read. -/
lemma routeWaterR_mud (g : Rng K σ) (dep ero lag : K) (pw : K → K) (P : Params L W m K) (S : State L W K) (s : σ) :
    routeWaterR F D g (otherMud dep ero lag pw P) S s = routeWaterR F D g P S s :=
  routeWaterR_settings g (otherMud dep ero lag pw P) P (fun _ => True) (fun _ _ _ _ => waterIterationR_settings rfl (fun _ => rfl) (fun _ => rfl) (fun _ _ => rfl))
    (fun _ _ _ _ _ _ _ => trivial) rfl S s trivial

lemma routeWaterR_sand (g : Rng K σ) (ero q cap mult : K) (pw : K → K) (P : Params L W m K)
    (S : State L W K) (s : σ) :
    routeWaterR F D g (otherSand ero q cap mult P.Ncross pw P) S s = routeWaterR F D g P S s :=
  routeWaterR_settings g (otherSand ero q cap mult P.Ncross pw P) P (fun _ => True) (fun _ _ _ _ => waterIterationR_settings rfl (fun _ => rfl) (fun _ => rfl) (fun _ _ => rfl))
    (fun _ _ _ _ _ _ _ => trivial) rfl S s trivial

lemma routeWaterR_subsidence (g : Rng K σ) (on : Bool) (sg : Grid L W K) (start : K) (P : Params L W m K)
    (S : State L W K) (s : σ) :
    routeWaterR F D g (otherSubsidence on sg start P) S s = routeWaterR F D g P S s :=
  routeWaterR_settings g (otherSubsidence on sg start P) P (fun _ => True) (fun _ _ _ _ => waterIterationR_settings rfl (fun _ => rfl) (fun _ => rfl) (fun _ _ => rfl))
    (fun _ _ _ _ _ _ _ => trivial) rfl S s trivial

lemma routeParcelsR_sub (g : Rng K σ) (k : Sed) (on : Bool) (sg : Grid L W K) (start : K) (P : Params L W m K)
    (S : State L W K) (s : σ) :
    routeParcelsR F D g k (routerParams F (otherSubsidence on sg start P)) S s = routeParcelsR F D g k (routerParams F P) S s :=
  routeParcelsR_settings g k (routerParams F (otherSubsidence on sg start P)) (routerParams F P) (sedStepR_settings (fun _ _ _ _ => rfl)
    (fun _ _ _ _ _ => by cases k <;> rfl) (fun _ _ _ => by cases k <;> rfl) (fun _ _ _ => rfl)) rfl rfl rfl (fun _ _ => by cases k <;> rfl) rfl
    (by cases k <;> rfl) S s

lemma routeSedimentR_sub (g : Rng K σ) (on : Bool) (sg : Grid L W K) (start : K) (P : Params L W m K)
    (S : State L W K) (s : σ) :
    routeSedimentR F D g (otherSubsidence on sg start P) S s = routeSedimentR F D g P S s := by
  unfold routeSedimentR
  simp only [routeParcelsR_sub]
  rfl

/-- C125: if no mud parcels are sent, the settings of the mud have no effect on any run: the thresholds of
deposition and erosion, the lag and the exponent of its routing. -/
theorem C125_rounded_mud {g : Rng K σ} (dep ero lag : K) (pw : K → K) {Ps : List (Params L W m K)}
    (h : ∀ P ∈ Ps, numStartsR D .mud P = 0) (S : State L W K) (s : σ) :
    timestepsR F D g (Ps.map (otherMud dep ero lag pw)) S s = timestepsR F D g Ps S s := by
  refine timestepsR_settings (fun P => numStartsR D .mud P = 0) _ (fun P S s hP => ?_) Ps h S s
  refine timestepR_settings (routeWaterR_mud g dep ero lag pw P S s) (fun S1 s1 _ => ?_) (fun _ _ _ _ _ _ _ _ => rfl) rfl
  unfold routeSedimentR
  have e1 : ∀ S s, routeParcelsR F D g .sand (routerParams F (otherMud dep ero lag pw P)) S s =
      routeParcelsR F D g .sand (routerParams F P) S s :=
    fun S s => routeParcelsR_settings g .sand (routerParams F (otherMud dep ero lag pw P)) (routerParams F P) (sedStepR_settings (fun _ _ _ _ => rfl)
      (fun _ _ _ _ _ => rfl) (fun _ _ _ => rfl) (fun _ _ _ => rfl)) rfl rfl rfl (fun _ _ => rfl) rfl rfl S s
  have e2 : numStartsR D .mud (routerParams F (otherMud dep ero lag pw P)) = 0 := hP
  have e3 : numStartsR D .mud (routerParams F P) = 0 := hP
  simp only [e1, routeParcelsR_none g e2, routeParcelsR_none g e3]
  rfl

/-- Without sand flux the strength of the diffusion is not seen. -/
lemma topoDiffusionR_still (ct : Grid L W ℤ) (mult mult' : K) (n : ℕ) (eta : Grid L W K) :
    topoDiffusionR F D ct mult (fun _ => 0) n eta = topoDiffusionR F D ct mult' (fun _ => 0) n eta := by
  induction n generalizing eta with
  | zero => rfl
  | succ n ih =>
    have e1 : ∀ (k : Fin 9 → K) (a : Grid L W K), (∀ c, a c = 0) → ∀ c, convolveR F D k a c = 0 := by
      intro k a ha c
      unfold convolveR
      rw [sumR_zeros, fl_zero]
      intro x hx
      obtain ⟨d, rfl⟩ := List.mem_ofFn.1 hx
      have : at0 a ((c.1.val : ℤ) - ((d.val / 3 : ℕ) - 1)) ((c.2.val : ℤ) - ((d.val % 3 : ℕ) - 1)) = 0 := by
        unfold at0
        split
        · exact ha _
        · rfl
      rw [this, mul_zero, fl_zero]
    have e2 : ∀ mult, diffusionChangeR F D ct mult (fun _ => 0) eta = fun _ => 0 := by
      intro mult
      funext x
      unfold diffusionChangeR
      simp only [assign, zero_mul, fl_zero, e1 _ (fun _ => (0 : K)) (fun _ => rfl), mul_zero, sub_zero, add_zero,
        ite_self]
    unfold topoDiffusionR
    rw [e2, e2, ih]

/-- C125: if no sand parcels are sent, the settings of the sand have no effect on any run: the threshold of
erosion, the capacity, the exponent of its routing, and the strength of the diffusion. -/
theorem C125_rounded_sand {g : Rng K σ} (ero q cap mult : K) (pw : K → K) {Ps : List (Params L W m K)}
    (h : ∀ P ∈ Ps, numStartsR D .sand P = 0) (S : State L W K) (s : σ) :
    timestepsR F D g (Ps.map fun P => otherSand ero q cap mult P.Ncross pw P) S s = timestepsR F D g Ps S s := by
  refine timestepsR_settings (fun P => numStartsR D .sand P = 0) _ (fun P S s hP => ?_) Ps h S s
  refine timestepR_settings (routeWaterR_sand g ero q cap mult pw P S s) (fun S1 s1 _ => ?_)
    (fun _ _ _ _ _ _ _ _ => rfl) rfl
  unfold routeSedimentR
  have e1 : ∀ S s, routeParcelsR F D g .mud (routerParams F (otherSand ero q cap mult P.Ncross pw P)) S s =
      routeParcelsR F D g .mud (routerParams F P) S s :=
    fun S s => routeParcelsR_settings g .mud (routerParams F (otherSand ero q cap mult P.Ncross pw P)) (routerParams F P) (sedStepR_settings (fun _ _ _ _ => rfl)
      (fun _ _ _ _ _ => rfl) (fun _ _ _ => rfl) (fun _ _ _ => rfl)) rfl rfl rfl (fun _ _ => rfl) rfl rfl S s
  have e2 : numStartsR D .sand (routerParams F (otherSand ero q cap mult P.Ncross pw P)) = 0 := hP
  have e4 : numStartsR D .sand (routerParams F P) = 0 := hP
  have e3 : (initSediment S1).qs = fun _ => 0 := rfl
  simp only [e1, routeParcelsR_none g e2, routeParcelsR_none g e4, e3]
  rw [topoDiffusionR_still _ P.diffMult (otherSand ero q cap mult P.Ncross pw P).diffMult]
  rfl

/-- C125: without subsidence its rate and its start have no effect on any run. -/
theorem C125_rounded_subsidence {g : Rng K σ} (sg : Grid L W K) (start : K) {Ps : List (Params L W m K)}
    (h : ∀ P ∈ Ps, P.toggleSub = false) (S : State L W K) (s : σ) :
    timestepsR F D g (Ps.map (otherSubsidence false sg start)) S s = timestepsR F D g Ps S s := by
  refine timestepsR_settings (fun P => P.toggleSub = false) _ (fun P S s hP => ?_) Ps h S s
  refine timestepR_settings (routeWaterR_subsidence g false sg start P S s) (fun S1 s1 _ => routeSedimentR_sub _ _ _ _ _ _ _)
    (fun _ _ S2 _ _ _ _ _ => ?_) rfl
  have e1 : applySubsidenceR F D (otherSubsidence false sg start P) S2 = S2 := rfl
  have e2 : applySubsidenceR F D P S2 = S2 := by simp [applySubsidenceR, hP]
  rw [e1, e2]
  rfl

/-- C125: until the time at which it starts, subsidence has no effect: a run of `n` timestepsR F D that ends one
step after that time at the latest is the run without subsidence. -/
theorem C125_rounded_before {g : Rng K σ} (sg : Grid L W K) (start : K) {P : Params L W m K} (n : ℕ) :
    ∀ {S : State L W K}, (∀ k < n, P.toggleSub = true → ticks D P.dt S.time k < P.startSub) → ∀ s : σ,
    timestepsR F D g (List.replicate n (otherSubsidence false sg start P)) S s = timestepsR F D g (List.replicate n P) S s := by
  induction n with
  | zero => intros; rfl
  | succ n ih =>
    intro S h s
    have e : timestepR F D g (otherSubsidence false sg start P) S s = timestepR F D g P S s := by
      refine timestepR_settings (routeWaterR_subsidence g false sg start P S s)
        (fun S1 s1 _ => routeSedimentR_sub _ _ _ _ _ _ _) (fun S1 s1 S2 a b s2 hw hs => ?_) rfl
      have e1 : applySubsidenceR F D (otherSubsidence false sg start P) S2 = S2 := rfl
      have e2 : applySubsidenceR F D P S2 = S2 := by
        unfold applySubsidenceR
        by_cases ht : P.toggleSub = true
        · have h0 := h 0 (by omega) ht
          have : S2.time = S.time :=
            (routeSedimentR_water hs).2.2.2.2.2.2.2.1.trans (C100_ground hw).2.2.1
          rw [if_pos ht, if_neg]
          rw [this]
          exact not_le.2 h0
        · rw [if_neg ht]
      rw [e1, e2]
      rfl
    simp only [List.replicate_succ]
    unfold timestepsR
    rw [e]
    cases hx : timestepR F D g P S s with
    | error e => rfl
    | ok r =>
      obtain ⟨S1, l, s1⟩ := r
      simp only
      rw [ih (S := S1) (fun k hk ht => ?_) s1]
      obtain ⟨r, e⟩ := step_resultR hx
      rw [r.time, e, ← ticks_shift]
      exact h (k + 1) (by omega) ht

/-- The sediment routing does not read what smooths and relaxes the water. -/
lemma routeSedimentR_relax (g : Rng K σ) (C sfc flow iter : K) (n : ℕ) (P : Params L W m K) (S : State L W K) (s : σ) :
    routeSedimentR F D g (otherSmoothing C n (otherRelaxation sfc flow iter P)) S s = routeSedimentR F D g P S s := by
  have e : ∀ k S s, routeParcelsR F D g k (routerParams F (otherSmoothing C n (otherRelaxation sfc flow iter P))) S s =
      routeParcelsR F D g k (routerParams F P) S s :=
    fun k S s => routeParcelsR_settings g k (routerParams F (otherSmoothing C n (otherRelaxation sfc flow iter P))) (routerParams F P)
      (sedStepR_settings (fun _ _ _ _ => rfl) (fun _ _ _ _ _ => by cases k <;> rfl) (fun _ _ _ => by cases k <;> rfl)
        (fun _ _ _ => rfl)) rfl rfl rfl (fun _ _ => by cases k <;> rfl) rfl
      (by cases k <;> rfl) S s
  unfold routeSedimentR
  simp only [e]
  rfl

/-- C125: if the surface is not smoothed, the weight of the smoothing has no effect on any run. -/
theorem C125_rounded_weight {g : Rng K σ} (C : K) {Ps : List (Params L W m K)}
    (h : ∀ P ∈ Ps, P.Nsmooth = 0) (S : State L W K) (s : σ) :
    timestepsR F D g (Ps.map (otherWeight C)) S s = timestepsR F D g Ps S s := by
  refine timestepsR_settings (fun P => P.Nsmooth = 0) _ (fun P S s hP => ?_) Ps h S s
  refine timestepR_settings (routeWaterR_settings g (otherWeight C P) P (fun _ => True) (fun _ S _ _ => waterIterationR_settings rfl (fun _ => rfl)
      (fun ps => ?_) (fun _ _ => rfl)) (fun _ _ _ _ _ _ _ => trivial) rfl S s trivial)
    (fun S1 s1 _ => ?_) (fun _ _ _ _ _ _ _ _ => rfl) rfl
  · have e1 : sfcEnv (otherWeight C P) S = sfcEnv P S := rfl
    unfold computeFreeSurfaceR
    rw [e1]
    have e2 : ∀ (ct : Grid L W ℤ) (C : K) (H : Grid L W K), smoothR F D ct C 0 H = H := fun _ _ _ => rfl
    have e3 : (otherWeight C P).Nsmooth = 0 := hP
    simp only [finalizeFreeSurfaceR, hP, e3, e2]
    rfl
  · exact routeSedimentR_relax g C P.omegaSfc P.omegaFlow P.omegaFlowIter P.Nsmooth P S1 s1

/-- C125: if the surface keeps its old values (`omega_sfc` zero), weight and number of passes of the smoothing
have no effect on any run. -/
theorem C125_rounded_smoothing {g : Rng K σ} (C : K) (n : ℕ) {Ps : List (Params L W m K)}
    (h : ∀ P ∈ Ps, P.omegaSfc = 0) (S : State L W K) (s : σ) :
    timestepsR F D g (Ps.map (otherSmoothing C n)) S s = timestepsR F D g Ps S s := by
  refine timestepsR_settings (fun P => P.omegaSfc = 0) _ (fun P S s hP => ?_) Ps h S s
  refine timestepR_settings (routeWaterR_settings g (otherSmoothing C n P) P (fun _ => True) (fun _ S _ _ => waterIterationR_settings rfl (fun _ => rfl)
      (fun ps => ?_) (fun _ _ => rfl)) (fun _ _ _ _ _ _ _ => trivial) rfl S s trivial)
    (fun S1 s1 _ => ?_) (fun _ _ _ _ _ _ _ _ => rfl) rfl
  · have e1 : sfcEnv (otherSmoothing C n P) S = sfcEnv P S := rfl
    unfold computeFreeSurfaceR
    rw [e1]
    have e3 : (otherSmoothing C n P).omegaSfc = 0 := hP
    simp only [finalizeFreeSurfaceR, hP, e3, fl_zero, zero_mul]
    rfl
  · exact routeSedimentR_relax g C P.omegaSfc P.omegaFlow P.omegaFlowIter n P S1 s1

/-- C125: the first timestep of a model does not see the relaxation of surface and flow, nor the smoothing. -/
theorem C125_rounded_first {g : Rng K σ} (C sfc flow iter : K) (n : ℕ) (P : Params L W m K) {S : State L W K}
    (h : S.timeIter = 0) (s : σ) :
    timestepR F D g (otherSmoothing C n (otherRelaxation sfc flow iter P)) S s = timestepR F D g P S s := by
  refine timestepR_settings (routeWaterR_settings g (otherSmoothing C n (otherRelaxation sfc flow iter P)) P (fun T => T.timeIter = 0) (fun it T s hT => waterIterationR_settings rfl
      (fun _ => rfl) (fun ps => ?_) (fun st f => ?_)) (fun it T s T' s' hT hw => ?_) rfl S s h)
    (fun S1 s1 _ => routeSedimentR_relax g C sfc flow iter n P S1 s1) (fun _ _ _ _ _ _ _ _ => rfl) rfl
  · have e1 : sfcEnv (otherSmoothing C n (otherRelaxation sfc flow iter P)) T = sfcEnv P T := rfl
    unfold computeFreeSurfaceR
    rw [e1]
    simp only [finalizeFreeSurfaceR, hT, gt_iff_lt, lt_irrefl, if_false]
    rfl
  · simp only [finalizeWaterIterationR, updateFlowR, hT, gt_iff_lt, lt_irrefl, if_false]
    rfl
  · obtain ⟨w, wst, log, n, stage, -, -, -, rfl⟩ := waterIterationR_ok hw
    exact hT

end

/-! ## Configurations -/

variable [FloorRing K]

lemma toNat_cast {n : ℤ} {x : K} (h : D.fl ((n : K) * x) < 1) : D.fl (((n.toNat : ℕ) : K) * x) < 1 := by
  rcases le_total n 0 with h0 | h0
  · rw [Int.toNat_of_nonpos h0]
    simp [fl_zero]
  · have : ((n.toNat : ℕ) : K) = (n : K) := by
      rw [← Int.cast_natCast, Int.toNat_of_nonneg h0]
    rwa [this]

/-- A change of the configuration that shows in the parameters of the created model only. -/
lemma sameRunsR_of {O : Oracle K} {g : Rng K σ} {I I' : Input K}
    (f : ∀ {L W m : ℕ}, Params L W m K → Params L W m K) (hc : createR F D O I' = (createR F D O I).map fun b => { b with P := f b.P })
    (hr : ∀ b, createR F D O I = .ok b → ∀ (_ : NeZero b.L) (_ : NeZero b.W) (n : ℕ) (s : σ),
      timestepsR F D g ((List.replicate n b.P).map f) b.S s = timestepsR F D g (List.replicate n b.P) b.S s) :
    SameRunsR F D O g I I' where
  fails := fun e he => by rw [hc, he]; rfl
  runs := fun b hb => ⟨f b.P, by rw [hc, hb]; rfl, fun iL iW n s => by
    have := hr b hb iL iW n s
    rwa [List.map_replicate] at this⟩

/-- Parameters of a created model that are read off the configuration. -/
lemma createR_params {O : Oracle K} {I : Input K} {b : Built K} (h : createR F D O I = .ok b) :
    b.P.fBedload = I.fBedload ∧ b.P.NpSed = I.NpSed.toNat ∧ b.P.toggleSub = I.toggleSub ∧ b.P.startSub = I.startSub ∧ b.P.Nsmooth = I.Nsmooth.toNat ∧
      b.P.omegaSfc = I.omegaSfc ∧ b.S.time = 0 ∧ b.S.timeIter = 0 := by
  unfold createR at h
  cases hv : validate I with
  | error e => rw [hv] at h; cases h
  | ok u =>
    rw [hv] at h
    simp only at h
    cases hd : boundaryConditionsR D I (cellsAlongR D I.Length I.dx) (cellsAlongR D I.Width I.dx) with
    | error e => rw [hd] at h; cases h
    | ok E =>
      rw [hd] at h
      simp only at h
      split_ifs at h with hs
      simp only [Except.ok.injEq] at h
      subst h
      exact ⟨rfl, rfl, rfl, rfl, rfl, rfl, rfl, rfl⟩

/-- C125: if the share of the mud is less than one parcel, in particular with `f_bedload: 1`, the settings of the
mud (`coeff_U_dep_mud`, `coeff_U_ero_mud`, `coeff_theta_mud`, `sed_lag`) have no effect. -/
theorem C125_rounded_config_mud (O : Oracle K) (g : Rng K σ) {I : Input K} 
    (h : D.fl ((I.NpSed : K) * D.fl (1 - I.fBedload)) < 1)
    (a b c d : K) :
    SameRunsR F D O g I { I with coeffUdepMud := a, coeffUeroMud := b, coeffThetaMud := c, sedLag := d } := by
  refine sameRunsR_of (fun {L W m} P => otherMud (D.fl (a * I.u0)) (D.fl (b * I.u0)) d (fun x => O.pow x (D.fl (c * I.thetaWater))) P) ?_
    (fun B hB iL iW n s => C125_rounded_mud _ _ _ _ (fun P hP => ?_) _ _)
  · unfold createR
    have e1 : validate { I with coeffUdepMud := a, coeffUeroMud := b, coeffThetaMud := c, sedLag := d } = validate I := rfl
    rw [e1]
    cases validate I with
    | error e => rfl
    | ok u =>
      simp only
      have e2 : ∀ L W, boundaryConditionsR D { I with coeffUdepMud := a, coeffUeroMud := b, coeffThetaMud := c, sedLag := d } L W =
          (boundaryConditionsR D I L W).map fun E => { E with lam := d } := by
        intro L W
        unfold boundaryConditionsR
        simp only
        split_ifs <;> rfl
      rw [e2]
      cases boundaryConditionsR D I (cellsAlongR D I.Length I.dx) (cellsAlongR D I.Width I.dx) with
      | error e => rfl
      | ok E =>
        simp only [Except.map]
        by_cases hs : E.sizeInd < 0
        · simp only [if_pos hs]
        · simp only [if_neg hs, Except.ok.injEq]
          congr 1
          unfold otherMud initialParamsR
          congr 1
          funext k
          cases k <;> rfl
  · obtain rfl := List.eq_of_mem_replicate hP
    have hp := createR_params hB
    show (truncInt (D.fl ((B.P.NpSed : K) * D.fl (1 - B.P.fBedload)))).toNat = 0
    rw [hp.1, hp.2.1]
    exact truncInt_none (toNat_cast h)

/-- C125: if the share of the sand is less than one parcel, in particular with `f_bedload: 0`, the settings of the
sand (`coeff_U_ero_sand`, `coeff_theta_sand`) and of the diffusion (`alpha`) have no effect. -/
theorem C125_rounded_config_sand (O : Oracle K) (g : Rng K σ) {I : Input K} (h : D.fl ((I.NpSed : K) * I.fBedload) < 1) (a b c : K) :
    SameRunsR F D O g I { I with coeffUeroSand := a, coeffThetaSand := b, alpha := c } := by
  refine ⟨fun e he => ?_, fun B hB => ?_⟩
  all_goals
    have e1 : validate { I with coeffUeroSand := a, coeffThetaSand := b, alpha := c } = validate I := rfl
    have e2 : ∀ L W, boundaryConditionsR D { I with coeffUeroSand := a, coeffThetaSand := b, alpha := c } L W =
        (boundaryConditionsR D I L W).map fun E => { E with
          diffMult := D.fl (D.fl (D.fl (D.fl (E.dt / (E.Ncross : K)) * c) * (1 / 2)) / D.fl (I.dx * I.dx)) } := by
      intro L W
      unfold boundaryConditionsR
      simp only
      split_ifs <;> rfl
    unfold createR
    rw [e1]
  · unfold createR at he
    cases hv : validate I with
    | error e' => rw [hv] at he; exact he
    | ok u =>
      rw [hv] at he
      simp only at he ⊢
      rw [e2]
      cases hd : boundaryConditionsR D I (cellsAlongR D I.Length I.dx) (cellsAlongR D I.Width I.dx) with
      | error e' => rw [hd] at he; exact he
      | ok E =>
        rw [hd] at he
        simp only [Except.map] at he ⊢
        split_ifs at he ⊢
        exact he
  · have hp := createR_params hB
    unfold createR at hB
    cases hv : validate I with
    | error e' => rw [hv] at hB; cases hB
    | ok u =>
      rw [hv] at hB
      simp only at hB ⊢
      rw [e2]
      cases hd : boundaryConditionsR D I (cellsAlongR D I.Length I.dx) (cellsAlongR D I.Width I.dx) with
      | error e' => rw [hd] at hB; cases hB
      | ok E =>
        rw [hd] at hB
        simp only [Except.map] at hB ⊢
        by_cases hs : E.sizeInd < 0
        · rw [if_pos hs] at hB; cases hB
        · rw [if_neg hs] at hB ⊢
          simp only [Except.ok.injEq] at hB
          refine ⟨otherSand (D.fl (a * I.u0)) E.qs0 I.fBedload (D.fl (D.fl (D.fl (D.fl (E.dt / (E.Ncross : K)) * c) * (1 / 2)) / D.fl (I.dx * I.dx)))
            B.P.Ncross (fun x => O.pow x (D.fl (b * I.thetaWater))) B.P, ?_, fun iL iW n s => ?_⟩
          · subst hB
            simp only [Except.ok.injEq]
            congr 1
            unfold otherSand initialParamsR
            congr 1
            funext k
            cases k <;> rfl
          · have := C125_rounded_sand (F := F) (D := D) (g := g) (D.fl (a * I.u0)) E.qs0 I.fBedload (D.fl (D.fl (D.fl (D.fl (E.dt / (E.Ncross : K)) * c) * (1 / 2)) / D.fl (I.dx * I.dx)))
              (fun x => O.pow x (D.fl (b * I.thetaWater))) (Ps := List.replicate n B.P)
              (fun P hP => by
                obtain rfl := List.eq_of_mem_replicate hP
                show (truncInt (D.fl ((B.P.NpSed : K) * B.P.fBedload))).toNat = 0
                rw [hp.1, hp.2.1]
                exact truncInt_none (toNat_cast h)) B.S s
            rw [List.map_replicate] at this
            exact this

/-- C125: with `toggle_subsidence: False` the rate of the subsidence and its start have no effect. -/
theorem C125_rounded_config_subsidence (O : Oracle K) (g : Rng K σ) {I : Input K} (h : I.toggleSub = false) (a b : K) :
    SameRunsR F D O g I { I with subRate := a, startSub := b } := by
  refine sameRunsR_of (fun {L W m} P => otherSubsidence false (fun _ => 0) b P) ?_
    (fun B hB iL iW n s => C125_rounded_subsidence _ _ (fun P hP => ?_) _ _)
  · unfold createR
    have e1 : validate { I with subRate := a, startSub := b } = validate I := rfl
    have e2 : ∀ L W, boundaryConditionsR D { I with subRate := a, startSub := b } L W = boundaryConditionsR D I L W :=
      fun _ _ => rfl
    rw [e1]
    cases validate I with
    | error e => rfl
    | ok u =>
      simp only
      rw [e2]
      cases boundaryConditionsR D I (cellsAlongR D I.Length I.dx) (cellsAlongR D I.Width I.dx) with
      | error e => rfl
      | ok E =>
        simp only
        by_cases hs : E.sizeInd < 0
        · simp only [if_pos hs]
          rfl
        · simp only [if_neg hs, Except.map, Except.ok.injEq]
          congr 1
          unfold otherSubsidence initialParamsR initialSigmaR
          simp only [h]
          rfl
  · obtain rfl := List.eq_of_mem_replicate hP
    exact (createR_params hB).2.2.1.trans h

/-- C125: with `Nsmooth: 0` the weight `Csmooth` has no effect, if both are accepted. -/
theorem C125_rounded_config_weight (O : Oracle K) (g : Rng K σ) {I : Input K} (h : I.Nsmooth = 0) (h0 : 0 ≤ I.Csmooth) {C : K}
    (hC : 0 ≤ C) : SameRunsR F D O g I { I with Csmooth := C } := by
  refine sameRunsR_of (fun {L W m} P => otherWeight C P) ?_ (fun B hB iL iW n s => C125_rounded_weight _ (fun P hP => ?_) _ _)
  · unfold createR
    have e1 : validate { I with Csmooth := C } = validate I := by
      unfold validate
      simp only [not_lt.2 h0, not_lt.2 hC]
    have e2 : ∀ L W, boundaryConditionsR D { I with Csmooth := C } L W = boundaryConditionsR D I L W := fun _ _ => rfl
    rw [e1]
    cases validate I with
    | error e => rfl
    | ok u =>
      simp only
      rw [e2]
      cases boundaryConditionsR D I (cellsAlongR D I.Length I.dx) (cellsAlongR D I.Width I.dx) with
      | error e => rfl
      | ok E =>
        simp only
        by_cases hs : E.sizeInd < 0
        · simp only [if_pos hs]
          rfl
        · simp only [if_neg hs, Except.map]
          rfl
  · obtain rfl := List.eq_of_mem_replicate hP
    rw [(createR_params hB).2.2.2.2.1, h]
    rfl

/-- C125: a model with subsidence does, up to the time at which this starts, what the model without subsidence
does. -/
theorem C125_rounded_config_before (O : Oracle K) (g : Rng K σ) {I : Input K} {B : Built K} (hB : createR F D O I = .ok B) :
    ∃ P', createR F D O { I with toggleSub := false } = .ok ⟨B.L, B.W, B.m, P', B.S⟩ ∧
      ∀ (_ : NeZero B.L) (_ : NeZero B.W) (n : ℕ), (∀ k < n, I.toggleSub = true → ticks D B.P.dt 0 k < I.startSub) →
        ∀ s : σ, timestepsR F D g (List.replicate n P') B.S s = timestepsR F D g (List.replicate n B.P) B.S s := by
  refine ⟨otherSubsidence false (fun _ => 0) I.startSub B.P, ?_, fun iL iW n hn s => ?_⟩
  · unfold createR at hB ⊢
    have e1 : validate { I with toggleSub := false } = validate I := rfl
    have e2 : ∀ L W, boundaryConditionsR D { I with toggleSub := false } L W = boundaryConditionsR D I L W := fun _ _ => rfl
    rw [e1]
    cases hv : validate I with
    | error e => rw [hv] at hB; cases hB
    | ok u =>
      rw [hv] at hB
      simp only at hB ⊢
      rw [e2]
      cases hd : boundaryConditionsR D I (cellsAlongR D I.Length I.dx) (cellsAlongR D I.Width I.dx) with
      | error e => rw [hd] at hB; cases hB
      | ok E =>
        rw [hd] at hB
        simp only at hB ⊢
        by_cases hs : E.sizeInd < 0
        · rw [if_pos hs] at hB; cases hB
        · rw [if_neg hs] at hB ⊢
          simp only [Except.ok.injEq] at hB
          subst hB
          rfl
  · obtain ⟨-, -, p3, p4, -, -, p7, -⟩ := createR_params hB
    refine C125_rounded_before _ _ n (fun k hk ht => ?_) s
    rw [p7, p4]
    exact hn k hk (p3 ▸ ht)

/-- C125: the first timestep of a new model does not see the relaxation (`omega_sfc`, `omega_flow`) nor the
smoothing of the surface (`Csmooth`, `Nsmooth`). -/
theorem C125_rounded_config_first (O : Oracle K) (g : Rng K σ) {I : Input K} {B : Built K} (hB : createR F D O I = .ok B)
    (a b : K) {C : K} (hC : 0 ≤ C) (n : ℤ) :
    ∃ P', createR F D O { I with omegaSfc := a, omegaFlow := b, Csmooth := C, Nsmooth := n } =
        .ok ⟨B.L, B.W, B.m, P', B.S⟩ ∧
      ∀ (_ : NeZero B.L) (_ : NeZero B.W) (s : σ), timestepR F D g P' B.S s = timestepR F D g B.P B.S s := by
  refine ⟨otherSmoothing C n.toNat (otherRelaxation a b B.P.omegaFlowIter B.P), ?_, fun iL iW s =>
    C125_rounded_first _ _ _ _ _ _ (createR_params hB).2.2.2.2.2.2.2 s⟩
  unfold createR at hB ⊢
  have e2 : ∀ L W, boundaryConditionsR D { I with omegaSfc := a, omegaFlow := b, Csmooth := C, Nsmooth := n } L W =
      boundaryConditionsR D I L W := fun _ _ => rfl
  cases hv : validate I with
  | error e => rw [hv] at hB; cases hB
  | ok u =>
    have h0 : Accepted I := (C50_validate I).1 hv
    have e1 : validate { I with omegaSfc := a, omegaFlow := b, Csmooth := C, Nsmooth := n } = .ok () :=
      (C50_validate _).2 { h0 with Csmooth := hC }
    rw [e1]
    rw [hv] at hB
    simp only at hB ⊢
    rw [e2]
    cases hd : boundaryConditionsR D I (cellsAlongR D I.Length I.dx) (cellsAlongR D I.Width I.dx) with
    | error e => rw [hd] at hB; cases hB
    | ok E =>
      rw [hd] at hB
      simp only at hB ⊢
      by_cases hs : E.sizeInd < 0
      · rw [if_pos hs] at hB; cases hB
      · rw [if_neg hs] at hB ⊢
        simp only [Except.ok.injEq] at hB
        subst hB
        rfl

/-! ## Non-trivial cases -/

/-- With sand only, no number of parcels is sent as mud. -/
example (F : Rounding ℚ) (g : Rng ℚ σ) : SameRunsR F double exOracle g { exDoubles with fBedload := 1 }
    { exDoubles with fBedload := 1, coeffUdepMud := 7, coeffUeroMud := 0, coeffThetaMud := -1, sedLag := 5 } :=
  C125_rounded_config_mud exOracle g (I := { exDoubles with fBedload := 1 })
    (by simp [fl_zero]) 7 0 (-1) 5

/-- Mud only, in the arithmetic of the program: the model can be made. -/
example (g : Rng ℚ σ) : (∃ M, createR single double exOracle { exDoubles with fBedload := 0 } = .ok M) ∧
    SameRunsR single double exOracle g { exDoubles with fBedload := 0 }
      { exDoubles with fBedload := 0, coeffUeroSand := 7, coeffThetaSand := 0, alpha := 100 } := by
  refine ⟨?_, C125_rounded_config_sand exOracle g (I := { exDoubles with fBedload := 0 })
    (by simp [fl_zero]) 7 0 100⟩
  obtain ⟨L, W, m, iL, iW, P, S, h, -⟩ := C107_default (σ := ℕ) (g := ⟨fun s => (1 / 2, s)⟩)
    (fun s => ⟨by norm_num, by norm_num⟩)
  have hv : validate { exDoubles with fBedload := 0 } = .ok () := (C50_validate _).2
    { exDoublesAccepted with f0 := le_rfl, f1 := zero_le_one }
  unfold createR at h ⊢
  rw [(C50_validate _).2 exDoublesAccepted] at h
  rw [hv]
  simp only at h ⊢
  have e : ∀ L W, boundaryConditionsR double { exDoubles with fBedload := 0 } L W =
      boundaryConditionsR double exDoubles L W := fun _ _ => rfl
  rw [e]
  cases hd : boundaryConditionsR double exDoubles (cellsAlongR double exDoubles.Length exDoubles.dx)
      (cellsAlongR double exDoubles.Width exDoubles.dx) with
  | error e => rw [hd] at h; cases h
  | ok E =>
    rw [hd] at h
    simp only at h ⊢
    by_cases hs : E.sizeInd < 0
    · rw [if_pos hs] at h; cases h
    · rw [if_neg hs]
      exact ⟨_, rfl⟩

/-- The default configuration has no subsidence. -/
example (g : Rng ℚ σ) : SameRunsR single double exOracle g exDoubles { exDoubles with subRate := 7, startSub := 0 } :=
  C125_rounded_config_subsidence exOracle g rfl 7 0

end Verif.Props
