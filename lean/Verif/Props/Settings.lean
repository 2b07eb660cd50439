import Verif.Spec.Settings
import Verif.Props.Created

/-!
# C125: settings that have no effect
-/

set_option linter.unusedSectionVars false
set_option linter.unusedSimpArgs false

namespace Verif.Props

open Verif.Model Verif.Lemmas Verif.Spec

variable {K : Type*} [Field K] [LinearOrder K] [IsStrictOrderedRing K] {σ : Type*} {L W m : ℕ}

section
variable [NeZero L] [NeZero W]

/-- A step sees the settings only in its parts. -/
lemma sedStep_other {g : Rng K σ} {k : Sed} {P Q : Params L W m K}
    (h1 : ∀ st px py s, chooseNext g k Q st px py s = chooseNext g k P st px py s)
    (h2 : ∀ S c0 c d res, fieldsAt k Q S c0 c d res = fieldsAt k P S c0 c d res)
    (h3 : ∀ S c res, volumeChange k Q S c res = volumeChange k P S c res)
    (h4 : ∀ S c v, updateFields Q S c v = updateFields P S c v) (st : SedSt L W K) (px py : ℤ) (res : K) (s : σ) :
    sedStep g k Q st px py res s = sedStep g k P st px py res s := by
  unfold sedStep
  simp only [h1, h2, h3, h4]

/-- The loops of a router see the settings only in a step and by type and length. -/
lemma sedParcels_other {g : Rng K σ} {k : Sed} {P Q : Params L W m K}
    (h1 : ∀ st px py res s, sedStep g k Q st px py res s = sedStep g k P st px py res s)
    (h2 : Q.cellType = P.cellType) (h3 : Q.stepmax = P.stepmax) (h4 : Q.VpSed = P.VpSed)
    (h5 : ∀ st c, enterState k Q st c = enterState k P st c) :
    ∀ (l : List ℤ) (st : SedSt L W K) (s : σ), sedParcels g k Q l st s = sedParcels g k P l st s := by
  have hl : ∀ (n : ℕ) (st : SedSt L W K) (px py : ℤ) (res : K) (s : σ),
      sedLoop g k Q n st px py res s = sedLoop g k P n st px py res s := by
    intro n
    induction n with
    | zero => intros; rfl
    | succ n ih =>
      intro st px py res s
      unfold sedLoop
      rw [h1]
      cases sedStep g k P st px py res s with
      | error e => rfl
      | ok r =>
        obtain ⟨st1, res1, r, s1⟩ := r
        simp only [h2, ih]
  intro l
  induction l with
  | nil => intros; rfl
  | cons py l ih =>
    intro st s
    unfold sedParcels
    cases pyCell L W 0 py with
    | none => rfl
    | some c =>
      simp only [h3, h4, h5, hl, ih]

lemma routeParcels_other [FloorRing K] (g : Rng K σ) (k : Sed) (Q P : Params L W m K)
    (h1 : ∀ st px py res s, sedStep g k Q st px py res s = sedStep g k P st px py res s)
    (h2 : Q.cellType = P.cellType) (h3 : Q.stepmax = P.stepmax) (h4 : Q.VpSed = P.VpSed)
    (h5 : ∀ st c, enterState k Q st c = enterState k P st c) (h6 : Q.inlet = P.inlet)
    (h7 : numStarts k Q = numStarts k P) (S : State L W K) (s : σ) :
    routeParcels g k Q S s = routeParcels g k P S s := by
  unfold routeParcels
  rw [h6, h7]
  simp only [sedParcels_other h1 h2 h3 h4 h5]

/-- Without parcels nothing is routed. -/
lemma routeParcels_none [FloorRing K] (g : Rng K σ) {k : Sed} {P : Params L W m K} (h : numStarts k P = 0)
    (S : State L W K) (s : σ) : routeParcels g k P S s = .ok (S, [], s) := by
  unfold routeParcels
  rw [h]
  rfl

/-- The water routing with other settings, if they differ in what it does not read. -/
lemma routeWater_other [FloorRing K] (g : Rng K σ) (Q P : Params L W m K) (I : State L W K → Prop)
    (h1 : ∀ it S s, I S → waterIteration g Q it S s = waterIteration g P it S s)
    (h2 : ∀ it S s S' s', I S → waterIteration g P it S s = .ok (S', s') → I S')
    (h3 : Q.itermax = P.itermax) (S : State L W K) (s : σ) (hS : I S) :
    routeWater g Q S s = routeWater g P S s := by
  unfold routeWater
  rw [h3]
  generalize P.itermax = n
  generalize (0 : ℕ) = it
  induction n generalizing it S s with
  | zero => rfl
  | succ n ih =>
    unfold routeWaterFrom
    rw [h1 it S s hS]
    cases hw : waterIteration g P it S s with
    | error e => rfl
    | ok r => exact ih r.1 r.2 (h2 _ _ _ _ _ hS hw) (it + 1)

lemma waterIteration_other [FloorRing K] {g : Rng K σ} {P Q : Params L W m K} {it : ℕ} {S : State L W K} {s : σ}
    (h1 : waterWeightArray Q S = waterWeightArray P S)
    (h2 : ∀ w, runWaterIteration g (waterEnv Q S w) (fun k => ((Q.inlet k).val : ℤ)) Q.NpWater S.ncols s =
      runWaterIteration g (waterEnv P S w) (fun k => ((P.inlet k).val : ℤ)) P.NpWater S.ncols s)
    (h3 : ∀ ps, computeFreeSurface Q S ps = computeFreeSurface P S ps)
    (h4 : ∀ st f, finalizeWaterIteration Q S it st f = finalizeWaterIteration P S it st f) :
    waterIteration g Q it S s = waterIteration g P it S s := by
  unfold waterIteration
  rw [h1]
  simp only [h2, h3, h4]

/-- A timestep is determined by its parts. -/
lemma timestep_other [FloorRing K] {g : Rng K σ} {P Q : Params L W m K} {S : State L W K} {s : σ}
    (h1 : routeWater g Q S s = routeWater g P S s)
    (h2 : ∀ S1 s1, routeWater g P S s = .ok (S1, s1) → routeSediment g Q S1 s1 = routeSediment g P S1 s1)
    (h3 : ∀ S1 s1 S2 a b s2, routeWater g P S s = .ok (S1, s1) → routeSediment g P S1 s1 = .ok (S2, a, b, s2) →
      finalizeTimestep Q S.eta (applySubsidence Q S2) = finalizeTimestep P S.eta (applySubsidence P S2))
    (h4 : Q.dt = P.dt) : timestep g Q S s = timestep g P S s := by
  unfold timestep
  rw [h1]
  cases hw : routeWater g P S s with
  | error e => rfl
  | ok r =>
    obtain ⟨S1, s1⟩ := r
    simp only
    rw [h2 S1 s1 hw]
    cases hs : routeSediment g P S1 s1 with
    | error e => rfl
    | ok r =>
      obtain ⟨S2, a, b, s2⟩ := r
      simp only
      rw [h3 S1 s1 S2 a b s2 hw hs, h4]

/-- Runs with settings changed one by one. -/
lemma timesteps_other [FloorRing K] {g : Rng K σ} (A : Params L W m K → Prop) (f : Params L W m K → Params L W m K)
    (h : ∀ P S s, A P → timestep g (f P) S s = timestep g P S s) :
    ∀ (Ps : List (Params L W m K)), (∀ P ∈ Ps, A P) → ∀ (S : State L W K) (s : σ),
      timesteps g (Ps.map f) S s = timesteps g Ps S s := by
  intro Ps
  induction Ps with
  | nil => intros; rfl
  | cons P Ps ih =>
    intro hP S s
    simp only [List.map_cons]
    unfold timesteps
    rw [h P S s (hP P (by simp))]
    simp only [ih (fun Q hQ => hP Q (by simp [hQ]))]

variable [FloorRing K]

/-- Settings that the water routing does not read. -/
lemma routeWater_mud (g : Rng K σ) (dep ero lag : K) (pw : K → K) (P : Params L W m K) (S : State L W K) (s : σ) :
    routeWater g (otherMud dep ero lag pw P) S s = routeWater g P S s :=
  routeWater_other g (otherMud dep ero lag pw P) P (fun _ => True) (fun _ _ _ _ => waterIteration_other rfl (fun _ => rfl) (fun _ => rfl) (fun _ _ => rfl))
    (fun _ _ _ _ _ _ _ => trivial) rfl S s trivial

lemma routeWater_sand (g : Rng K σ) (ero q cap mult : K) (times : ℕ) (pw : K → K) (P : Params L W m K)
    (S : State L W K) (s : σ) :
    routeWater g (otherSand ero q cap mult times pw P) S s = routeWater g P S s :=
  routeWater_other g (otherSand ero q cap mult times pw P) P (fun _ => True) (fun _ _ _ _ => waterIteration_other rfl (fun _ => rfl) (fun _ => rfl) (fun _ _ => rfl))
    (fun _ _ _ _ _ _ _ => trivial) rfl S s trivial

lemma routeWater_subsidence (g : Rng K σ) (on : Bool) (sg : Grid L W K) (start : K) (P : Params L W m K)
    (S : State L W K) (s : σ) :
    routeWater g (otherSubsidence on sg start P) S s = routeWater g P S s :=
  routeWater_other g (otherSubsidence on sg start P) P (fun _ => True) (fun _ _ _ _ => waterIteration_other rfl (fun _ => rfl) (fun _ => rfl) (fun _ _ => rfl))
    (fun _ _ _ _ _ _ _ => trivial) rfl S s trivial

lemma routeParcels_sub (g : Rng K σ) (k : Sed) (on : Bool) (sg : Grid L W K) (start : K) (P : Params L W m K)
    (S : State L W K) (s : σ) :
    routeParcels g k (otherSubsidence on sg start P) S s = routeParcels g k P S s :=
  routeParcels_other g k (otherSubsidence on sg start P) P (sedStep_other (fun _ _ _ _ => rfl)
    (fun _ _ _ _ _ => by cases k <;> rfl) (fun _ _ _ => by cases k <;> rfl) (fun _ _ _ => rfl)) rfl rfl rfl (fun _ _ => by cases k <;> rfl) rfl
    (by cases k <;> rfl) S s

lemma routeSediment_sub (g : Rng K σ) (on : Bool) (sg : Grid L W K) (start : K) (P : Params L W m K)
    (S : State L W K) (s : σ) :
    routeSediment g (otherSubsidence on sg start P) S s = routeSediment g P S s := by
  unfold routeSediment
  simp only [routeParcels_sub]
  rfl

/-- C125: if no mud parcels are sent, the settings of the mud have no effect on any run: the thresholds of
deposition and erosion, the lag and the exponent of its routing. -/
theorem C125_mud {g : Rng K σ} (dep ero lag : K) (pw : K → K) {Ps : List (Params L W m K)}
    (h : ∀ P ∈ Ps, numStarts .mud P = 0) (S : State L W K) (s : σ) :
    timesteps g (Ps.map (otherMud dep ero lag pw)) S s = timesteps g Ps S s := by
  refine timesteps_other (fun P => numStarts .mud P = 0) _ (fun P S s hP => ?_) Ps h S s
  refine timestep_other (routeWater_mud g dep ero lag pw P S s) (fun S1 s1 _ => ?_) (fun _ _ _ _ _ _ _ _ => rfl) rfl
  unfold routeSediment
  have e1 : ∀ S s, routeParcels g .sand (otherMud dep ero lag pw P) S s = routeParcels g .sand P S s :=
    fun S s => routeParcels_other g .sand (otherMud dep ero lag pw P) P (sedStep_other (fun _ _ _ _ => rfl)
      (fun _ _ _ _ _ => rfl) (fun _ _ _ => rfl) (fun _ _ _ => rfl)) rfl rfl rfl (fun _ _ => rfl) rfl rfl S s
  have e2 : numStarts .mud (otherMud dep ero lag pw P) = 0 := hP
  simp only [e1, routeParcels_none g e2, routeParcels_none g hP]
  rfl

/-- Without sand flux the bed does not diffuse. -/
lemma topoDiffusion_still (ct : Grid L W ℤ) (mult : K) (n : ℕ) (eta : Grid L W K) :
    topoDiffusion ct mult (fun _ => 0) n eta = eta := by
  induction n generalizing eta with
  | zero => rfl
  | succ n ih =>
    unfold topoDiffusion
    rw [ih]
    funext x
    have e1 : ∀ (k : Fin 9 → K) (a : Grid L W K), (∀ c, a c = 0) → ∀ c, convolve k a c = 0 := by
      intro k a ha c
      unfold convolve
      refine Finset.sum_eq_zero fun d _ => ?_
      have : at0 a ((c.1.val : ℤ) - ((d.val / 3 : ℕ) - 1)) ((c.2.val : ℤ) - ((d.val % 3 : ℕ) - 1)) = 0 := by
        unfold at0
        split
        · exact ha _
        · rfl
      rw [this, mul_zero]
    have e2 : diffusionChange ct mult (fun _ => 0) eta x = 0 := by
      unfold diffusionChange
      simp only [assign, e1 _ (fun _ => (0 : K)) (fun _ => rfl), zero_mul]
      split_ifs <;> simp
    rw [e2, add_zero]

/-- C125: if no sand parcels are sent, the settings of the sand have no effect on any run: the threshold of
erosion, the capacity, the exponent of its routing, and strength and number of passes of the diffusion. -/
theorem C125_sand {g : Rng K σ} (ero q cap mult : K) (times : ℕ) (pw : K → K) {Ps : List (Params L W m K)}
    (h : ∀ P ∈ Ps, numStarts .sand P = 0) (S : State L W K) (s : σ) :
    timesteps g (Ps.map (otherSand ero q cap mult times pw)) S s = timesteps g Ps S s := by
  refine timesteps_other (fun P => numStarts .sand P = 0) _ (fun P S s hP => ?_) Ps h S s
  refine timestep_other (routeWater_sand g ero q cap mult times pw P S s) (fun S1 s1 _ => ?_)
    (fun _ _ _ _ _ _ _ _ => rfl) rfl
  unfold routeSediment
  have e1 : ∀ S s, routeParcels g .mud (otherSand ero q cap mult times pw P) S s = routeParcels g .mud P S s :=
    fun S s => routeParcels_other g .mud (otherSand ero q cap mult times pw P) P (sedStep_other (fun _ _ _ _ => rfl)
      (fun _ _ _ _ _ => rfl) (fun _ _ _ => rfl) (fun _ _ _ => rfl)) rfl rfl rfl (fun _ _ => rfl) rfl rfl S s
  have e2 : numStarts .sand (otherSand ero q cap mult times pw P) = 0 := hP
  have e3 : (initSediment S1).qs = fun _ => 0 := rfl
  simp only [e1, routeParcels_none g e2, routeParcels_none g hP, e3, topoDiffusion_still]

/-- C125: without subsidence its rate and its start have no effect on any run. -/
theorem C125_subsidence {g : Rng K σ} (sg : Grid L W K) (start : K) {Ps : List (Params L W m K)}
    (h : ∀ P ∈ Ps, P.toggleSub = false) (S : State L W K) (s : σ) :
    timesteps g (Ps.map (otherSubsidence false sg start)) S s = timesteps g Ps S s := by
  refine timesteps_other (fun P => P.toggleSub = false) _ (fun P S s hP => ?_) Ps h S s
  refine timestep_other (routeWater_subsidence g false sg start P S s) (fun S1 s1 _ => routeSediment_sub _ _ _ _ _ _ _)
    (fun _ _ S2 _ _ _ _ _ => ?_) rfl
  have e1 : applySubsidence (otherSubsidence false sg start P) S2 = S2 := rfl
  have e2 : applySubsidence P S2 = S2 := by simp [applySubsidence, hP]
  rw [e1, e2]
  rfl

lemma timestep_time {g : Rng K σ} {P : Params L W m K} {S S' : State L W K} {s s' : σ} {l : StepLog L W K}
    (h : timestep g P S s = .ok (S', l, s')) : S'.time = S.time + P.dt := by
  obtain ⟨s1, h1, h2, -, rfl⟩ := timestep_ok h
  have e1 := (routeWater_frame h1).2.2.1
  have e2 := (routeSediment_frame h2).2.2.2.2.2.2.2.1
  have e3 : (applySubsidence P l.routed).time = l.routed.time := by
    unfold applySubsidence
    split_ifs <;> rfl
  show (applySubsidence P l.routed).time + P.dt = _
  rw [e3, e2, e1]

/-- C125: until the time at which it starts, subsidence has no effect: a run of `n` timesteps that ends one
step after that time at the latest is the run without subsidence. -/
theorem C125_before {g : Rng K σ} (sg : Grid L W K) (start : K) {P : Params L W m K} (n : ℕ) :
    ∀ {S : State L W K}, (∀ k < n, P.toggleSub = true → S.time + k * P.dt < P.startSub) → ∀ s : σ,
    timesteps g (List.replicate n (otherSubsidence false sg start P)) S s = timesteps g (List.replicate n P) S s := by
  induction n with
  | zero => intros; rfl
  | succ n ih =>
    intro S h s
    have e : timestep g (otherSubsidence false sg start P) S s = timestep g P S s := by
      refine timestep_other (routeWater_subsidence g false sg start P S s)
        (fun S1 s1 _ => routeSediment_sub _ _ _ _ _ _ _) (fun S1 s1 S2 a b s2 hw hs => ?_) rfl
      have e1 : applySubsidence (otherSubsidence false sg start P) S2 = S2 := rfl
      have e2 : applySubsidence P S2 = S2 := by
        unfold applySubsidence
        by_cases ht : P.toggleSub = true
        · have h0 := h 0 (by omega) ht
          have : S2.time = S.time :=
            (routeSediment_frame hs).2.2.2.2.2.2.2.1.trans (routeWater_frame hw).2.2.1
          rw [if_pos ht, if_neg]
          rw [this]
          simpa using h0
        · rw [if_neg ht]
      rw [e1, e2]
      rfl
    simp only [List.replicate_succ]
    unfold timesteps
    rw [e]
    cases hx : timestep g P S s with
    | error e => rfl
    | ok r =>
      obtain ⟨S1, l, s1⟩ := r
      simp only
      rw [ih (S := S1) (fun k hk ht => ?_) s1]
      rw [timestep_time hx]
      have := h (k + 1) (by omega) ht
      push_cast at this
      linarith

/-- The sediment routing does not read what smooths and relaxes the water. -/
lemma routeSediment_relax (g : Rng K σ) (C sfc flow iter : K) (n : ℕ) (P : Params L W m K) (S : State L W K) (s : σ) :
    routeSediment g (otherSmoothing C n (otherRelaxation sfc flow iter P)) S s = routeSediment g P S s := by
  have e : ∀ k S s, routeParcels g k (otherSmoothing C n (otherRelaxation sfc flow iter P)) S s = routeParcels g k P S s :=
    fun k S s => routeParcels_other g k (otherSmoothing C n (otherRelaxation sfc flow iter P)) P
      (sedStep_other (fun _ _ _ _ => rfl) (fun _ _ _ _ _ => by cases k <;> rfl) (fun _ _ _ => by cases k <;> rfl)
        (fun _ _ _ => rfl)) rfl rfl rfl (fun _ _ => by cases k <;> rfl) rfl
      (by cases k <;> rfl) S s
  unfold routeSediment
  simp only [e]
  rfl

/-- C125: if the surface is not smoothed, the weight of the smoothing has no effect on any run. -/
theorem C125_weight {g : Rng K σ} (C : K) {Ps : List (Params L W m K)}
    (h : ∀ P ∈ Ps, P.Nsmooth = 0) (S : State L W K) (s : σ) :
    timesteps g (Ps.map (otherWeight C)) S s = timesteps g Ps S s := by
  refine timesteps_other (fun P => P.Nsmooth = 0) _ (fun P S s hP => ?_) Ps h S s
  refine timestep_other (routeWater_other g (otherWeight C P) P (fun _ => True) (fun _ S _ _ => waterIteration_other rfl (fun _ => rfl)
      (fun ps => ?_) (fun _ _ => rfl)) (fun _ _ _ _ _ _ _ => trivial) rfl S s trivial)
    (fun S1 s1 _ => ?_) (fun _ _ _ _ _ _ _ _ => rfl) rfl
  · have e1 : sfcEnv (otherWeight C P) S = sfcEnv P S := rfl
    unfold computeFreeSurface
    rw [e1]
    have e2 : ∀ (ct : Grid L W ℤ) (C : K) (H : Grid L W K), smooth ct C 0 H = H := fun _ _ _ => rfl
    have e3 : (otherWeight C P).Nsmooth = 0 := hP
    simp only [finalizeFreeSurface, hP, e3, e2]
    rfl
  · exact routeSediment_relax g C P.omegaSfc P.omegaFlow P.omegaFlowIter P.Nsmooth P S1 s1

/-- C125: if the surface keeps its old values (`omega_sfc` zero), weight and number of passes of the smoothing
have no effect on any run. -/
theorem C125_smoothing {g : Rng K σ} (C : K) (n : ℕ) {Ps : List (Params L W m K)}
    (h : ∀ P ∈ Ps, P.omegaSfc = 0) (S : State L W K) (s : σ) :
    timesteps g (Ps.map (otherSmoothing C n)) S s = timesteps g Ps S s := by
  refine timesteps_other (fun P => P.omegaSfc = 0) _ (fun P S s hP => ?_) Ps h S s
  refine timestep_other (routeWater_other g (otherSmoothing C n P) P (fun _ => True) (fun _ S _ _ => waterIteration_other rfl (fun _ => rfl)
      (fun ps => ?_) (fun _ _ => rfl)) (fun _ _ _ _ _ _ _ => trivial) rfl S s trivial)
    (fun S1 s1 _ => ?_) (fun _ _ _ _ _ _ _ _ => rfl) rfl
  · have e1 : sfcEnv (otherSmoothing C n P) S = sfcEnv P S := rfl
    unfold computeFreeSurface
    rw [e1]
    have e3 : (otherSmoothing C n P).omegaSfc = 0 := hP
    simp only [finalizeFreeSurface, hP, e3, zero_mul, add_zero]
    rfl
  · exact routeSediment_relax g C P.omegaSfc P.omegaFlow P.omegaFlowIter n P S1 s1

/-- C125: the first timestep of a model does not see the relaxation of surface and flow, nor the smoothing. -/
theorem C125_first {g : Rng K σ} (C sfc flow iter : K) (n : ℕ) (P : Params L W m K) {S : State L W K}
    (h : S.timeIter = 0) (s : σ) :
    timestep g (otherSmoothing C n (otherRelaxation sfc flow iter P)) S s = timestep g P S s := by
  refine timestep_other (routeWater_other g (otherSmoothing C n (otherRelaxation sfc flow iter P)) P (fun T => T.timeIter = 0) (fun it T s hT => waterIteration_other rfl
      (fun _ => rfl) (fun ps => ?_) (fun st f => ?_)) (fun it T s T' s' hT hw => ?_) rfl S s h)
    (fun S1 s1 _ => routeSediment_relax g C sfc flow iter n P S1 s1) (fun _ _ _ _ _ _ _ _ => rfl) rfl
  · have e1 : sfcEnv (otherSmoothing C n (otherRelaxation sfc flow iter P)) T = sfcEnv P T := rfl
    unfold computeFreeSurface
    rw [e1]
    simp only [finalizeFreeSurface, hT, gt_iff_lt, lt_irrefl, if_false]
    rfl
  · simp only [finalizeWaterIteration, updateFlow, hT, gt_iff_lt, lt_irrefl, if_false]
    rfl
  · rw [(waterIteration_frame hw).2.2.2.1, hT]

end

/-! ## Configurations -/

variable [FloorRing K]

/-- Less than one parcel is none. -/
lemma truncInt_none {x : K} (h : x < 1) : (truncInt x).toNat = 0 := by
  unfold truncInt
  split_ifs with h0
  · have : ⌊x⌋ < 1 := Int.floor_lt.2 (by simpa using h)
    omega
  · have : ⌈x⌉ ≤ 0 := Int.ceil_le.2 (by simpa using (not_le.1 h0).le)
    omega

lemma toNat_part {n : ℤ} {x : K} (h : (n : K) * x < 1) : ((n.toNat : ℕ) : K) * x < 1 := by
  rcases le_total n 0 with h0 | h0
  · rw [Int.toNat_of_nonpos h0]
    simp
  · have : ((n.toNat : ℕ) : K) = (n : K) := by
      rw [← Int.cast_natCast, Int.toNat_of_nonneg h0]
    rwa [this]

/-- A change of the configuration that shows in the parameters of the created model only. -/
lemma sameRuns_of {O : Oracle K} {g : Rng K σ} {I I' : Input K}
    (f : ∀ {L W m : ℕ}, Params L W m K → Params L W m K) (hc : create O I' = (create O I).map fun b => { b with P := f b.P })
    (hr : ∀ b, create O I = .ok b → ∀ (_ : NeZero b.L) (_ : NeZero b.W) (n : ℕ) (s : σ),
      timesteps g ((List.replicate n b.P).map f) b.S s = timesteps g (List.replicate n b.P) b.S s) :
    SameRuns O g I I' where
  fails := fun e he => by rw [hc, he]; rfl
  runs := fun b hb => ⟨f b.P, by rw [hc, hb]; rfl, fun iL iW n s => by
    have := hr b hb iL iW n s
    rwa [List.map_replicate] at this⟩

/-- Parameters of a created model that are read off the configuration. -/
lemma create_params {O : Oracle K} {I : Input K} {b : Built K} (h : create O I = .ok b) :
    b.P.fBedload = I.fBedload ∧ b.P.NpSed = I.NpSed.toNat ∧ b.P.toggleSub = I.toggleSub ∧ b.P.startSub = I.startSub ∧ b.P.Nsmooth = I.Nsmooth.toNat ∧
      b.P.omegaSfc = I.omegaSfc ∧ b.S.time = 0 ∧ b.S.timeIter = 0 := by
  unfold create at h
  cases hv : validate I with
  | error e => rw [hv] at h; cases h
  | ok u =>
    rw [hv] at h
    simp only at h
    cases hd : boundaryConditions I (cellsAlong I.Length I.dx) (cellsAlong I.Width I.dx) with
    | error e => rw [hd] at h; cases h
    | ok D =>
      rw [hd] at h
      simp only at h
      split_ifs at h with hs
      simp only [Except.ok.injEq] at h
      subst h
      exact ⟨rfl, rfl, rfl, rfl, rfl, rfl, rfl, rfl⟩

/-- C125: if the share of the mud is less than one parcel, in particular with `f_bedload: 1`, the settings of the
mud (`coeff_U_dep_mud`, `coeff_U_ero_mud`, `coeff_theta_mud`, `sed_lag`) have no effect. -/
theorem C125_config_mud (O : Oracle K) (g : Rng K σ) {I : Input K} (h : (I.NpSed : K) * (1 - I.fBedload) < 1)
    (a b c d : K) :
    SameRuns O g I { I with coeffUdepMud := a, coeffUeroMud := b, coeffThetaMud := c, sedLag := d } := by
  refine sameRuns_of (fun {L W m} P => otherMud (a * I.u0) (b * I.u0) d (fun x => O.pow x (c * I.thetaWater)) P) ?_
    (fun B hB iL iW n s => C125_mud _ _ _ _ (fun P hP => ?_) _ _)
  · unfold create
    have e1 : validate { I with coeffUdepMud := a, coeffUeroMud := b, coeffThetaMud := c, sedLag := d } = validate I := rfl
    rw [e1]
    cases validate I with
    | error e => rfl
    | ok u =>
      simp only
      have e2 : ∀ L W, boundaryConditions { I with coeffUdepMud := a, coeffUeroMud := b, coeffThetaMud := c, sedLag := d } L W =
          (boundaryConditions I L W).map fun D => { D with lam := d } := by
        intro L W
        unfold boundaryConditions
        simp only
        split_ifs <;> rfl
      rw [e2]
      cases boundaryConditions I (cellsAlong I.Length I.dx) (cellsAlong I.Width I.dx) with
      | error e => rfl
      | ok D =>
        simp only [Except.map]
        by_cases hs : D.sizeInd < 0
        · simp only [if_pos hs]
        · simp only [if_neg hs, Except.ok.injEq]
          congr 1
          unfold otherMud initialParams
          congr 1
          funext k
          cases k <;> rfl
  · obtain rfl := List.eq_of_mem_replicate hP
    have hp := create_params hB
    show (truncInt ((B.P.NpSed : K) * (1 - B.P.fBedload))).toNat = 0
    rw [hp.1, hp.2.1]
    exact truncInt_none (toNat_part h)

/-- C125: if the share of the sand is less than one parcel, in particular with `f_bedload: 0`, the settings of the
sand (`coeff_U_ero_sand`, `coeff_theta_sand`) and of the diffusion (`alpha`) have no effect. -/
theorem C125_config_sand (O : Oracle K) (g : Rng K σ) {I : Input K} (h : (I.NpSed : K) * I.fBedload < 1) (a b c : K) :
    SameRuns O g I { I with coeffUeroSand := a, coeffThetaSand := b, alpha := c } := by
  refine ⟨fun e he => ?_, fun B hB => ?_⟩
  all_goals
    have e1 : validate { I with coeffUeroSand := a, coeffThetaSand := b, alpha := c } = validate I := rfl
    have e2 : ∀ L W, boundaryConditions { I with coeffUeroSand := a, coeffThetaSand := b, alpha := c } L W =
        (boundaryConditions I L W).map fun D => { D with
          diffMult := D.dt / (D.Ncross : K) * c * (1 / 2) / (I.dx * I.dx) } := by
      intro L W
      unfold boundaryConditions
      simp only
      split_ifs <;> rfl
    unfold create
    rw [e1]
  · unfold create at he
    cases hv : validate I with
    | error e' => rw [hv] at he; exact he
    | ok u =>
      rw [hv] at he
      simp only at he ⊢
      rw [e2]
      cases hd : boundaryConditions I (cellsAlong I.Length I.dx) (cellsAlong I.Width I.dx) with
      | error e' => rw [hd] at he; exact he
      | ok D =>
        rw [hd] at he
        simp only [Except.map] at he ⊢
        split_ifs at he ⊢
        exact he
  · have hp := create_params hB
    unfold create at hB
    cases hv : validate I with
    | error e' => rw [hv] at hB; cases hB
    | ok u =>
      rw [hv] at hB
      simp only at hB ⊢
      rw [e2]
      cases hd : boundaryConditions I (cellsAlong I.Length I.dx) (cellsAlong I.Width I.dx) with
      | error e' => rw [hd] at hB; cases hB
      | ok D =>
        rw [hd] at hB
        simp only [Except.map] at hB ⊢
        by_cases hs : D.sizeInd < 0
        · rw [if_pos hs] at hB; cases hB
        · rw [if_neg hs] at hB ⊢
          simp only [Except.ok.injEq] at hB
          refine ⟨otherSand (a * I.u0) D.qs0 I.fBedload (D.dt / (D.Ncross : K) * c * (1 / 2) / (I.dx * I.dx))
            D.Ncross.toNat (fun x => O.pow x (b * I.thetaWater)) B.P, ?_, fun iL iW n s => ?_⟩
          · subst hB
            simp only [Except.ok.injEq]
            congr 1
            unfold otherSand initialParams
            congr 1
            funext k
            cases k <;> rfl
          · have := C125_sand (g := g) (a * I.u0) D.qs0 I.fBedload (D.dt / (D.Ncross : K) * c * (1 / 2) / (I.dx * I.dx))
              D.Ncross.toNat (fun x => O.pow x (b * I.thetaWater)) (Ps := List.replicate n B.P)
              (fun P hP => by
                obtain rfl := List.eq_of_mem_replicate hP
                show (truncInt ((B.P.NpSed : K) * B.P.fBedload)).toNat = 0
                rw [hp.1, hp.2.1]
                exact truncInt_none (toNat_part h)) B.S s
            rw [List.map_replicate] at this
            exact this

/-- C125: with `toggle_subsidence: False` the rate of the subsidence and its start have no effect. -/
theorem C125_config_subsidence (O : Oracle K) (g : Rng K σ) {I : Input K} (h : I.toggleSub = false) (a b : K) :
    SameRuns O g I { I with subRate := a, startSub := b } := by
  refine sameRuns_of (fun {L W m} P => otherSubsidence false (fun _ => 0) b P) ?_
    (fun B hB iL iW n s => C125_subsidence _ _ (fun P hP => ?_) _ _)
  · unfold create
    have e1 : validate { I with subRate := a, startSub := b } = validate I := rfl
    have e2 : ∀ L W, boundaryConditions { I with subRate := a, startSub := b } L W = boundaryConditions I L W :=
      fun _ _ => rfl
    rw [e1]
    cases validate I with
    | error e => rfl
    | ok u =>
      simp only
      rw [e2]
      cases boundaryConditions I (cellsAlong I.Length I.dx) (cellsAlong I.Width I.dx) with
      | error e => rfl
      | ok D =>
        simp only
        by_cases hs : D.sizeInd < 0
        · simp only [if_pos hs]
          rfl
        · simp only [if_neg hs, Except.map, Except.ok.injEq]
          congr 1
          unfold otherSubsidence initialParams initialSigma
          simp only [h]
          rfl
  · obtain rfl := List.eq_of_mem_replicate hP
    exact (create_params hB).2.2.1.trans h

/-- C125: with `Nsmooth: 0` the weight `Csmooth` has no effect, if both are accepted. -/
theorem C125_config_weight (O : Oracle K) (g : Rng K σ) {I : Input K} (h : I.Nsmooth = 0) (h0 : 0 ≤ I.Csmooth) {C : K}
    (hC : 0 ≤ C) : SameRuns O g I { I with Csmooth := C } := by
  refine sameRuns_of (fun {L W m} P => otherWeight C P) ?_ (fun B hB iL iW n s => C125_weight _ (fun P hP => ?_) _ _)
  · unfold create
    have e1 : validate { I with Csmooth := C } = validate I := by
      unfold validate
      simp only [not_lt.2 h0, not_lt.2 hC]
    have e2 : ∀ L W, boundaryConditions { I with Csmooth := C } L W = boundaryConditions I L W := fun _ _ => rfl
    rw [e1]
    cases validate I with
    | error e => rfl
    | ok u =>
      simp only
      rw [e2]
      cases boundaryConditions I (cellsAlong I.Length I.dx) (cellsAlong I.Width I.dx) with
      | error e => rfl
      | ok D =>
        simp only
        by_cases hs : D.sizeInd < 0
        · simp only [if_pos hs]
          rfl
        · simp only [if_neg hs, Except.map]
          rfl
  · obtain rfl := List.eq_of_mem_replicate hP
    rw [(create_params hB).2.2.2.2.1, h]
    rfl

/-- C125: a model with subsidence does, up to the time at which this starts, what the model without subsidence
does. -/
theorem C125_config_before (O : Oracle K) (g : Rng K σ) {I : Input K} {B : Built K} (hB : create O I = .ok B) :
    ∃ P', create O { I with toggleSub := false } = .ok ⟨B.L, B.W, B.m, P', B.S⟩ ∧
      ∀ (_ : NeZero B.L) (_ : NeZero B.W) (n : ℕ), (∀ k < n, I.toggleSub = true → (k : K) * B.P.dt < I.startSub) →
        ∀ s : σ, timesteps g (List.replicate n P') B.S s = timesteps g (List.replicate n B.P) B.S s := by
  refine ⟨otherSubsidence false (fun _ => 0) I.startSub B.P, ?_, fun iL iW n hn s => ?_⟩
  · unfold create at hB ⊢
    have e1 : validate { I with toggleSub := false } = validate I := rfl
    have e2 : ∀ L W, boundaryConditions { I with toggleSub := false } L W = boundaryConditions I L W := fun _ _ => rfl
    rw [e1]
    cases hv : validate I with
    | error e => rw [hv] at hB; cases hB
    | ok u =>
      rw [hv] at hB
      simp only at hB ⊢
      rw [e2]
      cases hd : boundaryConditions I (cellsAlong I.Length I.dx) (cellsAlong I.Width I.dx) with
      | error e => rw [hd] at hB; cases hB
      | ok D =>
        rw [hd] at hB
        simp only at hB ⊢
        by_cases hs : D.sizeInd < 0
        · rw [if_pos hs] at hB; cases hB
        · rw [if_neg hs] at hB ⊢
          simp only [Except.ok.injEq] at hB
          subst hB
          rfl
  · obtain ⟨-, -, p3, p4, -, -, p7, -⟩ := create_params hB
    refine C125_before _ _ n (fun k hk ht => ?_) s
    rw [p7, p4, zero_add]
    exact hn k hk (p3 ▸ ht)

/-- C125: the first timestep of a new model does not see the relaxation (`omega_sfc`, `omega_flow`) nor the
smoothing of the surface (`Csmooth`, `Nsmooth`). -/
theorem C125_config_first (O : Oracle K) (g : Rng K σ) {I : Input K} {B : Built K} (hB : create O I = .ok B)
    (a b : K) {C : K} (hC : 0 ≤ C) (n : ℤ) :
    ∃ P', create O { I with omegaSfc := a, omegaFlow := b, Csmooth := C, Nsmooth := n } =
        .ok ⟨B.L, B.W, B.m, P', B.S⟩ ∧
      ∀ (_ : NeZero B.L) (_ : NeZero B.W) (s : σ), timestep g P' B.S s = timestep g B.P B.S s := by
  refine ⟨otherSmoothing C n.toNat (otherRelaxation a b B.P.omegaFlowIter B.P), ?_, fun iL iW s =>
    C125_first _ _ _ _ _ _ (create_params hB).2.2.2.2.2.2.2 s⟩
  unfold create at hB ⊢
  have e2 : ∀ L W, boundaryConditions { I with omegaSfc := a, omegaFlow := b, Csmooth := C, Nsmooth := n } L W =
      boundaryConditions I L W := fun _ _ => rfl
  cases hv : validate I with
  | error e => rw [hv] at hB; cases hB
  | ok u =>
    have h0 : Accepted I := (C50_validate I).1 hv
    have e1 : validate { I with omegaSfc := a, omegaFlow := b, Csmooth := C, Nsmooth := n } = .ok () :=
      (C50_validate _).2 { h0 with Csmooth := hC }
    rw [e1]
    rw [hv] at hB
    simp only at hB ⊢
    rw [e2]
    cases hd : boundaryConditions I (cellsAlong I.Length I.dx) (cellsAlong I.Width I.dx) with
    | error e => rw [hd] at hB; cases hB
    | ok D =>
      rw [hd] at hB
      simp only at hB ⊢
      by_cases hs : D.sizeInd < 0
      · rw [if_pos hs] at hB; cases hB
      · rw [if_neg hs] at hB ⊢
        simp only [Except.ok.injEq] at hB
        subst hB
        rfl

/-! ## Non-trivial cases -/

/-- The default configuration with sand only can be made, and its mud settings have no effect. -/
example (g : Rng ℚ σ) : (∃ M, create exOracle { exInput with fBedload := 1 } = .ok M) ∧
    SameRuns exOracle g { exInput with fBedload := 1 }
      { exInput with fBedload := 1, coeffUdepMud := 7, coeffUeroMud := 0, coeffThetaMud := -1, sedLag := 5 } := by
  refine ⟨?_, C125_config_mud exOracle g (I := { exInput with fBedload := 1 }) (by norm_num [exInput]) 7 0 (-1) 5⟩
  obtain ⟨L, W, m, iL, iW, P, S, h, -⟩ := C74_created exOracleOk (I := { exInput with fBedload := 1 })
    { exRunnable with accepted := (C50_validate _).1 (by decide +kernel), flowing := ⟨by norm_num [exInput], by norm_num [exInput], by norm_num [exInput], by norm_num [exInput]⟩ }
  exact ⟨_, h⟩

/-- One part in five thousand of two thousand parcels is no parcel. -/
example (g : Rng ℚ σ) : SameRuns exOracle g { exInput with fBedload := 1 / 5000 }
    { exInput with fBedload := 1 / 5000, coeffUeroSand := 7, coeffThetaSand := 0, alpha := 100 } :=
  C125_config_sand exOracle g (I := { exInput with fBedload := 1 / 5000 }) (by norm_num [exInput]) 7 0 100

/-- The default configuration has no subsidence. -/
example (g : Rng ℚ σ) : SameRuns exOracle g exInput { exInput with subRate := 7, startSub := 0 } :=
  C125_config_subsidence exOracle g rfl 7 0

/-- With parcels the settings are seen: the same mud over the same bed settles or does not. -/
example (P : Params L W m ℚ) (S : State L W ℚ) (c : Cell L W) (h1 : S.uw c = 1) (h2 : S.stage c - S.eta c = 4)
    (h3 : P.dx = 10) (h4 : P.pwBeta = fun x => x) :
    volumeChange .mud (otherMud 2 5 1 (P.pwSed .mud) P) S c 8 = 4 ∧
      volumeChange .mud (otherMud 1 5 1 (P.pwSed .mud) P) S c 8 = 0 := by
  constructor <;> norm_num [volumeChange, mudChange, otherMud, h1, h2, h3, h4, limitChange]

end Verif.Props
