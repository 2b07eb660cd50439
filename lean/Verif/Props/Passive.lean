import Verif.Spec.Passive
import Verif.Props.Similar

/-!
# C93: the composition of the bed is a record and has no effect
-/

set_option linter.unusedSectionVars false
set_option linter.unusedSimpArgs false

namespace Verif.Props

open Verif.Model Verif.Lemmas Verif.Spec

variable {K : Type*} [Field K] [LinearOrder K] [IsStrictOrderedRing K] {σ : Type*} {L W m : ℕ}

/-- C93: the water routing does not see the composition. -/
theorem C93_water [NeZero L] [NeZero W] [FloorRing K] (g : Rng K σ) (P : Params L W m K) (S : State L W K) (s : σ) :
    routeWater g (plainParams P) (plainState S) s = (routeWater g P S s).map fun x => (plainState x.1, x.2) := by
  have h1 : ∀ (it : ℕ) (S : State L W K) (s : σ), waterIteration g (plainParams P) it (plainState S) s =
      (waterIteration g P it S s).map fun x => (plainState x.1, x.2) := by
    intro it S s
    unfold waterIteration
    have e0 : waterWeightArray (plainParams P) (plainState S) = waterWeightArray P S := rfl
    rw [e0]
    cases waterWeightArray P S with
    | error e => rfl
    | ok w =>
      have e1 : runWaterIteration g (waterEnv (plainParams P) (plainState S) w)
          (fun k => (((plainParams P).inlet k).val : ℤ)) (plainParams P).NpWater (plainState S).ncols s =
          runWaterIteration g (waterEnv P S w) (fun k => ((P.inlet k).val : ℤ)) P.NpWater S.ncols s := rfl
      simp only [e1]
      cases runWaterIteration g (waterEnv P S w) (fun k => ((P.inlet k).val : ℤ)) P.NpWater S.ncols s with
      | error e => rfl
      | ok r =>
        obtain ⟨wst, l, n, s1⟩ := r
        have e2 : computeFreeSurface (plainParams P) (plainState S) wst.parcels =
          computeFreeSurface P S wst.parcels := rfl
        simp only [e2]
        cases computeFreeSurface P S wst.parcels <;> rfl
  unfold routeWater
  have : (plainParams P).itermax = P.itermax := rfl
  rw [this]
  generalize P.itermax = n
  generalize (0 : ℕ) = it
  induction n generalizing it S s with
  | zero => rfl
  | succ n ih =>
    unfold routeWaterFrom
    rw [h1]
    cases waterIteration g P it S s with
    | error e => rfl
    | ok r => exact ih r.1 r.2 (it + 1)

/-- The router without composition. -/
def plainSt (st : SedSt L W K) : SedSt L W K := { st with S := plainState st.S }

lemma sedStep_plain [NeZero L] [NeZero W] (g : Rng K σ) (P : Params L W m K) (kind : Sed) (st : SedSt L W K)
    (px py : ℤ) (res : K) (s : σ) :
    sedStep g kind (plainParams P) (plainSt st) px py res s =
      (sedStep g kind P st px py res s).map fun x => (plainSt x.1, x.2.1, plainRec x.2.2.1, x.2.2.2) := by
  have hc : chooseNext g kind (plainParams P) (plainSt st) px py s = chooseNext g kind P st px py s := rfl
  have hf : ∀ c0 c d, fieldsAt kind (plainParams P) (plainState st.S) c0 c d res =
      plainState (fieldsAt kind P st.S c0 c d res) := by
    intro c0 c d
    cases kind
    · show partitionSand (plainParams P) (plainState st.S) c0 c d res = plainState (partitionSand P st.S c0 c d res)
      unfold partitionSand
      have e1 : (plainParams P).s2 = P.s2 := rfl
      rw [e1]
      split_ifs <;> rfl
    · rfl
  have hv : ∀ S c, volumeChange kind (plainParams P) (plainState S) c res = volumeChange kind P S c res := by
    intro S c
    cases kind <;> rfl
  have hr : ∀ S c v, recordDeposit kind (plainState S) c v = plainState (recordDeposit kind S c v : State L W K) := by
    intro S c v
    unfold recordDeposit
    split_ifs
    · cases kind <;> rfl
    · rfl
  have hu : ∀ S c v, updateFields (plainParams P) (plainState S) c v = plainState (updateFields P S c v) :=
    fun S c v => rfl
  unfold sedStep
  rw [hc]
  cases chooseNext g kind P st px py s with
  | error e => rfl
  | ok r =>
    obtain ⟨c0, d, s1⟩ := r
    have hS : (plainSt st).S = plainState st.S := rfl
    simp only [hS, hf, hv, hr, hu]
    cases pyCell L W (px + jwalk d) (py + iwalk d) with
    | none => rfl
    | some c => cases pyCell (L + 2) (W + 2) (px + jwalk d + 1) (py + iwalk d + 1) <;> rfl

lemma sedLoop_plain [NeZero L] [NeZero W] (g : Rng K σ) (P : Params L W m K) (kind : Sed) (n : ℕ) :
    ∀ (st : SedSt L W K) (px py : ℤ) (res : K) (s : σ),
      sedLoop g kind (plainParams P) n (plainSt st) px py res s =
      (sedLoop g kind P n st px py res s).map fun x => (plainSt x.1, x.2.1, x.2.2.1.map plainRec, x.2.2.2) := by
  induction n with
  | zero => intro st px py res s; rfl
  | succ n ih =>
    intro st px py res s
    rw [sedLoop, sedLoop, sedStep_plain]
    cases sedStep g kind P st px py res s with
    | error e => rfl
    | ok r =>
      obtain ⟨st1, res1, r, s1⟩ := r
      simp only [Except.map]
      have h1 : (plainRec r).cell = r.cell := rfl
      have h2 : (plainRec r).new = r.new := rfl
      have h3 : (plainParams P).cellType = P.cellType := rfl
      rw [h1, h2, h3, ih]
      split_ifs
      · rfl
      · cases sedLoop g kind P n st1 r.new.1 r.new.2 res1 s1 <;> rfl

lemma sedParcels_plain [NeZero L] [NeZero W] (g : Rng K σ) (P : Params L W m K) (kind : Sed) :
    ∀ (pys : List ℤ) (st : SedSt L W K) (s : σ), sedParcels g kind (plainParams P) pys (plainSt st) s =
      (sedParcels g kind P pys st s).map fun x => (plainSt x.1, x.2.1.map plainSed, x.2.2) := by
  intro pys
  induction pys with
  | nil => intro st s; rfl
  | cons py pys ih =>
    intro st s
    rw [sedParcels, sedParcels]
    cases pyCell L W 0 py with
    | none => rfl
    | some c =>
      have he : enterState kind (plainParams P) (plainSt st) c = plainSt (enterState kind P st c) := by
        cases kind <;> rfl
      have e5 : (plainParams P).VpSed = P.VpSed := rfl
      have e6 : (plainParams P).stepmax = P.stepmax := rfl
      simp only [he, e5, e6, sedLoop_plain]
      cases sedLoop g kind P P.stepmax (enterState kind P st c) 0 py P.VpSed s with
      | error e => rfl
      | ok r =>
        obtain ⟨st2, res, rs, s1⟩ := r
        simp only [Except.map, ih]
        cases sedParcels g kind P pys st2 s1 <;> rfl

lemma routeParcels_plain [NeZero L] [NeZero W] [FloorRing K] (g : Rng K σ) (P : Params L W m K)
    (kind : Sed) (S : State L W K) (s : σ) :
    routeParcels g kind (plainParams P) (plainState S) s =
      (routeParcels g kind P S s).map fun x => (plainState x.1, x.2.1.map plainSed, x.2.2) := by
  have hn : numStarts kind (plainParams P) = numStarts kind P := by cases kind <;> rfl
  have hi : (plainParams P).inlet = P.inlet := rfl
  unfold routeParcels
  simp only [hn, hi]
  cases getStartIndices (fun i => ((P.inlet i).val : ℤ))
      (getInletWeights (fun i => ((P.inlet i).val : ℤ)) : Fin m → K) (drawN g (numStarts kind P) s).1 with
  | none => rfl
  | some starts =>
    have := sedParcels_plain g P kind starts ⟨S, customPad S.depth⟩ (drawN g (numStarts kind P) s).2
    have e : (⟨plainState S, customPad (plainState S).depth⟩ : SedSt L W K) =
        plainSt ⟨S, customPad S.depth⟩ := rfl
    simp only [e, this]
    cases sedParcels g kind P starts ⟨S, customPad S.depth⟩ (drawN g (numStarts kind P) s).2 <;> rfl

/-- C93: the sediment routing does not see the composition. -/
theorem C93_sediment [NeZero L] [NeZero W] [FloorRing K] (g : Rng K σ) (P : Params L W m K) (S : State L W K) (s : σ) :
    routeSediment g (plainParams P) (plainState S) s = (routeSediment g P S s).map fun x =>
      (plainState x.1, x.2.1.map plainSed, x.2.2.1.map plainSed, x.2.2.2) := by
  unfold routeSediment
  have e0 : initSediment (plainState S) = plainState (initSediment S) := rfl
  rw [e0, routeParcels_plain]
  cases routeParcels g .sand P (initSediment S) s with
  | error e => rfl
  | ok r =>
    obtain ⟨S1, sand, s1⟩ := r
    simp only [Except.map]
    have hd : topoDiffusion (plainParams P).cellType (plainParams P).diffMult (plainState S1).qs
        (plainParams P).Ncross (plainState S1).eta = topoDiffusion P.cellType P.diffMult S1.qs P.Ncross S1.eta := rfl
    rw [hd]
    generalize topoDiffusion P.cellType P.diffMult S1.qs P.Ncross S1.eta = D
    have e1 : ({ plainState S1 with eta := D } : State L W K) = plainState { S1 with eta := D } := rfl
    rw [e1, routeParcels_plain]
    cases routeParcels g .mud P { S1 with eta := D } s1 <;> rfl

/-- C93: the end of a timestep. -/
theorem C93_end [NeZero L] [NeZero W] (P : Params L W m K) (eta0 : Grid L W K) (S : State L W K) :
    plainState (finalizeTimestep (plainParams P) eta0 (applySubsidence (plainParams P) (plainState S))) =
      plainState (finalizeTimestep P eta0 (applySubsidence P S)) := by
  have hs : applySubsidence (plainParams P) (plainState S) = plainState (applySubsidence P S) := by
    unfold applySubsidence
    have e1 : (plainParams P).toggleSub = P.toggleSub := rfl
    have e2 : (plainParams P).startSub = P.startSub := rfl
    have e3 : (plainState S).time = S.time := rfl
    rw [e1, e2, e3]
    split_ifs <;> rfl
  rw [hs]
  rfl

lemma plainSed_idem : (plainSed ∘ plainSed : SedLog L W K → SedLog L W K) = plainSed := by
  funext l
  have h : (plainRec ∘ plainRec : SedRec L W K → SedRec L W K) = plainRec := by
    funext r
    rfl
  simp only [Function.comp, plainSed, List.map_map, h]

/-- C93: a timestep. -/
theorem C93_timestep [NeZero L] [NeZero W] [FloorRing K] (g : Rng K σ) {P P' : Params L W m K} {S S' : State L W K}
    (hP : plainParams P = plainParams P') (hS : plainState S = plainState S') (s : σ) :
    (timestep g P S s).map (fun x => (plainState x.1, plainLog x.2.1, x.2.2)) =
      (timestep g P' S' s).map fun x => (plainState x.1, plainLog x.2.1, x.2.2) := by
  have key : ∀ (P : Params L W m K) (S : State L W K),
      (timestep g P S s).map (fun x => (plainState x.1, plainLog x.2.1, x.2.2)) =
      (timestep g (plainParams P) (plainState S) s).map fun x => (plainState x.1, plainLog x.2.1, x.2.2) := by
    intro P S
    unfold timestep
    rw [C93_water]
    cases routeWater g P S s with
    | error e => rfl
    | ok r =>
      obtain ⟨S1, s1⟩ := r
      simp only [Except.map, C93_sediment]
      cases routeSediment g P S1 s1 with
      | error e => rfl
      | ok r =>
        obtain ⟨S2, sand, mud, s2⟩ := r
        simp only [Except.map]
        have e := C93_end P S.eta S2
        have e' : ∀ A B : State L W K, plainState A = plainState B →
            plainState ({ A with time := A.time + P.dt, timeIter := A.timeIter + 1 } : State L W K) =
            plainState { B with time := B.time + P.dt, timeIter := B.timeIter + 1 } := by
          intro A B h
          unfold plainState at h ⊢
          simp only [State.mk.injEq] at h ⊢
          tauto
        simp only [Except.ok.injEq, Prod.mk.injEq, and_true]
        refine ⟨(e' _ _ e).symm, ?_⟩
        unfold plainLog
        simp only [List.map_map, plainSed_idem]
        rfl
  rw [key P S, key P' S', hP, hS]

/-- C93: a run. Two runs that differ in the composition of the bed and in its settings, the thickness of the
active layer and the composition below and beyond, have the same parcels, fields and records, apart from the
composition. -/
theorem C93_run [NeZero L] [NeZero W] [FloorRing K] (g : Rng K σ) {Ps Ps' : List (Params L W m K)}
    {S S' : State L W K} (hP : Ps.map plainParams = Ps'.map plainParams) (hS : plainState S = plainState S') (s : σ) :
    (timesteps g Ps S s).map plainRun = (timesteps g Ps' S' s).map plainRun := by
  induction Ps generalizing Ps' S S' s with
  | nil =>
    obtain rfl : Ps' = [] := by simpa using hP.symm
    simp only [timesteps, Except.map, plainRun, hS]
  | cons P Ps ih =>
    cases Ps' with
    | nil => simp at hP
    | cons P' Ps' =>
      simp only [List.map_cons, List.cons.injEq] at hP
      have ht := C93_timestep g hP.1 hS s
      rw [timesteps, timesteps]
      cases h1 : timestep g P S s with
      | error e =>
        rw [h1] at ht
        cases h2 : timestep g P' S' s with
        | error e' => rw [h2] at ht; simpa [Except.map] using ht
        | ok r => rw [h2] at ht; simp [Except.map] at ht
      | ok r =>
        rw [h1] at ht
        cases h2 : timestep g P' S' s with
        | error e' => rw [h2] at ht; simp [Except.map] at ht
        | ok r' =>
          rw [h2] at ht
          obtain ⟨S1, l, s1⟩ := r
          obtain ⟨S1', l', s1'⟩ := r'
          simp only [Except.map, Except.ok.injEq, Prod.mk.injEq] at ht
          obtain ⟨t1, t2, rfl⟩ := ht
          have hr := ih hP.2 t1 s1
          simp only
          cases h3 : timesteps g Ps S1 s1 with
          | error e =>
            rw [h3] at hr
            cases h4 : timesteps g Ps' S1' s1 with
            | error e' => rw [h4] at hr; simpa [Except.map] using hr
            | ok r => rw [h4] at hr; simp [Except.map] at hr
          | ok r =>
            rw [h3] at hr
            cases h4 : timesteps g Ps' S1' s1 with
            | error e' => rw [h4] at hr; simp [Except.map] at hr
            | ok r' =>
              rw [h4] at hr
              obtain ⟨S2, ls, s2⟩ := r
              obtain ⟨S2', ls', s2'⟩ := r'
              simp only [Except.map, plainRun, Except.ok.injEq, Prod.mk.injEq] at hr
              simp only [Except.map, plainRun, Except.ok.injEq, Prod.mk.injEq, List.map_cons, List.cons.injEq]
              exact ⟨hr.1, ⟨t2, hr.2.1⟩, hr.2.2⟩

/-! ### Similar basins of any size, apart from the composition -/

/-- C92: a timestep in a similar basin of any size, apart from the composition of the bed. -/
theorem C92_timestep_shape [NeZero L] [NeZero W] [FloorRing K] (g : Rng K σ) {z : Factors K} {P : Params L W m K}
    (hz : Proper z P.nrm P.pwBeta) (S : State L W K) (s : σ) :
    (timestep g (simParams z P) (simState z S) s).map (fun x => (plainState x.1, plainLog x.2.1, x.2.2)) =
      (timestep g P S s).map fun x => (plainState (simState z x.1), plainLog (simLog z x.2.1), x.2.2) := by
  have ht := time_pos hz
  unfold timestep
  rw [C92_water g hz]
  cases hw : routeWater g P S s with
  | error e => rfl
  | ok r =>
    obtain ⟨S1, s1⟩ := r
    simp only [Except.map, C92_sediment g hz]
    cases hr : routeSediment g P S1 s1 with
    | error e => rfl
    | ok r =>
      obtain ⟨S2, sand, mud, s2⟩ := r
      simp only [Except.map]
      have hs : applySubsidence (simParams z P) (simState z S2) = simState z (applySubsidence P S2) := by
        have e : ((simParams z P).startSub ≤ (simState z S2).time) = (P.startSub ≤ S2.time) := by
          show (z.time * P.startSub ≤ z.time * S2.time) = _
          rw [mul_le_mul_iff_right₀ ht]
        unfold applySubsidence
        simp only [e]
        have e2 : (simParams z P).toggleSub = P.toggleSub := rfl
        rw [e2]
        split_ifs <;> rfl
      rw [hs]
      generalize applySubsidence P S2 = S3
      simp only [Except.ok.injEq, Prod.mk.injEq, and_true]
      refine ⟨?_, rfl⟩
      unfold plainState
      simp only [State.mk.injEq, and_true, true_and]
      refine ⟨rfl, rfl, rfl, rfl, rfl, rfl, rfl, rfl, rfl, rfl, rfl, rfl, ?_, ?_, rfl, rfl⟩
      · show S3.HSL + P.SLR / z.time * (z.time * P.dt) = S3.HSL + P.SLR * P.dt
        rw [← mul_assoc, div_mul_cancel₀ _ ht.ne']
      · show z.time * S3.time + z.time * P.dt = z.time * (S3.time + P.dt)
        rw [mul_add]

/-- C92: a run in a similar basin of any size: the same parcels, bed, surface, depth and sea level. Velocities are
`v` times as large, volumes of sediment `a²` times. Only the composition of the bed may differ, see
`C92_mud_threshold`. -/
theorem C92_run_shape [NeZero L] [NeZero W] [FloorRing K] (g : Rng K σ) {z : Factors K}
    {Ps : List (Params L W m K)} (hz : ∀ P ∈ Ps, Proper z P.nrm P.pwBeta) (S : State L W K) (s : σ) :
    (timesteps g (Ps.map (simParams z)) (simState z S) s).map plainRun =
      (timesteps g Ps S s).map fun x => plainRun (simState z x.1, x.2.1.map (simLog z), x.2.2) := by
  induction Ps generalizing S s with
  | nil => rfl
  | cons P Ps ih =>
    have ht := C92_timestep_shape g (hz P List.mem_cons_self) S s
    rw [List.map_cons, timesteps, timesteps]
    cases h1 : timestep g P S s with
    | error e =>
      rw [h1] at ht
      cases h2 : timestep g (simParams z P) (simState z S) s with
      | error e' => rw [h2] at ht; simpa [Except.map] using ht
      | ok r => rw [h2] at ht; simp [Except.map] at ht
    | ok r =>
      rw [h1] at ht
      cases h2 : timestep g (simParams z P) (simState z S) s with
      | error e' => rw [h2] at ht; simp [Except.map] at ht
      | ok r' =>
        rw [h2] at ht
        obtain ⟨S1, l, s1⟩ := r
        obtain ⟨S1', l', s1'⟩ := r'
        simp only [Except.map, Except.ok.injEq, Prod.mk.injEq] at ht
        obtain ⟨t1, t2, rfl⟩ := ht
        have hr := ih (fun P hP => hz P (List.mem_cons_of_mem _ hP)) S1 s1'
        rw [← C93_run g (Ps := Ps.map (simParams z)) rfl t1 s1'] at hr
        simp only
        cases h3 : timesteps g Ps S1 s1' with
        | error e =>
          rw [h3] at hr
          cases h4 : timesteps g (Ps.map (simParams z)) S1' s1' with
          | error e' => rw [h4] at hr; simpa [Except.map] using hr
          | ok r => rw [h4] at hr; simp [Except.map] at hr
        | ok r =>
          rw [h3] at hr
          cases h4 : timesteps g (Ps.map (simParams z)) S1' s1' with
          | error e' => rw [h4] at hr; simp [Except.map] at hr
          | ok r' =>
            rw [h4] at hr
            obtain ⟨S2, ls, s2⟩ := r
            obtain ⟨S2', ls', s2'⟩ := r'
            simp only [Except.map, plainRun, Except.ok.injEq, Prod.mk.injEq] at hr
            simp only [Except.map, plainRun, Except.ok.injEq, Prod.mk.injEq, List.map_cons, List.cons.injEq]
            exact ⟨hr.1, ⟨t2, hr.2.1⟩, hr.2.2⟩

/-! ### Created models -/

lemma create_funs [FloorRing K] {O : Oracle K} {I : Input K} {B : Built K} (h : create O I = .ok B) :
    B.P.nrm = O.nrm ∧ B.P.pwBeta = fun x => O.pow x I.beta := by
  unfold create at h
  cases hv : validate I with
  | error e => rw [hv] at h; simp at h
  | ok u =>
    rw [hv] at h
    simp only at h
    cases hb : boundaryConditions I (cellsAlong I.Length I.dx) (cellsAlong I.Width I.dx) with
    | error e => rw [hb] at h; simp at h
    | ok D =>
      rw [hb] at h
      simp only at h
      split_ifs at h
      simp only [Except.ok.injEq] at h
      subst h
      exact ⟨rfl, rfl⟩

/-- C92: similar basins of any size, from configuration to result: with the same random numbers, after any number
of timesteps, bed, surface, depth and sea level are the same and velocities `v` times as large, at a time
`a / (v c)` times as late. -/
theorem C92_basin [FloorRing K] {z : Factors K} (O : Oracle K) {I : Input K}
    (hz : Proper z O.nrm fun x => O.pow x I.beta) (hg : z.v = 1 ∨ I.S0 = 0) [NeZero L] [NeZero W]
    {P : Params L W m K} {S : State L W K} (h : create O I = .ok ⟨L, W, m, P, S⟩) (g : Rng K σ) :
    ∃ P' S', create O (simInput z I) = .ok ⟨L, W, m, P', S'⟩ ∧
      ∀ n s, (∀ e, timesteps g (List.replicate n P) S s = .error e →
          timesteps g (List.replicate n P') S' s = .error e) ∧
        ∀ S1 ls s1, timesteps g (List.replicate n P) S s = .ok (S1, ls, s1) →
          ∃ S1' ls', timesteps g (List.replicate n P') S' s = .ok (S1', ls', s1) ∧ S1'.eta = S1.eta ∧
            S1'.stage = S1.stage ∧ S1'.depth = S1.depth ∧ S1'.HSL = S1.HSL ∧ S1'.timeIter = S1.timeIter ∧
            S1'.time = z.a / (z.v * z.c) * S1.time ∧ ∀ c, S1'.uw c = z.v * S1.uw c ∧ S1'.qw c = z.v * S1.qw c ∧
              S1'.depSand c = z.a * z.a * S1.depSand c ∧ S1'.depMud c = z.a * z.a * S1.depMud c := by
  have hc := C92_created O hz hg
  have hf := create_funs h
  rw [h] at hc
  refine ⟨simParams z P, simState z S, hc, fun n s => ?_⟩
  simp only at hf
  have hz' : Proper z P.nrm P.pwBeta := by rw [hf.1, hf.2]; exact hz
  have hr := C92_run_shape g (Ps := List.replicate n P)
    (fun Q hQ => by rw [List.eq_of_mem_replicate hQ]; exact hz') S s
  rw [List.map_replicate] at hr
  refine ⟨fun e he => ?_, fun S1 ls s1 hS => ?_⟩
  · rw [he] at hr
    cases h4 : timesteps g (List.replicate n (simParams z P)) (simState z S) s with
    | error e' => rw [h4] at hr; simpa [Except.map] using hr
    | ok r => rw [h4] at hr; simp [Except.map] at hr
  · rw [hS] at hr
    cases h4 : timesteps g (List.replicate n (simParams z P)) (simState z S) s with
    | error e' => rw [h4] at hr; simp [Except.map] at hr
    | ok r =>
      rw [h4] at hr
      obtain ⟨S1', ls', s1'⟩ := r
      simp only [Except.map, plainRun, Except.ok.injEq, Prod.mk.injEq] at hr
      obtain ⟨r1, -, rfl⟩ := hr
      unfold plainState simState at r1
      simp only [State.mk.injEq] at r1
      obtain ⟨e1, e2, e3, -, -, e6, -, -, e9, -, e11, e12, -, -, e15, e16, e17, -⟩ := r1
      exact ⟨S1', ls', rfl, e1, e2, e3, e15, e17, e16, fun c =>
        ⟨congrFun e9 c, congrFun e6 c, congrFun e11 c, congrFun e12 c⟩⟩

/-- C93: the settings of the composition, from configuration to result. Whatever the thickness of the active layer
and the composition beyond the domain, every parcel of every timestep goes the same way and all fields but the
composition are the same. -/
theorem C93_model [FloorRing K] (O : Oracle K) {I : Input K} [NeZero L] [NeZero W] {P : Params L W m K}
    {S : State L W K} (h : create O I = .ok ⟨L, W, m, P, S⟩) {t : Option K} (ht : ∀ x, t = some x → 0 ≤ x) (b : K)
    (g : Rng K σ) :
    ∃ P' S', create O { I with actThick := t, sandFracBc := b } = .ok ⟨L, W, m, P', S'⟩ ∧
      ∀ n s, (timesteps g (List.replicate n P') S' s).map plainRun =
        (timesteps g (List.replicate n P) S s).map plainRun := by
  unfold create at h
  cases hv : validate I with
  | error e => rw [hv] at h; simp at h
  | ok u =>
    have hv' : validate { I with actThick := t, sandFracBc := b } = .ok () := by
      have h1 := (C50_validate _).1 hv
      refine (C50_validate _).2 ?_
      exact ⟨h1.length, h1.width, h1.dx, h1.dxLength, h1.dxWidth, h1.L0m, h1.itermax, h1.NpWater, h1.N0m, h1.NpSed,
        h1.f0, h1.f1, ht, h1.C0, h1.Csmooth⟩
    rw [hv] at h
    simp only at h
    have hd : boundaryConditions { I with actThick := t, sandFracBc := b } (cellsAlong I.Length I.dx)
      (cellsAlong I.Width I.dx) = boundaryConditions I (cellsAlong I.Length I.dx) (cellsAlong I.Width I.dx) := rfl
    cases hD : boundaryConditions I (cellsAlong I.Length I.dx) (cellsAlong I.Width I.dx) with
    | error e => rw [hD] at h; simp at h
    | ok D =>
      rw [hD] at h
      simp only at h
      by_cases h0 : D.sizeInd < 0
      · rw [if_pos h0] at h; simp at h
      · rw [if_neg h0] at h
        simp only [Except.ok.injEq, Built.mk.injEq] at h
        obtain ⟨rfl, rfl, rfl, hP, hS⟩ := h
        obtain rfl := eq_of_heq hP
        obtain rfl := eq_of_heq hS
        refine ⟨initialParams (centre (cellsAlong I.Width I.dx)) _ O { I with actThick := t, sandFracBc := b } D,
          initialState _ _ (centre (cellsAlong I.Width I.dx)) O { I with actThick := t, sandFracBc := b } D, ?_, ?_⟩
        · unfold create
          rw [hv']
          simp only
          rw [hd, hD]
          simp only
          rw [if_neg h0]
        · intro n s
          apply C93_run g
          · rw [List.map_replicate, List.map_replicate]
            rfl
          · rfl

-- C92_basin: the default configuration at half its scale with three times the sediment: a hundred timesteps, all of
-- which succeed, give the same bed in a sixth of the time
example : ∃ (L W m : ℕ) (_ : NeZero L) (_ : NeZero W) (P P' : Params L W m ℚ) (S S' : State L W ℚ),
    create exOracle exInput = .ok ⟨L, W, m, P, S⟩ ∧
      create exOracle (simInput exFactors exInput) = .ok ⟨L, W, m, P', S'⟩ ∧
      ∃ S1 ls s1 S1' ls', timesteps constRng (List.replicate 100 P) S () = .ok (S1, ls, s1) ∧
        timesteps constRng (List.replicate 100 P') S' () = .ok (S1', ls', s1) ∧ S1'.eta = S1.eta ∧
        S1'.time = S1.time / 6 := by
  obtain ⟨L, W, m, iL, iW, P, S, h, w1, w2, w3, w4, w5, w6, -⟩ := C74_created exOracleOk exRunnable
  obtain ⟨P', S', h1, h2⟩ := C92_basin (z := exFactors) exOracle (I := exInput)
    (exProper _ (by norm_num [exFactors]) (by norm_num [exFactors]) (by norm_num [exFactors]) _) (Or.inl rfl) h
    constRng
  obtain ⟨S1, ls, s1, r⟩ := C71_run exPositive (Ps := List.replicate 100 P) (by
    intro Q hQ
    rw [List.eq_of_mem_replicate hQ]
    exact ⟨w1, w2, w4.h0⟩) w5 w6 ()
  obtain ⟨S1', ls', r', e1, -, -, -, -, e2, -⟩ := (h2 100 ()).2 S1 ls s1 r
  refine ⟨L, W, m, iL, iW, P, P', S, S', h, h1, S1, ls, s1, S1', ls', r, r', e1, ?_⟩
  rw [e2]
  norm_num [exFactors]
  ring

-- C93_model: the default configuration with an active layer of one meter on a bed of sand
example : ∃ (L W m : ℕ) (_ : NeZero L) (_ : NeZero W) (P P' : Params L W m ℚ) (S S' : State L W ℚ),
    create exOracle exInput = .ok ⟨L, W, m, P, S⟩ ∧
      create exOracle { exInput with actThick := some 1, sandFracBc := 1 } = .ok ⟨L, W, m, P', S'⟩ ∧
      ∃ S1 ls s1 S1' ls', timesteps constRng (List.replicate 100 P) S () = .ok (S1, ls, s1) ∧
        timesteps constRng (List.replicate 100 P') S' () = .ok (S1', ls', s1) ∧ S1'.eta = S1.eta := by
  obtain ⟨L, W, m, iL, iW, P, S, h, w1, w2, w3, w4, w5, w6, -⟩ := C74_created exOracleOk exRunnable
  obtain ⟨P', S', h1, h2⟩ := C93_model exOracle h (t := some 1) (by rintro x ⟨⟩; norm_num) 1 constRng
  obtain ⟨S1, ls, s1, r⟩ := C71_run exPositive (Ps := List.replicate 100 P) (by
    intro Q hQ
    rw [List.eq_of_mem_replicate hQ]
    exact ⟨w1, w2, w4.h0⟩) w5 w6 ()
  have h3 := h2 100 ()
  rw [r] at h3
  cases h4 : timesteps constRng (List.replicate 100 P') S' () with
  | error e => rw [h4] at h3; simp [Except.map] at h3
  | ok x =>
    rw [h4] at h3
    obtain ⟨S1', ls', s1'⟩ := x
    simp only [Except.map, plainRun, Except.ok.injEq, Prod.mk.injEq] at h3
    obtain ⟨e1, -, -⟩ := h3
    unfold plainState at e1
    simp only [State.mk.injEq] at e1
    exact ⟨L, W, m, iL, iW, P, P', S, S', h, h1, S1, ls, s1', S1', ls', r, h4, e1.1⟩

end Verif.Props
