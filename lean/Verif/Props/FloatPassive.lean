import Verif.Props.Passive
import Verif.Props.FloatSetup

/-!
# C93 in rounded arithmetic: the composition of the bed is a record and has no effect
-/

set_option linter.unusedSectionVars false
set_option linter.unusedSimpArgs false

namespace Verif.Props

open Verif.Model Verif.Lemmas Verif.Spec

variable {K : Type*} [Field K] [LinearOrder K] [IsStrictOrderedRing K] {σ : Type*} {L W m : ℕ} {F D : Rounding K}

/-- C93: the water routing does not see the composition. -/
theorem C93_rounded_water [NeZero L] [NeZero W] [FloorRing K] (g : Rng K σ) (P : Params L W m K) (S : State L W K) (s : σ) :
    routeWaterR F D g (plainParams P) (plainState S) s = (routeWaterR F D g P S s).map fun x => (plainState x.1, x.2) := by
  have h1 : ∀ (it : ℕ) (S : State L W K) (s : σ), waterIterationR F D g (plainParams P) it (plainState S) s =
      (waterIterationR F D g P it S s).map fun x => (plainState x.1, x.2) := by
    intro it S s
    unfold waterIterationR
    have e0 : waterWeightArrayR F D (plainParams P) (plainState S) = waterWeightArrayR F D P S := rfl
    rw [e0]
    cases waterWeightArrayR F D P S with
    | error e => rfl
    | ok w =>
      have e1 : runWaterIterationR F D g (waterEnvR F (plainParams P) (plainState S) w)
          (fun k => (((plainParams P).inlet k).val : ℤ)) (plainParams P).NpWater (plainState S).ncols s =
          runWaterIterationR F D g (waterEnvR F P S w) (fun k => ((P.inlet k).val : ℤ)) P.NpWater S.ncols s := rfl
      simp only [e1]
      cases runWaterIterationR F D g (waterEnvR F P S w) (fun k => ((P.inlet k).val : ℤ)) P.NpWater S.ncols s with
      | error e => rfl
      | ok r =>
        obtain ⟨wst, l, n, s1⟩ := r
        have e2 : computeFreeSurfaceR F D (plainParams P) (plainState S) wst.parcels =
          computeFreeSurfaceR F D P S wst.parcels := rfl
        simp only [e2]
        cases computeFreeSurfaceR F D P S wst.parcels <;> rfl
  unfold routeWaterR
  have : (plainParams P).itermax = P.itermax := rfl
  rw [this]
  generalize P.itermax = n
  generalize (0 : ℕ) = it
  induction n generalizing it S s with
  | zero => rfl
  | succ n ih =>
    unfold routeWaterFromR
    rw [h1]
    cases waterIterationR F D g P it S s with
    | error e => rfl
    | ok r => exact ih r.1 r.2 (it + 1)

lemma sedStepR_plain [NeZero L] [NeZero W] (g : Rng K σ) (P : Params L W m K) (kind : Sed) (st : SedSt L W K)
    (px py : ℤ) (res : K) (s : σ) :
    sedStepR F D g kind (plainParams P) (plainSt st) px py res s =
      (sedStepR F D g kind P st px py res s).map fun x => (plainSt x.1, x.2.1, plainRec x.2.2.1, x.2.2.2) := by
  have hc : chooseNextR F D g kind (plainParams P) (plainSt st) px py s = chooseNextR F D g kind P st px py s := rfl
  have hf : ∀ c0 c d, fieldsAtR F D kind (plainParams P) (plainState st.S) c0 c d res =
      plainState (fieldsAtR F D kind P st.S c0 c d res) := by
    intro c0 c d
    cases kind
    · show partitionSandR F D (plainParams P) (plainState st.S) c0 c d res = plainState (partitionSandR F D P st.S c0 c d res)
      unfold partitionSandR
      have e1 : (plainParams P).s2 = P.s2 := rfl
      rw [e1]
      split_ifs <;> rfl
    · rfl
  have hv : ∀ S c, volumeChangeR F D kind (plainParams P) (plainState S) c res = volumeChangeR F D kind P S c res := by
    intro S c
    cases kind <;> rfl
  have hr : ∀ S c v, recordDepositR F D kind (plainState S) c v = plainState (recordDepositR F D kind S c v : State L W K) := by
    intro S c v
    unfold recordDepositR
    split_ifs
    · cases kind <;> rfl
    · rfl
  have hu : ∀ S c v, updateFieldsR F D (plainParams P) (plainState S) c v = plainState (updateFieldsR F D P S c v) :=
    fun S c v => rfl
  unfold sedStepR
  rw [hc]
  cases chooseNextR F D g kind P st px py s with
  | error e => rfl
  | ok r =>
    obtain ⟨c0, d, s1⟩ := r
    have hS : (plainSt st).S = plainState st.S := rfl
    simp only [hS, hf, hv, hr, hu]
    cases pyCell L W (px + jwalk d) (py + iwalk d) with
    | none => rfl
    | some c => cases pyCell (L + 2) (W + 2) (px + jwalk d + 1) (py + iwalk d + 1) <;> rfl

lemma sedLoopR_plain [NeZero L] [NeZero W] (g : Rng K σ) (P : Params L W m K) (kind : Sed) (n : ℕ) :
    ∀ (st : SedSt L W K) (px py : ℤ) (res : K) (s : σ),
      sedLoopR F D g kind (plainParams P) n (plainSt st) px py res s =
      (sedLoopR F D g kind P n st px py res s).map fun x => (plainSt x.1, x.2.1, x.2.2.1.map plainRec, x.2.2.2) := by
  induction n with
  | zero => intro st px py res s; rfl
  | succ n ih =>
    intro st px py res s
    rw [sedLoopR, sedLoopR, sedStepR_plain]
    cases sedStepR F D g kind P st px py res s with
    | error e => rfl
    | ok r =>
      obtain ⟨st1, res1, r, s1⟩ := r
      simp only [Except.map]
      have h1 : (plainRec r).cell = r.cell := rfl
      have h2 : (plainRec r).new = r.new := rfl
      have h3 : (plainParams P).cellType = P.cellType := rfl
      rw [h1, h2, h3, ih]
      split_ifs
      · rfl
      · cases sedLoopR F D g kind P n st1 r.new.1 r.new.2 res1 s1 <;> rfl

lemma sedParcelsR_plain [NeZero L] [NeZero W] (g : Rng K σ) (P : Params L W m K) (kind : Sed) :
    ∀ (pys : List ℤ) (st : SedSt L W K) (s : σ), sedParcelsR F D g kind (plainParams P) pys (plainSt st) s =
      (sedParcelsR F D g kind P pys st s).map fun x => (plainSt x.1, x.2.1.map plainSed, x.2.2) := by
  intro pys
  induction pys with
  | nil => intro st s; rfl
  | cons py pys ih =>
    intro st s
    rw [sedParcelsR, sedParcelsR]
    cases pyCell L W 0 py with
    | none => rfl
    | some c =>
      have he : enterStateR F D kind (plainParams P) (plainSt st) c = plainSt (enterStateR F D kind P st c) := by
        cases kind <;> rfl
      have e5 : (plainParams P).VpSed = P.VpSed := rfl
      have e6 : (plainParams P).stepmax = P.stepmax := rfl
      simp only [he, e5, e6, sedLoopR_plain]
      cases sedLoopR F D g kind P P.stepmax (enterStateR F D kind P st c) 0 py P.VpSed s with
      | error e => rfl
      | ok r =>
        obtain ⟨st2, res, rs, s1⟩ := r
        simp only [Except.map, ih]
        cases sedParcelsR F D g kind P pys st2 s1 <;> rfl

lemma routeParcelsR_plain [NeZero L] [NeZero W] [FloorRing K] (g : Rng K σ) (P : Params L W m K)
    (kind : Sed) (S : State L W K) (s : σ) :
    routeParcelsR F D g kind (plainParams P) (plainState S) s =
      (routeParcelsR F D g kind P S s).map fun x => (plainState x.1, x.2.1.map plainSed, x.2.2) := by
  have hn : numStartsR D kind (plainParams P) = numStartsR D kind P := by cases kind <;> rfl
  have hi : (plainParams P).inlet = P.inlet := rfl
  unfold routeParcelsR
  simp only [hn, hi]
  cases getStartIndicesR D (fun i => ((P.inlet i).val : ℤ))
      (getInletWeights (fun i => ((P.inlet i).val : ℤ)) : Fin m → K) (drawN g (numStartsR D kind P) s).1 with
  | none => rfl
  | some starts =>
    have := sedParcelsR_plain (F := F) (D := D) g P kind starts ⟨S, customPad S.depth⟩ (drawN g (numStartsR D kind P) s).2
    have e : (⟨plainState S, customPad (plainState S).depth⟩ : SedSt L W K) =
        plainSt ⟨S, customPad S.depth⟩ := rfl
    simp only [e, this]
    cases sedParcelsR F D g kind P starts ⟨S, customPad S.depth⟩ (drawN g (numStartsR D kind P) s).2 <;> rfl

/-- C93: the sediment routing does not see the composition. -/
theorem C93_rounded_sediment [NeZero L] [NeZero W] [FloorRing K] (g : Rng K σ) (P : Params L W m K) (S : State L W K) (s : σ) :
    routeSedimentR F D g (plainParams P) (plainState S) s = (routeSedimentR F D g P S s).map fun x =>
      (plainState x.1, x.2.1.map plainSed, x.2.2.1.map plainSed, x.2.2.2) := by
  unfold routeSedimentR
  have e0 : initSediment (plainState S) = plainState (initSediment S) := rfl
  have ep : routerParams F (plainParams P) = plainParams (routerParams F P) := rfl
  rw [e0, ep, routeParcelsR_plain]
  cases routeParcelsR F D g .sand (routerParams F P) (initSediment S) s with
  | error e => rfl
  | ok r =>
    obtain ⟨S1, sand, s1⟩ := r
    simp only [Except.map]
    have hd : topoDiffusionR F D (plainParams P).cellType (plainParams P).diffMult (plainState S1).qs
        (plainParams P).Ncross (plainState S1).eta = topoDiffusionR F D P.cellType P.diffMult S1.qs P.Ncross S1.eta := rfl
    rw [hd]
    generalize topoDiffusionR F D P.cellType P.diffMult S1.qs P.Ncross S1.eta = E
    have e1 : ({ plainState S1 with eta := E } : State L W K) = plainState { S1 with eta := E } := rfl
    rw [e1, routeParcelsR_plain]
    cases routeParcelsR F D g .mud (routerParams F P) { S1 with eta := E } s1 <;> rfl

/-- C93: the end of a timestep. -/
theorem C93_rounded_end [NeZero L] [NeZero W] (P : Params L W m K) (eta0 : Grid L W K) (S : State L W K) :
    plainState (finalizeTimestepR F D (plainParams P) eta0 (applySubsidenceR F D (plainParams P) (plainState S))) =
      plainState (finalizeTimestepR F D P eta0 (applySubsidenceR F D P S)) := by
  have hs : applySubsidenceR F D (plainParams P) (plainState S) = plainState (applySubsidenceR F D P S) := by
    unfold applySubsidenceR
    have e1 : (plainParams P).toggleSub = P.toggleSub := rfl
    have e2 : (plainParams P).startSub = P.startSub := rfl
    have e3 : (plainState S).time = S.time := rfl
    rw [e1, e2, e3]
    split_ifs <;> rfl
  rw [hs]
  rfl

/-- C93: a timestep. -/
theorem C93_rounded_timestep [NeZero L] [NeZero W] [FloorRing K] (g : Rng K σ) {P P' : Params L W m K} {S S' : State L W K}
    (hP : plainParams P = plainParams P') (hS : plainState S = plainState S') (s : σ) :
    (timestepR F D g P S s).map (fun x => (plainState x.1, plainLog x.2.1, x.2.2)) =
      (timestepR F D g P' S' s).map fun x => (plainState x.1, plainLog x.2.1, x.2.2) := by
  have key : ∀ (P : Params L W m K) (S : State L W K),
      (timestepR F D g P S s).map (fun x => (plainState x.1, plainLog x.2.1, x.2.2)) =
      (timestepR F D g (plainParams P) (plainState S) s).map fun x => (plainState x.1, plainLog x.2.1, x.2.2) := by
    intro P S
    unfold timestepR
    rw [C93_rounded_water]
    cases routeWaterR F D g P S s with
    | error e => rfl
    | ok r =>
      obtain ⟨S1, s1⟩ := r
      simp only [Except.map, C93_rounded_sediment]
      cases routeSedimentR F D g P S1 s1 with
      | error e => rfl
      | ok r =>
        obtain ⟨S2, sand, mud, s2⟩ := r
        simp only [Except.map]
        have e := C93_rounded_end (F := F) (D := D) P S.eta S2
        have e' : ∀ A B : State L W K, plainState A = plainState B →
            plainState ({ A with time := D.fl (A.time + P.dt), timeIter := A.timeIter + 1 } : State L W K) =
            plainState { B with time := D.fl (B.time + P.dt), timeIter := B.timeIter + 1 } := by
          intro A B h
          unfold plainState at h ⊢
          simp only [State.mk.injEq] at h ⊢
          tauto
        simp only [Except.ok.injEq, Prod.mk.injEq, and_true]
        refine ⟨(e' _ _ e).symm, ?_⟩
        unfold plainLog
        simp only [List.map_map, plainSed_idem]
        rfl
  rw [key P S, key P' S', hP, hS]

/-- C93: a run. Two runs that differ in the composition of the bed and in its settings, the thickness of the
active layer and the composition below and beyond, have the same parcels, fields and records, apart from the
composition. -/
theorem C93_rounded_run [NeZero L] [NeZero W] [FloorRing K] (g : Rng K σ) {Ps Ps' : List (Params L W m K)}
    {S S' : State L W K} (hP : Ps.map plainParams = Ps'.map plainParams) (hS : plainState S = plainState S') (s : σ) :
    (timestepsR F D g Ps S s).map plainRun = (timestepsR F D g Ps' S' s).map plainRun := by
  induction Ps generalizing Ps' S S' s with
  | nil =>
    obtain rfl : Ps' = [] := by simpa using hP.symm
    simp only [timestepsR, Except.map, plainRun, hS]
  | cons P Ps ih =>
    cases Ps' with
    | nil => simp at hP
    | cons P' Ps' =>
      simp only [List.map_cons, List.cons.injEq] at hP
      have ht := C93_rounded_timestep (F := F) (D := D) g hP.1 hS s
      rw [timestepsR, timestepsR]
      cases h1 : timestepR F D g P S s with
      | error e =>
        rw [h1] at ht
        cases h2 : timestepR F D g P' S' s with
        | error e' => rw [h2] at ht; simpa [Except.map] using ht
        | ok r => rw [h2] at ht; simp [Except.map] at ht
      | ok r =>
        rw [h1] at ht
        cases h2 : timestepR F D g P' S' s with
        | error e' => rw [h2] at ht; simp [Except.map] at ht
        | ok r' =>
          rw [h2] at ht
          obtain ⟨S1, l, s1⟩ := r
          obtain ⟨S1', l', s1'⟩ := r'
          simp only [Except.map, Except.ok.injEq, Prod.mk.injEq] at ht
          obtain ⟨t1, t2, rfl⟩ := ht
          have hr := ih hP.2 t1 s1
          simp only
          cases h3 : timestepsR F D g Ps S1 s1 with
          | error e =>
            rw [h3] at hr
            cases h4 : timestepsR F D g Ps' S1' s1 with
            | error e' => rw [h4] at hr; simpa [Except.map] using hr
            | ok r => rw [h4] at hr; simp [Except.map] at hr
          | ok r =>
            rw [h3] at hr
            cases h4 : timestepsR F D g Ps' S1' s1 with
            | error e' => rw [h4] at hr; simp [Except.map] at hr
            | ok r' =>
              rw [h4] at hr
              obtain ⟨S2, ls, s2⟩ := r
              obtain ⟨S2', ls', s2'⟩ := r'
              simp only [Except.map, plainRun, Except.ok.injEq, Prod.mk.injEq] at hr
              simp only [Except.map, plainRun, Except.ok.injEq, Prod.mk.injEq, List.map_cons, List.cons.injEq]
              exact ⟨hr.1, ⟨t2, hr.2.1⟩, hr.2.2⟩

/-- C93: the settings of the composition, from configuration to result. Whatever the thickness of the active layer
and the composition beyond the domain, every parcel of every timestepR F D goes the same way and all fields but the
composition are the same. -/
theorem C93_rounded_model [FloorRing K] (O : Oracle K) {I : Input K} [NeZero L] [NeZero W] {P : Params L W m K}
    {S : State L W K} (h : createR F D O I = .ok ⟨L, W, m, P, S⟩) {t : Option K} (ht : ∀ x, t = some x → 0 ≤ x) (b : K)
    (g : Rng K σ) :
    ∃ P' S', createR F D O { I with actThick := t, sandFracBc := b } = .ok ⟨L, W, m, P', S'⟩ ∧
      ∀ n s, (timestepsR F D g (List.replicate n P') S' s).map plainRun =
        (timestepsR F D g (List.replicate n P) S s).map plainRun := by
  unfold createR at h
  cases hv : validate I with
  | error e => rw [hv] at h; simp at h
  | ok u =>
    have hv' : validate { I with actThick := t, sandFracBc := b } = .ok () := by
      have h1 := (C50_validate _).1 hv
      refine (C50_validate _).2 ?_
      exact ⟨h1.length, h1.width, h1.dx, h1.dxLength, h1.dxWidth, h1.L0m, h1.itermax, h1.NpWater, h1.N0m, h1.NpSed,
        h1.f0, h1.f1, ht, h1.C0, h1.Csmooth⟩
    rw [hv] at h
    simp only at h
    have hd : boundaryConditionsR D { I with actThick := t, sandFracBc := b } (cellsAlongR D I.Length I.dx)
      (cellsAlongR D I.Width I.dx) = boundaryConditionsR D I (cellsAlongR D I.Length I.dx) (cellsAlongR D I.Width I.dx) := rfl
    cases hD : boundaryConditionsR D I (cellsAlongR D I.Length I.dx) (cellsAlongR D I.Width I.dx) with
    | error e => rw [hD] at h; simp at h
    | ok E =>
      rw [hD] at h
      simp only at h
      by_cases h0 : E.sizeInd < 0
      · rw [if_pos h0] at h; simp at h
      · rw [if_neg h0] at h
        simp only [Except.ok.injEq, Built.mk.injEq] at h
        obtain ⟨rfl, rfl, rfl, hP, hS⟩ := h
        obtain rfl := eq_of_heq hP
        obtain rfl := eq_of_heq hS
        refine ⟨initialParamsR (centre (cellsAlongR D I.Width I.dx)) F D _ O { I with actThick := t, sandFracBc := b } E,
          initialStateR _ _ (centre (cellsAlongR D I.Width I.dx)) F D O { I with actThick := t, sandFracBc := b } E, ?_, ?_⟩
        · unfold createR
          rw [hv']
          simp only
          rw [hd, hD]
          simp only
          rw [if_neg h0]
        · intro n s
          apply C93_rounded_run g
          · rw [List.map_replicate, List.map_replicate]
            rfl
          · rfl

/-! ## A non-trivial case -/

-- C93_rounded_model: the default configuration in the arithmetic of the program, with an active layer of one meter on
-- a bed of sand; any number of timesteps runs and gives the same bed
example {τ : Type} {g : Rng ℚ τ} (hg : PositiveDraws g) (n : ℕ) (s : τ) :
    ∃ (L W m : ℕ) (_ : NeZero L) (_ : NeZero W) (P P' : Params L W m ℚ) (S S' : State L W ℚ),
    createR single double exOracle exDoubles = .ok ⟨L, W, m, P, S⟩ ∧
      createR single double exOracle { exDoubles with actThick := some 1, sandFracBc := 1 } = .ok ⟨L, W, m, P', S'⟩ ∧
      ∃ S1 ls s1 S1' ls', timestepsR single double g (List.replicate n P) S s = .ok (S1, ls, s1) ∧
        timestepsR single double g (List.replicate n P') S' s = .ok (S1', ls', s1) ∧ S1'.eta = S1.eta := by
  obtain ⟨L, W, m, iL, iW, P, S, h, -, hr⟩ := C107_default hg
  obtain ⟨P', S', h1, h2⟩ := C93_rounded_model exOracle h (t := some 1) (by rintro x ⟨⟩; norm_num) 1 g
  obtain ⟨S1, ls, s1, r, -⟩ := hr n s
  have h3 := h2 n s
  rw [r] at h3
  cases h4 : timestepsR single double g (List.replicate n P') S' s with
  | error e => rw [h4] at h3; simp [Except.map] at h3
  | ok x =>
    rw [h4] at h3
    obtain ⟨S1', ls', s1'⟩ := x
    simp only [Except.map, plainRun, Except.ok.injEq, Prod.mk.injEq] at h3
    obtain ⟨e1, -, rfl⟩ := h3
    unfold plainState at e1
    simp only [State.mk.injEq] at e1
    exact ⟨L, W, m, iL, iW, P, P', S, S', h, h1, S1, ls, _, S1', ls', r, h4, e1.1⟩

end Verif.Props
