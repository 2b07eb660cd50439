import Verif.Spec.Calls
import Verif.Props.Custom

/-!
# C123: methods called one by one
-/

set_option linter.unusedSectionVars false
set_option linter.unusedSimpArgs false

namespace Verif.Props

open Verif.Model Verif.Lemmas Verif.Spec

variable {K : Type*} [Field K] [LinearOrder K] [IsStrictOrderedRing K] [FloorRing K] {α σ : Type*} {L W m : ℕ}
  [NeZero L] [NeZero W]

lemma method_rule {F : Doing L W m K α σ → Prop} {U : UserClass L W m K α σ} (hU : All F U) (s : Step)
    {body : Doing L W m K α σ} (hb : F body) : F (U.method s body) := by
  unfold UserClass.method
  cases h : U.own s with
  | none => exact hb
  | some f => exact hU.own s f h

/-- What holds of the parts holds of calls. -/
lemma call_rule {F : Doing L W m K α σ → Prop} (r : Rule F) {U : UserClass L W m K α σ} (hU : All F U) {g : Rng K σ}
    (hl : Leaves F g) (hk : F keepBedAct) (a : MethodCall) : F (callMethod U g a) := by
  have hs : F (solveAct U g) := r.seq _ _ hk (solve_rest r hU hl)
  have hsed : F (routeSedimentAct U g) :=
    r.seq _ _ (invoke_rule r hU _ hl.initSediment) (r.seq _ _ (invoke_rule r hU _ (hl.parcels .sand))
      (r.seq _ _ (invoke_rule r hU _ hl.diffusion) (invoke_rule r hU _ (hl.parcels .mud))))
  have hf : F (finalizeAct U) := r.seq _ _ hl.settle (r.seq _ _ (invoke_rule r hU _ hl.sandFrac) hl.seaLevel)
  cases a with
  | update => exact step_rule r hU hl hk
  | solve => exact method_rule hU _ hs
  | runOneTimestep => exact method_rule hU _ hs
  | routeWater => exact method_rule hU _ (water_rule r hU hl)
  | routeSediment => exact method_rule hU _ hsed
  | sedRoute => exact method_rule hU _ hsed
  | initSediment => exact method_rule hU _ hl.initSediment
  | routeParcels k => cases k <;> exact method_rule hU _ (hl.parcels _)
  | diffusion => exact method_rule hU _ hl.diffusion
  | subsidence => exact method_rule hU _ hl.subsidence
  | finalizeTimestep => exact method_rule hU _ hf
  | sandFrac => exact method_rule hU _ hl.sandFrac

lemma calls_rule {F : Doing L W m K α σ → Prop} (r : Rule F) {U : UserClass L W m K α σ} (hU : All F U) {g : Rng K σ}
    (hl : Leaves F g) (hk : F keepBedAct) (l : List MethodCall) : F (callMethods U g l) := by
  induction l with
  | nil => exact r.none
  | cons a l ih => exact r.seq _ _ (call_rule r hU hl hk a) ih

/-- C123: the methods can be called in any order and any number of times: no call fails, if the hooks and own methods of the class
raise no error and leave what the methods rely on. -/
theorem C123_safe {U : UserClass L W m K α σ} (hU : All (Serves FitModel) U) {g : Rng K σ} (hg : PositiveDraws g) (l : List MethodCall)
    {c : Custom L W m K α σ} (hc : FitModel c) : ∃ c', callMethods U g l c = .ok c' ∧ FitModel c' :=
  calls_rule (serves_rule FitModel) hU (fit_leaves hg) fit_bed l c hc

/-- C123: old names do what the present names do. -/
theorem C123_names (U : UserClass L W m K α σ) (g : Rng K σ) (l : List MethodCall) : callMethods U g (l.map presentName) = callMethods U g l := by
  induction l with
  | nil => rfl
  | cons a l ih =>
    change Doing.andThen (callMethod U g (presentName a)) (callMethods U g (l.map presentName)) = Doing.andThen (callMethod U g a) (callMethods U g l)
    rw [ih]
    cases a <;> rfl

/-- The models without hooks and own methods. -/
lemma plain_all {F : Doing L W m K α σ → Prop} (h : F .ok) : All F (plainClass : UserClass L W m K α σ) :=
  ⟨fun _ => h, fun _ => h, fun s f e => by cases e⟩

/-- The fields with another clock. -/
def stamped (t : K) (k : ℕ) (S : State L W K) : State L W K := { S with time := t, timeIter := k }

/-- The record of one step of a sediment parcel. -/
def stampedRec (t : K) (k : ℕ) (r : SedRec L W K) : SedRec L W K :=
  { r with before := stamped t k r.before, after := stamped t k r.after }

/-- The record of a sediment parcel. -/
def stampedSed (t : K) (k : ℕ) (l : SedLog L W K) : SedLog L W K := { l with steps := l.steps.map (stampedRec t k) }

/-- The router with another clock. -/
def stampedSt (t : K) (k : ℕ) (st : SedSt L W K) : SedSt L W K := { st with S := stamped t k st.S }

lemma sedStep_stamped (t : K) (k : ℕ) (g : Rng K σ) (P : Params L W m K) (kind : Sed) (st : SedSt L W K)
    (px py : ℤ) (res : K) (s : σ) :
    sedStep g kind P (stampedSt t k st) px py res s =
      (sedStep g kind P st px py res s).map fun x => (stampedSt t k x.1, x.2.1, stampedRec t k x.2.2.1, x.2.2.2) := by
  have hc : chooseNext g kind P (stampedSt t k st) px py s = chooseNext g kind P st px py s := rfl
  have hf : ∀ c0 c d, fieldsAt kind P (stamped t k st.S) c0 c d res =
      stamped t k (fieldsAt kind P st.S c0 c d res) := by
    intro c0 c d
    cases kind
    · show partitionSand P (stamped t k st.S) c0 c d res = stamped t k (partitionSand P st.S c0 c d res)
      unfold partitionSand
      have e1 : P.s2 = P.s2 := rfl
      rw [e1]
      split_ifs <;> rfl
    · rfl
  have hv : ∀ S c, volumeChange kind P (stamped t k S) c res = volumeChange kind P S c res := by
    intro S c
    cases kind <;> rfl
  have hr : ∀ S c v, recordDeposit kind (stamped t k S) c v = stamped t k (recordDeposit kind S c v : State L W K) := by
    intro S c v
    unfold recordDeposit
    split_ifs
    · cases kind <;> rfl
    · rfl
  have hu : ∀ S c v, updateFields P (stamped t k S) c v = stamped t k (updateFields P S c v) :=
    fun S c v => rfl
  unfold sedStep
  rw [hc]
  cases chooseNext g kind P st px py s with
  | error e => rfl
  | ok r =>
    obtain ⟨c0, d, s1⟩ := r
    have hS : (stampedSt t k st).S = stamped t k st.S := rfl
    simp only [hS, hf, hv, hr, hu]
    cases pyCell L W (px + jwalk d) (py + iwalk d) with
    | none => rfl
    | some c => cases pyCell (L + 2) (W + 2) (px + jwalk d + 1) (py + iwalk d + 1) <;> rfl

lemma sedLoop_stamped (t : K) (k : ℕ) (g : Rng K σ) (P : Params L W m K) (kind : Sed) (n : ℕ) :
    ∀ (st : SedSt L W K) (px py : ℤ) (res : K) (s : σ),
      sedLoop g kind P n (stampedSt t k st) px py res s =
      (sedLoop g kind P n st px py res s).map fun x => (stampedSt t k x.1, x.2.1, x.2.2.1.map (stampedRec t k), x.2.2.2) := by
  induction n with
  | zero => intro st px py res s; rfl
  | succ n ih =>
    intro st px py res s
    rw [sedLoop, sedLoop, sedStep_stamped t k]
    cases sedStep g kind P st px py res s with
    | error e => rfl
    | ok r =>
      obtain ⟨st1, res1, r, s1⟩ := r
      simp only [Except.map]
      have h1 : (stampedRec t k r).cell = r.cell := rfl
      have h2 : (stampedRec t k r).new = r.new := rfl
      have h3 : P.cellType = P.cellType := rfl
      rw [h1, h2, h3, ih]
      split_ifs
      · rfl
      · cases sedLoop g kind P n st1 r.new.1 r.new.2 res1 s1 <;> rfl

lemma sedParcels_stamped (t : K) (k : ℕ) (g : Rng K σ) (P : Params L W m K) (kind : Sed) :
    ∀ (pys : List ℤ) (st : SedSt L W K) (s : σ), sedParcels g kind P pys (stampedSt t k st) s =
      (sedParcels g kind P pys st s).map fun x => (stampedSt t k x.1, x.2.1.map (stampedSed t k), x.2.2) := by
  intro pys
  induction pys with
  | nil => intro st s; rfl
  | cons py pys ih =>
    intro st s
    rw [sedParcels, sedParcels]
    cases pyCell L W 0 py with
    | none => rfl
    | some c =>
      have he : enterState kind P (stampedSt t k st) c = stampedSt t k (enterState kind P st c) := by
        cases kind <;> rfl
      have e5 : P.VpSed = P.VpSed := rfl
      have e6 : P.stepmax = P.stepmax := rfl
      simp only [he, e5, e6, sedLoop_stamped t k]
      cases sedLoop g kind P P.stepmax (enterState kind P st c) 0 py P.VpSed s with
      | error e => rfl
      | ok r =>
        obtain ⟨st2, res, rs, s1⟩ := r
        simp only [Except.map, ih]
        cases sedParcels g kind P pys st2 s1 <;> rfl

lemma routeParcels_stamped (t : K) (k : ℕ) (g : Rng K σ) (P : Params L W m K)
    (kind : Sed) (S : State L W K) (s : σ) :
    routeParcels g kind P (stamped t k S) s =
      (routeParcels g kind P S s).map fun x => (stamped t k x.1, x.2.1.map (stampedSed t k), x.2.2) := by
  have hn : numStarts kind P = numStarts kind P := by cases kind <;> rfl
  have hi : P.inlet = P.inlet := rfl
  unfold routeParcels
  simp only [hn, hi]
  cases getStartIndices (fun i => ((P.inlet i).val : ℤ))
      (getInletWeights (fun i => ((P.inlet i).val : ℤ)) : Fin m → K) (drawN g (numStarts kind P) s).1 with
  | none => rfl
  | some starts =>
    have := sedParcels_stamped t k g P kind starts ⟨S, customPad S.depth⟩ (drawN g (numStarts kind P) s).2
    have e : (⟨stamped t k S, customPad (stamped t k S).depth⟩ : SedSt L W K) =
        stampedSt t k ⟨S, customPad S.depth⟩ := rfl
    simp only [e, this]
    cases sedParcels g kind P starts ⟨S, customPad S.depth⟩ (drawN g (numStarts kind P) s).2 <;> rfl

/-- A method leaves settings and clock as they are, and moves the sea level as `a` updates do. -/
def Stands (a : ℕ) (f : Doing L W m K α σ) : Prop :=
  ∀ c c', f c = .ok c' → c'.P = c.P ∧ c'.S.time = c.S.time ∧ c'.S.timeIter = c.S.timeIter ∧
    c'.S.HSL = c.S.HSL + a * (c.P.SLR * c.P.dt)

lemma stands_then {a b : ℕ} {f f' : Doing L W m K α σ} (h : Stands a f) (h' : Stands b f') :
    Stands (a + b) (Doing.andThen f f') := by
  intro c c' e
  obtain ⟨d, e1, e2⟩ := andThen_ok e
  obtain ⟨a1, a3, a4, a5⟩ := h _ _ e1
  obtain ⟨b1, b3, b4, b5⟩ := h' _ _ e2
  refine ⟨b1.trans a1, b3.trans a3, b4.trans a4, ?_⟩
  rw [b5, a5, a1]
  push_cast
  ring

/-- As `Stands`, and the same with any other clock, if it has counted an update when this one has; without subsidence. -/
def Timeless (a : ℕ) (f : Doing L W m K α σ) : Prop :=
  Stands a f ∧ ∀ c t k, c.P.toggleSub = false → (0 < k ↔ 0 < c.S.timeIter) → f (atClock t k c) = (f c).map (atClock t k)

lemma timeless_none : Timeless 0 (Except.ok : Doing L W m K α σ) :=
  ⟨by intro c c' h; cases h; exact ⟨rfl, rfl, rfl, by simp⟩, fun _ _ _ _ _ => rfl⟩

lemma timeless_then {a b : ℕ} {f f' : Doing L W m K α σ} (h : Timeless a f) (h' : Timeless b f') :
    Timeless (a + b) (Doing.andThen f f') := by
  refine ⟨stands_then h.1 h'.1, fun c t k hs hk => ?_⟩
  simp only [Doing.andThen, h.2 c t k hs hk]
  generalize hv : f c = v
  cases v with
  | error e => rfl
  | ok d =>
    obtain ⟨a1, a2, a3, -⟩ := h.1 _ _ hv
    change f' (atClock t k d) = (f' d).map (atClock t k)
    exact h'.2 d t k (by rw [a1]; exact hs) (by rw [a3]; exact hk)

/-- A method that cannot fail. -/
lemma timeless_of {f : Custom L W m K α σ → Custom L W m K α σ}
    (h1 : ∀ c, (f c).P = c.P ∧ (f c).S.time = c.S.time ∧ (f c).S.timeIter = c.S.timeIter ∧ (f c).S.HSL = c.S.HSL)
    (h2 : ∀ c t k, f (atClock t k c) = atClock t k (f c)) : Timeless 0 (fun c => .ok (f c) : Doing L W m K α σ) := by
  refine ⟨?_, fun c t k _ _ => congrArg Except.ok (h2 c t k)⟩
  intro c c' h
  cases h
  obtain ⟨a1, a2, a3, a4⟩ := h1 c
  exact ⟨a1, a2, a3, by rw [a4, Nat.cast_zero, zero_mul, add_zero]⟩

lemma timeless_runWater (g : Rng K σ) : Timeless 0 (runWaterAct g : Doing L W m K α σ) := by
  refine ⟨?_, fun c t k _ _ => ?_⟩
  · intro c c' e
    unfold runWaterAct at e
    split at e
    · simp at e
    · split at e
      · simp at e
      · simp only [Except.ok.injEq] at e
        subst e; exact ⟨rfl, rfl, rfl, by simp⟩
  · unfold runWaterAct
    have e0 : waterWeightArray (atClock t k c).P (atClock t k c).S = waterWeightArray c.P c.S := rfl
    rw [e0]
    cases waterWeightArray c.P c.S with
    | error e => rfl
    | ok w =>
      have e1 : runWaterIteration g (waterEnv (atClock t k c).P (atClock t k c).S w)
          (fun i => (((atClock t k c).P.inlet i).val : ℤ)) (atClock t k c).P.NpWater (atClock t k c).S.ncols (atClock t k c).rng =
          runWaterIteration g (waterEnv c.P c.S w) (fun i => ((c.P.inlet i).val : ℤ)) c.P.NpWater c.S.ncols c.rng := rfl
      dsimp only
      rw [e1]
      cases runWaterIteration g (waterEnv c.P c.S w) (fun i => ((c.P.inlet i).val : ℤ)) c.P.NpWater c.S.ncols c.rng with
      | error e => rfl
      | ok r => rfl

lemma timeless_freeSurface : Timeless 0 (freeSurfaceAct : Doing L W m K α σ) := by
  refine ⟨?_, fun c t k _ hk => ?_⟩
  · intro c c' e
    unfold freeSurfaceAct at e
    split at e
    · simp at e
    · simp only [Except.ok.injEq] at e
      subst e; exact ⟨rfl, rfl, rfl, by simp⟩
  · have e : computeFreeSurface (atClock t k c).P (atClock t k c).S (atClock t k c).parcels =
        computeFreeSurface c.P c.S c.parcels := by
      unfold computeFreeSurface
      have e1 : sfcEnv (atClock t k c).P (atClock t k c).S = sfcEnv c.P c.S := rfl
      have e2 : (atClock t k c).parcels = c.parcels := rfl
      rw [e1, e2]
      cases accumulateFreeSurface (sfcEnv c.P c.S) (c.parcels.map fun p => (p.walk, p.flag)) with
      | error e => rfl
      | ok a =>
        have e3 : ∀ H : Grid L W K, finalizeFreeSurface c.P.cellType c.P.Nsmooth c.P.Csmooth c.P.omegaSfc k c.S.eta c.S.depth c.S.stage H
            c.P.dryDepth = finalizeFreeSurface c.P.cellType c.P.Nsmooth c.P.Csmooth c.P.omegaSfc c.S.timeIter c.S.eta c.S.depth
            c.S.stage H c.P.dryDepth := by
          intro H
          unfold finalizeFreeSurface
          by_cases h : 0 < c.S.timeIter
          · simp only [gt_iff_lt, h, hk.2 h, if_true]
          · have h' : ¬ 0 < k := fun h' => h (hk.1 h')
            simp only [gt_iff_lt, h, h', if_false]
        exact congrArg Except.ok (e3 _)
    unfold freeSurfaceAct
    rw [e]
    cases computeFreeSurface c.P c.S c.parcels <;> rfl

lemma timeless_finalizeWater (i : ℕ) : Timeless 0 (finalizeWaterAct i : Doing L W m K α σ) := by
  refine ⟨by intro c c' h; cases h; exact ⟨rfl, rfl, rfl, by rw [Nat.cast_zero, zero_mul, add_zero]; rfl⟩, fun c t k _ hk => ?_⟩
  have e : updateFlow c.P.nrm c.P.omegaFlow c.P.omegaFlowIter c.P.qw0 c.P.inlet k i c.S.qx c.S.qy c.flux =
      updateFlow c.P.nrm c.P.omegaFlow c.P.omegaFlowIter c.P.qw0 c.P.inlet c.S.timeIter i c.S.qx c.S.qy c.flux := by
    unfold updateFlow
    by_cases h : 0 < c.S.timeIter
    · simp only [gt_iff_lt, h, hk.2 h, if_true]
    · have h' : ¬ 0 < k := fun h' => h (hk.1 h')
      simp only [gt_iff_lt, h, h', if_false]
  simp only [finalizeWaterAct, finalizeWaterIteration, atClock, Except.map, e]

lemma timeless_parcels (g : Rng K σ) (kind : Sed) : Timeless 0 (routeParcelsAct g kind : Doing L W m K α σ) := by
  refine ⟨?_, fun c t k _ _ => ?_⟩
  · intro c c' e
    unfold routeParcelsAct at e
    split at e
    · simp at e
    · rename_i S1 lg s1 hr
      simp only [Except.ok.injEq] at e
      subst e
      obtain ⟨-, -, -, -, -, -, f1, f2, f3, -⟩ := routeParcels_frame hr
      exact ⟨rfl, f2, f3, by simpa using f1⟩
  · unfold routeParcelsAct
    have e : routeParcels g kind (sedParams (atClock t k c).P (atClock t k c).R) (atClock t k c).S (atClock t k c).rng =
        routeParcels g kind (sedParams c.P c.R) (stamped t k c.S) c.rng := rfl
    rw [e, routeParcels_stamped]
    cases routeParcels g kind (sedParams c.P c.R) c.S c.rng <;> rfl

lemma timeless_diffusion : Timeless 0 (diffusionAct : Doing L W m K α σ) :=
  timeless_of (fun _ => ⟨rfl, rfl, rfl, rfl⟩) fun _ _ _ => rfl

lemma timeless_initSediment : Timeless 0 (initSedimentAct : Doing L W m K α σ) :=
  timeless_of (fun _ => ⟨rfl, rfl, rfl, rfl⟩) fun _ _ _ => rfl

lemma timeless_sandFrac : Timeless 0 (sandFracAct : Doing L W m K α σ) :=
  timeless_of (fun _ => ⟨rfl, rfl, rfl, rfl⟩) fun _ _ _ => rfl

lemma timeless_water (g : Rng K σ) : Timeless 0 (routeWaterAct plainClass g : Doing L W m K α σ) := by
  have w0 : Timeless 0 (initWaterAct : Doing L W m K α σ) := timeless_of (fun _ => ⟨rfl, rfl, rfl, rfl⟩) fun _ _ _ => rfl
  have w1 : ∀ i, Timeless 0 (waterPass plainClass g i : Doing L W m K α σ) := fun i =>
    timeless_then (timeless_then timeless_none w0) <| timeless_then (timeless_then timeless_none (timeless_runWater g)) <|
    timeless_then (timeless_then timeless_none timeless_freeSurface) <|
    timeless_then timeless_none (timeless_finalizeWater i)
  have w2 : ∀ n i, Timeless 0 (waterPasses plainClass g i n : Doing L W m K α σ) := by
    intro n
    induction n with
    | zero => intro i; exact timeless_none
    | succ n ih => intro i; exact timeless_then (w1 i) (ih (i + 1))
  exact ⟨fun c c' e => (w2 _ _).1 c c' e, fun c t k hs hk => (w2 _ _).2 c t k hs hk⟩

lemma timeless_sediment (g : Rng K σ) : Timeless 0 (routeSedimentAct plainClass g : Doing L W m K α σ) :=
  timeless_then (timeless_then timeless_none timeless_initSediment) <|
  timeless_then (timeless_then timeless_none (timeless_parcels g .sand)) <|
  timeless_then (timeless_then timeless_none timeless_diffusion) <|
  timeless_then timeless_none (timeless_parcels g .mud)

lemma timeless_solve (g : Rng K σ) : Timeless 0 (solveAct plainClass g : Doing L W m K α σ) := by
  have w0 : Timeless 0 (keepBedAct : Doing L W m K α σ) := timeless_of (fun _ => ⟨rfl, rfl, rfl, rfl⟩) fun _ _ _ => rfl
  exact timeless_then w0 <| timeless_then (timeless_then timeless_none (timeless_water g)) <| timeless_then timeless_none <|
    timeless_then (timeless_then timeless_none (timeless_sediment g)) timeless_none

lemma timeless_subsidence : Timeless 0 (subsidenceAct : Doing L W m K α σ) := by
  refine ⟨?_, fun c t k hs _ => ?_⟩
  · intro c c' h
    cases h
    unfold applySubsidence
    split_ifs <;> exact ⟨rfl, rfl, rfl, by simp⟩
  · have h1 : applySubsidence c.P c.S = c.S := by simp [applySubsidence, hs]
    have h2 : applySubsidence c.P (atClock t k c).S = (atClock t k c).S := by simp [applySubsidence, hs]
    simp only [subsidenceAct, h1, h2, Except.map]
    change Except.ok { atClock t k c with S := applySubsidence c.P (atClock t k c).S } = _
    rw [h2]

lemma timeless_finalize : Timeless 1 (finalizeAct plainClass : Doing L W m K α σ) := by
  refine ⟨?_, fun c t k _ _ => rfl⟩
  intro c c' h
  cases h
  exact ⟨rfl, rfl, rfl, by simp [computeSandFrac]⟩

/-- The part of an update before the clock goes on. -/
def roundAct (g : Rng K σ) : Doing L W m K α σ :=
  Doing.andThen (solveAct plainClass g) (Doing.andThen subsidenceAct (finalizeAct plainClass))

lemma timeless_round (g : Rng K σ) : Timeless 1 (roundAct g : Doing L W m K α σ) :=
  timeless_then (timeless_solve g) (timeless_then timeless_subsidence timeless_finalize)

lemma step_round (g : Rng K σ) : customStep (plainClass : UserClass L W m K α σ) g = Doing.andThen (roundAct g) clockAct := by
  unfold roundAct
  rw [andThen_assoc, andThen_assoc]
  rfl

lemma rounds_succ (g : Rng K σ) (n : ℕ) : callMethods (plainClass : UserClass L W m K α σ) g (rounds (n + 1)) =
    Doing.andThen (roundAct g) (callMethods plainClass g (rounds n)) := by
  unfold roundAct
  rw [andThen_assoc, andThen_assoc]
  rfl

lemma timeless_rounds (g : Rng K σ) (n : ℕ) : Timeless n (callMethods (plainClass : UserClass L W m K α σ) g (rounds n)) := by
  induction n with
  | zero => exact timeless_none
  | succ n ih =>
    rw [rounds_succ, Nat.add_comm]
    exact timeless_then (timeless_round g) ih

/-- C123: clock and sea level. Whatever methods are called, the clock of a model without hooks and own methods goes on with the updates
alone, the sea level with the updates and with every other call of `finalize_timestep`; the settings stay what they
were. -/
theorem C123_clock {g : Rng K σ} {l : List MethodCall} {c c' : Custom L W m K α σ} (h : callMethods plainClass g l c = .ok c') :
    c'.P = c.P ∧ c'.S.time = c.S.time + l.count .update * c.P.dt ∧ c'.S.timeIter = c.S.timeIter + l.count .update ∧
      c'.S.HSL = c.S.HSL + l.countP movesSea * (c.P.SLR * c.P.dt) := by
  induction l generalizing c with
  | nil =>
    cases h
    exact ⟨rfl, by simp, rfl, by simp⟩
  | cons a l ih =>
    obtain ⟨d, e1, e2⟩ := andThen_ok h
    obtain ⟨i1, i2, i3, i4⟩ := ih e2
    have key : ∀ b : ℕ, Stands b (callMethod plainClass g a : Doing L W m K α σ) → a ≠ .update → (movesSea a).toNat = b →
        c'.P = c.P ∧ c'.S.time = c.S.time + (a :: l).count .update * c.P.dt ∧
        c'.S.timeIter = c.S.timeIter + (a :: l).count .update ∧
        c'.S.HSL = c.S.HSL + (a :: l).countP movesSea * (c.P.SLR * c.P.dt) := by
      intro b hb ha hm
      obtain ⟨j1, j2, j3, j4⟩ := hb _ _ e1
      rw [List.count_cons_of_ne ha, i1, i2, i3, i4, j1, j2, j3, j4]
      refine ⟨rfl, rfl, rfl, ?_⟩
      rw [List.countP_cons]
      subst hm
      cases movesSea a
      · simp
      · simp
        ring
    cases a with
    | update =>
      change customStep plainClass g c = .ok d at e1
      rw [step_round] at e1
      obtain ⟨d1, f1, f2⟩ := andThen_ok e1
      obtain ⟨j1, j2, j3, j4⟩ := (timeless_round g).1 _ _ f1
      cases f2
      have k1 : d1.P = c.P := j1
      rw [List.count_cons_self, List.countP_cons_of_pos (by rfl), i1, i2, i3, i4]
      refine ⟨j1, ?_, ?_, ?_⟩
      · change d1.S.time + d1.P.dt + _ * d1.P.dt = _
        rw [j2, j1]
        push_cast
        ring
      · change d1.S.timeIter + 1 + _ = _
        rw [j3]
        ring
      · change d1.S.HSL + _ * (d1.P.SLR * d1.P.dt) = _
        rw [j4, j1]
        push_cast
        ring
    | solve => exact key 0 (timeless_solve g).1 (by decide) rfl
    | runOneTimestep => exact key 0 (timeless_solve g).1 (by decide) rfl
    | routeWater => exact key 0 (timeless_water g).1 (by decide) rfl
    | routeSediment => exact key 0 (timeless_sediment g).1 (by decide) rfl
    | sedRoute => exact key 0 (timeless_sediment g).1 (by decide) rfl
    | initSediment => exact key 0 timeless_initSediment.1 (by decide) rfl
    | routeParcels k => cases k <;> exact key 0 (timeless_parcels g _).1 (by decide) rfl
    | diffusion => exact key 0 timeless_diffusion.1 (by decide) rfl
    | subsidence => exact key 0 timeless_subsidence.1 (by decide) rfl
    | finalizeTimestep => exact key 1 timeless_finalize.1 (by decide) rfl
    | sandFrac => exact key 0 timeless_sandFrac.1 (by decide) rfl

/-- C123: `solve_water_and_sediment_timestep`, `apply_subsidence` and `finalize_timestep` called in turns do what updates do: after any number of
rounds the model is that after as many updates, with the same random numbers and errors, but for its clock; if it has been updated before
and does not subside. -/
theorem C123_rounds (g : Rng K σ) (n : ℕ) {c : Custom L W m K α σ} (hk : 0 < c.S.timeIter) (hs : c.P.toggleSub = false) :
    callMethods plainClass g (rounds n) c = (customRun plainClass g n c).map (atClock c.S.time c.S.timeIter) := by
  induction n generalizing c with
  | zero => rfl
  | succ n ih =>
    have e1 : customRun (plainClass : UserClass L W m K α σ) g (n + 1) = Doing.andThen (roundAct g) (Doing.andThen clockAct
        (customRun plainClass g n)) := by
      change Doing.andThen (customStep plainClass g) (customRun plainClass g n) = _
      rw [step_round, andThen_assoc]
    rw [rounds_succ, e1]
    simp only [Doing.andThen]
    generalize hv : roundAct g c = v
    cases v with
    | error e => rfl
    | ok d =>
      obtain ⟨j1, j2, j3, j4⟩ := (timeless_round g).1 _ _ hv
      have hk' : 0 < d.S.timeIter := by rw [j3]; exact hk
      have hs' : d.P.toggleSub = false := by rw [j1]; exact hs
      change callMethods plainClass g (rounds n) d = Except.map _ (customRun plainClass g n (atClock (d.S.time + d.P.dt) (d.S.timeIter + 1) d))
      have h2 := ih (c := atClock (d.S.time + d.P.dt) (d.S.timeIter + 1) d) (Nat.succ_pos _) hs'
      have h3 := (timeless_rounds g n).2 d (d.S.time + d.P.dt) (d.S.timeIter + 1) hs' ⟨fun _ => hk', fun _ => Nat.succ_pos _⟩
      rw [h3] at h2
      have h4 := congrArg (Except.map (atClock c.S.time c.S.timeIter)) h2
      generalize hw : callMethods plainClass g (rounds n) d = w at h4
      have hw' := (timeless_rounds g n).1 d
      generalize customRun plainClass g n (atClock (d.S.time + d.P.dt) (d.S.timeIter + 1) d) = z at h4
      have h5 : Except.map (atClock c.S.time c.S.timeIter) w = w := by
        cases w with
        | error e => rfl
        | ok x =>
          obtain ⟨k1, k2, k3, k4⟩ := hw' x hw
          rw [← j2, ← j3, ← k2, ← k3]
          rfl
      rw [← h5]
      cases w <;> cases z <;> exact h4

/-- C123: the first round is the first update but for the clock, also in a new model and with subsidence. -/
theorem C123_first (g : Rng K σ) (c : Custom L W m K α σ) :
    callMethods plainClass g (rounds 1) c = (customStep plainClass g c).map (atClock c.S.time c.S.timeIter) := by
  rw [rounds_succ, step_round]
  simp only [Doing.andThen]
  generalize hv : roundAct g c = v
  cases v with
  | error e => rfl
  | ok d =>
    obtain ⟨j1, j2, j3, j4⟩ := (timeless_round g).1 _ _ hv
    rw [← j2, ← j3]
    rfl

/-- C123: the parts of the sediment routing called one after the other, each of the two kinds of parcels by its own method, are the
sediment routing of a class whose hooks before these parts do nothing, also if it has its own versions of them. -/
theorem C123_parts (U : UserClass L W m K α σ) (g : Rng K σ) (hr : U.own .routeSediment = none)
    (hh : ∀ s ∈ [Step.initSedimentIteration, .routeAllSandParcels, .topoDiffusion, .routeAllMudParcels], ∀ c, U.hook s c = .ok c)
    (c : Custom L W m K α σ) :
    callMethods U g [.initSediment, .routeParcels .sand, .diffusion, .routeParcels .mud] c = callMethod U g .routeSediment c := by
  have h1 := hh .initSedimentIteration (by simp)
  have h2 := hh .routeAllSandParcels (by simp)
  have h3 := hh .topoDiffusion (by simp)
  have h4 := hh .routeAllMudParcels (by simp)
  simp only [callMethods, callMethod, UserClass.method, hr, Option.getD_none, routeSedimentAct, Doing.andThen, invoke, h1, h2, h3, h4]
  cases (U.own .initSedimentIteration).getD initSedimentAct c with
  | error e => rfl
  | ok c1 =>
    simp only
    cases (U.own .routeAllSandParcels).getD (routeParcelsAct g .sand) c1 with
    | error e => rfl
    | ok c2 =>
      simp only
      cases (U.own .topoDiffusion).getD diffusionAct c2 with
      | error e => rfl
      | ok c3 =>
        simp only
        cases (U.own .routeAllMudParcels).getD (routeParcelsAct g .mud) c3 <;> rfl

/-! ## Examples -/

-- the parts of an update in a strange order, with old names, in the example of C112: no error, one update, two steps of the sea
example : ∃ c', callMethods plainClass constRng [.sedRoute, .finalizeTimestep, .routeWater, .routeParcels .mud, .update, .runOneTimestep]
    (exCustom Unit ()) = .ok c' ∧ c'.S.timeIter = 2 ∧ c'.S.HSL = exState.HSL + 2 * (exParams.SLR * exParams.dt) := by
  obtain ⟨c', h, -⟩ := C123_safe (plain_all (serves_rule FitModel).none) exPositive
    [.sedRoute, .finalizeTimestep, .routeWater, .routeParcels .mud, .update, .runOneTimestep] (exCustom_fit Unit ())
  obtain ⟨-, -, h3, h4⟩ := C123_clock h
  refine ⟨c', h, ?_, ?_⟩
  · rw [h3]
    rfl
  · rw [h4]
    norm_num [List.countP, List.countP.go, movesSea, exCustom]

-- rounds instead of updates: the example has been updated once; without its subsidence
example (n : ℕ) : callMethods plainClass constRng (rounds n) { exCustom Unit () with P := { exParams with toggleSub := false } } =
    (customRun plainClass constRng n { exCustom Unit () with P := { exParams with toggleSub := false } }).map
      (atClock exState.time exState.timeIter) :=
  C123_rounds constRng n (by decide) rfl

-- C123_parts: for the model itself
example (g : Rng K σ) (c : Custom L W m K α σ) :
    callMethods plainClass g [.initSediment, .routeParcels .sand, .diffusion, .routeParcels .mud] c =
      callMethod plainClass g .routeSediment c :=
  C123_parts plainClass g rfl (fun _ _ _ => rfl) c

end Verif.Props
