import Verif.Spec.CustomResume
import Verif.Props.DocClasses
import Verif.Props.Series
import Verif.Props.Resume

/-!
# C124: customised models that are resumed
-/

set_option linter.unusedSectionVars false
set_option linter.unusedSimpArgs false

namespace Verif.Props

open Verif.Model Verif.Lemmas Verif.Spec

variable {K : Type*} [Field K] [LinearOrder K] [IsStrictOrderedRing K] [FloorRing K] {α σ : Type*} {L W m : ℕ}
  [NeZero L] [NeZero W]

/-! ## Methods of `DeltaModel` treat alike models alike -/

lemma together_ok {β : Type*} {Rel : β → β → Prop} {a b : β} (h : Rel a b) :
    Together Rel (.ok a : Except Err β) (.ok b) := Or.inr ⟨a, b, rfl, rfl, h⟩

lemma together_error {β : Type*} (Rel : β → β → Prop) (e : Err) :
    Together Rel (.error e : Except Err β) (.error e) := Or.inl ⟨e, rfl, rfl⟩

lemma together_imp {β : Type*} {Rel Rel' : β → β → Prop} (h : ∀ a b, Rel a b → Rel' a b) {x y : Except Err β}
    (hx : Together Rel x y) : Together Rel' x y := by
  rcases hx with ⟨e, h1, h2⟩ | ⟨a, b, h1, h2, h3⟩
  · exact Or.inl ⟨e, h1, h2⟩
  · exact Or.inr ⟨a, b, h1, h2, h a b h3⟩

/-- Less is known. -/
def Weaker (A B : Known) : Prop :=
  (B.bed = true → A.bed = true) ∧ (B.water = true → A.water = true) ∧ (B.sediment = true → A.sediment = true)

lemma alike_weaken {A B : Known} (h : Weaker A B) {c d : Custom L W m K α σ} (hc : Alike A c d) : Alike B c d :=
  { hc with bed := fun x => hc.bed (h.1 x), water := fun x => hc.water (h.2.1 x), sediment := fun x => hc.sediment (h.2.2 x) }

lemma heeds_then {A B C : Known} {f g : Doing L W m K α σ} (hf : Heeds A B f) (hg : Heeds B C g) :
    Heeds A C (Doing.andThen f g) := by
  intro c d h
  unfold Doing.andThen
  rcases hf c d h with ⟨e, h1, h2⟩ | ⟨a, b, h1, h2, h3⟩
  · rw [h1, h2]
    exact together_error _ _
  · rw [h1, h2]
    exact hg a b h3

lemma heeds_weaken {A A' B B' : Known} (hA : Weaker A A') (hB : Weaker B' B) {f : Doing L W m K α σ} (h : Heeds A' B' f) :
    Heeds A B f := fun c d hc => together_imp (fun _ _ => alike_weaken hB) (h c d (alike_weaken hA hc))

lemma heeds_ok (A : Known) : Heeds A A (Except.ok : Doing L W m K α σ) := fun _ _ h => together_ok h

/-- The model `c` with other values in all that a break may change. -/
def twin (c : Custom L W m K α σ) (q a b : Grid L W K) (n : ℕ) (e : Grid L W K) (fl : Flux L W K) (ps : List WParcel) :
    Custom L W m K α σ := { c with S := over q a b n c.S, eta0 := e, flux := fl, parcels := ps }

lemma alike_twin {A : Known} {c d : Custom L W m K α σ} (h : Alike A c d) :
    d = twin c d.S.qs d.S.depSand d.S.depMud d.S.ncols d.eta0 d.flux d.parcels := by
  have e := sameFields_eq h.fields
  unfold twin
  rw [← e, ← h.P, ← h.R, ← h.extra, ← h.rng]

lemma heeds_of {A B : Known} {f : Doing L W m K α σ}
    (h : ∀ (c : Custom L W m K α σ) q a b n e fl ps, Alike A c (twin c q a b n e fl ps) →
      Together (Alike B) (f c) (f (twin c q a b n e fl ps))) : Heeds A B f := by
  intro c d hc
  have e := alike_twin hc
  rw [e] at hc ⊢
  exact h _ _ _ _ _ _ _ _ hc

lemma heeds_init (z : Bool) : Heeds (L := L) (W := W) (m := m) (K := K) (α := α) (σ := σ) ⟨true, false, z⟩ ⟨true, true, z⟩
    initWaterAct := by
  refine heeds_of fun c q a b n e fl ps h => together_ok ?_
  exact ⟨rfl, rfl, rfl, rfl, h.fields, h.record, h.steps, h.bed, fun _ => ⟨rfl, List.Forall₂.nil⟩, h.sediment⟩

lemma sameWalk_of {k a b : ℕ} {ps ps' : List WParcel} (h : List.Forall₂ (WalkRel k a b) ps ps') :
    List.Forall₂ SameWalk ps ps' :=
  h.imp fun _ _ ⟨h1, h2, pre, _, h4, h5⟩ => ⟨h1.symm, h2.symm, pre, _, _, h4, h5⟩

lemma sfc_same (E : SfcEnv L W K) {ps ps' : List WParcel} (h : List.Forall₂ SameWalk ps ps') :
    ∀ acc : SfcAcc L W K, sfcParcels E (ps.map (fun p => (p.walk, p.flag))) acc =
      sfcParcels E (ps'.map (fun p => (p.walk, p.flag))) acc := by
  induction h with
  | nil => intro acc; rfl
  | @cons p p' ps ps' hp _ ih =>
    intro acc
    obtain ⟨-, g2, pre, a, b, g4, g5⟩ := hp
    have e : sfcParcel E p.walk p.flag acc = sfcParcel E p'.walk p'.flag acc := by
      unfold sfcParcel
      rw [g4, g5, g2, walkCells_zeros, walkCells_zeros]
    simp only [List.map_cons, sfcParcels, e]
    cases sfcParcel E p'.walk p'.flag acc with
    | error e => rfl
    | ok a => exact ih a

lemma heeds_run (g : Rng K σ) (z : Bool) : Heeds (L := L) (W := W) (m := m) (α := α) ⟨true, true, z⟩ ⟨true, true, z⟩
    (runWaterAct g) := by
  refine heeds_of fun c q a b n e fl ps h => ?_
  unfold runWaterAct
  have e1 : waterWeightArray (twin c q a b n e fl ps).P (twin c q a b n e fl ps).S = waterWeightArray c.P c.S := rfl
  rw [e1]
  cases waterWeightArray c.P c.S with
  | error e => exact together_error _ _
  | ok w =>
    simp only
    have e2 : waterEnv (twin c q a b n e fl ps).P (twin c q a b n e fl ps).S w = waterEnv c.P c.S w := rfl
    rw [e2, show (twin c q a b n e fl ps).S.ncols = n from rfl, show (twin c q a b n e fl ps).P = c.P from rfl,
      show (twin c q a b n e fl ps).rng = c.rng from rfl]
    have hn : 0 < n := h.record.2
    have h1 := runWater_rel g (waterEnv c.P c.S w) h.steps (fun k => ((c.P.inlet k).val : ℤ)) c.P.NpWater h.record.1 hn c.rng
    generalize hx : runWaterIteration g (waterEnv c.P c.S w) (fun k => ((c.P.inlet k).val : ℤ)) c.P.NpWater
      c.S.ncols c.rng = x at h1 ⊢
    generalize hx' : runWaterIteration g (waterEnv c.P c.S w) (fun k => ((c.P.inlet k).val : ℤ)) c.P.NpWater
      n c.rng = x' at h1 ⊢
    cases x with
    | error e =>
      cases x' with
      | error e' => cases h1; exact together_error _ _
      | ok v' => exact h1.elim
    | ok v =>
      cases x' with
      | error e' => exact h1.elim
      | ok v' =>
        have hn1 := runWater_ncols hx
        have hn2 := runWater_ncols hx'
        have hr := h.record.1
        obtain ⟨wst, log, k, s1⟩ := v
        obtain ⟨wst', log', k', s1'⟩ := v'
        obtain ⟨⟨j, h2, h3, h4, h5⟩, h6⟩ := h1
        simp only [Prod.mk.injEq] at h6 hn1 hn2 h2 h5
        obtain ⟨rfl, rfl, rfl⟩ := h6
        refine together_ok ⟨rfl, rfl, rfl, rfl, ⟨rfl, rfl, rfl, rfl, rfl, rfl, rfl, rfl, rfl, rfl, rfl, rfl, rfl, rfl⟩,
          ⟨?_, ?_⟩, h.steps, h.bed, fun _ => ⟨h2.symm, sameWalk_of h5⟩, h.sediment⟩
        · simp only; omega
        · simp only; omega

lemma heeds_surface (z : Bool) : Heeds (L := L) (W := W) (m := m) (K := K) (α := α) (σ := σ) ⟨true, true, z⟩ ⟨true, true, z⟩
    freeSurfaceAct := by
  refine heeds_of fun c q a b n e fl ps h => ?_
  unfold freeSurfaceAct
  have e1 : computeFreeSurface (twin c q a b n e fl ps).P (twin c q a b n e fl ps).S (twin c q a b n e fl ps).parcels =
      computeFreeSurface c.P c.S c.parcels := by
    unfold computeFreeSurface accumulateFreeSurface
    rw [sfc_same _ (h.water rfl).2]
    rfl
  rw [e1]
  cases computeFreeSurface c.P c.S c.parcels with
  | error e => exact together_error _ _
  | ok stage =>
    exact together_ok ⟨rfl, rfl, rfl, rfl, { h.fields with stage := rfl }, h.record, h.steps, h.bed, h.water, h.sediment⟩

lemma heeds_finalizeWater (i : ℕ) (z : Bool) : Heeds (L := L) (W := W) (m := m) (K := K) (α := α) (σ := σ) ⟨true, true, z⟩
    ⟨true, true, z⟩ (finalizeWaterAct i) := by
  refine heeds_of fun c q a b n e fl ps h => ?_
  have hf : fl = c.flux := (h.water rfl).1
  subst hf
  exact together_ok ⟨rfl, rfl, rfl, rfl, sameFields_over q a b n _, h.record, h.steps, h.bed, h.water, h.sediment⟩

lemma heeds_initSediment : Heeds (L := L) (W := W) (m := m) (K := K) (α := α) (σ := σ) ⟨true, false, false⟩ ⟨true, false, true⟩
    initSedimentAct := by
  refine heeds_of fun c q a b n e fl ps h => together_ok ?_
  exact ⟨rfl, rfl, rfl, rfl, ⟨rfl, rfl, rfl, rfl, rfl, rfl, rfl, rfl, rfl, rfl, rfl, rfl, rfl, rfl⟩, h.record,
    h.steps, h.bed, h.water, fun _ => ⟨rfl, rfl, rfl⟩⟩

lemma heeds_parcels (g : Rng K σ) (k : Sed) : Heeds (L := L) (W := W) (m := m) (α := α) ⟨true, false, true⟩
    ⟨true, false, true⟩ (routeParcelsAct g k) := by
  refine heeds_of fun c q a b n e fl ps h => ?_
  obtain ⟨h1, h2, h3⟩ := h.sediment rfl
  change q = _ at h1
  change a = _ at h2
  change b = _ at h3
  subst h1 h2 h3
  unfold routeParcelsAct
  rw [show (twin c c.S.qs c.S.depSand c.S.depMud n e fl ps).S = withN n c.S from rfl,
    show sedParams (twin c c.S.qs c.S.depSand c.S.depMud n e fl ps).P (twin c c.S.qs c.S.depSand c.S.depMud n e fl ps).R =
      sedParams c.P c.R from rfl, show (twin c c.S.qs c.S.depSand c.S.depMud n e fl ps).rng = c.rng from rfl,
    routeParcels_withN]
  generalize hx : routeParcels g k (sedParams c.P c.R) c.S c.rng = x
  cases x with
  | error e => exact together_error _ _
  | ok v =>
    obtain ⟨S1, l, s1⟩ := v
    have hn : S1.ncols = c.S.ncols := by
      have h5 := routeParcels_withN c.S.ncols g k (sedParams c.P c.R) c.S c.rng
      rw [show withN c.S.ncols c.S = c.S from rfl, hx] at h5
      simp only [Except.map, Except.ok.injEq, Prod.mk.injEq] at h5
      have h6 := congrArg State.ncols h5.1
      exact h6
    refine together_ok ⟨rfl, rfl, rfl, rfl, sameFields_over _ _ _ n S1, ⟨?_, h.record.2⟩, h.steps, h.bed, h.water,
      fun _ => ⟨rfl, rfl, rfl⟩⟩
    simp only
    rw [hn]
    exact h.record.1

lemma heeds_diffusion : Heeds (L := L) (W := W) (m := m) (K := K) (α := α) (σ := σ) ⟨true, false, true⟩ ⟨true, false, true⟩
    diffusionAct := by
  refine heeds_of fun c q a b n e fl ps h => ?_
  obtain ⟨h1, h2, h3⟩ := h.sediment rfl
  change q = _ at h1
  subst h1
  exact together_ok ⟨rfl, rfl, rfl, rfl, sameFields_over _ a b n _, h.record, h.steps, h.bed, h.water, h.sediment⟩

lemma heeds_subsidence : Heeds (L := L) (W := W) (m := m) (K := K) (α := α) (σ := σ) ⟨true, false, true⟩ ⟨true, false, true⟩
    subsidenceAct := by
  refine heeds_of fun c q a b n e fl ps h => ?_
  have e1 : applySubsidence c.P (over q a b n c.S) = over q a b n (applySubsidence c.P c.S) := by
    unfold applySubsidence
    split_ifs
    · rfl
    · exact absurd (show c.P.startSub ≤ c.S.time by assumption) (by assumption)
    · exact absurd (show c.P.startSub ≤ c.S.time by assumption) (by assumption)
    · rfl
    · rfl
  have e2 : (applySubsidence c.P c.S).ncols = c.S.ncols ∧ (applySubsidence c.P c.S).qs = c.S.qs ∧
      (applySubsidence c.P c.S).depSand = c.S.depSand ∧ (applySubsidence c.P c.S).depMud = c.S.depMud := by
    unfold applySubsidence
    split_ifs <;> exact ⟨rfl, rfl, rfl, rfl⟩
  have e3 : (subsidenceAct (twin c q a b n e fl ps)) = .ok { twin c q a b n e fl ps with
      S := over q a b n (applySubsidence c.P c.S) } := by
    unfold subsidenceAct
    rw [show (twin c q a b n e fl ps).P = c.P from rfl, show (twin c q a b n e fl ps).S = over q a b n c.S from rfl, e1]
    rfl
  rw [e3]
  refine together_ok ⟨rfl, rfl, rfl, rfl, sameFields_over _ _ _ _ _, ⟨?_, h.record.2⟩, h.steps, h.bed, h.water, fun _ => ?_⟩
  · simp only
    rw [e2.1]
    exact h.record.1
  · simp only
    rw [e2.2.1, e2.2.2.1, e2.2.2.2]
    exact h.sediment rfl

lemma heeds_settle : Heeds (L := L) (W := W) (m := m) (K := K) (α := α) (σ := σ) ⟨true, false, true⟩ ⟨true, false, true⟩
    settleAct := by
  refine heeds_of fun c q a b n e fl ps h => together_ok ?_
  exact ⟨rfl, rfl, rfl, rfl, sameFields_over q a b n _, h.record, h.steps, h.bed, h.water, h.sediment⟩

lemma heeds_sandFrac : Heeds (L := L) (W := W) (m := m) (K := K) (α := α) (σ := σ) ⟨true, false, true⟩ ⟨true, false, true⟩
    sandFracAct := by
  refine heeds_of fun c q a b n e fl ps h => ?_
  obtain ⟨h1, h2, h3⟩ := h.sediment rfl
  have h4 := h.bed rfl
  change q = _ at h1
  change a = _ at h2
  change b = _ at h3
  change e = _ at h4
  subst h1 h2 h3 h4
  exact together_ok ⟨rfl, rfl, rfl, rfl, sameFields_over _ _ _ n _, h.record, h.steps, h.bed, h.water, h.sediment⟩

lemma heeds_seaLevel : Heeds (L := L) (W := W) (m := m) (K := K) (α := α) (σ := σ) ⟨true, false, true⟩ ⟨true, false, true⟩
    seaLevelAct := by
  refine heeds_of fun c q a b n e fl ps h => together_ok ?_
  exact ⟨rfl, rfl, rfl, rfl, sameFields_over q a b n _, h.record, h.steps, h.bed, h.water, h.sediment⟩

lemma heeds_clock : Heeds (L := L) (W := W) (m := m) (K := K) (α := α) (σ := σ) ⟨true, false, true⟩ ⟨true, false, true⟩
    clockAct := by
  refine heeds_of fun c q a b n e fl ps h => together_ok ?_
  exact ⟨rfl, rfl, rfl, rfl, sameFields_over q a b n _, h.record, h.steps, h.bed, h.water, h.sediment⟩

lemma heeds_bed : Heeds (L := L) (W := W) (m := m) (K := K) (α := α) (σ := σ) ⟨false, false, false⟩ ⟨true, false, false⟩
    keepBedAct := by
  refine heeds_of fun c q a b n e fl ps h => together_ok ?_
  exact ⟨rfl, rfl, rfl, rfl, h.fields, h.record, h.steps, fun _ => rfl, h.water, h.sediment⟩

/-! ## Updates -/

lemma heeds_invoke {U : UserClass L W m K α σ} (hU : Resumes U) (s : Step) {f : Doing L W m K α σ}
    (hf : Heeds (knownBefore s) (knownPast s) f) : Heeds (knownBefore s) (knownPast s) (invoke U s f) := by
  refine heeds_then (hU.hook s) ?_
  cases h : U.own s with
  | none => exact hf
  | some f' => exact hU.own s f' h

lemma weaker_refl (A : Known) : Weaker A A := ⟨id, id, id⟩

lemma heeds_pass {U : UserClass L W m K α σ} (hU : Resumes U) (g : Rng K σ) (i : ℕ) :
    Heeds ⟨true, false, false⟩ ⟨true, true, false⟩ (waterPass U g i) :=
  heeds_then (heeds_invoke hU .initWaterIteration (heeds_init false)) <|
    heeds_then (heeds_invoke hU .runWaterIteration (heeds_run g false)) <|
    heeds_then (heeds_invoke hU .computeFreeSurface (heeds_surface false)) <|
    heeds_invoke hU (.finalizeWaterIteration i) (heeds_finalizeWater i false)

lemma heeds_passes {U : UserClass L W m K α σ} (hU : Resumes U) (g : Rng K σ) : ∀ n i : ℕ,
    Heeds ⟨true, false, false⟩ ⟨true, false, false⟩ (waterPasses U g i n)
  | 0, _ => heeds_ok _
  | n + 1, i => heeds_then (heeds_pass hU g i) (heeds_weaken (A := ⟨true, true, false⟩) (A' := ⟨true, false, false⟩) ⟨id, by simp, id⟩ (weaker_refl _)
      (heeds_passes hU g n (i + 1)))

lemma heeds_water {U : UserClass L W m K α σ} (hU : Resumes U) (g : Rng K σ) :
    Heeds ⟨true, false, false⟩ ⟨true, false, false⟩ (routeWaterAct U g) := by
  intro c d h
  unfold routeWaterAct
  rw [h.P]
  exact heeds_passes hU g _ _ c d h

lemma heeds_sediment {U : UserClass L W m K α σ} (hU : Resumes U) (g : Rng K σ) :
    Heeds ⟨true, false, false⟩ ⟨true, false, true⟩ (routeSedimentAct U g) :=
  heeds_then (heeds_invoke hU .initSedimentIteration heeds_initSediment) <|
    heeds_then (heeds_invoke hU .routeAllSandParcels (heeds_parcels g .sand)) <|
    heeds_then (heeds_invoke hU .topoDiffusion heeds_diffusion) <|
    heeds_invoke hU .routeAllMudParcels (heeds_parcels g .mud)

lemma heeds_solve {U : UserClass L W m K α σ} (hU : Resumes U) (g : Rng K σ) :
    Heeds ⟨false, false, false⟩ ⟨true, false, true⟩ (solveAct U g) :=
  heeds_then heeds_bed <| heeds_then (heeds_invoke hU .routeWater (heeds_water hU g)) <|
    heeds_then (hU.after .routeWater) <| heeds_then (heeds_invoke hU .routeSediment (heeds_sediment hU g)) <|
    hU.after .routeSediment

lemma heeds_finalize {U : UserClass L W m K α σ} (hU : Resumes U) :
    Heeds ⟨true, false, true⟩ ⟨true, false, true⟩ (finalizeAct U) :=
  heeds_then heeds_settle <| heeds_then (heeds_invoke hU .computeSandFrac heeds_sandFrac) heeds_seaLevel

/-- What comes after the solve hook. -/
lemma heeds_rest {U : UserClass L W m K α σ} (hU : Resumes U) (g : Rng K σ) :
    Heeds ⟨false, false, false⟩ ⟨true, false, true⟩ (customStep (withoutSolveHook U) g) := by
  have hV : Resumes (withoutSolveHook U) := by
    refine ⟨fun s => ?_, hU.after, hU.own⟩
    cases s
    case solveWaterAndSediment => exact heeds_ok _
    all_goals exact hU.hook _
  exact heeds_then (heeds_invoke hV .solveWaterAndSediment (heeds_solve hV g)) <|
    heeds_then (heeds_invoke hV .applySubsidence heeds_subsidence) <|
    heeds_then (heeds_invoke hV .finalizeTimestep (heeds_finalize hV)) <|
    heeds_then (hV.after .finalizeTimestep) heeds_clock

lemma heeds_step {U : UserClass L W m K α σ} (hU : Resumes U) (g : Rng K σ) :
    Heeds ⟨false, false, false⟩ ⟨true, false, true⟩ (customStep U g) := by
  rw [C112_between]
  exact heeds_then (hU.hook .solveWaterAndSediment) (heeds_rest hU g)

lemma heeds_steps {U : UserClass L W m K α σ} (hU : Resumes U) (g : Rng K σ) : ∀ n : ℕ,
    Heeds ⟨true, false, true⟩ ⟨true, false, true⟩ (customRun U g n)
  | 0 => heeds_ok _
  | n + 1 => heeds_then (heeds_weaken (A' := ⟨false, false, false⟩) ⟨by simp, by simp, by simp⟩ (weaker_refl _) (heeds_step hU g))
      (heeds_steps hU g n)

/-- C124: two models of a class whose hooks and own methods use nothing that is not saved go on alike from the same point,
for any number of updates: they raise the same error, or have the same parameters, attributes, random numbers and fields. -/
theorem C124_runs {U : UserClass L W m K α σ} (hU : Resumes U) (g : Rng K σ) (n : ℕ) {c d : Custom L W m K α σ}
    (h : Alike atBreak c d) : Together (Alike afterUpdate) (customRun U g (n + 1) c) (customRun U g (n + 1) d) :=
  heeds_then (heeds_step hU g) (heeds_steps hU g n) c d h

lemma load_alike {c0 c : Custom L W m K α σ} (hP : c0.P = c.P) (hR : c0.R = c.R) (he : c0.extra = c.extra)
    (hs : 4 ≤ c.P.stepmax) (hn : 0 < c.S.ncols) (hn0 : 0 < c0.S.ncols) : Alike atBreak c (loadCustom c0 c) :=
  ⟨hP, hR, he, rfl, ⟨rfl, rfl, rfl, rfl, rfl, rfl, rfl, rfl, rfl, rfl, rfl, rfl, rfl, rfl⟩, ⟨hn, hn0⟩, hs,
    (fun h => by cases h), (fun h => by cases h), (fun h => by cases h)⟩

/-- C124: a model of such a class that is made again from a configuration that gives the same parameters, routers and attributes as
the model that was saved, and is resumed, goes on as if there had been no break. -/
theorem C124_resume {U : UserClass L W m K α σ} (hU : Resumes U) (g : Rng K σ) (n : ℕ) {c0 c : Custom L W m K α σ}
    (hP : c0.P = c.P) (hR : c0.R = c.R) (he : c0.extra = c.extra) (hs : 4 ≤ c.P.stepmax) (hn : 0 < c.S.ncols)
    (hn0 : 0 < c0.S.ncols) :
    Together (Alike afterUpdate) (customRun U g (n + 1) c) (customRun U g (n + 1) (loadCustom c0 c)) :=
  C124_runs hU g n (load_alike hP hR he hs hn hn0)

/-- C124: parameters and attributes that have changed since the model was made do no harm if the class sets them again, in the hook
of `solve_water_and_sediment_timestep`, from what is saved. -/
theorem C124_again {U : UserClass L W m K α σ} (hU : Resumes U) (g : Rng K σ) (n : ℕ) {c d : Custom L W m K α σ}
    (h : Together (Alike atBreak) (U.hook .solveWaterAndSediment c) (U.hook .solveWaterAndSediment d)) :
    Together (Alike afterUpdate) (customRun U g (n + 1) c) (customRun U g (n + 1) d) := by
  have h1 : Together (Alike afterUpdate) (customStep U g c) (customStep U g d) := by
    rw [C112_between]
    unfold Doing.andThen
    rcases h with ⟨e, h1, h2⟩ | ⟨a, b, h1, h2, h3⟩
    · rw [h1, h2]
      exact together_error _ _
    · rw [h1, h2]
      exact heeds_rest hU g a b h3
  change Together _ (Doing.andThen _ _ c) (Doing.andThen _ _ d)
  unfold Doing.andThen
  rcases h1 with ⟨e, h1, h2⟩ | ⟨a, b, h1, h2, h3⟩
  · rw [h1, h2]
    exact together_error _ _
  · rw [h1, h2]
    exact heeds_steps hU g n a b h3

/-! ## Classes of the documentation -/

lemma run_add (U : UserClass L W m K α σ) (g : Rng K σ) (k : ℕ) : ∀ n : ℕ,
    customRun U g (n + k) = Doing.andThen (customRun U g n) (customRun U g k)
  | 0 => by rw [Nat.zero_add]; exact (ok_then _).symm
  | n + 1 => by
    rw [Nat.succ_add]
    change Doing.andThen _ (customRun U g (n + k)) = Doing.andThen (Doing.andThen _ _) _
    rw [run_add U g k n, andThen_assoc]

lemma alike_self {A : Known} {c : Custom L W m K α σ} (hs : 4 ≤ c.P.stepmax) (hn : 0 < c.S.ncols) : Alike A c c :=
  ⟨rfl, rfl, rfl, rfl, sameFields_over c.S.qs c.S.depSand c.S.depMud c.S.ncols c.S, ⟨hn, hn⟩, hs, fun _ => rfl,
    fun _ => ⟨rfl, List.forall₂_same.2 fun p _ => ⟨rfl, rfl, p.walk, 0, 0, by simp, by simp⟩⟩, fun _ => ⟨rfl, rfl, rfl⟩⟩

/-- A model that can be run can be run after any number of updates. -/
lemma run_usable {U : UserClass L W m K α σ} (hU : Resumes U) {g : Rng K σ} {n : ℕ} {c c' : Custom L W m K α σ}
    (hs : 4 ≤ c.P.stepmax) (hn : 0 < c.S.ncols) (h : customRun U g n c = .ok c') : 4 ≤ c'.P.stepmax ∧ 0 < c'.S.ncols := by
  rcases heeds_steps hU g n c c (alike_self hs hn) with ⟨e, h1, -⟩ | ⟨a, b, h1, -, h3⟩
  · rw [h] at h1; cases h1
  · rw [h] at h1; cases h1
    exact ⟨h3.steps, h3.record.1⟩

lemma plain_resumes : Resumes (plainClass : UserClass L W m K α σ) :=
  ⟨fun _ => heeds_ok _, fun _ => heeds_ok _, fun _ _ h => by cases h⟩

/-- The parameters with the bed load fraction mirrored. -/
def mirrored (P : Params L W m K) : Params L W m K := { P with fBedload := 1 - P.fBedload, fCap := 1 - P.fBedload }

lemma bedload_form (t1 t2 : K) (c : Custom L W m K Switches σ) :
    bedloadHook t1 t2 c = .ok { c with
      P := (if !c.extra.changedBack && decide (t2 < c.S.time) then mirrored else id)
        ((if !c.extra.changed && decide (t1 < c.S.time) then mirrored else id) c.P)
      extra := ⟨c.extra.changed || decide (t1 < c.S.time), c.extra.changedBack || decide (t2 < c.S.time)⟩ } := by
  obtain ⟨P, R, S, e0, f0, p0, ⟨x, y⟩, r⟩ := c
  unfold bedloadHook mirrorBedload mirrored
  cases x <;> cases y <;> by_cases k1 : t1 < S.time <;> by_cases k2 : t2 < S.time <;> simp [k1, k2]

lemma bedload_resumes (t1 t2 : K) : Resumes (bedloadClass t1 t2 : UserClass L W m K Switches σ) := by
  refine ⟨fun s => ?_, fun _ => heeds_ok _, fun _ _ h => by cases h⟩
  cases s
  case solveWaterAndSediment =>
    refine heeds_of fun c q a b n e fl ps h => ?_
    change Together _ (bedloadHook t1 t2 c) (bedloadHook t1 t2 _)
    rw [bedload_form, bedload_form]
    refine together_ok ⟨rfl, rfl, rfl, rfl, h.fields, h.record, ?_, h.bed, h.water, h.sediment⟩
    have k := h.steps
    dsimp only
    split_ifs <;> exact k
  all_goals exact heeds_ok _

lemma trees_resume (g : Rng K σ) : Resumes (treeClass g : UserClass L W m K (Trees L W K) σ) := by
  refine ⟨fun _ => heeds_ok _, fun s => ?_, fun s f hf => ?_⟩
  · cases s
    case routeSediment =>
      refine heeds_of fun c q a b n e fl ps h => ?_
      change Together _ (treeHook g c) (treeHook g _)
      unfold treeHook
      dsimp only
      rw [show countDry (twin c q a b n e fl ps).P.dryDepth (twin c q a b n e fl ps).S.depth (twin c q a b n e fl ps).extra =
        countDry c.P.dryDepth c.S.depth c.extra from rfl]
      split_ifs
      · exact together_ok ⟨rfl, rfl, rfl, rfl, h.fields, h.record, h.steps, h.bed, h.water, h.sediment⟩
      · exact together_ok ⟨rfl, rfl, rfl, rfl, h.fields, h.record, h.steps, h.bed, h.water, h.sediment⟩
    all_goals exact heeds_ok _
  · cases s
    case topoDiffusion =>
      cases hf
      refine heeds_of fun c q a b n e fl ps h => ?_
      obtain ⟨h1, h2, h3⟩ := h.sediment rfl
      change q = _ at h1
      subst h1
      exact together_ok ⟨rfl, rfl, rfl, rfl, sameFields_over _ a b n _, h.record, h.steps, h.bed, h.water, h.sediment⟩
    all_goals cases hf

/-- What the updates of a `VariableBedloadModel` have made of a model `c0`. -/
structure Switched (t1 t2 : K) (c0 c : Custom L W m K Switches σ) : Prop where
  R : c.R = c0.R
  on : c.extra.changed = true → t1 < c.S.time
  off : c.extra.changedBack = true → t2 < c.S.time
  P : c.P = if c.extra.changed = c.extra.changedBack then c0.P
    else { c0.P with fBedload := 1 - c0.P.fBedload, fCap := 1 - c0.P.fBedload }

/-- The hook leaves what only depends on the time. -/
lemma bedload_set {t1 t2 : K} {c0 c : Custom L W m K Switches σ} (hf : c0.P.fCap = c0.P.fBedload) (h : Switched t1 t2 c0 c) :
    bedloadHook t1 t2 c = .ok { c with
      extra := ⟨decide (t1 < c.S.time), decide (t2 < c.S.time)⟩
      P := if decide (t1 < c.S.time) = decide (t2 < c.S.time) then c0.P
        else { c0.P with fBedload := 1 - c0.P.fBedload, fCap := 1 - c0.P.fBedload } } := by
  obtain ⟨h1, h2, h3, h4⟩ := h
  rw [bedload_form]
  have e2 : mirrored (mirrored c0.P) = c0.P := by
    unfold mirrored
    have e1 : (1 : K) - (1 - c0.P.fBedload) = c0.P.fBedload := by ring
    dsimp only
    rw [e1]
    conv_rhs => rw [show c0.P = { c0.P with fBedload := c0.P.fBedload, fCap := c0.P.fCap } from rfl, hf]
  rw [show ({ c0.P with fBedload := 1 - c0.P.fBedload, fCap := 1 - c0.P.fBedload } : Params L W m K) = mirrored c0.P from rfl]
    at h4 ⊢
  obtain ⟨P, R, S, e0, f0, p0, ⟨x, y⟩, r⟩ := c
  dsimp only at h1 h2 h3 h4 ⊢
  have h2' : x = true → decide (t1 < S.time) = true := fun h => decide_eq_true (h2 h)
  have h3' : y = true → decide (t2 < S.time) = true := fun h => decide_eq_true (h3 h)
  clear h2 h3
  generalize decide (t1 < S.time) = u at h2' ⊢
  generalize decide (t2 < S.time) = v at h3' ⊢
  rw [h4]
  cases x <;> cases y <;> cases u <;> cases v <;> simp_all

lemma bedload_switched {t1 t2 : K} {g : Rng K σ} {c0 : Custom L W m K Switches σ} (hdt : 0 ≤ c0.P.dt)
    (he : c0.extra = ⟨false, false⟩) (hf : c0.P.fCap = c0.P.fBedload) : ∀ {n : ℕ} {c : Custom L W m K Switches σ},
    customRun (bedloadClass t1 t2) g n c0 = .ok c → Switched t1 t2 c0 c
  | 0, c, h => by
    cases h
    exact ⟨rfl, by rw [he]; simp, by rw [he]; simp, by rw [he]; simp⟩
  | n + 1, c, h => by
    rw [run_last] at h
    obtain ⟨d, h1, h2⟩ := andThen_ok h
    have i := bedload_switched hdt he hf h1
    rw [C112_between] at h2
    obtain ⟨e, a1, a2⟩ := andThen_ok h2
    obtain ⟨b1, b2, b3, b4⟩ := bedload_rest a2
    have a3 : bedloadHook t1 t2 d = .ok e := a1
    rw [bedload_set hf i] at a3
    cases a3
    have hdt' : 0 ≤ (if decide (t1 < d.S.time) = decide (t2 < d.S.time) then c0.P
        else { c0.P with fBedload := 1 - c0.P.fBedload, fCap := 1 - c0.P.fBedload }).dt := by
      split_ifs
      · exact hdt
      · exact hdt
    dsimp only at b1 b2 b3 b4
    refine ⟨b4.trans i.R, fun h => ?_, fun h => ?_, ?_⟩
    · rw [b2] at h
      rw [b3]
      exact (of_decide_eq_true h).trans_le (le_add_of_nonneg_right hdt')
    · rw [b2] at h
      rw [b3]
      exact (of_decide_eq_true h).trans_le (le_add_of_nonneg_right hdt')
    · rw [b1, b2]

/-- C124: a `VariableBedloadModel` resumes exactly, whenever the break comes: what the class has noted about its changes is lost and the
configured fraction is back, but the hook makes the changes again that belong to the time. -/
theorem C124_bedload (t1 t2 : K) (g : Rng K σ) (n k : ℕ) {c0 : Custom L W m K Switches σ} (hdt : 0 ≤ c0.P.dt)
    (he : c0.extra = ⟨false, false⟩) (hf : c0.P.fCap = c0.P.fBedload) (hs : 4 ≤ c0.P.stepmax) (hn : 0 < c0.S.ncols) :
    Together (Alike afterUpdate) (customRun (bedloadClass t1 t2) g (n + (k + 1)) c0)
      (broken (bedloadClass t1 t2) g n (k + 1) c0) := by
  rw [run_add]
  unfold broken Doing.andThen
  cases h : customRun (bedloadClass t1 t2) g n c0 with
  | error e => exact together_error _ _
  | ok c =>
    simp only
    have i := bedload_switched hdt he hf h
    have u := run_usable (bedload_resumes t1 t2) hs hn h
    have j : Switched t1 t2 c0 (loadCustom c0 c) := by
      refine ⟨rfl, ?_, ?_, ?_⟩
      · change c0.extra.changed = true → _
        rw [he]; simp
      · change c0.extra.changedBack = true → _
        rw [he]; simp
      · change c0.P = if c0.extra.changed = c0.extra.changedBack then _ else _
        rw [he]; simp
    refine C124_again (bedload_resumes t1 t2) g k ?_
    change Together _ (bedloadHook t1 t2 c) (bedloadHook t1 t2 _)
    rw [bedload_set hf i, bedload_set hf j]
    refine together_ok ⟨rfl, i.R.symm, rfl, rfl, ⟨rfl, rfl, rfl, rfl, rfl, rfl, rfl, rfl, rfl, rfl, rfl, rfl, rfl, rfl⟩,
      ⟨u.2, hn⟩, ?_, (fun h => by cases h), (fun h => by cases h), (fun h => by cases h)⟩
    change 4 ≤ (if _ then _ else _ : Params L W m K).stepmax
    split_ifs
    · exact hs
    · exact hs

/-- C124: what a checkpoint does not keep is that of a new model, whatever it was when the checkpoint was written: the parameters, those
of the routers, the added attributes, and the sand flux and the deposits of the last timestep. -/
theorem C124_not_kept (c0 c : Custom L W m K α σ) :
    (loadCustom c0 c).P = c0.P ∧ (loadCustom c0 c).R = c0.R ∧ (loadCustom c0 c).extra = c0.extra ∧
      (loadCustom c0 c).S.qs = c0.S.qs ∧ (loadCustom c0 c).S.depSand = c0.S.depSand ∧ (loadCustom c0 c).S.depMud = c0.S.depMud :=
  ⟨rfl, rfl, rfl, rfl, rfl, rfl⟩

/-- C124: a class without hooks resumes exactly; so does every class whose hooks change only attributes from which nothing
follows, once these are as they were. -/
theorem C124_plain (g : Rng K σ) (n k : ℕ) {c0 : Custom L W m K α σ} (hs : 4 ≤ c0.P.stepmax) (hn : 0 < c0.S.ncols) :
    Together (Alike afterUpdate) (customRun plainClass g (n + (k + 1)) c0) (broken plainClass g n (k + 1) c0) := by
  rw [run_add]
  unfold broken Doing.andThen
  cases h : customRun plainClass g n c0 with
  | error e => exact together_error _ _
  | ok c =>
    have u := run_usable plain_resumes hs hn h
    have hk : c.P = c0.P ∧ c.R = c0.R ∧ c.extra = c0.extra := by
      have key : All (Keeps fun d : Custom L W m K α σ => d.P = c0.P ∧ d.R = c0.R ∧ d.extra = c0.extra) plainClass :=
        ⟨fun s c c' hc h => by cases h; exact hc, fun s c c' hc h => by cases h; exact hc, fun s f h => by cases h⟩
      refine run_rule (keeps_rule _) key ?_ (fun c c' hc h => by cases h; exact hc) n c0 c ⟨rfl, rfl, rfl⟩ h
      exact ⟨fun c c' hc h => by cases h; exact hc, fun c c' hc h => by
          unfold runWaterAct at h
          split at h
          · cases h
          · split at h
            · cases h
            · cases h; exact hc, fun c c' hc h => by
          unfold freeSurfaceAct at h
          split at h
          · cases h
          · cases h; exact hc, fun i c c' hc h => by cases h; exact hc, fun c c' hc h => by cases h; exact hc,
        fun k c c' hc h => by
          unfold routeParcelsAct at h
          split at h
          · cases h
          · cases h; exact hc, fun c c' hc h => by cases h; exact hc, fun c c' hc h => by cases h; exact hc,
        fun c c' hc h => by cases h; exact hc, fun c c' hc h => by cases h; exact hc, fun c c' hc h => by cases h; exact hc,
        fun c c' hc h => by cases h; exact hc⟩
    exact C124_resume plain_resumes g k hk.1.symm hk.2.1.symm hk.2.2.symm u.1 u.2 hn

/-- C124: a `TreeThrowModel` does not resume: in the first `p_tt_iter - 1` updates after a break there is no tree, and no cell
diffuses more than others, whatever there was before. -/
theorem C124_trees_lost {g : Rng K σ} {j : ℕ} {c0 c c' : Custom L W m K (Trees L W K) σ} {mult iter prob : K}
    (he : c0.extra = newTrees true mult iter prob) (hj : (j : K) < iter)
    (h : customRun (treeClass g) g j (loadCustom c0 c) = .ok c') (x : Cell L W) :
    c'.extra.tree x = 0 ∧ c'.extra.factor x = 1 := by
  have he' : (loadCustom c0 c).extra = newTrees true mult iter prob := he
  cases j with
  | zero =>
    cases h
    rw [he']
    exact ⟨rfl, rfl⟩
  | succ j =>
    have htree : c'.extra.tree x = 0 := by
      obtain ⟨ds, h1, h2⟩ := C116_trees he' h
      refine (h2 x).2 ?_
      rintro ⟨k, h3, h4, -⟩
      rw [h1.1] at h4
      have : (k : K) ≤ ((j + 1 : ℕ) : K) := by exact_mod_cast h4
      exact absurd hj (not_lt.2 (h3.trans this))
    refine ⟨htree, ?_⟩
    rw [run_last] at h
    obtain ⟨d, h1, h2⟩ := andThen_ok h
    have ht : d.extra.throw = true := by
      cases j with
      | zero => cases h1; rw [he']; rfl
      | succ j =>
        have : ∀ (n : ℕ) (a b : Custom L W m K (Trees L W K) σ), a.extra.throw = true →
            customRun (treeClass g) g n a = .ok b → b.extra.throw = true := by
          intro n
          induction n with
          | zero => intro a b ha hb; cases hb; exact ha
          | succ n ih =>
            intro a b ha hb
            obtain ⟨e, e1, e2⟩ := andThen_ok hb
            refine ih e b ?_ e2
            obtain ⟨u, v, -, u2, u3, u4, -⟩ := tree_step e1
            rw [u3]
            unfold treeHook at u2
            dsimp only at u2
            split_ifs at u2
            · cases u2
              change u.extra.throw = true
              rw [u4]; exact ha
            · cases u2
              change u.extra.throw = true
              rw [u4]; exact ha
        exact this _ _ _ (by rw [he']; rfl) h1
    obtain ⟨e, -, -, h3⟩ := C116_thrown ht h2
    exact (h3 x).2 fun h4 => h4.1 htree

/-- C124: so a cell with a tree that stays dry has a tree in the next update of the run without a break, but none after a
break. -/
theorem C124_trees_differ {g : Rng K σ} {c0 c d c1 c2 : Custom L W m K (Trees L W K) σ} {mult iter prob : K} {x : Cell L W}
    (he : c0.extra = newTrees true mult iter prob) (hi : 1 < iter) (ht : c.extra.throw = true) (hx : c.extra.tree x = 1)
    (hd : solveAct (hookless g) g c = .ok d) (hdry : d.S.depth x < c.P.dryDepth)
    (h1 : customStep (treeClass g) g c = .ok c1) (h2 : customStep (treeClass g) g (loadCustom c0 c) = .ok c2) :
    c1.extra.tree x = 1 ∧ c2.extra.tree x = 0 := by
  constructor
  · obtain ⟨u, v, u1, u2, u3, u4, u5, -⟩ := tree_step h1
    rw [hd] at u1
    cases u1
    rw [u3]
    have hT : (countDry d.P.dryDepth d.S.depth d.extra).throw = true := by
      change d.extra.throw = true
      rw [u4]; exact ht
    unfold treeHook at u2
    dsimp only at u2
    rw [if_pos hT] at u2
    cases u2
    change (if _ then (1 : ℤ) else if d.S.depth x < d.P.dryDepth then d.extra.tree x else 0) = 1
    rw [u5, if_pos hdry, u4, hx, ite_self]
  · refine (C124_trees_lost (g := g) (c := c) (j := 1) he (by simpa using hi) ?_ x).1
    change Doing.andThen _ _ _ = _
    unfold Doing.andThen
    rw [h2]
    rfl

/-! ## A velocity that changes with time -/

lemma timestep2_alike (g : Rng K σ) {P R : Params L W m K} (hs : 4 ≤ P.stepmax) {S S' S1 : State L W K} {l : StepLog L W K}
    {s s1 : σ} (h : SameFields S S') (hn : 0 < S.ncols) (hn' : 0 < S'.ncols) (ht : timestep2 g P R S s = .ok (S1, l, s1)) :
    ∃ S1' l', timestep2 g P R S' s = .ok (S1', l', s1) ∧ SameFields S1 S1' ∧ 0 < S1'.ncols := by
  have looks : OnlyLooks (plainClass : UserClass L W m K Unit σ) :=
    ⟨fun s c => ⟨c.extra, rfl⟩, fun s c => ⟨c.extra, rfl⟩, fun s => rfl⟩
  let c : Custom L W m K Unit σ := ⟨P, R, S, S.eta, ⟨fun _ => 0, fun _ => 0, fun _ => 0⟩, [], (), s⟩
  let d : Custom L W m K Unit σ := { c with S := S' }
  have ha : Alike atBreak c d := ⟨rfl, rfl, rfl, rfl, h, ⟨hn, hn'⟩, hs, (fun h => by cases h), (fun h => by cases h),
    (fun h => by cases h)⟩
  have hc := C112_quiet looks g c
  have hd := C112_quiet looks g d
  rw [show timestep2 g c.P c.R c.S c.rng = .ok (S1, l, s1) from ht] at hc
  rcases heeds_step plain_resumes g c d ha with ⟨e, h1, h2⟩ | ⟨a, b, h1, h2, h3⟩
  · rw [h1] at hc; cases hc
  · rw [h1] at hc
    rw [h2] at hd
    simp only [Except.map, Except.ok.injEq] at hc
    unfold shown at hc
    simp only [Prod.mk.injEq] at hc
    generalize ht' : timestep2 g d.P d.R d.S d.rng = r at hd
    cases r with
    | error e => simp [Except.map] at hd
    | ok v =>
      obtain ⟨S1', l', s1'⟩ := v
      simp only [Except.map, Except.ok.injEq] at hd
      unfold shown at hd
      simp only [Prod.mk.injEq] at hd
      have e1 : s1' = s1 := by rw [← hd.2.2.2, h3.rng, hc.2.2.2]
      refine ⟨S1', l', ?_, ?_, ?_⟩
      · rw [← e1]
      · have := h3.fields
        rw [hc.2.2.1, hd.2.2.1] at this
        exact this
      · have := h3.record.2
        rw [hd.2.2.1] at this
        exact this

/-- Two objects at the same point. -/
structure ObjAlike (X Y : Obj L W m K) : Prop where
  I : Y.I = X.I
  P : Y.P = X.P
  R : Y.R = X.R
  fields : SameFields X.S Y.S

lemma series_form {O : Oracle K} {g : Rng K σ} {P : Params L W m K} {I : Input K} {p : K × K} {ps : List (K × K)}
    {X : Obj L W m K} {v0 : K} (hX : HasVelocity P I X v0) (s : σ) {D : Derived K}
    (hD : boundaryConditions (withVelocity I (interp p ps X.S.time)) L W = .ok D) :
    seriesUpdate O g p ps X s = objUpdate g { X with
      I := withVelocity I (interp p ps X.S.time), P := afterBc P (withVelocity I (interp p ps X.S.time)) D } s := by
  obtain ⟨D1, hD1, eX⟩ := hX.bc
  unfold seriesUpdate
  simp only [deeds, deed, objAssign, badAssign, Bool.false_eq_true, if_false]
  rw [hX.input, show setInput (withVelocity I v0) (.u0 (interp p ps X.S.time)) = withVelocity I (interp p ps X.S.time) from rfl,
    hD]
  simp only
  rw [eX, show afterBc (paramsAfter O (afterBc P (withVelocity I v0) D1) (.u0 (interp p ps X.S.time)))
    (withVelocity I (interp p ps X.S.time)) D = afterBc P (withVelocity I (interp p ps X.S.time)) D from rfl,
    show stateAfter X.S (.u0 (interp p ps X.S.time)) = X.S from rfl]
  generalize objUpdate g { X with
    I := withVelocity I (interp p ps X.S.time), P := afterBc P (withVelocity I (interp p ps X.S.time)) D } s = r
  cases r with
  | error e => rfl
  | ok v => rfl

/-- Two models that follow a series, at the same point, make the same update. -/
lemma series_same {O : Oracle K} {g : Rng K σ} (hg : PositiveDraws g) {P : Params L W m K} {I : Input K} {lo : K}
    (hP : ForVelocities P I lo) {p : K × K} {ps : List (K × K)} (hps : ∀ q ∈ p :: ps, lo ≤ q.2) {X Y : Obj L W m K}
    {v0 w0 : K} (hX : HasVelocity P I X v0) (hY : HasVelocity P I Y w0) (h : SameFields X.S Y.S) (s : σ) :
    ∃ X' Y' s' v, seriesUpdate O g p ps X s = .ok (X', s') ∧ seriesUpdate O g p ps Y s = .ok (Y', s') ∧
      HasVelocity P I X' v ∧ HasVelocity P I Y' v ∧ ObjAlike X' Y' := by
  obtain ⟨X', s', v, e1, e2, e3, e4, -⟩ := series_step (O := O) hg hP hps hX s
  obtain ⟨Y', t', w, f1, f2, f3, f4, -⟩ := series_step (O := O) hg hP hps hY s
  rw [h.time, ← e1] at f1
  subst f1
  obtain ⟨D, hD, hDP⟩ := e4.bc
  have st : 4 ≤ (afterBc P (withVelocity I w) D).stepmax := by
    obtain ⟨D0, hD0, eP⟩ := hP.made
    obtain ⟨D', hD', -, -, f3, -⟩ := bc_velocity hD0 (hP.pos.trans_le e2).ne'
    rw [hD] at hD'
    cases hD'
    change 4 ≤ D.stepmax.toNat
    rw [f3]
    have := hP.water.steps
    rw [eP] at this
    exact this
  rw [e1] at hD
  have a1 := series_form (O := O) (g := g) hX s hD
  rw [← h.time] at hD
  have a2 := series_form (O := O) (g := g) hY s hD
  rw [e3] at a1
  rw [f3] at a2
  rw [h.time] at a2
  rw [← e1] at a1 a2
  unfold objUpdate at a1 a2
  split at a1
  · cases a1
  · split at a2
    · cases a2
    · dsimp only at a1 a2
      rw [hX.routers] at a1
      rw [hY.routers] at a2
      split at a1
      · cases a1
      · rename_i S1 l s1 ht
        obtain ⟨S1', l', k1, k2, k3⟩ := timestep2_alike g st h hX.ncols hY.ncols ht
        rw [k1] at a2
        dsimp only at a2
        split at a1
        · cases a1
        · split at a2
          · cases a2
          · cases a1
            cases a2
            exact ⟨_, _, _, w, e3, f3, e4, f4, ⟨rfl, rfl, rfl, k2⟩⟩

/-- C124: a `ChangingVelocityModel`, created from a usable configuration and with a series as in C117, resumes exactly: made again
after any number of updates, with the configured velocity, and resumed, it goes on as if there had been no break, with the same
parameters, fields and random numbers. -/
theorem C124_series {O : Oracle K} (hO : OracleOk O) {I : Input K} (hI : Runnable I) {g : Rng K σ} (hg : PositiveDraws g)
    {lo : K} (hlo : 0 < lo) (hslope : 981 / 100 * I.S0 * I.dx ≤ lo * lo) {p : K × K} {ps : List (K × K)}
    (hps : ∀ q ∈ p :: ps, lo ≤ q.2) :
    ∃ (L W m : ℕ) (_ : NeZero L) (_ : NeZero W) (P : Params L W m K) (S : State L W K),
      create O I = .ok ⟨L, W, m, P, S⟩ ∧ ∀ (n k : ℕ) (s : σ), ∃ X s1 X' Y' s',
        seriesRun O g p ps n (newObj I P S) s = .ok (X, s1) ∧
        seriesRun O g p ps (n + (k + 1)) (newObj I P S) s = .ok (X', s') ∧
        seriesRun O g p ps (k + 1) (loadObj (newObj I P S) X) s1 = .ok (Y', s') ∧ ObjAlike X' Y' := by
  obtain ⟨L, W, m, hL, hW, P, S, h, h1, h2, -⟩ := created_fit hO hI hlo hslope
  refine ⟨L, W, m, hL, hW, P, S, h, fun n k s => ?_⟩
  have run : ∀ n : ℕ, ∃ X s1 v, seriesRun O g p ps n (newObj I P S) s = .ok (X, s1) ∧
      HasVelocity P (newObj I P S).I X v := by
    intro n
    induction n with
    | zero => exact ⟨_, s, _, rfl, h2⟩
    | succ n ih =>
      obtain ⟨X, s1, v, r1, r2⟩ := ih
      obtain ⟨X', s', v', -, -, r3, r4, -⟩ := series_step (O := O) hg h1 hps r2 s1
      exact ⟨X', s', v', by rw [seriesRun, r1]; exact r3, r4⟩
  obtain ⟨X, s1, v, r1, r2⟩ := run n
  refine ⟨X, s1, ?_⟩
  have hY : HasVelocity P (newObj I P S).I (loadObj (newObj I P S) X) I.u0 :=
    { h2 with depth := r2.depth, ncols := h2.ncols }
  have hf : SameFields X.S (loadObj (newObj I P S) X).S :=
    ⟨rfl, rfl, rfl, rfl, rfl, rfl, rfl, rfl, rfl, rfl, rfl, rfl, rfl, rfl⟩
  have key : ∀ k : ℕ, ∃ X' Y' s' v, seriesRun O g p ps (n + (k + 1)) (newObj I P S) s = .ok (X', s') ∧
      seriesRun O g p ps (k + 1) (loadObj (newObj I P S) X) s1 = .ok (Y', s') ∧
      HasVelocity P (newObj I P S).I X' v ∧ HasVelocity P (newObj I P S).I Y' v ∧ ObjAlike X' Y' := by
    intro k
    induction k with
    | zero =>
      obtain ⟨X', Y', s', v, a1, a2, a3, a4, a5⟩ := series_same (O := O) hg h1 hps r2 hY hf s1
      refine ⟨X', Y', s', v, ?_, ?_, a3, a4, a5⟩
      · rw [show n + (0 + 1) = n + 1 from rfl, seriesRun, r1]; exact a1
      · rw [seriesRun, seriesRun]; exact a2
    | succ k ih =>
      obtain ⟨X1, Y1, s2, v, b1, b2, b3, b4, b5⟩ := ih
      obtain ⟨X', Y', s', v', a1, a2, a3, a4, a5⟩ := series_same (O := O) hg h1 hps b3 b4 b5.fields s2
      refine ⟨X', Y', s', v', ?_, ?_, a3, a4, a5⟩
      · rw [show n + (k + 1 + 1) = n + (k + 1) + 1 from rfl, seriesRun, b1]; exact a1
      · rw [seriesRun, b2]; exact a2
  obtain ⟨X', Y', s', v', a1, a2, -, -, a5⟩ := key k
  exact ⟨X', Y', s', r1, a1, a2, a5⟩

/-! ## Examples -/

/-- A model with little to do: no water iterations, no sediment, and all cells dry. -/
def exDry : Custom 4 3 1 ℚ (Trees 4 3 ℚ) Unit :=
  { exCustom _ (newTrees true 100 2 (1 / 5000)) with
    P := { exParams with itermax := 0, NpSed := 0, Ncross := 0, dryDepth := 10 }
    R := { exParams with itermax := 0, NpSed := 0, Ncross := 0, dryDepth := 10 } }

/-- C124: after two dry updates there is a tree, and still after a third; with a break in between there is none. -/
theorem C124_trees_witness : (customRun (treeClass constRng) constRng 3 exDry).map (fun c => c.extra.tree (2, 1)) = .ok 1 ∧
    (broken (treeClass constRng) constRng 2 1 exDry).map (fun c => c.extra.tree (2, 1)) = .ok 0 := by
  constructor <;> decide +kernel

-- the hypotheses of C124_bedload
example (n k : ℕ) : Together (Alike afterUpdate) (customRun (bedloadClass 2 5) constRng (n + (k + 1)) (exCustom _ ⟨false, false⟩))
    (broken (bedloadClass 2 5) constRng n (k + 1) (exCustom _ ⟨false, false⟩)) :=
  C124_bedload 2 5 constRng n k (by norm_num [exCustom, exParams]) rfl rfl (by norm_num [exCustom, exParams])
    (by norm_num [exCustom, exState])

-- and both runs are runs: neither raises an error
example : ∃ c' d', customRun (bedloadClass 2 5) constRng 8 (exCustom _ ⟨false, false⟩) = .ok c' ∧
    broken (bedloadClass 2 5) constRng 4 4 (exCustom _ ⟨false, false⟩) = .ok d' ∧ Alike afterUpdate c' d' := by
  obtain ⟨c', h, -⟩ := C116_bedload_safe 2 5 exPositive 8
    (exCustom_fit _ (⟨false, false⟩ : Switches)) (by norm_num [exCustom, exParams]) (by norm_num [exCustom, exParams])
  rcases C124_bedload (2 : ℚ) 5 constRng 4 3 (c0 := exCustom _ ⟨false, false⟩) (by norm_num [exCustom, exParams]) rfl rfl
    (by norm_num [exCustom, exParams]) (by norm_num [exCustom, exState]) with ⟨e, h1, h2⟩ | ⟨a, b, h1, h2, h3⟩
  · rw [show 4 + (3 + 1) = 8 from rfl, h] at h1; cases h1
  · exact ⟨a, b, h1, h2, h3⟩

-- a flood as in C117
example : ∃ (L W m : ℕ) (_ : NeZero L) (_ : NeZero W) (P : Params L W m ℚ) (S : State L W ℚ),
    create exOracle exInput = .ok ⟨L, W, m, P, S⟩ ∧ ∀ (n k : ℕ) (s : Unit), ∃ X s1 X' Y' s',
      seriesRun exOracle constRng (0, 1) exFlood n (newObj exInput P S) s = .ok (X, s1) ∧
      seriesRun exOracle constRng (0, 1) exFlood (n + (k + 1)) (newObj exInput P S) s = .ok (X', s') ∧
      seriesRun exOracle constRng (0, 1) exFlood (k + 1) (loadObj (newObj exInput P S) X) s1 = .ok (Y', s') ∧ ObjAlike X' Y' :=
  C124_series (lo := 1) exOracleOk exRunnable exPositive (by norm_num) (by norm_num [exInput]) (by decide +kernel)

end Verif.Props
