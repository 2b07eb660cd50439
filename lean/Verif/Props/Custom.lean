import Verif.Spec.Custom
import Verif.Spec.Hooks
import Verif.Props.Timestep
import Verif.Props.Assign

/-!
# C112: customised models
-/

set_option linter.unusedSectionVars false
set_option linter.unusedSimpArgs false

namespace Verif.Props

open Verif.Model Verif.Lemmas Verif.Spec

variable {K : Type*} [Field K] [LinearOrder K] [IsStrictOrderedRing K] [FloorRing K] {α σ : Type*} {L W m : ℕ}
  [NeZero L] [NeZero W]

lemma andThen_ok {f g : Doing L W m K α σ} {c c2 : Custom L W m K α σ} (h : Doing.andThen f g c = .ok c2) :
    ∃ c1, f c = .ok c1 ∧ g c1 = .ok c2 := by
  unfold Doing.andThen at h
  generalize hf : f c = r at h
  cases r with
  | error e => simp at h
  | ok c1 => exact ⟨c1, rfl, h⟩

lemma andThen_of {f g : Doing L W m K α σ} {c c1 : Custom L W m K α σ} (h : f c = .ok c1) :
    Doing.andThen f g c = g c1 := by
  unfold Doing.andThen; rw [h]

/-! ## Rules for whatever the class does -/

lemma keeps_then {A : Custom L W m K α σ → Prop} {f g : Doing L W m K α σ} (hf : Keeps A f) (hg : Keeps A g) :
    Keeps A (Doing.andThen f g) := by
  intro c c' hc h
  obtain ⟨c1, h1, h2⟩ := andThen_ok h
  exact hg _ _ (hf _ _ hc h1) h2

lemma serves_then {A : Custom L W m K α σ → Prop} {f g : Doing L W m K α σ} (hf : Serves A f) (hg : Serves A g) :
    Serves A (Doing.andThen f g) := by
  intro c hc
  obtain ⟨c1, h1, h2⟩ := hf c hc
  obtain ⟨c2, h3, h4⟩ := hg c1 h2
  exact ⟨c2, by rw [andThen_of h1, h3], h4⟩

/-- A rule that holds for a sequence if it holds for its parts. -/
structure Rule (F : Doing L W m K α σ → Prop) : Prop where
  none : F .ok
  seq : ∀ f g, F f → F g → F (Doing.andThen f g)
  /-- a number read at the beginning -/
  read : ∀ (n : Custom L W m K α σ → ℕ) (f : ℕ → Doing L W m K α σ), (∀ k, F (f k)) → F fun c => f (n c) c

lemma keeps_rule (A : Custom L W m K α σ → Prop) : Rule (Keeps A) where
  none := by intro c c' hc h; cases h; exact hc
  seq := fun _ _ => keeps_then
  read := fun n f h c c' hc e => h (n c) c c' hc e

lemma serves_rule (A : Custom L W m K α σ → Prop) : Rule (Serves A) where
  none := fun c hc => ⟨c, rfl, hc⟩
  seq := fun _ _ => serves_then
  read := fun n f h c hc => h (n c) c hc

lemma invoke_rule {F : Doing L W m K α σ → Prop} (r : Rule F) {U : UserClass L W m K α σ} (hU : All F U) (s : Step)
    {body : Doing L W m K α σ} (hb : F body) : F (invoke U s body) := by
  unfold invoke
  refine r.seq _ _ (hU.hook s) ?_
  cases h : U.own s with
  | none => exact hb
  | some f => exact hU.own s f h

/-- The methods of `DeltaModel` that have no hook inside. -/
structure Leaves (F : Doing L W m K α σ → Prop) (g : Rng K σ) : Prop where
  initWater : F initWaterAct
  runWater : F (runWaterAct g)
  freeSurface : F freeSurfaceAct
  finalizeWater : ∀ i, F (finalizeWaterAct i)
  initSediment : F initSedimentAct
  parcels : ∀ k, F (routeParcelsAct g k)
  diffusion : F diffusionAct
  subsidence : F subsidenceAct
  settle : F settleAct
  sandFrac : F sandFracAct
  seaLevel : F seaLevelAct
  clock : F clockAct

lemma water_rule {F : Doing L W m K α σ → Prop} (r : Rule F) {U : UserClass L W m K α σ} (hU : All F U) {g : Rng K σ}
    (hl : Leaves F g) : F (routeWaterAct U g) := by
  refine r.read (fun c => c.P.itermax) (fun n => waterPasses U g 0 n) ?_
  have : ∀ n i, F (waterPasses U g i n) := by
    intro n
    induction n with
    | zero => intro i; exact r.none
    | succ n ih =>
      intro i
      refine r.seq _ _ ?_ (ih (i + 1))
      unfold waterPass
      exact r.seq _ _ (invoke_rule r hU _ hl.initWater) (r.seq _ _ (invoke_rule r hU _ hl.runWater)
        (r.seq _ _ (invoke_rule r hU _ hl.freeSurface) (invoke_rule r hU _ (hl.finalizeWater i))))
  exact fun n => this n 0

/-- What comes after the bed has been kept. -/
lemma solve_rest {F : Doing L W m K α σ → Prop} (r : Rule F) {U : UserClass L W m K α σ} (hU : All F U) {g : Rng K σ}
    (hl : Leaves F g) : F (Doing.andThen (invoke U .routeWater (routeWaterAct U g)) (Doing.andThen (U.after .routeWater)
      (Doing.andThen (invoke U .routeSediment (routeSedimentAct U g)) (U.after .routeSediment)))) := by
  have hs : F (routeSedimentAct U g) :=
    r.seq _ _ (invoke_rule r hU _ hl.initSediment) (r.seq _ _ (invoke_rule r hU _ (hl.parcels .sand))
      (r.seq _ _ (invoke_rule r hU _ hl.diffusion) (invoke_rule r hU _ (hl.parcels .mud))))
  exact r.seq _ _ (invoke_rule r hU _ (water_rule r hU hl)) (r.seq _ _ (hU.after _)
    (r.seq _ _ (invoke_rule r hU _ hs) (hU.after _)))

/-- What comes after the solving. -/
lemma step_rest {F : Doing L W m K α σ → Prop} (r : Rule F) {U : UserClass L W m K α σ} (hU : All F U) {g : Rng K σ}
    (hl : Leaves F g) : F (Doing.andThen (invoke U .applySubsidence subsidenceAct)
      (Doing.andThen (invoke U .finalizeTimestep (finalizeAct U)) (Doing.andThen (U.after .finalizeTimestep) clockAct))) := by
  have hf : F (finalizeAct U) := r.seq _ _ hl.settle (r.seq _ _ (invoke_rule r hU _ hl.sandFrac) hl.seaLevel)
  exact r.seq _ _ (invoke_rule r hU _ hl.subsidence) (r.seq _ _ (invoke_rule r hU _ hf) (r.seq _ _ (hU.after _) hl.clock))

lemma step_rule {F : Doing L W m K α σ → Prop} (r : Rule F) {U : UserClass L W m K α σ} (hU : All F U) {g : Rng K σ}
    (hl : Leaves F g) (hk : F keepBedAct) : F (customStep U g) :=
  r.seq _ _ (invoke_rule r hU _ (r.seq _ _ hk (solve_rest r hU hl))) (step_rest r hU hl)

lemma run_rule {F : Doing L W m K α σ → Prop} (r : Rule F) {U : UserClass L W m K α σ} (hU : All F U) {g : Rng K σ}
    (hl : Leaves F g) (hk : F keepBedAct) (n : ℕ) : F (customRun U g n) := by
  induction n with
  | zero => exact r.none
  | succ n ih => exact r.seq _ _ (step_rule r hU hl hk) ih

/-! ## Classes that only look -/

/-- A model without its added attributes. -/
def bare (c : Custom L W m K α σ) : Custom L W m K Unit σ := { c with extra := () }

/-- `f` does what `f0` does, apart from the added attributes. -/
def Mimics (f : Doing L W m K α σ) (f0 : Doing L W m K Unit σ) : Prop := ∀ c, (f c).map bare = f0 (bare c)

lemma mimics_then {f g : Doing L W m K α σ} {f0 g0 : Doing L W m K Unit σ} (hf : Mimics f f0) (hg : Mimics g g0) :
    Mimics (Doing.andThen f g) (Doing.andThen f0 g0) := by
  intro c
  unfold Doing.andThen
  rw [← hf c]
  cases f c with
  | error e => rfl
  | ok c1 => exact hg c1

lemma mimics_quiet {f : Doing L W m K α σ} (hf : Quiet f) : Mimics f .ok := by
  intro c
  obtain ⟨a, ha⟩ := hf c
  rw [ha]
  rfl

/-- All hooks of a class only change the attributes that it has added, and it has no own methods. -/
structure OnlyLooks (U : UserClass L W m K α σ) : Prop where
  hook : ∀ s, Quiet (U.hook s)
  after : ∀ s, Quiet (U.after s)
  own : ∀ s, U.own s = none

lemma mimics_invoke {U : UserClass L W m K α σ} (hU : OnlyLooks U) (s : Step) {f : Doing L W m K α σ}
    {f0 : Doing L W m K Unit σ} (hf : Mimics f f0) : Mimics (invoke U s f) (invoke plainClass s f0) := by
  unfold invoke
  rw [hU.own]
  exact mimics_then (mimics_quiet (hU.hook s)) hf

lemma mimics_step {U : UserClass L W m K α σ} (hU : OnlyLooks U) (g : Rng K σ) :
    Mimics (customStep U g) (customStep plainClass g) := by
  have hrun : Mimics (L := L) (W := W) (m := m) (α := α) (runWaterAct g) (runWaterAct g) := by
    intro c
    unfold runWaterAct bare
    dsimp only
    generalize waterWeightArray c.P c.S = r
    cases r with
    | error e => rfl
    | ok w =>
      dsimp only
      generalize runWaterIteration g (waterEnv c.P c.S w) (fun k => ((c.P.inlet k).val : ℤ)) c.P.NpWater c.S.ncols c.rng = r
      cases r with
      | error e => rfl
      | ok w => rfl
  have hsfc : Mimics (L := L) (W := W) (m := m) (K := K) (α := α) (σ := σ) freeSurfaceAct freeSurfaceAct := by
    intro c
    unfold freeSurfaceAct bare
    dsimp only
    generalize computeFreeSurface c.P c.S c.parcels = r
    cases r with
    | error e => rfl
    | ok w => rfl
  have hpar : ∀ k, Mimics (L := L) (W := W) (m := m) (α := α) (routeParcelsAct g k) (routeParcelsAct g k) := by
    intro k c
    unfold routeParcelsAct bare
    dsimp only
    generalize routeParcels g k (sedParams c.P c.R) c.S c.rng = r
    cases r with
    | error e => rfl
    | ok w => rfl
  have hpass : ∀ n i, Mimics (waterPasses U g i n) (waterPasses plainClass g i n) := by
    intro n
    induction n with
    | zero => intro i c; rfl
    | succ n ih =>
      intro i
      refine mimics_then ?_ (ih (i + 1))
      exact mimics_then (mimics_invoke hU _ fun c => rfl) (mimics_then (mimics_invoke hU _ hrun)
        (mimics_then (mimics_invoke hU _ hsfc) (mimics_invoke hU _ fun c => rfl)))
  have hwater : Mimics (routeWaterAct U g) (routeWaterAct plainClass g) := fun c => hpass c.P.itermax 0 c
  have hsed : Mimics (routeSedimentAct U g) (routeSedimentAct plainClass g) :=
    mimics_then (mimics_invoke hU _ fun c => rfl) (mimics_then (mimics_invoke hU _ (hpar _))
      (mimics_then (mimics_invoke hU _ fun c => rfl) (mimics_invoke hU _ (hpar _))))
  have hsolve : Mimics (solveAct U g) (solveAct plainClass g) :=
    mimics_then (fun c => rfl) (mimics_then (mimics_invoke hU _ hwater) (mimics_then (mimics_quiet (hU.after _))
      (mimics_then (mimics_invoke hU _ hsed) (mimics_quiet (hU.after _)))))
  have hfin : Mimics (finalizeAct U) (finalizeAct plainClass) :=
    mimics_then (fun c => rfl) (mimics_then (mimics_invoke hU _ fun c => rfl) (fun c => rfl))
  exact mimics_then (mimics_invoke hU _ hsolve) (mimics_then (mimics_invoke hU _ fun c => rfl)
    (mimics_then (mimics_invoke hU _ hfin) (mimics_then (mimics_quiet (hU.after _)) fun c => rfl)))

lemma plain_pass (g : Rng K σ) (i : ℕ) (c : Custom L W m K Unit σ) :
    match waterIteration g c.P i c.S c.rng with
    | .error e => waterPass plainClass g i c = .error e
    | .ok (S1, s1) => ∃ fl ps, waterPass plainClass g i c = .ok { c with S := S1, rng := s1, flux := fl, parcels := ps } := by
  have e : waterPass plainClass g i c = Doing.andThen (runWaterAct g)
      (Doing.andThen freeSurfaceAct (finalizeWaterAct i)) { c with flux := ⟨fun _ => 0, fun _ => 0, fun _ => 0⟩, parcels := [] } := rfl
  rw [e]
  unfold waterIteration runWaterAct Doing.andThen
  dsimp only
  generalize waterWeightArray c.P c.S = r
  cases r with
  | error e => rfl
  | ok w =>
    dsimp only
    generalize runWaterIteration g (waterEnv c.P c.S w) (fun k => ((c.P.inlet k).val : ℤ)) c.P.NpWater c.S.ncols c.rng = r
    cases r with
    | error e => rfl
    | ok w =>
      obtain ⟨wst, lg, n, s1⟩ := w
      dsimp only [freeSurfaceAct]
      have e : computeFreeSurface c.P { c.S with ncols := wst.ncols } wst.parcels =
        computeFreeSurface c.P c.S wst.parcels := rfl
      rw [e]
      generalize computeFreeSurface c.P c.S wst.parcels = r
      cases r with
      | error e => rfl
      | ok stage => exact ⟨_, _, rfl⟩

lemma plain_passes (g : Rng K σ) : ∀ (n i : ℕ) (c : Custom L W m K Unit σ),
    match routeWaterFrom g c.P i n c.S c.rng with
    | .error e => waterPasses plainClass g i n c = .error e
    | .ok (S1, s1) => ∃ fl ps, waterPasses plainClass g i n c = .ok { c with S := S1, rng := s1, flux := fl, parcels := ps }
  | 0, i, c => ⟨c.flux, c.parcels, rfl⟩
  | n + 1, i, c => by
    have h := plain_pass g i c
    unfold routeWaterFrom
    have e : waterPasses plainClass g i (n + 1) c =
      match waterPass plainClass g i c with
      | .error e => .error e
      | .ok c1 => waterPasses plainClass g (i + 1) n c1 := by
      rw [waterPasses]
      unfold Doing.andThen
      cases waterPass plainClass g i c with
      | error e => rfl
      | ok c1 => rfl
    rw [e]
    generalize waterIteration g c.P i c.S c.rng = r at h
    cases r with
    | error e => dsimp only at h ⊢; rw [h]
    | ok x =>
      obtain ⟨S1, s1⟩ := x
      obtain ⟨fl, ps, h⟩ := h
      rw [h]
      exact plain_passes g n (i + 1) { c with S := S1, rng := s1, flux := fl, parcels := ps }

lemma andThen_assoc (f g h : Doing L W m K α σ) :
    Doing.andThen (Doing.andThen f g) h = Doing.andThen f (Doing.andThen g h) := by
  funext c
  unfold Doing.andThen
  cases f c with
  | error e => rfl
  | ok c1 => rfl

lemma invoke_plain (s : Step) (f : Doing L W m K α σ) : invoke plainClass s f = f := by
  funext c; rfl

lemma plain_after (s : Step) : (plainClass : UserClass L W m K α σ).after s = .ok := by
  funext c; rfl

lemma ok_then (f : Doing L W m K α σ) : Doing.andThen .ok f = f := by
  funext c; rfl

lemma init_then (f : Doing L W m K α σ) (c : Custom L W m K α σ) :
    Doing.andThen initSedimentAct f c = f { c with S := initSediment c.S } := rfl

lemma parcels_then (g : Rng K σ) (k : Sed) (f : Doing L W m K α σ) (c : Custom L W m K α σ) :
    Doing.andThen (routeParcelsAct g k) f c =
      match routeParcels g k (sedParams c.P c.R) c.S c.rng with
      | .error e => .error e
      | .ok (S1, _, s1) => f { c with S := S1, rng := s1 } := by
  unfold Doing.andThen routeParcelsAct
  generalize routeParcels g k (sedParams c.P c.R) c.S c.rng = r
  cases r with
  | error e => rfl
  | ok x => rfl

lemma diffusion_then (f : Doing L W m K α σ) (c : Custom L W m K α σ) :
    Doing.andThen diffusionAct f c =
      f { c with S := { c.S with eta := topoDiffusion c.P.cellType c.P.diffMult c.S.qs c.P.Ncross c.S.eta } } := rfl

lemma plain_end (c : Custom L W m K α σ) :
    Doing.andThen subsidenceAct (Doing.andThen settleAct (Doing.andThen sandFracAct (Doing.andThen seaLevelAct clockAct))) c =
      .ok { c with S := { finalizeTimestep c.P c.eta0 (applySubsidence c.P c.S) with
        time := (finalizeTimestep c.P c.eta0 (applySubsidence c.P c.S)).time + c.P.dt,
        timeIter := (finalizeTimestep c.P c.eta0 (applySubsidence c.P c.S)).timeIter + 1 } } := rfl

lemma plain_form (g : Rng K σ) (c : Custom L W m K Unit σ) : customStep plainClass g c =
    Doing.andThen (routeWaterAct plainClass g)
      (Doing.andThen initSedimentAct (Doing.andThen (routeParcelsAct g .sand) (Doing.andThen diffusionAct
        (Doing.andThen (routeParcelsAct g .mud)
        (Doing.andThen subsidenceAct (Doing.andThen settleAct (Doing.andThen sandFracAct (Doing.andThen seaLevelAct clockAct))))))))
      { c with eta0 := c.S.eta } := by
  unfold customStep
  rw [invoke_plain, invoke_plain, invoke_plain, plain_after, ok_then]
  unfold solveAct
  rw [invoke_plain, invoke_plain, plain_after, plain_after, ok_then]
  unfold routeSedimentAct finalizeAct
  simp only [invoke_plain, andThen_assoc, ok_then]
  rw [andThen_of (f := keepBedAct) (c1 := { c with eta0 := c.S.eta }) rfl]

/-- The timestep of a class without hooks is that of C84. -/
lemma plain_step (g : Rng K σ) (c : Custom L W m K Unit σ) :
    (customStep plainClass g c).map shown = (timestep2 g c.P c.R c.S c.rng).map fun r => (c.P, c.R, r.1, r.2.2) := by
  have h := plain_passes g c.P.itermax 0 { c with eta0 := c.S.eta }
  unfold timestep2 routeWater
  rw [plain_form]
  dsimp only at h
  generalize routeWaterFrom g c.P 0 c.P.itermax c.S c.rng = r at h
  cases r with
  | error e =>
    have h' : routeWaterAct plainClass g { c with eta0 := c.S.eta } = .error e := h
    unfold Doing.andThen
    rw [h']
    rfl
  | ok x =>
    obtain ⟨S1, s1⟩ := x
    obtain ⟨fl, ps, h⟩ := h
    have h' : routeWaterAct plainClass g { c with eta0 := c.S.eta } = _ := h
    rw [andThen_of h', init_then, parcels_then]
    unfold routeSediment2
    dsimp only
    generalize routeParcels g .sand (sedParams c.P c.R) (initSediment S1) s1 = r
    cases r with
    | error e => rfl
    | ok x =>
      obtain ⟨S2, sand, s2⟩ := x
      dsimp only
      rw [diffusion_then, parcels_then]
      dsimp only
      generalize routeParcels g .mud (sedParams c.P c.R)
        { S2 with eta := topoDiffusion c.P.cellType c.P.diffMult S2.qs c.P.Ncross S2.eta } s2 = r
      cases r with
      | error e => rfl
      | ok x =>
        obtain ⟨S3, mud, s3⟩ := x
        dsimp only
        rw [plain_end]
        dsimp only [Except.map, shown]

/-- C112: a class whose hooks change only attributes that it has added itself works as if it had none: every update raises
what it raises without hooks, and otherwise the parameters, what the routers hold, all fields and the random numbers to come
are those of an update without hooks. -/
theorem C112_quiet {U : UserClass L W m K α σ} (hU : OnlyLooks U) (g : Rng K σ) (c : Custom L W m K α σ) :
    (customStep U g c).map shown = (timestep2 g c.P c.R c.S c.rng).map fun r => (c.P, c.R, r.1, r.2.2) := by
  have h1 := mimics_step hU g c
  have h2 := plain_step g (bare c)
  rw [← h1] at h2
  change _ = (timestep2 g c.P c.R c.S c.rng).map fun r => (c.P, c.R, r.1, r.2.2) at h2
  rw [← h2]
  cases customStep U g c with
  | error e => rfl
  | ok d => rfl

/-- C112: the same for runs of a new model, whose routers hold what the model holds. -/
theorem C112_quiet_run {U : UserClass L W m K α σ} (hU : OnlyLooks U) (g : Rng K σ) : ∀ (n : ℕ) (c : Custom L W m K α σ),
    sedParams c.P c.R = c.P →
    (customRun U g n c).map shown = (timesteps g (List.replicate n c.P) c.S c.rng).map fun r => (c.P, c.R, r.1, r.2.2)
  | 0, c, _ => rfl
  | n + 1, c, hR => by
    have h := C112_quiet hU g c
    rw [timestep2_eq hR] at h
    change (Doing.andThen (customStep U g) (customRun U g n) c).map shown = _
    rw [List.replicate_succ]
    unfold timesteps Doing.andThen
    generalize timestep g c.P c.S c.rng = r at h
    generalize customStep U g c = r' at h
    cases r with
    | error e =>
      cases r' with
      | error e' => simpa [Except.map] using h
      | ok d => simp [Except.map] at h
    | ok x =>
      cases r' with
      | error e' => simp [Except.map] at h
      | ok d =>
        obtain ⟨S1, l, s1⟩ := x
        simp only [Except.map, Except.ok.injEq] at h
        unfold shown at h
        simp only [Prod.mk.injEq] at h
        obtain ⟨a1, a2, a3, a4⟩ := h
        have ih := C112_quiet_run hU g n d (by rw [a1, a2]; exact hR)
        dsimp only
        rw [ih, a1, a2, a3, a4]
        cases timesteps g (List.replicate n c.P) S1 s1 with
        | error e => rfl
        | ok x => rfl

/-! ## Classes that do what they like -/

/-- C112: whatever the hooks and own methods of a class do to the fields, the attributes and the parameters, bed, depth and
water surface fit together after every update that raises no error, unless the class replaces `finalize_timestep` or its
changes come after it: in `compute_sand_frac`, in the hook before it or in the hook after `finalize_timestep`. -/
theorem C112_fitting {U : UserClass L W m K α σ} {g : Rng K σ} {c c' : Custom L W m K α σ} (h : customStep U g c = .ok c')
    (hown : U.own .finalizeTimestep = none)
    (hsand : ∀ d d', U.hook .computeSandFrac d = .ok d' → SameSurface d d')
    (hfrac : ∀ f, U.own .computeSandFrac = some f → ∀ d d', f d = .ok d' → SameSurface d d')
    (hafter : ∀ d d', U.after .finalizeTimestep d = .ok d' → SameSurface d d') :
    Fitting c'.P c'.S (c'.S.HSL - c'.P.SLR * c'.P.dt) := by
  obtain ⟨c1, -, h⟩ := andThen_ok h
  obtain ⟨c2, -, h⟩ := andThen_ok h
  obtain ⟨c3, h3, h⟩ := andThen_ok h
  obtain ⟨c4, h4, h6⟩ := andThen_ok h
  clear h
  unfold invoke at h3
  rw [hown] at h3
  obtain ⟨b, -, h3⟩ := andThen_ok h3
  change Doing.andThen settleAct (Doing.andThen (invoke U .computeSandFrac sandFracAct) seaLevelAct) b = .ok c3 at h3
  obtain ⟨b1, hb1, h3⟩ := andThen_ok h3
  obtain ⟨b2, hb2, h5⟩ := andThen_ok h3
  obtain ⟨b3, hb3, hb4⟩ := andThen_ok hb2
  have s1 := hsand _ _ hb3
  have s2 : SameSurface b3 b2 := by
    cases ho : U.own .computeSandFrac with
    | none =>
      rw [ho] at hb4
      change sandFracAct b3 = .ok b2 at hb4
      cases hb4
      exact ⟨rfl, rfl, rfl, rfl, rfl⟩
    | some f =>
      rw [ho] at hb4
      exact hfrac f ho _ _ hb4
  have s3 := hafter _ _ h4
  clear h3
  cases hb1
  cases h5
  cases h6
  have eP : c4.P = b.P := by rw [s3.P]; exact s2.P.trans s1.P
  have eeta := s3.eta.trans (s2.eta.trans s1.eta)
  have estage := s3.stage.trans (s2.stage.trans s1.stage)
  have edepth := s3.depth.trans (s2.depth.trans s1.depth)
  have eH : c4.S.HSL = b.S.HSL + b.P.SLR * b.P.dt := by
    rw [s3.HSL]
    change b2.S.HSL + b2.P.SLR * b2.P.dt = _
    rw [s2.HSL, s1.HSL, s2.P, s1.P]
  refine ⟨fun x hx => ?_, fun k => ?_, fun x => ?_⟩
  · have hi : isInlet b.P.inlet x = false := by
      by_contra hc
      rw [Bool.not_eq_false] at hc
      unfold isInlet at hc
      simp only [Bool.and_eq_true, decide_eq_true_eq, List.any_eq_true] at hc
      obtain ⟨hx0, k, -, hk⟩ := hc
      apply hx k
      change x = (0, c4.P.inlet k)
      rw [eP]
      exact Prod.ext (Fin.ext hx0) hk.symm
    change c4.S.depth x = max (c4.S.stage x - c4.S.eta x) 0
    rw [edepth, estage, eeta]
    simp only [assign, hi, Bool.false_eq_true, if_false]
  · have hi : isInlet b.P.inlet ((0, b.P.inlet k) : Cell L W) = true := by
      unfold isInlet
      simp only [Bool.and_eq_true, decide_eq_true_eq, List.any_eq_true]
      exact ⟨rfl, k, List.mem_finRange k, rfl⟩
    change c4.S.depth (0, c4.P.inlet k) = c4.P.h0 ∧ c4.S.eta (0, c4.P.inlet k) = c4.S.stage (0, c4.P.inlet k) - c4.P.h0
    rw [edepth, estage, eeta, eP]
    simp only [assign, hi, if_true, and_self]
  · change c4.S.HSL - c4.P.SLR * c4.P.dt ≤ c4.S.stage x
    rw [eH, estage, eP, add_sub_cancel_right]
    exact le_max_right _ _

/-- C112: what a class does in the hook of `solve_water_and_sediment_timestep` could as well be done by the user between
the updates. -/
theorem C112_between (U : UserClass L W m K α σ) (g : Rng K σ) :
    customStep U g = Doing.andThen (U.hook .solveWaterAndSediment) (customStep (withoutSolveHook U) g) := by
  have hp : ∀ n i, waterPasses (withoutSolveHook U) g i n = waterPasses U g i n := by
    intro n
    induction n with
    | zero => intro i; rfl
    | succ n ih =>
      intro i
      rw [waterPasses, waterPasses, ih]
      rfl
  have hr : routeWaterAct (withoutSolveHook U) g = routeWaterAct U g := by
    funext c
    exact congrFun (hp _ _) c
  have hs : solveAct (withoutSolveHook U) g = solveAct U g := by
    unfold solveAct
    rw [hr]
    rfl
  have e : customStep (withoutSolveHook U) g = Doing.andThen ((U.own .solveWaterAndSediment).getD (solveAct U g))
      (Doing.andThen (invoke U .applySubsidence subsidenceAct)
      (Doing.andThen (invoke U .finalizeTimestep (finalizeAct U)) (Doing.andThen (U.after .finalizeTimestep) clockAct))) := by
    unfold customStep invoke
    rw [hs]
    rfl
  rw [e]
  exact andThen_assoc _ _ _

/-- C112: the bed that an update compares with to find where sediment has been taken away is the bed after the hook of
`solve_water_and_sediment_timestep`: what a class does to the bed there does not count as erosion; what it does in other
hooks does. -/
theorem C112_compared {U : UserClass L W m K α σ} {g : Rng K σ} {c c' : Custom L W m K α σ} (h : customStep U g c = .ok c')
    (hown : U.own .solveWaterAndSediment = none) (hU : All (fun f => ∀ d d', f d = .ok d' → d'.eta0 = d.eta0) U) :
    ∃ c1, U.hook .solveWaterAndSediment c = .ok c1 ∧ c'.eta0 = c1.S.eta := by
  obtain ⟨c2, h2, h⟩ := andThen_ok h
  obtain ⟨c1, h1, h2⟩ := andThen_ok h2
  rw [hown] at h2
  change Doing.andThen keepBedAct (Doing.andThen (invoke U .routeWater (routeWaterAct U g)) (Doing.andThen (U.after .routeWater)
    (Doing.andThen (invoke U .routeSediment (routeSedimentAct U g)) (U.after .routeSediment)))) c1 = .ok c2 at h2
  obtain ⟨c3, h3, h2⟩ := andThen_ok h2
  cases h3
  refine ⟨c1, h1, ?_⟩
  have r := keeps_rule (L := L) (W := W) (m := m) (α := α) (σ := σ) fun d => d.eta0 = c1.S.eta
  have hU' : All (Keeps fun d => d.eta0 = c1.S.eta) U :=
    ⟨fun s d d' hd e => (hU.hook s d d' e).trans hd, fun s d d' hd e => (hU.after s d d' e).trans hd,
      fun s f hf d d' hd e => (hU.own s f hf d d' e).trans hd⟩
  have hl : Leaves (Keeps (L := L) (W := W) (m := m) (α := α) fun d => d.eta0 = c1.S.eta) g :=
    { initWater := by intro d d' hd e; cases e; exact hd
      runWater := by
        intro d d' hd e
        unfold runWaterAct at e
        split at e
        · simp at e
        · split at e
          · simp at e
          · simp only [Except.ok.injEq] at e
            subst e; exact hd
      freeSurface := by
        intro d d' hd e
        unfold freeSurfaceAct at e
        split at e
        · simp at e
        · simp only [Except.ok.injEq] at e
          subst e; exact hd
      finalizeWater := by intro i d d' hd e; cases e; exact hd
      initSediment := by intro d d' hd e; cases e; exact hd
      parcels := by
        intro k d d' hd e
        unfold routeParcelsAct at e
        split at e
        · simp at e
        · simp only [Except.ok.injEq] at e
          subst e; exact hd
      diffusion := by intro d d' hd e; cases e; exact hd
      subsidence := by intro d d' hd e; cases e; exact hd
      settle := by intro d d' hd e; cases e; exact hd
      sandFrac := by intro d d' hd e; cases e; exact hd
      seaLevel := by intro d d' hd e; cases e; exact hd
      clock := by intro d d' hd e; cases e; exact hd }
  have hc2 := solve_rest r hU' hl _ _ rfl h2
  exact step_rest r hU' hl _ _ hc2 h

/-! ## Classes that leave the model fit -/

/-- What the methods of a model rely on. -/
structure FitModel (c : Custom L W m K α σ) : Prop where
  water : WaterSetup c.P
  sediment : SedDomain (sedParams c.P c.R)
  h0 : 0 ≤ c.P.h0
  depth : ∀ x, 0 ≤ c.S.depth x
  ncols : 0 < c.S.ncols
  walks : ∃ css : List (List (Cell L W)), Walked (c.parcels.map fun p => (p.walk, p.flag)) css

lemma fit_leaves {g : Rng K σ} (hg : PositiveDraws g) :
    Leaves (Serves (FitModel (L := L) (W := W) (m := m) (K := K) (α := α) (σ := σ))) g :=
  { initWater := fun d hd => ⟨_, rfl, { hd with walks := ⟨[], List.Forall₂.nil⟩ }⟩
    runWater := by
      intro d hd
      obtain ⟨w, hw, hwc⟩ := weights_total hd.water hd.depth
      obtain ⟨st, log, n, s', hr⟩ := waterRun_of hg hd.water hd.depth hd.ncols d.rng hwc
      refine ⟨{ d with S := { d.S with ncols := st.ncols }, flux := st.flux, parcels := st.parcels, rng := s' }, ?_, ?_⟩
      · unfold runWaterAct
        rw [hw]
        dsimp only
        rw [hr.run]
      · have := (C12_record hr.run).2.1
        exact { hd with walks := C15_routed_walks hr, ncols := by change 0 < st.ncols; omega }
    freeSurface := by
      intro d hd
      obtain ⟨css, hcss⟩ := hd.walks
      obtain ⟨a, ha, -⟩ := C15_visits (sfcEnv d.P d.S) hcss
      have hok : ∃ stage, computeFreeSurface d.P d.S d.parcels = .ok stage := by
        unfold computeFreeSurface
        rw [ha]
        exact ⟨_, rfl⟩
      obtain ⟨stage, hstage⟩ := hok
      refine ⟨{ d with S := { d.S with stage := stage } }, ?_, { hd with }⟩
      unfold freeSurfaceAct
      rw [hstage]
    finalizeWater := fun i d hd => ⟨_, rfl, { hd with depth := fun x => le_max_right _ _ }⟩
    initSediment := fun d hd => ⟨_, rfl, { hd with }⟩
    parcels := by
      intro k d hd
      obtain ⟨S', logs, s', h1, h2⟩ := C71_sediment_parcels hg k hd.sediment hd.depth d.rng
      have h3 := (routeParcels_frame h1).2.2.2.2.2.2.2.2.2
      refine ⟨{ d with S := S', rng := s' }, ?_, { hd with depth := h2, ncols := ?_ }⟩
      · unfold routeParcelsAct
        rw [h1]
      · change 0 < S'.ncols
        rw [h3]
        exact hd.ncols
    diffusion := fun d hd => ⟨_, rfl, { hd with }⟩
    subsidence := by
      intro d hd
      refine ⟨_, rfl, ?_⟩
      unfold applySubsidence
      split
      · split
        · exact { hd with }
        · exact hd
      · exact hd
    settle := by
      intro d hd
      refine ⟨_, rfl, { hd with depth := fun x => ?_ }⟩
      dsimp only [assign]
      split
      · exact hd.h0
      · exact le_max_right _ _
    sandFrac := fun d hd => ⟨_, rfl, { hd with }⟩
    seaLevel := fun d hd => ⟨_, rfl, { hd with }⟩
    clock := fun d hd => ⟨_, rfl, { hd with }⟩ }

lemma fit_bed : Serves (FitModel (L := L) (W := W) (m := m) (K := K) (α := α) (σ := σ)) keepBedAct :=
  fun _ hd => ⟨_, rfl, { hd with }⟩

/-- C112: if the hooks and own methods of a class raise no errors and leave what the methods rely on (a domain with the layout of
`create_domain`, coefficients in their ranges, depths that are not negative, paths that are paths), then no update of a model of
this class raises an error, over runs of any length. -/
theorem C112_safe {U : UserClass L W m K α σ} (hU : All (Serves FitModel) U) {g : Rng K σ} (hg : PositiveDraws g) (n : ℕ)
    {c : Custom L W m K α σ} (hc : FitModel c) : ∃ c', customRun U g n c = .ok c' ∧ FitModel c' :=
  run_rule (serves_rule FitModel) hU (fit_leaves hg) fit_bed n c hc

/-! ## The calls -/

/-- `f` adds `l` to the list of events. -/
def Appends (l : List Ev) (f : Doing L W m K (List Ev) σ) : Prop :=
  ∀ c c', f c = .ok c' → c'.extra = c.extra ++ l ∧ c'.P = c.P

lemma appends_then {l l' : List Ev} {f f' : Doing L W m K (List Ev) σ} (h : Appends l f) (h' : Appends l' f') :
    Appends (l ++ l') (Doing.andThen f f') := by
  intro c c' e
  obtain ⟨c1, h1, h2⟩ := andThen_ok e
  obtain ⟨a, b⟩ := h _ _ h1
  obtain ⟨a', b'⟩ := h' _ _ h2
  exact ⟨by rw [a', a, List.append_assoc], b'.trans b⟩

lemma appends_invoke (s : Step) {l : List Ev} {f : Doing L W m K (List Ev) σ} (h : Appends l f) :
    Appends (.hook s :: l) (invoke recorder s f) := by
  have h0 : Appends (L := L) (W := W) (m := m) (K := K) (σ := σ) [.hook s] (recorder.hook s) := by
    intro c c' e; cases e; exact ⟨rfl, rfl⟩
  exact appends_then h0 h

lemma appends_after (s : Step) : Appends (L := L) (W := W) (m := m) (K := K) (σ := σ) [.hookAfter s] (recorder.after s) := by
  intro c c' e; cases e; exact ⟨rfl, rfl⟩

lemma appends_none {f : Doing L W m K (List Ev) σ} (h : ∀ c c', f c = .ok c' → c'.extra = c.extra ∧ c'.P = c.P) :
    Appends [] f := by
  intro c c' e
  rw [List.append_nil]
  exact h c c' e

lemma appends_passes (g : Rng K σ) : ∀ n i, Appends (L := L) (W := W) (m := m)
    (((List.range' i n).flatMap waterIterationEvents).filter isHook) (waterPasses recorder g i n)
  | 0, i => by
    refine appends_none fun c c' e => ?_
    simp only [waterPasses, Except.ok.injEq] at e
    subst e; exact ⟨rfl, rfl⟩
  | n + 1, i => by
    rw [List.range'_succ, List.flatMap_cons, List.filter_append, waterPasses]
    refine appends_then ?_ (appends_passes g n (i + 1))
    have e : (waterIterationEvents i).filter isHook = [.hook .initWaterIteration] ++ ([.hook .runWaterIteration] ++
      ([.hook .computeFreeSurface] ++ [.hook (.finalizeWaterIteration i)])) := rfl
    rw [e]
    unfold waterPass
    refine appends_then (appends_invoke _ (appends_none ?_)) (appends_then (appends_invoke _ (appends_none ?_))
      (appends_then (appends_invoke _ (appends_none ?_)) (appends_invoke _ (appends_none ?_))))
    · intro c c' e; cases e; exact ⟨rfl, rfl⟩
    · intro c c' e
      unfold runWaterAct at e
      split at e
      · simp at e
      · split at e
        · simp at e
        · simp only [Except.ok.injEq] at e
          subst e; exact ⟨rfl, rfl⟩
    · intro c c' e
      unfold freeSurfaceAct at e
      split at e
      · simp at e
      · simp only [Except.ok.injEq] at e
        subst e; exact ⟨rfl, rfl⟩
    · intro c c' e; cases e; exact ⟨rfl, rfl⟩

/-- C112: a class whose hooks make a note of every call finds, after an update, exactly the calls of hooks listed in C47, in
that order, up to those of the output. -/
theorem C112_calls {g : Rng K σ} {c c' : Custom L W m K (List Ev) σ} (h : customStep recorder g c = .ok c') :
    c'.extra ++ [.hook .outputData, .hook .outputCheckpoint] = c.extra ++ (updateEvents c.P.itermax).filter isHook := by
  have hw : ∀ n : ℕ, ∀ d d' : Custom L W m K (List Ev) σ, d.P.itermax = n → routeWaterAct recorder g d = .ok d' →
      d'.extra = d.extra ++ (routeWaterEvents n).filter isHook ∧ d'.P = d.P := by
    intro n d d' hn e
    unfold routeWaterAct at e
    have := appends_passes g d.P.itermax 0 d d' e
    rw [← List.range_eq_range', hn] at this
    exact this
  have hp : ∀ k, Appends (L := L) (W := W) (m := m) [] (routeParcelsAct g k) := by
    intro k
    refine appends_none fun c c' e => ?_
    unfold routeParcelsAct at e
    split at e
    · simp at e
    · simp only [Except.ok.injEq] at e
      subst e; exact ⟨rfl, rfl⟩
  have hq : ∀ {f : Doing L W m K (List Ev) σ}, (∀ c, ∃ S, f c = .ok { c with S := S }) → Appends [] f := by
    intro f hf
    refine appends_none fun c c' e => ?_
    obtain ⟨S, hS⟩ := hf c
    rw [hS] at e
    cases e
    exact ⟨rfl, rfl⟩
  have hsed : Appends (L := L) (W := W) (m := m) (routeSedimentEvents.filter isHook) (routeSedimentAct recorder g) := by
    have e : routeSedimentEvents.filter isHook = [.hook .initSedimentIteration] ++ ([.hook .routeAllSandParcels] ++
      ([.hook .topoDiffusion] ++ [.hook .routeAllMudParcels])) := rfl
    rw [e]
    exact appends_then (appends_invoke _ (hq fun c => ⟨_, rfl⟩)) (appends_then (appends_invoke _ (hp _))
      (appends_then (appends_invoke _ (hq fun c => ⟨_, rfl⟩)) (appends_invoke _ (hp _))))
  have hend : Appends (L := L) (W := W) (m := m) (K := K) (σ := σ)
      ([.hookAfter .routeWater] ++ ((.hook .routeSediment :: routeSedimentEvents.filter isHook) ++ [.hookAfter .routeSediment]))
      (Doing.andThen (recorder.after .routeWater)
        (Doing.andThen (invoke recorder .routeSediment (routeSedimentAct recorder g)) (recorder.after .routeSediment))) :=
    appends_then (appends_after _) (appends_then (appends_invoke _ hsed) (appends_after _))
  have hrest : Appends (L := L) (W := W) (m := m) (K := K) (σ := σ)
      ([.hook .applySubsidence] ++ ((.hook .finalizeTimestep :: ([] ++ ([.hook .computeSandFrac] ++ []))) ++
        ([.hookAfter .finalizeTimestep] ++ [])))
      (Doing.andThen (invoke recorder .applySubsidence subsidenceAct)
        (Doing.andThen (invoke recorder .finalizeTimestep (finalizeAct recorder))
          (Doing.andThen (recorder.after .finalizeTimestep) clockAct))) :=
    appends_then (appends_invoke _ (hq fun c => ⟨_, rfl⟩)) (appends_then (appends_invoke _
      (appends_then (hq fun c => ⟨_, rfl⟩) (appends_then (appends_invoke _ (hq fun c => ⟨_, rfl⟩)) (hq fun c => ⟨_, rfl⟩))))
      (appends_then (appends_after _) (hq fun c => ⟨_, rfl⟩)))
  obtain ⟨c2, h2, h3⟩ := andThen_ok h
  obtain ⟨a3, b3⟩ := hrest _ _ h3
  obtain ⟨c1, h1, h4⟩ := andThen_ok h2
  change Doing.andThen keepBedAct (Doing.andThen (invoke recorder .routeWater (routeWaterAct recorder g))
    (Doing.andThen (recorder.after .routeWater)
    (Doing.andThen (invoke recorder .routeSediment (routeSedimentAct recorder g)) (recorder.after .routeSediment)))) c1 = .ok c2 at h4
  obtain ⟨c5, h5, h6⟩ := andThen_ok h4
  obtain ⟨c7, h7, h8⟩ := andThen_ok h6
  obtain ⟨a8, b8⟩ := hend _ _ h8
  obtain ⟨c9, h9, h10⟩ := andThen_ok h7
  clear h h2 h4 h6 h7
  cases h1
  cases h5
  cases h9
  obtain ⟨a10, b10⟩ := hw _ _ _ rfl h10
  rw [a3, a8, a10]
  dsimp only
  unfold updateEvents solveEvents
  simp only [List.filter_append]
  generalize (routeWaterEvents c.P.itermax).filter isHook = l
  simp [List.append_assoc, routeSedimentEvents, finalizeTimestepEvents, isHook, List.filter_cons]

/-- C112: a class that has its own version of every method, which makes a note before and after it calls the method of
`DeltaModel`, finds after an update exactly the calls listed in C47, methods and hooks, in that order, up to those of the
output: each own version is called in the place of the method. -/
theorem C112_traced {g : Rng K σ} {c c' : Custom L W m K (List Ev) σ} (h : customStep (tracer g) g c = .ok c') :
    c'.extra ++ [.hook .outputData, .enter .outputData, .exit .outputData, .hook .outputCheckpoint, .enter .outputCheckpoint,
      .exit .outputCheckpoint] = c.extra ++ updateEvents c.P.itermax := by
  have hn : ∀ e : Ev, Appends (L := L) (W := W) (m := m) (K := K) (σ := σ) [e] (note e) := by
    intro e c c' h; cases h; exact ⟨rfl, rfl⟩
  -- calls of leaves
  have hcall : ∀ (U : UserClass L W m K (List Ev) σ) (s : Step) (l : List Ev) (f b : Doing L W m K (List Ev) σ),
      U.hook s = note (.hook s) → U.own s = traced s f → Appends l f →
      Appends (.hook s :: .enter s :: (l ++ [.exit s])) (invoke U s b) := by
    intro U s l f b h1 h2 hf
    unfold invoke
    rw [h1, h2]
    exact appends_then (hn _) (appends_then (hn _) (appends_then hf (hn _)))
  have hq : ∀ {f : Doing L W m K (List Ev) σ}, (∀ c c', f c = .ok c' → c'.extra = c.extra ∧ c'.P = c.P) → Appends [] f :=
    appends_none
  have hrun : Appends (L := L) (W := W) (m := m) [] (runWaterAct g) := by
    refine hq fun c c' e => ?_
    unfold runWaterAct at e
    split at e
    · simp at e
    · split at e
      · simp at e
      · simp only [Except.ok.injEq] at e
        subst e; exact ⟨rfl, rfl⟩
  have hsfc : Appends (L := L) (W := W) (m := m) (K := K) (σ := σ) [] freeSurfaceAct := by
    refine hq fun c c' e => ?_
    unfold freeSurfaceAct at e
    split at e
    · simp at e
    · simp only [Except.ok.injEq] at e
      subst e; exact ⟨rfl, rfl⟩
  have hp : ∀ k, Appends (L := L) (W := W) (m := m) [] (routeParcelsAct g k) := by
    intro k
    refine hq fun c c' e => ?_
    unfold routeParcelsAct at e
    split at e
    · simp at e
    · simp only [Except.ok.injEq] at e
      subst e; exact ⟨rfl, rfl⟩
  have hS : ∀ {f : Doing L W m K (List Ev) σ}, (∀ c, ∃ S fl ps e0, f c = .ok { c with S := S, flux := fl, parcels := ps, eta0 := e0 }) →
      Appends [] f := by
    intro f hf
    refine hq fun c c' e => ?_
    obtain ⟨S, fl, ps, e0, hS⟩ := hf c
    rw [hS] at e
    cases e
    exact ⟨rfl, rfl⟩
  have hpass : ∀ i, Appends (L := L) (W := W) (m := m) (waterIterationEvents i) (waterPass (tracer1 g) g i) := by
    intro i
    exact appends_then (hcall _ .initWaterIteration [] _ _ rfl rfl (hS fun c => ⟨_, _, _, _, rfl⟩))
      (appends_then (hcall _ .runWaterIteration [] _ _ rfl rfl hrun)
      (appends_then (hcall _ .computeFreeSurface [] _ _ rfl rfl hsfc)
      (hcall _ (.finalizeWaterIteration i) [] _ _ rfl rfl (hS fun c => ⟨_, _, _, _, rfl⟩))))
  have hpasses : ∀ n i, Appends (L := L) (W := W) (m := m) ((List.range' i n).flatMap waterIterationEvents)
      (waterPasses (tracer1 g) g i n) := by
    intro n
    induction n with
    | zero =>
      intro i
      refine appends_none fun c c' e => ?_
      simp only [waterPasses, Except.ok.injEq] at e
      subst e; exact ⟨rfl, rfl⟩
    | succ n ih =>
      intro i
      rw [List.range'_succ, List.flatMap_cons, waterPasses]
      exact appends_then (hpass i) (ih (i + 1))
  have hw : ∀ d d' : Custom L W m K (List Ev) σ, routeWaterAct (tracer1 g) g d = .ok d' →
      d'.extra = d.extra ++ routeWaterEvents d.P.itermax ∧ d'.P = d.P := by
    intro d d' e
    unfold routeWaterAct at e
    have := hpasses d.P.itermax 0 d d' e
    rw [← List.range_eq_range'] at this
    exact this
  have hsed : Appends (L := L) (W := W) (m := m) routeSedimentEvents (routeSedimentAct (tracer1 g) g) :=
    appends_then (hcall _ .initSedimentIteration [] _ _ rfl rfl (hS fun c => ⟨_, _, _, _, rfl⟩))
      (appends_then (hcall _ .routeAllSandParcels [] _ _ rfl rfl (hp _))
      (appends_then (hcall _ .topoDiffusion [] _ _ rfl rfl (hS fun c => ⟨_, _, _, _, rfl⟩))
      (hcall _ .routeAllMudParcels [] _ _ rfl rfl (hp _))))
  have hfin : Appends (L := L) (W := W) (m := m) (finalizeTimestepEvents ++ []) (finalizeAct (tracer1 g)) :=
    appends_then (l := []) (hS fun c => ⟨_, _, _, _, rfl⟩) (appends_then
      (hcall _ .computeSandFrac [] _ _ rfl rfl (hS fun c => ⟨_, _, _, _, rfl⟩)) (hS fun c => ⟨_, _, _, _, rfl⟩))
  have hend := appends_then (hn (.hookAfter .routeWater)) (appends_then
    (hcall (tracer2 g) .routeSediment _ _ (routeSedimentAct (tracer2 g) g) rfl rfl hsed) (hn (.hookAfter .routeSediment)))
  have hrest := appends_then (hcall (tracer g) .applySubsidence [] _ subsidenceAct rfl rfl (hS fun c => ⟨_, _, _, _, rfl⟩))
    (appends_then (hcall (tracer g) .finalizeTimestep _ _ (finalizeAct (tracer g)) rfl rfl hfin)
      (appends_then (hn (.hookAfter .finalizeTimestep)) (hS (f := clockAct) fun c => ⟨_, _, _, _, rfl⟩)))
  obtain ⟨c2, h2, h3⟩ := andThen_ok h
  obtain ⟨a3, b3⟩ := hrest _ _ h3
  -- solve
  change Doing.andThen (note (.hook .solveWaterAndSediment)) (Doing.andThen (note (.enter .solveWaterAndSediment))
    (Doing.andThen (solveAct (tracer2 g) g) (note (.exit .solveWaterAndSediment)))) c = .ok c2 at h2
  obtain ⟨d1, g1, h2⟩ := andThen_ok h2
  obtain ⟨d2, g2, h2⟩ := andThen_ok h2
  obtain ⟨d3, g3, g4⟩ := andThen_ok h2
  change Doing.andThen keepBedAct (Doing.andThen (Doing.andThen (note (.hook .routeWater)) (Doing.andThen (note (.enter .routeWater))
    (Doing.andThen (routeWaterAct (tracer1 g) g) (note (.exit .routeWater)))))
    (Doing.andThen (note (.hookAfter .routeWater))
    (Doing.andThen (invoke (tracer2 g) .routeSediment (routeSedimentAct (tracer2 g) g)) (note (.hookAfter .routeSediment))))) d2 = .ok d3 at g3
  obtain ⟨d4, g5, g6⟩ := andThen_ok g3
  obtain ⟨d5, g7, g8⟩ := andThen_ok g6
  obtain ⟨a8, b8⟩ := hend _ _ g8
  obtain ⟨d6, g9, g10⟩ := andThen_ok g7
  obtain ⟨d7, g11, g12⟩ := andThen_ok g10
  obtain ⟨d8, g13, g14⟩ := andThen_ok g12
  obtain ⟨a13, b13⟩ := hw _ _ g13
  clear h g3 g6 g7 g10 g12
  cases g1
  cases g2
  cases g5
  cases g9
  cases g11
  cases g14
  cases g4
  rw [a3, a8, a13]
  dsimp only
  unfold updateEvents solveEvents
  generalize routeWaterEvents c.P.itermax = l
  simp [List.append_assoc]

/-! ## Examples -/

/-- A class that digs out one cell before every timestep, and counts the times. -/
def digger : UserClass 4 3 1 ℚ ℕ Unit :=
  { plainClass with hook := fun s c => match s with
    | .solveWaterAndSediment => .ok { c with
        S := { c.S with eta := fun x => if x = (2, 1) then c.S.eta x - 1 else c.S.eta x }, extra := c.extra + 1 }
    | _ => .ok c }

/-- The model of the example. -/
def exCustom (α : Type*) (a : α) : Custom 4 3 1 ℚ α Unit :=
  ⟨exParams, exParams, exState, exState.eta, ⟨fun _ => 0, fun _ => 0, fun _ => 0⟩, [], a, ()⟩

lemma exCustom_fit (α : Type*) (a : α) : FitModel (exCustom α a) where
  water := exSetup
  sediment := exSedDomain
  h0 := by norm_num [exCustom, exParams]
  depth := by intro x; norm_num [exCustom, exState]
  ncols := by norm_num [exCustom, exState]
  walks := ⟨[], List.Forall₂.nil⟩

lemma digger_serves : All (Serves FitModel) digger where
  hook := by
    intro s c hc
    cases s <;> first | exact ⟨c, rfl, hc⟩ | exact ⟨_, rfl, { hc with }⟩
  after := fun _ c hc => ⟨c, rfl, hc⟩
  own := by intro s f h; cases h

-- ten updates of the digger
example : ∃ c', customRun digger constRng 10 (exCustom ℕ 0) = .ok c' := by
  obtain ⟨c', h, -⟩ := C112_safe digger_serves exPositive 10 (exCustom_fit ℕ 0)
  exact ⟨c', h⟩

-- after its update bed, depth and surface fit together, and what it has dug out is not taken for erosion
example : ∃ c', customStep digger constRng (exCustom ℕ 0) = .ok c' ∧ Fitting c'.P c'.S (c'.S.HSL - c'.P.SLR * c'.P.dt) ∧
    c'.eta0 (2, 1) = exState.eta (2, 1) - 1 := by
  obtain ⟨c', h, -⟩ := C112_safe digger_serves exPositive 1 (exCustom_fit ℕ 0)
  have h' : customStep digger constRng (exCustom ℕ 0) = .ok c' := by
    obtain ⟨c1, h1, h2⟩ := andThen_ok h
    cases h2
    exact h1
  refine ⟨c', h', C112_fitting h' rfl ?_ ?_ ?_, ?_⟩
  · intro d d' e; cases e; exact ⟨rfl, rfl, rfl, rfl, rfl⟩
  · intro f e; cases e
  · intro d d' e; cases e; exact ⟨rfl, rfl, rfl, rfl, rfl⟩
  · have hk : All (fun f => ∀ d d', f d = .ok d' → d'.eta0 = d.eta0) digger :=
      ⟨by intro s d d' e; cases s <;> (cases e; rfl), by intro s d d' e; cases e; rfl, by intro s f e; cases e⟩
    obtain ⟨c1, h1, h2⟩ := C112_compared h' rfl hk
    cases h1
    rw [h2]
    simp [exCustom]

lemma recorder_looks : OnlyLooks (recorder : UserClass L W m K (List Ev) σ) :=
  ⟨fun _ _ => ⟨_, rfl⟩, fun _ _ => ⟨_, rfl⟩, fun _ => rfl⟩

-- the recorder runs as a model without hooks does, and its list is that of C47
example : ∃ c', customStep recorder constRng (exCustom (List Ev) []) = .ok c' ∧
    c'.extra ++ [.hook .outputData, .hook .outputCheckpoint] = (updateEvents exParams.itermax).filter isHook ∧
    (timestep constRng exParams exState ()).map (fun r => r.1) = .ok c'.S := by
  have hq := C112_quiet recorder_looks constRng (exCustom (List Ev) [])
  have e2 : timestep2 constRng exParams exParams exState () = timestep constRng exParams exState () := timestep2_eq rfl _ _
  change _ = (timestep2 constRng exParams exParams exState ()).map fun r => (exParams, exParams, r.1, r.2.2) at hq
  rw [e2] at hq
  obtain ⟨S', l, s', h, -⟩ := C71_update exPositive exSetup exSedDomain (S := exState) (by intro x; norm_num [exState])
    (by norm_num [exState]) ()
  rw [h] at hq ⊢
  generalize hr : customStep recorder constRng (exCustom (List Ev) []) = r at hq
  cases r with
  | error e => simp [Except.map] at hq
  | ok c' =>
    refine ⟨c', rfl, by have := C112_calls hr; simpa [exCustom] using this, ?_⟩
    simp only [Except.map, Except.ok.injEq, shown, Prod.mk.injEq] at hq ⊢
    exact hq.2.2.1.symm

lemma tracer_serves {g : Rng K σ} (hg : PositiveDraws g) :
    All (Serves FitModel) (tracer g : UserClass L W m K (List Ev) σ) := by
  have r := serves_rule (L := L) (W := W) (m := m) (σ := σ) (α := List Ev) (FitModel (K := K))
  have hn : ∀ e : Ev, Serves (FitModel (L := L) (W := W) (m := m) (K := K) (σ := σ)) (note e) :=
    fun e d hd => ⟨_, rfl, { hd with }⟩
  have ht : ∀ {s : Step} {f f' : Doing L W m K (List Ev) σ}, Serves FitModel f → traced s f = some f' → Serves FitModel f' := by
    intro s f f' hf e
    cases e
    exact r.seq _ _ (hn _) (r.seq _ _ hf (hn _))
  have hl := fit_leaves (L := L) (W := W) (m := m) (α := List Ev) hg
  have h1 : All (Serves FitModel) (tracer1 g : UserClass L W m K (List Ev) σ) := by
    refine ⟨fun s => hn _, fun s => hn _, fun s f e => ?_⟩
    cases s
    case initWaterIteration => exact ht hl.initWater e
    case runWaterIteration => exact ht hl.runWater e
    case computeFreeSurface => exact ht hl.freeSurface e
    case finalizeWaterIteration i => exact ht (hl.finalizeWater i) e
    case initSedimentIteration => exact ht hl.initSediment e
    case routeAllSandParcels => exact ht (hl.parcels _) e
    case topoDiffusion => exact ht hl.diffusion e
    case routeAllMudParcels => exact ht (hl.parcels _) e
    case computeSandFrac => exact ht hl.sandFrac e
    case applySubsidence => exact ht hl.subsidence e
    all_goals cases e
  have h2 : All (Serves FitModel) (tracer2 g : UserClass L W m K (List Ev) σ) := by
    refine ⟨fun s => hn _, fun s => hn _, fun s f e => ?_⟩
    have h := h1.own s f
    cases s
    case routeWater => exact ht (water_rule r h1 hl) e
    case routeSediment =>
      exact ht (r.seq _ _ (invoke_rule r h1 _ hl.initSediment) (r.seq _ _ (invoke_rule r h1 _ (hl.parcels .sand))
        (r.seq _ _ (invoke_rule r h1 _ hl.diffusion) (invoke_rule r h1 _ (hl.parcels .mud))))) e
    case finalizeTimestep =>
      exact ht (r.seq _ _ hl.settle (r.seq _ _ (invoke_rule r h1 _ hl.sandFrac) hl.seaLevel)) e
    all_goals exact h e
  refine ⟨fun s => hn _, fun s => hn _, fun s f e => ?_⟩
  have h := h2.own s f
  cases s
  case solveWaterAndSediment => exact ht (r.seq _ _ fit_bed (solve_rest r h2 hl)) e
  all_goals exact h e

-- so does the class with its own versions of all methods
example : ∃ c', customStep (tracer constRng) constRng (exCustom (List Ev) []) = .ok c' ∧
    c'.extra ++ [.hook .outputData, .enter .outputData, .exit .outputData, .hook .outputCheckpoint, .enter .outputCheckpoint,
      .exit .outputCheckpoint] = updateEvents exParams.itermax := by
  obtain ⟨c', h, -⟩ := C112_safe (tracer_serves exPositive) exPositive 1 (exCustom_fit (List Ev) [])
  obtain ⟨c1, h1, h2⟩ := andThen_ok h
  cases h2
  exact ⟨_, h1, C112_traced h1⟩

/-- A class that lowers the bed after `finalize_timestep`. -/
def lateDigger : UserClass L W m K α σ :=
  { plainClass with after := fun s c => match s with
    | .finalizeTimestep => .ok { c with S := { c.S with eta := fun x => c.S.eta x - 1 } }
    | _ => .ok c }

lemma late_step (g : Rng K σ) (c : Custom L W m K α σ) : customStep lateDigger g c = (customStep plainClass g c).map
    fun c => { c with S := { c.S with eta := fun x => c.S.eta x - 1 } } := by
  have hp : ∀ n i, waterPasses (α := α) lateDigger g i n = waterPasses (L := L) (W := W) (m := m) plainClass g i n := by
    intro n
    induction n with
    | zero => intro i; rfl
    | succ n ih =>
      intro i
      rw [waterPasses, waterPasses, ih]
      rfl
  have hr : routeWaterAct (α := α) lateDigger g = routeWaterAct (L := L) (W := W) (m := m) plainClass g := by
    funext c
    exact congrFun (hp _ _) c
  have hs : solveAct (α := α) lateDigger g = solveAct (L := L) (W := W) (m := m) plainClass g := by
    unfold solveAct
    rw [hr]
    rfl
  unfold customStep
  rw [hs]
  change Doing.andThen (invoke plainClass .solveWaterAndSediment (solveAct plainClass g))
    (Doing.andThen (invoke plainClass .applySubsidence subsidenceAct)
      (Doing.andThen (invoke plainClass .finalizeTimestep (finalizeAct plainClass))
        (Doing.andThen (lateDigger.after .finalizeTimestep) clockAct))) c = _
  unfold Doing.andThen
  generalize invoke plainClass .solveWaterAndSediment (solveAct plainClass g) c = r
  cases r with
  | error e => rfl
  | ok c1 =>
    dsimp only
    generalize invoke plainClass .applySubsidence subsidenceAct c1 = r
    cases r with
    | error e => rfl
    | ok c2 =>
      dsimp only
      generalize invoke plainClass .finalizeTimestep (finalizeAct plainClass) c2 = r
      cases r with
      | error e => rfl
      | ok c3 => rfl

/-- C112: the restriction in `C112_fitting` cannot be left out: a class that changes the bed in the hook after
`finalize_timestep` ends its updates with a depth that is not what is between bed and surface. -/
theorem C112_late_witness : ∃ c' : Custom 4 3 1 ℚ Unit Unit, customStep lateDigger constRng (exCustom Unit ()) = .ok c' ∧
    ∀ H, ¬ Fitting c'.P c'.S H := by
  obtain ⟨d, h, -⟩ := C112_safe (U := plainClass) ⟨fun _ c hc => ⟨c, rfl, hc⟩, fun _ c hc => ⟨c, rfl, hc⟩, by
    intro s f h; cases h⟩ exPositive 1 (exCustom_fit Unit ())
  have h' : customStep plainClass constRng (exCustom Unit ()) = .ok d := by
    obtain ⟨c1, h1, h2⟩ := andThen_ok h
    cases h2
    exact h1
  have hf : Fitting d.P d.S (d.S.HSL - d.P.SLR * d.P.dt) := C112_fitting h' rfl
    (by intro d d' e; cases e; exact ⟨rfl, rfl, rfl, rfl, rfl⟩) (by intro f e; cases e)
    (by intro d d' e; cases e; exact ⟨rfl, rfl, rfl, rfl, rfl⟩)
  refine ⟨_, by rw [late_step, h']; rfl, fun H hH => ?_⟩
  have h1 := (hf.inlet 0).2
  have h2 := (hH.inlet 0).2
  dsimp only at h2
  linarith

end Verif.Props
