import Verif.Props.Timestep
import Verif.Props.SedRules

/-!
# Runs: the properties of water and sediment routing in whole runs (C20 to C26)
-/

set_option linter.unusedSectionVars false
set_option linter.unusedSimpArgs false

namespace Verif.Props

open Verif.Model Verif.Lemmas Verif.Spec

variable {K : Type*} [Field K] [LinearOrder K] [IsStrictOrderedRing K] [FloorRing K] {σ : Type*}
  {L W m : ℕ} [NeZero L] [NeZero W]

/-- Settings as the initialization makes them, as far as the budgets and bounds of a timestep depend
on them: coefficients in their ranges, at least one water iteration, and `nrm` a length. -/
structure RunSetup (P : Params L W m K) : Prop where
  sed : SedSetup P
  itermax : 0 < P.itermax
  dry : 0 ≤ P.dryDepth
  nrm : ∀ x y, 0 ≤ P.nrm x y
  nrm0 : P.nrm P.qw0 0 = P.qw0
  h0 : 0 ≤ P.h0

lemma watered_flowOk {g : Rng K σ} {P : Params L W m K} (hP : RunSetup P) {S S' : State L W K}
    {s s' : σ} (h : routeWater g P S s = .ok (S', s')) : FlowOk P S' := by
  intro c
  have hv := C21_route hP.sed.uMax hP.dry hP.itermax h
  have hq := C20_route hP.nrm0 hP.itermax h
  exact ⟨(hv.bounds c).1, (hv.bounds c).2, by rw [hq.magnitude c]; exact hP.nrm _ _⟩

/-- The parcels of one timestep: sand and mud are routed in this order, on physical flow fields. -/
lemma step_routings {g : Rng K σ} {P : Params L W m K} (hP : RunSetup P) {S S' : State L W K}
    {s s' : σ} {l : StepLog L W K} (h : timestep g P S s = .ok (S', l, s')) :
    (∃ S1 s1 s2, FlowOk P (initSediment l.watered) ∧
        routeParcels g .sand P (initSediment l.watered) s1 = .ok (S1, l.sand, s2) ∧
      let S2 := { S1 with eta := topoDiffusion P.cellType P.diffMult S1.qs P.Ncross S1.eta }
      FlowOk P S2 ∧ routeParcels g .mud P S2 s2 = .ok (l.routed, l.mud, s')) ∧ FlowOk P l.routed := by
  obtain ⟨s1, h1, h2, -, -⟩ := timestep_ok h
  obtain ⟨S1, s2, h3, h4⟩ := routeSediment_ok h2
  have f0 := watered_flowOk hP h1
  have f1 : FlowOk P (initSediment l.watered) := f0
  have f2 := (route_inv hP.sed f1 h3).1
  have f3 : FlowOk P { S1 with
    eta := topoDiffusion P.cellType P.diffMult S1.qs P.Ncross S1.eta } := f2
  exact ⟨⟨S1, s1, s2, f1, h3, f3, h4⟩, (route_inv hP.sed f3 h4).1⟩

/-- Every parcel of a run. -/
def EachParcel (ls : List (StepLog L W K)) (Q : SedLog L W K → Prop) : Prop :=
  ∀ l ∈ ls, (∀ p ∈ l.sand, Q p) ∧ ∀ p ∈ l.mud, Q p

lemma each_parcel {g : Rng K σ} {P : Params L W m K} (hP : RunSetup P)
    {Q : SedLog L W K → Prop}
    (hQ : ∀ (k : Sed) (T T' : State L W K) (s s' : σ) (logs : List (SedLog L W K)), FlowOk P T →
      routeParcels g k P T s = .ok (T', logs, s') → ∀ p ∈ logs, Q p)
    {n : ℕ} {S S' : State L W K} {s s' : σ} {ls : List (StepLog L W K)}
    (h : timesteps g (List.replicate n P) S s = .ok (S', ls, s')) : EachParcel ls Q := by
  refine (timesteps_inv (g := g) (A := fun Q => Q = P) (I := fun _ => True)
    (J := fun l => (∀ p ∈ l.sand, Q p) ∧ ∀ p ∈ l.mud, Q p) ?_ h
    (fun Q hQ => List.eq_of_mem_replicate hQ) trivial).2
  rintro P' T s T' l s' rfl - ht
  obtain ⟨⟨S1, s1, s2, f1, h1, f2, h2⟩, -⟩ := step_routings hP ht
  exact ⟨trivial, hQ _ _ _ _ _ _ f1 h1, hQ _ _ _ _ _ _ f2 h2⟩

/-- C22 in runs: in every step of every parcel of every timestep the bed of one cell changes by at
most a quarter of its depth, no other bed changes, and nothing is deposited on emergent ground. -/
theorem C22_run {g : Rng K σ} {P : Params L W m K} (hP : RunSetup P) {n : ℕ}
    {S S' : State L W K} {s s' : σ} {ls : List (StepLog L W K)}
    (h : timesteps g (List.replicate n P) S s = .ok (S', ls, s')) :
    EachParcel ls (fun p => ∀ r ∈ p.steps,
      |r.after.eta r.cell - r.before.eta r.cell| ≤ |r.before.stage r.cell - r.before.eta r.cell| / 4 ∧
      (r.before.stage r.cell < r.before.eta r.cell → r.after.eta r.cell ≤ r.before.eta r.cell) ∧
      ∀ c, c ≠ r.cell → r.after.eta c = r.before.eta c) := by
  refine each_parcel hP ?_ h
  intro k T T' s s' logs hf hr p hp r hr'
  have hd : 0 < P.dx * P.dx := mul_pos hP.sed.dx hP.sed.dx
  obtain ⟨he, -, -, -, hb, hc⟩ := ((route_inv hP.sed hf hr).2 p hp).2 r hr'
  have e : r.after.eta r.cell - r.before.eta r.cell = r.change / (P.dx * P.dx) := by
    rw [he.bed, Function.update_self, add_sub_cancel_left]
  refine ⟨?_, ?_, ?_⟩
  · rw [e, abs_div, abs_of_pos hd, div_le_iff₀ hd]; exact hb
  · intro h1
    have := div_nonpos_of_nonpos_of_nonneg (hc h1) hd.le
    linarith
  · intro c hc
    rw [he.bed, Function.update_of_ne hc]

/-- C23 in runs: no parcel of any timestep ever carries a negative volume. -/
theorem C23_run {g : Rng K σ} {P : Params L W m K} (hP : RunSetup P) {n : ℕ}
    {S S' : State L W K} {s s' : σ} {ls : List (StepLog L W K)}
    (h : timesteps g (List.replicate n P) S s = .ok (S', ls, s')) :
    EachParcel ls (fun p => 0 ≤ p.left ∧ ∀ r ∈ p.steps, 0 ≤ r.res) := by
  refine each_parcel hP ?_ h
  intro k T T' s s' logs hf hr p hp
  obtain ⟨a, -, -, -, b⟩ := C23_carried hP.sed hf hr p hp
  exact ⟨a, b⟩

/-- C26 in runs: the flow fields that each step of each parcel leaves are physical. -/
theorem C26_run {g : Rng K σ} {P : Params L W m K} (hP : RunSetup P) {n : ℕ}
    {S S' : State L W K} {s s' : σ} {ls : List (StepLog L W K)}
    (h : timesteps g (List.replicate n P) S s = .ok (S', ls, s')) :
    EachParcel ls (fun p => ∀ r ∈ p.steps,
      r.after.depth r.cell = max 0 (r.after.stage r.cell - r.after.eta r.cell) ∧
      (∀ c, 0 ≤ r.after.uw c ∧ r.after.uw c ≤ P.uMax) ∧ r.after.stage = r.before.stage ∧
      r.after.qw = r.before.qw) := by
  refine each_parcel hP ?_ h
  intro k T T' s s' logs hf hr p hp r hr'
  obtain ⟨a, -, -, b, -, c, d, -, -⟩ := C26_steps hP.sed hf hr p hp r hr'
  exact ⟨a, b, c, d⟩

/-- C20 in runs: at the end of every timestep the discharge magnitude is the length of the discharge
vector and inlet cells carry the inlet discharge downstream. -/
theorem C20_run {g : Rng K σ} {Ps : List (Params L W m K)} {P : Params L W m K} (hP : RunSetup P)
    {S S' : State L W K} {s s' : σ} {ls : List (StepLog L W K)}
    (h : timesteps g (Ps ++ [P]) S s = .ok (S', ls, s')) : DischargeConsistent P S' := by
  obtain ⟨S1, ls1, l, s1, h1, h2, rfl⟩ := timesteps_snoc h
  obtain ⟨s2, h3, -, -, -⟩ := timestep_ok h2
  obtain ⟨r, -⟩ := step_result h2
  have hq := C20_route hP.nrm0 hP.itermax h3
  obtain ⟨f1, f2, f3, -⟩ := r.flow
  constructor
  · intro c; rw [f1, f2, f3]; exact hq.magnitude c
  · intro c hc; rw [f1, f2, f3]; exact hq.inlet c hc

/-- C21 in runs: at the end of every timestep the speed is in [0, u_max] in every cell. -/
theorem C21_run {g : Rng K σ} {Ps : List (Params L W m K)} {P : Params L W m K} (hP : RunSetup P)
    {S S' : State L W K} {s s' : σ} {ls : List (StepLog L W K)}
    (h : timesteps g (Ps ++ [P]) S s = .ok (S', ls, s')) (c : Cell L W) :
    0 ≤ S'.uw c ∧ S'.uw c ≤ P.uMax := by
  obtain ⟨S1, ls1, l, s1, h1, h2, rfl⟩ := timesteps_snoc h
  obtain ⟨-, f⟩ := step_routings hP h2
  obtain ⟨r, -⟩ := step_result h2
  rw [r.flow.2.2.2.2.2.1]
  exact ⟨(f c).1, (f c).2.1⟩

/-- C24 for a whole timestep: where the change of the bed volume comes from: the sand and mud left by
the parcels, diffusion of the bed after the sand routing (`S1`), subsidence, and the reset of the
inlet cells. -/
theorem C24_update {g : Rng K σ} {P : Params L W m K} (hdx : P.dx ≠ 0) {S S' : State L W K}
    {s s' : σ} {l : StepLog L W K} (h : timestep g P S s = .ok (S', l, s')) :
    ∃ S1 : State L W K, bedVolume P.dx S' = bedVolume P.dx S
      + (l.sand.map (fun p => P.VpSed - p.left)).sum + (l.mud.map (fun p => P.VpSed - p.left)).sum
      + (∑ c, topoDiffusion P.cellType P.diffMult S1.qs P.Ncross S1.eta c - ∑ c, S1.eta c) * P.dx ^ 2
      - (∑ c, if P.toggleSub = true ∧ P.startSub ≤ S.time then P.sigma c else 0) * P.dx ^ 2
      + (∑ c, if isInlet P.inlet c = true then S'.stage c - P.h0 - (l.routed.eta c -
          if P.toggleSub = true ∧ P.startSub ≤ S.time then P.sigma c else 0) else 0) * P.dx ^ 2 := by
  obtain ⟨s1, h1, h2, h3, -⟩ := timestep_ok h
  obtain ⟨r, -⟩ := step_result h
  obtain ⟨S1, e1, e2⟩ := C24_sediment_routing hdx h2
  refine ⟨S1, ?_⟩
  have hw : bedVolume P.dx l.watered = bedVolume P.dx S := by
    unfold bedVolume; rw [(routeWater_frame h1).1]
  have hcell : ∀ c, S'.eta c = l.routed.eta c
      - (if P.toggleSub = true ∧ P.startSub ≤ S.time then P.sigma c else 0)
      + (if isInlet P.inlet c = true then S'.stage c - P.h0 - (l.routed.eta c -
          if P.toggleSub = true ∧ P.startSub ≤ S.time then P.sigma c else 0) else 0) := by
    intro c
    by_cases hc : isInlet P.inlet c = true
    · rw [if_pos hc, r.inletBed c ((isInlet_iff P c).1 hc)]; ring
    · rw [if_neg hc, r.bed c (fun hi => hc ((isInlet_iff P c).2 hi)), h3, add_zero]
  have e : ∀ T : State L W K, bedVolume P.dx T = (∑ c, T.eta c) * P.dx ^ 2 := by
    intro T; unfold bedVolume; rw [← Finset.sum_mul, sq]
  have hS' : bedVolume P.dx S' = bedVolume P.dx l.routed
      - (∑ c, if P.toggleSub = true ∧ P.startSub ≤ S.time then P.sigma c else 0) * P.dx ^ 2
      + (∑ c, if isInlet P.inlet c = true then S'.stage c - P.h0 - (l.routed.eta c -
          if P.toggleSub = true ∧ P.startSub ≤ S.time then P.sigma c else 0) else 0) * P.dx ^ 2 := by
    rw [e, e, Finset.sum_congr rfl (fun c _ => hcell c), Finset.sum_add_distrib,
      Finset.sum_sub_distrib]
    ring
  rw [hS', e2, ← hw]
  linear_combination e1

/-! ## Non-trivial case -/

lemma exRunSetup : RunSetup exParams where
  sed := exSedSetup
  itermax := by norm_num [exParams]
  dry := by norm_num [exParams]
  nrm := fun x y => by simp only [exParams]; positivity
  nrm0 := by norm_num [exParams]
  h0 := by norm_num [exParams]

end Verif.Props
