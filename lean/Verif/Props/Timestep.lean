import Verif.Model.Timestep
import Verif.Props.Diffusion

/-!
# Whole timesteps and runs (C32 to C38, C71)
-/

set_option linter.unusedSectionVars false
set_option linter.unusedSimpArgs false

namespace Verif.Props

open Verif.Model Verif.Lemmas Verif.Spec

variable {K : Type*} [Field K] [LinearOrder K] [IsStrictOrderedRing K] [FloorRing K] {σ : Type*}
  {L W m : ℕ} [NeZero L] [NeZero W]

/-! ## Taking a timestep apart -/

lemma timestep_ok {g : Rng K σ} {P : Params L W m K} {S S' : State L W K} {s s' : σ}
    {l : StepLog L W K} (h : timestep g P S s = .ok (S', l, s')) :
    ∃ s1, routeWater g P S s = .ok (l.watered, s1) ∧
      routeSediment g P l.watered s1 = .ok (l.routed, l.sand, l.mud, s') ∧ l.start = S ∧
      S' = { finalizeTimestep P S.eta (applySubsidence P l.routed) with
        time := (finalizeTimestep P S.eta (applySubsidence P l.routed)).time + P.dt
        timeIter := (finalizeTimestep P S.eta (applySubsidence P l.routed)).timeIter + 1 } := by
  unfold timestep at h
  generalize h1 : routeWater g P S s = x at h
  cases x with
  | error e => simp at h
  | ok v =>
    obtain ⟨S1, s1⟩ := v
    simp only at h
    generalize h2 : routeSediment g P S1 s1 = y at h
    cases y with
    | error e => simp at h
    | ok v =>
      obtain ⟨S2, sand, mud, s2⟩ := v
      simp only [Except.ok.injEq, Prod.mk.injEq] at h
      obtain ⟨rfl, rfl, rfl⟩ := h
      exact ⟨s1, rfl, h2, rfl, rfl⟩

lemma timesteps_cons {g : Rng K σ} {P : Params L W m K} {Ps : List (Params L W m K)}
    {S S' : State L W K} {s s' : σ} {ls : List (StepLog L W K)}
    (h : timesteps g (P :: Ps) S s = .ok (S', ls, s')) :
    ∃ S1 l s1 ls1, timestep g P S s = .ok (S1, l, s1) ∧
      timesteps g Ps S1 s1 = .ok (S', ls1, s') ∧ ls = l :: ls1 := by
  unfold timesteps at h
  generalize h1 : timestep g P S s = x at h
  cases x with
  | error e => simp at h
  | ok v =>
    obtain ⟨S1, l, s1⟩ := v
    simp only at h
    generalize h2 : timesteps g Ps S1 s1 = y at h
    cases y with
    | error e => simp at h
    | ok v =>
      obtain ⟨S2, ls1, s2⟩ := v
      simp only [Except.ok.injEq, Prod.mk.injEq] at h
      obtain ⟨rfl, rfl, rfl⟩ := h
      exact ⟨S1, l, s1, ls1, rfl, h2, rfl⟩

lemma timesteps_snoc {g : Rng K σ} {P : Params L W m K} : ∀ {Ps : List (Params L W m K)}
    {S S' : State L W K} {s s' : σ} {ls : List (StepLog L W K)},
    timesteps g (Ps ++ [P]) S s = .ok (S', ls, s') →
    ∃ S1 ls1 l s1, timesteps g Ps S s = .ok (S1, ls1, s1) ∧
      timestep g P S1 s1 = .ok (S', l, s') ∧ ls = ls1 ++ [l] := by
  intro Ps
  induction Ps with
  | nil =>
    intro S S' s s' ls h
    obtain ⟨S1, l, s1, ls1, h1, h2, rfl⟩ := timesteps_cons h
    simp only [timesteps, Except.ok.injEq, Prod.mk.injEq] at h2
    obtain ⟨rfl, rfl, rfl⟩ := h2
    exact ⟨S, [], l, s, rfl, h1, rfl⟩
  | cons Q Qs ih =>
    intro S S' s s' ls h
    obtain ⟨S1, l, s1, ls1, h1, h2, rfl⟩ := timesteps_cons h
    obtain ⟨S2, ls2, l2, s2, h3, h4, rfl⟩ := ih h2
    refine ⟨S2, l :: ls2, l2, s2, ?_, h4, rfl⟩
    unfold timesteps
    simp only [h1, h3]

/-- Invariants of runs. -/
lemma timesteps_inv {g : Rng K σ} {A : Params L W m K → Prop} {I : State L W K → Prop}
    {J : StepLog L W K → Prop}
    (hstep : ∀ P S s S' l s', A P → I S → timestep g P S s = .ok (S', l, s') → I S' ∧ J l) :
    ∀ {Ps : List (Params L W m K)} {S S' : State L W K} {s s' : σ} {ls : List (StepLog L W K)},
    timesteps g Ps S s = .ok (S', ls, s') → (∀ P ∈ Ps, A P) → I S → I S' ∧ ∀ l ∈ ls, J l := by
  intro Ps
  induction Ps with
  | nil =>
    intro S S' s s' ls h _ hI
    simp only [timesteps, Except.ok.injEq, Prod.mk.injEq] at h
    obtain ⟨rfl, rfl, rfl⟩ := h
    exact ⟨hI, by simp⟩
  | cons P Ps ih =>
    intro S S' s s' ls h hA hI
    obtain ⟨S1, l, s1, ls1, h1, h2, rfl⟩ := timesteps_cons h
    obtain ⟨a, b⟩ := hstep _ _ _ _ _ _ (hA P List.mem_cons_self) hI h1
    obtain ⟨e, f⟩ := ih h2 (fun Q hQ => hA Q (List.mem_cons_of_mem _ hQ)) a
    refine ⟨e, ?_⟩
    intro x hx
    rcases List.mem_cons.1 hx with rfl | hx
    · exact b
    · exact f x hx

/-- What the routing of parcels leaves alone. -/
lemma routeParcels_frame {g : Rng K σ} {k : Sed} {P : Params L W m K} {S S' : State L W K} {s s' : σ}
    {logs : List (SedLog L W K)} (h : routeParcels g k P S s = .ok (S', logs, s')) :
    S'.stage = S.stage ∧ S'.qx = S.qx ∧ S'.qy = S.qy ∧ S'.qw = S.qw ∧ S'.sandFrac = S.sandFrac ∧
      S'.activeLayer = S.activeLayer ∧ S'.HSL = S.HSL ∧ S'.time = S.time ∧
      S'.timeIter = S.timeIter ∧ S'.ncols = S.ncols := by
  obtain ⟨⟨st, a, rfl⟩, -⟩ := routeParcels_inv (g := g) (k := k) (P := P)
    (fun st => st.S.stage = S.stage ∧ st.S.qx = S.qx ∧ st.S.qy = S.qy ∧ st.S.qw = S.qw ∧
      st.S.sandFrac = S.sandFrac ∧ st.S.activeLayer = S.activeLayer ∧ st.S.HSL = S.HSL ∧
      st.S.time = S.time ∧ st.S.timeIter = S.timeIter ∧ st.S.ncols = S.ncols) (fun _ => True)
    (by intro st c hI; cases k <;> exact hI) (by
      intro st px py res s st1 res1 r s1 hI hs
      have he := stepEffect hs
      obtain ⟨c0, d, c', cp, w, -, -, -, -, -, -, -, -, -, -, -, -, hb, -, -, -, h1, -⟩ :=
        sedStep_ok hs
      refine ⟨?_, trivial⟩
      rw [fieldsAt_frame] at hb
      rw [h1, he.stage, he.discharge.1, he.discharge.2.1, he.discharge.2.2, he.kept.1, he.kept.2.1,
        he.kept.2.2.1, he.kept.2.2.2.1, he.kept.2.2.2.2.1, he.kept.2.2.2.2.2, hb]
      exact hI) h ⟨rfl, rfl, rfl, rfl, rfl, rfl, rfl, rfl, rfl, rfl⟩
  exact a

lemma routeSediment_frame {g : Rng K σ} {P : Params L W m K} {S S' : State L W K} {s s' : σ}
    {sand mud : List (SedLog L W K)} (h : routeSediment g P S s = .ok (S', sand, mud, s')) :
    S'.stage = S.stage ∧ S'.qx = S.qx ∧ S'.qy = S.qy ∧ S'.qw = S.qw ∧ S'.sandFrac = S.sandFrac ∧
      S'.activeLayer = S.activeLayer ∧ S'.HSL = S.HSL ∧ S'.time = S.time ∧
      S'.timeIter = S.timeIter ∧ S'.ncols = S.ncols := by
  obtain ⟨S1, s1, h1, h2⟩ := routeSediment_ok h
  obtain ⟨a1, a2, a3, a4, a5, a6, a7, a8, a9, a10⟩ := routeParcels_frame h1
  obtain ⟨b1, b2, b3, b4, b5, b6, b7, b8, b9, b10⟩ := routeParcels_frame h2
  exact ⟨b1.trans a1, b2.trans a2, b3.trans a3, b4.trans a4, b5.trans a5, b6.trans a6, b7.trans a7,
    b8.trans a8, b9.trans a9, b10.trans a10⟩

lemma applySubsidence_frame (P : Params L W m K) (S : State L W K) :
    applySubsidence P S = { S with eta := fun c => S.eta c -
      if P.toggleSub = true ∧ P.startSub ≤ S.time then P.sigma c else 0 } := by
  unfold applySubsidence
  by_cases h1 : P.toggleSub = true <;> by_cases h2 : P.startSub ≤ S.time <;> simp [h1, h2]

/-- The values of the new state in terms of the state after the sediment routing. -/
structure StepResult (P : Params L W m K) (l : StepLog L W K) (S' : State L W K) : Prop where
  stage : ∀ c, S'.stage c = max (floodingCorrection (applySubsidence P l.routed).eta l.routed.depth
    l.routed.stage P.dryDepth c) l.start.HSL
  bed : ∀ c, ¬ InletCell P c → S'.eta c = l.routed.eta c -
    if P.toggleSub = true ∧ P.startSub ≤ l.start.time then P.sigma c else 0
  inletBed : ∀ c, InletCell P c → S'.eta c = S'.stage c - P.h0
  depth : ∀ c, ¬ InletCell P c → S'.depth c = max (S'.stage c - S'.eta c) 0
  inletDepth : ∀ c, InletCell P c → S'.depth c = P.h0
  sea : S'.HSL = l.start.HSL + P.SLR * P.dt
  time : S'.time = l.start.time + P.dt
  timeIter : S'.timeIter = l.start.timeIter + 1
  flow : S'.qx = l.watered.qx ∧ S'.qy = l.watered.qy ∧ S'.qw = l.watered.qw ∧
    S'.ux = l.routed.ux ∧ S'.uy = l.routed.uy ∧ S'.uw = l.routed.uw ∧ S'.qs = l.routed.qs ∧
    S'.depSand = l.routed.depSand ∧ S'.depMud = l.routed.depMud ∧ S'.ncols = l.watered.ncols

lemma step_result {g : Rng K σ} {P : Params L W m K} {S S' : State L W K} {s s' : σ}
    {l : StepLog L W K} (h : timestep g P S s = .ok (S', l, s')) :
    StepResult P l S' ∧ l.start = S := by
  obtain ⟨s1, h1, h2, h3, rfl⟩ := timestep_ok h
  obtain ⟨-, w2, w3, w4, -⟩ := routeWater_frame h1
  obtain ⟨r1, r2, r3, r4, r5, r6, r7, r8, r9, r10⟩ := routeSediment_frame h2
  refine ⟨?_, h3⟩
  have hin : ∀ c, isInlet P.inlet c = true ↔ InletCell P c := isInlet_iff P
  rw [applySubsidence_frame]
  constructor
  · intro c
    rw [h3, ← w2, ← r7, applySubsidence_frame]
    rfl
  · intro c hc
    rw [← hin] at hc
    rw [h3, ← w3, ← r8]
    simp [finalizeTimestep, computeSandFrac, assign, hc]
  · intro c hc
    rw [← hin] at hc
    simp [finalizeTimestep, computeSandFrac, assign, hc]
  · intro c hc
    rw [← hin] at hc
    simp [finalizeTimestep, computeSandFrac, assign, hc]
  · intro c hc
    rw [← hin] at hc
    simp [finalizeTimestep, computeSandFrac, assign, hc]
  · rw [h3, ← w2, ← r7]; rfl
  · rw [h3, ← w3, ← r8]; rfl
  · rw [h3, ← w4, ← r9]; rfl
  · exact ⟨r2, r3, r4, rfl, rfl, rfl, rfl, rfl, rfl, r10⟩

/-! ## C36, C37: stage, depth, bed -/

/-- C36: after a timestep depth is the positive part of stage minus bed in every cell, so never
negative, and the stage is nowhere below the sea level of that timestep. -/
theorem C36_update {g : Rng K σ} {P : Params L W m K} (h0 : 0 ≤ P.h0) {S S' : State L W K}
    {s s' : σ} {l : StepLog L W K} (h : timestep g P S s = .ok (S', l, s')) (c : Cell L W) :
    S'.depth c = max (S'.stage c - S'.eta c) 0 ∧ 0 ≤ S'.depth c ∧ S.HSL ≤ S'.stage c := by
  obtain ⟨r, e⟩ := step_result h
  have hd : S'.depth c = max (S'.stage c - S'.eta c) 0 := by
    by_cases hc : InletCell P c
    · rw [r.inletDepth c hc, r.inletBed c hc, sub_sub_cancel, max_eq_left h0]
    · exact r.depth c hc
  refine ⟨hd, by rw [hd]; exact le_max_right _ _, ?_⟩
  rw [r.stage c, ← e]
  exact le_max_right _ _

/-- C36 for runs: the state after any number of timesteps (at least one). -/
theorem C36_run {g : Rng K σ} {Ps : List (Params L W m K)} {P : Params L W m K} (h0 : 0 ≤ P.h0)
    {S S' : State L W K} {s s' : σ} {ls : List (StepLog L W K)}
    (h : timesteps g (Ps ++ [P]) S s = .ok (S', ls, s')) (c : Cell L W) :
    S'.depth c = max (S'.stage c - S'.eta c) 0 ∧ 0 ≤ S'.depth c ∧
      S'.HSL - P.SLR * P.dt ≤ S'.stage c := by
  obtain ⟨S1, ls1, l, s1, h1, h2, rfl⟩ := timesteps_snoc h
  obtain ⟨a, b, d⟩ := C36_update h0 h2 c
  obtain ⟨r, e⟩ := step_result h2
  refine ⟨a, b, ?_⟩
  rw [r.sea, e, add_sub_cancel_right]
  exact d

/-- C36: where the stage at the end of a timestep is not simply the routed water surface raised to sea
level, a dry cell next to a wet cell was flooded. -/
theorem C36_flooded {g : Rng K σ} {P : Params L W m K} (hL : 2 ≤ L) (hW : 2 ≤ W) {S S' : State L W K}
    {s s' : σ} {l : StepLog L W K} (h : timestep g P S s = .ok (S', l, s')) (c : Cell L W)
    (hc : S'.stage c ≠ max (l.watered.stage c) S.HSL) :
    l.routed.depth c ≤ P.dryDepth ∧ ∃ n, Adjacent c n ∧ P.dryDepth < l.routed.depth n := by
  obtain ⟨r, e⟩ := step_result h
  obtain ⟨s1, h1, h2, h3, -⟩ := timestep_ok h
  have hne : floodingCorrection (applySubsidence P l.routed).eta l.routed.depth l.routed.stage
      P.dryDepth c ≠ l.routed.stage c := by
    intro heq
    apply hc
    rw [r.stage c, heq, e, (routeSediment_frame h2).1]
  obtain ⟨a, b, -⟩ := C18_only_dry_shore hL hW c hne
  exact ⟨a, b⟩

/-- C37: after a timestep each inlet cell has depth `h0` and its bed is `h0` below its stage. -/
theorem C37_update {g : Rng K σ} {P : Params L W m K} {S S' : State L W K}
    {s s' : σ} {l : StepLog L W K} (h : timestep g P S s = .ok (S', l, s')) (c : Cell L W)
    (hc : InletCell P c) : S'.depth c = P.h0 ∧ S'.eta c = S'.stage c - P.h0 := by
  obtain ⟨r, -⟩ := step_result h
  exact ⟨r.inletDepth c hc, r.inletBed c hc⟩

/-- C37 for runs. -/
theorem C37_run {g : Rng K σ} {Ps : List (Params L W m K)} {P : Params L W m K}
    {S S' : State L W K} {s s' : σ} {ls : List (StepLog L W K)}
    (h : timesteps g (Ps ++ [P]) S s = .ok (S', ls, s')) (k : Fin m) :
    S'.depth (0, P.inlet k) = P.h0 ∧ S'.eta (0, P.inlet k) = S'.stage (0, P.inlet k) - P.h0 := by
  obtain ⟨S1, ls1, l, s1, h1, h2, rfl⟩ := timesteps_snoc h
  exact C37_update h2 _ ⟨by simp, k, rfl⟩

/-! ## C35: time and sea level -/

/-- C35 for changing settings: time and sea level are sums over the timesteps. -/
theorem C35_sums {g : Rng K σ} : ∀ {Ps : List (Params L W m K)} {S S' : State L W K} {s s' : σ}
    {ls : List (StepLog L W K)}, timesteps g Ps S s = .ok (S', ls, s') →
    S'.time = S.time + (Ps.map (fun P => P.dt)).sum ∧
    S'.HSL = S.HSL + (Ps.map (fun P => P.SLR * P.dt)).sum ∧
    S'.timeIter = S.timeIter + Ps.length := by
  intro Ps
  induction Ps with
  | nil =>
    intro S S' s s' ls h
    simp only [timesteps, Except.ok.injEq, Prod.mk.injEq] at h
    obtain ⟨rfl, rfl, rfl⟩ := h
    simp
  | cons P Ps ih =>
    intro S S' s s' ls h
    obtain ⟨S1, l, s1, ls1, h1, h2, rfl⟩ := timesteps_cons h
    obtain ⟨a, b, c⟩ := ih h2
    obtain ⟨r, e⟩ := step_result h1
    rw [r.time, e] at a
    rw [r.sea, e] at b
    rw [r.timeIter, e] at c
    simp only [List.map_cons, List.sum_cons, List.length_cons]
    refine ⟨by rw [a]; ring, by rw [b]; ring, by omega⟩

/-- C35: after `n` timesteps with constant settings the time is the initial time plus `n * dt`, the
sea level the initial one plus `n * SLR * dt`, and the counter has increased by `n`. -/
theorem C35_linear {g : Rng K σ} {P : Params L W m K} {n : ℕ} {S S' : State L W K} {s s' : σ}
    {ls : List (StepLog L W K)} (h : timesteps g (List.replicate n P) S s = .ok (S', ls, s')) :
    S'.time = S.time + n * P.dt ∧ S'.HSL = S.HSL + n * (P.SLR * P.dt) ∧
      S'.timeIter = S.timeIter + n := by
  obtain ⟨a, b, c⟩ := C35_sums h
  simpa using And.intro a (And.intro b c)

lemma timesteps_length {g : Rng K σ} : ∀ {Ps : List (Params L W m K)} {S S' : State L W K} {s s' : σ}
    {ls : List (StepLog L W K)}, timesteps g Ps S s = .ok (S', ls, s') → ls.length = Ps.length := by
  intro Ps
  induction Ps with
  | nil =>
    intro S S' s s' ls h
    simp only [timesteps, Except.ok.injEq, Prod.mk.injEq] at h
    obtain ⟨rfl, rfl, rfl⟩ := h
    rfl
  | cons P Ps ih =>
    intro S S' s s' ls h
    obtain ⟨S1, l, s1, ls1, h1, h2, rfl⟩ := timesteps_cons h
    simp [ih h2]

/-! ## C34: subsidence -/

/-- C34: in one timestep, the bed of a cell outside the inlet ends as the sediment routing left it,
lowered by `sigma` if subsidence is on and the timestep began at or after `start_subsidence`. -/
theorem C34_update {g : Rng K σ} {P : Params L W m K} {S S' : State L W K}
    {s s' : σ} {l : StepLog L W K} (h : timestep g P S s = .ok (S', l, s')) (c : Cell L W)
    (hc : ¬ InletCell P c) :
    S'.eta c = l.routed.eta c -
      if P.toggleSub = true ∧ P.startSub ≤ S.time then P.sigma c else 0 := by
  obtain ⟨r, e⟩ := step_result h
  rw [r.bed c hc, e]

/-- C34 for a run with constant settings: the bed of a cell outside the inlet changes by what the
sediment routing of each timestep did to it, minus `sigma` for each timestep that began at or
after `start_subsidence`. -/
theorem C34_run {g : Rng K σ} {P : Params L W m K} (c : Cell L W) (hc : ¬ InletCell P c) :
    ∀ {n : ℕ} {S S' : State L W K} {s s' : σ} {ls : List (StepLog L W K)},
    timesteps g (List.replicate n P) S s = .ok (S', ls, s') →
    S'.eta c = S.eta c + (ls.map (fun l => l.routed.eta c - l.start.eta c)).sum -
      (if P.toggleSub = true then
        (((List.range n).filter (fun k : ℕ => P.startSub ≤ S.time + (k : K) * P.dt)).length : K) else 0)
        * P.sigma c := by
  intro n
  induction n with
  | zero =>
    intro S S' s s' ls h
    simp only [List.replicate_zero, timesteps, Except.ok.injEq, Prod.mk.injEq] at h
    obtain ⟨rfl, rfl, rfl⟩ := h
    simp
  | succ n ih =>
    intro S S' s s' ls h
    rw [List.replicate_succ'] at h
    obtain ⟨S1, ls1, l, s1, h1, h2, rfl⟩ := timesteps_snoc h
    rw [C34_update h2 c hc]
    obtain ⟨-, e⟩ := step_result h2
    have ht := (C35_linear h1).1
    have := ih h1
    rw [List.range_succ, List.filter_append, List.length_append, List.map_append, List.sum_append, ht]
    simp only [List.map_cons, List.map_nil, List.sum_cons, List.sum_nil, add_zero, e]
    rw [this]
    by_cases h3 : P.toggleSub = true <;> by_cases h4 : P.startSub ≤ S.time + (n : K) * P.dt <;>
      simp [h3, h4] <;> ring

/-- C34: how many timesteps lower the bed: none of the first `⌈(start - t0) / dt⌉`, then all. -/
theorem C34_count {t0 dt start : K} (hdt : 0 < dt) (n : ℕ) :
    ((List.range n).filter (fun k : ℕ => start ≤ t0 + (k : K) * dt)).length =
      n - ⌈(start - t0) / dt⌉₊ := by
  induction n with
  | zero => simp
  | succ n ih =>
    rw [List.range_succ, List.filter_append, List.length_append, ih]
    have key : start ≤ t0 + (n : K) * dt ↔ ⌈(start - t0) / dt⌉₊ ≤ n := by
      rw [Nat.ceil_le, div_le_iff₀ hdt]
      constructor <;> intro h <;> linarith
    by_cases h : ⌈(start - t0) / dt⌉₊ ≤ n
    · have := key.2 h
      simp [this]
      omega
    · have h' : ¬ start ≤ t0 + (n : K) * dt := fun h'' => h (key.1 h'')
      simp [h']
      omega

/-! ## Depth is never negative -/

lemma routeWater_depth {g : Rng K σ} {P : Params L W m K} {S S' : State L W K} {s s' : σ}
    (h : routeWater g P S s = .ok (S', s')) (hd : ∀ c, 0 ≤ S.depth c) : ∀ c, 0 ≤ S'.depth c := by
  refine routeWaterFrom_inv (I := fun T => ∀ c, 0 ≤ T.depth c) ?_ _ _ _ _ _ _ hd h
  intro it S s S' s' _ h
  obtain ⟨w, wst, log, n, stage, -, -, -, rfl⟩ := waterIteration_ok h
  intro c
  exact le_max_right _ _

/-! ## C38: land -/

/-- The bed of each cell after a routing of parcels: what each step did to it. -/
theorem C24_cell {g : Rng K σ} {k : Sed} {P : Params L W m K} {S S' : State L W K} {s s' : σ}
    {logs : List (SedLog L W K)} (h : routeParcels g k P S s = .ok (S', logs, s')) (c : Cell L W) :
    S'.eta c = S.eta c + (logs.map (fun l => (l.steps.map (fun r =>
      if r.cell = c then r.change / (P.dx * P.dx) else 0)).sum)).sum := by
  obtain ⟨st, rfl, h1⟩ := routeParcels_sum (g := g) (k := k) (P := P)
    (fun st => st.S.eta c) (fun _ => 0) (fun r => if r.cell = c then r.change / (P.dx * P.dx) else 0)
    (by intro st py c' hc; cases k <;> simp [enterState, enterSand]) (by
      intro st px py res s st1 res1 r s1 hs
      have he := stepEffect hs
      obtain ⟨hb, ha, -, -, -⟩ := before_eq hs
      have e0 : st.S.eta = r.before.eta := by rw [hb]
      rw [ha, he.bed, e0]
      by_cases hc : r.cell = c
      · subst hc; simp
      · rw [Function.update_of_ne (Ne.symm hc), if_neg hc, add_zero]) h
  simpa using h1

lemma routeParcels_land {g : Rng K σ} (hg : PositiveDraws g) {k : Sed} {P : Params L W m K}
    (hP : SedDomain P) {S S' : State L W K} (hd : ∀ c, 0 ≤ S.depth c) {s s' : σ}
    {logs : List (SedLog L W K)} (h : routeParcels g k P S s = .ok (S', logs, s')) {c : Cell L W}
    (hc : P.cellType c = -2) : S'.eta c = S.eta c ∧ ∀ c, 0 ≤ S'.depth c := by
  obtain ⟨S2, logs2, s2, h2, h3, h4⟩ := routeParcels_domain hg k hP (eachStep_move hg hP) hd s
  rw [h] at h2
  cases h2
  refine ⟨?_, h3⟩
  rw [C24_cell h c, add_eq_left]
  apply List.sum_eq_zero
  intro x hx
  obtain ⟨l, hl, rfl⟩ := List.mem_map.1 hx
  apply List.sum_eq_zero
  intro y hy
  obtain ⟨r, hr, rfl⟩ := List.mem_map.1 hy
  rw [if_neg]
  rintro rfl
  obtain ⟨-, -, -, ⟨-, -, hm⟩ | ⟨-, -, -, hm⟩⟩ := h4 l hl r hr
  · exact hm hc
  · rw [hc] at hm; omega

lemma routeSediment_land {g : Rng K σ} (hg : PositiveDraws g) {P : Params L W m K}
    (hP : SedDomain P) {S S' : State L W K} (hd : ∀ c, 0 ≤ S.depth c) {s s' : σ}
    {sand mud : List (SedLog L W K)} (h : routeSediment g P S s = .ok (S', sand, mud, s'))
    {c : Cell L W} (hc : P.cellType c = -2) : S'.eta c = S.eta c := by
  obtain ⟨S1, s1, h1, h2⟩ := routeSediment_ok h
  obtain ⟨a1, a2⟩ := routeParcels_land hg hP (S := initSediment S) hd h1 hc
  obtain ⟨b1, -⟩ := routeParcels_land hg hP (S := { S1 with
      eta := topoDiffusion P.cellType P.diffMult S1.qs P.Ncross S1.eta }) a2 h2 hc
  rw [b1]
  simp only
  rw [C29_held _ _ _ _ _ _ (.inl hc), a1]
  rfl

/-- C38: the bed of a land cell that does not subside stays the same for any number of timesteps, with
settings that may change between timesteps. -/
theorem C38_land {g : Rng K σ} (hg : PositiveDraws g) {Ps : List (Params L W m K)} {c : Cell L W}
    (hPs : ∀ P ∈ Ps, SedDomain P ∧ 0 ≤ P.h0 ∧ P.cellType c = -2 ∧ P.sigma c = 0)
    {S S' : State L W K} (hd : ∀ c, 0 ≤ S.depth c) {s s' : σ} {ls : List (StepLog L W K)}
    (h : timesteps g Ps S s = .ok (S', ls, s')) : S'.eta c = S.eta c := by
  have := timesteps_inv (g := g)
    (A := fun P => SedDomain P ∧ 0 ≤ P.h0 ∧ P.cellType c = -2 ∧ P.sigma c = 0)
    (I := fun T => T.eta c = S.eta c ∧ ∀ c, 0 ≤ T.depth c) (J := fun _ => True) (by
      intro P T s T' l s' ⟨hP, h0, hl, hs⟩ ⟨hI, hd⟩ ht
      refine ⟨⟨?_, fun c => (C36_update h0 ht c).2.1⟩, trivial⟩
      obtain ⟨s1, h1, h2, h3, -⟩ := timestep_ok ht
      have hin : ¬ InletCell P c := by
        rintro ⟨e1, k, e2⟩
        have := (hP.inlet k).2
        have e : ((0 : Fin L), P.inlet k) = c := Prod.ext (Fin.ext (by simp [e1])) e2
        rw [e] at this
        exact this hl
      rw [C34_update ht c hin, hs, routeSediment_land hg hP (routeWater_depth h1 hd) h2 hl,
        (routeWater_frame h1).1, hI]
      simp) h hPs ⟨rfl, hd⟩
  exact this.1.1

/-! ## C33, C32: sand fraction -/

/-- The cell received a recorded deposit in the timestep. -/
def Deposited (l : StepLog L W K) (c : Cell L W) : Prop :=
  0 < deposited l.sand c ∨ 1 / 1000000 < deposited l.mud c

lemma anyCell_iff (mask : Cell L W → Bool) : anyCell mask = true ↔ ∃ c, mask c = true := by
  unfold anyCell
  rw [List.any_eq_true]
  constructor
  · rintro ⟨c, -, h⟩; exact ⟨c, h⟩
  · rintro ⟨c, h⟩; exact ⟨c, mem_allCells c, h⟩

lemma assign_any (f : Grid L W K) (mask : Cell L W → Bool) (v : Grid L W K) :
    (if anyCell mask then assign f mask v else f) = assign f mask v := by
  split_ifs with h
  · rfl
  · funext c
    unfold assign
    rw [if_neg]
    intro hc
    exact h ((anyCell_iff _).2 ⟨c, hc⟩)

/-- C33: the surface sand fraction of each cell after a timestep. A recorded deposit gives its sand
share to the surface and to the active layer; otherwise the active layer keeps its value and the
surface takes the boundary value (bed lowered by more than the active layer), the value of the
active layer (bed lowered by less), or keeps its value (bed not lowered). The bed is compared
between begin and end of the timestep, so it counts subsidence and the reset of the inlet. -/
theorem C33_update {g : Rng K σ} {P : Params L W m K} (ht : 0 ≤ P.actThick) {S S' : State L W K}
    {s s' : σ} {l : StepLog L W K} (h : timestep g P S s = .ok (S', l, s')) (c : Cell L W) :
    (Deposited l c → S'.sandFrac c = deposited l.sand c / (deposited l.sand c + deposited l.mud c) ∧
      S'.activeLayer c = deposited l.sand c / (deposited l.sand c + deposited l.mud c)) ∧
    (¬ Deposited l c → S'.activeLayer c = S.activeLayer c ∧
      (S'.eta c < S.eta c - P.actThick → S'.sandFrac c = P.sandFracBc) ∧
      (S.eta c - P.actThick ≤ S'.eta c → S'.eta c < S.eta c →
        S'.sandFrac c = S.activeLayer c) ∧
      (S.eta c ≤ S'.eta c → S'.sandFrac c = S.sandFrac c)) := by
  obtain ⟨s1, h1, h2, h3, rfl⟩ := timestep_ok h
  obtain ⟨-, -, -, -, -, -, -, w8, w9⟩ := routeWater_frame h1
  obtain ⟨-, -, -, -, r5, r6, -⟩ := routeSediment_frame h2
  obtain ⟨d1, d2⟩ := C25_sediment_routing h2 c
  rw [applySubsidence_frame]
  unfold finalizeTimestep
  simp only
  generalize hT : ({ l.routed with
      eta := _, stage := _, depth := _ } : State L W K) = T
  have hTs : T.depSand = l.routed.depSand ∧ T.depMud = l.routed.depMud ∧
      T.sandFrac = S.sandFrac ∧ T.activeLayer = S.activeLayer := by
    rw [← hT]
    exact ⟨rfl, rfl, r5.trans w8, r6.trans w9⟩
  obtain ⟨t1, t2, t3, t4⟩ := hTs
  have hdeg : ∀ c, T.eta c < S.eta c →
      anyCell (fun c => decide (T.eta c - S.eta c < 0)) = true := by
    intro c hc
    exact (anyCell_iff _).2 ⟨c, by simpa using hc⟩
  unfold computeSandFrac
  simp only [assign_any]
  unfold Deposited
  rw [← d1, ← d2, ← t1, ← t2, ← t3, ← t4]
  by_cases hdep : 0 < T.depSand c ∨ 1 / 1000000 < T.depMud c
  · refine ⟨fun _ => ?_, fun hn => absurd hdep hn⟩
    rw [add_comm (T.depSand c)]
    unfold assign
    have : (decide (T.depSand c > 0) || decide (T.depMud c > 1 / 1000000)) = true := by
      simpa using hdep
    simp only [this, if_true]
    exact ⟨trivial, trivial⟩
  · refine ⟨fun hn => absurd hn hdep, fun _ => ?_⟩
    have hagg : (decide (T.depSand c > 0) || decide (T.depMud c > 1 / 1000000)) = false := by
      simpa using hdep
    refine ⟨by simp only [assign, hagg]; rfl, ?_, ?_, ?_⟩
    · intro hlow
      have hlt : T.eta c < S.eta c := by linarith
      simp only [hdeg c hlt, if_true]
      simp only [assign, hagg]
      have h5 : ¬ (T.eta c ≥ S.eta c - P.actThick) := not_le.2 hlow
      simp [h5, hlow]
    · intro hge hlt
      simp only [hdeg c hlt, if_true]
      simp only [assign, hagg]
      simp [hge, hlt]
    · intro hge
      split_ifs with hany
      · simp only [assign, hagg]
        have h5 : ¬ (T.eta c < S.eta c - P.actThick) := by push Not; linarith
        have h6 : ¬ (T.eta c < S.eta c) := not_lt.2 hge
        simp [h5, h6]
      · simp only [assign, hagg]
        simp

/-- C32: surface sand fraction and active layer stay in [0, 1] for any number of timesteps. -/
theorem C32_run {g : Rng K σ} {Ps : List (Params L W m K)}
    (hPs : ∀ P ∈ Ps, 0 ≤ P.actThick ∧ 0 ≤ P.sandFracBc ∧ P.sandFracBc ≤ 1) {S S' : State L W K}
    {s s' : σ} {ls : List (StepLog L W K)} (h : timesteps g Ps S s = .ok (S', ls, s'))
    (h0 : ∀ c, (0 ≤ S.sandFrac c ∧ S.sandFrac c ≤ 1) ∧ 0 ≤ S.activeLayer c ∧ S.activeLayer c ≤ 1) :
    ∀ c, (0 ≤ S'.sandFrac c ∧ S'.sandFrac c ≤ 1) ∧ 0 ≤ S'.activeLayer c ∧ S'.activeLayer c ≤ 1 := by
  refine (timesteps_inv (g := g)
    (A := fun P => 0 ≤ P.actThick ∧ 0 ≤ P.sandFracBc ∧ P.sandFracBc ≤ 1)
    (I := fun T => ∀ c, (0 ≤ T.sandFrac c ∧ T.sandFrac c ≤ 1) ∧ 0 ≤ T.activeLayer c ∧
      T.activeLayer c ≤ 1) (J := fun _ => True) ?_ h hPs h0).1
  intro P T s T' l s' ⟨hth, hb0, hb1⟩ hI ht
  refine ⟨fun c => ?_, trivial⟩
  obtain ⟨a, b⟩ := C33_update hth ht c
  by_cases hd : Deposited l c
  · obtain ⟨e1, e2⟩ := a hd
    have p1 := deposited_nonneg l.sand c
    have p2 := deposited_nonneg l.mud c
    have q1 : 0 ≤ deposited l.sand c / (deposited l.sand c + deposited l.mud c) :=
      div_nonneg p1 (add_nonneg p1 p2)
    have q2 : deposited l.sand c / (deposited l.sand c + deposited l.mud c) ≤ 1 :=
      div_le_one_of_le₀ (by linarith) (add_nonneg p1 p2)
    rw [e1, e2]
    exact ⟨⟨q1, q2⟩, q1, q2⟩
  · obtain ⟨e1, e2, e3, e4⟩ := b hd
    rw [e1]
    refine ⟨?_, (hI c).2⟩
    by_cases f1 : T'.eta c < T.eta c - P.actThick
    · rw [e2 f1]; exact ⟨hb0, hb1⟩
    · by_cases f2 : T'.eta c < T.eta c
      · rw [e3 (not_lt.1 f1) f2]; exact (hI c).2
      · rw [e4 (not_lt.1 f2)]; exact (hI c).1

/-! ## C71: no timestep aborts -/

/-- C71: a timestep never aborts on a well laid-out domain, for all draws in (0, 1]. -/
theorem C71_update {g : Rng K σ} (hg : PositiveDraws g) {P : Params L W m K} (hW : WaterSetup P)
    (hD : SedDomain P) {S : State L W K} (hd : ∀ c, 0 ≤ S.depth c) (hn : 0 < S.ncols) (s : σ) :
    ∃ S' l s', timestep g P S s = .ok (S', l, s') ∧ 0 < S'.ncols := by
  obtain ⟨S1, s1, h1, h2, h3⟩ := C71_water_routing hg hW hd hn s
  obtain ⟨S2, sand, mud, s2, h4, h5⟩ := C71_sediment_routing hg hD h2 s1
  have : ∃ S' l s', timestep g P S s = .ok (S', l, s') := by
    unfold timestep
    simp only [h1, h4]
    exact ⟨_, _, _, rfl⟩
  obtain ⟨S', l, s', h6⟩ := this
  refine ⟨S', l, s', h6, ?_⟩
  obtain ⟨r, -⟩ := step_result h6
  obtain ⟨s1', h7, -, -, -⟩ := timestep_ok h6
  rw [h1] at h7
  cases h7
  rw [r.flow.2.2.2.2.2.2.2.2.2]
  exact h3

/-- C71: runs of any length never abort; settings may change between timesteps. -/
theorem C71_run {g : Rng K σ} (hg : PositiveDraws g) : ∀ {Ps : List (Params L W m K)},
    (∀ P ∈ Ps, WaterSetup P ∧ SedDomain P ∧ 0 ≤ P.h0) → ∀ {S : State L W K},
    (∀ c, 0 ≤ S.depth c) → 0 < S.ncols → ∀ s : σ,
    ∃ S' ls s', timesteps g Ps S s = .ok (S', ls, s') := by
  intro Ps
  induction Ps with
  | nil => intro _ S _ _ s; exact ⟨S, [], s, rfl⟩
  | cons P Ps ih =>
    intro hPs S hd hn s
    obtain ⟨hW, hD, h0⟩ := hPs P List.mem_cons_self
    obtain ⟨S1, l, s1, h1, h2⟩ := C71_update hg hW hD hd hn s
    obtain ⟨S2, ls, s2, h3⟩ := ih (fun Q hQ => hPs Q (List.mem_cons_of_mem _ hQ))
      (fun c => (C36_update h0 h1 c).2.1) h2 s1
    unfold timesteps
    simp only [h1, h3]
    exact ⟨_, _, _, rfl⟩

/-! ## Non-trivial cases -/

/-- Ten timesteps of the example domain run through; so the theorems about runs apply to it. -/
theorem exRun : ∃ S' ls s', timesteps constRng (List.replicate 10 exParams) exState () =
    .ok (S', ls, s') :=
  C71_run exPositive (by
    intro P hP
    rw [List.eq_of_mem_replicate hP]
    exact ⟨exSetup, exSedDomain, by norm_num [exParams]⟩)
    (fun c => by norm_num [exState]) (by norm_num [exState]) ()

-- C32 to C38: their conditions hold for the example
example : 0 ≤ exParams.h0 ∧ 0 ≤ exParams.actThick ∧ 0 ≤ exParams.sandFracBc ∧
    exParams.sandFracBc ≤ 1 ∧ exParams.cellType (1, 0) = -2 ∧ exParams.sigma (1, 0) = 0 ∧
    0 < exParams.dt := by decide +kernel

-- C34: with start time 5/2 and timestep 1 the first three of ten timesteps do not subside
example : ((List.range 10).filter (fun k : ℕ => (5 / 2 : ℚ) ≤ 0 + (k : ℚ) * 1)).length = 7 := by
  decide +kernel

-- C33: erosion within and beyond the active layer, deposit, and no change
example :
    let S : State 2 2 ℚ := { (⟨fun _ => 0, fun _ => 0, fun _ => 0, fun _ => 0, fun _ => 0, fun _ => 0,
      fun _ => 0, fun _ => 0, fun _ => 0, fun _ => 0, fun _ => 0, fun _ => 0, fun _ => 1 / 4,
      fun _ => 3 / 4, 0, 0, 0, 1⟩ : State 2 2 ℚ) with
      eta := fun c => if c = (0, 0) then -1 else if c = (0, 1) then -1 / 4 else 0
      depSand := fun c => if c = (1, 0) then 1 else 0
      depMud := fun c => if c = (1, 0) then 3 else 0 }
    let P : Params 2 2 1 ℚ := { exParams with
      cellType := fun _ => 0, inlet := fun _ => 0, modWater := fun _ => 1, modSed := fun _ => 1,
      modErosion := fun _ => 1, sigma := fun _ => 0 }
    let T := computeSandFrac P (fun _ => 0) S
    T.sandFrac (0, 0) = 1 ∧ T.sandFrac (0, 1) = 3 / 4 ∧ T.sandFrac (1, 0) = 1 / 4 ∧
      T.activeLayer (1, 0) = 1 / 4 ∧ T.sandFrac (1, 1) = 1 / 4 ∧ T.activeLayer (1, 1) = 3 / 4 := by
  decide +kernel

end Verif.Props
