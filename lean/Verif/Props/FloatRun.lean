import Verif.Model.FloatRun
import Verif.Lemmas.FloatNcols
import Verif.Props.Clock
import Verif.Props.Resume
import Verif.Props.Shared

/-!
# C102: jobs, output and resumed runs in rounded arithmetic
-/

set_option linter.unusedSectionVars false
set_option linter.unusedSimpArgs false

namespace Verif.Props

open Verif.Model Verif.Lemmas Verif.Spec

variable {K : Type*} [Field K] [LinearOrder K] [IsStrictOrderedRing K] [FloorRing K] {F D : Rounding K}
  {σ : Type*} {L W m : ℕ}

/-! ## Without rounding it is the model of `Model/Output` and `Model/Jobs` -/

section
variable [NeZero L] [NeZero W]

lemma afterStepR_exact (cfg : OutCfg K) (dt : K) (M : Sim L W K σ) (S : State L W K) (s : σ) :
    afterStepR (exact K) cfg dt M S s = afterStep cfg dt M S s := by
  have e : ∀ o : Option K, addSinceR (exact K) dt o = addSince dt o := by intro o; cases o <;> rfl
  unfold afterStepR afterStep
  rw [e, e]

lemma updateR_exact (g : Rng K σ) (cfg : OutCfg K) (P : Params L W m K) (M : Sim L W K σ) :
    updateR (exact K) (exact K) g cfg P M = update g cfg P M := by
  unfold updateR update
  rw [timestepR_exact]
  split_ifs
  · rfl
  · cases timestep g P M.S M.rng with
    | error e => rfl
    | ok v => simp only [afterStepR_exact]

/-- Without rounding `updatesR` is `updates`. -/
theorem updatesR_exact (g : Rng K σ) (cfg : OutCfg K) (Ps : List (Params L W m K)) (M : Sim L W K σ) :
    updatesR (exact K) (exact K) g cfg Ps M = updates g cfg Ps M := by
  induction Ps generalizing M with
  | nil => rfl
  | cons P Ps ih =>
    simp only [updatesR, updates, updateR_exact]
    cases update g cfg P M with
    | error e => rfl
    | ok M1 => exact ih M1

end

/-- Without rounding `simEngineR` is `simEngine`. -/
theorem simEngineR_exact (g : Rng K σ) : simEngineR (exact K) (exact K) g = simEngine g := by
  have : AnyModel.updateR (exact K) (exact K) g = AnyModel.update g := by
    funext mo s
    have := mo.hL
    have := mo.hW
    unfold AnyModel.updateR AnyModel.update
    simp only [updateR_exact]
    rfl
  unfold simEngineR
  rw [this]
  rfl

section
variable {In M G : Type*}

lemma makeJobsR_exact (E : Engine K In M G) (parse : String → Option ℚ) (js : List (In × Dict Yaml)) :
    ∀ (i : ℕ) (s : G), makeJobsR (exact K) E parse i js s = makeJobs E parse i js s := by
  induction js with
  | nil => intro i s; rfl
  | cons x js ih =>
    intro i s
    obtain ⟨inp, cfg⟩ := x
    simp only [makeJobsR, makeJobs, makeJobR_exact]
    generalize makeJob E parse i inp cfg s = r
    match r with
    | (.error e, s1) => rfl
    | (.ok j, s1) =>
      simp only [ih]
      rfl

/-- Without rounding `runJobsSerialR` is `runJobsSerial`. -/
theorem runJobsSerialR_exact (E : Engine K In M G) (parse : String → Option ℚ) (fuel : ℕ)
    (js : List (In × Dict Yaml)) (s : G) :
    runJobsSerialR (exact K) E parse fuel js s = runJobsSerial E parse fuel js s := by
  unfold runJobsSerialR runJobsSerial
  rw [makeJobsR_exact]
  rfl

/-- Without rounding `forkJobsR` is `forkJobs`. -/
theorem forkJobsR_exact (E : Engine K In M G) (parse : String → Option ℚ) (fuel : ℕ)
    (js : List (In × Dict Yaml)) : ∀ (i : ℕ) (s : G),
    forkJobsR (exact K) E parse fuel i js s = forkJobs E parse fuel i js s := by
  induction js with
  | nil => intro i s; rfl
  | cons x js ih =>
    intro i s
    obtain ⟨inp, cfg⟩ := x
    simp only [forkJobsR, forkJobs, makeJobR_exact]
    generalize makeJob E.deferred parse i inp cfg s = r
    match r with
    | (.error e, s1) => rfl
    | (.ok j, s1) => simp only [ih]

end

/-! ## Updates -/

section
variable [NeZero L] [NeZero W]

lemma updateR_ok {g : Rng K σ} {cfg : OutCfg K} {P : Params L W m K} {M M' : Sim L W K σ}
    (h : updateR F D g cfg P M = .ok M') :
    M.finalized = false ∧ ∃ S l s, timestepR F D g P M.S M.rng = .ok (S, l, s) ∧
      M' = afterStepR D cfg P.dt M S s := by
  unfold updateR at h
  cases hf : M.finalized with
  | true => simp [hf] at h
  | false =>
    simp only [hf, Bool.false_eq_true, if_false] at h
    generalize ht : timestepR F D g P M.S M.rng = x at h
    cases x with
    | error e => simp at h
    | ok v =>
      obtain ⟨S, l, s⟩ := v
      simp only [Except.ok.injEq] at h
      exact ⟨rfl, S, l, s, rfl, h.symm⟩

lemma afterStepR_frame (cfg : OutCfg K) (dt : K) (M : Sim L W K σ) (S : State L W K) (s : σ) :
    (afterStepR D cfg dt M S s).S = S ∧ (afterStepR D cfg dt M S s).rng = s ∧
      (afterStepR D cfg dt M S s).finalized = M.finalized := by
  obtain ⟨a1, a2, a3, -⟩ := outputCheckpoint_frame cfg (outputData cfg { M with
    S := S, rng := s, saveSince := addSinceR D dt M.saveSince, ckptSince := addSinceR D dt M.ckptSince })
  obtain ⟨b1, b2, b3, -⟩ := outputData_frame cfg { M with
    S := S, rng := s, saveSince := addSinceR D dt M.saveSince, ckptSince := addSinceR D dt M.ckptSince }
  unfold afterStepR
  exact ⟨a1.trans b1, a2.trans b2, a3.trans b3⟩

lemma updatesR_cons {g : Rng K σ} {cfg : OutCfg K} {P : Params L W m K} {Ps : List (Params L W m K)}
    {M M' : Sim L W K σ} (h : updatesR F D g cfg (P :: Ps) M = .ok M') :
    ∃ M1, updateR F D g cfg P M = .ok M1 ∧ updatesR F D g cfg Ps M1 = .ok M' := by
  simp only [updatesR] at h
  cases hu : updateR F D g cfg P M with
  | error e => rw [hu] at h; cases h
  | ok M1 => rw [hu] at h; exact ⟨M1, rfl, h⟩

lemma updatesR_append {g : Rng K σ} {cfg : OutCfg K} : ∀ {Ps Qs : List (Params L W m K)}
    {M M1 : Sim L W K σ}, updatesR F D g cfg Ps M = .ok M1 →
    updatesR F D g cfg (Ps ++ Qs) M = updatesR F D g cfg Qs M1 := by
  intro Ps
  induction Ps with
  | nil =>
    intro Qs M M1 h
    simp only [updatesR, Except.ok.injEq] at h
    subst h
    rfl
  | cons P Ps ih =>
    intro Qs M M1 h
    obtain ⟨M2, h1, h2⟩ := updatesR_cons h
    simp only [List.cons_append, updatesR, h1]
    exact ih h2

lemma updatesR_snoc {g : Rng K σ} {cfg : OutCfg K} : ∀ {Ps : List (Params L W m K)}
    {P : Params L W m K} {M M' : Sim L W K σ}, updatesR F D g cfg (Ps ++ [P]) M = .ok M' →
    ∃ M1, updatesR F D g cfg Ps M = .ok M1 ∧ updateR F D g cfg P M1 = .ok M' := by
  intro Ps
  induction Ps with
  | nil =>
    intro P M M' h
    obtain ⟨M1, h1, h2⟩ := updatesR_cons h
    simp only [updatesR, Except.ok.injEq] at h2
    subst h2
    exact ⟨M, rfl, h1⟩
  | cons Q Ps ih =>
    intro P M M' h
    obtain ⟨M1, h1, h2⟩ := updatesR_cons h
    obtain ⟨M2, h3, h4⟩ := ih h2
    refine ⟨M2, ?_, h4⟩
    simp only [updatesR, h1]
    exact h3

lemma updatesR_life {g : Rng K σ} {cfg : OutCfg K} :
    ∀ {Ps : List (Params L W m K)} {M M' : Sim L W K σ}, M.finalized = false →
    updatesR F D g cfg Ps M = .ok M' → M'.finalized = false := by
  intro Ps
  induction Ps with
  | nil =>
    intro M M' h hu
    simp only [updatesR, Except.ok.injEq] at hu
    subst hu
    exact h
  | cons P Ps ih =>
    intro M M' h hu
    obtain ⟨M1, h1, h2⟩ := updatesR_cons hu
    obtain ⟨-, S, l, s, -, rfl⟩ := updateR_ok h1
    exact ih ((afterStepR_frame cfg P.dt M S s).2.2.trans h) h2

/-- C102: updates of a model are timesteps: the fields and the generator are those of a run of
`timestepsR`. -/
theorem C102_states {g : Rng K σ} {cfg : OutCfg K} : ∀ {Ps : List (Params L W m K)} {M M' : Sim L W K σ},
    updatesR F D g cfg Ps M = .ok M' →
    ∃ ls, timestepsR F D g Ps M.S M.rng = .ok (M'.S, ls, M'.rng) := by
  intro Ps
  induction Ps with
  | nil =>
    intro M M' h
    simp only [updatesR, Except.ok.injEq] at h
    subst h
    exact ⟨[], rfl⟩
  | cons P Ps ih =>
    intro M M' h
    obtain ⟨M1, h1, h2⟩ := updatesR_cons h
    obtain ⟨-, S, l, s, ht, rfl⟩ := updateR_ok h1
    obtain ⟨ls, hls⟩ := ih h2
    obtain ⟨e1, e2, -⟩ := afterStepR_frame (D := D) cfg P.dt M S s
    rw [e1, e2] at hls
    refine ⟨l :: ls, ?_⟩
    simp only [timestepsR, ht, hls]

/-- C102: any number of updates of a sound model raises nothing. -/
theorem C102_accepted {g : Rng K σ} (hFD : Within F D) (hg : PositiveDraws g) (cfg : OutCfg K) :
    ∀ {Ps : List (Params L W m K)}, (∀ P ∈ Ps, WaterSetup P ∧ SedDomain P ∧ 0 ≤ P.h0) →
    ∀ {M : Sim L W K σ}, M.finalized = false → (∀ c, 0 ≤ M.S.depth c) → 0 < M.S.ncols →
    ∃ M', updatesR F D g cfg Ps M = .ok M' := by
  intro Ps
  induction Ps with
  | nil => intro _ M _ _ _; exact ⟨M, rfl⟩
  | cons P Ps ih =>
    intro hPs M hf hd hn
    obtain ⟨hW, hD, h0⟩ := hPs P List.mem_cons_self
    obtain ⟨S1, l, s1, h1, hd1, hn1, -⟩ := C101_update hFD hg hW hD h0 hd hn M.rng
    have hu : updateR F D g cfg P M = .ok (afterStepR D cfg P.dt M S1 s1) := by
      unfold updateR
      simp only [hf, Bool.false_eq_true, if_false, h1]
    obtain ⟨e1, -, e3⟩ := afterStepR_frame (D := D) cfg P.dt M S1 s1
    obtain ⟨M', hM'⟩ := ih (fun Q hQ => hPs Q (List.mem_cons_of_mem _ hQ))
      (M := afterStepR D cfg P.dt M S1 s1) (e3.trans hf) (by rw [e1]; exact hd1) (by rw [e1]; exact hn1)
    refine ⟨M', ?_⟩
    simp only [updatesR, hu]
    exact hM'

end

/-! ## The clock and the loop of a job -/

/-- C102: an update adds one timestep to the clock, rounded, so that C95 holds for the modelled class. -/
theorem C102_clock (g : Rng K σ) : ClockR D (simEngineR F D g) := by
  intro mo s mo1 s1 h
  have := mo.hL
  have := mo.hW
  simp only [simEngineR, simEngine, AnyModel.updateR] at h
  generalize hu : updateR F D g mo.out mo.P { mo.sim with rng := s } = u at h
  match u, h with
  | .ok M', h =>
    obtain ⟨rfl, rfl⟩ := by simpa using h
    obtain ⟨-, S, l, s', ht, rfl⟩ := updateR_ok hu
    refine ⟨?_, rfl⟩
    simp only [simEngineR, simEngine]
    rw [(afterStepR_frame mo.out _ _ S s').1]
    obtain ⟨r, e⟩ := step_resultR ht
    rw [r.time, e]

/-- The loop of a job is a sequence of updates of its model. -/
lemma loopR_updates (g : Rng K σ) {stop : K} : ∀ {fuel : ℕ} {mo : AnyModel K σ} {s : σ}
    {r : Looped (AnyModel K σ) σ}, runLoop (simEngineR F D g) stop fuel mo s = some r →
    have := mo.hL
    have := mo.hW
    ∃ X : Sim mo.L mo.W K σ, r.model = { mo with sim := X } ∧
      updatesR F D g mo.out (List.replicate r.updates mo.P) { mo.sim with rng := s } =
        .ok { X with rng := r.rng } ∧
      ∀ e, r.raised = some e → ∃ err, e = excOf err ∧
        updatesR F D g mo.out (List.replicate (r.updates + 1) mo.P) { mo.sim with rng := s } =
          .error err := by
  intro fuel
  induction fuel with
  | zero =>
    intro mo s r h
    unfold runLoop at h
    split at h
    · cases h
    · obtain rfl := by simpa using h
      exact ⟨mo.sim, rfl, rfl, by simp⟩
  | succ fuel ih =>
    intro mo s r h
    have := mo.hL
    have := mo.hW
    unfold runLoop at h
    split at h
    · simp only at h
      generalize hu : (simEngineR F D g).update mo s = u at h
      simp only [simEngineR, AnyModel.updateR] at hu
      generalize hx : updateR F D g mo.out mo.P { mo.sim with rng := s } = x at hu
      match x, hu with
      | .error e, hu =>
        obtain rfl := by simpa using hu.symm
        obtain rfl := by simpa using h
        refine ⟨mo.sim, rfl, rfl, ?_⟩
        intro e' he'
        refine ⟨e, by simpa using he'.symm, ?_⟩
        simp only [Nat.zero_add, List.replicate_one, updatesR, hx]
      | .ok M', hu =>
        obtain rfl := by simpa using hu.symm
        simp only at h
        generalize hr : runLoop (simEngineR F D g) stop fuel { mo with sim := M' } M'.rng = r1 at h
        match r1, h with
        | some r1, h =>
          obtain rfl := by simpa using h
          obtain ⟨X, h1, h2, h3⟩ := ih hr
          refine ⟨X, h1, ?_, ?_⟩
          · simp only [List.replicate_succ, updatesR, hx]
            exact h2
          · intro e he
            obtain ⟨err, c1, c2⟩ := h3 e he
            refine ⟨err, c1, ?_⟩
            rw [List.replicate_succ]
            simp only [updatesR, hx]
            exact c2
    · obtain rfl := by simpa using h
      exact ⟨mo.sim, rfl, rfl, by simp⟩

lemma loopR_sound {g : Rng K σ} (hFD : Within F D) (hg : PositiveDraws g) {c : Setting K σ}
    (hc : SoundSetting c) {X0 : Sim c.L c.W K σ} (h1 : X0.S = c.S) (h2 : X0.finalized = false)
    {fuel : ℕ} {stop : K} {s : σ} {r : Looped (AnyModel K σ) σ}
    (hr : runLoop (simEngineR F D g) stop fuel (c.live X0) s = some r) :
    have := c.hL
    have := c.hW
    r.raised = none ∧ ∃ X, r.model = c.live X ∧
      updatesR F D g c.out (List.replicate r.updates c.P) { X0 with rng := s } = .ok { X with rng := r.rng } ∧
      X.finalized = false := by
  have := c.hL
  have := c.hW
  obtain ⟨X, b1, b2, b3⟩ := loopR_updates g hr
  have hall : ∀ k, ∃ M', updatesR F D g c.out (List.replicate k c.P) { X0 with rng := s } = .ok M' := by
    intro k
    refine C102_accepted hFD hg c.out ?_ h2 ?_ ?_
    · intro P hP
      rw [List.eq_of_mem_replicate hP]
      exact ⟨hc.water, hc.sed, hc.h0⟩
    · intro x; simp only [h1]; exact hc.depth x
    · simp only [h1]; exact hc.ncols
  refine ⟨?_, X, b1, b2, ?_⟩
  · cases he : r.raised with
    | none => rfl
    | some e =>
      obtain ⟨err, -, c2⟩ := b3 e he
      obtain ⟨M', hM⟩ := hall (r.updates + 1)
      have : updatesR F D g c.out (List.replicate (r.updates + 1) c.P) { X0 with rng := s } = .error err := c2
      rw [hM] at this; cases this
  · exact updatesR_life (M := { X0 with rng := s }) (M' := { X with rng := r.rng }) h2 b2

lemma finishR_sound (g : Rng K σ) (c : Setting K σ) {X : Sim c.L c.W K σ} (h : X.finalized = false) (i : ℕ)
    (s : σ) (reports : List Report) (n : ℕ) :
    finishJob (simEngineR F D g) i (c.live X) s reports n =
      ⟨none, c.live { X with finalized := true }, s, reports ++ [⟨i, 2, 0⟩], n⟩ :=
  finish_sound g c h i s reports n

/-- The loop of a job of `n` timesteps on a sound setting. -/
lemma loopR_count {g : Rng K σ} (hFD : Within F D) (hg : PositiveDraws g) {c : Setting K σ}
    (hc : SoundSetting c) {X0 : Sim c.L c.W K σ} (h1 : X0.S = c.S) (h2 : X0.finalized = false)
    (h0 : c.S.time = 0) {n fuel : ℕ} (hsmall : 2 * ((n : K) + 1) ^ 2 * D.u ≤ 1) (hf : n + 1 ≤ fuel) (s : σ) :
    have := c.hL
    have := c.hW
    ∃ k X s', (k = n ∨ k = n + 1) ∧ (k = n ↔ D.fl (n * c.P.dt) ≤ ticks D c.P.dt 0 n) ∧
      runLoop (simEngineR F D g) (D.fl (n * c.P.dt)) fuel (c.live X0) s = some ⟨none, c.live X, s', k⟩ ∧
      updatesR F D g c.out (List.replicate k c.P) { X0 with rng := s } = .ok { X with rng := s' } ∧
      X.finalized = false := by
  have := c.hL
  have := c.hW
  have ht : (simEngineR F D g).time (c.live X0) = 0 := by
    show X0.S.time = 0
    rw [h1, h0]
  have hd : (simEngineR F D g).dt (c.live X0) = c.P.dt := rfl
  obtain ⟨hlo, hhi⟩ := ticks_around (R := D) hc.dt hsmall
  obtain ⟨r, hr⟩ := loopR_ends (C102_clock g) (stop := D.fl (n * c.P.dt)) (n := n + 1)
    (mo := c.live X0) (s := s) (by rw [ht, hd]; exact hhi)
  obtain ⟨a1, a2, -⟩ := C95_loop (C102_clock g) (hr fuel hf)
  obtain ⟨b1, X, b2, b3, b4⟩ := loopR_sound hFD hg hc h1 h2 (hr fuel hf)
  rw [ht, hd] at a1 a2
  obtain ⟨e1, e2⟩ := a2 b1
  rw [e1] at e2
  have hge : n ≤ r.updates := by
    by_contra hlt
    exact absurd (hlo _ (not_le.1 hlt)) (not_lt.2 e2)
  have hle : r.updates ≤ n + 1 := by
    by_contra hlt
    exact absurd (a1 _ (not_le.1 hlt)) (not_lt.2 hhi)
  refine ⟨r.updates, X, r.rng, by omega, ⟨fun h => by rw [← h]; rw [h] at e2 ⊢; exact e2, fun h => ?_⟩, ?_, b3, b4⟩
  · by_contra hne
    exact absurd (a1 n (by omega)) (not_lt.2 h)
  · rw [hr fuel hf]
    obtain ⟨r1, r2, r3, r4⟩ := r
    simp only at b1 b2
    subst b1 b2
    rfl

lemma durationR_steps {parse : String → Option ℚ} {cfg : Dict Yaml} {q : ℚ}
    (hq : UsesIf parse (dget cfg) q) {n : ℕ} (hn : dget cfg "timesteps" = some (.scalar (.int n))) (dt : K) :
    durationR D parse cfg dt = .ok (D.fl (D.fl n * dt)) := by
  unfold durationR
  rw [jobIf_ok.2 hq]
  simp only [hn, timesNumR, numOf]
  push_cast
  rfl

/-- C102: a single serial job of `n` timesteps on a sound setting, in rounded arithmetic, does what a user
does who creates the model, updates it `k` times and finalizes it; nothing is raised. `k` is `n`, or
`n + 1` if the clock of the model is behind after `n` updates (`X` as in `C61_model`). Missing: `k = n`,
which does not hold (`C95_one_more`). -/
theorem C102_model_partial {g : Rng K σ} (hFD : Within F D) (hg : PositiveDraws g) {c : Setting K σ}
    (hc : SoundSetting c) (h0 : c.S.time = 0) {parse : String → Option ℚ} {cfg : Dict Yaml} {q : ℚ}
    (hq : UsesIf parse (dget cfg) q) {n : ℕ} (hn : dget cfg "timesteps" = some (.scalar (.int n)))
    (hfl : D.fl n = n) (hsmall : 2 * ((n : K) + 1) ^ 2 * D.u ≤ 1) (s : σ) {fuel : ℕ} (hf : n + 1 ≤ fuel) :
    have := c.hL
    have := c.hW
    ∃ k M, (k = n ∨ k = n + 1) ∧ (k = n ↔ D.fl (n * c.P.dt) ≤ ticks D c.P.dt 0 n) ∧
      updatesR F D g c.out (List.replicate k c.P) (startSim c.out c.S c.seeded) = .ok M ∧
      ∃ X, { X with rng := M.rng } = { M with finalized := true } ∧
        runJobsSerialR D (simEngineR F D g) parse fuel [(c, cfg)] s =
          some ⟨[⟨none, c.live X, M.rng, [⟨0, 1, 0⟩, ⟨0, 2, 0⟩], k⟩], none, M.rng⟩ := by
  have := c.hL
  have := c.hW
  obtain ⟨e1, e2, e3⟩ := start_frame c.out c.S c.seeded
  obtain ⟨k, X, s', hk, hk', h1, h2, h3⟩ := loopR_count hFD hg hc e1 e3 h0 hsmall hf c.seeded
  rw [sim_eta e2] at h2
  refine ⟨k, _, hk, hk', h2, { X with finalized := true }, rfl, ?_⟩
  have hm : makeJobR D (simEngineR F D g) parse 0 c cfg s =
      (.ok ⟨0, c.live (startSim c.out c.S c.seeded), D.fl (n * c.P.dt)⟩, c.seeded) := by
    have ht : (simEngineR F D g).time (c.live (startSim c.out c.S c.seeded)) = 0 := by
      show (startSim c.out c.S c.seeded).S.time = 0
      rw [e1, h0]
    have hd : (simEngineR F D g).dt (c.live (startSim c.out c.S c.seeded)) = c.P.dt := rfl
    have hk : (simEngineR F D g).make c s = (.ok (c.live (startSim c.out c.S c.seeded)), c.seeded) := rfl
    unfold makeJobR
    simp only [hk, durationR_steps hq hn, ht, hd, hfl, zero_add, D.idem]
  unfold runJobsSerialR makeJobsR makeJobsR
  rw [hm]
  simp only [runSerial, runJob, h1, finishR_sound g c h3]
  rfl

section
variable {In M G : Type*}

lemma forkR_get {E : Engine K In M G} {parse : String → Option ℚ} {fuel : ℕ} :
    ∀ {js : List (In × Dict Yaml)} {i k : ℕ} {s : G} {x : Except Exc (Option (Ran M G))},
    (forkJobsR D E parse fuel i js s)[k]? = some x →
    ∃ inp cfg s1, js[k]? = some (inp, cfg) ∧
      forkJobsR D E parse fuel (i + k) [(inp, cfg)] s1 = [x]
  | [], i, k, s, x, h => by simp [forkJobsR] at h
  | (inp, cfg) :: js, i, k, s, x, h => by
    unfold forkJobsR at h
    generalize hm : makeJobR D E.deferred parse i inp cfg s = r at h
    match r, h with
    | (.error e, s1), h =>
      cases k with
      | zero =>
        refine ⟨inp, cfg, s, rfl, ?_⟩
        obtain rfl := by simpa using h
        simp only [forkJobsR, Nat.add_zero, hm]
      | succ k => simp at h
    | (.ok j, s1), h =>
      cases k with
      | zero =>
        refine ⟨inp, cfg, s, rfl, ?_⟩
        obtain rfl := by simpa using h
        simp only [forkJobsR, Nat.add_zero, hm]
      | succ k =>
        obtain ⟨inp', cfg', s', h1, h2⟩ := forkR_get (by simpa using h)
        exact ⟨inp', cfg', s', by simpa using h1, by rw [show i + (k + 1) = i + 1 + k by omega]; exact h2⟩

end

/-- C102: so does a parallel job of `n` timesteps, among any others and wherever the generator is. -/
theorem C102_parallel_partial {g : Rng K σ} (hFD : Within F D) (hg : PositiveDraws g) {c : Setting K σ}
    (hc : SoundSetting c) (h0 : c.S.time = 0) {parse : String → Option ℚ} {cfg : Dict Yaml} {q : ℚ}
    (hq : UsesIf parse (dget cfg) q) {n : ℕ} (hn : dget cfg "timesteps" = some (.scalar (.int n)))
    (hfl : D.fl n = n) (hsmall : 2 * ((n : K) + 1) ^ 2 * D.u ≤ 1) {fuel : ℕ} (hf : n + 1 ≤ fuel)
    {js : List (Setting K σ × Dict Yaml)} {i : ℕ} (hi : js[i]? = some (c, cfg)) {s : σ}
    {x : Except Exc (Option (Ran (AnyModel K σ) σ))}
    (hx : (forkJobsR D (simEngineR F D g) parse fuel 0 js s)[i]? = some x) :
    have := c.hL
    have := c.hW
    ∃ k M, (k = n ∨ k = n + 1) ∧ (k = n ↔ D.fl (n * c.P.dt) ≤ ticks D c.P.dt 0 n) ∧
      updatesR F D g c.out (List.replicate k c.P) (startSim c.out c.S c.seeded) = .ok M ∧
      ∃ X, { X with rng := M.rng } = { M with finalized := true } ∧
        x = .ok (some ⟨none, c.live X, M.rng, [⟨i, 0, 0⟩, ⟨i, 1, 0⟩, ⟨i, 2, 0⟩], k⟩) := by
  have := c.hL
  have := c.hW
  obtain ⟨c', cfg', s1, h1, hs⟩ := forkR_get hx
  rw [hi] at h1
  obtain ⟨rfl, rfl⟩ := by simpa using h1
  rw [Nat.zero_add] at hs
  obtain ⟨e1, e2, e3⟩ := start_frame c.out c.S c.seeded
  obtain ⟨k, X, s', hk, hk', l1, l2, l3⟩ := loopR_count hFD hg hc e1 e3 h0 hsmall hf c.seeded
  rw [sim_eta e2] at l2
  refine ⟨k, _, hk, hk', l2, { X with finalized := true }, rfl, ?_⟩
  have hm : makeJobR D (simEngineR F D g).deferred parse i c cfg s1 =
      (.ok ⟨i, c.live (newSim c.S c.seeded), D.fl (n * c.P.dt)⟩, c.seeded) := by
    have ht : (simEngineR F D g).deferred.time (c.live (newSim c.S c.seeded)) = 0 := h0
    have hd : (simEngineR F D g).deferred.dt (c.live (newSim c.S c.seeded)) = c.P.dt := rfl
    have hk : (simEngineR F D g).deferred.make c s1 = (.ok (c.live (newSim c.S c.seeded)), c.seeded) := rfl
    unfold makeJobR
    simp only [hk, durationR_steps hq hn, ht, hd, hfl, zero_add, D.idem]
  have hb : (simEngineR F D g).begin (c.live (newSim c.S c.seeded)) c.seeded =
      (none, c.live (startSim c.out c.S c.seeded), c.seeded) := rfl
  unfold forkJobsR forkJobsR at hs
  rw [hm] at hs
  simp only [runParallelJob, beginLoop, hb, l1, finishR_sound g c l3, List.cons.injEq, and_true] at hs
  rw [← hs]
  rfl

end Verif.Props
