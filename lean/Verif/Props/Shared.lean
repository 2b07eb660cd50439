import Verif.Props.Serial
import Verif.Props.Parallel

/-!
# C68: jobs and the generator they share, C61 and C64 for the modelled class
-/

set_option linter.unusedSectionVars false
set_option linter.unusedSimpArgs false

namespace Verif.Props

open Verif.Model Verif.Lemmas Verif.Spec

variable {K : Type*} [Field K] [LinearOrder K] [IsStrictOrderedRing K] {In M G : Type*}

/-- C63 / C64: exactly `RuntimeError` (with `NotImplementedError`) and `ValueError` are caught. -/
theorem C63_caught (e : Exc) :
    e.caught = true ↔ e.kind = .runtimeError ∨ e.kind = .valueError ∨ e.kind = .notImplemented := by
  unfold Exc.caught
  cases e.kind <;> simp

/-! ## What a parallel job reports -/

/-- C64: a job reports its start; then the end of the updates and of finalizing, with code 1 for an
exception that was caught. After an exception that is not caught it reports nothing more. -/
theorem C64_job {E : Engine K In M G} {fuel : ℕ} {j : Job K M} {s : G} {r : Ran M G}
    (h : runParallelJob E fuel j s = some r) :
    ∃ l, beginLoop E j.stop fuel j.model s = some l ∧
    ((∃ e, l.raised = some e ∧ e.caught = false ∧ r.raised = some e ∧ r.model = l.model ∧
        r.reports = [⟨j.i, 0, 0⟩]) ∨
      ∃ c, (l.raised = none ∧ c = 0 ∨ ∃ e, l.raised = some e ∧ e.caught = true ∧ c = 1) ∧
        ∃ fe, E.finalize l.model l.rng = (fe, r.model, r.rng) ∧
        ((∃ e, fe = some e ∧ e.caught = false ∧ r.raised = some e ∧
            r.reports = [⟨j.i, 0, 0⟩, ⟨j.i, 1, c⟩]) ∨
          ∃ d, (fe = none ∧ d = 0 ∨ ∃ e, fe = some e ∧ e.caught = true ∧ d = 1) ∧ r.raised = none ∧
            r.reports = [⟨j.i, 0, 0⟩, ⟨j.i, 1, c⟩, ⟨j.i, 2, d⟩])) := by
  have hfin : ∀ (l : Looped M G) (c : ℕ),
      ∃ fe, E.finalize l.model l.rng = (fe, (finishJob E j.i l.model l.rng [⟨j.i, 0, 0⟩, ⟨j.i, 1, c⟩]
          l.updates).model, (finishJob E j.i l.model l.rng [⟨j.i, 0, 0⟩, ⟨j.i, 1, c⟩] l.updates).rng) ∧
        ((∃ e, fe = some e ∧ e.caught = false ∧
            (finishJob E j.i l.model l.rng [⟨j.i, 0, 0⟩, ⟨j.i, 1, c⟩] l.updates).raised = some e ∧
            (finishJob E j.i l.model l.rng [⟨j.i, 0, 0⟩, ⟨j.i, 1, c⟩] l.updates).reports =
              [⟨j.i, 0, 0⟩, ⟨j.i, 1, c⟩]) ∨
          ∃ d, (fe = none ∧ d = 0 ∨ ∃ e, fe = some e ∧ e.caught = true ∧ d = 1) ∧
            (finishJob E j.i l.model l.rng [⟨j.i, 0, 0⟩, ⟨j.i, 1, c⟩] l.updates).raised = none ∧
            (finishJob E j.i l.model l.rng [⟨j.i, 0, 0⟩, ⟨j.i, 1, c⟩] l.updates).reports =
              [⟨j.i, 0, 0⟩, ⟨j.i, 1, c⟩, ⟨j.i, 2, d⟩]) := by
    intro l c
    unfold finishJob
    generalize hf : E.finalize l.model l.rng = f
    match f, hf with
    | (none, m1, s1), hf => exact ⟨none, rfl, Or.inr ⟨0, Or.inl ⟨rfl, rfl⟩, rfl, by simp⟩⟩
    | (some e, m1, s1), hf =>
      cases he : e.caught with
      | true =>
        exact ⟨some e, by simp [he], Or.inr ⟨1, Or.inr ⟨e, rfl, he, rfl⟩, by simp [he], by simp [he]⟩⟩
      | false =>
        exact ⟨some e, by simp [he], Or.inl ⟨e, rfl, he, by simp [he], by simp [he]⟩⟩
  unfold runParallelJob at h
  generalize hl : beginLoop E j.stop fuel j.model s = l at h
  match l, h with
  | some l, h =>
    refine ⟨l, rfl, ?_⟩
    simp only at h
    cases hr : l.raised with
    | none =>
      rw [hr] at h
      obtain rfl := by simpa using h
      exact Or.inr ⟨0, Or.inl ⟨rfl, rfl⟩, hfin l 0⟩
    | some e =>
      rw [hr] at h
      simp only at h
      cases he : e.caught with
      | true =>
        simp only [he, if_true] at h
        obtain rfl := by simpa using h
        exact Or.inr ⟨1, Or.inr ⟨e, rfl, he, rfl⟩, hfin l 1⟩
      | false =>
        simp only [he, Bool.false_eq_true, if_false] at h
        obtain rfl := by simpa using h
        exact Or.inl ⟨e, rfl, he, rfl, rfl, rfl⟩

/-- The reports of the jobs, for the transition system; `none` where the job could not be made. The
transition system is meant for jobs that end; one that does not end would report its start only and
never release the semaphore. -/
def fatesOf {n : ℕ} (l : List (Except Exc (Option (Ran M G)))) (i : Fin n) : Option (List Report) :=
  match l[(i : ℕ)]? with
  | some (.ok (some r)) => some r.reports
  | some (.ok none) => some [⟨i, 0, 0⟩]
  | _ => none

lemma fork_get {E : Engine K In M G} {parse : String → Option ℚ} {fuel : ℕ} :
    ∀ {js : List (In × Dict Yaml)} {i k : ℕ} {s : G} {x : Except Exc (Option (Ran M G))},
    (forkJobs E parse fuel i js s)[k]? = some x →
    ∃ inp cfg s1, js[k]? = some (inp, cfg) ∧
      forkJobs E parse fuel (i + k) [(inp, cfg)] s1 = [x]
  | [], i, k, s, x, h => by simp [forkJobs] at h
  | (inp, cfg) :: js, i, k, s, x, h => by
    unfold forkJobs at h
    generalize hm : makeJob E.deferred parse i inp cfg s = r at h
    match r, h with
    | (.error e, s1), h =>
      cases k with
      | zero =>
        refine ⟨inp, cfg, s, rfl, ?_⟩
        obtain rfl := by simpa using h
        simp only [forkJobs, Nat.add_zero, hm]
      | succ k => simp at h
    | (.ok j, s1), h =>
      cases k with
      | zero =>
        refine ⟨inp, cfg, s, rfl, ?_⟩
        obtain rfl := by simpa using h
        simp only [forkJobs, Nat.add_zero, hm]
      | succ k =>
        obtain ⟨inp', cfg', s', h1, h2⟩ := fork_get (by simpa using h)
        exact ⟨inp', cfg', s', by simpa using h1, by rw [show i + (k + 1) = i + 1 + k by omega]; exact h2⟩

lemma fork_one {E : Engine K In M G} {parse : String → Option ℚ} {fuel i : ℕ} {inp : In}
    {cfg : Dict Yaml} {s : G} {x : Except Exc (Option (Ran M G))}
    (h : forkJobs E parse fuel i [(inp, cfg)] s = [x]) :
    (∃ e, x = .error e ∧ (makeJob E.deferred parse i inp cfg s).1 = .error e) ∨
    ∃ j s1, makeJob E.deferred parse i inp cfg s = (.ok j, s1) ∧ j.i = i ∧
      x = .ok (runParallelJob E fuel j s1) := by
  unfold forkJobs at h
  generalize hm : makeJob E.deferred parse i inp cfg s = r at h
  match r, h with
  | (.error e, s1), h =>
    obtain rfl := by simpa using h
    exact Or.inl ⟨e, rfl, rfl⟩
  | (.ok j, s1), h =>
    simp only [forkJobs, List.cons.injEq, and_true] at h
    exact Or.inr ⟨j, s1, rfl, (C61_end hm).2.1, h.symm⟩

/-- C64: jobs report under their own number, so the theorems on the transition system apply. -/
theorem C64_tagged {E : Engine K In M G} {parse : String → Option ℚ} {fuel : ℕ}
    {js : List (In × Dict Yaml)} {s : G} :
    Tagged (n := js.length) (fatesOf (forkJobs E parse fuel 0 js s)) := by
  intro i rs h
  unfold fatesOf at h
  generalize hx : (forkJobs E parse fuel 0 js s)[(i : ℕ)]? = x at h
  match x, h with
  | some (.ok none), h =>
    obtain rfl := by simpa using h
    simp
  | some (.ok (some r)), h =>
    obtain rfl := by simpa using h
    obtain ⟨inp, cfg, s1, -, h2⟩ := fork_get hx
    rw [Nat.zero_add] at h2
    rcases fork_one h2 with ⟨e, he, -⟩ | ⟨j, s2, -, hj, he⟩
    · cases he
    · simp only [Except.ok.injEq] at he
      obtain ⟨l, -, ⟨e, -, -, -, -, hr⟩ | ⟨c, -, fe, -, ⟨e, -, -, -, hr⟩ | ⟨d, -, -, hr⟩⟩⟩ := C64_job he.symm
      · rw [hr, hj]; simp
      · rw [hr, hj]; simp
      · rw [hr, hj]; simp

/-! ## C68: independence -/

/-- Specification: making a model sets the generator, whatever its state was. True with a given seed. -/
def Reseeds (E : Engine K In M G) : Prop :=
  (∀ inp s s', E.make inp s = E.make inp s') ∧ ∀ inp s s', E.defer inp s = E.defer inp s'

lemma makeJob_reseeds {E : Engine K In M G} (h : Reseeds E) {parse : String → Option ℚ} (i : ℕ) (inp : In)
    (cfg : Dict Yaml) (s s' : G) :
    makeJob E parse i inp cfg s = makeJob E parse i inp cfg s' ∧
    makeJob E.deferred parse i inp cfg s = makeJob E.deferred parse i inp cfg s' := by
  constructor
  · unfold makeJob; rw [h.1 inp s s']
  · unfold makeJob Engine.deferred; simp only [h.2 inp s s']

/-- C68, parallel jobs: what a job does is what it does alone. -/
theorem C68_parallel {E : Engine K In M G} (h : Reseeds E) {parse : String → Option ℚ} {fuel : ℕ}
    {js : List (In × Dict Yaml)} {s : G} {k : ℕ} {x : Except Exc (Option (Ran M G))}
    (hx : (forkJobs E parse fuel 0 js s)[k]? = some x) :
    ∃ inp cfg, js[k]? = some (inp, cfg) ∧ ∀ s0, forkJobs E parse fuel k [(inp, cfg)] s0 = [x] := by
  obtain ⟨inp, cfg, s1, h1, h2⟩ := fork_get hx
  rw [Nat.zero_add] at h2
  refine ⟨inp, cfg, h1, ?_⟩
  intro s0
  rw [← h2]
  unfold forkJobs
  rw [(makeJob_reseeds h k inp cfg s0 s1).2]

lemma makeJobs_last {E : Engine K In M G} (h : Reseeds E) {parse : String → Option ℚ} :
    ∀ {js : List (In × Dict Yaml)} {i : ℕ} {s s' : G} {l : List (Job K M)},
    makeJobs E parse i js s = (.ok l, s') →
    l.length = js.length ∧
    (∀ (k : ℕ) (inp : In) (cfg : Dict Yaml), js[k]? = some (inp, cfg) →
      ∃ j, l[k]? = some j ∧ ∀ s0, (makeJob E parse (i + k) inp cfg s0).1 = .ok j) ∧
    (∀ inp cfg, js.getLast? = some (inp, cfg) → ∀ s0, (E.make inp s0).2 = s')
  | [], i, s, s', l, h => by
    obtain ⟨rfl, rfl⟩ := by simpa [makeJobs] using h
    exact ⟨rfl, by simp, by simp⟩
  | (inp, cfg) :: js, i, s, s', l, hm => by
    unfold makeJobs at hm
    generalize hj : makeJob E parse i inp cfg s = r at hm
    match r, hm with
    | (.ok j, s1), hm =>
      simp only at hm
      generalize hq : makeJobs E parse (i + 1) js s1 = q at hm
      match q, hm with
      | (.ok l1, s2), hm =>
        obtain ⟨rfl, rfl⟩ := by simpa using hm
        obtain ⟨c1, c2, c3⟩ := makeJobs_last h hq
        refine ⟨by simp [c1], ?_, ?_⟩
        · intro k inp' cfg' hk
          cases k with
          | zero =>
            obtain ⟨rfl, rfl⟩ := by simpa using hk
            refine ⟨j, rfl, ?_⟩
            intro s0
            rw [Nat.add_zero, (makeJob_reseeds h i inp cfg s0 s).1, hj]
          | succ k =>
            obtain ⟨j', d1, d2⟩ := c2 k inp' cfg' (by simpa using hk)
            exact ⟨j', by simpa using d1, by rw [show i + (k + 1) = i + 1 + k by omega]; exact d2⟩
        · intro inp' cfg' hl s0
          cases js with
          | nil =>
            obtain ⟨rfl, rfl⟩ := by simpa using hl
            obtain ⟨-, rfl⟩ := by simpa [makeJobs] using hq
            have := (C61_end hj).1
            rw [h.1 inp s0 s, this]
          | cons a js => exact c3 inp' cfg' (by simpa using hl) s0

/-- C68, serial jobs: the first job goes on from the seed of the **last** one, each later job from where
the job before it left the generator; not from its own seed. -/
theorem C68_serial_start {E : Engine K In M G} (h : Reseeds E) {parse : String → Option ℚ} {fuel : ℕ}
    {js : List (In × Dict Yaml)} {s : G} {D : Done M G} (hD : runJobsSerial E parse fuel js s = some D)
    (hr : D.raised = none) {last : In} {lcfg : Dict Yaml} (hl : js.getLast? = some (last, lcfg)) :
    D.jobs.length = js.length ∧
    ∀ (k : ℕ) (inp : In) (cfg : Dict Yaml), js[k]? = some (inp, cfg) →
      ∃ j r, (∀ s0, (makeJob E parse k inp cfg s0).1 = .ok j) ∧ D.jobs[k]? = some r ∧
        Ends E fuel j (match k with
          | 0 => (E.make last s).2
          | k + 1 => ((D.jobs[k]?).map Ran.rng).getD s) r := by
  rcases C63_made_first hD with ⟨-, k, inp, cfg, s1, e, he, -⟩ | ⟨l, s1, hm, hs⟩
  · rw [hr] at he; cases he
  · obtain ⟨c1, c2, c3⟩ := makeJobs_last h hm
    obtain ⟨d1, d2, -⟩ := C63_serial hs
    obtain ⟨d3, -⟩ := d2 hr
    refine ⟨by rw [d3, c1], ?_⟩
    intro k inp cfg hk
    obtain ⟨j, hj, hj'⟩ := c2 k inp cfg hk
    have hk' : k < D.jobs.length := by rw [d3, c1]; exact (List.getElem?_eq_some_iff.1 hk).1
    obtain ⟨j', e1, e2⟩ := d1 k D.jobs[k] (List.getElem?_eq_getElem hk')
    rw [hj] at e1
    obtain rfl := by simpa using e1
    refine ⟨j, D.jobs[k], by simpa using hj', List.getElem?_eq_getElem hk', ?_⟩
    cases k with
    | zero => rw [c3 last lcfg hl s]; exact e2
    | succ k =>
      have hlt : k < D.jobs.length := by omega
      simp only [List.getElem?_eq_getElem hlt, Option.map_some, Option.getD_some] at e2 ⊢
      exact e2

/-- C68 for one serial job: it goes on from its own seed, whatever the generator was before. -/
theorem C68_single_partial {E : Engine K In M G} (h : Reseeds E) {parse : String → Option ℚ} {fuel : ℕ}
    {inp : In} {cfg : Dict Yaml} (s s0 : G) :
    runJobsSerial E parse fuel [(inp, cfg)] s = runJobsSerial E parse fuel [(inp, cfg)] s0 := by
  unfold runJobsSerial makeJobs
  rw [(makeJob_reseeds h 0 inp cfg s s0).1]

/-! ## The modelled class -/

variable [FloorRing K] {σ : Type*}

lemma sim_reseeds (g : Rng K σ) : Reseeds (simEngine g) := ⟨fun _ _ _ => rfl, fun _ _ _ => rfl⟩

/-- C61: the clock of the modelled class. -/
theorem C61_clock (g : Rng K σ) : Clock (simEngine g) := by
  intro mo s mo1 s1 h
  have := mo.hL
  have := mo.hW
  simp only [simEngine, AnyModel.update] at h
  generalize hu : update g mo.out mo.P { mo.sim with rng := s } = u at h
  match u, h with
  | .ok M', h =>
    obtain ⟨rfl, rfl⟩ := by simpa using h
    obtain ⟨-, S, l, s', ht, rfl⟩ := update_ok hu
    refine ⟨?_, rfl⟩
    simp only [simEngine, afterStep]
    rw [(outputCheckpoint_frame mo.out _).1, (outputData_frame mo.out _).1]
    obtain ⟨r, e⟩ := step_result ht
    simp only
    rw [r.time, e]

/-- C61: the loop of a job is a sequence of updates of its model. -/
lemma loop_updates (g : Rng K σ) {stop : K} : ∀ {fuel : ℕ} {mo : AnyModel K σ} {s : σ}
    {r : Looped (AnyModel K σ) σ}, runLoop (simEngine g) stop fuel mo s = some r →
    have := mo.hL
    have := mo.hW
    ∃ X : Sim mo.L mo.W K σ, r.model = { mo with sim := X } ∧
      updates g mo.out (List.replicate r.updates mo.P) { mo.sim with rng := s } =
        .ok { X with rng := r.rng } ∧
      ∀ e, r.raised = some e → ∃ err, e = excOf err ∧
        updates g mo.out (List.replicate (r.updates + 1) mo.P) { mo.sim with rng := s } = .error err := by
  intro fuel
  induction fuel with
  | zero =>
    intro mo s r h
    unfold runLoop at h
    split at h
    · cases h
    · obtain rfl := by simpa using h
      exact ⟨mo.sim, rfl, rfl, by simp⟩
  | succ fuel ih =>
    intro mo s r h
    have := mo.hL
    have := mo.hW
    unfold runLoop at h
    split at h
    · simp only at h
      generalize hu : (simEngine g).update mo s = u at h
      simp only [simEngine, AnyModel.update] at hu
      generalize hx : update g mo.out mo.P { mo.sim with rng := s } = x at hu
      match x, hu with
      | .error e, hu =>
        obtain rfl := by simpa using hu.symm
        obtain rfl := by simpa using h
        refine ⟨mo.sim, rfl, rfl, ?_⟩
        intro e' he'
        refine ⟨e, by simpa using he'.symm, ?_⟩
        simp only [Nat.zero_add, List.replicate_one, updates, hx]
      | .ok M', hu =>
        obtain rfl := by simpa using hu.symm
        simp only at h
        generalize hr : runLoop (simEngine g) stop fuel { mo with sim := M' } M'.rng = r1 at h
        match r1, h with
        | some r1, h =>
          obtain rfl := by simpa using h
          obtain ⟨X, h1, h2, h3⟩ := ih hr
          refine ⟨X, h1, ?_, ?_⟩
          · simp only [List.replicate_succ, updates, hx]
            exact h2
          · intro e he
            obtain ⟨err, c1, c2⟩ := h3 e he
            refine ⟨err, c1, ?_⟩
            rw [List.replicate_succ]
            simp only [updates, hx]
            exact c2
    · obtain rfl := by simpa using h
      exact ⟨mo.sim, rfl, rfl, by simp⟩

/-- A setting on which every timestep can be made. -/
structure SoundSetting (c : Setting K σ) : Prop where
  water : have := c.hL; have := c.hW; WaterSetup c.P
  sed : have := c.hL; have := c.hW; SedDomain c.P
  h0 : 0 ≤ c.P.h0
  dt : 0 < c.P.dt
  depth : ∀ x, 0 ≤ c.S.depth x
  ncols : 0 < c.S.ncols

lemma updates_life {L W m : ℕ} [NeZero L] [NeZero W] {g : Rng K σ} {cfg : OutCfg K} :
    ∀ {Ps : List (Params L W m K)} {M M' : Sim L W K σ}, M.finalized = false →
    updates g cfg Ps M = .ok M' → M'.finalized = false
  | [], M, M', h, hu => by
    obtain rfl := by simpa [updates] using hu
    exact h
  | P :: Ps, M, M', h, hu => by
    unfold updates at hu
    generalize hx : update g cfg P M = x at hu
    match x, hu with
    | .ok M1, hu => exact updates_life (update_life h hx) hu

lemma start_frame {L W : ℕ} (out : OutCfg K) (S : State L W K) (s : σ) :
    (startSim out S s).S = S ∧ (startSim out S s).rng = s ∧ (startSim out S s).finalized = false := by
  unfold startSim outputCheckpoint outputData saveGridsAndFigs newSim
  refine ⟨?_, ?_, ?_⟩ <;> (split_ifs <;> rfl)

/-- C61: on a sound setting the loop of a job of `n` timesteps makes `n` updates and raises nothing. -/
lemma loop_sound {g : Rng K σ} (hg : PositiveDraws g) {c : Setting K σ} (hc : SoundSetting c)
    {X0 : Sim c.L c.W K σ} (h1 : X0.S = c.S) (h2 : X0.finalized = false) {n fuel : ℕ} (hf : n ≤ fuel)
    {stop : K} (hs : stop = c.S.time + n * c.P.dt) (s : σ) :
    have := c.hL
    have := c.hW
    ∃ X s', runLoop (simEngine g) stop fuel (c.live X0) s = some ⟨none, c.live X, s', n⟩ ∧
      updates g c.out (List.replicate n c.P) { X0 with rng := s } = .ok { X with rng := s' } ∧
      X.finalized = false := by
  have := c.hL
  have := c.hW
  have ht : (simEngine g).time (c.live X0) = c.S.time := by simp only [simEngine, Setting.live, h1]
  have hd : (simEngine g).dt (c.live X0) = c.P.dt := rfl
  obtain ⟨r, hr⟩ := loop_ends (C61_clock g) (stop := stop) (n := n) (mo := c.live X0) (s := s)
    (by rw [ht, hd, hs])
  obtain ⟨a1, a2, a3⟩ := loop_spec (C61_clock g) (hr n le_rfl)
  rw [ht, hd] at a1 a2 a3
  obtain ⟨X, b1, b2, b3⟩ := loop_updates g (hr n le_rfl)
  have hall : ∀ k, ∃ M', updates g c.out (List.replicate k c.P) { X0 with rng := s } = .ok M' := by
    intro k
    refine C46_accepted hg c.out ?_ h2 ?_ ?_
    · intro P hP
      rw [List.eq_of_mem_replicate hP]
      exact ⟨hc.water, hc.sed, hc.h0⟩
    · intro x; simp only [h1]; exact hc.depth x
    · simp only [h1]; exact hc.ncols
  have hn : r.raised = none := by
    cases he : r.raised with
    | none => rfl
    | some e =>
      obtain ⟨err, -, c2⟩ := b3 e he
      obtain ⟨M', hM⟩ := hall (r.updates + 1)
      have : updates g c.out (List.replicate (r.updates + 1) c.P) { X0 with rng := s } = .error err := c2
      rw [hM] at this; cases this
  obtain ⟨a4, a5⟩ := a2 hn
  have hle : r.updates ≤ n := by
    by_contra hlt
    have := a1 n (by omega)
    rw [hs] at this
    exact lt_irrefl _ this
  have hge : n ≤ r.updates := by
    rw [a4, hs] at a5
    have : (n : K) * c.P.dt ≤ r.updates * c.P.dt := by linarith
    exact_mod_cast le_of_mul_le_mul_right this hc.dt
  have hu : r.updates = n := le_antisymm hle hge
  have b2' : updates g c.out (List.replicate n c.P) { X0 with rng := s } = .ok { X with rng := r.rng } := by
    rw [← hu]; exact b2
  refine ⟨X, r.rng, ?_, b2', ?_⟩
  · rw [hr fuel hf]
    obtain ⟨r1, r2, r3, r4⟩ := r
    simp only at hn hu b1
    subst hn hu b1
    rfl
  · exact updates_life (M := { X0 with rng := s }) (M' := { X with rng := r.rng }) h2 b2'

lemma sim_eta {L W : ℕ} {x : Sim L W K σ} {s : σ} (h : x.rng = s) : ({ x with rng := s } : Sim L W K σ) = x := by
  subst h; rfl

lemma duration_steps {parse : String → Option ℚ} {cfg : Dict Yaml} {q : ℚ}
    (hq : UsesIf parse (dget cfg) q) {n : ℕ} (hn : dget cfg "timesteps" = some (.scalar (.int n))) (dt : K) :
    duration parse cfg dt = .ok (n * dt) := by
  unfold duration
  rw [jobIf_ok.2 hq]
  simp only [hn, timesNum, numOf]
  push_cast
  rfl

lemma finish_sound (g : Rng K σ) (c : Setting K σ) {X : Sim c.L c.W K σ} (h : X.finalized = false) (i : ℕ)
    (s : σ) (reports : List Report) (n : ℕ) :
    finishJob (simEngine g) i (c.live X) s reports n =
      ⟨none, c.live { X with finalized := true }, s, reports ++ [⟨i, 2, 0⟩], n⟩ := by
  have hx : Verif.Model.finalize X = .ok { X with finalized := true } := by
    unfold Verif.Model.finalize; rw [h]; rfl
  have : (simEngine g).finalize (c.live X) s = (none, c.live { X with finalized := true }, s) := by
    simp only [simEngine, AnyModel.finalize, Setting.live, hx]
  unfold finishJob
  rw [this]

/-- C61 / C68: a single serial job of `n` timesteps on a sound setting does what a user does who creates
the model, updates it `n` times and finalizes it (`X` with the generator put back is the model, since
the generator belongs to the process). -/
theorem C61_model {g : Rng K σ} (hg : PositiveDraws g) {c : Setting K σ} (hc : SoundSetting c)
    {parse : String → Option ℚ} {cfg : Dict Yaml} {q : ℚ} (hq : UsesIf parse (dget cfg) q) {n : ℕ}
    (hn : dget cfg "timesteps" = some (.scalar (.int n))) (s : σ) {fuel : ℕ} (hf : n ≤ fuel) :
    have := c.hL
    have := c.hW
    ∃ M, updates g c.out (List.replicate n c.P) (startSim c.out c.S c.seeded) = .ok M ∧
      ∃ X, { X with rng := M.rng } = { M with finalized := true } ∧
        runJobsSerial (simEngine g) parse fuel [(c, cfg)] s =
          some ⟨[⟨none, c.live X, M.rng, [⟨0, 1, 0⟩, ⟨0, 2, 0⟩], n⟩], none, M.rng⟩ := by
  have := c.hL
  have := c.hW
  obtain ⟨e1, e2, e3⟩ := start_frame c.out c.S c.seeded
  obtain ⟨X, s', h1, h2, h3⟩ := loop_sound hg hc e1 e3 hf rfl c.seeded
  rw [sim_eta e2] at h2
  refine ⟨_, h2, { X with finalized := true }, rfl, ?_⟩
  have hm : makeJob (simEngine g) parse 0 c cfg s =
      (.ok ⟨0, c.live (startSim c.out c.S c.seeded), c.S.time + n * c.P.dt⟩, c.seeded) := by
    have : (simEngine g).time (c.live (startSim c.out c.S c.seeded)) = c.S.time := by
      simp only [simEngine, Setting.live, e1]
    have hd : (simEngine g).dt (c.live (startSim c.out c.S c.seeded)) = c.P.dt := rfl
    have hk : (simEngine g).make c s = (.ok (c.live (startSim c.out c.S c.seeded)), c.seeded) := rfl
    unfold makeJob
    simp only [hk, duration_steps hq hn, this, hd]
  unfold runJobsSerial makeJobs makeJobs
  rw [hm]
  simp only [runSerial, runJob, h1, finish_sound g c h3]
  rfl

/-- C68: a parallel job of `n` timesteps, among any others and wherever the generator is, does what a
user does who creates the model, updates it `n` times and finalizes it. -/
theorem C68_parallel_model {g : Rng K σ} (hg : PositiveDraws g) {c : Setting K σ} (hc : SoundSetting c)
    {parse : String → Option ℚ} {cfg : Dict Yaml} {q : ℚ} (hq : UsesIf parse (dget cfg) q) {n : ℕ}
    (hn : dget cfg "timesteps" = some (.scalar (.int n))) {fuel : ℕ} (hf : n ≤ fuel)
    {js : List (Setting K σ × Dict Yaml)} {k : ℕ} (hk : js[k]? = some (c, cfg)) {s : σ}
    {x : Except Exc (Option (Ran (AnyModel K σ) σ))}
    (hx : (forkJobs (simEngine g) parse fuel 0 js s)[k]? = some x) :
    have := c.hL
    have := c.hW
    ∃ M, updates g c.out (List.replicate n c.P) (startSim c.out c.S c.seeded) = .ok M ∧
      ∃ X, { X with rng := M.rng } = { M with finalized := true } ∧
        x = .ok (some ⟨none, c.live X, M.rng, [⟨k, 0, 0⟩, ⟨k, 1, 0⟩, ⟨k, 2, 0⟩], n⟩) := by
  have := c.hL
  have := c.hW
  obtain ⟨c', cfg', h1, h2⟩ := C68_parallel (sim_reseeds g) hx
  rw [hk] at h1
  obtain ⟨rfl, rfl⟩ := by simpa using h1
  have hs := h2 s
  obtain ⟨e1, e2, e3⟩ := start_frame c.out c.S c.seeded
  obtain ⟨X, s', l1, l2, l3⟩ := loop_sound hg hc e1 e3 hf rfl c.seeded
  rw [sim_eta e2] at l2
  refine ⟨_, l2, { X with finalized := true }, rfl, ?_⟩
  have hm : makeJob (simEngine g).deferred parse k c cfg s =
      (.ok ⟨k, c.live (newSim c.S c.seeded), c.S.time + n * c.P.dt⟩, c.seeded) := by
    have : (simEngine g).deferred.time (c.live (newSim c.S c.seeded)) = c.S.time := rfl
    have hd : (simEngine g).deferred.dt (c.live (newSim c.S c.seeded)) = c.P.dt := rfl
    have hk : (simEngine g).deferred.make c s = (.ok (c.live (newSim c.S c.seeded)), c.seeded) := rfl
    unfold makeJob
    simp only [hk, duration_steps hq hn, this, hd]
  have hb : (simEngine g).begin (c.live (newSim c.S c.seeded)) c.seeded =
      (none, c.live (startSim c.out c.S c.seeded), c.seeded) := rfl
  unfold forkJobs forkJobs at hs
  rw [hm] at hs
  simp only [runParallelJob, beginLoop, hb, l1, finish_sound g c l3, List.cons.injEq, and_true] at hs
  rw [← hs]
  rfl

lemma fork_length {E : Engine K In M G} {parse : String → Option ℚ} {fuel : ℕ} :
    ∀ {js : List (In × Dict Yaml)} {i : ℕ} {s : G},
    (∀ p ∈ js, ∀ i s, ∃ j s1, makeJob E.deferred parse i p.1 p.2 s = (.ok j, s1)) →
    (forkJobs E parse fuel i js s).length = js.length
  | [], i, s, _ => rfl
  | (inp, cfg) :: js, i, s, h => by
    obtain ⟨j, s1, hj⟩ := h (inp, cfg) List.mem_cons_self i s
    simp only at hj
    unfold forkJobs
    rw [hj]
    simp [fork_length (fun p hp => h p (List.mem_cons_of_mem _ hp))]

/-- C64 for the modelled class: parallel jobs of sound settings, with room in the pipe for their
reports. However the processes interleave, `run_jobs` comes to an end, every job is started once, and
each reports success for all its stages. -/
theorem C64_model {g : Rng K σ} (hg : PositiveDraws g) {parse : String → Option ℚ}
    {js : List (Setting K σ × Dict Yaml)} {steps : ℕ → ℕ} (hj : 0 < js.length)
    (hc : ∀ (k : ℕ) (c : Setting K σ) (cfg : Dict Yaml), js[k]? = some (c, cfg) → SoundSetting c ∧
      (∃ q, UsesIf parse (dget cfg) q) ∧ dget cfg "timesteps" = some (.scalar (.int (steps k))))
    {fuel : ℕ} (hf : ∀ k < js.length, steps k ≤ fuel) (s : σ) {cap limit : ℕ} (hl : 0 < limit)
    (hcap : 3 * js.length ≤ cap) {w : World js.length}
    (hw : Reached (fatesOf (forkJobs (simEngine g) parse fuel 0 js s)) cap limit w) :
    (∃ k v, ProcSteps (fatesOf (forkJobs (simEngine g) parse fuel 0 js s)) cap k w v ∧
      Stuck (fatesOf (forkJobs (simEngine g) parse fuel 0 js s)) cap v) ∧
    (Stuck (fatesOf (forkJobs (simEngine g) parse fuel 0 js s)) cap w → w.phase = .done ∧
      ∀ i, (w.child i).starts = 1 ∧ gotFrom w i = [⟨i, 0, 0⟩, ⟨i, 1, 0⟩, ⟨i, 2, 0⟩]) := by
  have hlen : (forkJobs (simEngine g) parse fuel 0 js s).length = js.length := by
    refine fork_length ?_
    rintro ⟨c, cfg⟩ hp i s0
    obtain ⟨k, hk⟩ := List.mem_iff_getElem?.1 hp
    obtain ⟨-, ⟨q, hq⟩, hn⟩ := hc k c cfg hk
    refine ⟨⟨i, c.live (newSim c.S c.seeded), c.S.time + (steps k) * c.P.dt⟩, c.seeded, ?_⟩
    have e1 : (simEngine g).deferred.time (c.live (newSim c.S c.seeded)) = c.S.time := rfl
    have e2 : (simEngine g).deferred.dt (c.live (newSim c.S c.seeded)) = c.P.dt := rfl
    have e3 : (simEngine g).deferred.make c s0 = (.ok (c.live (newSim c.S c.seeded)), c.seeded) := rfl
    unfold makeJob
    simp only [e3, duration_steps hq hn, e1, e2]
  have hfate : ∀ i : Fin js.length, fatesOf (forkJobs (simEngine g) parse fuel 0 js s) i =
      some [⟨i, 0, 0⟩, ⟨i, 1, 0⟩, ⟨i, 2, 0⟩] := by
    intro i
    have hi : (i : ℕ) < (forkJobs (simEngine g) parse fuel 0 js s).length := by rw [hlen]; exact i.isLt
    have hx := List.getElem?_eq_getElem hi
    obtain ⟨h1, ⟨q, hq⟩, hn⟩ := hc i js[i].1 js[i].2 (by simp)
    obtain ⟨M, -, X, -, h4⟩ := C68_parallel_model hg h1 hq hn (hf i i.isLt) (k := i) (by simp) hx
    unfold fatesOf
    rw [hx, h4]
  have ht := C64_tagged (E := simEngine g) (parse := parse) (fuel := fuel) (js := js) (s := s)
  refine ⟨C64_continues ht hj hw, ?_⟩
  intro hs
  have hne : ∀ i : Fin js.length, fatesOf (forkJobs (simEngine g) parse fuel 0 js s) i ≠ none := by
    intro i; rw [hfate]; simp
  obtain ⟨d1, d2⟩ := C64_reports_partial ht hj hl hne (by
    simp only [hfate, Option.getD_some, List.length_cons, List.length_nil, Finset.sum_const,
      Finset.card_univ, Fintype.card_fin, smul_eq_mul]
    omega) hw hs
  refine ⟨d1, ?_⟩
  intro i
  refine ⟨((C64_all_run ht hj hl hne hw hs).1 i).1, ?_⟩
  have := d2 i
  rw [hfate] at this
  simpa using this.symm

/-! ## C64: how many processes -/

/-- C64: the number of processes for `parallel: true` and for a number: at least one, never more than
there are jobs. -/
theorem C64_processes {cpus njobs : ℕ} (hj : 0 < njobs) :
    (∃ n, runMode true cpus njobs (some (.scalar (.bool true))) = .ok (.parallel n) ∧ 1 ≤ n ∧ n ≤ njobs ∧
      (n < njobs → n = max 1 ((cpus : ℤ) - 1))) ∧
    ∀ k : ℤ, 0 < k → ∃ n, runMode true cpus njobs (some (.scalar (.int k))) = .ok (.parallel n) ∧
      1 ≤ n ∧ n ≤ njobs ∧ n ≤ k ∧ (n < njobs → n = k) := by
  constructor
  · refine ⟨_, rfl, ?_⟩
    split_ifs <;> omega
  · intro k hk
    refine ⟨min k njobs, ?_, by omega, by omega, by omega, by omega⟩
    unfold runMode
    simp only [truthy, decide_eq_true_eq, ne_eq, hk.ne', not_false_eq_true, if_true, Bool.true_eq_false,
      if_false]
    rw [if_neg (by omega)]

/-- C64: only the absence of the option, or `false`, gives serial jobs. Zero, an empty text and null are
refused, and parallel jobs are refused on other systems. -/
theorem C64_mode {linux : Bool} {cpus njobs : ℕ} {v : Option Yaml} :
    (runMode linux cpus njobs v = .ok .serial ↔ v = none ∨ v = some (.scalar (.bool false))) ∧
    (linux = false → ∀ n, runMode linux cpus njobs v ≠ .ok (.parallel n)) := by
  constructor
  · match v with
    | none => simp [runMode]
    | some (.scalar (.bool b)) => cases b <;> cases linux <;> simp [runMode, truthy]
    | some (.scalar (.int i)) =>
      simp only [runMode]
      by_cases h1 : truthy (.scalar (.int i)) = true <;> by_cases h2 : linux = false <;>
        by_cases h3 : min i (njobs : ℤ) < 0 <;> simp only [h1, h2, h3, if_true, if_false] <;> simp
    | some (.scalar (.str t)) =>
      simp only [runMode]
      by_cases h1 : truthy (.scalar (.str t)) = true <;> by_cases h2 : linux = false <;>
        simp only [h1, h2, if_true, if_false] <;> simp
    | some (.scalar (.float t)) =>
      simp only [runMode]
      by_cases h1 : truthy (.scalar (.float t)) = true <;> by_cases h2 : linux = false <;>
        simp only [h1, h2, if_true, if_false] <;> simp
    | some (.scalar .null) => cases linux <;> simp [runMode, truthy]
    | some (.scalar .other) => cases linux <;> simp [runMode, truthy]
    | some (.list t) =>
      simp only [runMode]
      by_cases h1 : truthy (.list t) = true <;> by_cases h2 : linux = false <;>
        simp only [h1, h2, if_true, if_false] <;> simp
    | some (.dict t) =>
      simp only [runMode]
      by_cases h1 : truthy (.dict t) = true <;> by_cases h2 : linux = false <;>
        simp only [h1, h2, if_true, if_false] <;> simp
  · rintro rfl n h
    cases v with
    | none => simp [runMode] at h
    | some v =>
      simp only [runMode, if_true] at h
      by_cases h1 : truthy v = true
      · rw [if_pos h1] at h; simp at h
      · rw [if_neg h1] at h
        split at h <;> simp at h

/-- Values that count as false. -/
inductive Blank : Yaml → Prop
  | no : Blank (.scalar (.bool false))
  | null : Blank (.scalar .null)
  | zero : Blank (.scalar (.int 0))
  | point : Blank (.scalar (.float 0))
  | text : Blank (.scalar (.str ""))
  | list : Blank (.list [])
  | dict : Blank (.dict [])

lemma truthy_iff (v : Yaml) : truthy v = true ↔ ¬ Blank v := by
  constructor
  · rintro h (_ | _ | _ | _ | _ | _ | _) <;> simp [truthy] at h
  · intro h
    match v with
    | .scalar (.str s) => simp only [truthy, decide_eq_true_eq]; rintro rfl; exact h .text
    | .scalar (.int i) => simp only [truthy, decide_eq_true_eq]; rintro rfl; exact h .zero
    | .scalar (.float q) => simp only [truthy, decide_eq_true_eq]; rintro rfl; exact h .point
    | .scalar (.bool true) => rfl
    | .scalar (.bool false) => exact absurd .no h
    | .scalar .null => exact absurd .null h
    | .scalar .other => rfl
    | .list [] => exact absurd .list h
    | .list (_ :: _) => rfl
    | .dict [] => exact absurd .dict h
    | .dict (_ :: _) => rfl

/-- C64: what is refused. On other systems every value that counts as true is refused as not implemented; every value
that counts as false, but `false`, and every value that is neither a truth value nor a whole number is refused as a wrong
value, as is a negative number. All else is run. -/
theorem C64_refused {linux : Bool} {cpus njobs : ℕ} {v : Yaml} :
    ((∃ e, runMode linux cpus njobs (some v) = .error e ∧ e.kind = .notImplemented) ↔ linux = false ∧ ¬ Blank v) ∧
    ((∃ e, runMode linux cpus njobs (some v) = .error e ∧ e.kind = .valueError) ↔
      (Blank v ∧ v ≠ .scalar (.bool false)) ∨ (linux = true ∧ (∀ b, v ≠ .scalar (.bool b)) ∧
        ∀ n : ℤ, v = .scalar (.int n) → n < 0)) := by
  by_cases hb : Blank v
  · have ht : truthy v = false := by
      rw [← Bool.not_eq_true, truthy_iff, not_not]; exact hb
    cases hb <;> simp [runMode, ht, Blank.no, Blank.null, Blank.zero, Blank.point, Blank.text, Blank.list, Blank.dict]
  · have ht := (truthy_iff v).2 hb
    cases linux with
    | false => simp [runMode, ht, hb]
    | true =>
      match v with
      | .scalar (.int n) =>
        simp only [runMode, ht, if_true, Bool.true_eq_false, if_false, hb, false_and, false_or]
        by_cases h : n < 0
        · rw [if_pos (by omega)]
          simp [h]
        · rw [if_neg (by omega)]
          simp [h]
      | .scalar (.str s) => simp [runMode, ht, hb]
      | .scalar (.float q) => simp [runMode, ht, hb]
      | .scalar (.bool b) => simp [runMode, ht, hb]
      | .scalar .null => exact absurd .null hb
      | .scalar .other => simp [runMode, ht, hb]
      | .list l => simp [runMode, ht, hb]
      | .dict d => simp [runMode, ht, hb]

/-! ## Non-trivial cases -/

/-- A class of models that record what they draw: the input is the seed, the generator counts. -/
def tape : Engine ℚ ℕ (List ℕ) ℕ where
  make seed _ := (.ok [], seed)
  defer seed _ := (.ok [], seed)
  begin mo s := (none, mo, s)
  time mo := mo.length
  dt _ := 1
  update mo s := (none, s :: mo, s + 1)
  finalize mo s := (none, mo, s)

/-- Two timesteps. -/
def twoSteps : Dict Yaml := [("timesteps", .scalar (.int 2))]

/-- The class meets the hypotheses of the theorems above. -/
example : Reseeds tape ∧ Clock tape := by
  refine ⟨⟨fun _ _ _ => rfl, fun _ _ _ => rfl⟩, ?_⟩
  intro mo s mo1 s1 h
  obtain ⟨rfl, rfl⟩ := by simpa [tape] using h
  simp [tape]

example : UsesIf (fun _ => none) (dget twoSteps) 1 := Or.inl ⟨by decide +kernel, rfl⟩

/-- C68 fails for serial jobs: the first of two jobs, seeded with 10, draws from the seed 20 of the
second. Alone, or beside others in parallel, it draws from its own seed. -/
theorem C68_serial_witness :
    (runJobsSerial tape (fun _ => none) 5 [(10, twoSteps), (20, twoSteps)] 0).map
      (fun D => D.jobs.map Ran.model) = some [[21, 20], [23, 22]] ∧
    (runJobsSerial tape (fun _ => none) 5 [(10, twoSteps)] 0).map
      (fun D => D.jobs.map Ran.model) = some [[11, 10]] ∧
    (forkJobs tape (fun _ => none) 5 0 [(10, twoSteps), (20, twoSteps)] 0).map
      (fun x => match x with
        | .ok (some r) => r.model
        | _ => []) = [[11, 10], [21, 20]] := by
  refine ⟨?_, ?_, ?_⟩ <;> decide +kernel

/-- The setting of the example is sound. -/
example : SoundSetting (⟨4, 3, 1, ⟨by decide⟩, ⟨by decide⟩, exParams, exOut, exState, ()⟩ : Setting ℚ Unit) where
  water := exSetup
  sed := exSedDomain
  h0 := by norm_num [exParams]
  dt := by norm_num [exParams]
  depth := fun _ => by norm_num [exState]
  ncols := by norm_num [exState]

end Verif.Props
