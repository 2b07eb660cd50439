import Verif.Model.Campaign
import Verif.Props.Shared
import Verif.Props.Resume
import Verif.Props.DrawsRun

/-!
# C113: a run in several jobs

Jobs that resume from checkpoints, alone or in sets of jobs.
-/

set_option linter.unusedSectionVars false

namespace Verif.Props

open Verif.Model Verif.Lemmas Verif.Spec

variable {K : Type*} [Field K] [LinearOrder K] [IsStrictOrderedRing K] [FloorRing K] {σ : Type*}

/-! ## Specification -/

/-- `X` is what the setting `c` is at after jobs with so many timesteps in all. Each job is one of a set of parallel
jobs, which may be anything otherwise. A job that goes on finds the checkpoint of the end of the job before, with a
whole number for the time since the last save, and the output file of that job. -/
inductive Worked (g : Rng K σ) (parse : String → Option ℚ) (c : Setting K σ) : ℕ → Sim c.L c.W K σ → Prop
  | first {files : FolderFiles c.L c.W K σ} {js : List (Folder K σ × Dict Yaml)} {k n fuel u : ℕ} {cfg : Dict Yaml}
      {q : ℚ} {s s' : σ} {X : Sim c.L c.W K σ} {rs : List Report}
      (hk : js[k]? = some (⟨c, false, files⟩, cfg)) (hq : UsesIf parse (dget cfg) q)
      (hn : dget cfg "timesteps" = some (.scalar (.int n))) (hf : n ≤ fuel)
      (hx : (forkJobs (folderEngine g) parse fuel 0 js s)[k]? =
        some (.ok (some ⟨none, ⟨⟨c, false, files⟩, X⟩, s', rs, u⟩))) : Worked g parse c n X
  | next {N : ℕ} {Y : Sim c.L c.W K σ} (h : Worked g parse c N Y)
      (whole : ∀ x, Y.saveSince = some x → pyTrunc x = x)
      {js : List (Folder K σ × Dict Yaml)} {k n fuel u : ℕ} {cfg : Dict Yaml} {q : ℚ} {s s' : σ}
      {X : Sim c.L c.W K σ} {rs : List Report}
      (hk : js[k]? = some (⟨c, true, ⟨some (takeCkpt Y), some Y.nc⟩⟩, cfg)) (hq : UsesIf parse (dget cfg) q)
      (hn : dget cfg "timesteps" = some (.scalar (.int n))) (hf : n ≤ fuel)
      (hx : (forkJobs (folderEngine g) parse fuel 0 js s)[k]? =
        some (.ok (some ⟨none, ⟨⟨c, true, ⟨some (takeCkpt Y), some Y.nc⟩⟩, X⟩, s', rs, u⟩))) :
      Worked g parse c (N + n) X

/-! ## Making the models -/

lemma folder_reseeds (g : Rng K σ) : Reseeds (folderEngine g) := ⟨fun _ _ _ => rfl, fun _ _ _ => rfl⟩

/-- The model with the values of a checkpoint. -/
def withCkpt {L W : ℕ} (cfg : OutCfg K) (disk : Option (ℕ → Option (Record L W K))) (ck : Ckpt L W K σ) (x : K)
    (M : Sim L W K σ) : Sim L W K σ :=
  { M with
    S := { M.S with
      time := ck.time, HSL := ck.HSL, timeIter := ck.timeIter
      eta := ck.eta, depth := ck.depth, stage := ck.stage, uw := ck.uw, ux := ck.ux, uy := ck.uy
      qw := ck.qw, qx := ck.qx, qy := ck.qy, sandFrac := ck.sandFrac
      activeLayer := ck.activeLayer }
    rng := ck.rng
    saveSince := some (pyTrunc x)
    saveIter := if cfg.saveNc ∧ disk.isNone then 0 else ck.saveIter
    nc := if cfg.saveNc then disk.getD (fun _ => none) else M.nc }

lemma loadCkpt_ok {L W : ℕ} {cfg : OutCfg K} {disk : Option (ℕ → Option (Record L W K))} {ck : Ckpt L W K σ}
    {M : Sim L W K σ} {x : K} (hx : ck.saveSince = some x) :
    loadCkpt cfg disk ck M = .ok (withCkpt cfg disk ck x M) := by
  unfold loadCkpt
  rw [hx]
  rfl

/-- C113: loading the checkpoint when the job is made, without the output file, and once more in the process of the job
gives the model and the generator that loading it once gives. A checkpoint sets the generator, so it does not matter
where it is in between. -/
theorem C113_loaded_twice (g : Rng K σ) (f : Folder K σ) {mo : FolderModel K σ} {s s1 : σ}
    (h : (folderEngine g).make f s = (.ok mo, s1)) :
    ∃ d s2, (folderEngine g).defer f s = (.ok d, s2) ∧ (folderEngine g).time d = (folderEngine g).time mo ∧
      (folderEngine g).dt d = (folderEngine g).dt mo ∧ s2 = s1 ∧
      ∀ s3, f.resume = true ∨ s3 = s2 → (folderEngine g).begin d s3 = (none, mo, s1) := by
  simp only [folderEngine, Folder.made, Folder.start] at h
  cases hr : f.resume with
  | false =>
    simp only [hr, Bool.false_eq_true, if_false, Prod.mk.injEq, Except.ok.injEq] at h
    obtain ⟨rfl, rfl⟩ := h
    refine ⟨⟨f, newSim f.S f.seeded⟩, f.seeded, ?_, ?_, rfl, ?_, ?_⟩
    · simp only [folderEngine, Folder.made, Folder.startDeferred, hr, Bool.false_eq_true, if_false]
      rfl
    · simp only [folderEngine]
      rw [(start_frame f.out f.S f.seeded).1]
      rfl
    · rw [(start_frame f.out f.S f.seeded).2.1]
    · rintro s3 (h3 | rfl)
      · cases h3
      · simp only [folderEngine, FolderModel.begin, hr, Bool.false_eq_true, if_false]
        rw [(start_frame f.out f.S f.seeded).2.1]
        rfl
  | true =>
    simp only [hr, if_true] at h
    generalize hc : f.files.ckpt = o at h
    cases o with
    | none => simp [loadIn] at h
    | some ck =>
      cases hx : ck.saveSince with
      | none => simp [loadIn, loadCkpt, hx] at h
      | some x =>
        simp only [loadIn, loadCkpt_ok hx, Prod.mk.injEq, Except.ok.injEq] at h
        obtain ⟨rfl, rfl⟩ := h
        refine ⟨⟨f, withCkpt { f.out with saveNc := false } none ck x (newSim f.S f.seeded)⟩, ck.rng, ?_, rfl, rfl,
          rfl, ?_⟩
        · simp only [folderEngine, Folder.made, Folder.startDeferred, hr, if_true, hc, loadIn, loadCkpt_ok hx]
          rfl
        · intro s3 _
          simp only [folderEngine, FolderModel.begin, hr, if_true, hc, loadCkpt_ok hx]
          rfl

/-- C113: what cannot be made cannot be made in a parallel job either, and the same is raised. -/
theorem C113_refused (g : Rng K σ) (f : Folder K σ) {e : Exc} (s : σ) :
    ((folderEngine g).make f s).1 = .error e ↔ ((folderEngine g).defer f s).1 = .error e := by
  simp only [folderEngine, Folder.made, Folder.start, Folder.startDeferred]
  cases hr : f.resume with
  | false => simp
  | true =>
    simp only [if_true]
    cases hc : f.files.ckpt with
    | none => simp [loadIn]
    | some ck =>
      cases hx : ck.saveSince with
      | none => simp [loadIn, loadCkpt, hx]
      | some x => simp [loadIn, loadCkpt_ok hx]

/-- C113: with no checkpoint in the folder nothing is made: of the parallel jobs this one and all after it are not
started, and of serial jobs none is. -/
theorem C113_missing (g : Rng K σ) {parse : String → Option ℚ} {fuel : ℕ} {js : List (Folder K σ × Dict Yaml)} {k : ℕ}
    {f : Folder K σ} {cfg : Dict Yaml} (hk : js[k]? = some (f, cfg)) (hr : f.resume = true)
    (hc : f.files.ckpt = none) (s : σ) :
    (∀ i x, (forkJobs (folderEngine g) parse fuel 0 js s)[i]? = some (.ok x) → i < k) ∧
    ∀ D, runJobsSerial (folderEngine g) parse fuel js s = some D → D.jobs = [] ∧ D.raised.isSome = true := by
  have hd : ∀ i s, (makeJob (folderEngine g).deferred parse i f cfg s).1 = .error (excStart .noCheckpoint) := by
    intro i s
    simp [makeJob, Engine.deferred, folderEngine, Folder.made, Folder.startDeferred, hr, hc, loadIn]
  have hm : ∀ i s, (makeJob (folderEngine g) parse i f cfg s).1 = .error (excStart .noCheckpoint) := by
    intro i s
    simp [makeJob, folderEngine, Folder.made, Folder.start, hr, hc, loadIn]
  constructor
  · suffices key : ∀ (js : List (Folder K σ × Dict Yaml)) (k j : ℕ) (s : σ), js[k]? = some (f, cfg) →
        ∀ i x, (forkJobs (folderEngine g) parse fuel j js s)[i]? = some (.ok x) → i < k from key js k 0 s hk
    intro js
    induction js with
    | nil => intro k j s h; simp at h
    | cons p js ih =>
      intro k j s h i x hx
      obtain ⟨f', cfg'⟩ := p
      unfold forkJobs at hx
      generalize hq : makeJob (folderEngine g).deferred parse j f' cfg' s = q at hx
      match q, hx with
      | (.error e, s1), hx =>
        simp only at hx
        cases i with
        | zero => simp at hx
        | succ i => simp at hx
      | (.ok jb, s1), hx =>
        simp only at hx
        cases k with
        | zero =>
          obtain ⟨rfl, rfl⟩ := by simpa using h
          have := hd j s
          rw [hq] at this
          cases this
        | succ k =>
          cases i with
          | zero => omega
          | succ i =>
            have := ih k (j + 1) s1 (by simpa using h) i x (by simpa using hx)
            omega
  · intro D hD
    rcases C63_made_first hD with ⟨h1, k', inp, cfg', s1, e, he, -⟩ | ⟨l, s1, hl, -⟩
    · exact ⟨h1, by rw [he]; rfl⟩
    · obtain ⟨j, -, hj⟩ := (makeJobs_last (folder_reseeds g) hl).2.1 k f cfg hk
      have := hj s
      rw [hm] at this
      cases this

/-! ## The loop of a job -/

lemma update_time {L W m : ℕ} [NeZero L] [NeZero W] {g : Rng K σ} {cfg : OutCfg K} {P : Params L W m K}
    {M M' : Sim L W K σ} (h : update g cfg P M = .ok M') : M'.S.time = M.S.time + P.dt := by
  obtain ⟨-, S, l, s', ht, rfl⟩ := update_ok h
  simp only [afterStep]
  rw [(outputCheckpoint_frame cfg _).1, (outputData_frame cfg _).1]
  obtain ⟨r, e⟩ := step_result ht
  simp only
  rw [r.time, e]

/-- The loop of a job of `n` timesteps makes `n` updates. -/
lemma folder_loop {g : Rng K σ} {f : Folder K σ} (hdt : 0 < f.P.dt) : ∀ {n fuel : ℕ} (_ : n ≤ fuel)
    {X : Sim f.L f.W K σ} {stop : K} (_ : stop = X.S.time + n * f.P.dt) {s : σ} {M : Sim f.L f.W K σ}
    (_ : have := f.hL; have := f.hW; updates g f.out (List.replicate n f.P) { X with rng := s } = .ok M),
    ∃ X', runLoop (folderEngine g) stop fuel ⟨f, X⟩ s = some ⟨none, ⟨f, X'⟩, M.rng, n⟩ ∧
      M = { X' with rng := M.rng } ∧ (X.rng = s → X' = M) := by
  have := f.hL
  have := f.hW
  intro n
  induction n with
  | zero =>
    intro fuel _ X stop hs s M h
    simp only [List.replicate_zero, updates, Except.ok.injEq] at h
    subst h
    refine ⟨X, ?_, rfl, ?_⟩
    · unfold runLoop
      rw [if_neg (by simp [folderEngine, hs])]
    · rintro rfl; rfl
  | succ n ih =>
    intro fuel hf X stop hs s M h
    obtain ⟨fuel, rfl⟩ : ∃ k, fuel = k + 1 := ⟨fuel - 1, by omega⟩
    rw [List.replicate_succ] at h
    simp only [updates] at h
    generalize hu : update g f.out f.P { X with rng := s } = u at h
    match u, h with
    | .ok M1, h =>
      simp only at h
      have ht := update_time hu
      simp only at ht
      obtain ⟨X', a1, a2, a3⟩ := ih (fuel := fuel) (by omega) (X := M1) (stop := stop) (s := M1.rng)
        (by rw [hs, ht]; push_cast; ring) h
      refine ⟨X', ?_, a2, fun _ => a3 rfl⟩
      unfold runLoop
      have hup : (folderEngine g).update ⟨f, X⟩ s = (none, ⟨f, M1⟩, M1.rng) := by
        simp only [folderEngine, FolderModel.update, hu]
      rw [if_pos (by
        simp only [folderEngine, hs]
        have : 0 < ((n + 1 : ℕ) : K) * f.P.dt := by positivity
        linarith)]
      simp only [hup, a1]

lemma folder_finish (g : Rng K σ) {f : Folder K σ} {X : Sim f.L f.W K σ} (h : X.finalized = false) (i : ℕ) (s : σ)
    (reports : List Report) (n : ℕ) :
    finishJob (folderEngine g) i ⟨f, X⟩ s reports n =
      ⟨none, ⟨f, { X with finalized := true }⟩, s, reports ++ [⟨i, 2, 0⟩], n⟩ := by
  have hx : Verif.Model.finalize X = .ok { X with finalized := true } := by
    unfold Verif.Model.finalize; rw [h]; rfl
  have : (folderEngine g).finalize ⟨f, X⟩ s = (none, ⟨f, { X with finalized := true }⟩, s) := by
    simp only [folderEngine, FolderModel.finalize, hx]
  unfold finishJob
  rw [this]

/-- A job of `n` timesteps on a model that has been made, in parallel and alone. -/
lemma folder_job {g : Rng K σ} {f : Folder K σ} (hdt : 0 < f.P.dt) {X M : Sim f.L f.W K σ}
    (hfin : X.finalized = false) {s : σ} (hm : (folderEngine g).make f s = (.ok ⟨f, X⟩, X.rng))
    {parse : String → Option ℚ} {cfg : Dict Yaml} {q : ℚ} (hq : UsesIf parse (dget cfg) q) {n : ℕ}
    (hn : dget cfg "timesteps" = some (.scalar (.int n))) {fuel : ℕ} (hf : n ≤ fuel)
    (hu : have := f.hL; have := f.hW; updates g f.out (List.replicate n f.P) X = .ok M) :
    (∀ {js : List (Folder K σ × Dict Yaml)} {k : ℕ} (_ : js[k]? = some (f, cfg)) {s : σ}
      {x : Except Exc (Option (Ran (FolderModel K σ) σ))}
      (_ : (forkJobs (folderEngine g) parse fuel 0 js s)[k]? = some x),
      x = .ok (some ⟨none, ⟨f, { M with finalized := true }⟩, M.rng, [⟨k, 0, 0⟩, ⟨k, 1, 0⟩, ⟨k, 2, 0⟩], n⟩)) ∧
    ∀ s, runJobsSerial (folderEngine g) parse fuel [(f, cfg)] s =
      some ⟨[⟨none, ⟨f, { M with finalized := true }⟩, M.rng, [⟨0, 1, 0⟩, ⟨0, 2, 0⟩], n⟩], none, M.rng⟩ := by
  have := f.hL
  have := f.hW
  obtain ⟨X', l1, -, l3⟩ := folder_loop (g := g) hdt hf (X := X) (stop := X.S.time + n * f.P.dt) rfl (s := X.rng) hu
  obtain rfl := l3 rfl
  have hl := updates_life hfin hu
  obtain ⟨d, s2, a1, a2, a3, a4, a5⟩ := C113_loaded_twice g f hm
  constructor
  · intro js k hk s x hx
    obtain ⟨f', cfg', h1, h2⟩ := C68_parallel (folder_reseeds g) hx
    rw [hk] at h1
    obtain ⟨rfl, rfl⟩ := by simpa using h1
    have hs := h2 s
    have hj : makeJob (folderEngine g).deferred parse k f cfg s = (.ok ⟨k, d, X.S.time + n * f.P.dt⟩, s2) := by
      have hk : (folderEngine g).deferred.make f s = (.ok d, s2) := a1
      have ht : (folderEngine g).deferred.time d = X.S.time := a2
      have hd : (folderEngine g).deferred.dt d = f.P.dt := a3
      unfold makeJob
      simp only [hk, duration_steps hq hn, ht, hd]
    unfold forkJobs forkJobs at hs
    rw [hj] at hs
    simp only [runParallelJob, beginLoop, a5 s2 (Or.inr rfl), l1, folder_finish g hl, List.cons.injEq, and_true] at hs
    rw [← hs]
    rfl
  · intro s'
    have hj : makeJob (folderEngine g) parse 0 f cfg s' = (.ok ⟨0, ⟨f, X⟩, X.S.time + n * f.P.dt⟩, X.rng) := by
      have hk : (folderEngine g).make f s' = (.ok ⟨f, X⟩, X.rng) := hm
      have ht : (folderEngine g).time ⟨f, X⟩ = X.S.time := rfl
      have hd : (folderEngine g).dt ⟨f, X⟩ = f.P.dt := rfl
      unfold makeJob
      simp only [hk, duration_steps hq hn, ht, hd]
    unfold runJobsSerial makeJobs makeJobs
    rw [hj]
    simp only [runSerial, runJob, l1, folder_finish g hl]
    rfl

/-! ## Going on -/

section
variable {L W : ℕ}

lemma sameFields_trans {S S' S'' : State L W K} (h : SameFields S S') (h' : SameFields S' S'') : SameFields S S'' := by
  obtain ⟨a1, a2, a3, a4, a5, a6, a7, a8, a9, a10, a11, a12, a13, a14⟩ := h
  obtain ⟨b1, b2, b3, b4, b5, b6, b7, b8, b9, b10, b11, b12, b13, b14⟩ := h'
  exact ⟨b1.trans a1, b2.trans a2, b3.trans a3, b4.trans a4, b5.trans a5, b6.trans a6, b7.trans a7, b8.trans a8,
    b9.trans a9, b10.trans a10, b11.trans a11, b12.trans a12, b13.trans a13, b14.trans a14⟩

lemma sameRecord_trans {r r' r'' : Option (Record L W K)} (h : SameRecord r r') (h' : SameRecord r' r'') :
    SameRecord r r'' := by
  cases r <;> cases r' <;> cases r'' <;> try exact h.elim
  all_goals try exact h'.elim
  · exact h
  · exact ⟨h'.1.trans h.1, sameFields_trans h.2.toSameFields h'.2.toSameFields, h'.2.qs.trans h.2.qs,
      h'.2.depSand.trans h.2.depSand, h'.2.depMud.trans h.2.depMud⟩

lemma samePoint_trans {cfg : OutCfg K} {M R Q : Sim L W K σ} (h : SamePoint cfg M R) (h' : SamePoint cfg R Q) :
    SamePoint cfg M Q :=
  ⟨sameFields_trans h.fields h'.fields, h'.rng.trans h.rng, h'.saveIter.trans h.saveIter,
    h'.saveSince.trans h.saveSince, h'.finalized.trans h.finalized, fun hc i hi =>
      sameRecord_trans (h.records hc i hi) (h'.records hc i (by rw [h.saveIter]; exact hi))⟩

lemma samePoint_closed {cfg : OutCfg K} {M R : Sim L W K σ} (h : SamePoint cfg M R) :
    SamePoint cfg { M with finalized := true } { R with finalized := true } :=
  ⟨h.fields, h.rng, h.saveIter, h.saveSince, rfl, h.records⟩

end

/-- A model of the setting after so many timesteps without a break, and one at the same point. -/
def StandsAt (g : Rng K σ) (c : Setting K σ) (N : ℕ) (Y : Sim c.L c.W K σ) : Prop :=
  have := c.hL
  have := c.hW
  ∃ M, updates g c.out (List.replicate N c.P) (startSim c.out c.S c.seeded) = .ok M ∧
    SamePoint c.out { M with finalized := true } Y ∧ 0 < Y.S.ncols

lemma sound_updates {g : Rng K σ} (hg : PositiveDraws g) {c : Setting K σ} (hc : SoundSetting c) (n : ℕ) :
    have := c.hL
    have := c.hW
    ∃ M, updates g c.out (List.replicate n c.P) (startSim c.out c.S c.seeded) = .ok M ∧ 0 < M.S.ncols := by
  have := c.hL
  have := c.hW
  obtain ⟨e1, e2, e3⟩ := start_frame c.out c.S c.seeded
  have hP : ∀ P ∈ List.replicate n c.P, P = c.P := fun P h => List.eq_of_mem_replicate h
  obtain ⟨M, hM⟩ := C46_accepted hg c.out (Ps := List.replicate n c.P) (M := startSim c.out c.S c.seeded)
    (fun P h => by rw [hP P h]; exact ⟨hc.water, hc.sed, hc.h0⟩) e3 (by rw [e1]; exact hc.depth)
    (by rw [e1]; exact hc.ncols)
  exact ⟨M, hM, updates_ncols (fun P h => by rw [hP P h]; exact hc.water.steps) (by rw [e1]; exact hc.ncols) hM⟩

/-- C113: a job that goes on. `Y` is at the point that the run without a break is at after `N` timesteps; the folder has
its checkpoint, with a whole number for the time since the last save, and an output file that has its records. A job of
`n` timesteps that resumes there, parallel with any others or alone, makes `n` updates, reports no failure, and ends at
the point that the run without a break is at after `N + n` timesteps.
Partial: C113 claims this of serial jobs too, see `C113_serial_witness`, and of all checkpoints, see
`C43_truncation_witness`. -/
theorem C113_resumed_partial {g : Rng K σ} (hg : PositiveDraws g) {c : Setting K σ} (hc : SoundSetting c) {N : ℕ}
    {Y : Sim c.L c.W K σ} (hY : StandsAt g c N Y) (whole : ∀ x, Y.saveSince = some x → pyTrunc x = x)
    {disk : ℕ → Option (Record c.L c.W K)} (hdisk : ∀ i < Y.saveIter, disk i = Y.nc i)
    {parse : String → Option ℚ} {cfg : Dict Yaml} {q : ℚ} (hq : UsesIf parse (dget cfg) q) {n : ℕ}
    (hn : dget cfg "timesteps" = some (.scalar (.int n))) {fuel : ℕ} (hf : n ≤ fuel) :
    ∃ R : Sim c.L c.W K σ, StandsAt g c (N + n) R ∧
      (∀ {js : List (Folder K σ × Dict Yaml)} {k : ℕ}
        (_ : js[k]? = some (⟨c, true, ⟨some (takeCkpt Y), some disk⟩⟩, cfg)) {s : σ}
        {x : Except Exc (Option (Ran (FolderModel K σ) σ))}
        (_ : (forkJobs (folderEngine g) parse fuel 0 js s)[k]? = some x),
        x = .ok (some ⟨none, ⟨⟨c, true, ⟨some (takeCkpt Y), some disk⟩⟩, R⟩, R.rng,
          [⟨k, 0, 0⟩, ⟨k, 1, 0⟩, ⟨k, 2, 0⟩], n⟩)) ∧
      ∀ s, runJobsSerial (folderEngine g) parse fuel [(⟨c, true, ⟨some (takeCkpt Y), some disk⟩⟩, cfg)] s =
        some ⟨[⟨none, ⟨⟨c, true, ⟨some (takeCkpt Y), some disk⟩⟩, R⟩, R.rng, [⟨0, 1, 0⟩, ⟨0, 2, 0⟩], n⟩],
          none, R.rng⟩ := by
  have := c.hL
  have := c.hW
  obtain ⟨M, hM, hp, hYn⟩ := hY
  obtain ⟨M', hM', -⟩ := sound_updates hg hc (N + n)
  have hP : ∀ (k : ℕ), ∀ P ∈ List.replicate k c.P, 4 ≤ P.stepmax := fun k P h => by
    rw [List.eq_of_mem_replicate h]; exact hc.water.steps
  have hMn := updates_ncols (hP N) (by rw [(start_frame c.out c.S c.seeded).1]; exact hc.ncols) hM
  obtain ⟨is, js', hinv⟩ := outInv hM
  have hgo : updates g c.out (List.replicate n c.P) M = .ok M' := by
    rw [← updates_append hM, ← List.replicate_add]; exact hM'
  -- the checkpoint can be loaded
  obtain ⟨x, hx⟩ : ∃ x, Y.saveSince = some x := by
    have hs := hp.saveSince
    simp only at hs
    rw [hs]
    cases hl : is.getLast? with
    | none =>
      have := hinv.sched.first
      rw [List.getLast?_eq_none_iff.1 hl] at this
      simp at this
    | some a => exact ⟨_, hinv.since a hl⟩
  let Y0 : Sim c.L c.W K σ := { Y with finalized := false }
  have hck : takeCkpt Y = takeCkpt Y0 := rfl
  have hl : loadCkpt c.out (some disk) (takeCkpt Y) (newSim c.S c.seeded) =
      .ok (withCkpt c.out (some disk) (takeCkpt Y) x (newSim c.S c.seeded)) := loadCkpt_ok hx
  generalize hX : withCkpt c.out (some disk) (takeCkpt Y) x (newSim c.S c.seeded) = X at hl
  have hs1 : Sync c.out Y0 X := load_sync (M := Y0) hc.ncols hYn rfl whole hdisk hl
  have hs0 : SamePoint c.out M Y0 := ⟨hp.fields, hp.rng, hp.saveIter, hp.saveSince, hinv.fin.symm, hp.records⟩
  have hs : Sync c.out M X := ⟨samePoint_trans hs0 hs1.1, hMn, hs1.2.2⟩
  have hu := updates_sync g c.out (hP n) hs
  rw [hgo] at hu
  generalize hR : updates g c.out (List.replicate n c.P) X = R at hu
  match R, hu with
  | .ok R, hu =>
    refine ⟨{ R with finalized := true }, ⟨M', hM', samePoint_closed hu.1.1, hu.1.2.2⟩, ?_⟩
    refine folder_job (f := ⟨c, true, ⟨some (takeCkpt Y), some disk⟩⟩) (X := X) hc.dt ?_ (s := c.seeded) ?_ hq hn hf hR
    · rw [← hX]; rfl
    · simp only [folderEngine, Folder.made, Folder.start, if_true, loadIn, hl]

/-- C113: a job that starts a model. -/
theorem C113_started {g : Rng K σ} (hg : PositiveDraws g) {c : Setting K σ} (hc : SoundSetting c)
    (files : FolderFiles c.L c.W K σ) {parse : String → Option ℚ} {cfg : Dict Yaml} {q : ℚ}
    (hq : UsesIf parse (dget cfg) q) {n : ℕ} (hn : dget cfg "timesteps" = some (.scalar (.int n))) {fuel : ℕ}
    (hf : n ≤ fuel) :
    ∃ R : Sim c.L c.W K σ, StandsAt g c n R ∧
      (∀ {js : List (Folder K σ × Dict Yaml)} {k : ℕ} (_ : js[k]? = some (⟨c, false, files⟩, cfg)) {s : σ}
        {x : Except Exc (Option (Ran (FolderModel K σ) σ))}
        (_ : (forkJobs (folderEngine g) parse fuel 0 js s)[k]? = some x),
        x = .ok (some ⟨none, ⟨⟨c, false, files⟩, R⟩, R.rng, [⟨k, 0, 0⟩, ⟨k, 1, 0⟩, ⟨k, 2, 0⟩], n⟩)) ∧
      ∀ s, runJobsSerial (folderEngine g) parse fuel [(⟨c, false, files⟩, cfg)] s =
        some ⟨[⟨none, ⟨⟨c, false, files⟩, R⟩, R.rng, [⟨0, 1, 0⟩, ⟨0, 2, 0⟩], n⟩], none, R.rng⟩ := by
  have := c.hL
  have := c.hW
  obtain ⟨M, hM, hMn⟩ := sound_updates hg hc n
  refine ⟨{ M with finalized := true }, ⟨M, hM, ⟨(sameState_withN M.S.ncols M.S).toSameFields, rfl, rfl, rfl, rfl,
    fun _ i _ => sameRecord_refl _⟩, hMn⟩, ?_⟩
  refine folder_job (f := ⟨c, false, files⟩) (X := startSim c.out c.S c.seeded) hc.dt
    (start_frame c.out c.S c.seeded).2.2 (s := c.seeded) ?_ hq hn hf hM
  simp only [folderEngine, Folder.made, Folder.start, Bool.false_eq_true, if_false]

/-- C113: a run in several jobs, each in a set of parallel jobs, ends where the run without a break ends: the same
fields, time, counters, random numbers and records. Partial as `C113_resumed_partial`. -/
theorem C113_series_partial {g : Rng K σ} (hg : PositiveDraws g) {c : Setting K σ} (hc : SoundSetting c)
    {parse : String → Option ℚ} {N : ℕ} {X : Sim c.L c.W K σ} (h : Worked g parse c N X) :
    have := c.hL
    have := c.hW
    ∃ M, updates g c.out (List.replicate N c.P) (startSim c.out c.S c.seeded) = .ok M ∧
      SamePoint c.out { M with finalized := true } X := by
  have := c.hL
  have := c.hW
  suffices key : StandsAt g c N X by
    obtain ⟨M, h1, h2, -⟩ := key
    exact ⟨M, h1, h2⟩
  induction h with
  | first hk hq hn hf hx =>
    obtain ⟨R, h1, h2, -⟩ := C113_started hg hc _ hq hn hf
    have := h2 hk hx
    simp only [Except.ok.injEq, Option.some.injEq, Ran.mk.injEq, FolderModel.mk.injEq, true_and, heq_eq_eq] at this
    rw [this.1]
    exact h1
  | next _ whole hk hq hn hf hx ih =>
    obtain ⟨R, h1, h2, -⟩ := C113_resumed_partial hg hc ih whole (fun _ _ => rfl) hq hn hf
    have := h2 hk hx
    simp only [Except.ok.injEq, Option.some.injEq, Ran.mk.injEq, FolderModel.mk.injEq, true_and, heq_eq_eq] at this
    rw [this.1]
    exact h1

/-- C113: a job that resumes runs its time from the time of the checkpoint on. -/
theorem C113_end_time (g : Rng K σ) {f : Folder K σ} (hr : f.resume = true) {ck : Ckpt f.L f.W K σ}
    (hc : f.files.ckpt = some ck) {parse : String → Option ℚ} {cfg : Dict Yaml} {i : ℕ} {s s1 : σ}
    {j : Job K (FolderModel K σ)} (hj : makeJob (folderEngine g) parse i f cfg s = (.ok j, s1)) :
    s1 = ck.rng ∧ ∃ d, duration parse cfg f.P.dt = .ok d ∧ j.stop = ck.time + d := by
  cases hx : ck.saveSince with
  | none => simp [makeJob, folderEngine, Folder.made, Folder.start, hr, hc, loadIn, loadCkpt, hx] at hj
  | some x =>
    have hm : (folderEngine g).make f s = (.ok ⟨f, withCkpt f.out f.files.nc ck x (newSim f.S f.seeded)⟩, ck.rng) := by
      simp only [folderEngine, Folder.made, Folder.start, hr, if_true, hc, loadIn, loadCkpt_ok hx]
      rfl
    unfold makeJob at hj
    rw [hm] at hj
    have hd : (folderEngine g).dt ⟨f, withCkpt f.out f.files.nc ck x (newSim f.S f.seeded)⟩ = f.P.dt := rfl
    have ht : (folderEngine g).time ⟨f, withCkpt f.out f.files.nc ck x (newSim f.S f.seeded)⟩ = ck.time := rfl
    simp only [hd, ht] at hj
    generalize hq : duration parse cfg f.P.dt = q at hj
    match q, hj with
    | .ok d, hj =>
      simp only [Prod.mk.injEq, Except.ok.injEq] at hj
      obtain ⟨rfl, rfl⟩ := hj
      exact ⟨rfl, d, rfl, rfl⟩

/-- C113 fails for serial jobs: all of them are made before the first runs, so the first goes on with the generator of
the checkpoint of the last. -/
theorem C113_serial_start {g : Rng K σ} {parse : String → Option ℚ} {fuel : ℕ} {js : List (Folder K σ × Dict Yaml)}
    {s : σ} {D : Done (FolderModel K σ) σ} (hD : runJobsSerial (folderEngine g) parse fuel js s = some D)
    (hr : D.raised = none) {f last : Folder K σ} {cfg lcfg : Dict Yaml} (h0 : js[0]? = some (f, cfg))
    (hl : js.getLast? = some (last, lcfg)) (hres : last.resume = true) {ck : Ckpt last.L last.W K σ}
    (hck : last.files.ckpt = some ck) :
    ∃ j r, (∀ s0, (makeJob (folderEngine g) parse 0 f cfg s0).1 = .ok j) ∧ D.jobs[0]? = some r ∧
      Ends (folderEngine g) fuel j ck.rng r := by
  obtain ⟨-, h⟩ := C68_serial_start (folder_reseeds g) hD hr hl
  obtain ⟨j, r, h1, h2, h3⟩ := h 0 f cfg h0
  refine ⟨j, r, h1, h2, ?_⟩
  have hlt : js.length - 1 < js.length := by
    have := (List.getElem?_eq_some_iff.1 h0).1
    omega
  have hk : js[js.length - 1]? = some (last, lcfg) := by rw [← List.getLast?_eq_getElem?]; exact hl
  obtain ⟨j', -, h5, -, -⟩ := (C68_serial_start (folder_reseeds g) hD hr hl).2 _ last lcfg hk
  have h6 := h5 s
  generalize hj : makeJob (folderEngine g) parse (js.length - 1) last lcfg s = y at h6
  obtain ⟨y1, y2⟩ := y
  simp only at h6
  subst h6
  have h7 := (C113_end_time g hres hck hj).1
  have h8 : ((folderEngine g).make last s).2 = y2 := by
    unfold makeJob at hj
    generalize hm : (folderEngine g).make last s = mm at hj
    obtain ⟨m1, m2⟩ := mm
    cases m1 with
    | error e => simp at hj
    | ok mo =>
      simp only at hj
      generalize duration parse lcfg ((folderEngine g).dt mo) = dd at hj
      cases dd with
      | error e => simp at hj
      | ok d => simp only [Prod.mk.injEq] at hj; exact hj.2
  simp only at h3
  rw [h8, h7] at h3
  exact h3

/-! ## Non-trivial cases -/

/-- Two generators in one: which of them is in use is its state. -/
def twoRng : Rng ℚ Bool where
  next b := (if b then 1 / 4 else 3 / 4, b)

lemma twoPositive : PositiveDraws twoRng := fun b => by cases b <;> norm_num [twoRng]

/-- One timestep. -/
def oneStep : Dict Yaml := [("timesteps", .scalar (.int 1))]

/-- A setting for each of the generators. -/
def exTwo (b : Bool) : Setting ℚ Bool := ⟨4, 3, 1, ⟨by decide⟩, ⟨by decide⟩, exRule, exOutDefault, exState, b⟩

lemma exTwo_sound (b : Bool) : SoundSetting (exTwo b) where
  water := exRuleSetup
  sed := exRuleDomain
  h0 := show (0 : ℚ) ≤ exRule.h0 by norm_num [exRule, exParams]
  dt := show (0 : ℚ) < exRule.dt by norm_num [exRule, exParams]
  depth := fun c => show (0 : ℚ) ≤ exState.depth c by norm_num [exState]
  ncols := show 0 < exState.ncols by decide

/-- The model of the setting that is just made. -/
def exTwoStart (b : Bool) : Sim 4 3 ℚ Bool := startSim exOutDefault exState b

/-- Its folder, to be resumed. -/
def exTwoFolder (b : Bool) : Folder ℚ Bool :=
  ⟨exTwo b, true, ⟨some (takeCkpt (exTwoStart b)), some (exTwoStart b).nc⟩⟩

/-- The hypotheses of `C113_resumed_partial` hold for the example: job after job of one timestep. -/
example (b : Bool) : StandsAt twoRng (exTwo b) 0 { exTwoStart b with finalized := true } ∧
    (∀ x, (exTwoStart b).saveSince = some x → pyTrunc x = x) ∧
    UsesIf (fun _ => none) (dget oneStep) 1 ∧ dget oneStep "timesteps" = some (.scalar (.int (1 : ℕ))) := by
  have := (exTwo b).hL
  have := (exTwo b).hW
  refine ⟨⟨exTwoStart b, rfl, ⟨⟨rfl, rfl, rfl, rfl, rfl, rfl, rfl, rfl, rfl, rfl, rfl, rfl, rfl, rfl⟩, rfl, rfl, rfl,
    rfl, fun _ i _ => sameRecord_refl _⟩, show 0 < exState.ncols by decide⟩, ?_, Or.inl ⟨by decide +kernel, rfl⟩, rfl⟩
  intro x hx
  obtain rfl : (0 : ℚ) = x := by
    have : (exTwoStart b).saveSince = some 0 := rfl
    rw [this] at hx
    simpa using hx
  exact pyTrunc_zero

/-- The job of a folder that can be made is among what parallel jobs do. -/
lemma fork_single {g : Rng K σ} {parse : String → Option ℚ} {fuel : ℕ} {f : Folder K σ} {cfg : Dict Yaml} {s : σ}
    {j : Job K (FolderModel K σ)} (h : (makeJob (folderEngine g).deferred parse 0 f cfg s).1 = .ok j) :
    ∃ x, (forkJobs (folderEngine g) parse fuel 0 [(f, cfg)] s)[0]? = some x := by
  unfold forkJobs
  generalize makeJob (folderEngine g).deferred parse 0 f cfg s = q at h
  obtain ⟨q1, q2⟩ := q
  simp only at h
  subst h
  exact ⟨_, rfl⟩

lemma two_keeps {M M' : Sim 4 3 ℚ Bool} (hd : ∀ c, 0 ≤ M.S.depth c)
    (h : update twoRng exOutDefault exRule M = .ok M') : M'.rng = M.rng := by
  obtain ⟨-, S, l, s', ht, rfl⟩ := update_ok h
  obtain ⟨w, -, h2⟩ := C79_timestep twoPositive exRuleSetup exRuleDomain (by norm_num [exRule, exParams]) hd ht
  simp only [afterStep]
  rw [(outputCheckpoint_frame exOutDefault _).2.1, (outputData_frame exOutDefault _).2.1]
  simp only
  rw [h2]
  exact Function.iterate_fixed rfl _

lemma two_run {M : Sim 4 3 ℚ Bool} (hd : ∀ c, 0 ≤ M.S.depth c) (hn : 0 < M.S.ncols) (hf : M.finalized = false) :
    ∃ M', updates twoRng exOutDefault (List.replicate 1 exRule) M = .ok M' ∧ M'.rng = M.rng ∧ M'.finalized = false := by
  obtain ⟨M', hM⟩ := C46_accepted twoPositive exOutDefault (Ps := List.replicate 1 exRule) (by
    intro P hP
    rw [List.eq_of_mem_replicate hP]
    exact ⟨exRuleSetup, exRuleDomain, by norm_num [exRule, exParams]⟩) hf hd hn
  refine ⟨M', hM, ?_, updates_life hf hM⟩
  simp only [List.replicate_one, updates] at hM
  generalize hu : update twoRng exOutDefault exRule M = u at hM
  match u, hM with
  | .ok M1, hM =>
    obtain rfl := by simpa using hM
    exact two_keeps hd hu

/-- The model that is resumed. -/
def exTwoLoaded (b : Bool) : Sim 4 3 ℚ Bool :=
  withCkpt exOutDefault (some (exTwoStart b).nc) (takeCkpt (exTwoStart b)) 0 (newSim exState b)

lemma exTwo_updated (b s : Bool) : ∃ M, updates twoRng exOutDefault (List.replicate 1 exRule)
    { exTwoLoaded b with rng := s } = .ok M ∧ M.rng = s ∧ M.finalized = false := by
  exact two_run (M := { exTwoLoaded b with rng := s }) (fun c => show (0 : ℚ) ≤ exState.depth c by norm_num [exState])
    (show 0 < exState.ncols by decide) rfl

lemma exTwo_whole {M : Sim 4 3 ℚ Bool} (b : Bool)
    (h : updates twoRng exOutDefault (List.replicate 1 exRule) (startSim exOutDefault exState b) = .ok M) :
    M.saveSince = some 1 := by
  have h0 : (startSim exOutDefault exState b).saveSince = some 0 := rfl
  generalize startSim exOutDefault exState b = X at h h0
  simp only [List.replicate_one, updates] at h
  generalize hu : update twoRng exOutDefault exRule X = u at h
  match u, h with
  | .ok M1, h =>
    obtain rfl := by simpa using h
    obtain ⟨-, S, l, s', ht, rfl⟩ := update_ok hu
    simp only [afterStep]
    rw [(outputCheckpoint_frame exOutDefault _).2.2.2.1]
    unfold outputData
    rw [if_neg (by simp only [h0, addSince, due]; norm_num [exOutDefault, exRule, exParams])]
    simp only [h0, addSince]
    norm_num [exRule, exParams]

/-- A run of the example in two jobs of one timestep. -/
example (b : Bool) : ∃ X Y, Worked twoRng (fun _ => none) (exTwo b) 1 X ∧
    Worked twoRng (fun _ => none) (exTwo b) (1 + 1) Y := by
  have hq : UsesIf (fun _ => none) (dget oneStep) 1 := Or.inl ⟨by decide +kernel, rfl⟩
  obtain ⟨R, hR, h, -⟩ := C113_started (fuel := 1) twoPositive (exTwo_sound b) ⟨none, none⟩
    (parse := fun _ => none) (cfg := oneStep) (q := 1) (n := 1) hq rfl le_rfl
  obtain ⟨x, hx⟩ := fork_single (g := twoRng) (parse := fun _ => none) (fuel := 1)
    (f := ⟨exTwo b, false, ⟨none, none⟩⟩) (cfg := oneStep) (s := b) rfl
  have hx1 := h (js := [(⟨exTwo b, false, ⟨none, none⟩⟩, oneStep)]) (k := 0) rfl hx
  rw [hx1] at hx
  have h1 : Worked twoRng (fun _ => none) (exTwo b) 1 R :=
    .first (js := [(⟨exTwo b, false, ⟨none, none⟩⟩, oneStep)]) (k := 0) rfl hq rfl le_rfl hx
  have hs : R.saveSince = some 1 := by
    obtain ⟨M, hM, hp, -⟩ := hR
    have := hp.saveSince
    simp only at this
    rw [this]
    exact exTwo_whole (M := M) b hM
  have whole : ∀ x, R.saveSince = some x → pyTrunc x = x := by
    intro x hx
    rw [hs] at hx
    obtain rfl := by simpa using hx
    norm_num [pyTrunc]
  obtain ⟨Q, hQ, h', -⟩ := C113_resumed_partial (fuel := 1) twoPositive (exTwo_sound b) hR whole (disk := R.nc)
    (fun _ _ => rfl) (parse := fun _ => none) (cfg := oneStep) (q := 1) (n := 1) hq rfl le_rfl
  have hj : ∃ j, (makeJob (folderEngine twoRng).deferred (fun _ => none) 0
      (⟨exTwo b, true, ⟨some (takeCkpt R), some R.nc⟩⟩ : Folder ℚ Bool) oneStep b).1 = .ok j := by
    have hck : (takeCkpt R).saveSince = some 1 := hs
    have hm : (folderEngine twoRng).deferred.make
        (⟨exTwo b, true, ⟨some (takeCkpt R), some R.nc⟩⟩ : Folder ℚ Bool) b = (.ok ⟨⟨exTwo b, true, ⟨some (takeCkpt R), some R.nc⟩⟩, withCkpt
          { (exTwo b).out with saveNc := false } none (takeCkpt R) 1 (newSim (exTwo b).S b)⟩, (takeCkpt R).rng) := by
      simp only [Engine.deferred, folderEngine, Folder.made, Folder.startDeferred, if_true, loadIn, loadCkpt_ok hck]
      rfl
    unfold makeJob
    simp only [hm, duration_steps hq (n := 1) rfl]
    exact ⟨_, rfl⟩
  obtain ⟨j, hj⟩ := hj
  obtain ⟨y, hy⟩ := fork_single (fuel := 1) hj
  have hy1 := h' (js := [(⟨exTwo b, true, ⟨some (takeCkpt R), some R.nc⟩⟩, oneStep)]) (k := 0) rfl hy
  rw [hy1] at hy
  exact ⟨R, Q, h1, .next h1 whole (js := [(⟨exTwo b, true, ⟨some (takeCkpt R), some R.nc⟩⟩, oneStep)]) (k := 0) rfl hq
    rfl le_rfl hy⟩

lemma serial_two {In M G : Type*} {E : Engine K In M G} {parse : String → Option ℚ} {fuel : ℕ} {a b : In}
    {ca cb : Dict Yaml} {s s1 s2 : G} {j0 j1 : Job K M} {r0 r1 : Ran M G}
    (h0 : makeJob E parse 0 a ca s = (.ok j0, s1)) (h1 : makeJob E parse 1 b cb s1 = (.ok j1, s2))
    (h2 : runJob E fuel j0 s2 = some r0) (h3 : r0.raised = none) (h4 : runJob E fuel j1 r0.rng = some r1)
    (h5 : r1.raised = none) :
    runJobsSerial E parse fuel [(a, ca), (b, cb)] s = some ⟨[r0, r1], none, r1.rng⟩ := by
  unfold runJobsSerial
  simp only [makeJobs, h0, h1, Nat.zero_add, runSerial, h2, h3, h4, h5]

/-- C113 fails for serial jobs: of two jobs that resume, the first ends with the generator of the second. Without the
break its generator would be its own. -/
theorem C113_serial_witness : ∃ D r M,
    runJobsSerial (folderEngine twoRng) (fun _ => none) 5 [(exTwoFolder false, oneStep), (exTwoFolder true, oneStep)]
      false = some D ∧ D.raised = none ∧ D.jobs[0]? = some r ∧ r.raised = none ∧ r.rng = true ∧
    updates twoRng exOutDefault (List.replicate 1 exRule) (startSim exOutDefault exState false) = .ok M ∧
    M.rng = false := by
  have hstart : ∀ b : Bool, { exTwoLoaded b with rng := b } = exTwoLoaded b := fun _ => rfl
  have hm : ∀ (i : ℕ) (b s : Bool), makeJob (folderEngine twoRng) (fun _ => none) i (exTwoFolder b) oneStep s =
      (.ok ⟨i, ⟨exTwoFolder b, exTwoLoaded b⟩, exState.time + (1 : ℕ) * exRule.dt⟩, b) := by
    intro i b s
    have h1 : (folderEngine twoRng).make (exTwoFolder b) s = (.ok ⟨exTwoFolder b, exTwoLoaded b⟩, b) := rfl
    have h2 : (folderEngine twoRng).time ⟨exTwoFolder b, exTwoLoaded b⟩ = exState.time := rfl
    have h3 : (folderEngine twoRng).dt ⟨exTwoFolder b, exTwoLoaded b⟩ = exRule.dt := rfl
    unfold makeJob
    simp only [h1, h2, h3, duration_steps (q := 1) (parse := fun _ => none) (cfg := oneStep) (n := 1)
      (Or.inl ⟨by decide +kernel, rfl⟩) rfl]
  have hj : ∀ (i : ℕ) (b s : Bool), ∃ r, runJob (folderEngine twoRng) 5
      ⟨i, ⟨exTwoFolder b, exTwoLoaded b⟩, exState.time + (1 : ℕ) * exRule.dt⟩ s = some r ∧ r.raised = none ∧
      r.rng = s := by
    intro i b s
    obtain ⟨M, h1, h2, h3⟩ := exTwo_updated b s
    obtain ⟨X', a1, a2, -⟩ := folder_loop (g := twoRng) (f := exTwoFolder b) (n := 1) (fuel := 5)
      (exTwo_sound b).dt (by norm_num) (X := exTwoLoaded b) (stop := exState.time + (1 : ℕ) * exRule.dt) rfl h1
    have hx : X'.finalized = false := by rw [a2] at h3; exact h3
    unfold runJob
    simp only [a1]
    rw [folder_finish _ hx]
    exact ⟨_, rfl, rfl, h2⟩
  obtain ⟨r0, a1, a2, a3⟩ := hj 0 false true
  obtain ⟨r1, b1, b2, b3⟩ := hj 1 true true
  have hs : ∃ M, updates twoRng exOutDefault (List.replicate 1 exRule) (startSim exOutDefault exState false) = .ok M ∧
      M.rng = false := by
    obtain ⟨hS, hr, hf⟩ := start_frame exOutDefault exState false
    obtain ⟨M, h1, h2, -⟩ := two_run (M := startSim exOutDefault exState false)
      (by rw [hS]; exact fun c => by norm_num [exState]) (by rw [hS]; decide) hf
    exact ⟨M, h1, h2.trans hr⟩
  obtain ⟨M, hM1, hM2⟩ := hs
  exact ⟨⟨[r0, r1], none, r1.rng⟩, r0, M, serial_two (hm 0 false false) (hm 1 true false) a1 a2 (by rw [a3]; exact b1) b2,
    rfl, rfl, a2, a3, hM1, hM2⟩

end Verif.Props
