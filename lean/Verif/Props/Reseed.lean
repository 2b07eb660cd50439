import Verif.Spec.Reseed
import Verif.Props.Campaign

/-!
# C121: ensembles that resume from a checkpoint
-/

set_option linter.unusedSectionVars false
set_option linter.unusedSimpArgs false

namespace Verif.Props

open Verif.Model Verif.Lemmas Verif.Spec

variable {K : Type*} [Field K] [LinearOrder K] [IsStrictOrderedRing K] [FloorRing K] {σ : Type*}

/-! ## Jobs of models that do the same -/

section

variable {In M G : Type*}

/-- `ψ` of a model does what the model does. -/
structure DoesTheSame (E : Engine K In M G) (ψ : M → M) : Prop where
  time : ∀ mo, E.time (ψ mo) = E.time mo
  dt : ∀ mo, E.dt (ψ mo) = E.dt mo
  begin : ∀ mo s, E.begin (ψ mo) s = ((E.begin mo s).1, ψ (E.begin mo s).2.1, (E.begin mo s).2.2)
  update : ∀ mo s, E.update (ψ mo) s = ((E.update mo s).1, ψ (E.update mo s).2.1, (E.update mo s).2.2)
  finalize : ∀ mo s, E.finalize (ψ mo) s = ((E.finalize mo s).1, ψ (E.finalize mo s).2.1, (E.finalize mo s).2.2)

/-- The same for what a loop ended with. -/
def mapLooped (ψ : M → M) (r : Looped M G) : Looped M G := ⟨r.raised, ψ r.model, r.rng, r.updates⟩

lemma loop_same {E : Engine K In M G} {ψ : M → M} (h : DoesTheSame E ψ) (stop : K) : ∀ (fuel : ℕ) (mo : M) (s : G),
    runLoop E stop fuel (ψ mo) s = (runLoop E stop fuel mo s).map (mapLooped ψ) := by
  intro fuel
  induction fuel with
  | zero =>
    intro mo s
    unfold runLoop
    rw [h.time]
    split <;> rfl
  | succ fuel ih =>
    intro mo s
    unfold runLoop
    rw [h.time, h.update]
    split
    · generalize E.update mo s = u
      obtain ⟨e, mo1, s1⟩ := u
      cases e with
      | some e => rfl
      | none =>
        simp only [ih]
        cases runLoop E stop fuel mo1 s1 <;> rfl
    · rfl

lemma finish_same {E : Engine K In M G} {ψ : M → M} (h : DoesTheSame E ψ) (n : ℕ → ℕ) (i : ℕ) (mo : M) (s : G)
    (rs : List Report) (u : ℕ) :
    finishJob E (n i) (ψ mo) s (rs.map fun p => ⟨n p.job, p.stage, p.code⟩) u =
      relabel ψ n (finishJob E i mo s rs u) := by
  unfold finishJob
  rw [h.finalize]
  generalize E.finalize mo s = v
  obtain ⟨e, mo1, s1⟩ := v
  cases e with
  | none => simp [relabel]
  | some e =>
    simp only
    split <;> simp [relabel]

lemma parallel_same {E : Engine K In M G} {ψ : M → M} (h : DoesTheSame E ψ) (n : ℕ → ℕ) (fuel i : ℕ) (mo : M) (stop : K)
    (s : G) : runParallelJob E fuel ⟨n i, ψ mo, stop⟩ s =
      (runParallelJob E fuel ⟨i, mo, stop⟩ s).map (relabel ψ n) := by
  have hb : beginLoop E stop fuel (ψ mo) s = (beginLoop E stop fuel mo s).map (mapLooped ψ) := by
    unfold beginLoop
    rw [h.begin]
    generalize E.begin mo s = v
    obtain ⟨e, mo1, s1⟩ := v
    cases e with
    | none => exact loop_same h stop fuel mo1 s1
    | some e => rfl
  unfold runParallelJob
  simp only [hb]
  generalize beginLoop E stop fuel mo s = v
  cases v with
  | none => rfl
  | some r =>
    obtain ⟨e, mo1, s1, u⟩ := r
    simp only [Option.map_some, mapLooped]
    cases e with
    | none => exact congrArg some (finish_same h n i mo1 s1 [⟨i, 0, 0⟩, ⟨i, 1, 0⟩] u)
    | some e =>
      simp only
      split
      · exact congrArg some (finish_same h n i mo1 s1 [⟨i, 0, 0⟩, ⟨i, 1, 1⟩] u)
      · rfl

lemma serial_same {E : Engine K In M G} {ψ : M → M} (h : DoesTheSame E ψ) (n : ℕ → ℕ) (fuel i : ℕ) (mo : M) (stop : K)
    (s : G) : runJob E fuel ⟨n i, ψ mo, stop⟩ s = (runJob E fuel ⟨i, mo, stop⟩ s).map (relabel ψ n) := by
  unfold runJob
  simp only [loop_same h]
  generalize runLoop E stop fuel mo s = v
  cases v with
  | none => rfl
  | some r =>
    obtain ⟨e, mo1, s1, u⟩ := r
    simp only [Option.map_some, mapLooped]
    cases e with
    | none => exact congrArg some (finish_same h n i mo1 s1 [⟨i, 1, 0⟩] u)
    | some e =>
      simp only
      split
      · exact congrArg some (finish_same h n i mo1 s1 [⟨i, 1, 1⟩] u)
      · rfl

/-- The same for a job. -/
def mapJob (ψ : M → M) (n : ℕ → ℕ) (j : Job K M) : Job K M := ⟨n j.i, ψ j.model, j.stop⟩

lemma runSerial_same {E : Engine K In M G} {ψ : M → M} (h : DoesTheSame E ψ) (fuel : ℕ) : ∀ (js : List (Job K M)) (s : G),
    runSerial E fuel (js.map (mapJob ψ id)) s =
      (runSerial E fuel js s).map fun r => (r.1.map (relabel ψ id), r.2.1, r.2.2) := by
  intro js
  induction js with
  | nil => intro s; rfl
  | cons j js ih =>
    intro s
    unfold runSerial
    simp only [List.map_cons, mapJob, serial_same h id]
    cases runJob E fuel ⟨j.i, j.model, j.stop⟩ s with
    | none => rfl
    | some r =>
      simp only [Option.map_some]
      have e1 : (relabel ψ id r).raised = r.raised := rfl
      have e2 : (relabel ψ id r).rng = r.rng := rfl
      rw [e1, e2]
      cases r.raised with
      | some e => rfl
      | none =>
        simp only [ih]
        cases runSerial E fuel js r.rng <;> rfl

end

/-! ## Other seeds -/

lemma reseed_same (g : Rng K σ) (x : σ) : DoesTheSame (folderEngine g) (reseedModel x) where
  time _ := rfl
  dt _ := rfl
  begin mo s := by
    obtain ⟨⟨c, r, ⟨ck, nc⟩⟩, X⟩ := mo
    cases r with
    | false => rfl
    | true =>
      cases ck with
      | none => rfl
      | some ck =>
        cases ck with
        | mk _ _ _ y => cases y <;> rfl
  update mo s := by
    obtain ⟨⟨c, r, fl⟩, X⟩ := mo
    have := c.hL
    have := c.hW
    have key : ∀ v, Verif.Model.update g c.out c.P { X with rng := s } = v →
        FolderModel.update g (⟨⟨c, r, fl⟩, X⟩ : FolderModel K σ) s = (match v with
          | .ok M => (none, ⟨⟨c, r, fl⟩, M⟩, M.rng)
          | .error e => (some (excOf e), ⟨⟨c, r, fl⟩, X⟩, s)) ∧
        FolderModel.update g (reseedModel x ⟨⟨c, r, fl⟩, X⟩) s = (match v with
          | .ok M => (none, reseedModel x ⟨⟨c, r, fl⟩, M⟩, M.rng)
          | .error e => (some (excOf e), reseedModel x ⟨⟨c, r, fl⟩, X⟩, s)) := by
      intro v hv
      cases v <;> constructor <;> simp only [FolderModel.update, reseedModel, reseed, hv]
    obtain ⟨k1, k2⟩ := key _ rfl
    show FolderModel.update g _ _ = ((FolderModel.update g _ _).1, _, _)
    rw [k2]
    show _ = ((FolderModel.update g _ _).1, reseedModel x (FolderModel.update g _ _).2.1, (FolderModel.update g _ _).2.2)
    rw [k1]
    cases Verif.Model.update g c.out c.P { X with rng := s } <;> rfl
  finalize mo s := by
    obtain ⟨⟨c, r, fl⟩, X⟩ := mo
    have key : ∀ v, Verif.Model.finalize X = v →
        FolderModel.finalize (⟨⟨c, r, fl⟩, X⟩ : FolderModel K σ) s = (match v with
          | .ok M => (none, ⟨⟨c, r, fl⟩, M⟩, s)
          | .error e => (some (excOf e), ⟨⟨c, r, fl⟩, X⟩, s)) ∧
        FolderModel.finalize (reseedModel x ⟨⟨c, r, fl⟩, X⟩) s = (match v with
          | .ok M => (none, reseedModel x ⟨⟨c, r, fl⟩, M⟩, s)
          | .error e => (some (excOf e), reseedModel x ⟨⟨c, r, fl⟩, X⟩, s)) := by
      intro v hv
      cases v <;> constructor <;> simp only [FolderModel.finalize, reseedModel, reseed, hv]
    obtain ⟨k1, k2⟩ := key _ rfl
    show FolderModel.finalize _ _ = ((FolderModel.finalize _ _).1, reseedModel x (FolderModel.finalize _ _).2.1,
      (FolderModel.finalize _ _).2.2)
    rw [k2, k1]
    cases Verif.Model.finalize X <;> rfl

lemma start_loaded {f : Folder K σ} (hr : f.resume = true) {ck : Ckpt f.L f.W K σ} {y : K}
    (hc : f.files.ckpt = some ck) (hy : ck.saveSince = some y) :
    f.start = .ok (withCkpt f.out f.files.nc ck y (newSim f.S f.seeded)) ∧
    f.startDeferred = .ok (withCkpt { f.out with saveNc := false } none ck y (newSim f.S f.seeded)) := by
  unfold Folder.start Folder.startDeferred loadIn loadCkpt
  simp only [hr, if_true, hc, hy]
  exact ⟨rfl, rfl⟩

/-- C121: a model that resumes from a checkpoint does not depend on its seed: fields, counters, generator. So made alone or
for a parallel job, whatever was drawn before. -/
theorem C121_made (g : Rng K σ) {f : Folder K σ} (hf : CanResume f) (x s s' : σ) :
    ∃ M D : FolderModel K σ, ∃ s1, (folderEngine g).make f s = (.ok M, s1) ∧
      (folderEngine g).make (reseed x f) s' = (.ok (reseedModel x M), s1) ∧
      (folderEngine g).defer f s = (.ok D, s1) ∧
      (folderEngine g).defer (reseed x f) s' = (.ok (reseedModel x D), s1) := by
  obtain ⟨hr, ck, y, hc, hy⟩ := hf
  obtain ⟨a1, a2⟩ := start_loaded hr hc hy
  obtain ⟨b1, b2⟩ := start_loaded (f := reseed x f) hr hc hy
  refine ⟨⟨f, withCkpt f.out f.files.nc ck y (newSim f.S f.seeded)⟩,
    ⟨f, withCkpt { f.out with saveNc := false } none ck y (newSim f.S f.seeded)⟩, ck.rng, ?_, ?_, ?_, ?_⟩
  · show f.made f.start = _
    rw [a1]; rfl
  · show (reseed x f).made (reseed x f).start = _
    rw [b1]; rfl
  · show f.made f.startDeferred = _
    rw [a2]; rfl
  · show (reseed x f).made (reseed x f).startDeferred = _
    rw [b2]; rfl

lemma makeJob_reseeded (g : Rng K σ) {f : Folder K σ} (hf : CanResume f) (parse : String → Option ℚ) (x s s' : σ)
    (n : ℕ → ℕ) (i : ℕ) (cfg : Dict Yaml) :
    ((makeJob (folderEngine g) parse (n i) (reseed x f) cfg s').1 =
        (makeJob (folderEngine g) parse i f cfg s).1.map (mapJob (reseedModel x) n) ∧
      (makeJob (folderEngine g) parse (n i) (reseed x f) cfg s').2 = (makeJob (folderEngine g) parse i f cfg s).2) ∧
    ((makeJob (folderEngine g).deferred parse (n i) (reseed x f) cfg s').1 =
        (makeJob (folderEngine g).deferred parse i f cfg s).1.map (mapJob (reseedModel x) n) ∧
      (makeJob (folderEngine g).deferred parse (n i) (reseed x f) cfg s').2 =
        (makeJob (folderEngine g).deferred parse i f cfg s).2) := by
  obtain ⟨M, D, s1, h1, h2, h3, h4⟩ := C121_made g hf x s s'
  have h3' : (folderEngine g).deferred.make f s = (.ok D, s1) := h3
  have h4' : (folderEngine g).deferred.make (reseed x f) s' = (.ok (reseedModel x D), s1) := h4
  constructor
  · unfold makeJob
    rw [h1, h2]
    simp only [(reseed_same g x).dt, (reseed_same g x).time]
    cases duration parse cfg ((folderEngine g).dt M) <;> exact ⟨rfl, rfl⟩
  · unfold makeJob
    rw [h3', h4']
    have e1 : (folderEngine g).deferred.dt = (folderEngine g).dt := rfl
    have e2 : (folderEngine g).deferred.time = (folderEngine g).time := rfl
    simp only [e1, e2, (reseed_same g x).dt, (reseed_same g x).time]
    cases duration parse cfg ((folderEngine g).dt D) <;> exact ⟨rfl, rfl⟩

/-- C121: serial jobs that resume from checkpoints end the same whatever their seeds are. -/
theorem C121_serial (g : Rng K σ) (parse : String → Option ℚ) (fuel : ℕ) {js : List (Folder K σ × Dict Yaml)}
    (hjs : ∀ j ∈ js, CanResume j.1) (x s : σ) :
    runJobsSerial (folderEngine g) parse fuel (js.map fun j => (reseed x j.1, j.2)) s =
      (runJobsSerial (folderEngine g) parse fuel js s).map (relabelDone (reseedModel x)) := by
  have hm : ∀ (js : List (Folder K σ × Dict Yaml)), (∀ j ∈ js, CanResume j.1) → ∀ (i : ℕ) (s : σ),
      makeJobs (folderEngine g) parse i (js.map fun j => (reseed x j.1, j.2)) s =
        ((makeJobs (folderEngine g) parse i js s).1.map (List.map (mapJob (reseedModel x) id)),
          (makeJobs (folderEngine g) parse i js s).2) := by
    intro js
    induction js with
    | nil => intro _ i s; rfl
    | cons j js ih =>
      obtain ⟨f, cfg⟩ := j
      intro hjs i s
      have hf := hjs _ List.mem_cons_self
      obtain ⟨⟨e1, e2⟩, -⟩ := makeJob_reseeded g hf parse x s s id i cfg
      simp only [id] at e1 e2
      unfold makeJobs
      simp only [List.map_cons]
      generalize makeJob (folderEngine g) parse i (reseed x f) cfg s = v at e1 e2 ⊢
      generalize makeJob (folderEngine g) parse i f cfg s = w at e1 e2 ⊢
      obtain ⟨v1, v2⟩ := v
      obtain ⟨w1, w2⟩ := w
      simp only at e1 e2
      subst e1 e2
      cases w1 with
      | error e => rfl
      | ok j =>
        simp only [Except.map]
        rw [ih (fun j hj => hjs j (List.mem_cons_of_mem _ hj))]
        generalize makeJobs (folderEngine g) parse (i + 1) js v2 = u
        obtain ⟨u1, u2⟩ := u
        cases u1 <;> rfl
  unfold runJobsSerial
  rw [hm js hjs 0 s]
  generalize makeJobs (folderEngine g) parse 0 js s = u
  obtain ⟨u1, u2⟩ := u
  cases u1 with
  | error e => rfl
  | ok l =>
    simp only [Except.map]
    rw [runSerial_same (reseed_same g x)]
    cases runSerial (folderEngine g) fuel l u2 <;> rfl

/-- C121: of parallel jobs, two that resume from the same checkpoint, with the same configuration but for the seed, are the
same run: the same error if any, the same fields, records, checkpoints, generator and number of updates, and the same
reports but for the number of the job. Which jobs there are besides does not matter. -/
theorem C121_members (g : Rng K σ) (parse : String → Option ℚ) (fuel : ℕ) {js : List (Folder K σ × Dict Yaml)}
    {i k : ℕ} {f : Folder K σ} (hf : CanResume f) {x : σ} {cfg : Dict Yaml} (hi : js[i]? = some (f, cfg))
    (hk : js[k]? = some (reseed x f, cfg)) {s : σ} {a b : Except Exc (Option (Ran (FolderModel K σ) σ))}
    (ha : (forkJobs (folderEngine g) parse fuel 0 js s)[i]? = some a)
    (hb : (forkJobs (folderEngine g) parse fuel 0 js s)[k]? = some b) :
    b = a.map (Option.map (relabel (reseedModel x) fun _ => k)) := by
  obtain ⟨f1, c1, s1, p1, q1⟩ := fork_get ha
  obtain ⟨f2, c2, s2, p2, q2⟩ := fork_get hb
  rw [hi] at p1
  rw [hk] at p2
  cases p1
  cases p2
  rw [Nat.zero_add] at q1 q2
  obtain ⟨-, e1, e2⟩ := makeJob_reseeded g hf parse x s1 s2 (fun _ => k) i cfg
  rcases fork_one q1 with ⟨e, rfl, h1⟩ | ⟨j, t, h1, -, rfl⟩
  · rw [h1] at e1
    rcases fork_one q2 with ⟨e', rfl, h2⟩ | ⟨j, t, h2, -, rfl⟩
    · rw [h2] at e1
      cases e1
      rfl
    · rw [h2] at e1
      cases e1
  · rw [h1] at e1 e2
    rcases fork_one q2 with ⟨e', rfl, h2⟩ | ⟨j', t', h2, -, rfl⟩
    · rw [h2] at e1
      cases e1
    · rw [h2] at e1 e2
      simp only [Except.map, Except.ok.injEq] at e1 e2
      subst e1 e2
      exact congrArg Except.ok (parallel_same (reseed_same g x) (fun _ => k) fuel j.i j.model j.stop t')

/-- C121: without a checkpoint it is the seed that a model starts with. -/
theorem C121_fresh (g : Rng K σ) {f : Folder K σ} (hf : f.resume = false) (s : σ) :
    ∃ M, (folderEngine g).make f s = (.ok ⟨f, M⟩, f.seeded) ∧ M.rng = f.seeded := by
  refine ⟨startSim f.out f.S f.seeded, ?_, (start_frame f.out f.S f.seeded).2.1⟩
  show f.made f.start = _
  unfold Folder.start
  rw [hf]
  simp only [Bool.false_eq_true, if_false, Folder.made, (start_frame f.out f.S f.seeded).2.1]

/-! ## Non-trivial case -/

/-- Two members of an ensemble that goes on from a checkpoint, each with its own seed: both run. -/
example : CanResume (exTwoFolder true) ∧ (exTwoFolder true).seeded ≠ (reseed false (exTwoFolder true)).seeded ∧
    ∃ a b, (forkJobs (folderEngine twoRng) (fun _ => none) 5 0
      [(exTwoFolder true, oneStep), (reseed false (exTwoFolder true), oneStep)] true) = [.ok a, .ok b] ∧
      b = a.map (relabel (reseedModel false) fun _ => 1) := by
  have hl : CanResume (exTwoFolder true) := ⟨rfl, _, 0, rfl, rfl⟩
  have h0 : ∃ j s1, makeJob (folderEngine twoRng).deferred (fun _ => none) 0 (exTwoFolder true) oneStep true =
      (.ok j, s1) := ⟨_, _, rfl⟩
  obtain ⟨j0, s0, h0⟩ := h0
  have h1 : ∃ j s1, makeJob (folderEngine twoRng).deferred (fun _ => none) 1 (reseed false (exTwoFolder true)) oneStep
      s0 = (.ok j, s1) := ⟨_, _, rfl⟩
  obtain ⟨j1, s1, h1⟩ := h1
  have hf : forkJobs (folderEngine twoRng) (fun _ => none) 5 0
      [(exTwoFolder true, oneStep), (reseed false (exTwoFolder true), oneStep)] true =
      [.ok (runParallelJob (folderEngine twoRng) 5 j0 s0), .ok (runParallelJob (folderEngine twoRng) 5 j1 s1)] := by
    simp only [forkJobs, h0, Nat.zero_add, h1]
  refine ⟨hl, by simp [exTwoFolder, exTwo, reseed], _, _, hf, ?_⟩
  have := C121_members twoRng (fun _ => none) 5 (js := [(exTwoFolder true, oneStep),
    (reseed false (exTwoFolder true), oneStep)]) (i := 0) (k := 1) hl rfl rfl (by rw [hf]; rfl) (by rw [hf]; rfl)
  simpa [Except.map] using this

end Verif.Props
