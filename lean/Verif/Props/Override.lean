import Verif.Props.Ensemble
import Verif.Props.Jobs

/-!
# C62: options of the command line and keywords against the input file

In full: an option given on the command line or as a keyword overrides the same option in the YAML
file. It holds for runs expanded into several jobs. It does not hold for a single job, for which the
input file is put over the combined configuration again.
-/

set_option linter.unusedSectionVars false
set_option linter.unusedSimpArgs false

namespace Verif.Props

open Verif.Model Verif.Spec

variable {D : Type*} [DecidableEq D]

lemma dget_dupdate_other {V : Type*} {d e : Dict V} {k : String} (h : k ∉ dkeys e) :
    dget (dupdate d e) k = dget d k := by
  induction e generalizing d with
  | nil => rfl
  | cons p e ih =>
    obtain ⟨a, v⟩ := p
    simp only [dkeys, List.map_cons, List.mem_cons, not_or] at h
    show dget (dupdate (dset d a v) e) k = _
    rw [ih h.2, dget_dset, if_neg h.1]

/-- C62: the configuration of the preprocessor holds the option where it is given, else the value of the
file. -/
theorem C62_combined {file : Option (Dict Yaml)} {kw : Dict Yaml} (hf : Keyed (file.getD []))
    (hk : Keyed kw) (k : String) :
    dget (combined file kw) k = over (dget (file.getD [])) (dget kw) k := by
  unfold combined
  rw [dget_dupdate hk]
  unfold over
  rw [dget_dupdate hf]
  unfold over
  cases dget kw k <;> cases dget (file.getD []) k <;> rfl

lemma combined_keyed (file : Option (Dict Yaml)) (kw : Dict Yaml) : Keyed (combined file kw) :=
  keyed_dupdate (keyed_dupdate (by simp [Keyed, dkeys]))

/-! ## Values that every job shares -/

lemma dkeys_dset_iff {V : Type*} {d : Dict V} {a k : String} {v : V} (h : k ≠ a) :
    k ∉ dkeys (dset d a v) ↔ k ∉ dkeys d := by
  rw [mem_dkeys_dset]; simp [h]

lemma expandSets_mem {seeds : ℕ → ℕ} {n : ℕ} : ∀ {l l' : List Yaml} {c : ℕ},
    expandSets seeds n c l = .ok l' →
    ∀ y ∈ l', ∃ d v, .dict d ∈ l ∧ y = .dict (dset d "seed" v)
  | [], l', c, h => by
    obtain rfl := by simpa [expandSets] using h
    simp
  | y :: ys, l', c, h => by
    unfold expandSets at h
    by_cases hn : n = 0
    · rw [if_pos hn] at h
      intro z hz
      obtain ⟨d, v, h1, h2⟩ := expandSets_mem h z hz
      exact ⟨d, v, List.mem_cons_of_mem _ h1, h2⟩
    · rw [if_neg hn] at h
      match y, h with
      | .dict d, h =>
        simp only [Yaml.asDict] at h
        generalize hr : expandSets seeds n (c + n) ys = r at h
        match r, h with
        | .ok zs, h =>
          simp only [Except.ok.injEq] at h
          subst h
          intro z hz
          rcases List.mem_append.1 hz with hz | hz
          · obtain ⟨j, -, rfl⟩ := List.mem_map.1 hz
            exact ⟨d, _, List.mem_cons_self, rfl⟩
          · obtain ⟨d', v, h1, h2⟩ := expandSets_mem hr z hz
            exact ⟨d', v, List.mem_cons_of_mem _ h1, h2⟩

lemma jobConfigs_mem {root : String} {fixed : Dict Yaml} {k : String} (ho : k ≠ "out_dir") :
    ∀ {vs : List (Dict Yaml)} {i : ℕ}, (∀ v ∈ vs, k ∉ dkeys v) →
    ∀ c ∈ jobConfigs root fixed i vs, dget c k = dget fixed k
  | [], i, _ => by simp [jobConfigs]
  | v :: vs, i, h => by
    intro c hc
    rcases List.mem_cons.1 hc with rfl | hc
    · unfold jobConfig
      rw [dget_dupdate_other (h v List.mem_cons_self), dget_dset, if_neg ho]
    · exact jobConfigs_mem ho (fun v hv => h v (List.mem_cons_of_mem _ hv)) c hc

lemma combos_keys {V : Type*} : ∀ {m : Dict (List V)}, ∀ c ∈ combos m, dkeys c = dkeys m
  | [] => by simp [combos, dkeys]
  | (k, l) :: m => by
    intro c hc
    unfold combos at hc
    obtain ⟨v, -, hv⟩ := List.mem_flatMap.1 hc
    obtain ⟨c', hc', rfl⟩ := List.mem_map.1 hv
    have := combos_keys c' hc'
    simp only [dkeys, List.map_cons] at this ⊢
    rw [this]

/-- A key of the configuration that is not one of the expansion, nor in the sets, has its value in every
job. -/
lemma multi_fixed {resolve : String → D} {rt : Yaml → Yaml} {seeds : ℕ → ℕ} {F : Folders D}
    {cfg : Dict Yaml} {R : Expanded D} (h : constructFileList resolve rt seeds F cfg = .ok R)
    {k : String} (h1 : k ≠ "ensemble") (h2 : k ≠ "set") (h3 : k ≠ "matrix") (h4 : k ≠ "out_dir")
    (h5 : k ≠ "seed") (hk : k ∈ dkeys cfg)
    (hs : ∀ l, dget cfg "set" = some (.list l) → ∀ d, .dict d ∈ l → k ∉ dkeys d) :
    ∀ c ∈ R.configs, dget c k = dget cfg k := by
  obtain ⟨h0, P, hP, hR⟩ := construct_split h
  have hc1 := (ens_cfg hP).1 k h1 h2 h3
  rcases hR with ⟨-, rfl⟩ | ⟨-, F1, root, ds, hp, hx, -, hw, hsr, -⟩
  · simp [hc1]
  · by_cases hm : P.hasMatrix = true
    · rw [if_pos hm] at hx
      unfold expandMatrix at hx
      generalize hd : dget P.cfg "matrix" = o at hx
      match o, hx with
      | some (.dict m), hx =>
        simp only at hx
        by_cases e1 : "out_dir" ∈ dkeys m
        · rw [if_pos e1] at hx; simp at hx
        rw [if_neg e1] at hx
        generalize hc : checkMatrix (ddel P.cfg "matrix") m = r at hx
        match r, hx with
        | .ok (v :: vs), hx =>
          simp only [Except.ok.injEq] at hx
          obtain ⟨ha, hb⟩ := checkMatrix_ok hc
          have hkm : k ∉ dkeys m := by
            intro hkm
            apply (hb k hkm).1
            obtain ⟨w, hw⟩ := mem_dkeys.1 hk
            rw [← hc1] at hw
            exact mem_dkeys.2 ⟨w, by rw [dget_ddel, if_neg h3]; exact hw⟩
          have hkv : dkeys (v :: vs) = dkeys m := (Lists.keys (m := m) (vals := v :: vs) ha)
          rw [← hx]
          intro c hc
          rw [jobConfigs_mem h4 (fun v' hv' => by rw [combos_keys v' hv', hkv]; exact hkm) c hc,
            dget_ddel, if_neg h3, hc1]
    · rw [if_neg hm] at hx
      obtain ⟨es, hes, hne, -, -, hcs⟩ := expandSet_ok hx
      rw [hcs]
      have hkey : ∀ d ∈ es, k ∉ dkeys d := by
        intro d hd
        have hdl : Yaml.dict d ∈ es.map Yaml.dict := List.mem_map.2 ⟨d, hd, rfl⟩
        by_cases he : "ensemble" ∈ dkeys cfg
        · rw [if_pos he] at hP
          unfold expandEnsemble at hP
          obtain ⟨y, hy⟩ := mem_dkeys.1 he
          simp only [hy] at hP
          generalize hn : y.asInt = o at hP
          cases o with
          | none => simp at hP
          | some n =>
            simp only at hP
            by_cases e1 : n = 1
            · rw [if_pos e1] at hP
              simp only [Except.ok.injEq] at hP
              subst hP
              simp only at hes
              rw [dget_ddel, if_neg (by decide)] at hes
              exact hs _ hes d hdl
            · rw [if_neg e1] at hP
              by_cases hsk : "set" ∈ dkeys cfg
              · simp only [hsk, decide_true, if_true] at hP
                generalize hd' : dget (ddel cfg "ensemble") "set" = o at hP
                match o, hP with
                | some (.list l), hP =>
                  simp only at hP
                  generalize hxs : expandSets seeds n.toNat 0 l = r at hP
                  cases r with
                  | error e => simp at hP
                  | ok l' =>
                    simp only [Except.ok.injEq] at hP
                    subst hP
                    simp only [dget_dset, if_true, Option.some.injEq, Yaml.list.injEq] at hes
                    rw [dget_ddel, if_neg (by decide)] at hd'
                    rw [← hes] at hdl
                    obtain ⟨d', v, g1, g2⟩ := expandSets_mem hxs _ hdl
                    obtain rfl : d = dset d' "seed" v := by simpa using g2
                    rw [dkeys_dset_iff h5]
                    exact hs l hd' d' g1
              · simp only [hsk, decide_false, Bool.false_eq_true, if_false] at hP
                generalize hd' : (dget (ddel cfg "ensemble") "matrix").getD (.dict []) = o at hP
                match o, hP with
                | .dict m, hP =>
                  simp only at hP
                  by_cases hsd : "seed" ∈ dkeys m
                  · rw [if_pos hsd] at hP; simp at hP
                  · rw [if_neg hsd] at hP
                    simp only [Except.ok.injEq] at hP
                    subst hP
                    simp at hm
        · rw [if_neg he] at hP
          subst hP
          exact hs _ hes d hdl
      intro c hc
      rw [jobConfigs_mem h4 hkey c hc, dget_ddel, if_neg h2, hc1]

/-! ## Several jobs -/

lemma writeJobs_keyed {resolve : String → D} {rt : Yaml → Yaml} {resume : Bool} :
    ∀ {cs : List (Dict Yaml)} {F F1 : Folders D} {ds : List D},
    writeJobs resolve rt resume F cs = .ok (F1, ds) → (∀ d, Keyed (F.job d)) → ∀ d, Keyed (F1.job d)
  | [], F, F1, ds, h, hk => by
    obtain ⟨rfl, rfl⟩ := by simpa [writeJobs] using h
    exact hk
  | c :: cs, F, F1, ds, h, hk => by
    unfold writeJobs at h
    generalize hw : writeJob resolve rt resume F c = r at h
    match r, h with
    | .ok (F2, d), h =>
      simp only at h
      generalize hr : writeJobs resolve rt resume F2 cs = q at h
      match q, h with
      | .ok (F3, es), h =>
        obtain ⟨rfl, rfl⟩ := by simpa using h
        refine writeJobs_keyed hr ?_
        intro x
        rw [(writeJob_ok hw).2.2.2]
        by_cases hx : x = d
        · subst hx; rw [Function.update_self]; exact keyed_dupdate (hk x)
        · rw [Function.update_of_ne hx]; exact hk x

/-- Specification: a disk. Files are in folders that are there, and dictionaries have each key once. -/
structure GoodDisk (F : Folders D) : Prop where
  absent : ∀ d, F.present d = false → F.job d = []
  keyed : ∀ d, Keyed (F.job d)

/-- The configuration used for the run time of each of several jobs is the one written to its file. -/
lemma jobs_multi {resolve : String → D} {rt : Yaml → Yaml} {seeds : ℕ → ℕ} {F : Folders D}
    {cfg : Dict Yaml} {R : Expanded D} (h : constructFileList resolve rt seeds F cfg = .ok R)
    (hk : Keyed cfg) {ds : List D} (hm : Multi R ds) (hr : resuming cfg = false) (hF : GoodDisk F)
    (file : Option (Dict Yaml)) :
    List.Forall₂ (fun c (x : Option (Dict Yaml) × Dict Yaml) => ∀ k, dget x.2 k = (dget c k).map rt)
      R.configs (jobInputs R file) := by
  have hl := C58_loaded h hk hm hr hF.absent
  have hjk : ∀ d, Keyed (R.disk.job d) := by
    rcases multi_or_single h with hs | ⟨ds', F1, root, P, -, -, -, -, -, -, hj, hw⟩
    · rw [hs]; exact hF.keyed
    · exact writeJobs_keyed hw (by rw [hj]; exact hF.keyed)
  unfold jobInputs
  rw [hm]
  clear hm
  generalize R.configs = cs at hl
  induction hl with
  | nil => exact .nil
  | @cons c d cs ds h1 h2 ih =>
    refine .cons ?_ ih
    intro k
    simp only [jobFile, Option.getD_some]
    rw [dget_dupdate (hjk d)]
    unfold over
    rw [h1 k]
    cases dget c k <;> rfl

lemma forall₂_mem_right {α β : Type*} {r : α → β → Prop} {l : List α} {l' : List β}
    (h : List.Forall₂ r l l') : ∀ y ∈ l', ∃ x ∈ l, r x y := by
  induction h with
  | nil => simp
  | @cons a b l l' h1 h2 ih =>
    intro y hy
    rcases List.mem_cons.1 hy with rfl | hy
    · exact ⟨a, List.mem_cons_self, h1⟩
    · obtain ⟨x, hx, hr⟩ := ih y hy
      exact ⟨x, List.mem_cons_of_mem _ hx, hr⟩

/-- C62 for several jobs: an option that is given has its value in the run time of every job, unless the
sets name it. It is written to the files of the jobs, so the models read it as well. -/
theorem C62_multi_partial {resolve : String → D} {rt : Yaml → Yaml} {seeds : ℕ → ℕ} {F : Folders D}
    {file : Option (Dict Yaml)} {kw : Dict Yaml} {R : Expanded D}
    (h : preprocess resolve rt seeds F file kw = .ok R) (hf : Keyed (file.getD [])) (hk : Keyed kw)
    {ds : List D} (hm : Multi R ds) (hF : GoodDisk F) (hr : resuming (combined file kw) = false)
    {k : String} {v : Yaml} (hv : dget kw k = some v) (hrt : rt v = v)
    (hname : k ∉ ["ensemble", "set", "matrix", "out_dir", "seed"])
    (hs : ∀ l, dget (combined file kw) "set" = some (.list l) → ∀ d, .dict d ∈ l → k ∉ dkeys d) :
    ∀ x ∈ jobInputs R file, dget x.2 k = some v ∧ ∃ y, x.1 = some y ∧ dget y k = some v := by
  simp only [List.mem_cons, List.not_mem_nil, or_false, not_or] at hname
  obtain ⟨n1, n2, n3, n4, n5⟩ := hname
  have hc : dget (combined file kw) k = some v := by
    rw [C62_combined hf hk]; unfold over; rw [hv]
  have hfix := multi_fixed h n1 n2 n3 n4 n5 (mem_dkeys.2 ⟨v, hc⟩) hs
  have hl := C58_loaded h (combined_keyed file kw) hm hr hF.absent
  have hj := jobs_multi h (combined_keyed file kw) hm hr hF file
  have hin : ∀ x ∈ jobInputs R file, ∃ d ∈ ds, x.1 = some (R.disk.job d) := by
    intro x hx
    unfold jobInputs at hx
    rw [hm] at hx
    obtain ⟨i, hi⟩ := List.mem_iff_getElem?.1 hx
    rw [List.getElem?_zipWith] at hi
    cases h1 : R.configs[i]? with
    | none => simp [h1] at hi
    | some c =>
      cases h2 : ds[i]? with
      | none => simp [h1, h2] at hi
      | some d =>
        simp only [h1, List.getElem?_map, h2, Option.map_some, Option.some.injEq] at hi
        exact ⟨d, List.mem_of_getElem? h2, by rw [← hi]; rfl⟩
  intro x hx
  constructor
  · obtain ⟨c, hc', hxk⟩ := forall₂_mem_right hj x hx
    rw [hxk k, hfix c hc', hc, Option.map_some, hrt]
  · obtain ⟨d, hd, hd'⟩ := hin x hx
    obtain ⟨c, hc', hck⟩ := forall₂_mem_right hl d hd
    exact ⟨_, hd', by rw [hck k, hfix c hc', hc, Option.map_some, hrt]⟩

/-! ## A single job -/

/-- Specification: a run of one job, which is not expanded. -/
def Single (cfg : Dict Yaml) : Prop :=
  "set" ∉ dkeys cfg ∧ "matrix" ∉ dkeys cfg ∧ "ensemble" ∉ dkeys cfg

lemma single_inputs {resolve : String → D} {rt : Yaml → Yaml} {seeds : ℕ → ℕ} {F : Folders D}
    {file : Option (Dict Yaml)} {kw : Dict Yaml} (hs : Single (combined file kw)) :
    ∃ R, preprocess resolve rt seeds F file kw = .ok R ∧
      jobInputs R file = [(file, dupdate (combined file kw) (file.getD []))] := by
  obtain ⟨h1, h2, h3⟩ := hs
  refine ⟨⟨combined file kw, [combined file kw], [.input], F⟩, ?_, rfl⟩
  unfold preprocess constructFileList prelimParse
  rw [if_neg (fun h => h1 h.1)]
  simp [h1, h2, h3]

/-- C62 fails for a single job: whatever is given as an option or keyword, the run time uses the value
of the input file if it has one. The model reads the input file alone. -/
theorem C62_file_wins {resolve : String → D} {rt : Yaml → Yaml} {seeds : ℕ → ℕ} {F : Folders D}
    {f kw : Dict Yaml} (hf : Keyed f) (hs : Single (combined (some f) kw)) :
    ∃ R cfg, preprocess resolve rt seeds F (some f) kw = .ok R ∧ jobInputs R (some f) = [(some f, cfg)] ∧
      ∀ k v, dget f k = some v → dget cfg k = some v := by
  obtain ⟨R, h1, h2⟩ := single_inputs (resolve := resolve) (rt := rt) (seeds := seeds) (F := F) hs
  refine ⟨R, _, h1, h2, ?_⟩
  intro k v hv
  simp only [Option.getD_some]
  rw [dget_dupdate hf]
  unfold over
  rw [hv]

/-- C62 for a single job: options are used where the input file does not have the key, or without an
input file. -/
theorem C62_single_partial {resolve : String → D} {rt : Yaml → Yaml} {seeds : ℕ → ℕ} {F : Folders D}
    {file : Option (Dict Yaml)} {kw : Dict Yaml} (hf : Keyed (file.getD [])) (hk : Keyed kw)
    (hs : Single (combined file kw)) :
    ∃ R cfg, preprocess resolve rt seeds F file kw = .ok R ∧ jobInputs R file = [(file, cfg)] ∧
      ∀ k, dget (file.getD []) k = none → dget cfg k = dget kw k := by
  obtain ⟨R, h1, h2⟩ := single_inputs (resolve := resolve) (rt := rt) (seeds := seeds) (F := F) hs
  refine ⟨R, _, h1, h2, ?_⟩
  intro k hn
  rw [dget_dupdate hf]
  unfold over
  rw [hn]
  simp only
  rw [C62_combined hf hk]
  unfold over
  rw [hn]
  cases dget kw k <;> rfl

/-! ## The run time -/

variable {K : Type*} [Field K] [LinearOrder K] [IsStrictOrderedRing K] {In M G : Type*}

/-- C62: several jobs with a number of timesteps on the command line: each runs for that many
timesteps, whatever the file says. -/
theorem C62_timesteps_partial {resolve : String → D} {rt : Yaml → Yaml} {seeds : ℕ → ℕ} {F : Folders D}
    {file : Option (Dict Yaml)} {kw : Dict Yaml} {R : Expanded D}
    (h : preprocess resolve rt seeds F file kw = .ok R) (hf : Keyed (file.getD [])) (hk : Keyed kw)
    {ds : List D} (hm : Multi R ds) (hF : GoodDisk F) (hr : resuming (combined file kw) = false)
    {n : ℕ} (hv : dget kw "timesteps" = some (.scalar (.int n)))
    (hrt : ∀ i : ℤ, rt (.scalar (.int i)) = .scalar (.int i))
    (hs : ∀ l, dget (combined file kw) "set" = some (.list l) → ∀ d, .dict d ∈ l → "timesteps" ∉ dkeys d)
    (parse : String → Option ℚ) (dt : K) {x : Option (Dict Yaml) × Dict Yaml} (hx : x ∈ jobInputs R file)
    {t : K} (ht : duration parse x.2 dt = .ok t) : t = n * dt := by
  have := (C62_multi_partial h hf hk hm hF hr hv (hrt _) (by decide) hs x hx).1
  obtain ⟨q, -, hq⟩ := (C61_duration parse x.2 dt t).1 ht
  rcases hq with ⟨r, ⟨w, h1, h2⟩, e⟩ | ⟨h1, -⟩ | ⟨h1, -⟩
  · rw [this] at h1
    obtain rfl := by simpa using h1
    simp only [← numOf_iff, numOf, Option.some.injEq] at h2
    rw [e, ← h2]
    push_cast
    rfl
  · rw [this] at h1; cases h1
  · rw [this] at h1; cases h1

/-- C62 fails for a single job: with `timesteps` in the input file, the number on the command line has no
effect on the length of the run. -/
theorem C62_timesteps_ignored {resolve : String → D} {rt : Yaml → Yaml} {seeds : ℕ → ℕ} {F : Folders D}
    {f kw : Dict Yaml} (hf : Keyed f) (hs : Single (combined (some f) kw)) {n : ℕ}
    (hn : dget f "timesteps" = some (.scalar (.int n))) (parse : String → Option ℚ) (dt : K) :
    ∃ R cfg, preprocess resolve rt seeds F (some f) kw = .ok R ∧ jobInputs R (some f) = [(some f, cfg)] ∧
      ∀ t, duration parse cfg dt = .ok t → t = n * dt := by
  obtain ⟨R, cfg, h1, h2, h3⟩ := C62_file_wins (resolve := resolve) (rt := rt) (seeds := seeds) (F := F) hf hs
  refine ⟨R, cfg, h1, h2, ?_⟩
  intro t ht
  have := h3 _ _ hn
  obtain ⟨q, -, hq⟩ := (C61_duration parse cfg dt t).1 ht
  rcases hq with ⟨r, ⟨w, h1, h2⟩, e⟩ | ⟨h1, -⟩ | ⟨h1, -⟩
  · rw [this] at h1
    obtain rfl := by simpa using h1
    simp only [← numOf_iff, numOf, Option.some.injEq] at h2
    rw [e, ← h2]
    push_cast
    rfl
  · rw [this] at h1; cases h1
  · rw [this] at h1; cases h1

/-! ## The command line -/

lemma cli_keyed (a : Cli) : Keyed (cliDict a) := by
  unfold Keyed cliDict dkeys
  cases a.timesteps <;> cases a.time <;> cases a.timeYears <;> cases a.If <;> cases a.parallel <;>
    simp [entry]

/-- C62: what the command line gives: the options that are there, and always `dryrun`, so `dryrun: true` in
the file is overridden by its absence on the command line. -/
theorem C62_cli (a : Cli) :
    dget (cliDict a) "timesteps" = a.timesteps.map (fun n => .scalar (.int n)) ∧
    dget (cliDict a) "time" = a.time.map (fun q => .scalar (.float q)) ∧
    dget (cliDict a) "time_years" = a.timeYears.map (fun q => .scalar (.float q)) ∧
    dget (cliDict a) "If" = a.If.map (fun t => .scalar (.str t)) ∧
    dget (cliDict a) "parallel" = a.parallel.map .scalar ∧
    ∀ f, Keyed f → dry (combined (some f) (cliDict a)) = a.dryrun := by
  have hk := cli_keyed a
  refine ⟨?_, ?_, ?_, ?_, ?_, ?_⟩
  · unfold cliDict
    cases a.timesteps <;> cases a.time <;> cases a.timeYears <;> cases a.If <;> cases a.parallel <;>
      simp [entry, dget]
  · unfold cliDict
    cases a.timesteps <;> cases a.time <;> cases a.timeYears <;> cases a.If <;> cases a.parallel <;>
      simp [entry, dget]
  · unfold cliDict
    cases a.timesteps <;> cases a.time <;> cases a.timeYears <;> cases a.If <;> cases a.parallel <;>
      simp [entry, dget]
  · unfold cliDict
    cases a.timesteps <;> cases a.time <;> cases a.timeYears <;> cases a.If <;> cases a.parallel <;>
      simp [entry, dget]
  · unfold cliDict
    cases a.timesteps <;> cases a.time <;> cases a.timeYears <;> cases a.If <;> cases a.parallel <;>
      simp [entry, dget]
  · intro f hf
    unfold dry
    rw [C62_combined (by simpa using hf) hk]
    have : dget (cliDict a) "dryrun" = some (.scalar (.bool a.dryrun)) := by
      unfold cliDict
      cases a.timesteps <;> cases a.time <;> cases a.timeYears <;> cases a.If <;> cases a.parallel <;>
        simp [entry, dget]
    unfold over
    rw [this]
    rfl

/-! ## Cases -/

/-- A file with a matrix. -/
def exFile : Dict Yaml :=
  [("out_dir", .scalar (.str "out")), ("timesteps", .scalar (.int 3)),
    ("matrix", .dict [("u0", .list [.scalar (.int 1), .scalar (.int 2)])])]

/-- Two jobs of seven timesteps, from a file that says three; a single job keeps three. -/
theorem C62_witness :
    (∃ R, preprocess id id id emptyDisk (some exFile) [("timesteps", .scalar (.int 7))] = .ok R ∧
      (jobInputs R (some exFile)).map (fun x => dget x.2 "timesteps") =
        [some (.scalar (.int 7)), some (.scalar (.int 7))]) ∧
    ∃ R, preprocess id id id emptyDisk (some [("timesteps", .scalar (.int 3))])
        [("timesteps", .scalar (.int 7))] = .ok R ∧
      (jobInputs R (some [("timesteps", .scalar (.int 3))])).map (fun x => dget x.2 "timesteps") =
        [some (.scalar (.int 3))] :=
  ⟨⟨_, rfl, rfl⟩, ⟨_, rfl, rfl⟩⟩

end Verif.Props
