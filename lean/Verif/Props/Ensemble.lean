import Verif.Props.Expand

/-!
# C58 and C59: folders of jobs, ensembles
-/

set_option linter.unusedSectionVars false
set_option linter.unusedSimpArgs false

namespace Verif.Props

open Verif.Model Verif.Spec

variable {D : Type*} [DecidableEq D]

lemma expandSets_ok {seeds : ℕ → ℕ} {n : ℕ} (hn : n ≠ 0) :
    ∀ {l l' : List Yaml} {c : ℕ}, expandSets seeds n c l = .ok l' →
    ∃ ds : List (Dict Yaml), l = ds.map .dict ∧ l'.length = ds.length * n ∧
      ∀ i d, ds[i]? = some d → ∀ j, j < n →
        l'[i * n + j]? = some (.dict (dset d "seed" (seedVal (seeds (c + (i * n + j))))))
  | [], l', c, h => by
    simp only [expandSets, Except.ok.injEq] at h
    subst h
    exact ⟨[], rfl, by simp, by simp⟩
  | y :: ys, l', c, h => by
    unfold expandSets at h
    rw [if_neg hn] at h
    match y, h with
    | .dict d, h =>
      simp only [Yaml.asDict] at h
      generalize hx : expandSets seeds n (c + n) ys = r at h
      cases r with
      | error e => simp at h
      | ok zs =>
        simp only [Except.ok.injEq] at h
        obtain ⟨ds, h1, h2, h3⟩ := expandSets_ok hn hx
        refine ⟨d :: ds, by simp [h1], ?_, ?_⟩
        · rw [← h]
          simp only [List.length_append, List.length_map, List.length_range, h2, List.length_cons]
          ring
        · intro i d' hd' j hj
          rw [← h]
          cases i with
          | zero =>
            simp only [List.getElem?_cons_zero, Option.some.injEq] at hd'
            subst hd'
            rw [List.getElem?_append_left (by simpa using hj)]
            simp [hj]
          | succ i =>
            simp only [List.getElem?_cons_succ] at hd'
            have := h3 i d' hd' j hj
            rw [List.getElem?_append_right (by simp; nlinarith)]
            simp only [List.length_map, List.length_range]
            rw [show (i + 1) * n + j - n = i * n + j by
              rw [Nat.succ_mul]; omega, this]
            rw [show c + n + (i * n + j) = c + ((i + 1) * n + j) by ring]
    | .scalar _, h => simp [Yaml.asDict] at h
    | .list _, h => simp [Yaml.asDict] at h

/-- What the ensemble leaves alone. -/
lemma expandEnsemble_keeps {seeds : ℕ → ℕ} {P P' : Pp} (h : expandEnsemble seeds P = .ok P') {k : String}
    (h1 : k ≠ "ensemble") (h2 : k ≠ "set") (h3 : k ≠ "matrix") :
    dget P'.cfg k = dget P.cfg k ∧ P'.hasSet = P.hasSet := by
  unfold expandEnsemble at h
  generalize he : dget P.cfg "ensemble" = o at h
  cases o with
  | none => simp only [Except.ok.injEq] at h; subst h; exact ⟨rfl, rfl⟩
  | some y =>
    simp only at h
    generalize hn : y.asInt = o at h
    cases o with
    | none => simp at h
    | some n =>
      simp only at h
      by_cases e1 : n = 1
      · rw [if_pos e1] at h
        simp only [Except.ok.injEq] at h
        subst h
        simp [dget_ddel, h1]
      rw [if_neg e1] at h
      by_cases hs : P.hasSet = true
      · rw [if_pos hs] at h
        generalize hd : dget (ddel P.cfg "ensemble") "set" = o at h
        match o, h with
        | some (.list l), h =>
          simp only at h
          generalize hx : expandSets seeds n.toNat 0 l = r at h
          cases r with
          | error e => simp at h
          | ok l' =>
            simp only [Except.ok.injEq] at h
            subst h
            simp [dget_dset, dget_ddel, h1, h2]
      · rw [if_neg hs] at h
        generalize hd : (dget (ddel P.cfg "ensemble") "matrix").getD (.dict []) = o at h
        match o, h with
        | .dict m, h =>
          simp only at h
          by_cases hm : "seed" ∈ dkeys m
          · rw [if_pos hm] at h; simp at h
          · rw [if_neg hm] at h
            simp only [Except.ok.injEq] at h
            subst h
            simp [dget_dset, dget_ddel, h1, h3]

lemma expandEnsemble_keyed {seeds : ℕ → ℕ} {P P' : Pp} (h : expandEnsemble seeds P = .ok P')
    (hk : Keyed P.cfg) : Keyed P'.cfg := by
  unfold expandEnsemble at h
  generalize he : dget P.cfg "ensemble" = o at h
  cases o with
  | none => simp only [Except.ok.injEq] at h; subst h; exact hk
  | some y =>
    simp only at h
    generalize hn : y.asInt = o at h
    cases o with
    | none => simp at h
    | some n =>
      simp only at h
      by_cases e1 : n = 1
      · rw [if_pos e1] at h
        simp only [Except.ok.injEq] at h
        subst h
        exact keyed_ddel hk _
      rw [if_neg e1] at h
      by_cases hs : P.hasSet = true
      · rw [if_pos hs] at h
        generalize hd : dget (ddel P.cfg "ensemble") "set" = o at h
        match o, h with
        | some (.list l), h =>
          simp only at h
          generalize hx : expandSets seeds n.toNat 0 l = r at h
          cases r with
          | error e => simp at h
          | ok l' =>
            simp only [Except.ok.injEq] at h
            subst h
            exact keyed_dset (keyed_ddel (keyed_ddel hk _) _) _ _
      · rw [if_neg hs] at h
        generalize hd : (dget (ddel P.cfg "ensemble") "matrix").getD (.dict []) = o at h
        match o, h with
        | .dict m, h =>
          simp only at h
          by_cases hm : "seed" ∈ dkeys m
          · rw [if_pos hm] at h; simp at h
          · rw [if_neg hm] at h
            simp only [Except.ok.injEq] at h
            subst h
            exact keyed_dset (keyed_ddel (keyed_ddel hk _) _) _ _

lemma ens_cfg {seeds : ℕ → ℕ} {cfg : Dict Yaml} {P : Pp}
    (h : if "ensemble" ∈ dkeys cfg then
        expandEnsemble seeds ⟨cfg, true, "set" ∈ dkeys cfg, "matrix" ∈ dkeys cfg⟩ = .ok P
      else P = ⟨cfg, false, "set" ∈ dkeys cfg, "matrix" ∈ dkeys cfg⟩) :
    (∀ k, k ≠ "ensemble" → k ≠ "set" → k ≠ "matrix" → dget P.cfg k = dget cfg k) ∧
    resuming P.cfg = resuming cfg ∧ (Keyed cfg → Keyed P.cfg) := by
  have key : ∀ k, k ≠ "ensemble" → k ≠ "set" → k ≠ "matrix" → dget P.cfg k = dget cfg k := by
    intro k h1 h2 h3
    by_cases he : "ensemble" ∈ dkeys cfg
    · rw [if_pos he] at h
      exact (expandEnsemble_keeps h h1 h2 h3).1
    · rw [if_neg he] at h
      rw [h]
  refine ⟨key, ?_, ?_⟩
  · unfold resuming
    rw [key "resume_checkpoint" (by decide) (by decide) (by decide)]
  · intro hk
    by_cases he : "ensemble" ∈ dkeys cfg
    · rw [if_pos he] at h
      exact expandEnsemble_keyed h hk
    · rw [if_neg he] at h
      rw [h]; exact hk

/-! ## C58 -/

/-- Specification: a run of several jobs. -/
def Multi (R : Expanded D) (ds : List D) : Prop := R.sources = ds.map .folder

lemma multi_or_single {resolve : String → D} {rt : Yaml → Yaml} {seeds : ℕ → ℕ} {F : Folders D}
    {cfg : Dict Yaml} {R : Expanded D} (h : constructFileList resolve rt seeds F cfg = .ok R) :
    R = ⟨R.cfg, [R.cfg], [.input], F⟩ ∨
    ∃ ds F1 root P, Multi R ds ∧ dget cfg "out_dir" = some (.scalar (.str root)) ∧
      (if "ensemble" ∈ dkeys cfg then
        expandEnsemble seeds ⟨cfg, true, "set" ∈ dkeys cfg, "matrix" ∈ dkeys cfg⟩ = .ok P
      else P = ⟨cfg, false, "set" ∈ dkeys cfg, "matrix" ∈ dkeys cfg⟩) ∧
      (if P.hasMatrix then expandMatrix root P.cfg else expandSet root P.cfg) = .ok R.configs ∧
      (resuming cfg = false → F.present (resolve root) = false) ∧
      (∀ x, F1.present x = true ↔ x = resolve root ∨ F.present x = true) ∧ F1.job = F.job ∧
      writeJobs resolve rt (resuming cfg) F1 R.configs = .ok (R.disk, ds) := by
  obtain ⟨h0, P, hP, hR⟩ := construct_split h
  obtain ⟨hc1, hc2, -⟩ := ens_cfg hP
  rcases hR with ⟨-, rfl⟩ | ⟨-, F1, root, ds, hp, hx, -, hw, hs, -⟩
  · exact Or.inl rfl
  · obtain ⟨ho, hf, hpr, hj⟩ := prepareOutput_ok hp
    rw [hc1 "out_dir" (by decide) (by decide) (by decide)] at ho
    rw [hc2] at hf hw
    exact Or.inr ⟨ds, F1, root, P, hs, ho, hP, hx, hf, hpr, hj, hw⟩

/-- C58: unless a run is resumed, every job has a folder of its own, which did not exist before and is not
the folder of the run. -/
theorem C58_distinct {resolve : String → D} {rt : Yaml → Yaml} {seeds : ℕ → ℕ} {F : Folders D}
    {cfg : Dict Yaml} {R : Expanded D} (h : constructFileList resolve rt seeds F cfg = .ok R)
    {ds : List D} (hm : Multi R ds) (hr : resuming cfg = false) :
    ds.length = R.configs.length ∧ ds.Nodup ∧
    (∀ d ∈ ds, F.present d = false ∧
      ∀ root, dget cfg "out_dir" = some (.scalar (.str root)) → d ≠ resolve root) ∧
    List.Forall₂ (fun c d => folderOf resolve c = some d) R.configs ds := by
  rcases multi_or_single h with hs | ⟨ds', F1, root, P, hm', ho, hP, hx, hf, hpr, hj, hw⟩
  · unfold Multi at hm
    rw [hs] at hm
    cases ds <;> simp at hm
  · have e : ds = ds' := by
      unfold Multi at hm hm'
      rw [hm'] at hm
      exact ((List.map_injective_iff.2 (fun a b hab => by cases hab; rfl)) hm).symm
    subst e
    obtain ⟨w1, w2, -, -⟩ := writeJobs_ok hw
    obtain ⟨w3, w4⟩ := w2 hr
    refine ⟨w1.length_eq.symm, w3, ?_, w1⟩
    intro d hd
    have hd' := w4 d hd
    have hne : ¬ (d = resolve root ∨ F.present d = true) := by
      rw [← hpr, hd']; simp
    push Not at hne
    refine ⟨by simpa using hne.2, ?_⟩
    intro root' hroot'
    rw [ho] at hroot'
    have : root = root' := by simpa using hroot'
    rw [← this]; exact hne.1

lemma keyed_jobConfigs {root : String} {fixed : Dict Yaml} (hk : Keyed fixed) {vs : List (Dict Yaml)}
    {i : ℕ} : ∀ c ∈ jobConfigs root fixed i vs, Keyed c := by
  induction vs generalizing i with
  | nil => simp [jobConfigs]
  | cons v vs ih =>
    intro c hc
    rcases List.mem_cons.1 hc with rfl | hc
    · exact keyed_dupdate (keyed_dset hk _ _)
    · exact ih c hc

lemma keyed_configs {root : String} {P : Pp} {configs : List (Dict Yaml)}
    (h : (if P.hasMatrix then expandMatrix root P.cfg else expandSet root P.cfg) = .ok configs)
    (hk : Keyed P.cfg) : ∀ c ∈ configs, Keyed c := by
  by_cases hm : P.hasMatrix = true
  · rw [if_pos hm] at h
    unfold expandMatrix at h
    generalize hd : dget P.cfg "matrix" = o at h
    match o, h with
    | some (.dict m), h =>
      simp only at h
      by_cases h1 : "out_dir" ∈ dkeys m
      · rw [if_pos h1] at h; simp at h
      rw [if_neg h1] at h
      generalize hc : checkMatrix (ddel P.cfg "matrix") m = r at h
      match r, h with
      | .ok (v :: vs), h =>
        simp only [Except.ok.injEq] at h
        rw [← h]
        exact keyed_jobConfigs (keyed_ddel hk _)
  · rw [if_neg hm] at h
    obtain ⟨ds, -, -, -, -, hc⟩ := expandSet_ok h
    rw [hc]
    exact keyed_jobConfigs (keyed_ddel hk _)

/-- C58: each job loads exactly its own configuration, as text. There are no files in folders that do not
exist. -/
theorem C58_loaded {resolve : String → D} {rt : Yaml → Yaml} {seeds : ℕ → ℕ} {F : Folders D}
    {cfg : Dict Yaml} {R : Expanded D} (h : constructFileList resolve rt seeds F cfg = .ok R)
    (hk : Keyed cfg) {ds : List D} (hm : Multi R ds) (hr : resuming cfg = false)
    (hF : ∀ d, F.present d = false → F.job d = []) :
    List.Forall₂ (fun c d => ∀ k, dget (R.disk.job d) k = (dget c k).map rt) R.configs ds := by
  obtain ⟨-, hnd, hpres, -⟩ := C58_distinct h hm hr
  rcases multi_or_single h with hs | ⟨ds', F1, root, P, hm', ho, hP, hx, hf, hpr, hj, hw⟩
  · unfold Multi at hm
    rw [hs] at hm
    cases ds <;> simp at hm
  · have e : ds = ds' := by
      unfold Multi at hm hm'
      rw [hm'] at hm
      exact ((List.map_injective_iff.2 (fun a b hab => by cases hab; rfl)) hm).symm
    subst e
    have hkc := keyed_configs hx ((ens_cfg hP).2.2 hk)
    obtain ⟨-, -, -, w4⟩ := writeJobs_ok hw
    have w := w4 hnd
    clear w4 hw hm hm' hnd hx
    rw [hj] at w
    revert hpres hkc
    generalize R.configs = cs at w
    intro hpres hkc
    induction w with
    | nil => exact .nil
    | @cons c d cs ds h1 h2 ih =>
      refine .cons ?_ (ih (fun d hd => hpres d (List.mem_cons_of_mem _ hd))
        (fun c hc => hkc c (List.mem_cons_of_mem _ hc)))
      intro k
      rw [h1, hF d (hpres d List.mem_cons_self).1,
        dget_dupdate (keyed_map (hkc c List.mem_cons_self)), over, dget_map]
      cases dget c k <;> rfl

/-- C58, full statement: every job writes into its own folder below `out_dir`. Proved when the run is
resumed too, for jobs that do not name an `out_dir` of their own (a matrix cannot) and numbered paths
that are different folders. -/
theorem C58_resume_partial {resolve : String → D} {rt : Yaml → Yaml} {seeds : ℕ → ℕ} {F : Folders D}
    {cfg : Dict Yaml} {R : Expanded D} (h : constructFileList resolve rt seeds F cfg = .ok R)
    {ds : List D} (hm : Multi R ds) {root : String}
    (ho : dget cfg "out_dir" = some (.scalar (.str root)))
    (hkey : ∀ (i : ℕ) (c : Dict Yaml), R.configs[i]? = some c →
      dget c "out_dir" = some (.scalar (.str (pathJoin root (jobId i)))))
    (hinj : ∀ i j, resolve (pathJoin root (jobId i)) = resolve (pathJoin root (jobId j)) →
      pathJoin root (jobId i) = pathJoin root (jobId j)) : ds.Nodup := by
  rcases multi_or_single h with hs | ⟨ds', F1, root', P, hm', ho', hP, hx, hf, hpr, hj, hw⟩
  · unfold Multi at hm
    rw [hs] at hm
    cases ds <;> simp at hm
  · have e : ds = ds' := by
      unfold Multi at hm hm'
      rw [hm'] at hm
      exact ((List.map_injective_iff.2 (fun a b hab => by cases hab; rfl)) hm).symm
    subst e
    obtain ⟨w1, -, -, -⟩ := writeJobs_ok hw
    rw [List.nodup_iff_injective_getElem]
    have hget : ∀ (i : ℕ) (hi : i < ds.length), ds[i] = resolve (pathJoin root (jobId i)) := by
      intro i hi
      have hi' : i < R.configs.length := by rw [w1.length_eq]; exact hi
      have h1 := hkey i _ (List.getElem?_eq_getElem hi')
      have h2 := (List.forall₂_iff_get.1 w1).2 i hi' hi
      simp only [List.get_eq_getElem] at h2
      unfold folderOf at h2
      rw [h1] at h2
      simpa using h2.symm
    rintro ⟨i, hi⟩ ⟨j, hj'⟩ hij
    simp only at hij
    rw [hget i hi, hget j hj'] at hij
    exact Fin.ext (C58_paths (hinj i j hij))

/-- C58: with a matrix, with or without an ensemble, the path of job `i` is the numbered one below
`out_dir`; with a set, unless the set has a key `out_dir`. -/
theorem C58_below {resolve : String → D} {rt : Yaml → Yaml} {seeds : ℕ → ℕ} {F : Folders D}
    {cfg : Dict Yaml} {R : Expanded D} (h : constructFileList resolve rt seeds F cfg = .ok R)
    {ds : List D} (hm : Multi R ds)
    (hkm : ∀ m, dget cfg "matrix" = some (.dict m) → Keyed m)
    (hks : ∀ l, dget cfg "set" = some (.list l) → ∀ d, .dict d ∈ l → Keyed d ∧ "out_dir" ∉ dkeys d) :
    ∃ root, dget cfg "out_dir" = some (.scalar (.str root)) ∧
      ∀ (i : ℕ) (c : Dict Yaml), R.configs[i]? = some c →
        dget c "out_dir" = some (.scalar (.str (pathJoin root (jobId i)))) := by
  rcases multi_or_single h with hs | ⟨ds', F1, root, P, hm', ho, hP, hx, hf, hpr, hj, hw⟩
  · unfold Multi at hm
    rw [hs] at hm
    cases ds <;> simp at hm
  refine ⟨root, ho, ?_⟩
  by_cases hmat : P.hasMatrix = true
  · rw [if_pos hmat] at hx
    have hd : ∃ m, dget P.cfg "matrix" = some (.dict m) ∧ Keyed m := by
      by_cases he : "ensemble" ∈ dkeys cfg
      · rw [if_pos he] at hP
        unfold expandEnsemble at hP
        obtain ⟨y, hy⟩ := mem_dkeys.1 he
        simp only [hy] at hP
        generalize hn : y.asInt = o at hP
        cases o with
        | none => simp at hP
        | some n =>
          simp only at hP
          by_cases e1 : n = 1
          · rw [if_pos e1] at hP
            simp only [Except.ok.injEq] at hP
            subst hP
            simp only at hx hmat ⊢
            unfold expandMatrix at hx
            generalize hd : dget (ddel cfg "ensemble") "matrix" = o at hx
            match o, hx with
            | some (.dict m), hx =>
              refine ⟨m, rfl, hkm m ?_⟩
              rw [dget_ddel, if_neg (by decide)] at hd
              exact hd
          · rw [if_neg e1] at hP
            by_cases hs : "set" ∈ dkeys cfg
            · simp only [hs, decide_true, if_true] at hP
              generalize hd : dget (ddel cfg "ensemble") "set" = o at hP
              match o, hP with
              | some (.list l), hP =>
                simp only at hP
                generalize hxs : expandSets seeds n.toNat 0 l = r at hP
                cases r with
                | error e => simp at hP
                | ok l' =>
                  simp only [Except.ok.injEq] at hP
                  subst hP
                  have hno : "matrix" ∉ dkeys cfg := fun hmm => (construct_split h).1 ⟨hs, hmm⟩
                  simp [hno] at hmat
            · simp only [hs, decide_false, Bool.false_eq_true, if_false] at hP
              generalize hd : (dget (ddel cfg "ensemble") "matrix").getD (.dict []) = o at hP
              match o, hP with
              | .dict m, hP =>
                simp only at hP
                by_cases hsd : "seed" ∈ dkeys m
                · rw [if_pos hsd] at hP; simp at hP
                · rw [if_neg hsd] at hP
                  simp only [Except.ok.injEq] at hP
                  subst hP
                  refine ⟨_, by rw [dget_dset, if_pos rfl], keyed_dset ?_ _ _⟩
                  rw [dget_ddel, if_neg (by decide)] at hd
                  cases hmm : dget cfg "matrix" with
                  | none =>
                    rw [hmm] at hd
                    simp only [Option.getD_none, Yaml.dict.injEq] at hd
                    subst hd
                    simp [Keyed, dkeys]
                  | some y =>
                    rw [hmm] at hd
                    simp only [Option.getD_some] at hd
                    subst hd
                    exact hkm m hmm
      · rw [if_neg he] at hP
        subst hP
        simp only at hx hmat ⊢
        unfold expandMatrix at hx
        generalize hd : dget cfg "matrix" = o at hx
        match o, hx with
        | some (.dict m), hx => exact ⟨m, rfl, hkm m hd⟩
    obtain ⟨m, hdm, hkm'⟩ := hd
    obtain ⟨-, -, -, vals, -, ixs, -, -, hlen, hall⟩ := expandMatrix_ok hx hdm hkm'
    intro i c hc
    have hi : i < ixs.length := by
      rw [← hlen]; exact (List.getElem?_eq_some_iff.1 hc).1
    exact (hall i _ c (List.getElem?_eq_getElem hi) hc).2
  · rw [if_neg hmat] at hx
    obtain ⟨es, hes, -, -, -, hcs⟩ := expandSet_ok hx
    have hds : ∀ d ∈ es, Keyed d ∧ "out_dir" ∉ dkeys d := by
      by_cases he : "ensemble" ∈ dkeys cfg
      · rw [if_pos he] at hP
        unfold expandEnsemble at hP
        obtain ⟨y, hy⟩ := mem_dkeys.1 he
        simp only [hy] at hP
        generalize hn : y.asInt = o at hP
        cases o with
        | none => simp at hP
        | some n =>
          simp only at hP
          by_cases e1 : n = 1
          · rw [if_pos e1] at hP
            simp only [Except.ok.injEq] at hP
            subst hP
            simp only [dget_ddel] at hes
            rw [if_neg (by decide)] at hes
            intro d hd
            exact hks _ hes d (List.mem_map.2 ⟨d, hd, rfl⟩)
          · rw [if_neg e1] at hP
            by_cases hs : "set" ∈ dkeys cfg
            · simp only [hs, decide_true, if_true] at hP
              generalize hd : dget (ddel cfg "ensemble") "set" = o at hP
              match o, hP with
              | some (.list l), hP =>
                simp only at hP
                generalize hxs : expandSets seeds n.toNat 0 l = r at hP
                cases r with
                | error e => simp at hP
                | ok l' =>
                  simp only [Except.ok.injEq] at hP
                  subst hP
                  simp only [dget_dset, if_true, Option.some.injEq, Yaml.list.injEq] at hes
                  rw [dget_ddel, if_neg (by decide)] at hd
                  subst hes
                  intro d' hd'
                  by_cases hn0 : n.toNat = 0
                  · exfalso
                    have : ∀ (l l' : List Yaml), expandSets seeds n.toNat 0 l = .ok l' → l' = [] := by
                      intro l
                      induction l with
                      | nil => intro l' h; simp only [expandSets, Except.ok.injEq] at h; exact h.symm
                      | cons y ys ih =>
                        intro l' h
                        unfold expandSets at h
                        rw [if_pos hn0] at h
                        exact ih l' h
                    have := this _ _ hxs
                    simp only [List.map_eq_nil_iff] at this
                    subst this
                    simp at hd'
                  · obtain ⟨es', he1, he2, he3⟩ := expandSets_ok hn0 hxs
                    obtain ⟨q, hq, hq'⟩ := List.mem_iff_getElem.1 (List.mem_map.2 ⟨d', hd', rfl⟩ :
                      Yaml.dict d' ∈ es.map Yaml.dict)
                    have hqd : q / n.toNat < es'.length := by
                      rw [Nat.div_lt_iff_lt_mul (Nat.pos_of_ne_zero hn0), ← he2]
                      exact hq
                    have hx3 := he3 (q / n.toNat) _ (List.getElem?_eq_getElem hqd) (q % n.toNat)
                      (Nat.mod_lt _ (Nat.pos_of_ne_zero hn0))
                    rw [show q / n.toNat * n.toNat + q % n.toNat = q by
                      rw [Nat.mul_comm]; exact Nat.div_add_mod q n.toNat,
                      List.getElem?_eq_getElem hq, hq'] at hx3
                    simp only [Option.some.injEq, Yaml.dict.injEq] at hx3
                    have hmem := hks l hd es'[q / n.toNat]
                      (by rw [he1]; exact List.mem_map.2 ⟨_, List.getElem_mem hqd, rfl⟩)
                    rw [hx3]
                    refine ⟨keyed_dset hmem.1 _ _, ?_⟩
                    rw [mem_dkeys_dset, not_or]
                    exact ⟨by decide, hmem.2⟩
            · simp only [hs, decide_false, Bool.false_eq_true, if_false] at hP
              generalize hd : (dget (ddel cfg "ensemble") "matrix").getD (.dict []) = o at hP
              match o, hP with
              | .dict m, hP =>
                simp only at hP
                by_cases hsd : "seed" ∈ dkeys m
                · rw [if_pos hsd] at hP; simp at hP
                · rw [if_neg hsd] at hP
                  simp only [Except.ok.injEq] at hP
                  subst hP
                  simp at hmat
      · rw [if_neg he] at hP
        subst hP
        intro d hd
        exact hks _ hes d (List.mem_map.2 ⟨d, hd, rfl⟩)
    intro i c hc
    have hj := (setJobs (root := root) (fixed := ddel P.cfg "set") (fun d hd => (hds d hd).1))
    rw [← hcs] at hj
    have hi : i < es.length := by
      rw [← hj.1]; exact (List.getElem?_eq_some_iff.1 hc).1
    have := (hj.2 i _ c (List.getElem?_eq_getElem hi) hc).2
    rw [this]
    unfold over
    rw [dget_none.2 (hds _ (List.getElem_mem hi)).2]

/-! ## C59 -/

/-- C59: an ensemble with a set: job `i * n + j` has the parameters of set `i` and the seed of its own
draw. -/
theorem C59_set {resolve : String → D} {rt : Yaml → Yaml} {seeds : ℕ → ℕ} {F : Folders D}
    {cfg : Dict Yaml} {R : Expanded D} (h : constructFileList resolve rt seeds F cfg = .ok R)
    {y : Yaml} {n : ℤ} (he : dget cfg "ensemble" = some y) (hy : y.asInt = some n) (hn : n ≠ 1)
    {l : List Yaml} (hs : dget cfg "set" = some (.list l)) (hk : ∀ d, .dict d ∈ l → Keyed d) :
    0 < n ∧ ∃ ds : List (Dict Yaml), l = ds.map .dict ∧ R.configs.length = ds.length * n.toNat ∧
      ∀ (i : ℕ) (d : Dict Yaml), ds[i]? = some d → ∀ j, j < n.toNat →
        ∃ c, R.configs[i * n.toNat + j]? = some c ∧
          dget c "seed" = some (.scalar (.int (seeds (i * n.toNat + j)))) ∧
          ∀ k, k ≠ "seed" → k ≠ "out_dir" →
            dget c k = over (without (without (dget cfg) "ensemble") "set") (dget d) k := by
  obtain ⟨h0, P, hP, hR⟩ := construct_split h
  have hek : "ensemble" ∈ dkeys cfg := mem_dkeys.2 ⟨_, he⟩
  have hsk : "set" ∈ dkeys cfg := mem_dkeys.2 ⟨_, hs⟩
  have hmk : "matrix" ∉ dkeys cfg := fun hm => h0 ⟨hsk, hm⟩
  rw [if_pos hek] at hP
  have hd : dget (ddel cfg "ensemble") "set" = some (.list l) := by
    rw [dget_ddel, if_neg (by decide)]; exact hs
  unfold expandEnsemble at hP
  simp only [he, hy, if_neg hn, hsk, decide_true, if_true, hd] at hP
  generalize hxs : expandSets seeds n.toNat 0 l = r at hP
  cases r with
  | error e => simp at hP
  | ok l' =>
    simp only [Except.ok.injEq] at hP
    subst hP
    simp only [hmk, decide_false, Bool.or_false, Bool.true_or, Bool.true_eq_false, false_and, false_or,
      true_and, Bool.false_eq_true, if_false] at hR
    obtain ⟨F1, root, ds', hp, hx, hne, -⟩ := hR
    obtain ⟨es, hes, hes0, -, -, hcs⟩ := expandSet_ok hx
    simp only [dget_dset, if_true, Option.some.injEq, Yaml.list.injEq] at hes
    subst hes
    have hn0 : n.toNat ≠ 0 := by
      intro hn0
      have : ∀ (l l' : List Yaml), expandSets seeds n.toNat 0 l = .ok l' → l' = [] := by
        intro l
        induction l with
        | nil => intro l' h; simp only [expandSets, Except.ok.injEq] at h; exact h.symm
        | cons y ys ih =>
          intro l' h
          unfold expandSets at h
          rw [if_pos hn0] at h
          exact ih l' h
      have := this _ _ hxs
      simp only [List.map_eq_nil_iff] at this
      exact hes0 this
    obtain ⟨ds, hl, hlen, hget⟩ := expandSets_ok hn0 hxs
    refine ⟨by omega, ds, hl, ?_, ?_⟩
    · rw [hcs, jobConfigs_length, ← hlen, List.length_map]
    · intro i d hdi j hj
      have hg := hget i d hdi j hj
      rw [List.getElem?_map] at hg
      obtain ⟨e, he1, he2⟩ := Option.map_eq_some_iff.1 hg
      simp only [Yaml.dict.injEq, Nat.zero_add] at he2
      have hkd : Keyed d := hk d (by rw [hl]; exact List.mem_map.2 ⟨d, List.mem_of_getElem? hdi, rfl⟩)
      have hke : Keyed e := by rw [he2]; exact keyed_dset hkd _ _
      refine ⟨jobConfig root (ddel (dset (ddel (ddel cfg "ensemble") "set") "set"
        (.list (es.map .dict))) "set") (i * n.toNat + j) e, ?_, ?_, ?_⟩
      · rw [hcs, jobConfigs_get, he1]
        simp
      · rw [jobConfig_get hke _ (Or.inl (by decide))]
        simp [over, he2, dget_dset, seedVal]
      · intro k hk1 hk2
        rw [jobConfig_get hke _ (Or.inl hk2)]
        unfold over without
        rw [he2]
        simp only [dget_dset, dget_ddel, if_neg hk1]
        cases dget d k with
        | some v => rfl
        | none =>
          simp only
          by_cases hks : k = "set"
          · subst hks; simp
          · simp [hks]

/-- C59: an ensemble without a set: the jobs are the combinations of the matrix, if any, and of the
draws. -/
theorem C59_matrix {resolve : String → D} {rt : Yaml → Yaml} {seeds : ℕ → ℕ} {F : Folders D}
    {cfg : Dict Yaml} {R : Expanded D} (h : constructFileList resolve rt seeds F cfg = .ok R)
    {y : Yaml} {n : ℤ} (he : dget cfg "ensemble" = some y) (hy : y.asInt = some n) (hn : n ≠ 1)
    (hs : "set" ∉ dkeys cfg) {m : Dict Yaml}
    (hm : dget cfg "matrix" = some (.dict m) ∨ (dget cfg "matrix" = none ∧ m = [])) (hk : Keyed m) :
    0 < n ∧ "seed" ∉ dkeys m ∧ ∃ root vals, dget cfg "out_dir" = some (.scalar (.str root)) ∧
      Lists m vals ∧
      MatrixJobs root (without (without (dget cfg) "ensemble") "matrix")
        (vals ++ [("seed", (List.range n.toNat).map (fun j => .scalar (.int (seeds j))))]) R.configs := by
  obtain ⟨h0, P, hP, hR⟩ := construct_split h
  have hek : "ensemble" ∈ dkeys cfg := mem_dkeys.2 ⟨_, he⟩
  rw [if_pos hek] at hP
  have hd : (dget (ddel cfg "ensemble") "matrix").getD (.dict []) = .dict m := by
    rw [dget_ddel, if_neg (by decide)]
    rcases hm with hm | ⟨hm, rfl⟩ <;> simp [hm]
  unfold expandEnsemble at hP
  simp only [he, hy, if_neg hn, hs, decide_false, Bool.false_eq_true, if_false, hd] at hP
  by_cases hsd : "seed" ∈ dkeys m
  · rw [if_pos hsd] at hP; simp at hP
  rw [if_neg hsd] at hP
  simp only [Except.ok.injEq] at hP
  subst hP
  simp only [Bool.or_true, Bool.true_eq_false, false_and, false_or, true_and, if_true] at hR
  obtain ⟨F1, root, ds', hp, hx, hne, -⟩ := hR
  obtain ⟨ho, -⟩ := prepareOutput_ok hp
  simp only [dget_dset, dget_ddel] at ho
  rw [if_neg (by decide), if_neg (by decide), if_neg (by decide)] at ho
  obtain ⟨-, -, -, vals', hl, hj⟩ := expandMatrix_ok hx (by rw [dget_dset, if_pos rfl]) (keyed_dset hk _ _)
  have hvals : ∃ vals, Lists m vals ∧ vals' = vals ++
      [("seed", (List.range n.toNat).map (fun j => .scalar (.int (seeds j))))] := by
    unfold Lists at hl
    rw [dset_of_not_mem hsd, List.map_append] at hl
    obtain ⟨a, b, e, h1, h2⟩ := List.map_eq_append_iff.1 hl.symm
    refine ⟨a, h1.symm, ?_⟩
    rw [e]
    congr 1
    simp only [List.map_cons, List.map_nil, Yaml.items, seedVal] at h2
    obtain ⟨x, xs, rfl, hx1, hx2⟩ := List.map_eq_cons_iff.1 h2
    have : xs = [] := by simpa using hx2
    subst this
    obtain ⟨x1, x2⟩ := x
    simp only [Prod.mk.injEq, Option.some.injEq] at hx1
    rw [hx1.1, hx1.2]
  obtain ⟨vals, hl', rfl⟩ := hvals
  have e : dget (ddel (dset (ddel (ddel cfg "ensemble") "matrix") "matrix"
      (.dict (dset m "seed" (.list ((List.range n.toNat).map (fun j => seedVal (seeds j))))))) "matrix") =
      without (without (dget cfg) "ensemble") "matrix" := by
    funext k
    unfold without
    rw [dget_ddel, dget_dset, dget_ddel, dget_ddel]
    by_cases hkm : k = "matrix" <;> simp [hkm]
  rw [e] at hj
  refine ⟨?_, hsd, root, vals, ho, hl', hj⟩
  by_contra hneg
  have hz : n.toNat = 0 := by omega
  obtain ⟨ixs, -, hmem, hlen, -⟩ := hj
  have : ixs = [] := by
    rw [List.eq_nil_iff_forall_not_mem]
    intro ix hix
    have hch := (hmem ix).1 hix
    unfold IsChoice at hch
    rw [hz] at hch
    have hlast := List.forall₂_iff_get.1 hch
    have hl := hlast.1
    simp only [List.length_append, List.length_singleton] at hl
    have := hlast.2 vals.length (by simp) (by omega)
    simp at this
  rw [this] at hlen
  exact hne (List.length_eq_zero_iff.1 hlen)

/-- C59, full statement: all jobs of an ensemble of sets have different seeds. Proved if the draws
differ; they are drawn with replacement. -/
theorem C59_set_seeds_partial {resolve : String → D} {rt : Yaml → Yaml} {seeds : ℕ → ℕ} {F : Folders D}
    {cfg : Dict Yaml} {R : Expanded D} (h : constructFileList resolve rt seeds F cfg = .ok R)
    {y : Yaml} {n : ℤ} (he : dget cfg "ensemble" = some y) (hy : y.asInt = some n) (hn : n ≠ 1)
    {l : List Yaml} (hs : dget cfg "set" = some (.list l)) (hk : ∀ d, .dict d ∈ l → Keyed d)
    (hd : ∀ p q, p < R.configs.length → q < R.configs.length → seeds p = seeds q → p = q)
    {p q : ℕ} {c c' : Dict Yaml} (hp : R.configs[p]? = some c) (hq : R.configs[q]? = some c')
    (hpq : p ≠ q) : dget c "seed" ≠ dget c' "seed" := by
  obtain ⟨h0, ds, -, hlen, hget⟩ := C59_set h he hy hn hs hk
  have hn0 : 0 < n.toNat := by omega
  have key : ∀ (p : ℕ) (c : Dict Yaml), R.configs[p]? = some c →
      dget c "seed" = some (Yaml.scalar (.int (seeds p))) := by
    intro p c hp
    have hp' := (List.getElem?_eq_some_iff.1 hp).1
    rw [hlen] at hp'
    have hi : p / n.toNat < ds.length := (Nat.div_lt_iff_lt_mul hn0).2 hp'
    obtain ⟨c2, h1, h2, -⟩ := hget _ _ (List.getElem?_eq_getElem hi) (p % n.toNat) (Nat.mod_lt _ hn0)
    rw [show p / n.toNat * n.toNat + p % n.toNat = p by
      rw [Nat.mul_comm]; exact Nat.div_add_mod p n.toNat] at h1 h2
    rw [hp] at h1
    obtain rfl := Option.some.inj h1
    exact h2
  rw [key p c hp, key q c' hq]
  intro e
  simp only [Option.some.injEq, Yaml.scalar.injEq, Val.int.injEq, Nat.cast_inj] at e
  exact hpq (hd p q (List.getElem?_eq_some_iff.1 hp).1 (List.getElem?_eq_some_iff.1 hq).1 e)

lemma isChoice_append {V : Type*} {m : Dict (List V)} {ix : List ℕ} (h : IsChoice m ix) {a : String}
    {l : List V} {j : ℕ} (hj : j < l.length) : IsChoice (m ++ [(a, l)]) (ix ++ [j]) := by
  unfold IsChoice at *
  exact List.rel_append h (.cons hj .nil)

lemma chosen_append {V : Type*} : ∀ {m : Dict (List V)} {ix : List ℕ}, IsChoice m ix → ∀ {a : String}
    {l : List V} {j : ℕ} (k : String), chosen (m ++ [(a, l)]) (ix ++ [j]) k =
      (if k ∈ dkeys m then chosen m ix k else if a = k then l[j]? else none)
  | [], _, h, a, l, j, k => by
    cases h
    simp [chosen, dkeys]
  | (b, l') :: m, _, h, a, l, j, k => by
    cases h with
    | @cons _ i _ ix h1 h2 =>
      have ih := chosen_append h2 (a := a) (l := l) (j := j) k
      simp only [List.cons_append, chosen, ih]
      by_cases hb : b = k
      · simp [hb, dkeys]
      · have : k ∈ dkeys ((b, l') :: m) ↔ k ∈ dkeys m := by
          simp [dkeys, Ne.symm hb]
        simp [hb, this]

/-- C59: for every combination of the matrix and every draw there is exactly one job with them, and there
are no other jobs. With different draws the members for one combination thus have different seeds. -/
theorem C59_members {resolve : String → D} {rt : Yaml → Yaml} {seeds : ℕ → ℕ} {F : Folders D}
    {cfg : Dict Yaml} {R : Expanded D} (h : constructFileList resolve rt seeds F cfg = .ok R)
    {y : Yaml} {n : ℤ} (he : dget cfg "ensemble" = some y) (hy : y.asInt = some n) (hn : n ≠ 1)
    (hs : "set" ∉ dkeys cfg) {m : Dict Yaml}
    (hm : dget cfg "matrix" = some (.dict m) ∨ (dget cfg "matrix" = none ∧ m = [])) (hk : Keyed m) :
    ∃ vals, Lists m vals ∧
      R.configs.length = (vals.map (fun p => p.2.length)).prod * n.toNat ∧
      ∀ ix, IsChoice vals ix → ∀ j, j < n.toNat → ∃ (p : ℕ) (c : Dict Yaml), R.configs[p]? = some c ∧
        dget c "seed" = some (.scalar (.int (seeds j))) ∧
        ∀ k, k ≠ "seed" → k ≠ "out_dir" →
          dget c k = over (without (without (dget cfg) "ensemble") "matrix") (chosen vals ix) k := by
  obtain ⟨h0, hsd, root, vals, -, hl, ixs, hnd, hmem, hlen, hall⟩ := C59_matrix h he hy hn hs hm hk
  refine ⟨vals, hl, ?_, ?_⟩
  · have hperm : ixs.Perm (ixCombos (vals ++ [("seed", (List.range n.toNat).map
        (fun j => Yaml.scalar (.int (seeds j))))])) :=
      (List.perm_ext_iff_of_nodup hnd (nodup_ixCombos _)).2 (fun ix => by rw [hmem, mem_ixCombos])
    have hcount : ∀ v : Dict (List Yaml), (ixCombos v).length = (v.map (fun p => p.2.length)).prod := by
      intro v
      induction v with
      | nil => rfl
      | cons p v ih =>
        obtain ⟨a, l⟩ := p
        simp only [ixCombos, List.length_flatMap, List.length_map, List.map_cons, List.prod_cons, ← ih]
        simp
    rw [hlen, hperm.length_eq, hcount]
    simp
  · intro ix hix j hj
    have hch := (hmem (ix ++ [j])).2 (isChoice_append hix (by simpa using hj))
    obtain ⟨p, hp, hpe⟩ := List.mem_iff_getElem.1 hch
    have hp' : p < R.configs.length := by rw [hlen]; exact hp
    obtain ⟨hc, -⟩ := hall p _ _ (by rw [List.getElem?_eq_getElem hp, hpe])
      (List.getElem?_eq_getElem hp')
    have hks : "seed" ∉ dkeys vals := by rw [hl.keys]; exact hsd
    refine ⟨p, _, List.getElem?_eq_getElem hp', ?_, ?_⟩
    · rw [hc "seed" (by decide)]
      unfold over
      rw [chosen_append hix, if_neg hks, if_pos rfl]
      simp [hj]
    · intro k h1 h2
      rw [hc k h2]
      unfold over
      rw [chosen_append hix, if_neg (Ne.symm h1)]
      by_cases hkv : k ∈ dkeys vals
      · rw [if_pos hkv]
      · rw [if_neg hkv]
        have : chosen vals ix k = none := by
          rw [← (dictOf_get (by unfold Keyed; rw [hl.keys]; exact hk) hix).1 k, dget_none,
            (dictOf_get (by unfold Keyed; rw [hl.keys]; exact hk) hix).2]
          exact hkv
        rw [this]

/-- The limit of C59: a repeated draw makes two jobs that differ in nothing but the folder. -/
theorem C59_repeated {resolve : String → D} {rt : Yaml → Yaml} {seeds : ℕ → ℕ} {F : Folders D}
    {cfg : Dict Yaml} {R : Expanded D} (h : constructFileList resolve rt seeds F cfg = .ok R)
    {y : Yaml} {n : ℤ} (he : dget cfg "ensemble" = some y) (hy : y.asInt = some n) (hn : n ≠ 1)
    {l : List Yaml} (hs : dget cfg "set" = some (.list l)) (hk : ∀ d, .dict d ∈ l → Keyed d)
    (hd : seeds 0 = seeds 1) :
    ∃ c c', R.configs[0]? = some c ∧ R.configs[1]? = some c' ∧
      ∀ k, k ≠ "out_dir" → dget c k = dget c' k := by
  obtain ⟨h0, ds, hl, hlen, hget⟩ := C59_set h he hy hn hs hk
  have hn2 : 1 < n.toNat := by omega
  have hne : 0 < ds.length := by
    rcases multi_or_single h with hsg | ⟨ds', F1, root, P, hm', ho, hP, hx, hf, hpr, hj, hw⟩
    · have : R.configs.length = 1 := by rw [hsg]; rfl
      rw [this] at hlen
      rcases Nat.eq_zero_or_pos ds.length with hz | hz
      · rw [hz] at hlen; simp at hlen
      · exact hz
    · obtain ⟨-, P', hP', hR⟩ := construct_split h
      rcases hR with ⟨-, e⟩ | ⟨-, F1, root, ds2, -, -, hne, -⟩
      · have : R.configs.length = 1 := by rw [e]; rfl
        rw [this] at hlen
        rcases Nat.eq_zero_or_pos ds.length with hz | hz
        · rw [hz] at hlen; simp at hlen
        · exact hz
      · rcases Nat.eq_zero_or_pos ds.length with hz | hz
        · rw [hz] at hlen
          simp only [Nat.zero_mul] at hlen
          exact absurd (List.length_eq_zero_iff.1 hlen) hne
        · exact hz
  obtain ⟨c, h1, h2, h3⟩ := hget 0 _ (List.getElem?_eq_getElem hne) 0 (by omega)
  obtain ⟨c', h1', h2', h3'⟩ := hget 0 _ (List.getElem?_eq_getElem hne) 1 hn2
  simp only [Nat.zero_mul, Nat.zero_add] at h1 h2 h1' h2'
  refine ⟨c, c', h1, h1', ?_⟩
  intro k hk
  by_cases hks : k = "seed"
  · subst hks; rw [h2, h2', hd]
  · rw [h3 k hks hk, h3' k hks hk]

/-- C59: an ensemble of one is the same as none. -/
theorem C59_one {resolve : String → D} {rt : Yaml → Yaml} {seeds : ℕ → ℕ} {F : Folders D}
    {cfg : Dict Yaml} {y : Yaml} (he : dget cfg "ensemble" = some y) (hy : y.asInt = some 1) :
    constructFileList resolve rt seeds F cfg =
      constructFileList resolve rt seeds F (ddel cfg "ensemble") := by
  have hek : "ensemble" ∈ dkeys cfg := mem_dkeys.2 ⟨_, he⟩
  have hk : ∀ k, k ≠ "ensemble" → (k ∈ dkeys (ddel cfg "ensemble") ↔ k ∈ dkeys cfg) := by
    intro k hk
    rw [mem_dkeys, mem_dkeys, dget_ddel, if_neg hk]
  have hno : "ensemble" ∉ dkeys (ddel cfg "ensemble") := by
    rw [← dget_none, dget_ddel, if_pos rfl]
  have ds : decide ("set" ∈ dkeys (ddel cfg "ensemble")) = decide ("set" ∈ dkeys cfg) :=
    decide_eq_decide.2 (hk "set" (by decide))
  have dm : decide ("matrix" ∈ dkeys (ddel cfg "ensemble")) = decide ("matrix" ∈ dkeys cfg) :=
    decide_eq_decide.2 (hk "matrix" (by decide))
  unfold constructFileList prelimParse
  by_cases h0 : "set" ∈ dkeys cfg ∧ "matrix" ∈ dkeys cfg
  · rw [if_pos h0, if_pos ⟨(hk "set" (by decide)).2 h0.1, (hk "matrix" (by decide)).2 h0.2⟩]
  have h0' : ¬ ("set" ∈ dkeys (ddel cfg "ensemble") ∧ "matrix" ∈ dkeys (ddel cfg "ensemble")) :=
    fun h => h0 ⟨(hk "set" (by decide)).1 h.1, (hk "matrix" (by decide)).1 h.2⟩
  rw [if_neg h0, if_neg h0', ds, dm, decide_eq_true hek, decide_eq_false hno]
  simp only [if_true, Bool.false_eq_true, if_false, expandEnsemble, he, hy]

/-- C59: an ensemble that is not an integer, or less than one, is rejected. -/
theorem C59_rejected {resolve : String → D} {rt : Yaml → Yaml} {seeds : ℕ → ℕ} {F : Folders D}
    {cfg : Dict Yaml} {y : Yaml} (he : dget cfg "ensemble" = some y)
    (hk : ∀ m, dget cfg "matrix" = some (.dict m) → Keyed m)
    (hks : ∀ l, dget cfg "set" = some (.list l) → ∀ d, .dict d ∈ l → Keyed d)
    (hy : ∀ n, y.asInt = some n → n ≤ 0) :
    ∃ er, constructFileList resolve rt seeds F cfg = .error er := by
  cases h : constructFileList resolve rt seeds F cfg with
  | error er => exact ⟨er, rfl⟩
  | ok R =>
    exfalso
    obtain ⟨h0, P, hP, hR⟩ := construct_split h
    rw [if_pos (mem_dkeys.2 ⟨_, he⟩)] at hP
    cases hyn : y.asInt with
    | none =>
      unfold expandEnsemble at hP
      simp [he, hyn] at hP
    | some n =>
      have hn := hy n hyn
      have hn1 : n ≠ 1 := by omega
      by_cases hs : "set" ∈ dkeys cfg
      · obtain ⟨z, hz⟩ := mem_dkeys.1 hs
        unfold expandEnsemble at hP
        simp only [he, hyn, if_neg hn1, hs, decide_true, if_true, dget_ddel] at hP
        rw [if_neg (by decide), hz] at hP
        match z, hz, hP with
        | .list l, hz, hP =>
          have := (C59_set h he hyn hn1 hz (hks l hz)).1
          omega
      · cases hmm : dget cfg "matrix" with
        | none =>
          have := (C59_matrix h he hyn hn1 hs (Or.inr ⟨hmm, rfl⟩) (by simp [Keyed, dkeys])).1
          omega
        | some z =>
          unfold expandEnsemble at hP
          simp only [he, hyn, if_neg hn1, hs, decide_false, Bool.false_eq_true, if_false, dget_ddel] at hP
          rw [if_neg (by decide), hmm] at hP
          match z, hmm, hP with
          | .dict m, hmm, hP =>
            have := (C59_matrix h he hyn hn1 hs (Or.inl hmm) (hk m hmm)).1
            omega

/-! ## Accepted configurations -/

lemma writeJobs_accept {resolve : String → D} {rt : Yaml → Yaml} {resume : Bool} :
    ∀ {cs : List (Dict Yaml)} {ds : List D} {F : Folders D},
    List.Forall₂ (fun c d => folderOf resolve c = some d) cs ds →
    (resume = false → ds.Nodup ∧ ∀ d ∈ ds, F.present d = false) →
    ∃ F', writeJobs resolve rt resume F cs = .ok (F', ds)
  | _, _, F, .nil, _ => ⟨F, rfl⟩
  | c :: cs, d :: ds, F, .cons h1 h2, hp => by
    have hw : ∃ F1, writeJob resolve rt resume F c = .ok (F1, d) ∧
        ∀ x, F1.present x = true ↔ x = d ∨ F.present x = true := by
      unfold folderOf at h1
      unfold writeJob
      generalize ho : dget c "out_dir" = o at h1
      match o, h1 with
      | some (.scalar (.str p)), h1 =>
        simp only [Option.some.injEq] at h1
        subst h1
        have hne : ¬ (F.present (resolve p) = true ∧ resume = false) := by
          rintro ⟨a, b⟩
          have := (hp b).2 (resolve p) List.mem_cons_self
          rw [this] at a; exact absurd a (by simp)
        simp only [if_neg hne]
        exact ⟨_, rfl, fun x => by simp⟩
    obtain ⟨F1, hw1, hw2⟩ := hw
    have hp' : resume = false → ds.Nodup ∧ ∀ d ∈ ds, F1.present d = false := by
      intro hr
      obtain ⟨n1, n2⟩ := hp hr
      have n1 := List.nodup_cons.1 n1
      refine ⟨n1.2, ?_⟩
      intro x hx
      by_contra hc
      rcases (hw2 x).1 (by simpa using hc) with rfl | e
      · exact n1.1 hx
      · rw [n2 x (List.mem_cons_of_mem _ hx)] at e; exact absurd e (by simp)
    obtain ⟨F2, h3⟩ := writeJobs_accept (rt := rt) h2 hp'
    exact ⟨F2, by unfold writeJobs; rw [hw1]; simp only [h3]⟩

/-- Specification: the numbered paths below `root` are new and different folders. -/
def NewFolders (resolve : String → D) (F : Folders D) (root : String) : Prop :=
  F.present (resolve root) = false ∧
  (∀ i, F.present (resolve (pathJoin root (jobId i))) = false ∧
    resolve (pathJoin root (jobId i)) ≠ resolve root) ∧
  ∀ i j, resolve (pathJoin root (jobId i)) = resolve (pathJoin root (jobId j)) → i = j

lemma jobs_folders {resolve : String → D} {root : String} {fixed : Dict Yaml} {vs : List (Dict Yaml)}
    (hv : ∀ v ∈ vs, Keyed v ∧ "out_dir" ∉ dkeys v) (i : ℕ) :
    List.Forall₂ (fun c d => folderOf resolve c = some d) (jobConfigs root fixed i vs)
      ((List.range' i vs.length).map (fun j => resolve (pathJoin root (jobId j)))) := by
  induction vs generalizing i with
  | nil => exact .nil
  | cons v vs ih =>
    rw [List.length_cons, List.range'_succ, List.map_cons]
    refine .cons ?_ (ih (fun v hv' => hv v (List.mem_cons_of_mem _ hv')) (i + 1))
    have := hv v List.mem_cons_self
    unfold folderOf
    rw [jobConfig_out this.1 i this.2]

lemma write_accept {resolve : String → D} {rt : Yaml → Yaml} {F : Folders D} {cfg : Dict Yaml}
    {root : String} (ho : dget cfg "out_dir" = some (.scalar (.str root)))
    (hF : NewFolders resolve F root) {fixed : Dict Yaml} {vs : List (Dict Yaml)}
    (hv : ∀ v ∈ vs, Keyed v ∧ "out_dir" ∉ dkeys v) :
    ∃ F1 F2 ds, prepareOutput resolve F cfg = .ok (F1, root) ∧
      writeJobs resolve rt (resuming cfg) F1 (jobConfigs root fixed 0 vs) = .ok (F2, ds) := by
  have hp : prepareOutput resolve F cfg =
      .ok ({ F with present := fun d => decide (d = resolve root) || F.present d }, root) := by
    unfold prepareOutput
    rw [ho]
    have : ¬ (F.present (resolve root) = true ∧ resuming cfg = false) := by
      rw [hF.1]; simp
    simp only [if_neg this]
  obtain ⟨F2, hw⟩ := writeJobs_accept (rt := rt) (resume := resuming cfg)
    (F := { F with present := fun d => decide (d = resolve root) || F.present d })
    (jobs_folders (resolve := resolve) (root := root) (fixed := fixed) hv 0) (by
      intro _
      constructor
      · refine (List.nodup_range' ).map ?_
        intro i j hij
        exact hF.2.2 i j hij
      · intro d hd
        obtain ⟨i, -, rfl⟩ := List.mem_map.1 hd
        simp [(hF.2.1 i).1, (hF.2.1 i).2])
  exact ⟨_, F2, _, hp, hw⟩

lemma checkMatrix_accept {cfg : Dict Yaml} : ∀ {m : Dict Yaml},
    (∀ p ∈ m, (∃ l, p.2 = .list l ∧ l ≠ [] ∧ ∀ v ∈ l, v.isList = false) ∧ ':' ∉ p.1.toList ∧
      p.1 ∉ dkeys cfg) →
    ∃ vs, checkMatrix cfg m = .ok vs ∧ dkeys vs = dkeys m ∧ ∀ p ∈ vs, p.2 ≠ []
  | [], _ => ⟨[], rfl, rfl, by simp⟩
  | (k, v) :: m, h => by
    obtain ⟨⟨l, hl, hl0, hl1⟩, h2, h3⟩ := h (k, v) List.mem_cons_self
    obtain ⟨vs, e1, e2, e3⟩ := checkMatrix_accept (fun p hp => h p (List.mem_cons_of_mem _ hp))
    simp only at hl h2 h3
    subst hl
    have ha : ¬ l.any Yaml.isList = true := by
      rw [List.any_eq_true]
      rintro ⟨x, hx, hx'⟩
      rw [hl1 x hx] at hx'; exact absurd hx' (by simp)
    refine ⟨(k, l) :: vs, ?_, by simp only [dkeys, List.map_cons] at e2 ⊢; rw [e2], ?_⟩
    · unfold checkMatrix
      simp only [Yaml.items, if_neg ha, if_neg h2, if_neg h3, e1]
    · intro p hp
      rcases List.mem_cons.1 hp with rfl | hp
      · exact hl0
      · exact e3 p hp

lemma combos_ne_nil {V : Type*} : ∀ {m : Dict (List V)}, (∀ p ∈ m, p.2 ≠ []) → combos m ≠ []
  | [], _ => by simp [combos]
  | (k, l) :: m, h => by
    have h1 := combos_ne_nil (m := m) (fun p hp => h p (List.mem_cons_of_mem _ hp))
    have h2 : l ≠ [] := h (k, l) List.mem_cons_self
    obtain ⟨x, xs, rfl⟩ := List.exists_cons_of_ne_nil h2
    obtain ⟨y, ys, e⟩ := List.exists_cons_of_ne_nil h1
    simp [combos, e]

/-- C57: every matrix of non-empty lists over new keys is expanded. -/
theorem C57_accepted {resolve : String → D} {rt : Yaml → Yaml} {seeds : ℕ → ℕ} {F : Folders D}
    {cfg : Dict Yaml} {root : String} (ho : dget cfg "out_dir" = some (.scalar (.str root)))
    (hF : NewFolders resolve F root) (he : "ensemble" ∉ dkeys cfg)
    (hs : "set" ∉ dkeys cfg) {m : Dict Yaml} (hm : dget cfg "matrix" = some (.dict m)) (hk : Keyed m)
    (h0 : m ≠ []) (hv : ∀ p ∈ m, (∃ l, p.2 = .list l ∧ l ≠ [] ∧ ∀ v ∈ l, v.isList = false) ∧
      ':' ∉ p.1.toList ∧ p.1 ∉ dkeys (ddel cfg "matrix")) :
    ∃ R, constructFileList resolve rt seeds F cfg = .ok R := by
  obtain ⟨vs, e1, e2, e3⟩ := checkMatrix_accept hv
  have hmk : "matrix" ∈ dkeys cfg := mem_dkeys.2 ⟨_, hm⟩
  have hok : "out_dir" ∈ dkeys (ddel cfg "matrix") :=
    mem_dkeys.2 ⟨_, by rw [dget_ddel, if_neg (by decide)]; exact ho⟩
  have hom : "out_dir" ∉ dkeys m := by
    intro hmem
    obtain ⟨p, hp, hpe⟩ := List.mem_map.1 hmem
    exact (hv p hp).2.2 (hpe ▸ hok)
  have hvs : vs ≠ [] := by
    rintro rfl
    have := congrArg List.length e2
    simp only [dkeys, List.length_map, List.length_nil] at this
    exact h0 (List.length_eq_zero_iff.1 this.symm)
  have hkv : Keyed vs := by unfold Keyed; rw [e2]; exact hk
  have hx : expandMatrix root cfg = .ok (jobConfigs root (ddel cfg "matrix") 0 (combos vs)) := by
    unfold expandMatrix
    rw [hm]
    simp only [if_neg hom, e1]
    cases vs with
    | nil => exact absurd rfl hvs
    | cons v vs => rfl
  have hcv : ∀ v ∈ combos vs, Keyed v ∧ "out_dir" ∉ dkeys v := by
    intro v hv
    rw [combos_eq] at hv
    obtain ⟨ix, hix, rfl⟩ := List.mem_map.1 hv
    obtain ⟨-, hks⟩ := dictOf_get hkv ((mem_ixCombos _ _).1 hix)
    unfold Keyed
    rw [hks, e2]
    exact ⟨hk, hom⟩
  obtain ⟨F1, F2, ds, hp, hw⟩ := write_accept (rt := rt) ho hF (fixed := ddel cfg "matrix") hcv
  have hlen : ¬ (jobConfigs root (ddel cfg "matrix") 0 (combos vs)).length = 0 := by
    rw [jobConfigs_length]
    intro e
    exact combos_ne_nil e3 (List.length_eq_zero_iff.1 e)
  have hc : ¬ ("set" ∈ dkeys cfg ∧ "matrix" ∈ dkeys cfg) := fun h => hs h.1
  refine ⟨⟨ddel cfg "matrix", jobConfigs root (ddel cfg "matrix") 0 (combos vs), ds.map .folder, F2⟩, ?_⟩
  unfold constructFileList prelimParse
  rw [if_neg hc]
  simp only [decide_eq_false he, decide_eq_false hs, decide_eq_true hmk, Bool.false_eq_true, if_false,
    Bool.or_true, if_true, hp, hx, if_neg hlen, hw]

/-- C60: every list of sets with the same keys is expanded. -/
theorem C60_accepted {resolve : String → D} {rt : Yaml → Yaml} {seeds : ℕ → ℕ} {F : Folders D}
    {cfg : Dict Yaml} {root : String} (ho : dget cfg "out_dir" = some (.scalar (.str root)))
    (hF : NewFolders resolve F root) (he : "ensemble" ∉ dkeys cfg)
    (hmat : "matrix" ∉ dkeys cfg) {ds : List (Dict Yaml)}
    (hs : dget cfg "set" = some (.list (ds.map .dict))) (h0 : ds ≠ [])
    (hd : ∀ d ∈ ds, Keyed d ∧ "out_dir" ∉ dkeys d ∧ ∀ k ∈ dkeys d, ':' ∉ k.toList)
    (hsame : ∀ d ∈ ds, ∀ e ∈ ds, ∀ k, k ∈ dkeys d ↔ k ∈ dkeys e) :
    ∃ R, constructFileList resolve rt seeds F cfg = .ok R := by
  have hsk : "set" ∈ dkeys cfg := mem_dkeys.2 ⟨_, hs⟩
  have hcheck : ∀ ds : List (Dict Yaml), (∀ d ∈ ds, ∀ k ∈ dkeys d, ':' ∉ k.toList) →
      checkSets (ds.map .dict) = .ok ds := by
    intro ds
    induction ds with
    | nil => intro _; rfl
    | cons d ds ih =>
      intro h
      have hf : (dkeys d).find? (fun k => decide (':' ∈ k.toList)) = none := by
        rw [List.find?_eq_none]
        intro k hk
        simpa using h d List.mem_cons_self k hk
      simp only [List.map_cons, checkSets, Yaml.asDict, hf,
        ih (fun d hd => h d (List.mem_cons_of_mem _ hd))]
  have hx : expandSet root cfg = .ok (jobConfigs root (ddel cfg "set") 0 ds) := by
    unfold expandSet
    rw [hs]
    simp only [hcheck ds (fun d h => (hd d h).2.2)]
    cases ds with
    | nil => exact absurd rfl h0
    | cons d ds =>
      have ha : ds.all (fun e => sameKeys d e) = true := by
        rw [List.all_eq_true]
        intro e he
        exact sameKeys_iff.2 (hsame d List.mem_cons_self e (List.mem_cons_of_mem _ he))
      simp only [if_pos ha]
  obtain ⟨F1, F2, fs, hp, hw⟩ := write_accept (rt := rt) ho hF (fixed := ddel cfg "set")
    (fun v hv => ⟨(hd v hv).1, (hd v hv).2.1⟩)
  have hlen : ¬ (jobConfigs root (ddel cfg "set") 0 ds).length = 0 := by
    rw [jobConfigs_length]
    intro e
    exact h0 (List.length_eq_zero_iff.1 e)
  have hc : ¬ ("set" ∈ dkeys cfg ∧ "matrix" ∈ dkeys cfg) := fun h => hmat h.2
  refine ⟨⟨ddel cfg "set", jobConfigs root (ddel cfg "set") 0 ds, fs.map .folder, F2⟩, ?_⟩
  unfold constructFileList prelimParse
  rw [if_neg hc]
  simp only [decide_eq_false he, decide_eq_true hsk, decide_eq_false hmat, Bool.false_eq_true, if_false,
    Bool.or_true, Bool.true_or, Bool.or_false, if_true, hp, hx, if_neg hlen, hw]

/-! ## Examples and limits -/

/-- An empty disk. -/
def emptyDisk : Folders String := ⟨fun _ => false, fun _ => []⟩

/-- Two values of one parameter, two of another, and a fixed one. -/
def exMatrix : Dict Yaml :=
  [("out_dir", .scalar (.str "out")), ("u0", .scalar (.int 1)),
   ("matrix", .dict [("h0", .list [.scalar (.int 3), .scalar (.int 5)]),
     ("SLR", .list [.scalar (.int 0), .scalar (.int 1)])])]

/-- Two sets, each to be run three times. -/
def exSets : Dict Yaml :=
  [("out_dir", .scalar (.str "out")), ("ensemble", .scalar (.int 3)),
   ("set", .list [.dict [("h0", .scalar (.int 3))], .dict [("h0", .scalar (.int 5))]])]

example : ∃ R, constructFileList id id id emptyDisk exMatrix = .ok R ∧ R.configs.length = 4 :=
  ⟨_, rfl, rfl⟩

example : ∃ R, constructFileList id id id emptyDisk exSets = .ok R ∧ R.configs.length = 6 :=
  ⟨_, rfl, rfl⟩

/-- Sets that name the same folder. -/
def exShared (resume : Bool) : Dict Yaml :=
  [("out_dir", .scalar (.str "out")), ("resume_checkpoint", .scalar (.bool resume)),
   ("set", .list [.dict [("out_dir", .scalar (.str "a")), ("h0", .scalar (.int 3))],
     .dict [("out_dir", .scalar (.str "a")), ("h0", .scalar (.int 5))]])]

/-- The limit of C58: sets may name their folder. Two jobs then share it if the run is resumed, and the
first job loads the configuration of the second. Without resuming this is rejected. -/
theorem C58_shared :
    (∃ R, constructFileList id id id emptyDisk (exShared true) = .ok R ∧ Multi R ["a", "a"] ∧
      dget (R.disk.job "a") "h0" = some (.scalar (.int 5))) ∧
    constructFileList id id id emptyDisk (exShared false) = .error .folderExists :=
  ⟨⟨_, rfl, rfl, rfl⟩, rfl⟩

end Verif.Props
