import Verif.Spec.Disk
import Verif.Props.Resume

/-!
# C44, C45: crashes while checkpoints are written and while a run is resumed; C43 after a crash
-/

set_option linter.unusedSectionVars false
set_option linter.unusedSimpArgs false

namespace Verif.Props

open Verif.Model Verif.Lemmas Verif.Spec

section Files

variable {C R : Type*}

lemma steps_append (l l' : List (DStep C R)) (d : Disk C R) :
    steps (l ++ l') d = steps l' (steps l d) := by
  unfold steps
  exact List.foldl_append

/-! ## C44 -/

/-- C44 is false: whatever was on disk, and whatever is written, a stop while the checkpoint is being
written leaves none that can be loaded. -/
theorem C44_lost (d : Disk C R) (ck : C) :
    ∃ k ≤ (ckptSteps (R := R) ck).length, ¬ Loadable (crash k (ckptSteps ck) d) := by
  refine ⟨1, by simp [ckptSteps], ?_⟩
  rintro ⟨b, c, h1, h2⟩
  simp only [crash, ckptSteps, List.take_succ_cons, List.take_zero, steps, List.foldl_cons,
    List.foldl_nil, DStep.apply, Option.some.injEq] at h1
  subst h1
  simp [Blob.read] at h2

/-- After such a stop the model cannot be resumed at all. -/
theorem C44_lost_resume (d : Disk C R) (ck : C) (saveNc : Bool)
    (parts : List (Option (ℕ → Option R))) :
    ∃ k ≤ (ckptSteps (R := R) ck).length,
      resumeSteps saveNc parts (crash k (ckptSteps ck) d) = .error .badCheckpoint :=
  ⟨1, by simp [ckptSteps], rfl⟩

/-! ## C45 -/

/-- What an output file must hold to be carried over. -/
def outRecords (d : Disk C R) : Option (ℕ → Option R) := d.out.bind Blob.read

lemma carry_ok {parts : List (Option (ℕ → Option R))} {d : Disk C R} {n : ℕ → Option R}
    (h : outRecords d = some n) : carrySteps true parts d =
      .ok (some n, [.outMove, .outOpen] ++ parts.map .outPart ++ [.outWrite n, .oldRemove]) := by
  unfold outRecords at h
  unfold carrySteps
  cases hd : d.out with
  | none => simp [hd] at h
  | some b =>
    simp only [hd, Option.bind_some] at h
    simp only [if_true, h]

lemma steps_parts (parts : List (Option (ℕ → Option R))) (d : Disk C R) :
    (steps (parts.map DStep.outPart) d).old = d.old ∧ (steps (parts.map DStep.outPart) d).ckpt = d.ckpt := by
  unfold steps
  induction parts generalizing d with
  | nil => exact ⟨rfl, rfl⟩
  | cons p parts ih =>
    simp only [List.map_cons, List.foldl_cons]
    exact ih _

/-- C45 for one resume: whenever it stops, and whatever could be read from the unfinished copy, all
records saved before can be read. -/
theorem C45_one_crash_partial {parts : List (Option (ℕ → Option R))} {d : Disk C R}
    {n : ℕ → Option R} (h : outRecords d = some n) {o : Option (ℕ → Option R)}
    {l : List (DStep C R)} (hl : carrySteps true parts d = .ok (o, l)) (k : ℕ) :
    Holds (crash k l d) n := by
  obtain ⟨b, hb, hr⟩ : ∃ b, d.out = some b ∧ b.read = some n := by
    unfold outRecords at h
    cases hd : d.out with
    | none => simp [hd] at h
    | some b => exact ⟨b, rfl, by simpa [hd] using h⟩
  rw [carry_ok h] at hl
  simp only [Except.ok.injEq, Prod.mk.injEq] at hl
  obtain ⟨-, rfl⟩ := hl
  match k with
  | 0 => exact ⟨b, n, Or.inl hb, hr, fun _ _ h => h⟩
  | 1 =>
    refine ⟨b, n, Or.inr ?_, hr, fun _ _ h => h⟩
    simp [crash, steps, DStep.apply, hb]
  | j + 2 =>
    unfold crash
    simp only [List.cons_append, List.nil_append, List.take_succ_cons]
    have hstart : steps (.outMove :: .outOpen :: (parts.map DStep.outPart ++
        [DStep.outWrite n, DStep.oldRemove]).take j) d = steps ((parts.map DStep.outPart ++
        [DStep.outWrite n, DStep.oldRemove]).take j) ⟨d.ckpt, some (.torn none), d.out⟩ := rfl
    rw [hstart, List.take_append, steps_append, ← List.map_take]
    generalize hD : steps ((parts.take j).map DStep.outPart) ⟨d.ckpt, some (.torn none), d.out⟩ = D
    have hold : D.old = some b := by
      rw [← hD, (steps_parts _ _).1]; exact hb
    generalize j - (parts.map DStep.outPart).length = r
    match r with
    | 0 => exact ⟨b, n, Or.inr hold, hr, fun _ _ h => h⟩
    | 1 =>
      exact ⟨.whole n, n, Or.inl rfl, rfl, fun _ _ h => h⟩
    | r + 2 =>
      refine ⟨.whole n, n, Or.inl ?_, rfl, fun _ _ h => h⟩
      simp [steps, DStep.apply]

/-- A resume that is not interrupted carries all records over, unchanged, and leaves one whole file. -/
theorem C45_complete {parts : List (Option (ℕ → Option R))} {d : Disk C R}
    {n : ℕ → Option R} (h : outRecords d = some n) {o : Option (ℕ → Option R)}
    {l : List (DStep C R)} (hl : carrySteps true parts d = .ok (o, l)) :
    o = some n ∧ steps l d = ⟨d.ckpt, some (.whole n), none⟩ := by
  rw [carry_ok h] at hl
  simp only [Except.ok.injEq, Prod.mk.injEq] at hl
  obtain ⟨rfl, rfl⟩ := hl
  refine ⟨rfl, ?_⟩
  rw [steps_append, steps_append]
  generalize hD : steps (parts.map DStep.outPart) _ = D
  have := (steps_parts parts (steps [.outMove, .outOpen] d)).2
  rw [hD] at this
  simp only [steps, List.foldl_cons, List.foldl_nil, DStep.apply] at this ⊢
  rw [this]

/-- The folder after several resumes, none of them interrupted. -/
inductive Resumed : Disk C R → Disk C R → Prop
  | refl (d : Disk C R) : Resumed d d
  | step {d d' : Disk C R} {parts : List (Option (ℕ → Option R))} {o : Option (ℕ → Option R)}
      {l : List (DStep C R)} : Resumed d d' → carrySteps true parts d' = .ok (o, l) →
      Resumed d (steps l d')

/-- C45 for any number of resumes of which the last may stop at any point. Missing: a resume after one
that was interrupted (`C45_lost_rename`, `C45_lost_copy`). -/
theorem C45_resumes_partial {d d' : Disk C R} {n : ℕ → Option R} (h : outRecords d = some n)
    (hr : Resumed d d') {parts : List (Option (ℕ → Option R))} {o : Option (ℕ → Option R)}
    {l : List (DStep C R)} (hl : carrySteps true parts d' = .ok (o, l)) (k : ℕ) :
    Holds (crash k l d') n := by
  have h' : outRecords d' = some n := by
    clear hl
    induction hr with
    | refl => exact h
    | step _ hl ih =>
      rw [(C45_complete ih hl).2]
      rfl
  exact C45_one_crash_partial h' hl k

/-- A stop after the rename: the next resume starts a new, empty file, and the one after that replaces
the old file by it: no record is left. This holds for all records `n`. -/
theorem C45_lost_rename {parts parts' parts'' : List (Option (ℕ → Option R))} {d : Disk C R}
    {n : ℕ → Option R} (h : outRecords d = some n) :
    ∃ o1 o2 o3 l1 l2 l3, carrySteps true parts d = .ok (o1, l1) ∧
      carrySteps true parts' (crash 1 l1 d) = .ok (o2, l2) ∧
      carrySteps true parts'' (steps l2 (crash 1 l1 d)) = .ok (o3, l3) ∧
      (∀ i, n i ≠ none → ¬ Holds (steps l3 (steps l2 (crash 1 l1 d))) n) := by
  refine ⟨_, _, _, _, _, _, carry_ok h, rfl, carry_ok (n := fun _ => none) rfl, ?_⟩
  rintro i hi ⟨b, n', hb, hr, hn⟩
  have h3 := (C45_complete (parts := parts'') (n := fun _ => none)
    (d := steps [.outOpen, .outWrite (fun _ => none)] (crash 1
      ([.outMove, .outOpen] ++ parts.map .outPart ++ [.outWrite n, .oldRemove]) d)) rfl
    (carry_ok rfl)).2
  rw [h3] at hb
  simp only [Option.some.injEq, reduceCtorEq, or_false] at hb
  subst hb
  simp only [Blob.read, Option.some.injEq] at hr
  subst hr
  cases hni : n i with
  | none => exact hi hni
  | some r => simpa using hn i r hni

/-- A stop while copying that leaves a file from which only `n'` can be read: the next resume replaces
the old, complete file by it. -/
theorem C45_lost_copy {parts parts' : List (Option (ℕ → Option R))} {d : Disk C R}
    {n n' : ℕ → Option R} (h : outRecords d = some n) (hp : some n' ∈ parts) {i : ℕ} {r : R}
    (hi : n i = some r) (hi' : n' i = none) :
    ∃ k o1 o2 l1 l2, carrySteps true parts d = .ok (o1, l1) ∧
      carrySteps true parts' (crash k l1 d) = .ok (o2, l2) ∧
      ¬ Holds (steps l2 (crash k l1 d)) n := by
  obtain ⟨p1, p2, rfl⟩ := List.append_of_mem hp
  have hc : outRecords (crash (2 + p1.length + 1)
      ([.outMove, .outOpen] ++ (p1 ++ some n' :: p2).map .outPart ++ [.outWrite n, .oldRemove]) d) =
      some n' := by
    unfold crash
    have : ([.outMove, .outOpen] ++ (p1 ++ some n' :: p2).map .outPart ++
        [.outWrite n, .oldRemove] : List (DStep C R)).take (2 + p1.length + 1) =
        ([.outMove, .outOpen] ++ p1.map .outPart) ++ [.outPart (some n')] := by
      simp only [List.map_append, List.map_cons, List.cons_append, List.nil_append,
        List.append_assoc]
      rw [show 2 + p1.length + 1 = p1.length + 1 + 2 from by omega]
      simp only [List.take_succ_cons]
      rw [List.take_append]
      simp
    rw [this, steps_append]
    rfl
  refine ⟨2 + p1.length + 1, _, _, _, _, carry_ok h, carry_ok hc, ?_⟩
  rintro ⟨b, m, hb, hr, hn⟩
  rw [(C45_complete hc (carry_ok (parts := parts') hc)).2] at hb
  simp only [Option.some.injEq, reduceCtorEq, or_false] at hb
  subst hb
  simp only [Blob.read, Option.some.injEq] at hr
  subst hr
  rw [hn i r hi] at hi'
  exact absurd hi' (by simp)

/-- If nothing can be read from the unfinished copy, every further resume is refused and changes
nothing, so that the complete file stays. -/
theorem C45_refused {parts : List (Option (ℕ → Option R))} {d : Disk C R}
    (h : d.out = some (.torn none)) : carrySteps true parts d = .error .badOutput := by
  unfold carrySteps
  simp [h, Blob.read]

/-- Starting anew without `clobber_netcdf` where there is output is refused. -/
theorem C45_start {d : Disk C R} (h : d.out ≠ none) :
    initSteps true false d = .error .fileExists := by
  unfold initSteps
  cases hd : d.out with
  | none => exact absurd hd h
  | some b => rfl

end Files

/-! ## The files of a run -/

section Run

variable {K : Type*} [Field K] [LinearOrder K] [IsStrictOrderedRing K] [FloorRing K] {σ : Type*}
  {L W m : ℕ} [NeZero L] [NeZero W]

/-- The model before the output of an update. -/
def stepped (P : Params L W m K) (M : Sim L W K σ) (S : State L W K) (s : σ) : Sim L W K σ :=
  { M with
    S := S, rng := s, saveSince := addSince P.dt M.saveSince, ckptSince := addSince P.dt M.ckptSince }

/-- The steps on the disk do what the model of output does. -/
lemma output_disk {cfg : OutCfg K} {D : Sim L W K σ} :
    steps (outputSteps cfg D) (diskOf cfg D) =
      diskOf cfg (outputCheckpoint cfg (outputData cfg D)) := by
  have e : (outputData cfg D).ckptSince = D.ckptSince := (outputData_frame cfg D).2.2.2.1
  unfold outputSteps outputCheckpoint
  rw [e, steps_append]
  have h1 : steps (if due cfg.saveDt D.saveSince then
      if cfg.saveNc then [.outRec D.saveIter ⟨D.S.time, D.S⟩] else []
      else []) (diskOf cfg D) = diskOf cfg (outputData cfg D) := by
    unfold outputData
    by_cases hd : due cfg.saveDt D.saveSince = true
    · by_cases hn : cfg.saveNc = true
      · simp [hd, hn, steps, DStep.apply, diskOf, saveGridsAndFigs]
      · simp [hd, hn, steps, diskOf, saveGridsAndFigs]
    · simp [hd, steps]
  rw [h1]
  by_cases hd : due cfg.ckptDt D.ckptSince = true
  · by_cases hc : cfg.saveCkpt = true
    · simp [hd, hc, steps, ckptSteps, DStep.apply, diskOf]
    · simp [hd, hc, steps]
  · simp [hd, steps]

/-- A stop in the middle of the output of an update. -/
lemma output_crash {cfg : OutCfg K} {D : Sim L W K σ} (k : ℕ) :
    ((outputSteps cfg D).take k).getLast? = some .ckptOpen ∨
    (crash k (outputSteps cfg D) (diskOf cfg D)).ckpt = (diskOf cfg D).ckpt ∧
      ((crash k (outputSteps cfg D) (diskOf cfg D)).out = (diskOf cfg D).out ∨
        (crash k (outputSteps cfg D) (diskOf cfg D)).out = (diskOf cfg (outputData cfg D)).out) ∨
    crash k (outputSteps cfg D) (diskOf cfg D) =
      diskOf cfg (outputCheckpoint cfg (outputData cfg D)) := by
  by_cases hall : (outputSteps cfg D).length ≤ k
  · right; right
    unfold crash
    rw [List.take_of_length_le hall]
    exact output_disk
  · by_cases h1 : due cfg.saveDt D.saveSince = true <;> by_cases h2 : cfg.saveNc = true <;>
      by_cases h3 : due cfg.ckptDt D.ckptSince = true <;> by_cases h4 : cfg.saveCkpt = true <;>
      simp only [outputSteps, h1, h2, h3, h4, ckptSteps, if_true, if_false, Bool.false_eq_true,
        List.nil_append, List.append_nil, List.cons_append, List.length_cons, List.length_nil,
        not_le, Nat.not_lt_zero] at hall ⊢
    all_goals
      first
      | omega
      | (match k, hall with
        | 0, _ => exact Or.inr (Or.inl ⟨rfl, Or.inl rfl⟩)
        | 1, _ =>
          first
          | exact Or.inl rfl
          | (refine Or.inr (Or.inl ⟨?_, Or.inr ?_⟩) <;>
              simp [crash, steps, DStep.apply, diskOf, outputData, saveGridsAndFigs, h1, h2])
        | 2, h => first | exact Or.inl rfl | exact absurd h (by omega)
        | n + 3, h => exact absurd h (by omega))

lemma runSteps_cons {g : Rng K σ} {cfg : OutCfg K} {P : Params L W m K} {Ps : List (Params L W m K)}
    {M M1 : Sim L W K σ} (h : update g cfg P M = .ok M1) : ∃ S s,
    M1 = outputCheckpoint cfg (outputData cfg (stepped P M S s)) ∧
    runSteps g cfg (P :: Ps) M = outputSteps cfg (stepped P M S s) ++ runSteps g cfg Ps M1 := by
  obtain ⟨hf, S1, l, s1, ht, rfl⟩ := update_ok h
  refine ⟨S1, s1, rfl, ?_⟩
  rw [runSteps, if_neg (by rw [hf]; simp), ht]
  rfl

/-- The files after a stop at any point of a run: unless a checkpoint was being written, the files are
those after some of the updates, the output file perhaps one update ahead. -/
lemma run_crash {g : Rng K σ} {cfg : OutCfg K} : ∀ {Ps : List (Params L W m K)} {M0 M : Sim L W K σ},
    updates g cfg Ps M0 = .ok M → ∀ k,
    ((runSteps g cfg Ps M0).take k).getLast? = some .ckptOpen ∨
    ∃ i j Mi Mj, i ≤ j ∧ j ≤ Ps.length ∧ updates g cfg (Ps.take i) M0 = .ok Mi ∧
      updates g cfg (Ps.take j) M0 = .ok Mj ∧
      (crash k (runSteps g cfg Ps M0) (diskOf cfg M0)).ckpt = (diskOf cfg Mi).ckpt ∧
      (crash k (runSteps g cfg Ps M0) (diskOf cfg M0)).out = (diskOf cfg Mj).out := by
  intro Ps
  induction Ps with
  | nil =>
    intro M0 M h k
    exact Or.inr ⟨0, 0, M0, M0, le_refl _, le_refl _, rfl, rfl, by simp [runSteps, crash, steps],
      by simp [runSteps, crash, steps]⟩
  | cons P Ps ih =>
    intro M0 M h k
    have h' := h
    simp only [updates] at h'
    cases hu : update g cfg P M0 with
    | error e => simp [hu] at h'
    | ok M1 =>
      simp only [hu] at h'
      obtain ⟨S, s, hM1, hrs⟩ := runSteps_cons (Ps := Ps) hu
      have hdisk : diskOf cfg M0 = diskOf cfg (stepped P M0 S s) := rfl
      have hone : updates g cfg ((P :: Ps).take 1) M0 = .ok M1 := by
        simp only [List.take_succ_cons, List.take_zero, updates, hu]
      have hout : (diskOf cfg (outputData cfg (stepped P M0 S s))).out = (diskOf cfg M1).out := by
        rw [hM1]
        unfold diskOf
        rw [(outputCheckpoint_frame cfg _).2.2.2.2.2.2.1]
      rw [hrs]
      by_cases hk : k ≤ (outputSteps cfg (stepped P M0 S s)).length
      · have htake : (outputSteps cfg (stepped P M0 S s) ++ runSteps g cfg Ps M1).take k =
            (outputSteps cfg (stepped P M0 S s)).take k := List.take_append_of_le_length hk
        have hcr : crash k (outputSteps cfg (stepped P M0 S s) ++ runSteps g cfg Ps M1)
            (diskOf cfg M0) = crash k (outputSteps cfg (stepped P M0 S s))
              (diskOf cfg (stepped P M0 S s)) := by
          unfold crash
          rw [htake, hdisk]
        rw [htake, hcr]
        rcases output_crash (cfg := cfg) (D := stepped P M0 S s) k with hl | ⟨hc, ho | ho⟩ | hd
        · exact Or.inl hl
        · exact Or.inr ⟨0, 0, M0, M0, le_refl _, Nat.zero_le _, rfl, rfl, hc, ho⟩
        · exact Or.inr ⟨0, 1, M0, M1, Nat.zero_le _, by simp, rfl, hone, hc, ho.trans hout⟩
        · exact Or.inr ⟨1, 1, M1, M1, le_refl _, by simp, hone, hone, by rw [hd, hM1],
            by rw [hd, hM1]⟩
      · push Not at hk
        have htake : (outputSteps cfg (stepped P M0 S s) ++ runSteps g cfg Ps M1).take k =
            outputSteps cfg (stepped P M0 S s) ++ (runSteps g cfg Ps M1).take
              (k - (outputSteps cfg (stepped P M0 S s)).length) := by
          rw [List.take_append, List.take_of_length_le hk.le]
        have hcr : crash k (outputSteps cfg (stepped P M0 S s) ++ runSteps g cfg Ps M1)
            (diskOf cfg M0) = crash (k - (outputSteps cfg (stepped P M0 S s)).length)
              (runSteps g cfg Ps M1) (diskOf cfg M1) := by
          unfold crash
          rw [htake, steps_append, hdisk, output_disk, ← hM1]
        rw [htake, hcr]
        rcases ih h' (k - (outputSteps cfg (stepped P M0 S s)).length) with hl |
          ⟨i, j, Mi, Mj, hij, hj, hi', hj', hc, ho⟩
        · left
          rw [List.getLast?_append, hl]
          rfl
        · refine Or.inr ⟨i + 1, j + 1, Mi, Mj, by omega, by simpa using hj, ?_, ?_, hc, ho⟩
          · simp only [List.take_succ_cons, updates, hu, hi']
          · simp only [List.take_succ_cons, updates, hu, hj']

lemma updates_take {g : Rng K σ} {cfg : OutCfg K} {Ps : List (Params L W m K)} {M0 M : Sim L W K σ}
    (h : updates g cfg Ps M0 = .ok M) {i j : ℕ} (hij : i ≤ j) {Mi Mj : Sim L W K σ}
    (hi : updates g cfg (Ps.take i) M0 = .ok Mi) (hj : updates g cfg (Ps.take j) M0 = .ok Mj) :
    ∃ Qs : List (Params L W m K), updates g cfg Qs Mi = .ok Mj := by
  refine ⟨(Ps.take j).drop i, ?_⟩
  rw [← updates_append (Qs := (Ps.take j).drop i) hi, ← hj]
  congr 1
  rw [show Ps.take i = (Ps.take j).take i from by rw [List.take_take, min_eq_left hij],
    List.take_append_drop]

/-- C44 in the form in which it holds: with checkpoints on, at whatever point a run stops, unless it is
while a checkpoint is being written, a whole checkpoint is on disk, one taken at the end of one of the
updates (or of the start). Missing: a stop while one is being written (`C44_lost`). -/
theorem C44_crash_partial {g : Rng K σ} {cfg : OutCfg K} (hc : cfg.saveCkpt = true)
    {Ps : List (Params L W m K)} {S : State L W K} {s : σ} {M : Sim L W K σ}
    (h : updates g cfg Ps (startSim cfg S s) = .ok M) (k : ℕ)
    (hk : ((runSteps g cfg Ps (startSim cfg S s)).take k).getLast? ≠ some .ckptOpen) :
    ∃ i Mi, i ≤ Ps.length ∧ updates g cfg (Ps.take i) (startSim cfg S s) = .ok Mi ∧
      (crash k (runSteps g cfg Ps (startSim cfg S s)) (diskOf cfg (startSim cfg S s))).ckpt =
        some (.whole (takeCkpt Mi)) := by
  rcases run_crash h k with hl | ⟨i, j, Mi, Mj, hij, hj, hMi, hMj, hck, -⟩
  · exact absurd hl hk
  · obtain ⟨js, n, hs, -, hn, ⟨ck, hck', Mn, hMn, rfl⟩, -⟩ := (C42_schedule hMi).1 hc
    have hnle := (hs.last n hn).1
    rw [List.length_take] at hnle
    rw [List.take_take, min_eq_left (by omega)] at hMn
    refine ⟨n, Mn, by omega, hMn, ?_⟩
    rw [hck]
    simp only [diskOf, hck', Option.map_some]

/-- C43 after a crash, with the default checkpoint interval: at whatever point a run of updates `Ps`
stops, unless it is while a checkpoint is being written, it can be resumed from the files; the resumed
run, doing the missing updates, gets to the same point as a run that was not stopped, and stays there
in all further updates. -/
theorem C43_crash_partial {g : Rng K σ} {cfg : OutCfg K} (hdt : cfg.ckptDt = cfg.saveDt)
    (hc : cfg.saveCkpt = true) {Ps Qs : List (Params L W m K)} {S : State L W K} {s s' : σ}
    {M : Sim L W K σ} (h : updates g cfg Ps (startSim cfg S s) = .ok M)
    (hPs : ∀ P ∈ Ps, 4 ≤ P.stepmax) (hQs : ∀ P ∈ Qs, 4 ≤ P.stepmax) (hS : 0 < S.ncols) (k : ℕ)
    (hk : ((runSteps g cfg Ps (startSim cfg S s)).take k).getLast? ≠ some .ckptOpen)
    (parts : List (Option (ℕ → Option (Record L W K)))) :
    ∃ ck o l i R, i ≤ Ps.length ∧
      resumeSteps cfg.saveNc parts
        (crash k (runSteps g cfg Ps (startSim cfg S s)) (diskOf cfg (startSim cfg S s))) =
          .ok (ck, o, l) ∧
      loadCkpt cfg o ck (newSim S s') = .ok R ∧
      ExRel (fun M' R' => SamePoint cfg M' R') (updates g cfg Qs M)
        (updates g cfg (Ps.drop i ++ Qs) R) := by
  rcases run_crash h k with hl | ⟨i, j, Mi, Mj, hij, hj, hMi, hMj, hck, hout⟩
  · exact absurd hl hk
  · obtain ⟨js, n, hs, -, hn, ⟨ck, hck', Mn, hMn, rfl⟩, -⟩ := (C42_schedule hMi).1 hc
    have hnle := (hs.last n hn).1
    rw [List.length_take] at hnle
    rw [List.take_take, min_eq_left (by omega)] at hMn
    obtain ⟨is, js', hinv⟩ := outInv hMi
    have h0 : (takeCkpt Mn).saveSince = some 0 := by
      refine (ckpt_at_saves hdt hc hMi).2 _ ?_
      rw [hinv.ckLast] at hck'
      exact List.mem_of_getLast? hck'
    have h0' : Mn.saveSince = some 0 := h0
    have hwhole : (crash k (runSteps g cfg Ps (startSim cfg S s))
        (diskOf cfg (startSim cfg S s))).ckpt = some (.whole (takeCkpt Mn)) := by
      rw [hck]; simp only [diskOf, hck', Option.map_some]
    generalize crash k (runSteps g cfg Ps (startSim cfg S s)) (diskOf cfg (startSim cfg S s)) = D
      at hwhole hout
    obtain ⟨o, l, hres, hrec⟩ : ∃ o l, resumeSteps cfg.saveNc parts D =
        .ok (takeCkpt Mn, o, l) ∧ (cfg.saveNc = true → o = some Mj.nc) := by
      unfold resumeSteps
      simp only [hwhole, Blob.read]
      unfold carrySteps
      by_cases hnc : cfg.saveNc = true
      · simp only [hnc, if_true, hout, diskOf, Blob.read]
        exact ⟨_, _, rfl, fun _ => rfl⟩
      · simp only [hnc, if_false, Bool.false_eq_true]
        exact ⟨_, _, rfl, fun h => absurd h (by simp)⟩
    have hload : ∃ R, loadCkpt cfg (some Mj.nc) (takeCkpt Mn) (newSim S s') = .ok R ∧
        loadCkpt cfg o (takeCkpt Mn) (newSim S s') = .ok R := by
      unfold loadCkpt
      rw [h0]
      refine ⟨_, rfl, ?_⟩
      by_cases hnc : cfg.saveNc = true
      · rw [hrec hnc]
      · simp [hnc]
    obtain ⟨R, hR, hR'⟩ := hload
    refine ⟨takeCkpt Mn, o, l, n, R, by omega, hres, hR', ?_⟩
    have hrest : updates g cfg (Ps.drop n) Mn = .ok M := by
      rw [← updates_append (Qs := Ps.drop n) hMn, List.take_append_drop]
      exact h
    obtain ⟨Ts, hTs⟩ := updates_take h (by omega : n ≤ j) hMn hMj
    have hsteps : ∀ P ∈ Ps.drop n ++ Qs, 4 ≤ P.stepmax := by
      intro P hP
      rcases List.mem_append.1 hP with hP | hP
      · exact hPs P (List.mem_of_mem_drop hP)
      · exact hQs P hP
    have h1 := (C43_resume_partial (Qs := Ps.drop n ++ Qs) hMn
      (fun P hP => hPs P (List.mem_of_mem_take hP)) hsteps hS
      (fun x hx => by
        rw [h0'] at hx
        simp only [Option.some.injEq] at hx
        subst hx
        exact pyTrunc_zero)
      (fun i hi => (C40_kept hTs).2 i hi) hR).2
    rw [updates_append hrest] at h1
    generalize updates g cfg Qs M = x at h1 ⊢
    generalize updates g cfg (Ps.drop n ++ Qs) R = x' at h1 ⊢
    cases x with
    | error e =>
      cases x' with
      | error e' => exact h1
      | ok v' => exact h1.elim
    | ok v =>
      cases x' with
      | error e' => exact h1.elim
      | ok v' => exact h1.1

end Run

/-! ## Non-trivial cases -/

-- C45: a folder with two records, and a readable unfinished copy with only the first
example : outRecords (C := ℕ) ⟨none, some (.whole (fun i => if i < 2 then some i else none)), none⟩ =
    some (fun i => if i < 2 then some i else none) := rfl
example : (fun i => if i < 2 then some i else none : ℕ → Option ℕ) 1 = some 1 ∧
    (fun i => if i < 1 then some i else none : ℕ → Option ℕ) 1 = none := by decide

end Verif.Props
