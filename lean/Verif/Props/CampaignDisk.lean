import Verif.Props.Campaign

/-!
# C113: a run in several jobs, from the checkpoints that the jobs leave

A job that resumes does not find the checkpoint of the end of the job before, but the last one that was written.
-/

set_option linter.unusedSectionVars false

namespace Verif.Props

open Verif.Model Verif.Lemmas Verif.Spec

variable {K : Type*} [Field K] [LinearOrder K] [IsStrictOrderedRing K] [FloorRing K] {σ : Type*}

/-! ## Specification -/

/-- `X` is what the setting `c` is at after some jobs of any numbers of timesteps, and `f` is the checkpoint file. Each job is one of a set
of parallel jobs, which may be anything otherwise. A job that goes on finds the checkpoint and the output file as they were left. -/
inductive Left (g : Rng K σ) (parse : String → Option ℚ) (c : Setting K σ) : Sim c.L c.W K σ → Option (Ckpt c.L c.W K σ) → Prop
  | first {files : FolderFiles c.L c.W K σ} {js : List (Folder K σ × Dict Yaml)} {k n fuel u : ℕ} {cfg : Dict Yaml}
      {q : ℚ} {s s' : σ} {X : Sim c.L c.W K σ} {rs : List Report}
      (hk : js[k]? = some (⟨c, false, files⟩, cfg)) (hq : UsesIf parse (dget cfg) q)
      (hn : dget cfg "timesteps" = some (.scalar (.int n))) (hf : n ≤ fuel)
      (hx : (forkJobs (folderEngine g) parse fuel 0 js s)[k]? =
        some (.ok (some ⟨none, ⟨⟨c, false, files⟩, X⟩, s', rs, u⟩))) : Left g parse c X X.ckpt
  | next {Y : Sim c.L c.W K σ} {ck : Ckpt c.L c.W K σ} (h : Left g parse c Y (some ck))
      {js : List (Folder K σ × Dict Yaml)} {k n fuel u : ℕ} {cfg : Dict Yaml} {q : ℚ} {s s' : σ}
      {X : Sim c.L c.W K σ} {rs : List Report}
      (hk : js[k]? = some (⟨c, true, ⟨some ck, some Y.nc⟩⟩, cfg)) (hq : UsesIf parse (dget cfg) q)
      (hn : dget cfg "timesteps" = some (.scalar (.int n))) (hf : n ≤ fuel)
      (hx : (forkJobs (folderEngine g) parse fuel 0 js s)[k]? =
        some (.ok (some ⟨none, ⟨⟨c, true, ⟨some ck, some Y.nc⟩⟩, X⟩, s', rs, u⟩))) :
      Left g parse c X (X.ckpt.or (some ck))

/-! ## What updates leave -/

/-- A whole number of seconds since the last save. -/
def WholeSince {L W : ℕ} (M : Sim L W K σ) : Prop := ∀ x, M.saveSince = some x → ∃ z : ℤ, x = z

lemma pyTrunc_whole (z : ℤ) : pyTrunc (z : K) = z := by
  unfold pyTrunc
  split_ifs <;> simp

section

variable {L W m : ℕ} [NeZero L] [NeZero W]

lemma update_left {g : Rng K σ} {cfg : OutCfg K} {P : Params L W m K} {M M' : Sim L W K σ} (h : update g cfg P M = .ok M') :
    (M'.ckpt = M.ckpt ∨ M'.ckpt = some (takeCkpt M')) ∧ M.saveIter ≤ M'.saveIter ∧ (∀ i < M.saveIter, M'.nc i = M.nc i) ∧
      ((∃ z : ℤ, P.dt = z) → WholeSince M → WholeSince M') := by
  obtain ⟨-, S, l, s, -, rfl⟩ := update_ok h
  unfold afterStep
  set M1 : Sim L W K σ := { M with S := S, rng := s, saveSince := addSince P.dt M.saveSince, ckptSince := addSince P.dt M.ckptSince }
  have a : (outputData cfg M1).ckpt = M.ckpt := (outputData_frame cfg M1).2.2.2.2.1
  obtain ⟨-, -, -, b1, b2, -, b3, -⟩ := outputCheckpoint_frame cfg (outputData cfg M1)
  refine ⟨?_, ?_, ?_, ?_⟩
  · rw [takeCkpt_outputCheckpoint]
    unfold outputCheckpoint
    split_ifs
    · exact .inr rfl
    · exact .inl a
    · exact .inl a
  · rw [b2]
    unfold outputData
    split_ifs
    · exact Nat.le_succ _
    · exact le_rfl
  · intro i hi
    rw [b3]
    unfold outputData
    split_ifs
    · simp only [saveGridsAndFigs]
      split_ifs
      · rw [Function.update_of_ne (by change i ≠ M.saveIter; omega)]
      · rfl
    · rfl
  · rintro ⟨z, hz⟩ hw x hx
    rw [b1] at hx
    unfold outputData at hx
    split_ifs at hx
    · simp only [Option.some.injEq] at hx
      exact ⟨0, by rw [← hx]; simp⟩
    · change addSince P.dt M.saveSince = some x at hx
      cases hs : M.saveSince with
      | none => rw [hs] at hx; cases hx
      | some y =>
        rw [hs] at hx
        simp only [addSince, Option.some.injEq] at hx
        obtain ⟨z', rfl⟩ := hw y hs
        exact ⟨z' + z, by rw [← hx, hz]; push_cast; ring⟩

lemma updates_left {g : Rng K σ} {cfg : OutCfg K} {P : Params L W m K} : ∀ {n : ℕ} {M M' : Sim L W K σ},
    updates g cfg (List.replicate n P) M = .ok M' → M.saveIter ≤ M'.saveIter ∧ (∀ i < M.saveIter, M'.nc i = M.nc i) ∧
      ((∃ z : ℤ, P.dt = z) → WholeSince M → WholeSince M') ∧
      (M'.ckpt = M.ckpt ∨ ∃ k B, k ≤ n ∧ updates g cfg (List.replicate k P) M = .ok B ∧ M'.ckpt = some (takeCkpt B) ∧
        ∀ i < B.saveIter, M'.nc i = B.nc i)
  | 0, M, M', h => by
    simp only [List.replicate_zero, updates, Except.ok.injEq] at h
    subst h
    exact ⟨le_rfl, fun _ _ => rfl, fun _ h => h, .inl rfl⟩
  | n + 1, M, M', h => by
    rw [List.replicate_succ] at h
    simp only [updates] at h
    cases hu : update g cfg P M with
    | error e => rw [hu] at h; cases h
    | ok M1 =>
      rw [hu] at h
      obtain ⟨a1, a2, a3, a4⟩ := update_left hu
      obtain ⟨b1, b2, b3, b4⟩ := updates_left h
      refine ⟨a2.trans b1, fun i hi => by rw [b2 i (by omega), a3 i hi], fun hz hw => b3 hz (a4 hz hw), ?_⟩
      rcases b4 with b4 | ⟨k, B, hk, hB, hc, hd⟩
      · rcases a1 with a1 | a1
        · exact .inl (b4.trans a1)
        · refine .inr ⟨1, M1, by omega, ?_, b4.trans a1, b2⟩
          simp only [List.replicate_one, updates, hu]
      · refine .inr ⟨k + 1, B, by omega, ?_, hc, hd⟩
        rw [List.replicate_succ]
        simp only [updates, hu, hB]

lemma updates_timeIter {g : Rng K σ} {cfg : OutCfg K} {P : Params L W m K} : ∀ {n : ℕ} {M M' : Sim L W K σ},
    updates g cfg (List.replicate n P) M = .ok M' → M'.S.timeIter = M.S.timeIter + n
  | 0, M, M', h => by
    simp only [List.replicate_zero, updates, Except.ok.injEq] at h
    subst h
    rfl
  | n + 1, M, M', h => by
    rw [List.replicate_succ] at h
    simp only [updates] at h
    cases hu : update g cfg P M with
    | error e => rw [hu] at h; cases h
    | ok M1 =>
      rw [hu] at h
      rw [updates_timeIter h]
      obtain ⟨-, S, l, s, ht, rfl⟩ := update_ok hu
      unfold afterStep
      rw [(outputCheckpoint_frame cfg _).1, (outputData_frame cfg _).1]
      have := (C35_sums (Ps := [P]) (ls := [l]) (S := M.S) (s := M.rng) (S' := S) (s' := s) (g := g) (by simp only [timesteps, ht])).2.2
      simp only [List.length_singleton] at this
      simp only [this]
      omega

lemma start_ckpt (cfg : OutCfg K) (S : State L W K) (s : σ) :
    (startSim cfg S s).ckpt = if cfg.saveCkpt then some (takeCkpt (startSim cfg S s)) else none := by
  have h : startSim cfg S s = outputCheckpoint cfg (outputData cfg (newSim S s)) := rfl
  rw [h, takeCkpt_outputCheckpoint]
  obtain ⟨-, -, -, e1, e2, -⟩ := outputData_frame cfg (newSim S s)
  unfold outputCheckpoint
  have hd : due cfg.ckptDt (outputData cfg (newSim S s)).ckptSince = true := by
    unfold outputData
    split_ifs <;> rfl
  rw [if_pos hd]
  split_ifs
  · rfl
  · unfold outputData
    split_ifs <;> rfl

end

/-- What a job that goes on was. -/
lemma resumed_run {g : Rng K σ} (hg : PositiveDraws g) {c : Setting K σ} (hc : SoundSetting c) {N : ℕ}
    {Y : Sim c.L c.W K σ} (hY : StandsAt g c N Y) (whole : WholeSince Y)
    {disk : ℕ → Option (Record c.L c.W K)} (hdisk : ∀ i < Y.saveIter, disk i = Y.nc i)
    {parse : String → Option ℚ} {cfg : Dict Yaml} {q : ℚ} (hq : UsesIf parse (dget cfg) q) {n : ℕ}
    (hn : dget cfg "timesteps" = some (.scalar (.int n))) {fuel : ℕ} (hf : n ≤ fuel) :
    have := c.hL
    have := c.hW
    ∃ X R : Sim c.L c.W K σ, X.ckpt = none ∧ X.saveIter = Y.saveIter ∧ (c.out.saveNc = true → X.nc = disk) ∧ WholeSince X ∧
      updates g c.out (List.replicate n c.P) X = .ok R ∧
      (∀ k B, updates g c.out (List.replicate k c.P) X = .ok B → StandsAt g c (N + k) { B with finalized := true }) ∧
      (∀ {js : List (Folder K σ × Dict Yaml)} {k : ℕ}
        (_ : js[k]? = some (⟨c, true, ⟨some (takeCkpt Y), some disk⟩⟩, cfg)) {s : σ}
        {x : Except Exc (Option (Ran (FolderModel K σ) σ))}
        (_ : (forkJobs (folderEngine g) parse fuel 0 js s)[k]? = some x),
        x = .ok (some ⟨none, ⟨⟨c, true, ⟨some (takeCkpt Y), some disk⟩⟩, { R with finalized := true }⟩, R.rng,
          [⟨k, 0, 0⟩, ⟨k, 1, 0⟩, ⟨k, 2, 0⟩], n⟩)) := by
  have := c.hL
  have := c.hW
  obtain ⟨M, hM, hp, hYn⟩ := hY
  have hP : ∀ (k : ℕ), ∀ P ∈ List.replicate k c.P, 4 ≤ P.stepmax := fun k P h => by
    rw [List.eq_of_mem_replicate h]; exact hc.water.steps
  have hMn := updates_ncols (hP N) (by rw [(start_frame c.out c.S c.seeded).1]; exact hc.ncols) hM
  obtain ⟨is, js', hinv⟩ := outInv hM
  have hgo : ∀ k, ∃ M', updates g c.out (List.replicate (N + k) c.P) (startSim c.out c.S c.seeded) = .ok M' ∧
      updates g c.out (List.replicate k c.P) M = .ok M' := by
    intro k
    obtain ⟨M', hM', -⟩ := sound_updates hg hc (N + k)
    refine ⟨M', hM', ?_⟩
    rw [← updates_append hM, ← List.replicate_add]; exact hM'
  obtain ⟨x, hx⟩ : ∃ x, Y.saveSince = some x := by
    have hs := hp.saveSince
    simp only at hs
    rw [hs]
    cases hl : is.getLast? with
    | none =>
      have := hinv.sched.first
      rw [List.getLast?_eq_none_iff.1 hl] at this
      simp at this
    | some a => exact ⟨_, hinv.since a hl⟩
  obtain ⟨z, hz⟩ := whole x hx
  let Y0 : Sim c.L c.W K σ := { Y with finalized := false }
  have hl : loadCkpt c.out (some disk) (takeCkpt Y) (newSim c.S c.seeded) =
      .ok (withCkpt c.out (some disk) (takeCkpt Y) x (newSim c.S c.seeded)) := loadCkpt_ok hx
  have hx1 : (withCkpt c.out (some disk) (takeCkpt Y) x (newSim c.S c.seeded)).ckpt = none := rfl
  have hx2 : (withCkpt c.out (some disk) (takeCkpt Y) x (newSim c.S c.seeded)).saveIter = Y.saveIter := by
    simp [withCkpt, takeCkpt]
  have hx3 : c.out.saveNc = true → (withCkpt c.out (some disk) (takeCkpt Y) x (newSim c.S c.seeded)).nc = disk := by
    intro h
    simp [withCkpt, h]
  have hx4 : WholeSince (withCkpt c.out (some disk) (takeCkpt Y) x (newSim c.S c.seeded)) := by
    intro y hy
    change some (pyTrunc x) = some y at hy
    rw [hz, pyTrunc_whole, Option.some.injEq] at hy
    exact ⟨z, hy.symm⟩
  have hfin : (withCkpt c.out (some disk) (takeCkpt Y) x (newSim c.S c.seeded)).finalized = false := rfl
  generalize hX : withCkpt c.out (some disk) (takeCkpt Y) x (newSim c.S c.seeded) = X at hl hx1 hx2 hx3 hx4 hfin
  have hs1 : Sync c.out Y0 X := load_sync (M := Y0) hc.ncols hYn rfl (fun y hy => by
    obtain ⟨z', rfl⟩ := whole y hy
    exact pyTrunc_whole z') hdisk hl
  have hs0 : SamePoint c.out M Y0 := ⟨hp.fields, hp.rng, hp.saveIter, hp.saveSince, hinv.fin.symm, hp.records⟩
  have hs : Sync c.out M X := ⟨samePoint_trans hs0 hs1.1, hMn, hs1.2.2⟩
  have hk : ∀ k, ∃ B, updates g c.out (List.replicate k c.P) X = .ok B ∧ StandsAt g c (N + k) { B with finalized := true } := by
    intro k
    obtain ⟨M', hM', hgo'⟩ := hgo k
    have hu := updates_sync g c.out (hP k) hs
    rw [hgo'] at hu
    generalize hR : updates g c.out (List.replicate k c.P) X = R at hu
    match R, hu with
    | .ok R, hu => exact ⟨R, rfl, M', hM', samePoint_closed hu.1.1, hu.1.2.2⟩
  obtain ⟨R, hR, -⟩ := hk n
  refine ⟨X, R, hx1, hx2, hx3, hx4, hR, ?_, ?_⟩
  · intro k B hB
    obtain ⟨B', hB', h⟩ := hk k
    rw [hB] at hB'
    cases hB'
    exact h
  · refine (folder_job (f := ⟨c, true, ⟨some (takeCkpt Y), some disk⟩⟩) (X := X) hc.dt hfin (s := c.seeded) ?_ hq hn hf hR).1
    simp only [folderEngine, Folder.made, Folder.start, if_true, loadIn, hl]

lemma stands_timeIter {g : Rng K σ} {c : Setting K σ} {N : ℕ} {X : Sim c.L c.W K σ} (h : StandsAt g c N X) :
    X.S.timeIter = c.S.timeIter + N := by
  have := c.hL
  have := c.hW
  obtain ⟨M, hM, hp, -⟩ := h
  have h1 := hp.fields.timeIter
  simp only at h1
  rw [h1, updates_timeIter hM, (start_frame c.out c.S c.seeded).1]

/-- C113: a run in several jobs with timesteps of whole seconds, each resumed from the checkpoint that was left, whenever it was written:
at the end of each job the model is at the point of the run without a break that its number of timesteps says, and the checkpoint
file has a point of that run too.
Partial: with other timesteps see `C113_second_resume`. -/
theorem C113_left_partial {g : Rng K σ} (hg : PositiveDraws g) {c : Setting K σ} (hc : SoundSetting c) (hw : ∃ z : ℤ, c.P.dt = z)
    (hnc : c.out.saveNc = true) {parse : String → Option ℚ} {X : Sim c.L c.W K σ} {f : Option (Ckpt c.L c.W K σ)}
    (h : Left g parse c X f) :
    (∃ N, X.S.timeIter = c.S.timeIter + N ∧ StandsAt g c N X) ∧
      ∀ ck, f = some ck → ∃ N Z, ck.timeIter = c.S.timeIter + N ∧ StandsAt g c N Z ∧ ck = takeCkpt Z := by
  have := c.hL
  have := c.hW
  suffices key : (∃ N, StandsAt g c N X) ∧ ∀ ck, f = some ck → ∃ N Z, StandsAt g c N Z ∧ ck = takeCkpt Z ∧ WholeSince Z ∧
      ∀ i < Z.saveIter, X.nc i = Z.nc i by
    refine ⟨?_, fun ck hck => ?_⟩
    · obtain ⟨N, hN⟩ := key.1
      exact ⟨N, stands_timeIter hN, hN⟩
    · obtain ⟨N, Z, h1, h2, -⟩ := key.2 ck hck
      exact ⟨N, Z, by rw [h2]; exact stands_timeIter h1, h1, h2⟩
  have hstart : WholeSince (startSim c.out c.S c.seeded) := by
    intro x hx
    have : (startSim c.out c.S c.seeded).saveSince = some 0 := by
      unfold startSim
      rw [(outputCheckpoint_frame c.out _).2.2.2.1]
      rfl
    rw [this, Option.some.injEq] at hx
    exact ⟨0, by rw [← hx]; simp⟩
  have stands : ∀ k B, updates g c.out (List.replicate k c.P) (startSim c.out c.S c.seeded) = .ok B →
      StandsAt g c k { B with finalized := true } := by
    intro k B hB
    obtain ⟨M, hM, hMn⟩ := sound_updates hg hc k
    rw [hB] at hM
    cases hM
    exact ⟨B, hB, ⟨(sameState_withN B.S.ncols B.S).toSameFields, rfl, rfl, rfl, rfl, fun _ i _ => sameRecord_refl _⟩, hMn⟩
  induction h with
  | @first files js k n fuel u cfg q s s' X rs hk hq hn hf hx =>
    obtain ⟨M, hM, hMn⟩ := sound_updates hg hc n
    have hj := (folder_job (g := g) (f := ⟨c, false, files⟩) (X := startSim c.out c.S c.seeded) hc.dt
      (start_frame c.out c.S c.seeded).2.2 (s := c.seeded) (by
        simp only [folderEngine, Folder.made, Folder.start, Bool.false_eq_true, if_false]) hq hn hf hM).1 hk hx
    simp only [Except.ok.injEq, Option.some.injEq, Ran.mk.injEq, FolderModel.mk.injEq, true_and, heq_eq_eq] at hj
    obtain ⟨rfl, -⟩ := hj
    refine ⟨⟨n, stands n M hM⟩, ?_⟩
    intro ck hck
    change M.ckpt = some ck at hck
    obtain ⟨-, -, -, hl⟩ := updates_left hM
    rcases hl with hl | ⟨k', B, -, hB, hc1, hd⟩
    · have h0 := stands 0 (startSim c.out c.S c.seeded) rfl
      refine ⟨0, _, h0, ?_, hstart, ?_⟩
      · rw [hl] at hck
        rw [start_ckpt] at hck
        split_ifs at hck
        rw [← Option.some.inj hck]
        rfl
      · intro i hi
        exact (updates_left hM).2.1 i hi
    · refine ⟨k', { B with finalized := true }, stands k' B hB, ?_, (updates_left hB).2.2.1 hw hstart, hd⟩
      rw [hc1, Option.some.injEq] at hck
      exact hck.symm
  | @next Y ck hY js k n fuel u cfg q s s' X rs hk hq hn hf hx ih =>
    obtain ⟨-, ih⟩ := ih
    obtain ⟨N, Z, hZ, rfl, hZw, hZd⟩ := ih _ rfl
    obtain ⟨X0, R, e1, e2, e3, e4, hR, hst, hj⟩ := resumed_run hg hc hZ hZw hZd hq hn hf
    have hj := hj hk hx
    simp only [Except.ok.injEq, Option.some.injEq, Ran.mk.injEq, FolderModel.mk.injEq, true_and, heq_eq_eq] at hj
    obtain ⟨rfl, -⟩ := hj
    refine ⟨⟨_, hst n R hR⟩, ?_⟩
    intro ck hck
    change R.ckpt.or (some (takeCkpt Z)) = some ck at hck
    obtain ⟨-, hkeep, -, hl⟩ := updates_left hR
    rcases hl with hl | ⟨k', B, -, hB, hc1, hd⟩
    · rw [hl, e1, Option.none_or, Option.some.injEq] at hck
      refine ⟨N, Z, hZ, hck.symm, hZw, ?_⟩
      intro i hi
      change R.nc i = Z.nc i
      rw [hkeep i (by omega), e3 hnc, hZd i hi]
    · rw [hc1, Option.some_or, Option.some.injEq] at hck
      exact ⟨N + k', { B with finalized := true }, hst k' B hB, hck.symm, (updates_left hB).2.2.1 hw e4, hd⟩

/-! ## What is missing -/

section

variable {L W m : ℕ} [NeZero L] [NeZero W]

/-- C113 fails for a second resume. The first timestep of a job that was resumed is followed by a checkpoint, whenever it is, and if it is
not followed by a save, then that checkpoint has the length of that timestep in the time since the last save. A second job that goes on from there
has lost what that length has beyond whole seconds, so that it saves later. The default setting, where the checkpoints of the first job
are all made together with a save and lose nothing, is one case. -/
theorem C113_second_resume {g : Rng K σ} {cfg : OutCfg K} {P : Params L W m K} {S : State L W K} {s s' : σ}
    {disk disk' : Option (ℕ → Option (Record L W K))} {ck ck' : Ckpt L W K σ} {R R' Q : Sim L W K σ} {x : ℤ}
    (hck : ck.saveSince = some (x : K)) (hx : 0 ≤ x) (hdt : 0 ≤ P.dt) (hlate : (x : K) + P.dt < cfg.saveDt)
    (hl : loadCkpt cfg disk ck (newSim S s) = .ok R) (hc : cfg.saveCkpt = true) (hu : update g cfg P R = .ok R')
    (hf : R'.ckpt = some ck') (hl' : loadCkpt cfg disk' ck' (newSim S s') = .ok Q) :
    R'.saveSince = some (x + P.dt) ∧ Q.saveSince = some ((x : K) + ⌊P.dt⌋) ∧
      (Q.saveSince = R'.saveSince ↔ ∃ z : ℤ, P.dt = z) := by
  have h1 := (C43_extra_checkpoint hl hc hu).2
  rw [hf, Option.some.injEq] at h1
  rw [loadCkpt_ok hck, Except.ok.injEq] at hl
  have hR : R.saveSince = some (x : K) := by
    rw [← hl]
    simp only [withCkpt, pyTrunc_whole]
  have hR' : R'.saveSince = some (x + P.dt) := by
    obtain ⟨-, S1, l, s1, -, rfl⟩ := update_ok hu
    unfold afterStep
    rw [(outputCheckpoint_frame cfg _).2.2.2.1]
    unfold outputData
    rw [if_neg (by simpa [hR, addSince, due] using hlate)]
    simp only [hR, addSince]
  have hck' : ck'.saveSince = some (x + P.dt) := by rw [h1]; exact hR'
  rw [loadCkpt_ok hck', Except.ok.injEq] at hl'
  have hQ : Q.saveSince = some ((x : K) + ⌊P.dt⌋) := by
    rw [← hl']
    have h0 : (0 : K) ≤ x + P.dt := add_nonneg (by exact_mod_cast hx) hdt
    simp only [withCkpt, pyTrunc, if_pos h0, Int.floor_intCast_add, Int.cast_add]
  refine ⟨hR', hQ, ?_⟩
  rw [hR', hQ, Option.some.injEq, add_right_inj]
  constructor
  · exact fun h => ⟨_, h.symm⟩
  · rintro ⟨z, hz⟩
    rw [hz, Int.floor_intCast]

end

/-! ## Non-trivial cases -/

lemma exTwo_first_ckpt {M : Sim 4 3 ℚ Bool} (b : Bool)
    (h : updates twoRng exOutDefault (List.replicate 1 exRule) (startSim exOutDefault exState b) = .ok M) :
    M.ckpt = some (takeCkpt (exTwoStart b)) := by
  have h0 : (startSim exOutDefault exState b).saveSince = some 0 := rfl
  have h1 : (startSim exOutDefault exState b).ckptSince = some 0 := rfl
  have h2 : (startSim exOutDefault exState b).ckpt = some (takeCkpt (exTwoStart b)) := rfl
  generalize startSim exOutDefault exState b = X at h h0 h1 h2
  simp only [List.replicate_one, updates] at h
  generalize hu : update twoRng exOutDefault exRule X = u at h
  match u, h with
  | .ok M1, h =>
    obtain rfl := by simpa using h
    obtain ⟨-, S, l, s', ht, rfl⟩ := update_ok hu
    simp only [afterStep]
    unfold outputData
    rw [if_neg (by simp only [h0, addSince, due]; norm_num [exOutDefault, exRule, exParams])]
    unfold outputCheckpoint
    rw [if_neg (by simp only [h1, addSince, due]; norm_num [exOutDefault, exRule, exParams])]
    exact h2

/-- The hypotheses of `C113_left_partial` hold for the example. The first job makes one timestep and leaves the checkpoint of its start,
so that the second makes that timestep once more. -/
example (b : Bool) : (∃ z : ℤ, (exTwo b).P.dt = z) ∧ (exTwo b).out.saveNc = true ∧ SoundSetting (exTwo b) ∧
    ∃ X Y, Left twoRng (fun _ => none) (exTwo b) X (some (takeCkpt (exTwoStart b))) ∧
      Left twoRng (fun _ => none) (exTwo b) Y (Y.ckpt.or (some (takeCkpt (exTwoStart b)))) := by
  have := (exTwo b).hL
  have := (exTwo b).hW
  refine ⟨⟨1, show exRule.dt = _ by norm_num [exRule, exParams]⟩, rfl, exTwo_sound b, ?_⟩
  have hq : UsesIf (fun _ => none) (dget oneStep) 1 := Or.inl ⟨by decide +kernel, rfl⟩
  obtain ⟨M, hM, hMn⟩ := sound_updates twoPositive (exTwo_sound b) 1
  obtain ⟨hj1, -⟩ := folder_job (g := twoRng) (f := ⟨exTwo b, false, ⟨none, none⟩⟩)
    (X := startSim (exTwo b).out (exTwo b).S (exTwo b).seeded) (parse := fun _ => none) (exTwo_sound b).dt
      (start_frame (exTwo b).out (exTwo b).S (exTwo b).seeded).2.2 (s := (exTwo b).seeded) (by
        simp only [folderEngine, Folder.made, Folder.start, Bool.false_eq_true, if_false])
      (cfg := oneStep) (q := 1) (n := 1) (fuel := 1) hq rfl le_rfl hM
  obtain ⟨x, hx⟩ := fork_single (g := twoRng) (parse := fun _ => none) (fuel := 1)
    (f := ⟨exTwo b, false, ⟨none, none⟩⟩) (cfg := oneStep) (s := b) rfl
  have hx1 := hj1 (js := [(⟨exTwo b, false, ⟨none, none⟩⟩, oneStep)]) (k := 0) rfl hx
  rw [hx1] at hx
  have h1 := Left.first (js := [(⟨exTwo b, false, ⟨none, none⟩⟩, oneStep)]) (k := 0) rfl hq rfl le_rfl hx
  have hc : M.ckpt = some (takeCkpt (exTwoStart b)) := exTwo_first_ckpt (M := M) b hM
  change Left _ _ _ _ M.ckpt at h1
  rw [hc] at h1
  have hnc : ∀ i < (exTwoStart b).saveIter, M.nc i = (exTwoStart b).nc i := (updates_left (M := exTwoStart b) hM).2.1
  have hst : StandsAt twoRng (exTwo b) 0 { exTwoStart b with finalized := true } :=
    ⟨exTwoStart b, rfl, ⟨⟨rfl, rfl, rfl, rfl, rfl, rfl, rfl, rfl, rfl, rfl, rfl, rfl, rfl, rfl⟩, rfl, rfl, rfl,
      rfl, fun _ i _ => sameRecord_refl _⟩, show 0 < exState.ncols by decide⟩
  have hck : (takeCkpt (exTwoStart b)).saveSince = some 0 := rfl
  obtain ⟨X, R, -, -, -, -, hR, -, hj⟩ := resumed_run twoPositive (exTwo_sound b) hst (by
    intro x hx
    change some 0 = some x at hx
    exact ⟨0, by rw [← Option.some.inj hx]; simp⟩) (disk := M.nc) hnc (parse := fun _ => none) (cfg := oneStep) (q := 1) (n := 1)
      (fuel := 1) hq rfl le_rfl
  have hm : (folderEngine twoRng).deferred.make
      (⟨exTwo b, true, ⟨some (takeCkpt (exTwoStart b)), some M.nc⟩⟩ : Folder ℚ Bool) b =
        (.ok ⟨⟨exTwo b, true, ⟨some (takeCkpt (exTwoStart b)), some M.nc⟩⟩, withCkpt
        { (exTwo b).out with saveNc := false } none (takeCkpt (exTwoStart b)) 0 (newSim (exTwo b).S b)⟩, b) := by
    simp only [Engine.deferred, folderEngine, Folder.made, Folder.startDeferred, if_true, loadIn, loadCkpt_ok hck]
    rfl
  have hmk : ∃ j, (makeJob (folderEngine twoRng).deferred (fun _ => none) 0
      (⟨exTwo b, true, ⟨some (takeCkpt (exTwoStart b)), some M.nc⟩⟩ : Folder ℚ Bool) oneStep b).1 = .ok j := by
    unfold makeJob
    simp only [hm, duration_steps hq (n := 1) rfl]
    exact ⟨_, rfl⟩
  obtain ⟨j, hmk⟩ := hmk
  obtain ⟨y, hy⟩ := fork_single (fuel := 1) hmk
  have hy1 := hj (js := [(⟨exTwo b, true, ⟨some (takeCkpt (exTwoStart b)), some M.nc⟩⟩, oneStep)]) (k := 0) rfl hy
  rw [hy1] at hy
  exact ⟨_, _, h1, .next h1 (js := [(⟨exTwo b, true, ⟨some (takeCkpt (exTwoStart b)), some M.nc⟩⟩, oneStep)]) (k := 0) rfl hq
    rfl le_rfl hy⟩

/-- The hypotheses of `C113_second_resume` hold for the example with a timestep of one half: the time since the last save is one half, and
nothing after the second resume. -/
example : ∃ R R' Q : Sim 4 3 ℚ Unit, ∃ ck', loadCkpt exOutDefault none (takeCkpt (startSim exOutDefault exState ())) (newSim exState ()) = .ok R ∧
    update constRng exOutDefault exParamsHalf R = .ok R' ∧ R'.ckpt = some ck' ∧
    loadCkpt exOutDefault none ck' (newSim exState ()) = .ok Q ∧ R'.saveSince = some (1 / 2) ∧ Q.saveSince = some 0 := by
  have hck : (takeCkpt (startSim exOutDefault exState ())).saveSince = some (0 : ℚ) := rfl
  have hl := loadCkpt_ok (cfg := exOutDefault) (disk := none) (M := newSim exState ()) hck
  generalize hR : withCkpt exOutDefault none (takeCkpt (startSim exOutDefault exState ())) 0 (newSim exState ()) = R at hl
  have hd : ∀ c, 0 ≤ R.S.depth c := by rw [← hR]; exact fun c => show (0 : ℚ) ≤ exState.depth c by norm_num [exState]
  have hn : 0 < R.S.ncols := by rw [← hR]; exact show 0 < exState.ncols by decide
  have hf : R.finalized = false := by rw [← hR]; rfl
  obtain ⟨S1, l, s1, h1, h2⟩ := C71_update exPositive exSetupHalf exSedDomainHalf hd hn R.rng
  have hu : update constRng exOutDefault exParamsHalf R = .ok (afterStep exOutDefault exParamsHalf.dt R S1 s1) := by
    unfold update
    simp only [hf, Bool.false_eq_true, if_false, h1]
  generalize afterStep exOutDefault exParamsHalf.dt R S1 s1 = R' at hu
  have hc := (C43_extra_checkpoint hl rfl hu).2
  have key : ∀ {Q}, loadCkpt exOutDefault none (takeCkpt R') (newSim exState ()) = .ok Q → _ := fun {Q} hQ =>
    C113_second_resume (x := 0) (ck := takeCkpt (startSim exOutDefault exState ())) (by rw [hck]; norm_num) le_rfl
      (by norm_num [exParamsHalf]) (by norm_num [exParamsHalf, exOutDefault]) hl rfl hu hc hQ
  have hs : ∃ x, R'.saveSince = some x := by
    cases h : R'.saveSince with
    | some x => exact ⟨x, rfl⟩
    | none =>
      exfalso
      obtain ⟨-, S, l, s', ht, rfl⟩ := update_ok hu
      unfold afterStep at h
      rw [(outputCheckpoint_frame exOutDefault _).2.2.2.1] at h
      unfold outputData at h
      have h0 : R.saveSince = some (pyTrunc 0) := by rw [← hR]; rfl
      rw [h0] at h
      split_ifs at h
      simp [addSince] at h
  obtain ⟨x, hs⟩ := hs
  have hlq := loadCkpt_ok (cfg := exOutDefault) (disk := none) (M := newSim exState ()) (ck := takeCkpt R') hs
  obtain ⟨k1, k2, -⟩ := key hlq
  refine ⟨R, R', _, _, hl, hu, hc, hlq, ?_, ?_⟩
  · rw [k1]; norm_num [exParamsHalf]
  · rw [k2]; norm_num [exParamsHalf]

end Verif.Props
