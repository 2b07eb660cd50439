import Verif.Props.FloatRun
import Verif.Spec.Saved

/-!
# C102: output and resumed runs in rounded arithmetic
-/

set_option linter.unusedSectionVars false
set_option linter.unusedSimpArgs false

namespace Verif.Props

open Verif.Model Verif.Lemmas Verif.Spec

variable {K : Type*} [Field K] [LinearOrder K] [IsStrictOrderedRing K] [FloorRing K] {F D : Rounding K}
  {σ : Type*} {L W m : ℕ} [NeZero L] [NeZero W]

/-! ## Saves and checkpoints -/

/-- One timestep, where an error leaves everything as it is. -/
def stepTotal (F D : Rounding K) (g : Rng K σ) (P : Params L W m K) (x : State L W K × σ) :
    State L W K × σ :=
  match timestepR F D g P x.1 x.2 with
  | .ok (S, _, s) => (S, s)
  | .error _ => x

lemma iterate_steps {g : Rng K σ} {P : Params L W m K} : ∀ {n : ℕ} {S S' : State L W K} {s s' : σ}
    {ls : List (StepLog L W K)}, timestepsR F D g (List.replicate n P) S s = .ok (S', ls, s') →
    (stepTotal F D g P)^[n] (S, s) = (S', s') := by
  intro n
  induction n with
  | zero =>
    intro S S' s s' ls h
    simp only [List.replicate_zero, timestepsR, Except.ok.injEq, Prod.mk.injEq] at h
    obtain ⟨rfl, -, rfl⟩ := h
    rfl
  | succ n ih =>
    intro S S' s s' ls h
    rw [List.replicate_succ] at h
    obtain ⟨S1, l, s1, ls1, h1, h2, rfl⟩ := timestepsR_cons h
    rw [Function.iterate_succ_apply]
    have : stepTotal F D g P (S, s) = (S1, s1) := by
      unfold stepTotal
      simp only [h1]
    rw [this]
    exact ih h2

lemma timestepsR_prefix {g : Rng K σ} : ∀ {Ps Qs : List (Params L W m K)} {S S' : State L W K} {s s' : σ}
    {ls : List (StepLog L W K)}, timestepsR F D g (Ps ++ Qs) S s = .ok (S', ls, s') →
    ∃ S1 l1 s1, timestepsR F D g Ps S s = .ok (S1, l1, s1) := by
  intro Ps
  induction Ps with
  | nil => intro Qs S S' s s' ls _; exact ⟨S, [], s, rfl⟩
  | cons P Ps ih =>
    intro Qs S S' s s' ls h
    obtain ⟨S1, l, s1, ls1, h1, h2, rfl⟩ := timestepsR_cons h
    obtain ⟨S2, l2, s2, h3⟩ := ih h2
    exact ⟨S2, l :: l2, s2, by simp only [timestepsR, h1, h3]⟩

/-- The model keeps time as in `Model/Clock`. -/
structure Keeps (T : Timed (State L W K × σ) K) (M : Sim L W K σ) : Prop where
  x : T.x = (M.S, M.rng)
  time : T.time = M.S.time
  saveSince : T.saveSince = M.saveSince
  ckptSince : T.ckptSince = M.ckptSince
  saveIter : T.saveIter = M.saveIter
  saves : M.saves = T.saves.map (fun w => (w.1, ⟨w.2.1, w.2.2.1⟩))
  ckpts : List.Forall₂ (fun w c => c.time = w.1 ∧ KeepsState c w.2.1 w.2.2) T.ckpts M.ckpts
  last : M.ckpt = M.ckpts.getLast?

lemma keeps_output (cfg : OutCfg K) {T : Timed (State L W K × σ) K} {M : Sim L W K σ} (h : Keeps T M) :
    Keeps (Timed.output cfg T) (outputData cfg M) := by
  unfold Timed.output outputData
  rw [h.saveSince]
  split_ifs
  · exact ⟨h.x, h.time, rfl, h.ckptSince, by simp only [h.saveIter], by
      simp only [saveGridsAndFigs, h.saves, h.saveIter, h.time, h.x, List.map_append, List.map_cons,
        List.map_nil], h.ckpts, h.last⟩
  · exact h

lemma keeps_checkpoint (cfg : OutCfg K) {T : Timed (State L W K × σ) K} {M : Sim L W K σ} (h : Keeps T M) :
    Keeps (Timed.checkpoint cfg T) (outputCheckpoint cfg M) := by
  unfold Timed.checkpoint outputCheckpoint
  rw [h.ckptSince]
  split_ifs
  · refine ⟨h.x, h.time, h.saveSince, rfl, h.saveIter, h.saves, ?_, by simp⟩
    refine List.rel_append h.ckpts (List.Forall₂.cons ⟨?_, ?_⟩ List.Forall₂.nil)
    · exact h.time.symm
    · rw [h.x]
      exact ⟨rfl, rfl, rfl, rfl, rfl, rfl, rfl, rfl, rfl, rfl, rfl, rfl, rfl, rfl, rfl⟩
  · exact h
  · exact h

lemma keeps_start (cfg : OutCfg K) (S : State L W K) (s : σ) (h0 : S.time = 0) :
    Keeps (Timed.start cfg (S, s)) (startSim cfg S s) :=
  keeps_checkpoint cfg (keeps_output cfg ⟨rfl, h0.symm, rfl, rfl, rfl, rfl, List.Forall₂.nil, rfl⟩)

lemma keeps_run {g : Rng K σ} {cfg : OutCfg K} {P : Params L W m K} : ∀ {n : ℕ}
    {T : Timed (State L W K × σ) K} {M M' : Sim L W K σ}, Keeps T M →
    updatesR F D g cfg (List.replicate n P) M = .ok M' →
    Keeps (Timed.run D cfg P.dt (stepTotal F D g P) n T) M' := by
  intro n
  induction n with
  | zero =>
    intro T M M' hk h
    simp only [List.replicate_zero, updatesR, Except.ok.injEq] at h
    subst h
    exact hk
  | succ n ih =>
    intro T M M' hk h
    rw [List.replicate_succ] at h
    obtain ⟨M1, h1, h2⟩ := updatesR_cons h
    obtain ⟨-, S, l, s, ht, rfl⟩ := updateR_ok h1
    refine ih ?_ h2
    have hx : stepTotal F D g P T.x = (S, s) := by
      rw [hk.x]
      unfold stepTotal
      simp only [ht]
    obtain ⟨r, e⟩ := step_resultR ht
    rw [hx]
    refine keeps_checkpoint cfg (keeps_output cfg ⟨rfl, ?_, ?_, ?_, hk.saveIter, hk.saves, hk.ckpts, hk.last⟩)
    · simp only
      rw [r.time, e, hk.time]
    · simp only [hk.saveSince]
    · simp only [hk.ckptSince]

/-- The output file holds the saves so far under their numbers and nothing else. -/
structure NcOk (cfg : OutCfg K) (M : Sim L W K σ) : Prop where
  count : M.saveIter = M.saves.length
  above : ∀ i, M.saveIter ≤ i → M.nc i = none
  saved : cfg.saveNc = true → ∀ w ∈ M.saves, w.1 < M.saveIter ∧ M.nc w.1 = some w.2

lemma nc_output (cfg : OutCfg K) {M : Sim L W K σ} (h : NcOk cfg M) :
    NcOk cfg (outputCheckpoint cfg (outputData cfg M)) := by
  have h1 : NcOk cfg (outputData cfg M) := by
    unfold outputData
    split_ifs
    · constructor
      · simp only [saveGridsAndFigs, List.length_append, List.length_singleton, h.count]
      · intro i hi
        simp only [saveGridsAndFigs] at hi ⊢
        split_ifs
        · rw [Function.update_of_ne (by omega)]
          exact h.above i (by omega)
        · exact h.above i (by omega)
      · intro hc w hw
        simp only [saveGridsAndFigs, List.mem_append, List.mem_singleton, if_pos hc] at hw ⊢
        rcases hw with hw | rfl
        · obtain ⟨a, b⟩ := h.saved hc w hw
          exact ⟨by omega, by rw [Function.update_of_ne (by omega)]; exact b⟩
        · exact ⟨by simp, by simp⟩
    · exact h
  obtain ⟨-, -, -, -, a5, a6, a7, -⟩ := outputCheckpoint_frame cfg (outputData cfg M)
  constructor
  · rw [a5, a6]
    exact h1.count
  · intro i hi
    rw [a5] at hi
    rw [a7]
    exact h1.above i hi
  · intro hc w hw
    rw [a6] at hw
    rw [a5, a7]
    exact h1.saved hc w hw

lemma nc_updates {g : Rng K σ} {cfg : OutCfg K} : ∀ {Ps : List (Params L W m K)} {M M' : Sim L W K σ},
    NcOk cfg M → updatesR F D g cfg Ps M = .ok M' → NcOk cfg M' := by
  intro Ps
  induction Ps with
  | nil =>
    intro M M' hk h
    simp only [updatesR, Except.ok.injEq] at h
    subst h
    exact hk
  | cons P Ps ih =>
    intro M M' hk h
    obtain ⟨M1, h1, h2⟩ := updatesR_cons h
    obtain ⟨-, S, l, s, -, rfl⟩ := updateR_ok h1
    refine ih (M := afterStepR D cfg P.dt M S s) ?_ h2
    exact nc_output cfg (M := { M with
      S := S, rng := s, saveSince := addSinceR D P.dt M.saveSince
      ckptSince := addSinceR D P.dt M.ckptSince }) ⟨hk.count, hk.above, hk.saved⟩

/-- C102: in rounded arithmetic data are saved at the beginning and then every `k` updates, where `k` is
the number of additions of the timestep after which a clock that starts at zero reaches the interval.
Save `i` has number `i`, shows the state after `i * k` timesteps with the time of its clock, and is
record `i` of the output file, which has no other records. -/
theorem C102_saves {g : Rng K σ} {cfg : OutCfg K} {P : Params L W m K} {k : ℕ}
    (hk : Reaches D P.dt cfg.saveDt k) {S : State L W K} (h0 : S.time = 0) {s : σ} {n : ℕ}
    {M : Sim L W K σ} (h : updatesR F D g cfg (List.replicate n P) (startSim cfg S s) = .ok M) :
    M.saves.length = n / k + 1 ∧ (∀ i, n / k < i → M.nc i = none) ∧
    ∀ i ≤ n / k, ∃ S' ls s', timestepsR F D g (List.replicate (i * k) P) S s = .ok (S', ls, s') ∧
      M.saves[i]? = some (i, ⟨ticks D P.dt 0 (i * k), S'⟩) ∧
      (cfg.saveNc = true → M.nc i = some ⟨ticks D P.dt 0 (i * k), S'⟩) := by
  have hK := keeps_run (keeps_start cfg S s h0) h
  have hs := hK.saves
  rw [C96_saves hk] at hs
  have hN : NcOk cfg M := by
    refine nc_updates (nc_output cfg (M := newSim S s) ⟨rfl, fun _ _ => rfl, ?_⟩) h
    intro _ w hw
    simp [newSim] at hw
  obtain ⟨ls, hst⟩ := C102_states h
  rw [(start_frame cfg S s).1, (start_frame cfg S s).2.1] at hst
  have hlen : M.saves.length = n / k + 1 := by rw [hs]; simp
  have hpos : 0 < k := hk.1
  have hget : ∀ i ≤ n / k, ∃ S' ls s', timestepsR F D g (List.replicate (i * k) P) S s = .ok (S', ls, s') ∧
      M.saves[i]? = some (i, ⟨ticks D P.dt 0 (i * k), S'⟩) := by
    intro i hi
    have hle : i * k ≤ n := (Nat.mul_le_mul_right k hi).trans (Nat.div_mul_le_self n k)
    rw [show n = i * k + (n - i * k) by omega, List.replicate_add] at hst
    obtain ⟨S', l', s', h'⟩ := timestepsR_prefix hst
    refine ⟨S', l', s', h', ?_⟩
    rw [hs, List.map_map, List.getElem?_map, List.getElem?_range (by omega)]
    simp only [Option.map_some, Function.comp, iterate_steps h']
  refine ⟨hlen, ?_, ?_⟩
  · intro i hi
    refine hN.above i ?_
    rw [hN.count, hlen]
    omega
  · intro i hi
    obtain ⟨S', l', s', h1, h2⟩ := hget i hi
    refine ⟨S', l', s', h1, h2, fun hc => ?_⟩
    exact (hN.saved hc _ (List.mem_of_getElem? h2)).2

/-- C102: checkpoints, where they are on, are written at the beginning and then every `k` updates. Each
holds the fields after that many timesteps, the time of the clock, and the state of the generator. The
file is the last one. -/
theorem C102_checkpoints {g : Rng K σ} {cfg : OutCfg K} {P : Params L W m K} {k : ℕ}
    (hc : cfg.saveCkpt = true) (hk : Reaches D P.dt cfg.ckptDt k) {S : State L W K} (h0 : S.time = 0)
    {s : σ} {n : ℕ} {M : Sim L W K σ}
    (h : updatesR F D g cfg (List.replicate n P) (startSim cfg S s) = .ok M) :
    M.ckpts.length = n / k + 1 ∧ M.ckpt = M.ckpts.getLast? ∧
    ∀ i ≤ n / k, ∃ S' ls s' c, timestepsR F D g (List.replicate (i * k) P) S s = .ok (S', ls, s') ∧
      M.ckpts[i]? = some c ∧ c.time = ticks D P.dt 0 (i * k) ∧ KeepsState c S' s' := by
  have hK := keeps_run (keeps_start cfg S s h0) h
  have hs := hK.ckpts
  rw [C96_checkpoints hc hk] at hs
  obtain ⟨ls, hst⟩ := C102_states h
  rw [(start_frame cfg S s).1, (start_frame cfg S s).2.1] at hst
  have hlen : M.ckpts.length = n / k + 1 := by rw [← hs.length_eq]; simp
  refine ⟨hlen, hK.last, ?_⟩
  intro i hi
  have hle : i * k ≤ n := (Nat.mul_le_mul_right k hi).trans (Nat.div_mul_le_self n k)
  rw [show n = i * k + (n - i * k) by omega, List.replicate_add] at hst
  obtain ⟨S', l', s', h'⟩ := timestepsR_prefix hst
  have h1 := (List.forall₂_iff_get.1 hs).2 i (by simp; omega) (by omega)
  simp only [List.get_eq_getElem, List.getElem_map, List.getElem_range, iterate_steps h'] at h1
  exact ⟨S', l', s', M.ckpts[i], h', List.getElem?_eq_getElem _, h1.1, h1.2⟩

/-! ## Resuming -/

lemma updateR_sync (g : Rng K σ) (cfg : OutCfg K) (P : Params L W m K) (hP : 4 ≤ P.stepmax)
    {M R : Sim L W K σ} (h : Sync cfg M R) :
    ExRel (SyncStep cfg) (updateR F D g cfg P M) (updateR F D g cfg P R) := by
  obtain ⟨hp, hM, hR⟩ := h
  unfold updateR
  rw [hp.finalized]
  cases M.finalized with
  | true => rfl
  | false =>
    simp only [Bool.false_eq_true, if_false]
    have h1 := timestepR_over (F := F) (D := D) g P hP M.S R.S.qs R.S.depSand R.S.depMud hR hM M.rng
    rw [← sameFields_eq hp.fields, ← hp.rng] at h1
    rw [← hp.rng]
    generalize timestepR F D g P M.S R.rng = x at h1 ⊢
    generalize timestepR F D g P R.S R.rng = x' at h1 ⊢
    cases x with
    | error e =>
      cases x' with
      | error e' => exact congrArg CallErr.inner h1
      | ok v' => exact h1.elim
    | ok v =>
      cases x' with
      | error e' => exact h1.elim
      | ok v' =>
        obtain ⟨S1, l, s1⟩ := v
        obtain ⟨S1', l', s1'⟩ := v'
        obtain ⟨h2, h3, h4, h5⟩ := h1
        simp only at h2 h3 h4 h5 ⊢
        subst h2
        have hst : SameState S1 S1' := by rw [h5]; exact sameState_withN _ _
        have hS : ∀ (M : Sim L W K σ) S s, (afterStepR D cfg P.dt M S s).S = S :=
          fun M S s => (afterStepR_frame cfg P.dt M S s).1
        refine ⟨⟨?_, by rw [hS]; exact h3, by rw [hS]; exact h4⟩, by rw [hS, hS]; exact hst⟩
        unfold afterStepR
        refine outputCheckpoint_sync cfg (outputData_sync cfg ⟨hst.toSameFields, rfl, hp.saveIter,
          ?_, hp.finalized, hp.records⟩ hst)
        simp only
        rw [hp.saveSince]

lemma updatesR_sync (g : Rng K σ) (cfg : OutCfg K) : ∀ {Ps : List (Params L W m K)},
    (∀ P ∈ Ps, 4 ≤ P.stepmax) → ∀ {M R : Sim L W K σ}, Sync cfg M R →
    ExRel (fun M' R' => Sync cfg M' R' ∧ (Ps ≠ [] ∨ SameState M.S R.S → SameState M'.S R'.S))
      (updatesR F D g cfg Ps M) (updatesR F D g cfg Ps R) := by
  intro Ps
  induction Ps with
  | nil => intro _ M R h; exact ⟨h, fun h' => h'.elim (fun h' => absurd rfl h') id⟩
  | cons P Ps ih =>
    intro hPs M R h
    simp only [updatesR]
    have h1 := updateR_sync (F := F) (D := D) g cfg P (hPs P List.mem_cons_self) h
    generalize updateR F D g cfg P M = x at h1 ⊢
    generalize updateR F D g cfg P R = x' at h1 ⊢
    cases x with
    | error e =>
      cases x' with
      | error e' => exact h1
      | ok v' => exact h1.elim
    | ok M1 =>
      cases x' with
      | error e' => exact h1.elim
      | ok R1 =>
        have h2 := ih (fun Q hQ => hPs Q (List.mem_cons_of_mem _ hQ)) h1.1
        simp only
        generalize updatesR F D g cfg Ps M1 = y at h2 ⊢
        generalize updatesR F D g cfg Ps R1 = y' at h2 ⊢
        cases y with
        | error e =>
          cases y' with
          | error e' => exact h2
          | ok v' => exact h2.elim
        | ok M2 =>
          cases y' with
          | error e' => exact h2.elim
          | ok R2 =>
            exact ⟨h2.1, fun _ => h2.2 (Or.inr h1.2)⟩

lemma updatesR_ncols {g : Rng K σ} {cfg : OutCfg K} {Ps : List (Params L W m K)}
    (hPs : ∀ P ∈ Ps, 4 ≤ P.stepmax) {M M' : Sim L W K σ} (hM : 0 < M.S.ncols)
    (h : updatesR F D g cfg Ps M = .ok M') : 0 < M'.S.ncols := by
  have hs : Sync cfg M M :=
    ⟨⟨(sameState_withN M.S.ncols M.S).toSameFields, rfl, rfl, rfl, rfl,
      fun _ i _ => sameRecord_refl _⟩, hM, hM⟩
  have := updatesR_sync (F := F) (D := D) g cfg hPs hs
  rw [h] at this
  exact this.1.2.1

/-- C102: also in rounded arithmetic, a run resumed from a checkpoint goes through the same points as the
run that was not interrupted, number for number, if the time since the last save is a whole number in the
checkpoint. Missing: checkpoints with a fraction (`C43_truncation_witness`), the schedule of later
checkpoints (`C43_extra_checkpoint`). -/
theorem C102_resume_partial {g : Rng K σ} {cfg : OutCfg K} {Ps Qs : List (Params L W m K)}
    {S : State L W K} {s s' : σ} {M R : Sim L W K σ}
    (h : updatesR F D g cfg Ps (startSim cfg S s) = .ok M) (hPs : ∀ P ∈ Ps, 4 ≤ P.stepmax)
    (hQs : ∀ P ∈ Qs, 4 ≤ P.stepmax) (hS : 0 < S.ncols)
    (hint : ∀ x, M.saveSince = some x → pyTrunc x = x) {disk : ℕ → Option (Record L W K)}
    (hdisk : ∀ i < M.saveIter, disk i = M.nc i)
    (hl : loadCkpt cfg (some disk) (takeCkpt M) (newSim S s') = .ok R) :
    SamePoint cfg M R ∧
    ExRel (fun M' R' => SamePoint cfg M' R' ∧ (Qs ≠ [] → SameState M'.S R'.S))
      (updatesR F D g cfg Qs M) (updatesR F D g cfg Qs R) := by
  obtain ⟨e1, -, e3⟩ := start_frame cfg S s
  have hM := updatesR_ncols hPs (by rw [e1]; exact hS) h
  have hsync := load_sync hS hM (updatesR_life e3 h) hint hdisk hl
  refine ⟨hsync.1, ?_⟩
  have h1 := updatesR_sync (F := F) (D := D) g cfg hQs hsync
  generalize updatesR F D g cfg Qs M = x at h1 ⊢
  generalize updatesR F D g cfg Qs R = x' at h1 ⊢
  cases x with
  | error e =>
    cases x' with
    | error e' => exact h1
    | ok v' => exact h1.elim
  | ok v =>
    cases x' with
    | error e' => exact h1.elim
    | ok v' => exact ⟨h1.1.1, fun hq => h1.2 (Or.inl hq)⟩

/-! ## The default: checkpoints at the interval of the saves -/

/-- The checkpoint on disk was taken by a model `B` earlier in the run, just after a save. -/
structure TakenFrom (cfg : OutCfg K) (M B : Sim L W K σ) : Prop where
  file : M.ckpt = some (takeCkpt B)
  since : B.saveSince = some 0
  kept : B.saveIter ≤ M.saveIter ∧ ∀ i < B.saveIter, M.nc i = B.nc i

lemma output_default {cfg : OutCfg K} (hdt : cfg.ckptDt = cfg.saveDt) (hc : cfg.saveCkpt = true)
    {M : Sim L W K σ} (h : M.saveSince = M.ckptSince) :
    (outputCheckpoint cfg (outputData cfg M)).saveSince =
      (outputCheckpoint cfg (outputData cfg M)).ckptSince ∧
    (TakenFrom cfg (outputCheckpoint cfg (outputData cfg M)) (outputCheckpoint cfg (outputData cfg M)) ∨
      due cfg.saveDt M.saveSince = false ∧ outputCheckpoint cfg (outputData cfg M) = M) := by
  by_cases hd : due cfg.saveDt M.saveSince = true
  · have e1 : outputData cfg M =
        { saveGridsAndFigs cfg M with saveIter := M.saveIter + 1, saveSince := some 0 } := by
      unfold outputData; rw [if_pos hd]
    have hd' : due cfg.ckptDt (outputData cfg M).ckptSince = true := by
      rw [(outputData_frame cfg M).2.2.2.1, ← h, hdt]; exact hd
    have e2 : outputCheckpoint cfg (outputData cfg M) = { outputData cfg M with
        ckpt := some (takeCkpt (outputData cfg M))
        ckpts := (outputData cfg M).ckpts ++ [takeCkpt (outputData cfg M)], ckptSince := some 0 } := by
      unfold outputCheckpoint; rw [if_pos hd', if_pos hc]
    refine ⟨by rw [e2]; simp only [e1], .inl ⟨?_, ?_, le_rfl, fun _ _ => rfl⟩⟩
    · rw [takeCkpt_outputCheckpoint, e2]
    · rw [e2]; simp only [e1]
  · have e1 : outputData cfg M = M := by unfold outputData; rw [if_neg hd]
    have hd' : ¬ due cfg.ckptDt M.ckptSince = true := by rw [← h, hdt]; exact hd
    have e2 : outputCheckpoint cfg M = M := by unfold outputCheckpoint; rw [if_neg hd']
    rw [e1, e2]
    exact ⟨h, .inr ⟨by simpa using hd, rfl⟩⟩

lemma taken_default {g : Rng K σ} {cfg : OutCfg K} (hdt : cfg.ckptDt = cfg.saveDt)
    (hc : cfg.saveCkpt = true) {Ps : List (Params L W m K)} {S : State L W K} {s : σ} {M : Sim L W K σ}
    (h : updatesR F D g cfg Ps (startSim cfg S s) = .ok M) :
    M.saveSince = M.ckptSince ∧ ∃ k B, k ≤ Ps.length ∧
      updatesR F D g cfg (Ps.take k) (startSim cfg S s) = .ok B ∧ TakenFrom cfg M B := by
  induction Ps using List.reverseRecOn generalizing M with
  | nil =>
    simp only [updatesR, Except.ok.injEq] at h
    subst h
    obtain ⟨h1, h2⟩ := output_default hdt hc (M := newSim S s) rfl
    refine ⟨h1, 0, startSim cfg S s, le_rfl, rfl, ?_⟩
    rcases h2 with h2 | ⟨h2, -⟩
    · exact h2
    · cases h2
  | append_singleton Ps P ih =>
    obtain ⟨M1, h1, h2⟩ := updatesR_snoc h
    obtain ⟨i1, k, B, i2, i3, i4⟩ := ih h1
    obtain ⟨-, S1, l, s1, -, rfl⟩ := updateR_ok h2
    obtain ⟨j1, j2⟩ := output_default hdt hc (M := { M1 with
      S := S1, rng := s1, saveSince := addSinceR D P.dt M1.saveSince
      ckptSince := addSinceR D P.dt M1.ckptSince }) (by simp only; rw [i1])
    refine ⟨j1, ?_⟩
    rcases j2 with j2 | ⟨-, j2⟩
    · exact ⟨(Ps ++ [P]).length, _, le_rfl, by rw [List.take_length]; exact h, j2⟩
    · refine ⟨k, B, by rw [List.length_append]; omega, by rw [List.take_append_of_le_length i2]; exact i3, ?_⟩
      have : afterStepR D cfg P.dt M1 S1 s1 = _ := j2
      rw [this]
      exact ⟨i4.file, i4.since, i4.kept⟩

/-- C102 with the default setting (`checkpoint_dt` not given, so equal to `save_dt`): whenever a first run
stops, the checkpoint on disk can be loaded, and the resumed run, doing again the updates since the
checkpoint, is at the same point as the stopped run and stays so in all further updates. Rounding makes
no difference. -/
theorem C102_default_partial {g : Rng K σ} {cfg : OutCfg K} (hdt : cfg.ckptDt = cfg.saveDt)
    (hc : cfg.saveCkpt = true) {Ps Qs : List (Params L W m K)} {S : State L W K} {s s' : σ}
    {M : Sim L W K σ} (h : updatesR F D g cfg Ps (startSim cfg S s) = .ok M)
    (hPs : ∀ P ∈ Ps, 4 ≤ P.stepmax) (hQs : ∀ P ∈ Qs, 4 ≤ P.stepmax) (hS : 0 < S.ncols) :
    ∃ ck k B R, M.ckpt = some ck ∧ k ≤ Ps.length ∧
      updatesR F D g cfg (Ps.take k) (startSim cfg S s) = .ok B ∧ KeepsState ck B.S B.rng ∧
      loadCkpt cfg (some M.nc) ck (newSim S s') = .ok R ∧
      ExRel (fun M' R' => SamePoint cfg M' R') (updatesR F D g cfg Qs M)
        (updatesR F D g cfg (Ps.drop k ++ Qs) R) := by
  obtain ⟨-, k, B, hk, hB, hT⟩ := taken_default hdt hc h
  have h0 : (takeCkpt B).saveSince = some 0 := hT.since
  obtain ⟨R, hR⟩ : ∃ R, loadCkpt cfg (some M.nc) (takeCkpt B) (newSim S s') = .ok R := by
    unfold loadCkpt
    rw [h0]
    exact ⟨_, rfl⟩
  refine ⟨takeCkpt B, k, B, R, hT.file, hk, hB,
    ⟨rfl, rfl, rfl, rfl, rfl, rfl, rfl, rfl, rfl, rfl, rfl, rfl, rfl, rfl, rfl⟩, hR, ?_⟩
  have hrest : updatesR F D g cfg (Ps.drop k) B = .ok M := by
    rw [← updatesR_append (Qs := Ps.drop k) hB, List.take_append_drop]
    exact h
  have hsteps : ∀ P ∈ Ps.drop k ++ Qs, 4 ≤ P.stepmax := by
    intro P hP
    rcases List.mem_append.1 hP with hP | hP
    · exact hPs P (List.mem_of_mem_drop hP)
    · exact hQs P hP
  have h1 := (C102_resume_partial (Qs := Ps.drop k ++ Qs) hB
    (fun P hP => hPs P (List.mem_of_mem_take hP)) hsteps hS
    (fun x hx => by
      rw [hT.since] at hx
      simp only [Option.some.injEq] at hx
      subst hx
      exact pyTrunc_zero)
    (fun i hi => hT.kept.2 i hi) hR).2
  rw [updatesR_append hrest] at h1
  generalize updatesR F D g cfg Qs M = x at h1 ⊢
  generalize updatesR F D g cfg (Ps.drop k ++ Qs) R = x' at h1 ⊢
  cases x with
  | error e =>
    cases x' with
    | error e' => exact h1
    | ok v' => exact h1.elim
  | ok v =>
    cases x' with
    | error e' => exact h1.elim
    | ok v' => exact h1.1

/-- Ten updates of the example with timestep one half, in the arithmetic of the program: saved at updates
0, 5 and 10, a checkpoint with each, and it can be resumed. -/
theorem C102_example : ∃ M : Sim 4 3 ℚ Unit,
    updatesR single double constRng exOutDefault (List.replicate 10 exParamsHalf)
      (startSim exOutDefault exState ()) = .ok M ∧
    M.saves.length = 3 ∧ M.ckpts.length = 3 ∧ (∃ S, M.nc 1 = some ⟨5 / 2, S⟩) ∧
    ∃ ck R, M.ckpt = some ck ∧ ck.time = 5 ∧
      loadCkpt exOutDefault (some M.nc) ck (newSim exState ()) = .ok R := by
  have hFD : Within single double := within_binary _ _ (by norm_num)
  obtain ⟨e1, -, e3⟩ := start_frame exOutDefault exState ()
  have hP : ∀ P ∈ List.replicate 10 exParamsHalf, P = exParamsHalf := fun P hP => List.eq_of_mem_replicate hP
  obtain ⟨M, h⟩ := C102_accepted hFD exPositive exOutDefault (Ps := List.replicate 10 exParamsHalf) (by
      intro P h
      rw [hP P h]
      exact ⟨exSetupHalf, exSedDomainHalf, by norm_num [exParamsHalf, exParams]⟩)
    (M := startSim exOutDefault exState ()) e3 (by rw [e1]; intro c; norm_num [exState])
    (by rw [e1]; decide)
  have hr : Reaches double exParamsHalf.dt exOutDefault.saveDt 5 := by
    refine ⟨by norm_num, by decide +kernel, fun j _ hj => ?_⟩
    have : ∀ j < 5, ticks double exParamsHalf.dt 0 j < exOutDefault.saveDt := by decide +kernel
    exact this j hj
  obtain ⟨a1, -, a3⟩ := C102_saves hr rfl h
  obtain ⟨b1, b2, b3⟩ := C102_checkpoints rfl hr rfl h
  refine ⟨M, h, a1, b1, ?_, ?_⟩
  · obtain ⟨S', -, -, -, -, c⟩ := a3 1 (by norm_num)
    have e : ticks double exParamsHalf.dt 0 (1 * 5) = 5 / 2 := by decide +kernel
    rw [e] at c
    exact ⟨S', c rfl⟩
  · obtain ⟨S', -, -, c, -, c1, c2, -⟩ := b3 2 (by norm_num)
    obtain ⟨ck, -, -, R, d1, -, -, -, d2, -⟩ := C102_default_partial (Qs := []) (s' := ()) rfl rfl h
      (by intro P h'; rw [hP P h']; decide) (by simp) (by decide)
    refine ⟨ck, R, d1, ?_, d2⟩
    have e : ticks double exParamsHalf.dt 0 (2 * 5) = 5 := by decide +kernel
    rw [b2, List.getLast?_eq_getElem?, b1, show 10 / 5 + 1 - 1 = 2 from rfl, c1, Option.some.injEq] at d1
    rw [← d1, c2, e]

end Verif.Props
