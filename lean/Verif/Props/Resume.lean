import Verif.Spec.Resume
import Verif.Lemmas.Ncols
import Verif.Props.FigName

/-!
# C43: resuming from a checkpoint
-/

set_option linter.unusedSectionVars false
set_option linter.unusedSimpArgs false

namespace Verif.Props

open Verif.Model Verif.Lemmas Verif.Spec

variable {K : Type*} [Field K] [LinearOrder K] [IsStrictOrderedRing K] [FloorRing K] {σ : Type*}
variable {L W m : ℕ} [NeZero L] [NeZero W]

lemma sameFields_over (q a b : Grid L W K) (n : ℕ) (S : State L W K) : SameFields S (over q a b n S) :=
  ⟨rfl, rfl, rfl, rfl, rfl, rfl, rfl, rfl, rfl, rfl, rfl, rfl, rfl, rfl⟩

lemma sameState_withN (n : ℕ) (S : State L W K) : SameState S (withN n S) :=
  ⟨⟨rfl, rfl, rfl, rfl, rfl, rfl, rfl, rfl, rfl, rfl, rfl, rfl, rfl, rfl⟩, rfl, rfl, rfl⟩

lemma sameRecord_refl (r : Option (Record L W K)) : SameRecord r r := by
  cases r with
  | none => trivial
  | some r => exact ⟨rfl, sameState_withN r.state.ncols r.state⟩

lemma sameFields_eq {S S' : State L W K} (h : SameFields S S') :
    S' = over S'.qs S'.depSand S'.depMud S'.ncols S := by
  cases S; cases S'
  obtain ⟨h1, h2, h3, h4, h5, h6, h7, h8, h9, h10, h11, h12, h13, h14⟩ := h
  simp only at h1 h2 h3 h4 h5 h6 h7 h8 h9 h10 h11 h12 h13 h14
  subst h1 h2 h3 h4 h5 h6 h7 h8 h9 h10 h11 h12 h13 h14
  rfl

/-- Two models at the same point with usable path records. -/
def Sync (cfg : OutCfg K) (M R : Sim L W K σ) : Prop :=
  SamePoint cfg M R ∧ 0 < M.S.ncols ∧ 0 < R.S.ncols

/-- Two models at the same point save the same at the same moments. -/
lemma outputData_sync (cfg : OutCfg K) {M R : Sim L W K σ} (h : SamePoint cfg M R)
    (hS : SameState M.S R.S) : SamePoint cfg (outputData cfg M) (outputData cfg R) := by
  unfold outputData
  rw [h.saveSince]
  split_ifs
  · refine ⟨h.fields, h.rng, by simp only; rw [h.saveIter], rfl, h.finalized, ?_⟩
    intro hc i hi
    simp only [saveGridsAndFigs, hc, if_true] at hi ⊢
    rw [h.saveIter]
    by_cases hi' : i = M.saveIter
    · subst hi'
      simp only [Function.update_self]
      exact ⟨h.fields.time, hS⟩
    · rw [Function.update_of_ne hi', Function.update_of_ne hi']
      exact h.records hc i (by omega)
  · exact h

lemma outputCheckpoint_sync (cfg : OutCfg K) {M R : Sim L W K σ} (h : SamePoint cfg M R) :
    SamePoint cfg (outputCheckpoint cfg M) (outputCheckpoint cfg R) := by
  obtain ⟨a1, a2, a3, a4, a5, a6, a7, a8⟩ := outputCheckpoint_frame cfg M
  obtain ⟨b1, b2, b3, b4, b5, b6, b7, b8⟩ := outputCheckpoint_frame cfg R
  refine ⟨by rw [a1, b1]; exact h.fields, by rw [a2, b2]; exact h.rng, by rw [a5, b5]; exact h.saveIter,
    by rw [a4, b4]; exact h.saveSince, by rw [a3, b3]; exact h.finalized, fun hc i hi => ?_⟩
  rw [a7, b7]
  rw [a5] at hi
  exact h.records hc i hi

/-- Both at the same point, and the last timestep had the same results. -/
def SyncStep (cfg : OutCfg K) (M R : Sim L W K σ) : Prop := Sync cfg M R ∧ SameState M.S R.S

lemma update_sync (g : Rng K σ) (cfg : OutCfg K) (P : Params L W m K) (hP : 4 ≤ P.stepmax)
    {M R : Sim L W K σ} (h : Sync cfg M R) :
    ExRel (SyncStep cfg) (update g cfg P M) (update g cfg P R) := by
  obtain ⟨hp, hM, hR⟩ := h
  unfold update
  rw [hp.finalized]
  cases M.finalized with
  | true => rfl
  | false =>
    simp only [Bool.false_eq_true, if_false]
    have h1 := timestep_over g P hP M.S R.S.qs R.S.depSand R.S.depMud hR hM M.rng
    rw [← sameFields_eq hp.fields, ← hp.rng] at h1
    rw [← hp.rng]
    generalize timestep g P M.S R.rng = x at h1 ⊢
    generalize timestep g P R.S R.rng = x' at h1 ⊢
    cases x with
    | error e =>
      cases x' with
      | error e' => exact congrArg CallErr.inner h1
      | ok v' => exact h1.elim
    | ok v =>
      cases x' with
      | error e' => exact h1.elim
      | ok v' =>
        obtain ⟨S1, l, s1⟩ := v
        obtain ⟨S1', l', s1'⟩ := v'
        obtain ⟨h2, h3, h4, h5⟩ := h1
        simp only at h2 h3 h4 h5 ⊢
        subst h2
        have hst : SameState S1 S1' := by rw [h5]; exact sameState_withN _ _
        have hS : ∀ (M : Sim L W K σ) S s, (afterStep cfg P.dt M S s).S = S := by
          intro M S s
          unfold afterStep
          rw [(outputCheckpoint_frame cfg _).1, (outputData_frame cfg _).1]
        refine ⟨⟨?_, by rw [hS]; exact h3, by rw [hS]; exact h4⟩, by rw [hS, hS]; exact hst⟩
        unfold afterStep
        refine outputCheckpoint_sync cfg (outputData_sync cfg ⟨hst.toSameFields, rfl, hp.saveIter,
          ?_, hp.finalized, hp.records⟩ hst)
        simp only
        rw [hp.saveSince]

/-- Two models at the same point stay so in all later updates, or raise the same error. -/
lemma updates_sync (g : Rng K σ) (cfg : OutCfg K) : ∀ {Ps : List (Params L W m K)},
    (∀ P ∈ Ps, 4 ≤ P.stepmax) → ∀ {M R : Sim L W K σ}, Sync cfg M R →
    ExRel (fun M' R' => Sync cfg M' R' ∧ (Ps ≠ [] ∨ SameState M.S R.S → SameState M'.S R'.S))
      (updates g cfg Ps M) (updates g cfg Ps R) := by
  intro Ps
  induction Ps with
  | nil => intro _ M R h; exact ⟨h, fun h' => h'.elim (fun h' => absurd rfl h') id⟩
  | cons P Ps ih =>
    intro hPs M R h
    simp only [updates]
    have h1 := update_sync g cfg P (hPs P List.mem_cons_self) h
    generalize update g cfg P M = x at h1 ⊢
    generalize update g cfg P R = x' at h1 ⊢
    cases x with
    | error e =>
      cases x' with
      | error e' => exact h1
      | ok v' => exact h1.elim
    | ok M1 =>
      cases x' with
      | error e' => exact h1.elim
      | ok R1 =>
        have h2 := ih (fun Q hQ => hPs Q (List.mem_cons_of_mem _ hQ)) h1.1
        simp only
        generalize updates g cfg Ps M1 = y at h2 ⊢
        generalize updates g cfg Ps R1 = y' at h2 ⊢
        cases y with
        | error e =>
          cases y' with
          | error e' => exact h2
          | ok v' => exact h2.elim
        | ok M2 =>
          cases y' with
          | error e' => exact h2.elim
          | ok R2 =>
            exact ⟨h2.1, fun _ => h2.2 (Or.inr h1.2)⟩

lemma updates_ncols {g : Rng K σ} {cfg : OutCfg K} : ∀ {Ps : List (Params L W m K)},
    (∀ P ∈ Ps, 4 ≤ P.stepmax) → ∀ {M M' : Sim L W K σ}, 0 < M.S.ncols →
    updates g cfg Ps M = .ok M' → 0 < M'.S.ncols := by
  intro Ps hPs M M' hM h
  have hs : Sync cfg M M :=
    ⟨⟨(sameState_withN M.S.ncols M.S).toSameFields, rfl, rfl, rfl, rfl,
      fun _ i _ => sameRecord_refl _⟩, hM, hM⟩
  have := updates_sync g cfg hPs hs
  rw [h] at this
  exact this.1.2.1

/-- A model loaded from a checkpoint is at the point where the checkpoint was taken, if the time since
the last save is a whole number and the records on disk are those saved so far. -/
lemma load_sync {cfg : OutCfg K} {M R : Sim L W K σ} {S : State L W K} {s : σ}
    {disk : ℕ → Option (Record L W K)} (hS : 0 < S.ncols) (hM : 0 < M.S.ncols)
    (hfin : M.finalized = false)
    (hint : ∀ x, M.saveSince = some x → pyTrunc x = x)
    (hdisk : ∀ i < M.saveIter, disk i = M.nc i)
    (h : loadCkpt cfg (some disk) (takeCkpt M) (newSim S s) = .ok R) : Sync cfg M R := by
  unfold loadCkpt at h
  cases hx : (takeCkpt M).saveSince with
  | none => rw [hx] at h; simp at h
  | some x =>
    have hx' : M.saveSince = some x := hx
    rw [hx] at h
    simp only [Except.ok.injEq] at h
    subst h
    refine ⟨⟨⟨rfl, rfl, rfl, rfl, rfl, rfl, rfl, rfl, rfl, rfl, rfl, rfl, rfl, rfl⟩, rfl, ?_, ?_, ?_, ?_⟩,
      hM, hS⟩
    · simp [takeCkpt]
    · simp only
      rw [hint x hx', hx']
    · simp only [newSim]
      rw [hfin]
    · intro hc i hi
      simp only [hc, if_true, Option.getD_some]
      rw [hdisk i hi]
      exact sameRecord_refl _

/-- C43, in the form in which it holds: if the time since the last save is a whole number in the
checkpoint, the resumed run goes through the same points as the run that was not interrupted: fields,
time, counters, random numbers and saved records, after any number of further updates; and it raises
an error exactly if the other does. Missing: checkpoints with a fraction
(`C43_truncation_witness`); the schedule of later checkpoints (`C43_extra_checkpoint`). -/
theorem C43_resume_partial {g : Rng K σ} {cfg : OutCfg K} {Ps Qs : List (Params L W m K)}
    {S : State L W K} {s s' : σ} {M R : Sim L W K σ}
    (h : updates g cfg Ps (startSim cfg S s) = .ok M) (hPs : ∀ P ∈ Ps, 4 ≤ P.stepmax)
    (hQs : ∀ P ∈ Qs, 4 ≤ P.stepmax) (hS : 0 < S.ncols)
    (hint : ∀ x, M.saveSince = some x → pyTrunc x = x) {disk : ℕ → Option (Record L W K)}
    (hdisk : ∀ i < M.saveIter, disk i = M.nc i)
    (hl : loadCkpt cfg (some disk) (takeCkpt M) (newSim S s') = .ok R) :
    SamePoint cfg M R ∧
    ExRel (fun M' R' => SamePoint cfg M' R' ∧ (Qs ≠ [] → SameState M'.S R'.S))
      (updates g cfg Qs M) (updates g cfg Qs R) := by
  have hS0 : (startSim cfg S s).S = S := by
    unfold startSim
    rw [(outputCheckpoint_frame cfg _).1, (outputData_frame cfg _).1]
    rfl
  obtain ⟨is, js, hinv⟩ := outInv h
  have hM := updates_ncols hPs (by rw [hS0]; exact hS) h
  have hsync := load_sync hS hM hinv.fin hint hdisk hl
  refine ⟨hsync.1, ?_⟩
  have h1 := updates_sync g cfg hQs hsync
  generalize updates g cfg Qs M = x at h1 ⊢
  generalize updates g cfg Qs R = x' at h1 ⊢
  cases x with
  | error e =>
    cases x' with
    | error e' => exact h1
    | ok v' => exact h1.elim
  | ok v =>
    cases x' with
    | error e' => exact h1.elim
    | ok v' => exact ⟨h1.1.1, fun hq => h1.2 (Or.inl hq)⟩

/-! ## The default: checkpoints at the interval of the saves -/

lemma pyTrunc_zero : pyTrunc (0 : K) = 0 := by simp [pyTrunc]

lemma ckpt_at_saves {g : Rng K σ} {cfg : OutCfg K} (hdt : cfg.ckptDt = cfg.saveDt)
    (hc : cfg.saveCkpt = true) {Ps : List (Params L W m K)} {S : State L W K} {s : σ}
    {M : Sim L W K σ} (h : updates g cfg Ps (startSim cfg S s) = .ok M) :
    M.saveSince = M.ckptSince ∧ ∀ c ∈ M.ckpts, c.saveSince = some 0 := by
  have hout : ∀ M : Sim L W K σ, M.saveSince = M.ckptSince →
      (∀ c ∈ M.ckpts, c.saveSince = some 0) →
      (outputCheckpoint cfg (outputData cfg M)).saveSince =
        (outputCheckpoint cfg (outputData cfg M)).ckptSince ∧
      ∀ c ∈ (outputCheckpoint cfg (outputData cfg M)).ckpts, c.saveSince = some 0 := by
    intro M h1 h2
    by_cases hd : due cfg.saveDt M.saveSince = true
    · have e1 : outputData cfg M =
          { saveGridsAndFigs cfg M with saveIter := M.saveIter + 1, saveSince := some 0 } := by
        unfold outputData; rw [if_pos hd]
      have hd' : due cfg.ckptDt (outputData cfg M).ckptSince = true := by
        rw [(outputData_frame cfg M).2.2.2.1, ← h1, hdt]; exact hd
      have e2 : outputCheckpoint cfg (outputData cfg M) = { outputData cfg M with
          ckpt := some (takeCkpt (outputData cfg M))
          ckpts := (outputData cfg M).ckpts ++ [takeCkpt (outputData cfg M)], ckptSince := some 0 } := by
        unfold outputCheckpoint; rw [if_pos hd', if_pos hc]
      rw [e2]
      refine ⟨by simp only [e1], fun c hmem => ?_⟩
      simp only [List.mem_append, List.mem_singleton] at hmem
      rcases hmem with hmem | rfl
      · rw [(outputData_frame cfg M).2.2.2.2.2] at hmem
        exact h2 c hmem
      · rw [e1]; rfl
    · have e1 : outputData cfg M = M := by unfold outputData; rw [if_neg hd]
      have hd' : ¬ due cfg.ckptDt M.ckptSince = true := by rw [← h1, hdt]; exact hd
      have e2 : outputCheckpoint cfg M = M := by unfold outputCheckpoint; rw [if_neg hd']
      rw [e1, e2]
      exact ⟨h1, h2⟩
  induction Ps using List.reverseRecOn generalizing M with
  | nil =>
    simp only [updates, Except.ok.injEq] at h
    subst h
    exact hout (newSim S s) rfl (by simp [newSim])
  | append_singleton Ps P ih =>
    obtain ⟨M1, h1, h2⟩ := updates_snoc h
    obtain ⟨i1, i2⟩ := ih h1
    obtain ⟨-, S1, l, s1, -, rfl⟩ := update_ok h2
    refine hout { M1 with
      S := S1, rng := s1, saveSince := addSince P.dt M1.saveSince,
      ckptSince := addSince P.dt M1.ckptSince } ?_ i2
    simp only
    rw [i1]

lemma updates_append {g : Rng K σ} {cfg : OutCfg K} : ∀ {Ps Qs : List (Params L W m K)}
    {M M1 : Sim L W K σ}, updates g cfg Ps M = .ok M1 →
    updates g cfg (Ps ++ Qs) M = updates g cfg Qs M1 := by
  intro Ps
  induction Ps with
  | nil =>
    intro Qs M M1 h
    simp only [updates, Except.ok.injEq] at h
    subst h
    rfl
  | cons P Ps ih =>
    intro Qs M M1 h
    simp only [List.cons_append, updates] at h ⊢
    cases hu : update g cfg P M with
    | error e => simp [hu] at h
    | ok M2 =>
      simp only [hu] at h ⊢
      exact ih h

/-- C43 with the default setting (`checkpoint_dt` not given, so equal to `save_dt`): whenever a first
run stops, the checkpoint on disk can be loaded, and the resumed run, doing again the updates since the
checkpoint, is at the same point as the stopped run and stays so in all further updates; its output
file then holds the same records. -/
theorem C43_default_partial {g : Rng K σ} {cfg : OutCfg K} (hdt : cfg.ckptDt = cfg.saveDt)
    (hc : cfg.saveCkpt = true) {Ps Qs : List (Params L W m K)} {S : State L W K} {s s' : σ}
    {M : Sim L W K σ} (h : updates g cfg Ps (startSim cfg S s) = .ok M)
    (hPs : ∀ P ∈ Ps, 4 ≤ P.stepmax) (hQs : ∀ P ∈ Qs, 4 ≤ P.stepmax) (hS : 0 < S.ncols) :
    ∃ ck k R, M.ckpt = some ck ∧ k ≤ Ps.length ∧
      loadCkpt cfg (some M.nc) ck (newSim S s') = .ok R ∧
      ExRel (fun M' R' => SamePoint cfg M' R') (updates g cfg Qs M)
        (updates g cfg (Ps.drop k ++ Qs) R) := by
  obtain ⟨js, k, hs, -, hk, ⟨ck, hck, Mk, hMk, rfl⟩, -⟩ := (C42_schedule h).1 hc
  have hkle := (hs.last k hk).1
  obtain ⟨is, js', hinv⟩ := outInv h
  have h0 : (takeCkpt Mk).saveSince = some 0 := by
    refine (ckpt_at_saves hdt hc h).2 _ ?_
    rw [hinv.ckLast] at hck
    exact List.mem_of_getLast? hck
  have h0' : Mk.saveSince = some 0 := h0
  have hrest : updates g cfg (Ps.drop k) Mk = .ok M := by
    rw [← updates_append (Qs := Ps.drop k) hMk, List.take_append_drop]
    exact h
  obtain ⟨R, hR⟩ : ∃ R, loadCkpt cfg (some M.nc) (takeCkpt Mk) (newSim S s') = .ok R := by
    unfold loadCkpt
    rw [h0]
    exact ⟨_, rfl⟩
  refine ⟨takeCkpt Mk, k, R, hck, hkle, hR, ?_⟩
  have hsteps : ∀ P ∈ Ps.drop k ++ Qs, 4 ≤ P.stepmax := by
    intro P hP
    rcases List.mem_append.1 hP with hP | hP
    · exact hPs P (List.mem_of_mem_drop hP)
    · exact hQs P hP
  have h1 := (C43_resume_partial (Qs := Ps.drop k ++ Qs) hMk
    (fun P hP => hPs P (List.mem_of_mem_take hP)) hsteps hS
    (fun x hx => by
      rw [h0'] at hx
      simp only [Option.some.injEq] at hx
      subst hx
      exact pyTrunc_zero)
    (fun i hi => (C40_kept hrest).2 i hi) hR).2
  rw [updates_append hrest] at h1
  generalize updates g cfg Qs M = x at h1 ⊢
  generalize updates g cfg (Ps.drop k ++ Qs) R = x' at h1 ⊢
  cases x with
  | error e =>
    cases x' with
    | error e' => exact h1
    | ok v' => exact h1.elim
  | ok v =>
    cases x' with
    | error e' => exact h1.elim
    | ok v' => exact h1.1

/-! ## Where resuming differs -/

/-- The first update after a resume always writes a checkpoint, however long `checkpoint_dt` is: the
time since the last checkpoint is not part of a checkpoint. -/
theorem C43_extra_checkpoint {g : Rng K σ} {cfg : OutCfg K} {P : Params L W m K} {S : State L W K}
    {s : σ} {disk : Option (ℕ → Option (Record L W K))} {ck : Ckpt L W K σ} {R R' : Sim L W K σ}
    (hl : loadCkpt cfg disk ck (newSim S s) = .ok R) (hc : cfg.saveCkpt = true)
    (hu : update g cfg P R = .ok R') : R'.ckpts = [takeCkpt R'] ∧ R'.ckpt = some (takeCkpt R') := by
  have hR : R.ckptSince = none ∧ R.ckpts = [] := by
    unfold loadCkpt at hl
    cases hx : ck.saveSince with
    | none => rw [hx] at hl; simp at hl
    | some x =>
      rw [hx] at hl
      simp only [Except.ok.injEq] at hl
      subst hl
      exact ⟨rfl, rfl⟩
  obtain ⟨-, S1, l, s1, -, rfl⟩ := update_ok hu
  unfold afterStep
  rw [takeCkpt_outputCheckpoint]
  have hd : due cfg.ckptDt (outputData cfg { R with
      S := S1, rng := s1, saveSince := addSince P.dt R.saveSince,
      ckptSince := addSince P.dt R.ckptSince }).ckptSince = true := by
    rw [(outputData_frame cfg _).2.2.2.1]
    simp only [hR.1]
    rfl
  unfold outputCheckpoint
  rw [if_pos hd, if_pos hc]
  simp only
  rw [(outputData_frame cfg _).2.2.2.2.2]
  simp only [hR.2]
  exact ⟨rfl, trivial⟩

/-- Saves every unit of time, checkpoints every half. -/
def exOutHalf : OutCfg ℚ := ⟨1, 1 / 2, true, true, [], false⟩

/-- The example with timestep one half. -/
def exParamsHalf : Params 4 3 1 ℚ := { exParams with dt := 1 / 2 }

/-- Saves and checkpoints every five halves. -/
def exOutDefault : OutCfg ℚ := ⟨5 / 2, 5 / 2, true, true, [], false⟩

theorem exSetupHalf : WaterSetup exParamsHalf := by
  have h := exSetup
  cases h
  constructor <;> assumption

theorem exSedDomainHalf : SedDomain exParamsHalf := by
  have h := exSedDomain
  cases h
  constructor <;> assumption

/-- A resume that loses a save: with a timestep of one half, saves every unit and checkpoints every
half, the run saves at its second update. Resumed from the checkpoint after the first update it does
not, because `int(0.5)` is 0. -/
theorem C43_truncation_witness : ∃ M1 M2 R R2 : Sim 4 3 ℚ Unit,
    update constRng exOutHalf exParamsHalf (startSim exOutHalf exState ()) = .ok M1 ∧
    M1.ckpt = some (takeCkpt M1) ∧
    update constRng exOutHalf exParamsHalf M1 = .ok M2 ∧
    loadCkpt exOutHalf (some M1.nc) (takeCkpt M1) (newSim exState ()) = .ok R ∧
    update constRng exOutHalf exParamsHalf R = .ok R2 ∧
    M2.saveIter = M1.saveIter + 1 ∧ R2.saveIter = M1.saveIter := by
  have hstep : ∀ M : Sim 4 3 ℚ Unit, M.finalized = false → (∀ c, 0 ≤ M.S.depth c) →
      0 < M.S.ncols → ∃ S, update constRng exOutHalf exParamsHalf M =
        .ok (afterStep exOutHalf (1 / 2) M S ()) ∧ (∀ c, 0 ≤ S.depth c) ∧ 0 < S.ncols := by
    intro M hf hd hn
    obtain ⟨S1, l, s1, h1, h2⟩ := C71_update exPositive exSetupHalf exSedDomainHalf hd hn M.rng
    refine ⟨S1, ?_, fun c => (C36_update (by norm_num [exParamsHalf, exParams]) h1 c).2.1, h2⟩
    unfold update
    simp only [hf, Bool.false_eq_true, if_false, h1]
    rfl
  obtain ⟨S1, h1, hd1, hn1⟩ := hstep (startSim exOutHalf exState ()) rfl
    (fun c => by norm_num [exState, startSim, outputCheckpoint, outputData, due, newSim, exOutHalf,
      saveGridsAndFigs]) (by norm_num [exState, startSim, outputCheckpoint, outputData, due, newSim,
      exOutHalf, saveGridsAndFigs])
  generalize hM1 : afterStep exOutHalf (1 / 2) (startSim exOutHalf exState ()) S1 () = M1 at h1
  have hex : M1.S = S1 ∧ M1.finalized = false ∧ M1.saveSince = some (1 / 2) ∧ M1.saveIter = 1 ∧
      M1.ckpt = some (takeCkpt M1) := by
    subst hM1
    norm_num [afterStep, startSim, outputCheckpoint, outputData, due, newSim, exOutHalf,
      saveGridsAndFigs, addSince, takeCkpt]
  obtain ⟨e1, e2, e3, e4, e5⟩ := hex
  obtain ⟨S2, h2, -, -⟩ := hstep M1 e2 (by rw [e1]; exact hd1) (by rw [e1]; exact hn1)
  obtain ⟨R, hR⟩ : ∃ R, loadCkpt exOutHalf (some M1.nc) (takeCkpt M1) (newSim exState ()) = .ok R := by
    unfold loadCkpt
    simp only [takeCkpt, e3]
    exact ⟨_, rfl⟩
  have hR' : R.finalized = false ∧ R.saveSince = some 0 ∧ R.saveIter = 1 ∧ R.S.depth = S1.depth ∧
      R.S.ncols = exState.ncols := by
    unfold loadCkpt at hR
    simp only [takeCkpt, e3, Except.ok.injEq] at hR
    subst hR
    refine ⟨rfl, ?_, ?_, ?_, rfl⟩
    · simp only [Option.some.injEq]
      have : ⌊(1 / 2 : ℚ)⌋ = 0 := by rw [Int.floor_eq_iff]; norm_num
      simp only [pyTrunc, this]
      norm_num
    · simp [exOutHalf, e4]
    · simp only [e1]
  obtain ⟨r1, r2, r3, r4, r5⟩ := hR'
  obtain ⟨S3, h3, -, -⟩ := hstep R r1 (by rw [r4]; exact hd1) (by rw [r5]; norm_num [exState])
  have hfr : ∀ M : Sim 4 3 ℚ Unit, (outputCheckpoint exOutHalf M).saveIter = M.saveIter := by
    intro M
    unfold outputCheckpoint
    split_ifs <;> rfl
  refine ⟨M1, _, R, _, h1, e5, h2, hR, h3, ?_, ?_⟩
  · unfold afterStep
    rw [hfr]
    norm_num [outputData, due, exOutHalf, saveGridsAndFigs, addSince, e3]
  · unfold afterStep
    rw [hfr]
    norm_num [outputData, due, exOutHalf, saveGridsAndFigs, addSince, r2,
      r3, e4]

/-- Without the output file the count of saves starts again from zero, although the checkpoint has
it. -/
theorem C43_missing_file {cfg : OutCfg K} (hc : cfg.saveNc = true) {ck : Ckpt L W K σ}
    {M R : Sim L W K σ} (h : loadCkpt cfg none ck M = .ok R) : R.saveIter = 0 := by
  unfold loadCkpt at h
  cases hx : ck.saveSince with
  | none => rw [hx] at h; simp at h
  | some x =>
    rw [hx] at h
    simp only [Except.ok.injEq] at h
    subst h
    simp [hc]

-- C43: the default setting with whole and fractional timesteps, and a run to which it applies
example : ∃ M, updates constRng exOutDefault (List.replicate 10 exParamsHalf)
    (startSim exOutDefault exState ()) = .ok M :=
  C46_accepted exPositive exOutDefault (by
    intro P hP
    rw [List.eq_of_mem_replicate hP]
    exact ⟨exSetupHalf, exSedDomainHalf, by norm_num [exParamsHalf, exParams]⟩)
    rfl (fun c => by norm_num [exState, startSim, outputCheckpoint, outputData, due, newSim,
      exOutDefault, saveGridsAndFigs]) (by norm_num [exState, startSim, outputCheckpoint, outputData,
      due, newSim, exOutDefault, saveGridsAndFigs])

end Verif.Props
