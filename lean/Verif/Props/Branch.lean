import Verif.Model.Branch
import Verif.Props.Resume

/-!
# C90: branching off a checkpoint of another folder
-/

set_option linter.unusedSectionVars false

namespace Verif.Props

open Verif.Model Verif.Lemmas Verif.Spec

variable {K : Type*} [Field K] [LinearOrder K] [IsStrictOrderedRing K] [FloorRing K] {σ D : Type*}
variable {L W m : ℕ} [NeZero L] [NeZero W]

/-- `R` is a branch of the run `M`: the same fields and random numbers, and output that goes on from save number `n` of
`M`: record `i` of `R` is record `n + i` of `M`. -/
structure BranchOf (cfg : OutCfg K) (n : ℕ) (M R : Sim L W K σ) : Prop where
  fields : SameFields M.S R.S
  rng : R.rng = M.rng
  since : R.saveSince = M.saveSince
  finalized : R.finalized = M.finalized
  count : n + R.saveIter = M.saveIter
  records : ∀ i < R.saveIter, SameRecord (M.nc (n + i)) (R.nc i)

/-- Two models that differ in where they put their output. -/
structure Offset (n : ℕ) (M R : Sim L W K σ) : Prop where
  S : R.S = M.S
  rng : R.rng = M.rng
  since : R.saveSince = M.saveSince
  finalized : R.finalized = M.finalized
  count : n + R.saveIter = M.saveIter
  records : ∀ i < R.saveIter, R.nc i = M.nc (n + i)

lemma outputData_offset {cfg : OutCfg K} (hc : cfg.saveNc = true) {n : ℕ} {M R : Sim L W K σ} (h : Offset n M R) :
    Offset n (outputData cfg M) (outputData cfg R) := by
  unfold outputData
  rw [h.since]
  split_ifs
  · refine ⟨h.S, h.rng, rfl, h.finalized, ?_, ?_⟩
    · have := h.count
      simp only
      omega
    · intro i hi
      simp only [saveGridsAndFigs, hc, if_true] at hi ⊢
      rw [← h.count]
      by_cases hi' : i = R.saveIter
      · subst hi'
        rw [Function.update_self, Function.update_self, h.S]
      · rw [Function.update_of_ne hi', Function.update_of_ne (by omega)]
        exact h.records i (by omega)
  · exact h

lemma outputCheckpoint_offset (cfg : OutCfg K) {n : ℕ} {M R : Sim L W K σ} (h : Offset n M R) :
    Offset n (outputCheckpoint cfg M) (outputCheckpoint cfg R) := by
  obtain ⟨a1, a2, a3, a4, a5, a6, a7, a8⟩ := outputCheckpoint_frame cfg M
  obtain ⟨b1, b2, b3, b4, b5, b6, b7, b8⟩ := outputCheckpoint_frame cfg R
  refine ⟨by rw [a1, b1]; exact h.S, by rw [a2, b2]; exact h.rng, by rw [a4, b4]; exact h.since,
    by rw [a3, b3]; exact h.finalized, by rw [a5, b5]; exact h.count, fun i hi => ?_⟩
  rw [a7, b7]
  rw [b5] at hi
  exact h.records i hi

lemma updates_offset (g : Rng K σ) {cfg : OutCfg K} (hc : cfg.saveNc = true) {n : ℕ} :
    ∀ {Ps : List (Params L W m K)} {M R : Sim L W K σ}, Offset n M R →
    ExRel (Offset n) (updates g cfg Ps M) (updates g cfg Ps R) := by
  intro Ps
  induction Ps with
  | nil => intro M R h; exact h
  | cons P Ps ih =>
    intro M R h
    simp only [updates, update]
    rw [h.finalized, h.S, h.rng]
    cases M.finalized with
    | true => rfl
    | false =>
      simp only [Bool.false_eq_true, if_false]
      cases timestep g P M.S M.rng with
      | error e => rfl
      | ok v =>
        simp only
        apply ih
        unfold afterStep
        refine outputCheckpoint_offset cfg (outputData_offset hc ⟨rfl, rfl, ?_, h.finalized, h.count, h.records⟩)
        simp only
        rw [h.since]

/-- C90: a run `M` has made updates `Ps` and has left its checkpoint in the folder `q`. A model made from the same
configuration in a folder `p` without output file, told to resume from `q`, is a branch of that run: in all further
updates it has the fields that `M` would have, and its own file has the further saves, from record 0 on.
Partial: C90 claims this for all checkpoints, here the time since the last save is a whole number in the checkpoint
(see `C43_truncation_witness`) and there is no output file in `p` (see `C90_mixed`). -/
theorem C90_branch_partial {g : Rng K σ} {cfg : OutCfg K} (hc : cfg.saveNc = true) {Ps Qs : List (Params L W m K)}
    {S : State L W K} {s s' : σ} {M R : Sim L W K σ}
    (h : updates g cfg Ps (startSim cfg S s) = .ok M) (hPs : ∀ P ∈ Ps, 4 ≤ P.stepmax)
    (hQs : ∀ P ∈ Qs, 4 ≤ P.stepmax) (hS : 0 < S.ncols) (hint : ∀ x, M.saveSince = some x → pyTrunc x = x)
    {files : D → FolderFiles L W K σ} {p q : D} (hq : (files q).ckpt = some (takeCkpt M)) (hp : (files p).nc = none)
    (hr : startIn cfg files p (.inr q) S s' = .ok R) :
    ExRel (fun M' R' => BranchOf cfg M.saveIter M' R') (updates g cfg Qs M) (updates g cfg Qs R) := by
  simp only [startIn, resolveResume, if_true, hq, hp, loadIn] at hr
  obtain ⟨is, js, hinv⟩ := outInv h
  cases hx : M.saveSince with
  | none =>
    have : (takeCkpt M).saveSince = none := hx
    simp [loadCkpt, this] at hr
  | some x =>
    have hx' : (takeCkpt M).saveSince = some x := hx
    obtain ⟨R', hR'⟩ : ∃ R', loadCkpt cfg (some M.nc) (takeCkpt M) (newSim S s') = .ok R' := by
      unfold loadCkpt
      rw [hx']
      exact ⟨_, rfl⟩
    have h1 := (C43_resume_partial (Qs := Qs) h hPs hQs hS hint (fun _ _ => rfl) hR').2
    have ho : Offset M.saveIter R' R := by
      unfold loadCkpt at hr hR'
      rw [hx'] at hr hR'
      simp only [Except.ok.injEq] at hr hR'
      subst hr hR'
      refine ⟨rfl, rfl, rfl, rfl, ?_, ?_⟩
      · simp [hc, takeCkpt]
      · intro i hi
        simp [hc] at hi
    have h2 := updates_offset g hc (Ps := Qs) ho
    generalize updates g cfg Qs M = a at h1 ⊢
    generalize updates g cfg Qs R' = b at h1 h2
    generalize updates g cfg Qs R = c at h2 ⊢
    cases a with
    | error e =>
      cases b with
      | error e' =>
        cases c with
        | error e'' => exact h1.trans h2
        | ok c => exact h2.elim
      | ok b => exact h1.elim
    | ok a =>
      cases b with
      | error e' => exact h1.elim
      | ok b =>
        cases c with
        | error e'' => exact h2.elim
        | ok c =>
          have h3 := h1.1
          refine ⟨by rw [h2.S]; exact h3.fields, by rw [h2.rng, h3.rng], by rw [h2.since, h3.saveSince],
            by rw [h2.finalized, h3.finalized], by rw [h2.count, h3.saveIter], fun i hi => ?_⟩
          rw [h2.records i hi]
          exact h3.records hc _ (by rw [← h3.saveIter, ← h2.count]; omega)

/-- C90: without an output file, figures are numbered on. -/
theorem C90_figures {cfg : OutCfg K} (hc : cfg.saveNc = false) {M R : Sim L W K σ} {S : State L W K} {s : σ}
    {files : D → FolderFiles L W K σ} {p q : D} (hq : (files q).ckpt = some (takeCkpt M))
    (hr : startIn cfg files p (.inr q) S s = .ok R) : R.saveIter = M.saveIter := by
  simp only [startIn, resolveResume, if_true, hq, loadIn] at hr
  cases hx : (takeCkpt M).saveSince with
  | none => simp [loadCkpt, hx] at hr
  | some x =>
    simp only [loadCkpt, hx, hc, Except.ok.injEq] at hr
    subst hr
    simp [takeCkpt]

/-- C90: which files decide how a model starts: none if it is not told to resume, its own if it is told to, and the
checkpoint of the folder named, with its own output file, if a folder is named. -/
theorem C90_reads (cfg : OutCfg K) {files files' : D → FolderFiles L W K σ} (p : D) (S : State L W K) (s : σ) :
    startIn cfg files p (.inl false) S s = .ok (startSim cfg S s) ∧
    (files p = files' p → startIn cfg files p (.inl true) S s = startIn cfg files' p (.inl true) S s) ∧
    ∀ q, (files q).ckpt = (files' q).ckpt → (files p).nc = (files' p).nc →
      startIn cfg files p (.inr q) S s = startIn cfg files' p (.inr q) S s := by
  refine ⟨by simp [startIn, resolveResume], fun h => ?_, fun q h1 h2 => ?_⟩
  · simp only [startIn, resolveResume, h]
  · simp only [startIn, resolveResume, h1, h2]

/-- C90: a folder without checkpoint is refused. -/
theorem C90_missing (cfg : OutCfg K) {files : D → FolderFiles L W K σ} (p q : D) (h : (files q).ckpt = none)
    (S : State L W K) (s : σ) : startIn cfg files p (.inr q) S s = .error .noCheckpoint := by
  simp only [startIn, resolveResume, if_true, h, loadIn]

/-- C90 fails if there is an output file in the folder: whatever it has, it is kept as if it were of the run that is
branched, and the further saves are put over its records or beyond their end. -/
theorem C90_mixed {cfg : OutCfg K} (hc : cfg.saveNc = true) {M R : Sim L W K σ} {S : State L W K} {s : σ}
    {files : D → FolderFiles L W K σ} {p q : D} (hq : (files q).ckpt = some (takeCkpt M))
    {old : ℕ → Option (Record L W K)} (hp : (files p).nc = some old)
    (hr : startIn cfg files p (.inr q) S s = .ok R) : R.nc = old ∧ R.saveIter = M.saveIter := by
  simp only [startIn, resolveResume, if_true, hq, hp, loadIn] at hr
  cases hx : (takeCkpt M).saveSince with
  | none => simp [loadCkpt, hx] at hr
  | some x =>
    simp only [loadCkpt, hx, hc, Except.ok.injEq] at hr
    subst hr
    exact ⟨rfl, by simp [takeCkpt]⟩

/-- A run of the example domain with saves and checkpoints at the same interval can be branched. -/
example : ∃ M, updates constRng exOutDefault (List.replicate 10 exParamsHalf) (startSim exOutDefault exState ()) = .ok M ∧
    ∃ ck R, M.ckpt = some ck ∧ startIn exOutDefault
      (fun b : Bool => if b then ⟨M.ckpt, some M.nc⟩ else ⟨none, none⟩) false (.inr true) exState () = .ok R ∧
      R.saveIter = 0 := by
  obtain ⟨M, hM⟩ := C46_accepted exPositive exOutDefault (Ps := List.replicate 10 exParamsHalf) (by
    intro P hP
    rw [List.eq_of_mem_replicate hP]
    exact ⟨exSetupHalf, exSedDomainHalf, by norm_num [exParamsHalf, exParams]⟩)
    (M := startSim exOutDefault exState ())
    rfl (fun c => by norm_num [exState, startSim, outputCheckpoint, outputData, due, newSim,
      exOutDefault, saveGridsAndFigs]) (by norm_num [exState, startSim, outputCheckpoint, outputData,
      due, newSim, exOutDefault, saveGridsAndFigs])
  obtain ⟨js, k, -, -, -, ⟨ck, hck, Mk, hMk, rfl⟩, -⟩ := (C42_schedule hM).1 rfl
  refine ⟨M, hM, takeCkpt Mk, ?_⟩
  have h0 : (takeCkpt Mk).saveSince = some 0 := by
    obtain ⟨is, js', hinv⟩ := outInv hM
    refine (ckpt_at_saves rfl rfl hM).2 _ ?_
    rw [hinv.ckLast] at hck
    exact List.mem_of_getLast? hck
  simp only [startIn, resolveResume, if_true, loadIn, hck, loadCkpt, h0]
  exact ⟨_, trivial, rfl, by simp [exOutDefault]⟩

end Verif.Props
