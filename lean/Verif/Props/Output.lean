import Verif.Model.Output
import Verif.Lemmas.Schedule
import Verif.Props.Run
import Mathlib.Data.Nat.Digits.Lemmas

/-!
# C39 to C42, C46: schedules of output and checkpoints, file names, life cycle
-/

set_option linter.unusedSectionVars false
set_option linter.unusedSimpArgs false

namespace Verif.Props

open Verif.Model Verif.Lemmas Verif.Spec

variable {K : Type*} [Field K] [LinearOrder K] [IsStrictOrderedRing K] [FloorRing K] {σ : Type*}
variable {L W m : ℕ} [NeZero L] [NeZero W]

/-! ## Sequences of updates -/

lemma updates_snoc {g : Rng K σ} {cfg : OutCfg K} {P : Params L W m K} :
    ∀ {Ps : List (Params L W m K)} {M M' : Sim L W K σ},
    updates g cfg (Ps ++ [P]) M = .ok M' →
    ∃ M1, updates g cfg Ps M = .ok M1 ∧ update g cfg P M1 = .ok M' := by
  intro Ps
  induction Ps with
  | nil =>
    intro M M' h
    simp only [List.nil_append, updates] at h
    cases hu : update g cfg P M with
    | error e => simp [hu] at h
    | ok M1 =>
      simp only [hu, Except.ok.injEq] at h
      subst h
      exact ⟨M, rfl, hu⟩
  | cons Q Qs ih =>
    intro M M' h
    simp only [List.cons_append, updates] at h ⊢
    cases hu : update g cfg Q M with
    | error e => simp [hu] at h
    | ok M1 =>
      simp only [hu] at h
      exact ih h

lemma updates_snoc_ok {g : Rng K σ} {cfg : OutCfg K} {P : Params L W m K} :
    ∀ {Ps : List (Params L W m K)} {M M1 M' : Sim L W K σ},
    updates g cfg Ps M = .ok M1 → update g cfg P M1 = .ok M' →
    updates g cfg (Ps ++ [P]) M = .ok M' := by
  intro Ps
  induction Ps with
  | nil =>
    intro M M1 M' h1 h2
    simp only [updates, Except.ok.injEq] at h1
    subst h1
    simp [updates, h2]
  | cons Q Qs ih =>
    intro M M1 M' h1 h2
    simp only [List.cons_append, updates] at h1 ⊢
    cases hu : update g cfg Q M with
    | error e => simp [hu] at h1
    | ok M2 =>
      simp only [hu] at h1 ⊢
      exact ih h1 h2

lemma update_ok {g : Rng K σ} {cfg : OutCfg K} {P : Params L W m K} {M M' : Sim L W K σ}
    (h : update g cfg P M = .ok M') :
    M.finalized = false ∧ ∃ S l s, timestep g P M.S M.rng = .ok (S, l, s) ∧
      M' = afterStep cfg P.dt M S s := by
  unfold update at h
  cases hf : M.finalized with
  | true => simp [hf] at h
  | false =>
    simp only [hf, Bool.false_eq_true, if_false] at h
    generalize ht : timestep g P M.S M.rng = x at h
    cases x with
    | error e => simp at h
    | ok v =>
      obtain ⟨S, l, s⟩ := v
      simp only [Except.ok.injEq] at h
      exact ⟨rfl, S, l, s, rfl, h.symm⟩

lemma timesteps_snoc_ok {g : Rng K σ} {P : Params L W m K} : ∀ {Ps : List (Params L W m K)}
    {S S1 S' : State L W K} {s s1 s' : σ} {ls : List (StepLog L W K)} {l : StepLog L W K},
    timesteps g Ps S s = .ok (S1, ls, s1) → timestep g P S1 s1 = .ok (S', l, s') →
    timesteps g (Ps ++ [P]) S s = .ok (S', ls ++ [l], s') := by
  intro Ps
  induction Ps with
  | nil =>
    intro S S1 S' s s1 s' ls l h1 h2
    simp only [timesteps, Except.ok.injEq, Prod.mk.injEq] at h1
    obtain ⟨rfl, rfl, rfl⟩ := h1
    simp [timesteps, h2]
  | cons Q Qs ih =>
    intro S S1 S' s s1 s' ls l h1 h2
    obtain ⟨S2, l2, s2, ls2, h3, h4, rfl⟩ := timesteps_cons h1
    simp only [List.cons_append, timesteps, h3, ih h4 h2]

/-! ## What one update does with the output -/

lemma outputData_frame (cfg : OutCfg K) (M : Sim L W K σ) :
    (outputData cfg M).S = M.S ∧ (outputData cfg M).rng = M.rng ∧
    (outputData cfg M).finalized = M.finalized ∧ (outputData cfg M).ckptSince = M.ckptSince ∧
    (outputData cfg M).ckpt = M.ckpt ∧ (outputData cfg M).ckpts = M.ckpts := by
  unfold outputData
  split_ifs <;> simp [saveGridsAndFigs]

lemma outputCheckpoint_frame (cfg : OutCfg K) (M : Sim L W K σ) :
    (outputCheckpoint cfg M).S = M.S ∧ (outputCheckpoint cfg M).rng = M.rng ∧
    (outputCheckpoint cfg M).finalized = M.finalized ∧
    (outputCheckpoint cfg M).saveSince = M.saveSince ∧
    (outputCheckpoint cfg M).saveIter = M.saveIter ∧ (outputCheckpoint cfg M).saves = M.saves ∧
    (outputCheckpoint cfg M).nc = M.nc ∧ (outputCheckpoint cfg M).figFiles = M.figFiles := by
  unfold outputCheckpoint
  split_ifs <;> simp

lemma takeCkpt_outputCheckpoint (cfg : OutCfg K) (M : Sim L W K σ) :
    takeCkpt (outputCheckpoint cfg M) = takeCkpt M := by
  unfold outputCheckpoint
  split_ifs <;> simp [takeCkpt]

/-! ## Snapshots -/

/-- `r` shows the model after the first `k` timesteps of the run. -/
def Snapshot (g : Rng K σ) (Ps : List (Params L W m K)) (S : State L W K) (s : σ) (k : ℕ)
    (r : Record L W K) : Prop :=
  r.time = r.state.time ∧ ∃ ls s', timesteps g (Ps.take k) S s = .ok (r.state, ls, s')

/-- `c` is the checkpoint of the model after the first `k` updates of the run. -/
def CkptAfter (g : Rng K σ) (cfg : OutCfg K) (Ps : List (Params L W m K)) (S : State L W K) (s : σ)
    (k : ℕ) (c : Ckpt L W K σ) : Prop :=
  ∃ M, updates g cfg (Ps.take k) (startSim cfg S s) = .ok M ∧ c = takeCkpt M

lemma Snapshot.snoc {g : Rng K σ} {Ps : List (Params L W m K)} {P : Params L W m K}
    {S : State L W K} {s : σ} {k : ℕ} {r : Record L W K} (h : Snapshot g Ps S s k r)
    (hk : k ≤ Ps.length) : Snapshot g (Ps ++ [P]) S s k r := by
  unfold Snapshot at h ⊢
  rwa [List.take_append_of_le_length hk]

lemma CkptAfter.snoc {g : Rng K σ} {cfg : OutCfg K} {Ps : List (Params L W m K)}
    {P : Params L W m K} {S : State L W K} {s : σ} {k : ℕ} {c : Ckpt L W K σ}
    (h : CkptAfter g cfg Ps S s k c) (hk : k ≤ Ps.length) :
    CkptAfter g cfg (Ps ++ [P]) S s k c := by
  unfold CkptAfter at h ⊢
  rwa [List.take_append_of_le_length hk]

lemma clock_snoc (t0 : K) (dts : List K) (d : K) {k : ℕ} (hk : k ≤ dts.length) :
    clock t0 dts k = clock t0 (dts ++ [d]) k := by
  unfold clock
  rw [List.take_append_of_le_length hk]

lemma clock_last (t0 : K) (dts : List K) (d : K) :
    clock t0 (dts ++ [d]) (dts.length + 1) = clock t0 (dts ++ [d]) dts.length + d := by
  unfold clock
  rw [List.take_of_length_le (by simp), List.take_append_of_le_length le_rfl,
    List.take_of_length_le le_rfl, List.sum_append, List.sum_singleton, add_assoc]

lemma forall₂_imp_left {α β : Type*} {R R' : α → β → Prop} {as : List α} {bs : List β}
    (h : List.Forall₂ R as bs) (hR : ∀ a ∈ as, ∀ b, R a b → R' a b) : List.Forall₂ R' as bs := by
  induction h with
  | nil => exact List.Forall₂.nil
  | cons h1 _ ih =>
    exact List.Forall₂.cons (hR _ (by simp) _ h1) (ih (fun a ha => hR a (List.mem_cons_of_mem _ ha)))

/-- The invariant of a run with its output. -/
structure OutInv (g : Rng K σ) (cfg : OutCfg K) (Ps : List (Params L W m K)) (S : State L W K)
    (s : σ) (M : Sim L W K σ) (is js : List ℕ) : Prop where
  state : ∃ ls, timesteps g Ps S s = .ok (M.S, ls, M.rng)
  time : M.S.time = clock S.time (Ps.map (·.dt)) Ps.length
  fin : M.finalized = false
  sched : OnSchedule cfg.saveDt (clock S.time (Ps.map (·.dt))) Ps.length is
  snaps : List.Forall₂ (fun k (w : ℕ × Record L W K) => Snapshot g Ps S s k w.2 ∧
    w.2.time = clock S.time (Ps.map (·.dt)) k) is M.saves
  idx : M.saves.map Prod.fst = List.range M.saves.length
  iter : M.saveIter = M.saves.length
  since : ∀ a ∈ is.getLast?, M.saveSince =
    some (clock S.time (Ps.map (·.dt)) Ps.length - clock S.time (Ps.map (·.dt)) a)
  nc : ∀ i, M.nc i = if cfg.saveNc then (M.saves[i]?).map Prod.snd else none
  figs : M.figFiles = M.saves.foldl (fun files w => saveFigs cfg.sequential w.1 w.2 cfg.figs files)
    (fun _ => none)
  ckSched : cfg.saveCkpt = true →
    OnSchedule cfg.ckptDt (clock S.time (Ps.map (·.dt))) Ps.length js
  ckSnaps : cfg.saveCkpt = true → List.Forall₂ (CkptAfter g cfg Ps S s) js M.ckpts
  ckSince : cfg.saveCkpt = true → ∀ a ∈ js.getLast?, M.ckptSince =
    some (clock S.time (Ps.map (·.dt)) Ps.length - clock S.time (Ps.map (·.dt)) a)
  ckLast : M.ckpt = M.ckpts.getLast?
  ckOff : cfg.saveCkpt = false → M.ckpts = []


lemma outInv_start (g : Rng K σ) (cfg : OutCfg K) (S : State L W K) (s : σ) :
    OutInv (m := m) g cfg [] S s (startSim cfg S s) [0] [0] := by
  have hs : ∀ d : K, OnSchedule d (clock S.time (([] : List (Params L W m K)).map (·.dt))) 0 [0] :=
    fun d => ⟨rfl, List.IsChain.singleton _, fun a ha => by
      simp only [List.getLast?_singleton, Option.mem_def, Option.some.injEq] at ha
      subst ha
      exact ⟨le_rfl, fun k hk hk' => by omega⟩⟩
  have e : startSim cfg S s = outputCheckpoint cfg
      { newSim S s with
        nc := if cfg.saveNc then Function.update (fun _ => none) 0 (some ⟨S.time, S⟩) else fun _ => none
        figFiles := saveFigs cfg.sequential 0 ⟨S.time, S⟩ cfg.figs (fun _ => none)
        saves := [(0, ⟨S.time, S⟩)], saveIter := 1, saveSince := some 0 } := by
    rfl
  obtain ⟨f1, f2, f3, f4, f5, f6, f7, f8⟩ := outputCheckpoint_frame cfg
      { newSim S s with
        nc := if cfg.saveNc then Function.update (fun _ => none) 0 (some ⟨S.time, S⟩) else fun _ => none
        figFiles := saveFigs cfg.sequential 0 ⟨S.time, S⟩ cfg.figs (fun _ => none)
        saves := [(0, ⟨S.time, S⟩)], saveIter := 1, saveSince := some 0 }
  rw [← e] at f1 f2 f3 f4 f5 f6 f7 f8
  constructor
  · exact ⟨[], by rw [f1, f2]; rfl⟩
  · rw [f1]; simp [newSim, clock]
  · rw [f3]; rfl
  · exact hs _
  · rw [f6]
    refine List.Forall₂.cons ⟨⟨rfl, [], s, rfl⟩, ?_⟩ List.Forall₂.nil
    simp [clock]
  · rw [f6]; rfl
  · rw [f5, f6]; rfl
  · intro a ha
    simp only [List.getLast?_singleton, Option.mem_def, Option.some.injEq] at ha
    subst ha
    rw [f4]
    simp
  · intro i
    rw [f7, f6]
    by_cases hc : cfg.saveNc = true
    · cases i with
      | zero => simp [hc]
      | succ i => simp [hc]
    · simp [hc]
  · rw [f8, f6]; rfl
  · exact fun _ => hs _
  · intro hc
    have : (startSim cfg S s).ckpts = [takeCkpt (startSim cfg S s)] := by
      conv_rhs => rw [e, takeCkpt_outputCheckpoint]
      rw [e]
      simp [outputCheckpoint, hc, newSim, due]
    rw [this]
    exact List.Forall₂.cons ⟨_, rfl, rfl⟩ List.Forall₂.nil
  · intro hc a ha
    simp only [List.getLast?_singleton, Option.mem_def, Option.some.injEq] at ha
    subst ha
    rw [e]
    simp [outputCheckpoint, hc, newSim, due]
  · rw [e]
    by_cases hc : cfg.saveCkpt = true <;> simp [outputCheckpoint, hc, newSim, due]
  · intro hc
    rw [e]
    simp [outputCheckpoint, hc, newSim, due]

lemma last_cases {is : List ℕ} (h : is ≠ []) : ∃ a, is.getLast? = some a := by
  cases hl : is.getLast? with
  | none => exact absurd (List.getLast?_eq_none_iff.1 hl) h
  | some a => exact ⟨a, rfl⟩

lemma outInv_step {g : Rng K σ} {cfg : OutCfg K} {Ps : List (Params L W m K)} {P : Params L W m K}
    {S : State L W K} {s : σ} {M M' : Sim L W K σ} {is js : List ℕ}
    (hrun : updates g cfg Ps (startSim cfg S s) = .ok M)
    (h : OutInv g cfg Ps S s M is js) (hu : update g cfg P M = .ok M') :
    ∃ is' js', OutInv g cfg (Ps ++ [P]) S s M' is' js' := by
  have hrun' := updates_snoc_ok hrun hu
  obtain ⟨hfin, S1, l, s1, ht, rfl⟩ := update_ok hu
  obtain ⟨ls, hls⟩ := h.state
  obtain ⟨hr, hst⟩ := step_result ht
  set T := clock S.time (Ps.map (·.dt)) with hT
  set T' := clock S.time ((Ps ++ [P]).map (·.dt)) with hT'
  have hmap : (Ps ++ [P]).map (·.dt) = Ps.map (·.dt) ++ [P.dt] := by simp
  have hTT : ∀ k ≤ Ps.length, T k = T' k := by
    intro k hk
    rw [hT, hT', hmap]
    exact clock_snoc _ _ _ (by simpa using hk)
  have hlast : T' (Ps.length + 1) = T' Ps.length + P.dt := by
    rw [hT', hmap]
    have := clock_last S.time (Ps.map (·.dt)) P.dt
    simpa using this
  have hlen : (Ps ++ [P]).length = Ps.length + 1 := by simp
  have hrun1 : timesteps g (Ps ++ [P]) S s = .ok (S1, ls ++ [l], s1) := timesteps_snoc_ok hls ht
  have htime : S1.time = T' (Ps.length + 1) := by
    rw [hr.time, hst, h.time, hlast, ← hTT _ le_rfl]
  set M0 : Sim L W K σ := { M with
    S := S1, rng := s1, saveSince := addSince P.dt M.saveSince,
    ckptSince := addSince P.dt M.ckptSince } with hM0
  have hM' : afterStep cfg P.dt M S1 s1 = outputCheckpoint cfg (outputData cfg M0) := rfl
  rw [hM'] at hrun' ⊢
  obtain ⟨d1, d2, d3, d4, d5, d6⟩ := outputData_frame cfg M0
  obtain ⟨c1, c2, c3, c4, c5, c6, c7, c8⟩ := outputCheckpoint_frame cfg (outputData cfg M0)
  -- the saves
  have hsch := OnSchedule.congr h.sched hTT h.sched.le
  have hsnaps : List.Forall₂ (fun k (w : ℕ × Record L W K) => Snapshot g (Ps ++ [P]) S s k w.2 ∧
      w.2.time = T' k) is M.saves := by
    refine forall₂_imp_left h.snaps (fun a ha b hb => ⟨hb.1.snoc (h.sched.le a ha), ?_⟩)
    exact hb.2.trans (hTT a (h.sched.le a ha))
  obtain ⟨a, hla⟩ := last_cases h.sched.ne_nil
  have hale : a ≤ Ps.length := (h.sched.last a hla).1
  have hsince : M0.saveSince = some (T' (Ps.length + 1) - T' a) := by
    rw [hM0]
    simp only
    rw [h.since a hla, hlast, ← hTT _ le_rfl, ← hTT _ hale]
    simp only [addSince, Option.some.injEq]
    ring
  obtain ⟨is', w1, w2, w3, w4, w5, w6, w7⟩ : ∃ is' : List ℕ, OnSchedule cfg.saveDt T' (Ps.length + 1) is' ∧
      List.Forall₂ (fun k (w : ℕ × Record L W K) => Snapshot g (Ps ++ [P]) S s k w.2 ∧
        w.2.time = T' k) is' (outputData cfg M0).saves ∧
      (outputData cfg M0).saves.map Prod.fst = List.range (outputData cfg M0).saves.length ∧
      (outputData cfg M0).saveIter = (outputData cfg M0).saves.length ∧
      (∀ x ∈ is'.getLast?, (outputData cfg M0).saveSince = some (T' (Ps.length + 1) - T' x)) ∧
      (∀ i, (outputData cfg M0).nc i =
        if cfg.saveNc then ((outputData cfg M0).saves[i]?).map Prod.snd else none) ∧
      (outputData cfg M0).figFiles = (outputData cfg M0).saves.foldl
        (fun files w => saveFigs cfg.sequential w.1 w.2 cfg.figs files) (fun _ => none) := by
    unfold outputData
    by_cases hd : due cfg.saveDt M0.saveSince = true
    · rw [if_pos hd]
      rw [hsince] at hd
      simp only [due, decide_eq_true_eq] at hd
      refine ⟨is ++ [Ps.length + 1], hsch.fire ?_, ?_, ?_, ?_, ?_, ?_, ?_⟩
      · intro x hx
        rw [hla] at hx
        simp only [Option.mem_def, Option.some.injEq] at hx
        subst hx
        exact hd
      · refine List.rel_append hsnaps (List.Forall₂.cons ⟨⟨rfl, ls ++ [l], s1, ?_⟩, htime⟩
          List.Forall₂.nil)
        rw [List.take_of_length_le (by simp)]
        exact hrun1
      · simp only [saveGridsAndFigs, List.map_append, List.length_append, List.map_cons,
          List.map_nil, List.length_singleton, List.range_succ]
        rw [hM0]
        simp only
        rw [h.idx, h.iter]
      · simp only [saveGridsAndFigs, List.length_append, List.length_singleton]
        rw [hM0]
        simp only
        rw [h.iter]
      · intro x hx
        simp only [List.getLast?_append, List.getLast?_singleton, Option.some_or, Option.mem_def,
          Option.some.injEq] at hx
        subst hx
        simp
      · intro i
        simp only [saveGridsAndFigs]
        rw [hM0]
        simp only
        by_cases hc : cfg.saveNc = true
        · simp only [hc, if_true]
          rw [h.iter]
          by_cases hi : i = M.saves.length
          · subst hi
            simp
          · rw [Function.update_of_ne hi, h.nc i, if_pos hc]
            rcases Nat.lt_or_ge i M.saves.length with hl | hl
            · rw [List.getElem?_append_left hl]
            · rw [List.getElem?_eq_none hl, List.getElem?_eq_none (by simp; omega)]
        · have := h.nc i
          simp only [hc, Bool.false_eq_true, if_false] at this ⊢
          exact this
      · simp only [saveGridsAndFigs, List.foldl_append, List.foldl_cons, List.foldl_nil]
        rw [hM0]
        simp only
        rw [h.figs]
    · rw [if_neg hd]
      rw [hsince] at hd
      simp only [due, decide_eq_true_eq, not_le] at hd
      refine ⟨is, hsch.skip ?_, hsnaps, h.idx, h.iter, ?_, h.nc, h.figs⟩
      · intro x hx
        rw [hla] at hx
        simp only [Option.mem_def, Option.some.injEq] at hx
        subst hx
        exact hd
      · intro x hx
        rw [hla] at hx
        simp only [Option.mem_def, Option.some.injEq] at hx
        subst hx
        exact hsince
  -- the checkpoints
  obtain ⟨js', k1⟩ : ∃ js' : List ℕ, (cfg.saveCkpt = true →
      OnSchedule cfg.ckptDt T' (Ps.length + 1) js' ∧
      List.Forall₂ (CkptAfter g cfg (Ps ++ [P]) S s) js'
        (outputCheckpoint cfg (outputData cfg M0)).ckpts ∧
      ∀ x ∈ js'.getLast?, (outputCheckpoint cfg (outputData cfg M0)).ckptSince =
        some (T' (Ps.length + 1) - T' x)) := by
    by_cases hc : cfg.saveCkpt = true
    · have hsc := OnSchedule.congr (h.ckSched hc) hTT (h.ckSched hc).le
      have hck : List.Forall₂ (CkptAfter g cfg (Ps ++ [P]) S s) js M.ckpts :=
        forall₂_imp_left (h.ckSnaps hc) (fun a ha b hb => hb.snoc ((h.ckSched hc).le a ha))
      obtain ⟨b, hlb⟩ := last_cases (h.ckSched hc).ne_nil
      have hble : b ≤ Ps.length := ((h.ckSched hc).last b hlb).1
      have hsi : (outputData cfg M0).ckptSince = some (T' (Ps.length + 1) - T' b) := by
        rw [d4, hM0]
        simp only
        rw [h.ckSince hc b hlb, hlast, ← hTT _ le_rfl, ← hTT _ hble]
        simp only [addSince, Option.some.injEq]
        ring
      by_cases hd : due cfg.ckptDt (outputData cfg M0).ckptSince = true
      · refine ⟨js ++ [Ps.length + 1], fun _ => ⟨?_, ?_, ?_⟩⟩
        · rw [hsi] at hd
          simp only [due, decide_eq_true_eq] at hd
          refine hsc.fire (fun x hx => ?_)
          rw [hlb] at hx
          simp only [Option.mem_def, Option.some.injEq] at hx
          subst hx
          exact hd
        · have e : (outputCheckpoint cfg (outputData cfg M0)).ckpts =
              M.ckpts ++ [takeCkpt (outputCheckpoint cfg (outputData cfg M0))] := by
            rw [takeCkpt_outputCheckpoint]
            unfold outputCheckpoint
            rw [if_pos hd, if_pos hc]
            simp only
            rw [d6]
          rw [e]
          refine List.rel_append hck (List.Forall₂.cons ⟨_, ?_, rfl⟩ List.Forall₂.nil)
          rw [List.take_of_length_le (by simp)]
          exact hrun'
        · intro x hx
          simp only [List.getLast?_append, List.getLast?_singleton, Option.some_or, Option.mem_def,
            Option.some.injEq] at hx
          subst hx
          unfold outputCheckpoint
          rw [if_pos hd, if_pos hc]
          simp
      · refine ⟨js, fun _ => ⟨?_, ?_, ?_⟩⟩
        · rw [hsi] at hd
          simp only [due, decide_eq_true_eq, not_le] at hd
          refine hsc.skip (fun x hx => ?_)
          rw [hlb] at hx
          simp only [Option.mem_def, Option.some.injEq] at hx
          subst hx
          exact hd
        · unfold outputCheckpoint
          rw [if_neg hd, d6]
          exact hck
        · intro x hx
          rw [hlb] at hx
          simp only [Option.mem_def, Option.some.injEq] at hx
          subst hx
          unfold outputCheckpoint
          rw [if_neg hd]
          exact hsi
    · exact ⟨[], fun h' => absurd h' hc⟩
  refine ⟨is', js', ?_⟩
  constructor
  · exact ⟨ls ++ [l], by rw [c1, c2, d1, d2]; exact hrun1⟩
  · rw [c1, d1, hlen]; exact htime
  · rw [c3, d3]; exact hfin
  · rw [hlen]; exact w1
  · rw [c6]; exact w2
  · rw [c6]; exact w3
  · rw [c5, c6]; exact w4
  · intro x hx; rw [c4, hlen]; exact w5 x hx
  · intro i; rw [c7, c6]; exact w6 i
  · rw [c8, c6]; exact w7
  · intro hc; rw [hlen]; exact (k1 hc).1
  · intro hc; exact (k1 hc).2.1
  · intro hc x hx; rw [hlen]; exact (k1 hc).2.2 x hx
  · unfold outputCheckpoint
    split_ifs
    · simp
    · rw [d5, d6]; exact h.ckLast
    · rw [d5, d6]; exact h.ckLast
  · intro hc
    unfold outputCheckpoint
    simp only [hc, Bool.false_eq_true, if_false]
    split_ifs <;> (rw [d6]; exact h.ckOff hc)

lemma outInv {g : Rng K σ} {cfg : OutCfg K} {Ps : List (Params L W m K)} {S : State L W K} {s : σ}
    {M : Sim L W K σ} (h : updates g cfg Ps (startSim cfg S s) = .ok M) :
    ∃ is js, OutInv g cfg Ps S s M is js := by
  induction Ps using List.reverseRecOn generalizing M with
  | nil =>
    simp only [updates, Except.ok.injEq] at h
    subst h
    exact ⟨_, _, outInv_start g cfg S s⟩
  | append_singleton Ps P ih =>
    obtain ⟨M1, h1, h2⟩ := updates_snoc h
    obtain ⟨is, js, hi⟩ := ih h1
    exact outInv_step h1 hi h2

/-! ## C39, C40: saves -/

/-- C39: in every run, with any settings that may change between updates, data are saved at the
beginning and then at every first update at which `save_dt` has gone by since the last save; each save
shows the model at that moment. -/
theorem C39_schedule {g : Rng K σ} {cfg : OutCfg K} {Ps : List (Params L W m K)} {S : State L W K}
    {s : σ} {M : Sim L W K σ} (h : updates g cfg Ps (startSim cfg S s) = .ok M) :
    ∃ is, OnSchedule cfg.saveDt (clock S.time (Ps.map (·.dt))) Ps.length is ∧
      List.Forall₂ (fun k (w : ℕ × Record L W K) => Snapshot g Ps S s k w.2 ∧
        w.2.time = clock S.time (Ps.map (·.dt)) k) is M.saves := by
  obtain ⟨is, js, hi⟩ := outInv h
  exact ⟨is, hi.sched, hi.snaps⟩

lemma forall₂_getElem {α β : Type*} {R : α → β → Prop} : ∀ {as : List α} {bs : List β},
    List.Forall₂ R as bs → ∀ i (h1 : i < as.length) (h2 : i < bs.length), R as[i] bs[i] := by
  intro as bs h
  induction h with
  | nil => intro i h1; simp at h1
  | cons hd _ ih =>
    intro i h1 h2
    cases i with
    | zero => exact hd
    | succ i => exact ih i (by simpa using h1) (by simpa using h2)

lemma clock_step (t0 : K) : ∀ (dts : List K) (k : ℕ) (hk : k < dts.length),
    clock t0 dts (k + 1) = clock t0 dts k + dts[k] := by
  intro dts k hk
  unfold clock
  rw [List.take_succ_eq_append_getElem hk, List.sum_append, List.sum_singleton, add_assoc]

/-- C39: two consecutive saves are at least `save_dt` apart, and less than `save_dt` plus a timestep;
if one timestep reaches `save_dt` they are a timestep apart. -/
theorem C39_spacing {g : Rng K σ} {cfg : OutCfg K} {Ps : List (Params L W m K)} {S : State L W K}
    {s : σ} {M : Sim L W K σ} (h : updates g cfg Ps (startSim cfg S s) = .ok M) {dt : K}
    (hdt : ∀ P ∈ Ps, P.dt = dt) (hpos : 0 < cfg.saveDt) (i : ℕ) (hi : i + 1 < M.saves.length) :
    cfg.saveDt ≤ M.saves[i + 1].2.time - M.saves[i].2.time ∧
    M.saves[i + 1].2.time - M.saves[i].2.time < cfg.saveDt + dt ∧
    (cfg.saveDt ≤ dt → M.saves[i + 1].2.time - M.saves[i].2.time = dt) := by
  obtain ⟨is, h1, h2⟩ := C39_schedule h
  have hlen := h2.length_eq
  have e1 := (forall₂_getElem h2 i (by omega) (by omega)).2
  have e2 := (forall₂_getElem h2 (i + 1) (by omega) hi).2
  obtain ⟨n1, n2, n3⟩ := List.isChain_iff_getElem.1 h1.next i (by omega)
  have hle := h1.le is[i + 1] (List.getElem_mem (by omega))
  rw [e1, e2]
  set T := clock S.time (Ps.map (·.dt)) with hT
  have hstep : ∀ k, k < Ps.length → T (k + 1) = T k + dt := by
    intro k hk
    rw [hT, clock_step _ _ k (by simpa using hk)]
    simp [hdt _ (List.getElem_mem hk)]
  obtain ⟨b, hb⟩ : ∃ b, is[i + 1] = b + 1 := ⟨is[i + 1] - 1, by omega⟩
  rw [hb] at n1 n2 n3 hle ⊢
  have hsb := hstep b (by omega)
  refine ⟨n2, ?_, fun hd => ?_⟩
  · rcases Nat.lt_or_ge is[i] b with hlt | hge
    · have := n3 b hlt (by omega)
      rw [hsb]; linarith
    · have : b = is[i] := by omega
      rw [hsb, this]; linarith
  · rcases Nat.lt_or_ge is[i] b with hlt | hge
    · exfalso
      have h3 := n3 (is[i] + 1) (by omega) (by omega)
      rw [hstep is[i] (by omega)] at h3
      linarith
    · have : b = is[i] := by omega
      rw [hsb, this]; ring

lemma clock_const {Ps : List (Params L W m K)} {dt : K} (hdt : ∀ P ∈ Ps, P.dt = dt) (t0 : K) :
    ∀ k ≤ Ps.length, clock t0 (Ps.map (·.dt)) k = t0 + (k : K) * dt := by
  intro k
  induction k with
  | zero => intro _; simp [clock]
  | succ k ih =>
    intro hk
    rw [clock_step _ _ k (by simpa using hk), ih (by omega)]
    simp [hdt _ (List.getElem_mem (show k < Ps.length by omega))]
    ring

/-- C39: with a constant timestep the saves are exactly those after `0, p, 2p, ...` updates, where `p`
is the smallest positive number of timesteps that reaches `save_dt`. -/
theorem C39_constant {g : Rng K σ} {cfg : OutCfg K} {Ps : List (Params L W m K)} {S : State L W K}
    {s : σ} {M : Sim L W K σ} (h : updates g cfg Ps (startSim cfg S s) = .ok M) {dt : K}
    (hdt : ∀ P ∈ Ps, P.dt = dt) (hpos : 0 < dt) :
    M.saves.length = Ps.length / max 1 ⌈cfg.saveDt / dt⌉₊ + 1 ∧
    ∀ i (hi : i < M.saves.length),
      M.saves[i].2.time = S.time + ((i * max 1 ⌈cfg.saveDt / dt⌉₊ : ℕ) : K) * dt ∧
      Snapshot g Ps S s (i * max 1 ⌈cfg.saveDt / dt⌉₊) M.saves[i].2 := by
  obtain ⟨is, h1, h2⟩ := C39_schedule h
  have hu := h1.unique (onSchedule_const hpos (clock_const hdt S.time))
  have hlen := h2.length_eq
  have hl : is.length = Ps.length / period cfg.saveDt dt + 1 := by rw [hu]; simp
  refine ⟨by rw [← hlen, hl]; rfl, fun i hi => ?_⟩
  obtain ⟨e1, e2⟩ := forall₂_getElem h2 i (by omega) hi
  have hisi : is[i]'(by omega) = i * period cfg.saveDt dt := by
    simp [hu]
  have hle := h1.le _ (List.getElem_mem (show i < is.length by omega))
  rw [clock_const hdt _ _ hle, hisi] at e2
  rw [hisi] at e1
  exact ⟨e2, e1⟩

/-- C40: the saves have the indices 0, 1, 2, ..., and record `i` of the output file is save `i`; there
are no other records. -/
theorem C40_records {g : Rng K σ} {cfg : OutCfg K} {Ps : List (Params L W m K)} {S : State L W K}
    {s : σ} {M : Sim L W K σ} (h : updates g cfg Ps (startSim cfg S s) = .ok M) :
    (∀ i (hi : i < M.saves.length), M.saves[i].1 = i) ∧
    (cfg.saveNc = true → ∀ i, M.nc i = (M.saves[i]?).map Prod.snd) ∧
    (cfg.saveNc = false → ∀ i, M.nc i = none) := by
  obtain ⟨is, js, hi⟩ := outInv h
  refine ⟨fun i hl => ?_, fun hc i => ?_, fun hc i => ?_⟩
  · have := hi.idx
    have h2 : (M.saves.map Prod.fst)[i]'(by simpa using hl) = i := by
      simp [this]
    simpa using h2
  · rw [hi.nc i, if_pos hc]
  · rw [hi.nc i, hc]; rfl

lemma clock_strict {Ps : List (Params L W m K)} (hdt : ∀ P ∈ Ps, 0 < P.dt) (t0 : K) :
    ∀ {a b : ℕ}, a < b → b ≤ Ps.length →
      clock t0 (Ps.map (·.dt)) a < clock t0 (Ps.map (·.dt)) b := by
  intro a b hab
  induction b, hab using Nat.le_induction with
  | base =>
    intro hb
    rw [clock_step _ _ a (by simpa using hb)]
    have := hdt _ (List.getElem_mem (show a < Ps.length by omega))
    simp only [List.getElem_map]
    linarith
  | succ b _ ih =>
    intro hb
    have h1 := ih (by omega)
    rw [clock_step _ _ b (by simpa using hb)]
    have := hdt _ (List.getElem_mem (show b < Ps.length by omega))
    simp only [List.getElem_map]
    linarith

lemma chain_getElem_lt {d : K} {T : ℕ → K} {is : List ℕ} (h : is.IsChain (NextDue d T)) :
    ∀ {i j : ℕ} (hi : i < is.length) (hj : j < is.length), i < j → is[i] < is[j] := by
  intro i j hi hj hij
  induction j, hij using Nat.le_induction with
  | base => exact (List.isChain_iff_getElem.1 h i (by omega)).1
  | succ j hij ih =>
    have h1 := ih (by omega)
    have h2 := (List.isChain_iff_getElem.1 h j (by omega)).1
    omega

/-- C40: the recorded times are strictly increasing. -/
theorem C40_times {g : Rng K σ} {cfg : OutCfg K} {Ps : List (Params L W m K)} {S : State L W K}
    {s : σ} {M : Sim L W K σ} (h : updates g cfg Ps (startSim cfg S s) = .ok M)
    (hdt : ∀ P ∈ Ps, 0 < P.dt) {i j : ℕ} (hj : j < M.saves.length) (hij : i < j) :
    (M.saves[i]'(by omega)).2.time < M.saves[j].2.time := by
  obtain ⟨is, h1, h2⟩ := C39_schedule h
  have hlen := h2.length_eq
  rw [(forall₂_getElem h2 i (by omega) (by omega)).2, (forall₂_getElem h2 j (by omega) hj).2]
  exact clock_strict hdt _ (chain_getElem_lt h1.next (by omega) (by omega) hij)
    (h1.le _ (List.getElem_mem (by omega)))

lemma update_keeps {g : Rng K σ} {cfg : OutCfg K} {P : Params L W m K} {M M' : Sim L W K σ}
    (h : update g cfg P M = .ok M') :
    M.saveIter ≤ M'.saveIter ∧ ∀ i < M.saveIter, M'.nc i = M.nc i := by
  obtain ⟨-, S, l, s, -, rfl⟩ := update_ok h
  unfold afterStep
  obtain ⟨c1, c2, c3, c4, c5, c6, c7, c8⟩ := outputCheckpoint_frame cfg (outputData cfg
    { M with S := S, rng := s, saveSince := addSince P.dt M.saveSince,
             ckptSince := addSince P.dt M.ckptSince })
  rw [c5, c7]
  unfold outputData
  split_ifs with hd
  · refine ⟨by simp, fun i hi => ?_⟩
    simp only [saveGridsAndFigs]
    split_ifs
    · rw [Function.update_of_ne (by omega)]
    · rfl
  · exact ⟨le_rfl, fun i _ => rfl⟩

/-- C40: later updates never change a record that was written before. -/
theorem C40_kept {g : Rng K σ} {cfg : OutCfg K} : ∀ {Ps : List (Params L W m K)} {M M' : Sim L W K σ},
    updates g cfg Ps M = .ok M' →
    M.saveIter ≤ M'.saveIter ∧ ∀ i < M.saveIter, M'.nc i = M.nc i := by
  intro Ps
  induction Ps with
  | nil =>
    intro M M' h
    simp only [updates, Except.ok.injEq] at h
    subst h
    exact ⟨le_rfl, fun i _ => rfl⟩
  | cons P Ps ih =>
    intro M M' h
    simp only [updates] at h
    cases hu : update g cfg P M with
    | error e => simp [hu] at h
    | ok M1 =>
      simp only [hu] at h
      obtain ⟨a1, a2⟩ := update_keeps hu
      obtain ⟨b1, b2⟩ := ih h
      exact ⟨by omega, fun i hi => by rw [b2 i (by omega), a2 i hi]⟩

/-! ## C42: checkpoints -/

/-- C42: with checkpointing on, checkpoints are written at the beginning and then at every first update
at which `checkpoint_dt` has gone by; each holds the model after that update, the file on disk is the
last one, and it is less than `checkpoint_dt` old unless written in this very update. With
checkpointing off there is none. -/
theorem C42_schedule {g : Rng K σ} {cfg : OutCfg K} {Ps : List (Params L W m K)} {S : State L W K}
    {s : σ} {M : Sim L W K σ} (h : updates g cfg Ps (startSim cfg S s) = .ok M) :
    (cfg.saveCkpt = true → ∃ js k, OnSchedule cfg.ckptDt (clock S.time (Ps.map (·.dt))) Ps.length js ∧
      List.Forall₂ (CkptAfter g cfg Ps S s) js M.ckpts ∧
      js.getLast? = some k ∧ (∃ c, M.ckpt = some c ∧ CkptAfter g cfg Ps S s k c) ∧
      (k = Ps.length ∨ M.S.time - clock S.time (Ps.map (·.dt)) k < cfg.ckptDt)) ∧
    (cfg.saveCkpt = false → M.ckpt = none ∧ M.ckpts = []) := by
  obtain ⟨is, js, hi⟩ := outInv h
  refine ⟨fun hc => ?_, fun hc => ⟨by rw [hi.ckLast, hi.ckOff hc]; rfl, hi.ckOff hc⟩⟩
  have hs := hi.ckSched hc
  have hf := hi.ckSnaps hc
  obtain ⟨k, hk⟩ := last_cases hs.ne_nil
  refine ⟨js, k, hs, hf, hk, ?_, ?_⟩
  · have hlen := hf.length_eq
    rw [List.getLast?_eq_getElem?] at hk
    obtain ⟨h1, h2⟩ := List.getElem?_eq_some_iff.1 hk
    have := forall₂_getElem hf (js.length - 1) h1 (by omega)
    rw [h2] at this
    refine ⟨M.ckpts[js.length - 1]'(by omega), ?_, this⟩
    rw [hi.ckLast, List.getLast?_eq_getElem?]
    simp [hlen]
  · obtain ⟨h1, h2⟩ := hs.last k hk
    rcases Nat.lt_or_ge k Ps.length with hlt | hge
    · right
      rw [hi.time]
      exact h2 _ hlt le_rfl
    · left; omega

/-- C42: with a constant timestep the checkpoints are those after `0, q, 2q, ...` updates. -/
theorem C42_constant {g : Rng K σ} {cfg : OutCfg K} {Ps : List (Params L W m K)} {S : State L W K}
    {s : σ} {M : Sim L W K σ} (h : updates g cfg Ps (startSim cfg S s) = .ok M)
    (hc : cfg.saveCkpt = true) {dt : K} (hdt : ∀ P ∈ Ps, P.dt = dt) (hpos : 0 < dt) :
    M.ckpts.length = Ps.length / max 1 ⌈cfg.ckptDt / dt⌉₊ + 1 ∧
    ∀ i (hi : i < M.ckpts.length),
      CkptAfter g cfg Ps S s (i * max 1 ⌈cfg.ckptDt / dt⌉₊) M.ckpts[i] := by
  obtain ⟨js, k, h1, h2, -⟩ := (C42_schedule h).1 hc
  have hu := h1.unique (onSchedule_const hpos (clock_const hdt S.time))
  have hlen := h2.length_eq
  have hl : js.length = Ps.length / period cfg.ckptDt dt + 1 := by rw [hu]; simp
  refine ⟨by rw [← hlen, hl]; rfl, fun i hi => ?_⟩
  have e1 := forall₂_getElem h2 i (by omega) hi
  have hisi : js[i]'(by omega) = i * period cfg.ckptDt dt := by simp [hu]
  rw [hisi] at e1
  exact e1

/-! ## C46: life cycle -/

/-- C46: an update or finalize of a finalized model raises and the model is as before. -/
theorem C46_finalized (g : Rng K σ) (cfg : OutCfg K) {M : Sim L W K σ} (h : M.finalized = true) :
    ∀ cs : List (Call L W m K),
      calls g cfg cs M = (List.replicate cs.length (some CallErr.finalized), M) := by
  intro cs
  induction cs with
  | nil => rfl
  | cons c cs ih =>
    have hc : call g cfg M c = .error .finalized := by
      cases c <;> simp [call, update, Verif.Model.finalize, h]
    simp only [calls, hc, ih, List.length_cons, List.replicate_succ]

/-- An update never finalizes the model, and raises the error of the life cycle only for a finalized
model. -/
lemma update_life {g : Rng K σ} {cfg : OutCfg K} {P : Params L W m K} {M : Sim L W K σ}
    (h : M.finalized = false) {M' : Sim L W K σ} (hu : update g cfg P M = .ok M') :
    M'.finalized = false := by
  obtain ⟨-, S, l, s, -, rfl⟩ := update_ok hu
  unfold afterStep
  rw [(outputCheckpoint_frame cfg _).2.2.1, (outputData_frame cfg _).2.2.1]
  exact h

/-- C46: in every sequence of calls, call number `k` is refused as finalized exactly if one of the
calls before it was finalize, and only the first finalize is accepted. -/
theorem C46_calls {g : Rng K σ} {cfg : OutCfg K} :
    ∀ {cs : List (Call L W m K)} {M : Sim L W K σ}, M.finalized = false →
    (calls g cfg cs M).1.length = cs.length ∧
    (∀ k (hk : k < cs.length), (calls g cfg cs M).1[k]? = some (some CallErr.finalized) ↔
      ∃ j, j < k ∧ cs[j]? = some Call.finalize) ∧
    ((calls g cfg cs M).2.finalized = true ↔ Call.finalize ∈ cs) := by
  intro cs
  induction cs with
  | nil => intro M h; simp [calls, h]
  | cons c cs ih =>
    intro M h
    cases c with
    | finalize =>
      have hc : call (m := m) g cfg M .finalize = .ok { M with finalized := true } := by
        simp [call, Verif.Model.finalize, h]
      simp only [calls, hc]
      rw [C46_finalized g cfg rfl]
      refine ⟨by simp, fun k hk => ?_, by simp⟩
      cases k with
      | zero => simp
      | succ k =>
        simp only [List.length_cons, Nat.add_lt_add_iff_right] at hk
        simp only [List.getElem?_cons_succ]
        rw [List.getElem?_replicate, if_pos hk]
        exact ⟨fun _ => ⟨0, by omega, rfl⟩, fun _ => rfl⟩
    | update P =>
      have key : ∀ (o : Option CallErr) (M1 : Sim L W K σ), M1.finalized = false →
          o ≠ some CallErr.finalized →
          (o :: (calls g cfg cs M1).1).length = (Call.update P :: cs).length ∧
          (∀ k (hk : k < (Call.update P :: cs).length),
            (o :: (calls g cfg cs M1).1)[k]? = some (some CallErr.finalized) ↔
            ∃ j, j < k ∧ (Call.update P :: cs)[j]? = some Call.finalize) ∧
          ((calls g cfg cs M1).2.finalized = true ↔ Call.finalize ∈ Call.update P :: cs) := by
        intro o M1 h1 ho
        obtain ⟨i1, i2, i3⟩ := ih h1
        refine ⟨by simp [i1], fun k hk => ?_, by simp [i3]⟩
        cases k with
        | zero => simp [ho]
        | succ k =>
          simp only [List.length_cons, Nat.add_lt_add_iff_right] at hk
          simp only [List.getElem?_cons_succ]
          rw [i2 k hk]
          constructor
          · rintro ⟨j, hj, e⟩
            exact ⟨j + 1, by omega, by simpa using e⟩
          · rintro ⟨j, hj, e⟩
            cases j with
            | zero => simp at e
            | succ j => exact ⟨j, by omega, by simpa using e⟩
      cases hu : update g cfg P M with
      | error e =>
        have hc : call g cfg M (.update P) = .error e := hu
        simp only [calls, hc]
        refine key _ M h ?_
        intro he
        simp only [Option.some.injEq] at he
        subst he
        unfold update at hu
        simp only [h, Bool.false_eq_true, if_false] at hu
        generalize ht : timestep g P M.S M.rng = x at hu
        cases x with
        | error e => simp at hu
        | ok v => simp at hu
      | ok M1 =>
        have hc : call g cfg M (.update P) = .ok M1 := hu
        simp only [calls, hc]
        exact key _ M1 (update_life h hu) (by simp)

end Verif.Props
