import Verif.Props.FigName

/-!
# C94: what is saved has no effect on the run
-/

set_option linter.unusedSectionVars false
set_option linter.unusedSimpArgs false

namespace Verif.Props

open Verif.Model Verif.Lemmas Verif.Spec

variable {K : Type*} [Field K] [LinearOrder K] [IsStrictOrderedRing K] [FloorRing K] {σ : Type*}
variable {L W m : ℕ} [NeZero L] [NeZero W]

/-- Two models that may differ in what was saved. -/
def SameModel (M M' : Sim L W K σ) : Prop := M.S = M'.S ∧ M.rng = M'.rng ∧ M.finalized = M'.finalized

lemma sameModel_after (cfg cfg' : OutCfg K) {M M' : Sim L W K σ} (h : SameModel M M') :
    SameModel (outputCheckpoint cfg (outputData cfg M)) (outputCheckpoint cfg' (outputData cfg' M')) := by
  have k : ∀ (cfg : OutCfg K) (M : Sim L W K σ), SameModel (outputCheckpoint cfg (outputData cfg M)) M := by
    intro cfg M
    unfold outputCheckpoint outputData saveGridsAndFigs
    simp only
    split_ifs <;> exact ⟨rfl, rfl, rfl⟩
  obtain ⟨a1, a2, a3⟩ := k cfg M
  obtain ⟨b1, b2, b3⟩ := k cfg' M'
  exact ⟨a1.trans (h.1.trans b1.symm), a2.trans (h.2.1.trans b2.symm), a3.trans (h.2.2.trans b3.symm)⟩

/-- C94: every call of a session raises the same whatever is saved, and leaves the same fields and random numbers. -/
theorem C94_session (g : Rng K σ) (cfg cfg' : OutCfg K) :
    ∀ (cs : List (Call L W m K)) {M M' : Sim L W K σ}, SameModel M M' →
      (calls g cfg cs M).1 = (calls g cfg' cs M').1 ∧ SameModel (calls g cfg cs M).2 (calls g cfg' cs M').2 := by
  intro cs
  induction cs with
  | nil => intro M M' h; exact ⟨rfl, h⟩
  | cons c cs ih =>
    intro M M' h
    obtain ⟨h1, h2, h3⟩ := h
    cases c with
    | finalize =>
      simp only [calls, call, finalize]
      rw [← h3]
      by_cases hf : M.finalized = true
      · simp only [if_pos hf]
        obtain ⟨i1, i2⟩ := ih (M := M) (M' := M') ⟨h1, h2, h3⟩
        exact ⟨by rw [i1], i2⟩
      · simp only [if_neg hf]
        obtain ⟨i1, i2⟩ := ih (M := { M with finalized := true }) (M' := { M' with finalized := true })
          ⟨h1, h2, rfl⟩
        exact ⟨by rw [i1], i2⟩
    | update P =>
      simp only [calls, call, update]
      rw [← h3]
      by_cases hf : M.finalized = true
      · simp only [if_pos hf]
        obtain ⟨i1, i2⟩ := ih (M := M) (M' := M') ⟨h1, h2, h3⟩
        exact ⟨by rw [i1], i2⟩
      · simp only [if_neg hf]
        rw [← h1, ← h2]
        cases timestep g P M.S M.rng with
        | error e =>
          obtain ⟨i1, i2⟩ := ih (M := M) (M' := M') ⟨h1, h2, h3⟩
          exact ⟨by simp only [i1], i2⟩
        | ok r =>
          obtain ⟨S, l, s⟩ := r
          simp only
          have hs : SameModel (afterStep cfg P.dt M S s) (afterStep cfg' P.dt M' S s) := by
            unfold afterStep
            exact sameModel_after cfg cfg' ⟨rfl, rfl, h3⟩
          obtain ⟨i1, i2⟩ := ih hs
          exact ⟨by rw [i1], i2⟩

/-- C94: a new model, from its creation on. -/
theorem C94_run (g : Rng K σ) (cfg cfg' : OutCfg K) (cs : List (Call L W m K)) (S : State L W K) (s : σ) :
    (calls g cfg cs (startSim cfg S s)).1 = (calls g cfg' cs (startSim cfg' S s)).1 ∧
      (calls g cfg cs (startSim cfg S s)).2.S = (calls g cfg' cs (startSim cfg' S s)).2.S ∧
      (calls g cfg cs (startSim cfg S s)).2.rng = (calls g cfg' cs (startSim cfg' S s)).2.rng := by
  obtain ⟨h1, h2, h3, -⟩ := C94_session g cfg cfg' cs (M := startSim cfg S s) (M' := startSim cfg' S s)
    (sameModel_after cfg cfg' ⟨rfl, rfl, rfl⟩)
  exact ⟨h1, h2, h3⟩

lemma snapshot_unique {g : Rng K σ} {Ps : List (Params L W m K)} {S : State L W K} {s : σ} {k : ℕ}
    {r r' : Record L W K} (h : Snapshot g Ps S s k r) (h' : Snapshot g Ps S s k r') : r = r' := by
  obtain ⟨t1, ls, s1, e1⟩ := h
  obtain ⟨t2, ls', s2, e2⟩ := h'
  rw [e1] at e2
  simp only [Except.ok.injEq, Prod.mk.injEq] at e2
  obtain ⟨e2, -⟩ := e2
  cases r
  cases r'
  simp only at *
  subst e2
  rw [t1, t2]

/-- C94: records of the same time in two runs that differ in what is saved and when show the same fields. -/
theorem C94_records {g : Rng K σ} {cfg cfg' : OutCfg K} {Ps : List (Params L W m K)} {S : State L W K} {s : σ}
    {M M' : Sim L W K σ} (h : updates g cfg Ps (startSim cfg S s) = .ok M)
    (h' : updates g cfg' Ps (startSim cfg' S s) = .ok M') (hdt : ∀ P ∈ Ps, 0 < P.dt)
    {w w' : ℕ × Record L W K} (hw : w ∈ M.saves) (hw' : w' ∈ M'.saves) (ht : w.2.time = w'.2.time) :
    w.2 = w'.2 := by
  obtain ⟨is, o1, f1⟩ := C39_schedule h
  obtain ⟨js, o2, f2⟩ := C39_schedule h'
  obtain ⟨i, hi, rfl⟩ := List.mem_iff_getElem.1 hw
  obtain ⟨j, hj, rfl⟩ := List.mem_iff_getElem.1 hw'
  have l1 := f1.length_eq
  have l2 := f2.length_eq
  obtain ⟨a1, a2⟩ := forall₂_getElem f1 i (by omega) hi
  obtain ⟨b1, b2⟩ := forall₂_getElem f2 j (by omega) hj
  have n1 := o1.le _ (List.getElem_mem (show i < is.length by omega))
  have n2 := o2.le _ (List.getElem_mem (show j < js.length by omega))
  rw [a2, b2] at ht
  have e : is[i] = js[j] := by
    rcases lt_trichotomy (is[i]) (js[j]) with h | h | h
    · exact absurd ht (clock_strict hdt S.time h n2).ne
    · exact h
    · exact absurd ht (clock_strict hdt S.time h n1).ne'
  rw [e] at a1
  exact snapshot_unique a1 b1

lemma onSchedule_all {d : K} {T : ℕ → K} {n : ℕ} {is : List ℕ} (h : OnSchedule d T n is)
    (hd : ∀ k < n, d ≤ T (k + 1) - T k) : ∀ k ≤ n, k ∈ is := by
  intro k
  induction k with
  | zero =>
    intro _
    have := h.first
    exact List.mem_of_head? this
  | succ k ih =>
    intro hk
    obtain ⟨i, hi, e⟩ := List.mem_iff_getElem.1 (ih (by omega))
    by_cases hl : i + 1 < is.length
    · have := List.isChain_iff_getElem.1 h.next i hl
      rw [e] at this
      obtain ⟨b1, b2, b3⟩ := this
      have : is[i + 1] = k + 1 := by
        by_contra hne
        have := b3 (k + 1) (by omega) (by omega)
        have := hd k (by omega)
        linarith
      exact this ▸ List.getElem_mem hl
    · have hg : is.getLast? = some k := by
        rw [List.getLast?_eq_getElem?, show is.length - 1 = i by omega, List.getElem?_eq_getElem hi, e]
      have := (h.last k hg).2 (k + 1) (by omega) hk
      have := hd k (by omega)
      linarith

/-- C94: a run that saves every timestep has all records that the run with any other interval has. -/
theorem C94_finer {g : Rng K σ} {cfg cfg' : OutCfg K} {Ps : List (Params L W m K)} {S : State L W K} {s : σ}
    {M M' : Sim L W K σ} (h : updates g cfg Ps (startSim cfg S s) = .ok M)
    (h' : updates g cfg' Ps (startSim cfg' S s) = .ok M') (hdt : ∀ P ∈ Ps, 0 < P.dt)
    (hf : ∀ P ∈ Ps, cfg'.saveDt ≤ P.dt) : ∀ w ∈ M.saves, ∃ w' ∈ M'.saves, w'.2 = w.2 := by
  intro w hw
  obtain ⟨is, o1, f1⟩ := C39_schedule h
  obtain ⟨js, o2, f2⟩ := C39_schedule h'
  obtain ⟨i, hi, rfl⟩ := List.mem_iff_getElem.1 hw
  have l1 := f1.length_eq
  have l2 := f2.length_eq
  obtain ⟨a1, -⟩ := forall₂_getElem f1 i (by omega) hi
  have n1 := o1.le _ (List.getElem_mem (show i < is.length by omega))
  have hm := onSchedule_all o2 (by
    intro k hk
    rw [clock_step _ _ k (by simpa using hk)]
    have := hf _ (List.getElem_mem hk)
    simp only [List.getElem_map]
    linarith) _ n1
  obtain ⟨j, hj, e⟩ := List.mem_iff_getElem.1 hm
  obtain ⟨b1, -⟩ := forall₂_getElem f2 j hj (by omega)
  rw [e] at b1
  exact ⟨_, List.getElem_mem (by omega), snapshot_unique b1 a1⟩

/-- C94: checkpoints hold the same model whatever else is saved and when. -/
theorem C94_checkpoints {g : Rng K σ} {cfg cfg' : OutCfg K} {Ps : List (Params L W m K)} {S : State L W K} {s : σ}
    {M M' : Sim L W K σ} (h : updates g cfg Ps (startSim cfg S s) = .ok M)
    (h' : updates g cfg' Ps (startSim cfg' S s) = .ok M') (hdt : ∀ P ∈ Ps, 0 < P.dt)
    (hc : cfg.saveCkpt = true) (hc' : cfg'.saveCkpt = true) {c c' : Ckpt L W K σ} (hw : c ∈ M.ckpts)
    (hw' : c' ∈ M'.ckpts) (ht : c.time = c'.time) :
    c' = { c with saveIter := c'.saveIter, saveSince := c'.saveSince } := by
  obtain ⟨js, _, o1, f1, -⟩ := (C42_schedule h).1 hc
  obtain ⟨js', _, o2, f2, -⟩ := (C42_schedule h').1 hc'
  obtain ⟨i, hi, rfl⟩ := List.mem_iff_getElem.1 hw
  obtain ⟨j, hj, rfl⟩ := List.mem_iff_getElem.1 hw'
  have l1 := f1.length_eq
  have l2 := f2.length_eq
  obtain ⟨M1, a1, a2⟩ := forall₂_getElem f1 i (by omega) hi
  obtain ⟨M2, b1, b2⟩ := forall₂_getElem f2 j (by omega) hj
  have n1 := o1.le _ (List.getElem_mem (show i < js.length by omega))
  have n2 := o2.le _ (List.getElem_mem (show j < js'.length by omega))
  obtain ⟨_, _, v1⟩ := outInv a1
  obtain ⟨_, _, v2⟩ := outInv b1
  have key : ∀ k ≤ Ps.length, clock S.time ((Ps.take k).map (·.dt)) (Ps.take k).length =
      clock S.time (Ps.map (·.dt)) k := by
    intro k hk
    unfold clock
    rw [List.length_take, min_eq_left hk, ← List.map_take, List.take_take, min_self, List.map_take]
  have t1 := v1.time
  have t2 := v2.time
  rw [key _ n1] at t1
  rw [key _ n2] at t2
  rw [a2, b2] at ht
  change M1.S.time = M2.S.time at ht
  rw [t1, t2] at ht
  have e : js[i] = js'[j] := by
    rcases lt_trichotomy (js[i]) (js'[j]) with h | h | h
    · exact absurd ht (clock_strict hdt S.time h n2).ne
    · exact h
    · exact absurd ht (clock_strict hdt S.time h n1).ne'
  obtain ⟨ls1, s1⟩ := v1.state
  obtain ⟨ls2, s2⟩ := v2.state
  rw [e, s2] at s1
  simp only [Except.ok.injEq, Prod.mk.injEq] at s1
  rw [a2, b2]
  unfold takeCkpt
  simp only [s1.1, s1.2.2]

/-! ### Example -/

/-- Everything is saved at every timestep. -/
def exWatch : OutCfg ℚ := ⟨1, 1, true, true, ["eta".toList], true⟩

-- ten updates of the example that save at other times: the records at the same times are the same, and those of the
-- coarser run are among those of the finer
example : ∃ M M', updates constRng exOut (List.replicate 10 exParams) (startSim exOut exState ()) = .ok M ∧
    updates constRng exWatch (List.replicate 10 exParams) (startSim exWatch exState ()) = .ok M' ∧
    M.saves.length = 4 ∧ M'.saves.length = 11 ∧ (∀ w ∈ M.saves, ∃ w' ∈ M'.saves, w'.2 = w.2) ∧ M.S = M'.S := by
  have hP : ∀ P ∈ List.replicate 10 exParams, WaterSetup P ∧ SedDomain P ∧ 0 ≤ P.h0 := by
    intro P hP
    rw [List.eq_of_mem_replicate hP]
    exact ⟨exSetup, exSedDomain, by norm_num [exParams]⟩
  have hd : ∀ P ∈ List.replicate 10 exParams, P.dt = 1 := by
    intro P hP
    rw [List.eq_of_mem_replicate hP]
    rfl
  obtain ⟨M, h⟩ := exUpdates
  obtain ⟨M', h'⟩ := C46_accepted exPositive exWatch hP (M := startSim exWatch exState ()) rfl
    (fun c => by norm_num [exState, startSim, outputCheckpoint, outputData, due, newSim, exWatch,
      saveGridsAndFigs]) (by norm_num [exState, startSim, outputCheckpoint, outputData, due, newSim,
      exWatch, saveGridsAndFigs])
  have l1 := (C39_constant h hd (by norm_num)).1
  have l2 := (C39_constant h' hd (by norm_num)).1
  have e1 : ⌈exOut.saveDt / 1⌉₊ = 3 := by
    rw [Nat.ceil_eq_iff (by norm_num)]
    norm_num [exOut]
  have e2 : ⌈exWatch.saveDt / 1⌉₊ = 1 := by
    rw [Nat.ceil_eq_iff (by norm_num)]
    norm_num [exWatch]
  rw [e1] at l1
  rw [e2] at l2
  refine ⟨M, M', h, h', by simpa using l1, by simpa using l2, C94_finer h h' ?_ ?_, ?_⟩
  · intro P hP
    rw [hd P hP]
    norm_num
  · intro P hP
    rw [hd P hP]
    norm_num [exWatch]
  · obtain ⟨_, _, v1⟩ := outInv h
    obtain ⟨_, _, v2⟩ := outInv h'
    obtain ⟨ls1, s1⟩ := v1.state
    obtain ⟨ls2, s2⟩ := v2.state
    rw [s1] at s2
    simp only [Except.ok.injEq, Prod.mk.injEq] at s2
    exact s2.1

end Verif.Props
