import Verif.Props.CampaignDisk
import Verif.Props.FloatResume

/-!
# C102: runs that are resumed several times, in rounded arithmetic
-/

set_option linter.unusedSectionVars false
set_option linter.unusedSimpArgs false

namespace Verif.Props

open Verif.Model Verif.Lemmas Verif.Spec

variable {K : Type*} [Field K] [LinearOrder K] [IsStrictOrderedRing K] [FloorRing K] {F D : Rounding K}
  {σ : Type*} {L W m : ℕ} [NeZero L] [NeZero W]

/-! ## Specification -/

/-- `X` is a model after any number of resumes, with any numbers of updates in between, and `f` is the checkpoint file. Each resume is from
the checkpoint and the output file as they were left; the state that the generator is seeded with may be another one each time. -/
inductive Chain (F D : Rounding K) (g : Rng K σ) (cfg : OutCfg K) (P : Params L W m K) (S : State L W K) (s : σ) :
    Sim L W K σ → Option (Ckpt L W K σ) → Prop
  | first {n : ℕ} {X : Sim L W K σ} (h : updatesR F D g cfg (List.replicate n P) (startSim cfg S s) = .ok X) :
      Chain F D g cfg P S s X X.ckpt
  | next {Y R X : Sim L W K σ} {ck : Ckpt L W K σ} (h : Chain F D g cfg P S s Y (some ck)) {n : ℕ} {s' : σ}
      (hl : loadCkpt cfg (some Y.nc) ck (newSim S s') = .ok R)
      (hu : updatesR F D g cfg (List.replicate n P) R = .ok X) : Chain F D g cfg P S s X (X.ckpt.or (some ck))

/-- Whole numbers are rounded to whole numbers. -/
def KeepsWhole (D : Rounding K) : Prop := ∀ z : ℤ, ∃ z' : ℤ, D.fl (z : K) = z'

lemma keepsWhole_binary (p : ℕ) (hp : 1 ≤ p) : KeepsWhole (binary K p hp) := by
  intro z
  change ∃ z' : ℤ, Verif.Model.nearest p (z : K) = (z' : K)
  unfold Verif.Model.nearest
  generalize Int.log 2 |(z : K)| + 1 - (p : ℤ) = e
  rcases le_or_gt e 0 with he | he
  · obtain ⟨k, rfl⟩ : ∃ k : ℕ, e = -k := ⟨e.toNat + (-e).toNat, by omega⟩
    refine ⟨z, ?_⟩
    have h : (z : K) / 2 ^ (-(k : ℤ)) = ((z * 2 ^ k : ℤ) : K) := by
      rw [zpow_neg, zpow_natCast, div_inv_eq_mul]
      push_cast
      rfl
    rw [h, rhe_int, zpow_neg, zpow_natCast]
    push_cast
    rw [mul_inv_cancel_right₀ (by positivity)]
  · obtain ⟨k, rfl⟩ : ∃ k : ℕ, e = k := ⟨e.toNat, by omega⟩
    exact ⟨roundHalfEven ((z : K) / 2 ^ (k : ℤ)) * 2 ^ k, by push_cast; rw [zpow_natCast]⟩

/-! ## What updates leave -/

lemma updateR_left {g : Rng K σ} {cfg : OutCfg K} {P : Params L W m K} {M M' : Sim L W K σ} (h : updateR F D g cfg P M = .ok M') :
    (M'.ckpt = M.ckpt ∨ M'.ckpt = some (takeCkpt M')) ∧ M.saveIter ≤ M'.saveIter ∧ (∀ i < M.saveIter, M'.nc i = M.nc i) ∧
      (KeepsWhole D → (∃ z : ℤ, P.dt = z) → WholeSince M → WholeSince M') := by
  obtain ⟨-, S, l, s, -, rfl⟩ := updateR_ok h
  unfold afterStepR
  set M1 : Sim L W K σ := { M with S := S, rng := s, saveSince := addSinceR D P.dt M.saveSince, ckptSince := addSinceR D P.dt M.ckptSince }
  have a : (outputData cfg M1).ckpt = M.ckpt := (outputData_frame cfg M1).2.2.2.2.1
  obtain ⟨-, -, -, b1, b2, -, b3, -⟩ := outputCheckpoint_frame cfg (outputData cfg M1)
  refine ⟨?_, ?_, ?_, ?_⟩
  · rw [takeCkpt_outputCheckpoint]
    unfold outputCheckpoint
    split_ifs
    · exact .inr rfl
    · exact .inl a
    · exact .inl a
  · rw [b2]
    unfold outputData
    split_ifs
    · exact Nat.le_succ _
    · exact le_rfl
  · intro i hi
    rw [b3]
    unfold outputData
    split_ifs
    · simp only [saveGridsAndFigs]
      split_ifs
      · rw [Function.update_of_ne (by change i ≠ M.saveIter; omega)]
      · rfl
    · rfl
  · rintro hD ⟨z, hz⟩ hw x hx
    rw [b1] at hx
    unfold outputData at hx
    split_ifs at hx
    · simp only [Option.some.injEq] at hx
      exact ⟨0, by rw [← hx]; simp⟩
    · change addSinceR D P.dt M.saveSince = some x at hx
      cases hs : M.saveSince with
      | none => rw [hs] at hx; cases hx
      | some y =>
        rw [hs] at hx
        simp only [addSinceR, Option.some.injEq] at hx
        obtain ⟨z', rfl⟩ := hw y hs
        obtain ⟨z2, h2⟩ := hD (z' + z)
        exact ⟨z2, by rw [← hx, hz, ← h2]; push_cast; rfl⟩

lemma updatesR_left {g : Rng K σ} {cfg : OutCfg K} {P : Params L W m K} : ∀ {n : ℕ} {M M' : Sim L W K σ},
    updatesR F D g cfg (List.replicate n P) M = .ok M' → M.saveIter ≤ M'.saveIter ∧ (∀ i < M.saveIter, M'.nc i = M.nc i) ∧
      (KeepsWhole D → (∃ z : ℤ, P.dt = z) → WholeSince M → WholeSince M') ∧
      (M'.ckpt = M.ckpt ∨ ∃ k B, k ≤ n ∧ updatesR F D g cfg (List.replicate k P) M = .ok B ∧ M'.ckpt = some (takeCkpt B) ∧
        ∀ i < B.saveIter, M'.nc i = B.nc i)
  | 0, M, M', h => by
    simp only [List.replicate_zero, updatesR, Except.ok.injEq] at h
    subst h
    exact ⟨le_rfl, fun _ _ => rfl, fun _ _ h => h, .inl rfl⟩
  | n + 1, M, M', h => by
    rw [List.replicate_succ] at h
    simp only [updatesR] at h
    cases hu : updateR F D g cfg P M with
    | error e => rw [hu] at h; cases h
    | ok M1 =>
      rw [hu] at h
      obtain ⟨a1, a2, a3, a4⟩ := updateR_left hu
      obtain ⟨b1, b2, b3, b4⟩ := updatesR_left h
      refine ⟨a2.trans b1, fun i hi => by rw [b2 i (by omega), a3 i hi], fun hD hz hw => b3 hD hz (a4 hD hz hw), ?_⟩
      rcases b4 with b4 | ⟨k, B, hk, hB, hc, hd⟩
      · rcases a1 with a1 | a1
        · exact .inl (b4.trans a1)
        · refine .inr ⟨1, M1, by omega, ?_, b4.trans a1, b2⟩
          simp only [List.replicate_one, updatesR, hu]
      · refine .inr ⟨k + 1, B, by omega, ?_, hc, hd⟩
        rw [List.replicate_succ]
        simp only [updatesR, hu, hB]

lemma updatesR_timeIter {g : Rng K σ} {cfg : OutCfg K} {P : Params L W m K} : ∀ {n : ℕ} {M M' : Sim L W K σ},
    updatesR F D g cfg (List.replicate n P) M = .ok M' → M'.S.timeIter = M.S.timeIter + n
  | 0, M, M', h => by
    simp only [List.replicate_zero, updatesR, Except.ok.injEq] at h
    subst h
    rfl
  | n + 1, M, M', h => by
    rw [List.replicate_succ] at h
    simp only [updatesR] at h
    cases hu : updateR F D g cfg P M with
    | error e => rw [hu] at h; cases h
    | ok M1 =>
      rw [hu] at h
      rw [updatesR_timeIter h]
      obtain ⟨-, S, l, s, ht, rfl⟩ := updateR_ok hu
      unfold afterStepR
      rw [(outputCheckpoint_frame cfg _).1, (outputData_frame cfg _).1]
      have := (C101_clock (F := F) (D := D) (n := 1) (P := P) (ls := [l]) (S := M.S) (s := M.rng) (S' := S) (s' := s) (g := g)
        (by simp only [List.replicate_one, timestepsR, ht])).2.2
      simp only [this]
      omega

/-- `X` is at the point where the run without a break is after `N` timesteps. -/
def PointAt (F D : Rounding K) (g : Rng K σ) (cfg : OutCfg K) (P : Params L W m K) (S : State L W K) (s : σ) (N : ℕ)
    (X : Sim L W K σ) : Prop :=
  ∃ M, updatesR F D g cfg (List.replicate N P) (startSim cfg S s) = .ok M ∧ Sync cfg M X

lemma pointAt_next {g : Rng K σ} {cfg : OutCfg K} {P : Params L W m K} {S : State L W K} {s : σ} (hP : 4 ≤ P.stepmax) {N : ℕ}
    {R : Sim L W K σ} (h : PointAt F D g cfg P S s N R) {n : ℕ} {X : Sim L W K σ}
    (hu : updatesR F D g cfg (List.replicate n P) R = .ok X) : PointAt F D g cfg P S s (N + n) X := by
  obtain ⟨M, hM, hs⟩ := h
  have h1 := updatesR_sync (F := F) (D := D) g cfg (Ps := List.replicate n P)
    (fun Q hQ => by rw [List.eq_of_mem_replicate hQ]; exact hP) hs
  rw [hu] at h1
  generalize hM' : updatesR F D g cfg (List.replicate n P) M = q at h1
  match q, h1 with
  | .ok M', h1 => exact ⟨M', by rw [List.replicate_add, updatesR_append hM, hM'], h1.1⟩

lemma pointAt_load {g : Rng K σ} {cfg : OutCfg K} {P : Params L W m K} {S : State L W K} {s s' : σ} (hS : 0 < S.ncols) {N : ℕ}
    {Z R : Sim L W K σ} (h : PointAt F D g cfg P S s N Z) (hw : WholeSince Z) {disk : ℕ → Option (Record L W K)}
    (hd : ∀ i < Z.saveIter, disk i = Z.nc i) (hl : loadCkpt cfg (some disk) (takeCkpt Z) (newSim S s') = .ok R) :
    PointAt F D g cfg P S s N R := by
  obtain ⟨M, hM, hs⟩ := h
  have hf : Z.finalized = false := by
    rw [hs.1.finalized]
    exact updatesR_life (start_frame cfg S s).2.2 hM
  have hs1 : Sync cfg Z R := load_sync hS hs.2.2 hf (fun x hx => by
    obtain ⟨z, rfl⟩ := hw x hx
    exact pyTrunc_whole z) hd hl
  exact ⟨M, hM, samePoint_trans hs.1 hs1.1, hs.2.1, hs1.2.2⟩

/-- C102: a run that is resumed any number of times, each time from the checkpoint that was left, whenever it was written, and with
timesteps of whole seconds, is at each of its ends at the point where the run without a break is after so many timesteps, number for
number also in rounded arithmetic; and so is the checkpoint. Partial: with other timesteps see `C113_second_resume`. -/
theorem C102_chain_partial {g : Rng K σ} {cfg : OutCfg K} {P : Params L W m K} {S : State L W K} {s : σ} (hP : 4 ≤ P.stepmax)
    (hS : 0 < S.ncols) (hD : KeepsWhole D) (hw : ∃ z : ℤ, P.dt = z) (hnc : cfg.saveNc = true) {X : Sim L W K σ}
    {f : Option (Ckpt L W K σ)} (h : Chain F D g cfg P S s X f) :
    (∃ N M, X.S.timeIter = S.timeIter + N ∧ updatesR F D g cfg (List.replicate N P) (startSim cfg S s) = .ok M ∧ SamePoint cfg M X) ∧
      ∀ ck, f = some ck → ∃ N M Z, ck.timeIter = S.timeIter + N ∧ updatesR F D g cfg (List.replicate N P) (startSim cfg S s) = .ok M ∧ SamePoint cfg M Z ∧
        ck = takeCkpt Z := by
  suffices key : (∃ N, PointAt F D g cfg P S s N X) ∧ ∀ ck, f = some ck → ∃ N Z, PointAt F D g cfg P S s N Z ∧ ck = takeCkpt Z ∧
      WholeSince Z ∧ ∀ i < Z.saveIter, X.nc i = Z.nc i by
    obtain ⟨⟨N, M, hM, hs⟩, hf⟩ := key
    have hi : ∀ {N : ℕ} {M Z : Sim L W K σ}, updatesR F D g cfg (List.replicate N P) (startSim cfg S s) = .ok M → Sync cfg M Z →
        Z.S.timeIter = S.timeIter + N := fun hM hs => by
      rw [hs.1.fields.timeIter, updatesR_timeIter hM, (start_frame cfg S s).1]
    refine ⟨⟨N, M, hi hM hs, hM, hs.1⟩, fun ck hck => ?_⟩
    obtain ⟨N', Z, ⟨M', hM', hs'⟩, h2, -⟩ := hf ck hck
    exact ⟨N', M', Z, by rw [h2]; exact hi hM' hs', hM', hs'.1, h2⟩
  have hstart : WholeSince (startSim cfg S s) := by
    intro x hx
    have : (startSim cfg S s).saveSince = some 0 := by
      unfold startSim
      rw [(outputCheckpoint_frame cfg _).2.2.2.1]
      rfl
    rw [this, Option.some.injEq] at hx
    exact ⟨0, by rw [← hx]; simp⟩
  have h0 : PointAt F D g cfg P S s 0 (startSim cfg S s) := by
    have hn : 0 < (startSim cfg S s).S.ncols := by rw [(start_frame cfg S s).1]; exact hS
    exact ⟨_, rfl, ⟨(sameState_withN (startSim cfg S s).S.ncols (startSim cfg S s).S).toSameFields, rfl, rfl, rfl, rfl,
      fun _ i _ => sameRecord_refl _⟩, hn, hn⟩
  induction h with
  | @first n X hu =>
    refine ⟨⟨_, pointAt_next hP h0 hu⟩, ?_⟩
    intro ck hck
    obtain ⟨-, hkeep, -, hl⟩ := updatesR_left hu
    rcases hl with hl | ⟨k, B, -, hB, hc1, hd⟩
    · rw [hl, start_ckpt] at hck
      split_ifs at hck
      exact ⟨0, _, h0, (Option.some.inj hck).symm, hstart, hkeep⟩
    · rw [hc1, Option.some.injEq] at hck
      exact ⟨_, B, pointAt_next hP h0 hB, hck.symm, (updatesR_left hB).2.2.1 hD hw hstart, hd⟩
  | @next Y R X ck hY n s' hl hu ih =>
    obtain ⟨N, Z, hZ, rfl, hZw, hZd⟩ := ih.2 _ rfl
    have hR := pointAt_load hS hZ hZw hZd hl
    have hx : ∃ x, (takeCkpt Z).saveSince = some x := by
      unfold loadCkpt at hl
      cases hx : (takeCkpt Z).saveSince with
      | none => rw [hx] at hl; cases hl
      | some x => exact ⟨x, rfl⟩
    obtain ⟨x, hx⟩ := hx
    rw [loadCkpt_ok hx, Except.ok.injEq] at hl
    have e1 : R.ckpt = none := by rw [← hl]; rfl
    have e2 : R.saveIter = Z.saveIter := by rw [← hl]; simp [withCkpt, takeCkpt]
    have e3 : R.nc = Y.nc := by rw [← hl]; simp [withCkpt, hnc]
    have e4 : WholeSince R := by
      intro y hy
      obtain ⟨z, rfl⟩ := hZw x hx
      rw [← hl] at hy
      simp only [withCkpt, pyTrunc_whole, Option.some.injEq] at hy
      exact ⟨z, hy.symm⟩
    refine ⟨⟨_, pointAt_next hP hR hu⟩, ?_⟩
    intro ck hck
    obtain ⟨-, hkeep, -, hl'⟩ := updatesR_left hu
    rcases hl' with hl' | ⟨k, B, -, hB, hc1, hd⟩
    · rw [hl', e1, Option.none_or, Option.some.injEq] at hck
      exact ⟨N, Z, hZ, hck.symm, hZw, fun i hi => by rw [hkeep i (by omega), e3, hZd i hi]⟩
    · rw [hc1, Option.some_or, Option.some.injEq] at hck
      exact ⟨_, B, pointAt_next hP hR hB, hck.symm, (updatesR_left hB).2.2.1 hD hw e4, hd⟩

/-! ## Non-trivial cases -/

lemma exChain_runs {M : Sim 4 3 ℚ Unit} (hf : M.finalized = false) (hd : ∀ c, 0 ≤ M.S.depth c) (hn : 0 < M.S.ncols) (n : ℕ) :
    ∃ M', updatesR single double constRng exOutDefault (List.replicate n exParams) M = .ok M' :=
  C102_accepted (within_binary _ _ (by norm_num)) exPositive exOutDefault (by
    intro P h
    rw [List.eq_of_mem_replicate h]
    exact ⟨exSetup, exSedDomain, by norm_num [exParams]⟩) hf hd hn

/-- The hypotheses of `C102_chain_partial` hold for the example in single and double precision: a run of seven timesteps of one second
that saves every two and a half, resumed to make the timesteps since the last
checkpoint again and one more. -/
example : 4 ≤ exParams.stepmax ∧ 0 < exState.ncols ∧ KeepsWhole (K := ℚ) double ∧ (∃ z : ℤ, exParams.dt = z) ∧
    exOutDefault.saveNc = true ∧ ∃ (X Y : Sim 4 3 ℚ Unit) (ck : Ckpt 4 3 ℚ Unit),
      Chain single double constRng exOutDefault exParams exState () X (some ck) ∧
      Chain single double constRng exOutDefault exParams exState () Y (Y.ckpt.or (some ck)) := by
  refine ⟨by decide, by decide, keepsWhole_binary _ _, ⟨1, by norm_num [exParams]⟩, rfl, ?_⟩
  obtain ⟨e1, -, e3⟩ := start_frame exOutDefault exState ()
  obtain ⟨X, hX⟩ := exChain_runs (M := startSim exOutDefault exState ()) e3 (by rw [e1]; intro c; norm_num [exState])
    (by rw [e1]; decide) 7
  obtain ⟨ck, k, B, R, d1, -, hB, hk, d2, hrel⟩ := C102_default_partial (Qs := List.replicate 1 exParams) (s' := ()) rfl rfl hX
    (by intro P h'; rw [List.eq_of_mem_replicate h']; decide) (by intro P h'; rw [List.eq_of_mem_replicate h']; decide) (by decide)
  obtain ⟨X8, hX8⟩ := exChain_runs (M := startSim exOutDefault exState ()) e3 (by rw [e1]; intro c; norm_num [exState])
    (by rw [e1]; decide) (7 + 1)
  rw [List.replicate_add, updatesR_append hX] at hX8
  rw [hX8, List.drop_replicate, ← List.replicate_add] at hrel
  generalize hY : updatesR single double constRng exOutDefault (List.replicate (7 - k + 1) exParams) R = q at hrel
  match q, hrel with
  | .ok Y, _ =>
    have h1 : Chain single double constRng exOutDefault exParams exState () X (some ck) := by
      rw [← d1]
      exact .first hX
    exact ⟨X, Y, ck, h1, .next h1 d2 hY⟩

end Verif.Props
