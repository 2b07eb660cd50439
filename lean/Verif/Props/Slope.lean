import Verif.Model.Slope
import Verif.Props.Campaign
import Verif.Props.Created
import Verif.Props.Budget

/-!
# C119: the sloping basin of the documentation
-/

set_option linter.unusedSectionVars false
set_option linter.unusedSimpArgs false

namespace Verif.Props

open Verif.Model Verif.Lemmas Verif.Spec

variable {K : Type*} [Field K] [LinearOrder K] [IsStrictOrderedRing K] [FloorRing K] {σ : Type*} {L W m : ℕ}

/-! ## Which domains -/

lemma many_columns {width dx : K} (hW : (W : ℤ) = cellsAlong width dx) (h2 : 2 ≤ W) : ⌈width / dx⌉.toNat ≠ 1 := by
  have hr := round_near (width / dx)
  rw [abs_le] at hr
  unfold cellsAlong at hW
  rw [← hW] at hr
  push_cast at hr
  have hx : (1 : K) < width / dx := by
    have : (2 : K) ≤ W := by exact_mod_cast h2
    linarith [hr.1, hr.2]
  intro h
  have h1 : (1 : ℤ) < ⌈width / dx⌉ := Int.lt_ceil.2 (by exact_mod_cast hx)
  omega

/-- C119: a domain with as many columns as the configuration gives can be tilted exactly if its cells are together not
less wide than the configured width; if the number of columns was rounded down, making the model is an error. -/
theorem C119_shape {slope width dx : K} (hdx : 0 < dx) (hW : (W : ℤ) = cellsAlong width dx) (h2 : 2 ≤ W) (L0 : ℤ)
    (S : State L W K) :
    (∃ S', tilt slope width dx L0 S = .ok S') ↔ width ≤ W * dx := by
  have hn1 := many_columns hW h2
  have hr := round_near (width / dx)
  rw [abs_le] at hr
  unfold cellsAlong at hW
  rw [← hW] at hr
  push_cast at hr
  have key : ⌈width / dx⌉.toNat = W ↔ width ≤ W * dx := by
    rw [← div_le_iff₀ hdx]
    constructor
    · intro h
      have h0 : ⌈width / dx⌉ = (W : ℤ) := by omega
      have := Int.le_ceil (width / dx)
      rw [h0] at this
      exact_mod_cast this
    · intro h
      have h3 : ⌈width / dx⌉ = (W : ℤ) := by
        rw [Int.ceil_eq_iff]
        refine ⟨?_, by exact_mod_cast h⟩
        push_cast
        linarith [hr.1]
      omega
  rw [← key]
  unfold tilt
  simp only
  constructor
  · rintro ⟨S', h⟩
    by_contra hne
    rw [if_neg hne, if_neg hn1] at h
    cases h
  · intro h
    rw [if_pos h]
    exact ⟨_, rfl⟩

/-- C119: what the tilt does: nothing but to the bed, nothing to the rows of the inlet, and in the basin it adds a bed
that rises by the slope from column to column and is zero at half the width. -/
theorem C119_tilted {slope width dx : K} (hW : (W : ℤ) = cellsAlong width dx) (h2 : 2 ≤ W) {L0 : ℤ}
    {S S' : State L W K} (h : tilt slope width dx L0 S = .ok S') :
    S' = { S with eta := S'.eta } ∧ (∀ c, (c.1.val : ℤ) < L0 → S'.eta c = S.eta c) ∧
      ∀ c, L0 ≤ c.1.val → S'.eta c = S.eta c + slope * (c.2.val * dx - width / 2) := by
  have hn1 := many_columns hW h2
  unfold tilt at h
  simp only at h
  rw [if_neg hn1] at h
  split_ifs at h with h1
  cases h
  refine ⟨rfl, fun c hc => if_neg (by omega), fun c hc => ?_⟩
  show (if L0 ≤ (c.1.val : ℤ) then _ else _) = _
  rw [if_pos hc]; ring

/-- C119: if the width is a whole number of cells, columns that are as far to the left of half the width as others are to
the right of it are lowered by as much as the others are raised. -/
theorem C119_centred {slope width dx : K} (hw : width = W * dx) (hW : (W : ℤ) = cellsAlong width dx) (h2 : 2 ≤ W) {L0 : ℤ}
    {S S' : State L W K} (h : tilt slope width dx L0 S = .ok S') {c d : Cell L W} (hc : L0 ≤ c.1.val) (hd : L0 ≤ d.1.val)
    (hcd : c.2.val + d.2.val = W) : S'.eta c - S.eta c = -(S'.eta d - S.eta d) := by
  obtain ⟨-, -, h3⟩ := C119_tilted hW h2 h
  rw [h3 c hc, h3 d hd, hw]
  have : (W : K) = c.2.val + d.2.val := by exact_mod_cast hcd.symm
  rw [this]
  ring

/-! ## In jobs -/

/-- The same but for what has been written. -/
def SameButFiles (M N : Sim L W K σ) : Prop :=
  M.S = N.S ∧ M.rng = N.rng ∧ M.saveSince = N.saveSince ∧ M.ckptSince = N.ckptSince ∧ M.saveIter = N.saveIter ∧
    M.finalized = N.finalized

section

variable [NeZero L] [NeZero W]

/-- The same records and checkpoints are added. -/
def AddsSame (M M' N N' : Sim L W K σ) : Prop :=
  (∃ X, M'.saves = M.saves ++ X ∧ N'.saves = N.saves ++ X) ∧ ∃ Y, M'.ckpts = M.ckpts ++ Y ∧ N'.ckpts = N.ckpts ++ Y

lemma outputData_same (cfg : OutCfg K) {M N : Sim L W K σ} (h : SameButFiles M N) :
    SameButFiles (outputData cfg M) (outputData cfg N) ∧ AddsSame M (outputData cfg M) N (outputData cfg N) := by
  obtain ⟨h1, h2, h3, h4, h5, h6⟩ := h
  unfold outputData
  rw [h3]
  split
  · refine ⟨⟨h1, h2, rfl, h4, ?_, h6⟩, ⟨[(N.saveIter, ⟨N.S.time, N.S⟩)], ?_, rfl⟩, [], ?_, ?_⟩
    · show M.saveIter + 1 = N.saveIter + 1
      rw [h5]
    · show M.saves ++ [(M.saveIter, ⟨M.S.time, M.S⟩)] = _
      rw [h5, h1]
    · show M.ckpts = _; simp
    · show N.ckpts = _; simp
  · exact ⟨⟨h1, h2, h3, h4, h5, h6⟩, ⟨[], by simp⟩, [], by simp⟩

lemma outputCheckpoint_same (cfg : OutCfg K) {M N : Sim L W K σ} (h : SameButFiles M N) :
    SameButFiles (outputCheckpoint cfg M) (outputCheckpoint cfg N) ∧
      AddsSame M (outputCheckpoint cfg M) N (outputCheckpoint cfg N) := by
  obtain ⟨h1, h2, h3, h4, h5, h6⟩ := h
  unfold outputCheckpoint
  rw [h4]
  split
  · split
    · refine ⟨⟨h1, h2, h3, rfl, h5, h6⟩, ⟨[], by simp⟩, [takeCkpt N], ?_, rfl⟩
      show M.ckpts ++ [takeCkpt M] = _
      have : takeCkpt M = takeCkpt N := by unfold takeCkpt; rw [h1, h2, h3, h5]
      rw [this]
    · exact ⟨⟨h1, h2, h3, h4, h5, h6⟩, ⟨[], by simp⟩, [], by simp⟩
  · exact ⟨⟨h1, h2, h3, h4, h5, h6⟩, ⟨[], by simp⟩, [], by simp⟩

lemma addsSame_trans {M M' M'' N N' N'' : Sim L W K σ} (h : AddsSame M M' N N') (h' : AddsSame M' M'' N' N'') :
    AddsSame M M'' N N'' := by
  obtain ⟨⟨X, a, b⟩, Y, c, d⟩ := h
  obtain ⟨⟨X', a', b'⟩, Y', c', d'⟩ := h'
  exact ⟨⟨X ++ X', by rw [a', a, List.append_assoc], by rw [b', b, List.append_assoc]⟩,
    Y ++ Y', by rw [c', c, List.append_assoc], by rw [d', d, List.append_assoc]⟩

/-- C119: two models that differ only in what has been written stay so in runs of any length, and write the same from
then on. -/
theorem C119_same_runs (g : Rng K σ) (cfg : OutCfg K) : ∀ (Ps : List (Params L W m K)) {M N : Sim L W K σ},
    SameButFiles M N →
    (∀ e, updates g cfg Ps M = .error e ↔ updates g cfg Ps N = .error e) ∧
    ∀ M' N', updates g cfg Ps M = .ok M' → updates g cfg Ps N = .ok N' → SameButFiles M' N' ∧ AddsSame M M' N N' := by
  intro Ps
  induction Ps with
  | nil =>
    intro M N h
    refine ⟨fun e => by simp [updates], fun M' N' hM hN => ?_⟩
    simp only [updates, Except.ok.injEq] at hM hN
    subst hM hN
    exact ⟨h, ⟨[], by simp⟩, [], by simp⟩
  | cons P Ps ih =>
    intro M N h
    have h0 := h
    obtain ⟨h1, h2, h3, h4, h5, h6⟩ := h0
    unfold updates update
    rw [h1, h2, h6]
    by_cases hf : N.finalized = true
    · simp [hf]
    · simp only [hf, Bool.false_eq_true, if_false]
      generalize timestep g P N.S N.rng = v
      cases v with
      | error e => simp
      | ok v =>
        obtain ⟨S, l, s⟩ := v
        dsimp only
        have hb : SameButFiles
            { M with S := S, rng := s, saveSince := addSince P.dt M.saveSince, ckptSince := addSince P.dt M.ckptSince }
            { N with S := S, rng := s, saveSince := addSince P.dt N.saveSince, ckptSince := addSince P.dt N.ckptSince } :=
          ⟨rfl, rfl, by show addSince _ M.saveSince = _; rw [h3], by show addSince _ M.ckptSince = _; rw [h4], h5, h6⟩
        obtain ⟨b1, b2⟩ := outputData_same cfg hb
        obtain ⟨c1, c2⟩ := outputCheckpoint_same cfg b1
        have hadd : AddsSame M (afterStep cfg P.dt M S s) N (afterStep cfg P.dt N S s) := addsSame_trans b2 c2
        obtain ⟨d1, d2⟩ := ih (M := afterStep cfg P.dt M S s) (N := afterStep cfg P.dt N S s) c1
        refine ⟨d1, fun M' N' hM hN => ?_⟩
        obtain ⟨e1, e2⟩ := d2 M' N' hM hN
        exact ⟨e1, addsSame_trans hadd e2⟩

end

variable {t : (f : Folder K σ) → State f.L f.W K → Except Exc (State f.L f.W K)}

/-- C119: a new model that is made alone, or in a serial job, has the changed fields; the first record and the first
checkpoint have the fields before the change. -/
theorem C119_alone (g : Rng K σ) {f : Folder K σ} (hf : f.resume = false) {S1 : State f.L f.W K}
    (ht : t f f.S = .ok S1) (s : σ) :
    ∃ M : Sim f.L f.W K σ, (shapedEngine g t).make f s = (.ok ⟨f, M⟩, f.seeded) ∧ M.S = S1 ∧ M.rng = f.seeded ∧
      M.finalized = false ∧ M.saves = [(0, ⟨f.S.time, f.S⟩)] ∧
      (f.out.saveNc = true → M.nc 0 = some ⟨f.S.time, f.S⟩) ∧
      (f.out.saveCkpt = true → ∃ ck, M.ckpt = some ck ∧ ck.eta = f.S.eta) := by
  have hs : (startSim f.out f.S f.seeded).S = f.S ∧ (startSim f.out f.S f.seeded).rng = f.seeded ∧
      (startSim f.out f.S f.seeded).finalized = false ∧ (startSim f.out f.S f.seeded).saves = [(0, ⟨f.S.time, f.S⟩)] ∧
      (f.out.saveNc = true → (startSim f.out f.S f.seeded).nc 0 = some ⟨f.S.time, f.S⟩) ∧
      (f.out.saveCkpt = true → ∃ ck, (startSim f.out f.S f.seeded).ckpt = some ck ∧ ck.eta = f.S.eta) := by
    unfold startSim outputCheckpoint outputData saveGridsAndFigs newSim due
    simp only [if_true]
    split
    · simp_all [takeCkpt]
    · simp_all
  obtain ⟨h1, h2, h3, h4, h5, h6⟩ := hs
  refine ⟨{ startSim f.out f.S f.seeded with S := S1 }, ?_, rfl, h2, h3, h4, h5, h6⟩
  show f.reshaped (t f) f.start = _
  unfold Folder.start Folder.reshaped
  simp only [hf, Bool.false_eq_true, if_false, h1, ht, h2]

/-- C119: a new model that is made for a parallel job has the changed fields in the first record and the first
checkpoint too. -/
theorem C119_parallel (g : Rng K σ) {f : Folder K σ} (hf : f.resume = false) {S1 : State f.L f.W K}
    (ht : t f f.S = .ok S1) (s : σ) :
    ∃ d, (shapedEngine g t).defer f s = (.ok d, f.seeded) ∧ ∀ s1, ∃ M : Sim f.L f.W K σ,
      (shapedEngine g t).begin d s1 = (none, ⟨f, M⟩, s1) ∧ M.S = S1 ∧ M.rng = s1 ∧
      M.finalized = false ∧ M.saves = [(0, ⟨S1.time, S1⟩)] ∧
      (f.out.saveNc = true → M.nc 0 = some ⟨S1.time, S1⟩) ∧
      (f.out.saveCkpt = true → ∃ ck, M.ckpt = some ck ∧ ck.eta = S1.eta) := by
  refine ⟨⟨f, { newSim f.S f.seeded with S := S1 }⟩, ?_, fun s1 => ?_⟩
  · show f.reshaped (t f) f.startDeferred = _
    unfold Folder.startDeferred Folder.reshaped
    simp only [hf, Bool.false_eq_true, if_false]
    show (match t f f.S with | .error e => _ | .ok S => _) = _
    rw [ht]
    rfl
  · refine ⟨outputCheckpoint f.out (outputData f.out { newSim f.S f.seeded with S := S1, rng := s1 }), ?_, ?_⟩
    · show FolderModel.begin _ _ = _
      unfold FolderModel.begin
      simp only [hf, Bool.false_eq_true, if_false]
    · unfold outputCheckpoint outputData saveGridsAndFigs newSim due
      simp only [if_true]
      split
      · simp_all [takeCkpt]
      · simp_all

/-- C119: the fields of a new model and all it writes after the first record and checkpoint are the same in serial and
in parallel jobs (which start with the generator that the seed gives). -/
theorem C119_serial_parallel (g : Rng K σ) {f : Folder K σ} (hf : f.resume = false) {S1 : State f.L f.W K}
    (ht : t f f.S = .ok S1) (s : σ) :
    ∃ M N : Sim f.L f.W K σ, ∃ d, (shapedEngine g t).make f s = (.ok ⟨f, M⟩, f.seeded) ∧
      (shapedEngine g t).defer f s = (.ok d, f.seeded) ∧
      (shapedEngine g t).begin d f.seeded = (none, ⟨f, N⟩, f.seeded) ∧ SameButFiles M N := by
  refine ⟨{ startSim f.out f.S f.seeded with S := S1 },
    outputCheckpoint f.out (outputData f.out { newSim f.S f.seeded with S := S1 }),
    ⟨f, { newSim f.S f.seeded with S := S1 }⟩, ?_, ?_, ?_, ?_⟩
  · have h1 : (startSim f.out f.S f.seeded).S = f.S ∧ (startSim f.out f.S f.seeded).rng = f.seeded := by
      unfold startSim outputCheckpoint outputData saveGridsAndFigs newSim due
      simp only [if_true]
      split <;> simp_all
    show f.reshaped (t f) f.start = _
    unfold Folder.start Folder.reshaped
    simp only [hf, Bool.false_eq_true, if_false, h1.1, ht, h1.2]
  · show f.reshaped (t f) f.startDeferred = _
    unfold Folder.startDeferred Folder.reshaped
    simp only [hf, Bool.false_eq_true, if_false]
    show (match t f f.S with | .error e => _ | .ok S => _) = _
    rw [ht]
    rfl
  · show FolderModel.begin _ _ = _
    unfold FolderModel.begin
    simp only [hf, Bool.false_eq_true, if_false]
    rfl
  · unfold startSim outputCheckpoint outputData saveGridsAndFigs newSim due SameButFiles
    simp only [if_true]
    split <;> simp_all

/-- C119: a model that resumes, alone or in a serial job, gets the change once more: on top of the fields in the
checkpoint. -/
theorem C119_resumed_alone (g : Rng K σ) {f : Folder K σ} {M : Sim f.L f.W K σ} {s s1 : σ}
    (h : (folderEngine g).make f s = (.ok ⟨f, M⟩, s1)) (hf : f.resume = true) {S1 : State f.L f.W K}
    (ht : t f M.S = .ok S1) :
    ∃ ck, f.files.ckpt = some ck ∧ M.S.eta = ck.eta ∧ M.S.depth = ck.depth ∧ M.S.stage = ck.stage ∧
      (shapedEngine g t).make f s = (.ok ⟨f, { M with S := S1 }⟩, s1) := by
  have h' : f.made f.start = (.ok ⟨f, M⟩, s1) := h
  have hs : f.start = .ok M ∧ M.rng = s1 := by
    generalize hv : f.start = v at h'
    cases v with
    | error e => simp [Folder.made] at h'
    | ok N =>
      simp only [Folder.made, Prod.mk.injEq, Except.ok.injEq] at h'
      obtain ⟨h1, h2⟩ := h'
      obtain rfl : N = M := by cases h1; rfl
      exact ⟨rfl, h2⟩
  have hs1 := hs.1
  unfold Folder.start at hs1
  rw [if_pos hf] at hs1
  generalize hck : f.files.ckpt = ock at hs1
  cases ock with
  | none => simp [loadIn] at hs1
  | some ck =>
    refine ⟨ck, rfl, ?_⟩
    have hshape : (shapedEngine g t).make f s = (.ok ⟨f, { M with S := S1 }⟩, s1) := by
      show f.reshaped (t f) f.start = _
      rw [hs.1]
      unfold Folder.reshaped
      simp only [ht, hs.2]
    unfold loadIn loadCkpt at hs1
    simp only at hs1
    generalize ck.saveSince = os at hs1
    cases os with
    | none => simp at hs1
    | some x =>
      simp only [Except.ok.injEq] at hs1
      subst hs1
      exact ⟨rfl, rfl, rfl, hshape⟩

/-- C119: in a parallel job a model that resumes has the fields of the checkpoint, as a model of the class without the
change has: the checkpoint is loaded again after the change. -/
theorem C119_resumed_parallel (g : Rng K σ) {f : Folder K σ} {mo : FolderModel K σ} {s s1 : σ}
    (h : (folderEngine g).make f s = (.ok mo, s1)) (hf : f.resume = true)
    (hbed : ∀ S S1, t f S = .ok S1 → S1 = { S with eta := S1.eta }) (hok : ∀ S, ∃ S1, t f S = .ok S1) :
    ∃ d s2, (shapedEngine g t).defer f s = (.ok d, s2) ∧ ∀ s3, (shapedEngine g t).begin d s3 = (none, mo, s1) := by
  have h' : f.made f.start = (.ok mo, s1) := h
  unfold Folder.start at h'
  rw [if_pos hf] at h'
  generalize hck : f.files.ckpt = ock at h'
  cases ock with
  | none => simp [loadIn, Folder.made] at h'
  | some ck =>
    unfold loadIn loadCkpt at h'
    simp only at h'
    generalize hx : ck.saveSince = os at h'
    cases os with
    | none => simp [Folder.made] at h'
    | some x =>
      simp only [Folder.made, Prod.mk.injEq, Except.ok.injEq] at h'
      obtain ⟨h1, h2⟩ := h'
      have hd : f.startDeferred = .ok (withCkpt { f.out with saveNc := false } none ck x (newSim f.S f.seeded)) := by
        unfold Folder.startDeferred loadIn loadCkpt
        rw [if_pos hf, hck]
        simp only [hx]
        rfl
      obtain ⟨S1, hS1⟩ := hok (withCkpt { f.out with saveNc := false } none ck x (newSim f.S f.seeded)).S
      refine ⟨⟨f, { withCkpt { f.out with saveNc := false } none ck x (newSim f.S f.seeded) with S := S1 }⟩, ck.rng, ?_, ?_⟩
      · show f.reshaped (t f) f.startDeferred = _
        rw [hd]
        unfold Folder.reshaped
        simp only [hS1]
        rfl
      · intro s3
        show FolderModel.begin _ _ = _
        unfold FolderModel.begin
        simp only [hf, if_true]
        rw [hck]
        unfold loadCkpt
        simp only [hx]
        rw [← h1, ← h2, hbed _ _ hS1]
        rfl

/-- C119: so a resumed model of the sloping basin has the slope twice in one case and once in the other: where the basin
is tilted at all, the beds differ. -/
theorem C119_resumed_twice {slope width dx : K} (hs : slope ≠ 0) (hW : (W : ℤ) = cellsAlong width dx) (h2 : 2 ≤ W)
    {L0 : ℤ} {S S' : State L W K} (h : tilt slope width dx L0 S = .ok S') {c : Cell L W} (hc : L0 ≤ c.1.val)
    (hm : (c.2.val : K) * dx ≠ width / 2) : S'.eta c ≠ S.eta c := by
  obtain ⟨-, -, h3⟩ := C119_tilted hW h2 h
  rw [h3 c hc]
  intro e
  rw [add_eq_left] at e
  rcases mul_eq_zero.1 e with e | e
  · exact hs e
  · exact hm (by linarith)

/-! ## Runs -/

section

variable [NeZero L] [NeZero W]

/-- C119: the first iteration of the water routing after the bed has been changed does not see the change: the water
parcels take the paths that they would take without it. -/
theorem C119_first_paths {P : Params L W m K} {S S1 : State L W K} (h : S1 = { S with eta := S1.eta }) :
    waterWeightArray P S1 = waterWeightArray P S ∧ ∀ (g : Rng K σ) (w : Grid L W (Fin 9 → K)) (s : σ),
      runWaterIteration g (waterEnv P S1 w) (fun k => ((P.inlet k).val : ℤ)) P.NpWater S1.ncols s =
        runWaterIteration g (waterEnv P S w) (fun k => ((P.inlet k).val : ℤ)) P.NpWater S.ncols s := by
  rw [h]
  exact ⟨rfl, fun g w s => rfl⟩

end

/-- C119: a created model of the sloping basin runs for any number of updates without error, if the width is not rounded
down. After each update, depth, surface and bed fit together. The bed after the first update is the tilted bed with
what parcels, diffusion and subsidence do to it. -/
theorem C119_run {O : Oracle K} (hO : OracleOk O) {I : Input K} (hI : Runnable I) {g : Rng K σ} (hg : PositiveDraws g)
    (hw : I.Width ≤ cellsAlong I.Width I.dx * I.dx) (slope : K) :
    ∃ (L W m : ℕ) (_ : NeZero L) (_ : NeZero W) (P : Params L W m K) (S S1 : State L W K),
      create O I = .ok ⟨L, W, m, P, S⟩ ∧ tilt slope I.Width I.dx P.L0 S = .ok S1 ∧
      (∀ c, P.L0 ≤ c.1.val → S1.eta c = S.eta c + slope * (c.2.val * I.dx - I.Width / 2)) ∧
      ∀ (n : ℕ) (s : σ), ∃ S' ls s', timesteps g (List.replicate n P) S1 s = .ok (S', ls, s') ∧
        (0 < n → ∀ c, S'.depth c = max (S'.stage c - S'.eta c) 0) ∧
        (n = 1 → ∀ l ∈ ls, ∀ c, Outside P.inlet c →
          S'.eta c = topoDiffusion P.cellType P.diffMult S'.qs P.Ncross
            (fun x => S1.eta x + movedTo l.sand x / (P.dx * P.dx)) c + movedTo l.mud c / (P.dx * P.dx) -
              sinks P S1.time c) := by
  obtain ⟨L, W, m, iL, iW, P, S, hc, hWa, hD, -, hR, hd, hn, -⟩ := C74_created hO hI
  have hdx : 0 < I.dx := hI.accepted.dx
  have hWW : (W : ℤ) = cellsAlong I.Width I.dx := by
    have h5 := hI.W
    unfold create at hc
    split at hc
    · cases hc
    · simp only at hc
      split at hc
      · cases hc
      · split_ifs at hc
        simp only [Except.ok.injEq, Built.mk.injEq] at hc
        omega
  have h2 : 2 ≤ W := by have := hI.W; omega
  have hw' : I.Width ≤ (W : K) * I.dx := by
    have e : ((cellsAlong I.Width I.dx : ℤ) : K) = (W : K) := by rw [← hWW]; simp
    rw [← e]; exact hw
  obtain ⟨S1, h1⟩ := (C119_shape (slope := slope) hdx hWW h2 P.L0 S).2 hw'
  obtain ⟨t1, t2, t3⟩ := C119_tilted hWW h2 h1
  refine ⟨L, W, m, iL, iW, P, S, S1, hc, h1, t3, fun n s => ?_⟩
  obtain ⟨S', ls, s', hr⟩ := C71_run hg (Ps := List.replicate n P) (by
    intro Q hQ
    rw [List.eq_of_mem_replicate hQ]
    exact ⟨hWa, hD, hR.h0⟩) (S := S1) (by rw [t1]; exact hd) (by rw [t1]; exact hn) s
  refine ⟨S', ls, s', hr, ?_, ?_⟩
  · intro h0 c
    obtain ⟨k, rfl⟩ : ∃ k, n = k + 1 := ⟨n - 1, by omega⟩
    rw [List.replicate_succ'] at hr
    exact (C36_run hR.h0 hr c).1
  · rintro rfl l hl c hout
    rw [List.replicate_one] at hr
    obtain ⟨S2, l2, s2, ls2, a1, a2, rfl⟩ := timesteps_cons hr
    simp only [timesteps, Except.ok.injEq, Prod.mk.injEq] at a2
    obtain ⟨rfl, rfl, rfl⟩ := a2
    simp only [List.mem_singleton] at hl
    subst hl
    exact C83_cell a1 c hout

/-! ## Non-trivial cases -/

/-- A width of three cells, and one of three cells and two fifths, that are three cells too. -/
example : ((3 : ℕ) : ℤ) = cellsAlong (3 : ℚ) 1 ∧ (3 : ℚ) ≤ (3 : ℕ) * 1 ∧ ((3 : ℕ) : ℤ) = cellsAlong (17 / 5 : ℚ) 1 ∧
    ¬ (17 / 5 : ℚ) ≤ (3 : ℕ) * 1 := by
  refine ⟨by decide +kernel, by norm_num, by decide +kernel, by norm_num⟩

/-- The example with the basin tilted, and the width that cannot be. -/
example : (∃ S', tilt (1 / 10) 3 1 1 exState = .ok S' ∧ S'.eta (2, 0) = exState.eta (2, 0) - 3 / 20 ∧
    S'.eta (2, 2) = exState.eta (2, 2) + 1 / 20 ∧ S'.eta (0, 0) = exState.eta (0, 0)) ∧
    ¬ ∃ S', tilt (1 / 10) (17 / 5) 1 1 exState = .ok S' := by
  have hw : ((3 : ℕ) : ℤ) = cellsAlong (3 : ℚ) 1 := by decide +kernel
  have hv : ((3 : ℕ) : ℤ) = cellsAlong (17 / 5 : ℚ) 1 := by decide +kernel
  refine ⟨?_, fun h => ?_⟩
  · obtain ⟨S', h⟩ := (C119_shape (slope := 1 / 10) (by norm_num) hw (by norm_num) 1 exState).2 (by norm_num)
    obtain ⟨-, h2, h3⟩ := C119_tilted hw (by norm_num) h
    refine ⟨S', h, ?_, ?_, h2 _ (by norm_num)⟩
    · rw [h3 _ (by norm_num)]; norm_num; ring
    · rw [h3 _ (by norm_num)]; norm_num
  · exact absurd ((C119_shape (by norm_num) hv (by norm_num) 1 exState).1 h) (by norm_num)

/-- The tilt of the example's folders: as wide as their cells. -/
def exTilt (f : Folder ℚ Bool) (S : State f.L f.W ℚ) : Except Exc (State f.L f.W ℚ) := tilt (1 / 10) f.W 1 1 S

lemma exTilt_ok (f : Folder ℚ Bool) (S : State f.L f.W ℚ) :
    ∃ S', exTilt f S = .ok S' ∧ S' = { S with eta := S'.eta } := by
  unfold exTilt tilt
  simp only
  rw [if_pos (by simp)]
  exact ⟨_, rfl, rfl⟩

/-- The folder of the example that resumes: what is asked for holds, and the bed of the model that resumes alone is not
the bed of the model that resumes in a parallel job. -/
example (b : Bool) : ∃ M N d s1 s2, (shapedEngine twoRng exTilt).make (exTwoFolder b) b = (.ok ⟨exTwoFolder b, M⟩, s1) ∧
    (shapedEngine twoRng exTilt).defer (exTwoFolder b) b = (.ok d, s2) ∧
    (shapedEngine twoRng exTilt).begin d b = (none, ⟨exTwoFolder b, N⟩, s1) ∧ N.S.eta = exState.eta ∧
    M.S.eta ≠ exState.eta := by
  have hm : (folderEngine twoRng).make (exTwoFolder b) b = (.ok ⟨exTwoFolder b, exTwoLoaded b⟩, b) := rfl
  obtain ⟨S1, h1, -⟩ := exTilt_ok (exTwoFolder b) (exTwoLoaded b).S
  obtain ⟨ck, -, -, -, -, h2⟩ := C119_resumed_alone (t := exTilt) twoRng hm rfl h1
  obtain ⟨d, s2, h3, h4⟩ := C119_resumed_parallel (t := exTilt) twoRng hm rfl
    (fun S S1 h => by obtain ⟨S2, h5, h6⟩ := exTilt_ok _ S; rw [h5] at h; cases h; exact h6)
    (fun S => by obtain ⟨S2, h5, h6⟩ := exTilt_ok _ S; exact ⟨S2, h5⟩)
  refine ⟨_, exTwoLoaded b, d, b, s2, h2, h3, h4 b, rfl, fun e => ?_⟩
  have hw : ((3 : ℕ) : ℤ) = cellsAlong (3 : ℚ) 1 := by decide +kernel
  have h1' : tilt (1 / 10) 3 1 1 exState = .ok (S1 : State 4 3 ℚ) := h1
  exact C119_resumed_twice (c := ((2 : Fin 4), (2 : Fin 3))) (by norm_num) hw (by norm_num) h1' (by norm_num) (by norm_num)
    (congrFun e _)

/-- The default configuration with a slope of one in ten thousand. -/
example : ∃ (L W m : ℕ) (P : Params L W m ℚ) (S S1 : State L W ℚ), create exOracle exInput = .ok ⟨L, W, m, P, S⟩ ∧
    tilt (1 / 10000) 10000 50 P.L0 S = .ok S1 := by
  obtain ⟨L, W, m, iL, iW, P, S, S1, h1, h2, -⟩ := C119_run (g := constRng) exOracleOk exRunnable exPositive
    (by decide +kernel) (1 / 10000)
  exact ⟨L, W, m, P, S, S1, h1, h2⟩

end Verif.Props
