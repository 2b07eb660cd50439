import Verif.Lemmas.Ncols
import Verif.Props.FloatTimestep

/-!
# Which parts of the state a timestep reads in rounded arithmetic

As `Lemmas/Ncols`.
-/

set_option linter.unusedSectionVars false
set_option linter.unusedSimpArgs false

namespace Verif.Lemmas

open Verif.Model Verif.Props

variable {K : Type*} [Field K] [LinearOrder K] [IsStrictOrderedRing K] {F D : Rounding K} {σ : Type*}
  {L W m : ℕ}

/-! ## Sediment routing -/

lemma fieldsAtR_withN (n : ℕ) (k : Sed) (P : Params L W m K) (S : State L W K) (c0 c : Cell L W)
    (d : Fin 9) (res : K) :
    fieldsAtR F D k P (withN n S) c0 c d res = withN n (fieldsAtR F D k P S c0 c d res) := by
  cases k with
  | sand =>
    simp only [fieldsAtR, partitionSandR]
    split_ifs <;> rfl
  | mud => rfl

lemma volumeChangeR_withN (n : ℕ) (k : Sed) (P : Params L W m K) (S : State L W K) (c : Cell L W)
    (res : K) : volumeChangeR F D k P (withN n S) c res = volumeChangeR F D k P S c res := by
  cases k <;> rfl

lemma recordDepositR_withN (n : ℕ) (k : Sed) (S : State L W K) (c : Cell L W) (v : K) :
    recordDepositR F D k (withN n S) c v = withN n (recordDepositR F D k S c v) := by
  unfold recordDepositR
  split_ifs
  · cases k <;> rfl
  · rfl

lemma updateFieldsR_withN (n : ℕ) (P : Params L W m K) (S : State L W K) (c : Cell L W) (v : K) :
    updateFieldsR F D P (withN n S) c v = withN n (updateFieldsR F D P S c v) := rfl

variable [NeZero L] [NeZero W]

lemma chooseNextR_withN (n : ℕ) (g : Rng K σ) (k : Sed) (P : Params L W m K)
    (st : SedSt L W K) (px py : ℤ) (s : σ) :
    chooseNextR F D g k P (stN n st) px py s = chooseNextR F D g k P st px py s := rfl

lemma sedStepR_withN (n : ℕ) (g : Rng K σ) (k : Sed) (P : Params L W m K) (st : SedSt L W K)
    (px py : ℤ) (res : K) (s : σ) : sedStepR F D g k P (stN n st) px py res s =
      (sedStepR F D g k P st px py res s).map (fun v => (stN n v.1, v.2.1, recN n v.2.2.1, v.2.2.2)) := by
  unfold sedStepR
  rw [chooseNextR_withN]
  generalize chooseNextR F D g k P st px py s = x
  cases x with
  | error e => rfl
  | ok v =>
    obtain ⟨c0, d, s1⟩ := v
    simp only
    cases h1 : pyCell L W (px + jwalk d) (py + iwalk d) with
    | none => rfl
    | some c =>
      cases h2 : pyCell (L + 2) (W + 2) (px + jwalk d + 1) (py + iwalk d + 1) with
      | none => rfl
      | some cp =>
        simp only [stN, fieldsAtR_withN, volumeChangeR_withN, recordDepositR_withN, updateFieldsR_withN]
        rfl

lemma sedLoopR_withN (n : ℕ) (g : Rng K σ) (k : Sed) (P : Params L W m K) :
    ∀ (i : ℕ) (st : SedSt L W K) (px py : ℤ) (res : K) (s : σ),
    sedLoopR F D g k P i (stN n st) px py res s = (sedLoopR F D g k P i st px py res s).map
      (fun v => (stN n v.1, v.2.1, v.2.2.1.map (recN n), v.2.2.2)) := by
  intro i
  induction i with
  | zero => intro st px py res s; rfl
  | succ i ih =>
    intro st px py res s
    simp only [sedLoopR]
    rw [sedStepR_withN]
    generalize sedStepR F D g k P st px py res s = x
    cases x with
    | error e => rfl
    | ok v =>
      obtain ⟨st1, res1, r, s1⟩ := v
      simp only [Except.map]
      by_cases h : P.cellType r.cell = -1 ∨ i = 0
      · rw [if_pos h, if_pos (show P.cellType (recN n r).cell = -1 ∨ i = 0 from h)]
        rfl
      · rw [if_neg h, if_neg (show ¬ (P.cellType (recN n r).cell = -1 ∨ i = 0) from h)]
        rw [show (recN n r).new = r.new from rfl, ih]
        generalize sedLoopR F D g k P i st1 r.new.1 r.new.2 res1 s1 = y
        cases y with
        | error e => rfl
        | ok v => rfl

lemma enterStateR_withN (n : ℕ) (k : Sed) (P : Params L W m K) (st : SedSt L W K) (c : Cell L W) :
    enterStateR F D k P (stN n st) c = stN n (enterStateR F D k P st c) := by
  cases k <;> rfl

lemma sedParcelsR_withN (n : ℕ) (g : Rng K σ) (k : Sed) (P : Params L W m K) :
    ∀ (pys : List ℤ) (st : SedSt L W K) (s : σ),
    sedParcelsR F D g k P pys (stN n st) s = (sedParcelsR F D g k P pys st s).map
      (fun v => (stN n v.1, v.2.1.map (logN n), v.2.2)) := by
  intro pys
  induction pys with
  | nil => intro st s; rfl
  | cons py pys ih =>
    intro st s
    simp only [sedParcelsR]
    cases pyCell L W 0 py with
    | none => rfl
    | some c =>
      simp only
      rw [enterStateR_withN, sedLoopR_withN]
      generalize sedLoopR F D g k P P.stepmax (enterStateR F D k P st c) 0 py P.VpSed s = x
      cases x with
      | error e => rfl
      | ok v =>
        obtain ⟨st2, res, rs, s1⟩ := v
        simp only [Except.map]
        rw [ih]
        generalize sedParcelsR F D g k P pys st2 s1 = y
        cases y with
        | error e => rfl
        | ok v => rfl

variable [FloorRing K]

lemma routeParcelsR_withN (n : ℕ) (g : Rng K σ) (k : Sed) (P : Params L W m K) (S : State L W K)
    (s : σ) : routeParcelsR F D g k P (withN n S) s =
      (routeParcelsR F D g k P S s).map (fun v => (withN n v.1, v.2.1.map (logN n), v.2.2)) := by
  unfold routeParcelsR
  simp only
  cases getStartIndicesR D (fun i => ((P.inlet i).val : ℤ))
      (getInletWeights (fun i => ((P.inlet i).val : ℤ)) : Fin m → K)
      (drawN g (numStartsR D k P) s).1 with
  | none => rfl
  | some starts =>
    simp only
    rw [show (⟨withN n S, customPad (withN n S).depth⟩ : SedSt L W K) =
      stN n ⟨S, customPad S.depth⟩ from rfl, sedParcelsR_withN]
    generalize sedParcelsR F D g k P starts ⟨S, customPad S.depth⟩ (drawN g (numStartsR D k P) s).2 = x
    cases x with
    | error e => rfl
    | ok v => rfl

/-- The state between sand and mud. -/
def diffusedR (F D : Rounding K) (P : Params L W m K) (S : State L W K) : State L W K :=
  { S with eta := topoDiffusionR F D P.cellType P.diffMult S.qs P.Ncross S.eta }

lemma routeSedimentR_eq (g : Rng K σ) (P : Params L W m K) (S : State L W K) (s : σ) :
    routeSedimentR F D g P S s = (routeParcelsR F D g .sand (routerParams F P) (initSediment S) s).bind (fun v =>
      (routeParcelsR F D g .mud (routerParams F P) (diffusedR F D P v.1) v.2.2).map (fun w => (w.1, v.2.1, w.2.1, w.2.2))) := by
  unfold routeSedimentR
  generalize routeParcelsR F D g .sand (routerParams F P) (initSediment S) s = x
  cases x with
  | error e => rfl
  | ok v =>
    obtain ⟨S1, sand, s1⟩ := v
    simp only [Except.bind]
    rw [show ({ S1 with eta := topoDiffusionR F D P.cellType P.diffMult S1.qs P.Ncross S1.eta } :
      State L W K) = diffusedR F D P S1 from rfl]
    generalize routeParcelsR F D g .mud (routerParams F P) (diffusedR F D P S1) s1 = y
    cases y with
    | error e => rfl
    | ok v => rfl

lemma routeSedimentR_withN (n : ℕ) (g : Rng K σ) (P : Params L W m K) (S : State L W K) (s : σ) :
    routeSedimentR F D g P (withN n S) s = (routeSedimentR F D g P S s).map
      (fun v => (withN n v.1, v.2.1.map (logN n), v.2.2.1.map (logN n), v.2.2.2)) := by
  rw [routeSedimentR_eq, routeSedimentR_eq,
    show initSediment (withN n S) = withN n (initSediment S) from rfl, routeParcelsR_withN]
  generalize routeParcelsR F D g .sand (routerParams F P) (initSediment S) s = x
  cases x with
  | error e => rfl
  | ok v =>
    obtain ⟨S1, sand, s1⟩ := v
    simp only [Except.map, Except.bind]
    rw [show diffusedR F D P (withN n S1) = withN n (diffusedR F D P S1) from rfl, routeParcelsR_withN]
    generalize routeParcelsR F D g .mud (routerParams F P) (diffusedR F D P S1) s1 = y
    cases y with
    | error e => rfl
    | ok v => rfl

lemma applySubsidenceR_withN (n : ℕ) (P : Params L W m K) (S : State L W K) :
    applySubsidenceR F D P (withN n S) = withN n (applySubsidenceR F D P S) := by
  unfold applySubsidenceR
  split_ifs
  · rfl
  · exact absurd (show P.startSub ≤ S.time by assumption) (by assumption)
  · exact absurd (show P.startSub ≤ S.time by assumption) (by assumption)
  · rfl
  · rfl

/-! ## Water routing -/

lemma checkLoopR_zeros (E : WEnv L W K) (step : ℕ) (pre : List ℤ) (n n' : ℕ) (i : ℤ) :
    checkLoopR D E step (pre ++ List.replicate n 0) i =
      checkLoopR D E step (pre ++ List.replicate n' 0) i := by
  unfold checkLoopR
  simp only [filter_pos_zeros]

lemma parcelStepR_rel (E : WEnv L W K) {k a b : ℕ} (ha : k < a) (hb : k < b) {p p' : WParcel}
    (h : WalkRel k a b p p') (d : Fin 9) :
    ExRel (fun v v' => WalkRel (k + 1) a b v.1 v'.1 ∧ v.2 = v'.2) (parcelStepR D E k p d)
      (parcelStepR D E k p' d) := by
  obtain ⟨h1, h2, pre, h3, h4, h5⟩ := h
  unfold parcelStepR
  simp only
  rw [h4, h5, ← h1, checkLoopR_zeros E k pre (b - k) (a - k)]
  generalize checkLoopR D E k (pre ++ List.replicate (a - k) 0) (calcNewInd W p.ind d) = x
  cases x with
  | error e => rfl
  | ok v =>
    obtain ⟨new2, looped⟩ := v
    simp only
    generalize isBoundary E new2 = y
    cases y with
    | error e => rfl
    | ok bnd =>
      refine ⟨⟨rfl, by rw [h2], pre ++ [if looped && bnd then 0 else new2], by simp [h3], ?_, ?_⟩, rfl⟩
      · simp only
        rw [← h3, set_zeros pre (by omega)]
        rfl
      · simp only
        rw [← h3, set_zeros pre (by omega)]
        rfl

lemma parcelStepsR_rel (E : WEnv L W K) {k a b : ℕ} (ha : k < a) (hb : k < b) :
    ∀ {ps ps' : List WParcel}, List.Forall₂ (WalkRel k a b) ps ps' → ∀ ds : List (Fin 9),
    ExRel (fun v v' => List.Forall₂ (WalkRel (k + 1) a b) v.1 v'.1 ∧ v.2 = v'.2)
      (parcelStepsR D E k ps ds) (parcelStepsR D E k ps' ds) := by
  intro ps ps' h
  induction h with
  | nil =>
    intro ds
    cases ds with
    | nil => exact ⟨List.Forall₂.nil, rfl⟩
    | cons d ds => rfl
  | @cons p p' ps ps' hp _ ih =>
    intro ds
    cases ds with
    | nil => rfl
    | cons d ds =>
      simp only [parcelStepsR]
      have h1 := parcelStepR_rel (D := D) E ha hb hp d
      generalize parcelStepR D E k p d = x at h1 ⊢
      generalize parcelStepR D E k p' d = x' at h1 ⊢
      cases x with
      | error e =>
        cases x' with
        | error e' => exact h1
        | ok v' => exact h1.elim
      | ok v =>
        cases x' with
        | error e' => exact h1.elim
        | ok v' =>
          have h2 := ih ds
          simp only
          generalize parcelStepsR D E k ps ds = y at h2 ⊢
          generalize parcelStepsR D E k ps' ds = y' at h2 ⊢
          cases y with
          | error e =>
            cases y' with
            | error e' => exact h2
            | ok w' => exact h2.elim
          | ok w =>
            cases y' with
            | error e' => exact h2.elim
            | ok w' =>
              exact ⟨List.Forall₂.cons h1.1 h2.1, by simp only [h1.2, h2.2]⟩

lemma waterStepR_rel (g : Rng K σ) (E : WEnv L W K) (hs : 4 ≤ E.stepmax) {k : ℕ}
    {st st' : WState L W K} (h : StRel k st st') (s : σ) :
    ExRel (fun v v' => StRel (k + 1) v.1 v'.1 ∧ v.2 = v'.2) (waterStepR F D g E k st s)
      (waterStepR F D g E k st' s) := by
  obtain ⟨hrel, ha, hb⟩ := checkSize_rel hs h
  unfold waterStepR
  simp only
  generalize checkSize E.stepmax k st = st1 at hrel ha ⊢
  generalize checkSize E.stepmax k st' = st1' at hrel hb ⊢
  obtain ⟨h1, h2, h3, h4⟩ := hrel
  rw [if_pos ha, if_pos hb, inds_eq h4]
  generalize chooseDirsR D g E.weights (st1'.parcels.map (·.ind)) s = x
  cases x with
  | error e => rfl
  | ok v =>
    obtain ⟨ds, s1⟩ := v
    simp only
    have h5 := parcelStepsR_rel (D := D) E ha hb h4 ds
    generalize parcelStepsR D E k st1.parcels ds = y at h5 ⊢
    generalize parcelStepsR D E k st1'.parcels ds = y' at h5 ⊢
    cases y with
    | error e =>
      cases y' with
      | error e' => exact h5
      | ok w' => exact h5.elim
    | ok w =>
      cases y' with
      | error e' => exact h5.elim
      | ok w' =>
        obtain ⟨ps, recs⟩ := w
        obtain ⟨ps', recs'⟩ := w'
        obtain ⟨h6, h7⟩ := h5
        simp only at h6 h7 ⊢
        subst h7
        rw [h1]
        generalize addFluxesR F D E (·.cur) (fun _ => true) recs st1'.flux = z1
        cases z1 with
        | error e => rfl
        | ok f1 =>
          simp only
          generalize addFluxesR F D E (·.new1) (fun _ => true) recs f1 = z2
          cases z2 with
          | error e => rfl
          | ok f2 =>
            simp only
            generalize addFluxesR F D E (·.new2) (·.bnd) recs f2 = z3
            cases z3 with
            | error e => rfl
            | ok f3 => exact ⟨⟨rfl, by simp only; omega, by simp only; omega, h6⟩, rfl⟩

lemma waterLoopR_rel (g : Rng K σ) (E : WEnv L W K) (hs : 4 ≤ E.stepmax) :
    ∀ (i step : ℕ) (st st' : WState L W K) (s : σ), E.stepmax - step = i → StRel (step + 1) st st' →
    ExRel (fun v v' => (∃ k, StRel k v.1 v'.1) ∧ v.2 = v'.2) (waterLoopR F D g E step st s)
      (waterLoopR F D g E step st' s) := by
  intro i
  induction i with
  | zero =>
    intro step st st' s hi h
    have hn : ∀ st : WState L W K, ¬ ((st.parcels.map (·.ind)).sum > 0 ∧ step < E.stepmax) := by
      intro st hc; omega
    rw [waterLoopR, waterLoopR, if_neg (hn st), if_neg (hn st')]
    exact ⟨⟨_, h⟩, rfl⟩
  | succ i ih =>
    intro step st st' s hi h
    rw [waterLoopR, waterLoopR, inds_eq h.2.2.2]
    by_cases hc : (st'.parcels.map (·.ind)).sum > 0 ∧ step < E.stepmax
    · rw [if_pos hc, if_pos hc]
      have h1 := waterStepR_rel (F := F) (D := D) g E hs h s
      generalize waterStepR F D g E (step + 1) st s = x at h1 ⊢
      generalize waterStepR F D g E (step + 1) st' s = x' at h1 ⊢
      cases x with
      | error e =>
        cases x' with
        | error e' => exact h1
        | ok v' => exact h1.elim
      | ok v =>
        cases x' with
        | error e' => exact h1.elim
        | ok v' =>
          obtain ⟨st1, recs, s1⟩ := v
          obtain ⟨st1', recs', s1'⟩ := v'
          obtain ⟨h2, h3⟩ := h1
          simp only [Prod.mk.injEq] at h2 h3
          obtain ⟨rfl, rfl⟩ := h3
          simp only
          have h4 := ih (step + 1) st1 st1' s1 (by omega) h2
          generalize waterLoopR F D g E (step + 1) st1 s1 = y at h4 ⊢
          generalize waterLoopR F D g E (step + 1) st1' s1 = y' at h4 ⊢
          cases y with
          | error e =>
            cases y' with
            | error e' => exact h4
            | ok w' => exact h4.elim
          | ok w =>
            cases y' with
            | error e' => exact h4.elim
            | ok w' =>
              obtain ⟨st2, log, n, s2⟩ := w
              obtain ⟨st2', log', n', s2'⟩ := w'
              obtain ⟨h5, h6⟩ := h4
              simp only [Prod.mk.injEq] at h6
              obtain ⟨rfl, rfl, rfl⟩ := h6
              exact ⟨h5, rfl⟩
    · rw [if_neg hc, if_neg hc]
      exact ⟨⟨_, h⟩, rfl⟩

lemma waterStartR_rel (E : WEnv L W K) {a b : ℕ} (ha : 0 < a) (hb : 0 < b) (starts : List ℤ) :
    ExRel (fun st st' : WState L W K => StRel 1 st st') (waterStartR F D E a starts)
      (waterStartR F D E b starts) := by
  unfold waterStartR
  by_cases hc : starts.all (fun i => (flatCell L W i).isSome) = true
  · rw [if_pos ⟨hc, ha⟩, if_pos ⟨hc, hb⟩]
    refine ⟨rfl, ha, hb, ?_⟩
    simp only [List.forall₂_map_left_iff, List.forall₂_map_right_iff]
    rw [List.forall₂_same]
    intro i _
    have e : ∀ n : ℕ, 0 < n → (List.replicate n (0 : ℤ)).set 0 i = [i] ++ List.replicate (n - 1) 0 := by
      intro n hn
      have := set_zeros [] hn i
      simpa using this
    exact ⟨rfl, rfl, [i], rfl, e a ha, e b hb⟩
  · rw [if_neg (fun h => hc h.1), if_neg (fun h => hc h.1)]
    rfl

lemma runWaterR_rel (g : Rng K σ) (E : WEnv L W K) (hs : 4 ≤ E.stepmax) (inlet : Fin m → ℤ)
    (np : ℕ) {a b : ℕ} (ha : 0 < a) (hb : 0 < b) (s : σ) :
    ExRel (fun v v' => (∃ k, StRel k v.1 v'.1) ∧ v.2 = v'.2) (runWaterIterationR F D g E inlet np a s)
      (runWaterIterationR F D g E inlet np b s) := by
  unfold runWaterIterationR
  simp only
  cases getStartIndicesR D inlet (getInletWeights inlet : Fin m → K) (drawN g np s).1 with
  | none => rfl
  | some starts =>
    simp only
    have h1 := waterStartR_rel (F := F) (D := D) E ha hb starts
    generalize waterStartR F D E a starts = x at h1 ⊢
    generalize waterStartR F D E b starts = x' at h1 ⊢
    cases x with
    | error e =>
      cases x' with
      | error e' => exact h1
      | ok v' => exact h1.elim
    | ok st =>
      cases x' with
      | error e' => exact h1.elim
      | ok st' => exact waterLoopR_rel g E hs _ 0 st st' _ rfl h1

lemma sfcParcelsR_rel (E : SfcEnv L W K) {k a b : ℕ} : ∀ {ps ps' : List WParcel},
    List.Forall₂ (WalkRel k a b) ps ps' → ∀ acc : SfcAcc L W K,
    sfcParcelsR D E (ps.map (fun p => (p.walk, p.flag))) acc =
      sfcParcelsR D E (ps'.map (fun p => (p.walk, p.flag))) acc := by
  intro ps ps' h
  induction h with
  | nil => intro acc; rfl
  | @cons p p' ps ps' hp _ ih =>
    intro acc
    obtain ⟨g1, g2, pre, g3, g4, g5⟩ := hp
    have e : sfcParcelR D E p.walk p.flag acc = sfcParcelR D E p'.walk p'.flag acc := by
      unfold sfcParcelR
      rw [g4, g5, g2, walkCells_zeros, walkCells_zeros]
    simp only [List.map_cons, sfcParcelsR, e]
    cases sfcParcelR D E p'.walk p'.flag acc with
    | error e => rfl
    | ok a => exact ih a

lemma runWaterR_ncols {g : Rng K σ} {E : WEnv L W K} {inlet : Fin m → ℤ} {np n : ℕ} {s : σ}
    {res} (h : runWaterIterationR F D g E inlet np n s = .ok res) : n ≤ res.1.ncols := by
  obtain ⟨st, log, k, s'⟩ := res
  exact (C100_record h).2.2.1

lemma waterIterationR_over (g : Rng K σ) (P : Params L W m K) (hs : 4 ≤ P.stepmax) (it : ℕ)
    (S : State L W K) (q a b : Grid L W K) {n : ℕ} (hn : 0 < n) (hS : 0 < S.ncols) (s : σ) :
    ExRel (fun v v' => v'.2 = v.2 ∧ 0 < v.1.ncols ∧ 0 < v'.1.ncols ∧
        v'.1 = over q a b v'.1.ncols v.1)
      (waterIterationR F D g P it S s) (waterIterationR F D g P it (over q a b n S) s) := by
  unfold waterIterationR
  have e1 : waterWeightArrayR F D P (over q a b n S) = waterWeightArrayR F D P S := rfl
  rw [e1]
  cases waterWeightArrayR F D P S with
  | error e => rfl
  | ok w =>
    simp only
    have e2 : waterEnvR F P (over q a b n S) w = waterEnvR F P S w := rfl
    rw [e2, show (over q a b n S).ncols = n from rfl]
    have h1 := runWaterR_rel (F := F) (D := D) g (waterEnvR F P S w) hs (fun k => ((P.inlet k).val : ℤ)) P.NpWater hS hn s
    generalize hx : runWaterIterationR F D g (waterEnvR F P S w) (fun k => ((P.inlet k).val : ℤ)) P.NpWater
      S.ncols s = x at h1 ⊢
    generalize hx' : runWaterIterationR F D g (waterEnvR F P S w) (fun k => ((P.inlet k).val : ℤ)) P.NpWater
      n s = x' at h1 ⊢
    cases x with
    | error e =>
      cases x' with
      | error e' => exact h1
      | ok v' => exact h1.elim
    | ok v =>
      cases x' with
      | error e' => exact h1.elim
      | ok v' =>
        have hn1 := runWaterR_ncols hx
        have hn2 := runWaterR_ncols hx'
        obtain ⟨wst, log, k, s1⟩ := v
        obtain ⟨wst', log', k', s1'⟩ := v'
        obtain ⟨⟨j, h2, h3, h4, h5⟩, h6⟩ := h1
        simp only [Prod.mk.injEq] at h6 hn1 hn2 h2 h5
        obtain ⟨rfl, rfl, rfl⟩ := h6
        simp only
        have e3 : computeFreeSurfaceR F D P (over q a b n S) wst'.parcels =
            computeFreeSurfaceR F D P S wst.parcels := by
          unfold computeFreeSurfaceR
          rw [sfcParcelsR_rel _ h5]
          rfl
        rw [e3]
        cases computeFreeSurfaceR F D P S wst.parcels with
        | error e => rfl
        | ok stage =>
          refine ⟨rfl, by simp only; omega, by simp only; omega, ?_⟩
          simp only
          rw [h2]
          rfl

lemma routeWaterFromR_over (g : Rng K σ) (P : Params L W m K) (hs : 4 ≤ P.stepmax)
    (q a b : Grid L W K) : ∀ (i it : ℕ) (S : State L W K) {n : ℕ}, 0 < n → 0 < S.ncols → ∀ s : σ,
    ExRel (fun v v' => v'.2 = v.2 ∧ 0 < v.1.ncols ∧ 0 < v'.1.ncols ∧
        v'.1 = over q a b v'.1.ncols v.1)
      (routeWaterFromR F D g P it i S s) (routeWaterFromR F D g P it i (over q a b n S) s) := by
  intro i
  induction i with
  | zero => intro it S n hn hS s; exact ⟨rfl, hS, hn, rfl⟩
  | succ i ih =>
    intro it S n hn hS s
    simp only [routeWaterFromR]
    have h1 := waterIterationR_over (F := F) (D := D) g P hs it S q a b hn hS s
    generalize waterIterationR F D g P it S s = x at h1 ⊢
    generalize waterIterationR F D g P it (over q a b n S) s = x' at h1 ⊢
    cases x with
    | error e =>
      cases x' with
      | error e' => exact h1
      | ok v' => exact h1.elim
    | ok v =>
      cases x' with
      | error e' => exact h1.elim
      | ok v' =>
        obtain ⟨S1, s1⟩ := v
        obtain ⟨S1', s1'⟩ := v'
        obtain ⟨h2, h3, h4, h5⟩ := h1
        simp only at h2 h3 h4 h5 ⊢
        subst h2
        rw [h5]
        exact ih (it + 1) S1 h4 h3 s1'

/-- A timestepR F D does not depend on the size of the path record, on the sand flux and on the deposit
records left by the timestepR F D before: the same error, or the same state (but for the size of the path
record) and the same random state. -/
lemma timestepR_over (g : Rng K σ) (P : Params L W m K) (hs : 4 ≤ P.stepmax) (S : State L W K)
    (q a b : Grid L W K) {n : ℕ} (hn : 0 < n) (hS : 0 < S.ncols) (s : σ) :
    ExRel (fun v v' => v'.2.2 = v.2.2 ∧ 0 < v.1.ncols ∧ 0 < v'.1.ncols ∧
        v'.1 = withN v'.1.ncols v.1)
      (timestepR F D g P S s) (timestepR F D g P (over q a b n S) s) := by
  unfold timestepR routeWaterR
  have h1 := routeWaterFromR_over (F := F) (D := D) g P hs q a b P.itermax 0 S hn hS s
  generalize routeWaterFromR F D g P 0 P.itermax S s = x at h1 ⊢
  generalize routeWaterFromR F D g P 0 P.itermax (over q a b n S) s = x' at h1 ⊢
  cases x with
  | error e =>
    cases x' with
    | error e' => exact h1
    | ok v' => exact h1.elim
  | ok v =>
    cases x' with
    | error e' => exact h1.elim
    | ok v' =>
      obtain ⟨S1, s1⟩ := v
      obtain ⟨S1', s1'⟩ := v'
      obtain ⟨h2, h3, h4, h5⟩ := h1
      simp only at h2 h3 h4 h5 ⊢
      subst h2
      have e : routeSedimentR F D g P S1' s1' = routeSedimentR F D g P (withN S1'.ncols S1) s1' := by
        rw [h5]; rfl
      rw [e, routeSedimentR_withN]
      generalize hy : routeSedimentR F D g P S1 s1' = y
      cases y with
      | error e => rfl
      | ok w =>
        obtain ⟨S2, sand, mud, s2⟩ := w
        have hnc := (routeSedimentR_water hy).2.2.2.2.2.2.2.2.2
        simp only [Except.map]
        rw [applySubsidenceR_withN]
        refine ⟨rfl, ?_, h4, rfl⟩
        rw [applySubsidenceR_frame]
        show 0 < S2.ncols
        omega

end Verif.Lemmas
