import Verif.Model.Timestep
import Verif.Lemmas.WaterWalk
import Verif.Props.Timestep

/-!
# Which parts of the state a timestep reads

The size of the path record, the sand flux and the deposit records at the beginning of a timestep have
no influence on the timestep.
-/

set_option linter.unusedSectionVars false
set_option linter.unusedSimpArgs false

namespace Verif.Lemmas

open Verif.Model Verif.Props

variable {K : Type*} [Field K] [LinearOrder K] {σ : Type*} {L W m : ℕ}

/-- Both raise the same error, or both return and the results are related. -/
def ExRel {α β ε : Type*} (R : α → β → Prop) : Except ε α → Except ε β → Prop
  | .error e, .error e' => e = e'
  | .ok a, .ok b => R a b
  | _, _ => False

/-! ## Sediment routing -/

/-- The state with another size of the path record. -/
def withN (n : ℕ) (S : State L W K) : State L W K := { S with ncols := n }

/-- The router state with another size of the path record. -/
def stN (n : ℕ) (st : SedSt L W K) : SedSt L W K := ⟨withN n st.S, st.padDepth⟩

/-- The record of a step with another size of the path record. -/
def recN (n : ℕ) (r : SedRec L W K) : SedRec L W K :=
  { r with before := withN n r.before, after := withN n r.after }

/-- The log of a parcel with another size of the path record. -/
def logN (n : ℕ) (l : SedLog L W K) : SedLog L W K := { l with steps := l.steps.map (recN n) }

lemma fieldsAt_withN (n : ℕ) (k : Sed) (P : Params L W m K) (S : State L W K) (c0 c : Cell L W)
    (d : Fin 9) (res : K) :
    fieldsAt k P (withN n S) c0 c d res = withN n (fieldsAt k P S c0 c d res) := by
  cases k with
  | sand =>
    simp only [fieldsAt, partitionSand]
    split_ifs <;> rfl
  | mud => rfl

lemma volumeChange_withN (n : ℕ) (k : Sed) (P : Params L W m K) (S : State L W K) (c : Cell L W)
    (res : K) : volumeChange k P (withN n S) c res = volumeChange k P S c res := by
  cases k <;> rfl

lemma recordDeposit_withN (n : ℕ) (k : Sed) (S : State L W K) (c : Cell L W) (v : K) :
    recordDeposit k (withN n S) c v = withN n (recordDeposit k S c v) := by
  unfold recordDeposit
  split_ifs
  · cases k <;> rfl
  · rfl

lemma updateFields_withN (n : ℕ) (P : Params L W m K) (S : State L W K) (c : Cell L W) (v : K) :
    updateFields P (withN n S) c v = withN n (updateFields P S c v) := rfl

variable [NeZero L] [NeZero W]

lemma chooseNext_withN (n : ℕ) (g : Rng K σ) (k : Sed) (P : Params L W m K)
    (st : SedSt L W K) (px py : ℤ) (s : σ) :
    chooseNext g k P (stN n st) px py s = chooseNext g k P st px py s := rfl

lemma sedStep_withN (n : ℕ) (g : Rng K σ) (k : Sed) (P : Params L W m K) (st : SedSt L W K)
    (px py : ℤ) (res : K) (s : σ) : sedStep g k P (stN n st) px py res s =
      (sedStep g k P st px py res s).map (fun v => (stN n v.1, v.2.1, recN n v.2.2.1, v.2.2.2)) := by
  unfold sedStep
  rw [chooseNext_withN]
  generalize chooseNext g k P st px py s = x
  cases x with
  | error e => rfl
  | ok v =>
    obtain ⟨c0, d, s1⟩ := v
    simp only
    cases h1 : pyCell L W (px + jwalk d) (py + iwalk d) with
    | none => rfl
    | some c =>
      cases h2 : pyCell (L + 2) (W + 2) (px + jwalk d + 1) (py + iwalk d + 1) with
      | none => rfl
      | some cp =>
        simp only [stN, fieldsAt_withN, volumeChange_withN, recordDeposit_withN, updateFields_withN]
        rfl

lemma sedLoop_withN (n : ℕ) (g : Rng K σ) (k : Sed) (P : Params L W m K) :
    ∀ (i : ℕ) (st : SedSt L W K) (px py : ℤ) (res : K) (s : σ),
    sedLoop g k P i (stN n st) px py res s = (sedLoop g k P i st px py res s).map
      (fun v => (stN n v.1, v.2.1, v.2.2.1.map (recN n), v.2.2.2)) := by
  intro i
  induction i with
  | zero => intro st px py res s; rfl
  | succ i ih =>
    intro st px py res s
    simp only [sedLoop]
    rw [sedStep_withN]
    generalize sedStep g k P st px py res s = x
    cases x with
    | error e => rfl
    | ok v =>
      obtain ⟨st1, res1, r, s1⟩ := v
      simp only [Except.map]
      by_cases h : P.cellType r.cell = -1 ∨ i = 0
      · rw [if_pos h, if_pos (show P.cellType (recN n r).cell = -1 ∨ i = 0 from h)]
        rfl
      · rw [if_neg h, if_neg (show ¬ (P.cellType (recN n r).cell = -1 ∨ i = 0) from h)]
        rw [show (recN n r).new = r.new from rfl, ih]
        generalize sedLoop g k P i st1 r.new.1 r.new.2 res1 s1 = y
        cases y with
        | error e => rfl
        | ok v => rfl

lemma enterState_withN (n : ℕ) (k : Sed) (P : Params L W m K) (st : SedSt L W K) (c : Cell L W) :
    enterState k P (stN n st) c = stN n (enterState k P st c) := by
  cases k <;> rfl

lemma sedParcels_withN (n : ℕ) (g : Rng K σ) (k : Sed) (P : Params L W m K) :
    ∀ (pys : List ℤ) (st : SedSt L W K) (s : σ),
    sedParcels g k P pys (stN n st) s = (sedParcels g k P pys st s).map
      (fun v => (stN n v.1, v.2.1.map (logN n), v.2.2)) := by
  intro pys
  induction pys with
  | nil => intro st s; rfl
  | cons py pys ih =>
    intro st s
    simp only [sedParcels]
    cases pyCell L W 0 py with
    | none => rfl
    | some c =>
      simp only
      rw [enterState_withN, sedLoop_withN]
      generalize sedLoop g k P P.stepmax (enterState k P st c) 0 py P.VpSed s = x
      cases x with
      | error e => rfl
      | ok v =>
        obtain ⟨st2, res, rs, s1⟩ := v
        simp only [Except.map]
        rw [ih]
        generalize sedParcels g k P pys st2 s1 = y
        cases y with
        | error e => rfl
        | ok v => rfl

variable [IsStrictOrderedRing K] [FloorRing K]

lemma routeParcels_withN (n : ℕ) (g : Rng K σ) (k : Sed) (P : Params L W m K) (S : State L W K)
    (s : σ) : routeParcels g k P (withN n S) s =
      (routeParcels g k P S s).map (fun v => (withN n v.1, v.2.1.map (logN n), v.2.2)) := by
  unfold routeParcels
  simp only
  cases getStartIndices (fun i => ((P.inlet i).val : ℤ))
      (getInletWeights (fun i => ((P.inlet i).val : ℤ)) : Fin m → K)
      (drawN g (numStarts k P) s).1 with
  | none => rfl
  | some starts =>
    simp only
    rw [show (⟨withN n S, customPad (withN n S).depth⟩ : SedSt L W K) =
      stN n ⟨S, customPad S.depth⟩ from rfl, sedParcels_withN]
    generalize sedParcels g k P starts ⟨S, customPad S.depth⟩ (drawN g (numStarts k P) s).2 = x
    cases x with
    | error e => rfl
    | ok v => rfl

/-- The state between sand and mud. -/
def diffused (P : Params L W m K) (S : State L W K) : State L W K :=
  { S with eta := topoDiffusion P.cellType P.diffMult S.qs P.Ncross S.eta }

lemma routeSediment_eq (g : Rng K σ) (P : Params L W m K) (S : State L W K) (s : σ) :
    routeSediment g P S s = (routeParcels g .sand P (initSediment S) s).bind (fun v =>
      (routeParcels g .mud P (diffused P v.1) v.2.2).map (fun w => (w.1, v.2.1, w.2.1, w.2.2))) := by
  unfold routeSediment
  generalize routeParcels g .sand P (initSediment S) s = x
  cases x with
  | error e => rfl
  | ok v =>
    obtain ⟨S1, sand, s1⟩ := v
    simp only [Except.bind]
    rw [show ({ S1 with eta := topoDiffusion P.cellType P.diffMult S1.qs P.Ncross S1.eta } :
      State L W K) = diffused P S1 from rfl]
    generalize routeParcels g .mud P (diffused P S1) s1 = y
    cases y with
    | error e => rfl
    | ok v => rfl

lemma routeSediment_withN (n : ℕ) (g : Rng K σ) (P : Params L W m K) (S : State L W K) (s : σ) :
    routeSediment g P (withN n S) s = (routeSediment g P S s).map
      (fun v => (withN n v.1, v.2.1.map (logN n), v.2.2.1.map (logN n), v.2.2.2)) := by
  rw [routeSediment_eq, routeSediment_eq,
    show initSediment (withN n S) = withN n (initSediment S) from rfl, routeParcels_withN]
  generalize routeParcels g .sand P (initSediment S) s = x
  cases x with
  | error e => rfl
  | ok v =>
    obtain ⟨S1, sand, s1⟩ := v
    simp only [Except.map, Except.bind]
    rw [show diffused P (withN n S1) = withN n (diffused P S1) from rfl, routeParcels_withN]
    generalize routeParcels g .mud P (diffused P S1) s1 = y
    cases y with
    | error e => rfl
    | ok v => rfl

lemma applySubsidence_withN (n : ℕ) (P : Params L W m K) (S : State L W K) :
    applySubsidence P (withN n S) = withN n (applySubsidence P S) := by
  unfold applySubsidence
  split_ifs
  · rfl
  · exact absurd (show P.startSub ≤ S.time by assumption) (by assumption)
  · exact absurd (show P.startSub ≤ S.time by assumption) (by assumption)
  · rfl
  · rfl

/-! ## Water routing -/

/-- The same parcel with path records of sizes `a` and `b`, of which `k` columns are used. -/
def WalkRel (k a b : ℕ) (p p' : WParcel) : Prop :=
  p.ind = p'.ind ∧ p.flag = p'.flag ∧ ∃ pre : List ℤ, pre.length = k ∧
    p.walk = pre ++ List.replicate (a - k) 0 ∧ p'.walk = pre ++ List.replicate (b - k) 0

/-- The same state of the parcel loop with path records of different size. -/
def StRel (k : ℕ) (st st' : WState L W K) : Prop :=
  st.flux = st'.flux ∧ k ≤ st.ncols ∧ k ≤ st'.ncols ∧
    List.Forall₂ (WalkRel k st.ncols st'.ncols) st.parcels st'.parcels

lemma filter_pos_zeros (pre : List ℤ) (n : ℕ) :
    (pre ++ List.replicate n 0).filter (fun i => decide (i > 0)) =
      pre.filter (fun i => decide (i > 0)) := by
  rw [List.filter_append]
  have : (List.replicate n (0 : ℤ)).filter (fun i => decide (i > 0)) = [] := by
    rw [List.filter_eq_nil_iff]
    intro x hx
    rw [List.eq_of_mem_replicate hx]
    decide
  rw [this, List.append_nil]

lemma walkCells_zeros (pre : List ℤ) (n : ℕ) :
    walkCells L W (pre ++ List.replicate n 0) = walkCells L W pre := by
  induction pre with
  | nil =>
    induction n with
    | zero => rfl
    | succ n ih =>
      simp only [List.nil_append] at ih ⊢
      rw [List.replicate_succ]
      simp only [walkCells]
      rw [if_neg (by decide), ih]
      rfl
  | cons i pre ih =>
    simp only [List.cons_append, walkCells, ih]

lemma checkLoop_zeros (E : WEnv L W K) (step : ℕ) (pre : List ℤ) (n n' : ℕ) (i : ℤ) :
    checkLoop E step (pre ++ List.replicate n 0) i =
      checkLoop E step (pre ++ List.replicate n' 0) i := by
  unfold checkLoop
  simp only [filter_pos_zeros]

lemma set_zeros (pre : List ℤ) {n : ℕ} (hn : 0 < n) (x : ℤ) :
    (pre ++ List.replicate n 0).set pre.length x = (pre ++ [x]) ++ List.replicate (n - 1) 0 := by
  obtain ⟨n, rfl⟩ : ∃ k, n = k + 1 := ⟨n - 1, by omega⟩
  rw [List.set_append_right _ _ le_rfl, List.replicate_succ]
  simp

lemma parcelStep_rel (E : WEnv L W K) {k a b : ℕ} (ha : k < a) (hb : k < b) {p p' : WParcel}
    (h : WalkRel k a b p p') (d : Fin 9) :
    ExRel (fun v v' => WalkRel (k + 1) a b v.1 v'.1 ∧ v.2 = v'.2) (parcelStep E k p d)
      (parcelStep E k p' d) := by
  obtain ⟨h1, h2, pre, h3, h4, h5⟩ := h
  unfold parcelStep
  simp only
  rw [h4, h5, ← h1, checkLoop_zeros E k pre (b - k) (a - k)]
  generalize checkLoop E k (pre ++ List.replicate (a - k) 0) (calcNewInd W p.ind d) = x
  cases x with
  | error e => rfl
  | ok v =>
    obtain ⟨new2, looped⟩ := v
    simp only
    generalize isBoundary E new2 = y
    cases y with
    | error e => rfl
    | ok bnd =>
      refine ⟨⟨rfl, by rw [h2], pre ++ [if looped && bnd then 0 else new2], by simp [h3], ?_, ?_⟩, rfl⟩
      · simp only
        rw [← h3, set_zeros pre (by omega)]
        rfl
      · simp only
        rw [← h3, set_zeros pre (by omega)]
        rfl

lemma parcelSteps_rel (E : WEnv L W K) {k a b : ℕ} (ha : k < a) (hb : k < b) :
    ∀ {ps ps' : List WParcel}, List.Forall₂ (WalkRel k a b) ps ps' → ∀ ds : List (Fin 9),
    ExRel (fun v v' => List.Forall₂ (WalkRel (k + 1) a b) v.1 v'.1 ∧ v.2 = v'.2)
      (parcelSteps E k ps ds) (parcelSteps E k ps' ds) := by
  intro ps ps' h
  induction h with
  | nil =>
    intro ds
    cases ds with
    | nil => exact ⟨List.Forall₂.nil, rfl⟩
    | cons d ds => rfl
  | @cons p p' ps ps' hp _ ih =>
    intro ds
    cases ds with
    | nil => rfl
    | cons d ds =>
      simp only [parcelSteps]
      have h1 := parcelStep_rel E ha hb hp d
      generalize parcelStep E k p d = x at h1 ⊢
      generalize parcelStep E k p' d = x' at h1 ⊢
      cases x with
      | error e =>
        cases x' with
        | error e' => exact h1
        | ok v' => exact h1.elim
      | ok v =>
        cases x' with
        | error e' => exact h1.elim
        | ok v' =>
          have h2 := ih ds
          simp only
          generalize parcelSteps E k ps ds = y at h2 ⊢
          generalize parcelSteps E k ps' ds = y' at h2 ⊢
          cases y with
          | error e =>
            cases y' with
            | error e' => exact h2
            | ok w' => exact h2.elim
          | ok w =>
            cases y' with
            | error e' => exact h2.elim
            | ok w' =>
              exact ⟨List.Forall₂.cons h1.1 h2.1, by simp only [h1.2, h2.2]⟩

lemma checkSize_rel {stepmax k : ℕ} (hs : 4 ≤ stepmax) {st st' : WState L W K}
    (h : StRel k st st') : StRel k (checkSize stepmax k st) (checkSize stepmax k st') ∧
      k < (checkSize stepmax k st).ncols ∧ k < (checkSize stepmax k st').ncols := by
  obtain ⟨h1, h2, h3, h4⟩ := h
  have hq : 0 < stepmax / 4 := by omega
  have grow : ∀ (a q : ℕ) (pre : List ℤ), k ≤ a →
      (pre ++ List.replicate (a - k) (0 : ℤ)) ++ List.replicate q 0 =
        pre ++ List.replicate (a + q - k) 0 := by
    intro a q pre hka
    rw [List.append_assoc, List.replicate_append_replicate]
    congr 2
    omega
  refine ⟨?_, checkSize_ncols _ _ hs _ h2, checkSize_ncols _ _ hs _ h3⟩
  unfold checkSize
  split_ifs with c1 c2 c2
  · refine ⟨h1, by simp only; omega, by simp only; omega, ?_⟩
    simp only [List.forall₂_map_left_iff, List.forall₂_map_right_iff]
    refine h4.imp (fun p p' hp => ?_)
    obtain ⟨g1, g2, pre, g3, g4, g5⟩ := hp
    exact ⟨g1, g2, pre, g3, by rw [g4]; exact grow _ _ _ h2, by rw [g5]; exact grow _ _ _ h3⟩
  · refine ⟨h1, by simp only; omega, h3, ?_⟩
    simp only [List.forall₂_map_left_iff]
    refine h4.imp (fun p p' hp => ?_)
    obtain ⟨g1, g2, pre, g3, g4, g5⟩ := hp
    exact ⟨g1, g2, pre, g3, by rw [g4]; exact grow _ _ _ h2, g5⟩
  · refine ⟨h1, h2, by simp only; omega, ?_⟩
    simp only [List.forall₂_map_right_iff]
    refine h4.imp (fun p p' hp => ?_)
    obtain ⟨g1, g2, pre, g3, g4, g5⟩ := hp
    exact ⟨g1, g2, pre, g3, g4, by rw [g5]; exact grow _ _ _ h3⟩
  · exact ⟨h1, h2, h3, h4⟩

lemma inds_eq {k a b : ℕ} {ps ps' : List WParcel} (h : List.Forall₂ (WalkRel k a b) ps ps') :
    ps.map (·.ind) = ps'.map (·.ind) := by
  induction h with
  | nil => rfl
  | cons hp _ ih => simp only [List.map_cons, ih, hp.1]

lemma waterStep_rel (g : Rng K σ) (E : WEnv L W K) (hs : 4 ≤ E.stepmax) {k : ℕ}
    {st st' : WState L W K} (h : StRel k st st') (s : σ) :
    ExRel (fun v v' => StRel (k + 1) v.1 v'.1 ∧ v.2 = v'.2) (waterStep g E k st s)
      (waterStep g E k st' s) := by
  obtain ⟨hrel, ha, hb⟩ := checkSize_rel hs h
  unfold waterStep
  simp only
  generalize checkSize E.stepmax k st = st1 at hrel ha ⊢
  generalize checkSize E.stepmax k st' = st1' at hrel hb ⊢
  obtain ⟨h1, h2, h3, h4⟩ := hrel
  rw [if_pos ha, if_pos hb, inds_eq h4]
  generalize chooseDirs g E.weights (st1'.parcels.map (·.ind)) s = x
  cases x with
  | error e => rfl
  | ok v =>
    obtain ⟨ds, s1⟩ := v
    simp only
    have h5 := parcelSteps_rel E ha hb h4 ds
    generalize parcelSteps E k st1.parcels ds = y at h5 ⊢
    generalize parcelSteps E k st1'.parcels ds = y' at h5 ⊢
    cases y with
    | error e =>
      cases y' with
      | error e' => exact h5
      | ok w' => exact h5.elim
    | ok w =>
      cases y' with
      | error e' => exact h5.elim
      | ok w' =>
        obtain ⟨ps, recs⟩ := w
        obtain ⟨ps', recs'⟩ := w'
        obtain ⟨h6, h7⟩ := h5
        simp only at h6 h7 ⊢
        subst h7
        rw [h1]
        generalize addFluxes E (·.cur) (fun _ => true) recs st1'.flux = z1
        cases z1 with
        | error e => rfl
        | ok f1 =>
          simp only
          generalize addFluxes E (·.new1) (fun _ => true) recs f1 = z2
          cases z2 with
          | error e => rfl
          | ok f2 =>
            simp only
            generalize addFluxes E (·.new2) (·.bnd) recs f2 = z3
            cases z3 with
            | error e => rfl
            | ok f3 => exact ⟨⟨rfl, by simp only; omega, by simp only; omega, h6⟩, rfl⟩

lemma waterLoop_rel (g : Rng K σ) (E : WEnv L W K) (hs : 4 ≤ E.stepmax) :
    ∀ (i step : ℕ) (st st' : WState L W K) (s : σ), E.stepmax - step = i → StRel (step + 1) st st' →
    ExRel (fun v v' => (∃ k, StRel k v.1 v'.1) ∧ v.2 = v'.2) (waterLoop g E step st s)
      (waterLoop g E step st' s) := by
  intro i
  induction i with
  | zero =>
    intro step st st' s hi h
    have hn : ∀ st : WState L W K, ¬ ((st.parcels.map (·.ind)).sum > 0 ∧ step < E.stepmax) := by
      intro st hc; omega
    rw [waterLoop, waterLoop, if_neg (hn st), if_neg (hn st')]
    exact ⟨⟨_, h⟩, rfl⟩
  | succ i ih =>
    intro step st st' s hi h
    rw [waterLoop, waterLoop, inds_eq h.2.2.2]
    by_cases hc : (st'.parcels.map (·.ind)).sum > 0 ∧ step < E.stepmax
    · rw [if_pos hc, if_pos hc]
      have h1 := waterStep_rel g E hs h s
      generalize waterStep g E (step + 1) st s = x at h1 ⊢
      generalize waterStep g E (step + 1) st' s = x' at h1 ⊢
      cases x with
      | error e =>
        cases x' with
        | error e' => exact h1
        | ok v' => exact h1.elim
      | ok v =>
        cases x' with
        | error e' => exact h1.elim
        | ok v' =>
          obtain ⟨st1, recs, s1⟩ := v
          obtain ⟨st1', recs', s1'⟩ := v'
          obtain ⟨h2, h3⟩ := h1
          simp only [Prod.mk.injEq] at h2 h3
          obtain ⟨rfl, rfl⟩ := h3
          simp only
          have h4 := ih (step + 1) st1 st1' s1 (by omega) h2
          generalize waterLoop g E (step + 1) st1 s1 = y at h4 ⊢
          generalize waterLoop g E (step + 1) st1' s1 = y' at h4 ⊢
          cases y with
          | error e =>
            cases y' with
            | error e' => exact h4
            | ok w' => exact h4.elim
          | ok w =>
            cases y' with
            | error e' => exact h4.elim
            | ok w' =>
              obtain ⟨st2, log, n, s2⟩ := w
              obtain ⟨st2', log', n', s2'⟩ := w'
              obtain ⟨h5, h6⟩ := h4
              simp only [Prod.mk.injEq] at h6
              obtain ⟨rfl, rfl, rfl⟩ := h6
              exact ⟨h5, rfl⟩
    · rw [if_neg hc, if_neg hc]
      exact ⟨⟨_, h⟩, rfl⟩

lemma waterStart_rel (E : WEnv L W K) {a b : ℕ} (ha : 0 < a) (hb : 0 < b) (starts : List ℤ) :
    ExRel (fun st st' : WState L W K => StRel 1 st st') (waterStart E a starts)
      (waterStart E b starts) := by
  unfold waterStart
  by_cases hc : starts.all (fun i => (flatCell L W i).isSome) = true
  · rw [if_pos ⟨hc, ha⟩, if_pos ⟨hc, hb⟩]
    refine ⟨rfl, ha, hb, ?_⟩
    simp only [List.forall₂_map_left_iff, List.forall₂_map_right_iff]
    rw [List.forall₂_same]
    intro i _
    have e : ∀ n : ℕ, 0 < n → (List.replicate n (0 : ℤ)).set 0 i = [i] ++ List.replicate (n - 1) 0 := by
      intro n hn
      have := set_zeros [] hn i
      simpa using this
    exact ⟨rfl, rfl, [i], rfl, e a ha, e b hb⟩
  · rw [if_neg (fun h => hc h.1), if_neg (fun h => hc h.1)]
    rfl

lemma runWater_rel (g : Rng K σ) (E : WEnv L W K) (hs : 4 ≤ E.stepmax) (inlet : Fin m → ℤ)
    (np : ℕ) {a b : ℕ} (ha : 0 < a) (hb : 0 < b) (s : σ) :
    ExRel (fun v v' => (∃ k, StRel k v.1 v'.1) ∧ v.2 = v'.2) (runWaterIteration g E inlet np a s)
      (runWaterIteration g E inlet np b s) := by
  unfold runWaterIteration
  simp only
  cases getStartIndices inlet (getInletWeights inlet : Fin m → K) (drawN g np s).1 with
  | none => rfl
  | some starts =>
    simp only
    have h1 := waterStart_rel E ha hb starts
    generalize waterStart E a starts = x at h1 ⊢
    generalize waterStart E b starts = x' at h1 ⊢
    cases x with
    | error e =>
      cases x' with
      | error e' => exact h1
      | ok v' => exact h1.elim
    | ok st =>
      cases x' with
      | error e' => exact h1.elim
      | ok st' => exact waterLoop_rel g E hs _ 0 st st' _ rfl h1

lemma sfcParcels_rel (E : SfcEnv L W K) {k a b : ℕ} : ∀ {ps ps' : List WParcel},
    List.Forall₂ (WalkRel k a b) ps ps' → ∀ acc : SfcAcc L W K,
    sfcParcels E (ps.map (fun p => (p.walk, p.flag))) acc =
      sfcParcels E (ps'.map (fun p => (p.walk, p.flag))) acc := by
  intro ps ps' h
  induction h with
  | nil => intro acc; rfl
  | @cons p p' ps ps' hp _ ih =>
    intro acc
    obtain ⟨g1, g2, pre, g3, g4, g5⟩ := hp
    have e : sfcParcel E p.walk p.flag acc = sfcParcel E p'.walk p'.flag acc := by
      unfold sfcParcel
      rw [g4, g5, g2, walkCells_zeros, walkCells_zeros]
    simp only [List.map_cons, sfcParcels, e]
    cases sfcParcel E p'.walk p'.flag acc with
    | error e => rfl
    | ok a => exact ih a

/-- The state with other values in the parts that a timestep does not read. -/
def over (q a b : Grid L W K) (n : ℕ) (S : State L W K) : State L W K :=
  { S with qs := q, depSand := a, depMud := b, ncols := n }

lemma runWater_ncols {g : Rng K σ} {E : WEnv L W K} {inlet : Fin m → ℤ} {np n : ℕ} {s : σ}
    {res} (h : runWaterIteration g E inlet np n s = .ok res) : n ≤ res.1.ncols := by
  obtain ⟨starts, st, _, h2, h3⟩ := runWater_ok g E inlet np n s res h
  obtain ⟨_, hn, hc, hR, _⟩ := waterStart_ok h2
  obtain ⟨st', log, k, s'⟩ := res
  have := (waterLoop_walk g E 0 st st' _ s' log k hR (by omega) h3).2.2.1
  simp only
  omega

lemma waterIteration_over (g : Rng K σ) (P : Params L W m K) (hs : 4 ≤ P.stepmax) (it : ℕ)
    (S : State L W K) (q a b : Grid L W K) {n : ℕ} (hn : 0 < n) (hS : 0 < S.ncols) (s : σ) :
    ExRel (fun v v' => v'.2 = v.2 ∧ 0 < v.1.ncols ∧ 0 < v'.1.ncols ∧
        v'.1 = over q a b v'.1.ncols v.1)
      (waterIteration g P it S s) (waterIteration g P it (over q a b n S) s) := by
  unfold waterIteration
  have e1 : waterWeightArray P (over q a b n S) = waterWeightArray P S := rfl
  rw [e1]
  cases waterWeightArray P S with
  | error e => rfl
  | ok w =>
    simp only
    have e2 : waterEnv P (over q a b n S) w = waterEnv P S w := rfl
    rw [e2, show (over q a b n S).ncols = n from rfl]
    have h1 := runWater_rel g (waterEnv P S w) hs (fun k => ((P.inlet k).val : ℤ)) P.NpWater hS hn s
    generalize hx : runWaterIteration g (waterEnv P S w) (fun k => ((P.inlet k).val : ℤ)) P.NpWater
      S.ncols s = x at h1 ⊢
    generalize hx' : runWaterIteration g (waterEnv P S w) (fun k => ((P.inlet k).val : ℤ)) P.NpWater
      n s = x' at h1 ⊢
    cases x with
    | error e =>
      cases x' with
      | error e' => exact h1
      | ok v' => exact h1.elim
    | ok v =>
      cases x' with
      | error e' => exact h1.elim
      | ok v' =>
        have hn1 := runWater_ncols hx
        have hn2 := runWater_ncols hx'
        obtain ⟨wst, log, k, s1⟩ := v
        obtain ⟨wst', log', k', s1'⟩ := v'
        obtain ⟨⟨j, h2, h3, h4, h5⟩, h6⟩ := h1
        simp only [Prod.mk.injEq] at h6 hn1 hn2 h2 h5
        obtain ⟨rfl, rfl, rfl⟩ := h6
        simp only
        have e3 : computeFreeSurface P (over q a b n S) wst'.parcels =
            computeFreeSurface P S wst.parcels := by
          unfold computeFreeSurface accumulateFreeSurface
          rw [sfcParcels_rel _ h5]
          rfl
        rw [e3]
        cases computeFreeSurface P S wst.parcels with
        | error e => rfl
        | ok stage =>
          refine ⟨rfl, by simp only; omega, by simp only; omega, ?_⟩
          simp only
          rw [h2]
          rfl

lemma routeWaterFrom_over (g : Rng K σ) (P : Params L W m K) (hs : 4 ≤ P.stepmax)
    (q a b : Grid L W K) : ∀ (i it : ℕ) (S : State L W K) {n : ℕ}, 0 < n → 0 < S.ncols → ∀ s : σ,
    ExRel (fun v v' => v'.2 = v.2 ∧ 0 < v.1.ncols ∧ 0 < v'.1.ncols ∧
        v'.1 = over q a b v'.1.ncols v.1)
      (routeWaterFrom g P it i S s) (routeWaterFrom g P it i (over q a b n S) s) := by
  intro i
  induction i with
  | zero => intro it S n hn hS s; exact ⟨rfl, hS, hn, rfl⟩
  | succ i ih =>
    intro it S n hn hS s
    simp only [routeWaterFrom]
    have h1 := waterIteration_over g P hs it S q a b hn hS s
    generalize waterIteration g P it S s = x at h1 ⊢
    generalize waterIteration g P it (over q a b n S) s = x' at h1 ⊢
    cases x with
    | error e =>
      cases x' with
      | error e' => exact h1
      | ok v' => exact h1.elim
    | ok v =>
      cases x' with
      | error e' => exact h1.elim
      | ok v' =>
        obtain ⟨S1, s1⟩ := v
        obtain ⟨S1', s1'⟩ := v'
        obtain ⟨h2, h3, h4, h5⟩ := h1
        simp only at h2 h3 h4 h5 ⊢
        subst h2
        rw [h5]
        exact ih (it + 1) S1 h4 h3 s1'

/-- A timestep does not depend on the size of the path record, on the sand flux and on the deposit
records left by the timestep before: the same error, or the same state (but for the size of the path
record) and the same random state. -/
lemma timestep_over (g : Rng K σ) (P : Params L W m K) (hs : 4 ≤ P.stepmax) (S : State L W K)
    (q a b : Grid L W K) {n : ℕ} (hn : 0 < n) (hS : 0 < S.ncols) (s : σ) :
    ExRel (fun v v' => v'.2.2 = v.2.2 ∧ 0 < v.1.ncols ∧ 0 < v'.1.ncols ∧
        v'.1 = withN v'.1.ncols v.1)
      (timestep g P S s) (timestep g P (over q a b n S) s) := by
  unfold timestep routeWater
  have h1 := routeWaterFrom_over g P hs q a b P.itermax 0 S hn hS s
  generalize routeWaterFrom g P 0 P.itermax S s = x at h1 ⊢
  generalize routeWaterFrom g P 0 P.itermax (over q a b n S) s = x' at h1 ⊢
  cases x with
  | error e =>
    cases x' with
    | error e' => exact h1
    | ok v' => exact h1.elim
  | ok v =>
    cases x' with
    | error e' => exact h1.elim
    | ok v' =>
      obtain ⟨S1, s1⟩ := v
      obtain ⟨S1', s1'⟩ := v'
      obtain ⟨h2, h3, h4, h5⟩ := h1
      simp only at h2 h3 h4 h5 ⊢
      subst h2
      have e : routeSediment g P S1' s1' = routeSediment g P (withN S1'.ncols S1) s1' := by
        rw [h5]; rfl
      rw [e, routeSediment_withN]
      generalize hy : routeSediment g P S1 s1' = y
      cases y with
      | error e => rfl
      | ok w =>
        obtain ⟨S2, sand, mud, s2⟩ := w
        have hnc := (routeSediment_frame hy).2.2.2.2.2.2.2.2.2
        simp only [Except.map]
        rw [applySubsidence_withN]
        refine ⟨rfl, ?_, h4, rfl⟩
        rw [applySubsidence_frame]
        show 0 < S2.ncols
        omega

end Verif.Lemmas
