import Verif.Lemmas.WaterWalk
import Verif.Model.FloatWater
import Verif.Props.FloatSediment

/-!
# Lemmas on the walk of water parcels in rounded arithmetic

As `Lemmas/WaterWalk`.
-/

set_option linter.unusedSectionVars false

namespace Verif.Lemmas

open Verif.Model Verif.Props

variable {K : Type*} [Field K] [LinearOrder K] [IsStrictOrderedRing K] [FloorRing K] {σ : Type*}
  {F D : Rounding K}

lemma checkLoopR_not {L W : ℕ} (E : WEnv L W K) (step : ℕ) (walk : List ℤ) (newInd : ℤ)
    (h : ¬ Repeats E step walk newInd) : checkLoopR D E step walk newInd = .ok (newInd, false) := by
  unfold checkLoopR
  simp only []
  by_cases h1 : (step : ℤ) > E.L0
  · rw [if_pos h1]
    by_cases h2 : newInd > 0
    · rw [if_pos h2, if_neg]
      intro hm
      simp only [List.mem_filter, decide_eq_true_eq] at hm
      exact h ⟨h1, h2, hm.1.1, by omega⟩
    · rw [if_neg h2]
  · rw [if_neg h1]

/-- The relocation target before ravelling. -/
lemma checkLoopR_repeats {L W : ℕ} (E : WEnv L W K) (step : ℕ) (walk : List ℤ) (c : Cell L W)
    (h : Repeats E step walk (posOf c)) (hW : 2 ≤ W) :
    checkLoopR D E step walk (posOf c) =
      if D.fl (E.nrm ((c.1.val : K) - 1) ((c.2.val : K) - (E.CTR : K))) ≠ 0 then
        .ok (W * (min ((L : ℤ) - 2) (max (c.1.val + roundHalfEven
              (D.fl (D.fl (((c.1.val : K) - 1) / D.fl (E.nrm ((c.1.val : K) - 1) ((c.2.val : K) - (E.CTR : K)))) * 5))) E.L0))
            + min ((W : ℤ) - 2) (max 1 (c.2.val + roundHalfEven
              (D.fl (D.fl (((c.2.val : K) - (E.CTR : K)) / D.fl (E.nrm ((c.1.val : K) - 1) ((c.2.val : K) - (E.CTR : K)))) * 5)))),
          !decide (|E.stageAboveSL c| < D.fl (1 / 10)))
      else .error .unbound := by
  obtain ⟨h1, h2, h3, h4⟩ := h
  have hlt := posOf_lt c
  have hWp : (0 : ℤ) < W := by omega
  have hin : Props.InDomain L W ((c.1.val : ℤ), (c.2.val : ℤ)) :=
    ⟨by simp, by simp only; exact_mod_cast c.1.isLt, by simp,
      by simp only; exact_mod_cast c.2.isLt⟩
  have hun : customUnravel (posOf c) ((L : ℤ), (W : ℤ)) = .ok ((c.1.val : ℤ), (c.2.val : ℤ)) := by
    obtain ⟨i, -, hip, -, -, hu⟩ := Props.C01_ravel_unravel hin
    simp only [Props.IsPosition] at hip
    unfold posOf
    rw [← hip]; exact hu
  have hpc : pyCell L W (c.1.val : ℤ) (c.2.val : ℤ) = some c := by
    obtain ⟨d, hd, h1, h2⟩ := pyCell_nonneg (L := L) (W := W) (x := c.1.val) (y := c.2.val)
      (by simp) (by exact_mod_cast c.1.isLt) (by simp) (by exact_mod_cast c.2.isLt)
    rw [hd]
    congr 1
    exact Prod.ext (Fin.ext (by exact_mod_cast h1)) (Fin.ext (by exact_mod_cast h2))
  unfold checkLoopR
  simp only []
  rw [if_pos h1, if_pos h2, if_pos]
  · rw [hun]
    simp only [hpc, Int.cast_natCast]
    split
    · have hr : ∀ a b : ℤ, customRavel (min ((L : ℤ) - 2) (max a E.L0),
          min ((W : ℤ) - 2) (max 1 b)) ((L : ℤ), (W : ℤ)) =
          .ok (W * min ((L : ℤ) - 2) (max a E.L0) + min ((W : ℤ) - 2) (max 1 b)) := by
        intro a b
        unfold customRavel
        rw [if_neg (by simp only; omega)]
        simp only [Except.ok.injEq]; ring
      rw [hr]
    · rfl
  · simp only [List.mem_filter, decide_eq_true_eq]
    exact ⟨⟨h3, h2⟩, by omega⟩

lemma checkLoopR_safe {L W : ℕ} {E : WEnv L W K} (hL : 2 ≤ L) (hW : 2 ≤ W) (hL0 : 2 ≤ E.L0)
    (hnrm : ∀ x y, E.nrm x y = 0 → x = 0 ∧ y = 0) (step : ℕ) (walk : List ℤ) {n : ℤ} (h1 : -(W + 1 : ℤ) ≤ n) (h2 : n < L * W) :
    ∃ m lp, checkLoopR D E step walk n = .ok (m, lp) ∧
      (m = n ∨ ∃ c : Cell L W, m = posOf c ∧ min ((L : ℤ) - 2) E.L0 ≤ c.1.val ∧ c.1.val + 1 < L ∧
        0 < c.2.val + (if W = 2 then 1 else 0) ∧ c.2.val + 1 < W) := by
  by_cases hr : Repeats E step walk n
  · have h0 : 0 ≤ n := hr.2.1.le
    obtain ⟨c, -, hc⟩ := flatCell_nonneg h0 h2
    have hc' : n = posOf c := hc
    subst hc'
    rw [checkLoopR_repeats E step walk c hr hW]
    have hne : D.fl (E.nrm ((c.1.val : K) - 1) ((c.2.val : K) - (E.CTR : K))) ≠ 0 := by
      intro h
      rw [fl_eq_zero D] at h
      obtain ⟨hx, -⟩ := hnrm _ _ h
      have hx' : c.1.val = 1 := by
        have : (c.1.val : K) = 1 := by linarith
        exact_mod_cast this
      have hrow := hr.2.2.2
      have hc2 := c.2.isLt
      unfold posOf at hrow
      rw [hx'] at hrow
      have hW0 : (0 : ℤ) ≤ W := by positivity
      have : 2 * (W : ℤ) ≤ E.L0 * W := by nlinarith
      push_cast at hrow
      omega
    rw [if_pos hne]
    refine ⟨_, _, rfl, .inr ?_⟩
    generalize roundHalfEven (D.fl (D.fl (((c.1.val : K) - 1) /
      D.fl (E.nrm ((c.1.val : K) - 1) ((c.2.val : K) - (E.CTR : K)))) * 5)) = a
    generalize roundHalfEven (D.fl (D.fl (((c.2.val : K) - (E.CTR : K)) /
      D.fl (E.nrm ((c.1.val : K) - 1) ((c.2.val : K) - (E.CTR : K)))) * 5)) = b
    have hb := relocated_bounds hL hW (by linarith : 0 ≤ E.L0)
      (c.1.val + a) (c.2.val + b)
    have hx := Int.toNat_of_nonneg hb.1
    have hy := Int.toNat_of_nonneg hb.2.2.1
    refine ⟨(⟨(min ((L : ℤ) - 2) (max (c.1.val + a) E.L0)).toNat, by omega⟩,
      ⟨(min ((W : ℤ) - 2) (max 1 (c.2.val + b))).toNat, by omega⟩), ?_, ?_, ?_, ?_, ?_⟩
    · simp only [posOf]; rw [hx, hy]
    · simp only; rw [hx]; omega
    · simp only; omega
    · simp only; split <;> omega
    · simp only; omega
  · exact ⟨n, false, checkLoopR_not E step walk n hr, .inl rfl⟩

/-- One parcel step never fails and leads to a good index. -/
lemma parcelStepR_safe {L W : ℕ} {E : WEnv L W K} (hS : SafeLayout E) (step : ℕ) (p : WParcel)
    (hp : GoodInd E p.ind) (d : Fin 9) (hd : p.ind = 0 → d = 4) :
    ∃ p' r, parcelStepR D E step p d = .ok (p', r) ∧ GoodInd E p'.ind ∧
      (∃ c, flatCell L W r.cur = some c) ∧ (∃ c, flatCell L W r.new1 = some c) ∧
      (∃ c, flatCell L W r.new2 = some c) := by
  have hL := hS.hL
  have hW := hS.hW
  obtain ⟨hb1, hb2⟩ := new1_bounds hS hp hd
  obtain ⟨m, lp, hm, hmc⟩ := checkLoopR_safe (D := D) hL hW hS.hL0 hS.nrm step p.walk hb1 hb2
  have hmb : -(W + 1 : ℤ) ≤ m ∧ m < L * W := by
    rcases hmc with rfl | ⟨c, rfl, -⟩
    · exact ⟨hb1, hb2⟩
    · exact ⟨by have := posOf_nonneg c; omega, posOf_lt c⟩
  obtain ⟨c, hc⟩ := flatCell_exists_of_bounds hL (by omega) hmb.1 hmb.2
  obtain ⟨c1, hc1⟩ := flatCell_exists_of_bounds hL (by omega) hb1 hb2
  have hcur : ∃ c, flatCell L W p.ind = some c := by
    rcases hp with h0 | ⟨c, h, -⟩
    · rw [h0]; exact flatCell_exists_of_bounds hL (by omega) (by omega) (by positivity)
    · exact ⟨c, by rw [h]; exact flatCell_posOf c⟩
  have hbnd : isBoundary E m = .ok (decide (E.cellType c = -1)) := by
    unfold isBoundary; rw [hc]
  refine ⟨⟨if decide (E.cellType c = -1) then 0 else
      (if lp && decide (E.cellType c = -1) then 0 else m), p.flag && !lp,
      p.walk.set step (if lp && decide (E.cellType c = -1) then 0 else m)⟩,
    ⟨p.ind, d, calcNewInd W p.ind d, m, lp, decide (E.cellType c = -1)⟩, ?_, ?_, hcur,
    ⟨c1, hc1⟩, ⟨c, hc⟩⟩
  · unfold parcelStepR; simp only [hm, hbnd]
  · by_cases ht : E.cellType c = -1
    · left; simp [ht]
    · simp only [ht, decide_false, Bool.and_false, Bool.false_eq_true, if_false]
      by_cases h0 : 0 ≤ m
      · right; exact ⟨c, flatCell_some_nonneg h0 hc, ht⟩
      · exfalso
        apply absurd ht
        push Not
        by_contra hne
        obtain ⟨he1, he2⟩ := hS.edge c hne
        obtain ⟨c', hc', hpos⟩ := flatCell_neg (L := L) (W := W) (not_le.mp h0) (by
          have := flatCell_isSome_iff.mp ⟨c, hc⟩; omega)
        rw [hc] at hc'
        cases hc'
        have hc2 := c.2.isLt
        rcases Nat.lt_or_ge (c.1.val + 2) L with h | h
        · have : (c.1.val : ℤ) ≤ L - 3 := by omega
          have h0' : (0 : ℤ) ≤ W := by positivity
          have : (W : ℤ) * c.1.val ≤ W * (L - 3) := by nlinarith
          have e : (W : ℤ) * (L - 3) = L * W - 3 * W := by ring
          omega
        · have e : (c.1.val : ℤ) = L - 2 := by omega
          have h3 := he2 (by omega)
          rw [e] at hpos
          have e' : (W : ℤ) * (L - 2) = L * W - 2 * W := by ring
          omega

/-- How a direction was chosen for a parcel. -/
def ChoiceOKR {L W : ℕ} (D : Rounding K) (g : Rng K σ) (E : WEnv L W K) (ind : ℤ) (d : Fin 9) : Prop :=
  (ind = 0 ∧ d = 4) ∨ (ind ≠ 0 ∧ ∃ c s, flatCell L W ind = some c ∧
    randomPickR D D (E.weights c) (g.next s).1 = some d)

lemma chooseDirsR_ok {L W : ℕ} (g : Rng K σ) (E : WEnv L W K) (inds : List ℤ) (s s' : σ)
    (ds : List (Fin 9)) (h : chooseDirsR D g E.weights inds s = .ok (ds, s')) :
    List.Forall₂ (ChoiceOKR D g E) inds ds := by
  induction inds generalizing s ds with
  | nil => simp only [chooseDirsR, Except.ok.injEq, Prod.mk.injEq] at h; rw [← h.1]; exact .nil
  | cons i is ih =>
    unfold chooseDirsR at h
    split at h
    · rename_i hi
      split at h
      · cases h
      · rename_i c hc
        simp only at h
        split at h
        · cases h
        · rename_i d hd
          split at h
          · cases h
          · rename_i ds' s2 hrec
            simp only [Except.ok.injEq, Prod.mk.injEq] at h
            obtain ⟨rfl, rfl⟩ := h
            exact .cons (.inr ⟨hi, c, s, hc, hd⟩) (ih _ _ hrec)
    · rename_i hi
      split at h
      · cases h
      · rename_i ds' s2 hrec
        simp only [Except.ok.injEq, Prod.mk.injEq] at h
        obtain ⟨rfl, rfl⟩ := h
        exact .cons (.inl ⟨by simpa using hi, rfl⟩) (ih _ _ hrec)

lemma chooseDirsR_total {L W : ℕ} (g : Rng K σ) (hg : ∀ s, (g.next s).1 ≤ 1) (E : WEnv L W K)
    (hw : ∀ c d, 0 ≤ E.weights c d) (inds : List ℤ)
    (hi : ∀ i ∈ inds, ∃ c, flatCell L W i = some c) (s : σ) :
    ∃ ds s', chooseDirsR D g E.weights inds s = .ok (ds, s') := by
  induction inds generalizing s with
  | nil => exact ⟨[], s, rfl⟩
  | cons i is ih =>
    have hi' : ∀ j ∈ is, ∃ c, flatCell L W j = some c := fun j hj => hi j (List.mem_cons_of_mem _ hj)
    unfold chooseDirsR
    by_cases h0 : i ≠ 0
    · rw [if_pos h0]
      obtain ⟨c, hc⟩ := hi i List.mem_cons_self
      obtain ⟨d, hd⟩ := C97_pick_total (R := D) (D := D) (fun _ h => h) (by norm_num) (hw c) (hg s)
      obtain ⟨ds, s', hrec⟩ := ih hi' (g.next s).2
      refine ⟨d :: ds, s', ?_⟩
      simp only [hc, hd, hrec]
    · rw [if_neg h0]
      obtain ⟨ds, s', hrec⟩ := ih hi' s
      exact ⟨4 :: ds, s', by simp only [hrec]⟩

/-- One parcel before and after a pass, with its record. -/
def StepOfR {L W : ℕ} (D : Rounding K) (g : Rng K σ) (E : WEnv L W K) (step : ℕ) (p p' : WParcel) (r : StepRec) :
    Prop :=
  ∃ d, ChoiceOKR D g E p.ind d ∧ parcelStepR D E step p d = .ok (p', r)

lemma parcelStepsR_ok {L W : ℕ} (g : Rng K σ) (E : WEnv L W K) (step : ℕ) (ps ps' : List WParcel)
    (ds : List (Fin 9)) (rs : List StepRec)
    (hd : List.Forall₂ (ChoiceOKR D g E) (ps.map (·.ind)) ds)
    (h : parcelStepsR D E step ps ds = .ok (ps', rs)) :
    Forall₃ (StepOfR D g E step) ps ps' rs := by
  induction ps generalizing ds ps' rs with
  | nil =>
    cases hd
    simp only [parcelStepsR, Except.ok.injEq, Prod.mk.injEq] at h
    rw [← h.1, ← h.2]; exact .nil
  | cons p ps ih =>
    cases hd with
    | cons hd1 hds =>
      rename_i d ds
      unfold parcelStepsR at h
      split at h
      · cases h
      · rename_i p1 r1 h1
        split at h
        · cases h
        · rename_i ps1 rs1 h2
          simp only [Except.ok.injEq, Prod.mk.injEq] at h
          rw [← h.1, ← h.2]
          exact .cons ⟨d, hd1, h1⟩ (ih _ _ _ hds h2)

lemma ChoiceOKR.zero {L W : ℕ} {g : Rng K σ} {E : WEnv L W K} {i : ℤ} {d : Fin 9}
    (h : ChoiceOKR D g E i d) : i = 0 → d = 4 := by
  rintro rfl
  rcases h with h | h
  · exact h.2
  · exact absurd rfl h.1

lemma parcelStepsR_total {L W : ℕ} (g : Rng K σ) {E : WEnv L W K} (hS : SafeLayout E) (step : ℕ)
    (ps : List WParcel) (ds : List (Fin 9)) (hp : ∀ p ∈ ps, GoodInd E p.ind)
    (hd : List.Forall₂ (ChoiceOKR D g E) (ps.map (·.ind)) ds) :
    ∃ ps' rs, parcelStepsR D E step ps ds = .ok (ps', rs) ∧ (∀ p ∈ ps', GoodInd E p.ind) ∧
      ∀ r ∈ rs, (∃ c, flatCell L W r.cur = some c) ∧ (∃ c, flatCell L W r.new1 = some c) ∧
      (∃ c, flatCell L W r.new2 = some c) := by
  induction ps generalizing ds with
  | nil =>
    cases hd
    exact ⟨[], [], rfl, by simp, by simp⟩
  | cons p ps ih =>
    cases hd with
    | cons hd1 hds =>
      rename_i d ds
      obtain ⟨ps', rs, h1, h2, h3⟩ := ih ds (fun p hp' => hp p (List.mem_cons_of_mem _ hp')) hds
      obtain ⟨p1, r1, hs1, hs2, hs3⟩ := parcelStepR_safe (D := D) hS step p (hp p List.mem_cons_self) d hd1.zero
      refine ⟨p1 :: ps', r1 :: rs, ?_, ?_, ?_⟩
      · unfold parcelStepsR; simp only [hs1, h1]
      · intro q hq
        rcases List.mem_cons.mp hq with rfl | hq
        · exact hs2
        · exact h2 q hq
      · intro q hq
        rcases List.mem_cons.mp hq with rfl | hq
        · exact hs3
        · exact h3 q hq

lemma addFluxesR_total {L W : ℕ} (E : WEnv L W K) (sel : StepRec → ℤ) (p : StepRec → Bool)
    (rs : List StepRec) (h : ∀ r ∈ rs, ∃ c, flatCell L W (sel r) = some c) (f : Flux L W K) :
    ∃ f', addFluxesR F D E sel p rs f = .ok f' := by
  induction rs generalizing f with
  | nil => exact ⟨f, rfl⟩
  | cons r rs ih =>
    have ih' := ih (fun r hr => h r (List.mem_cons_of_mem _ hr))
    unfold addFluxesR
    split
    · obtain ⟨c, hc⟩ := h r List.mem_cons_self
      unfold addFluxR
      by_cases h4 : r.dir ≠ 4
      · rw [if_pos h4, hc]; exact ih' _
      · rw [if_neg h4]; exact ih' _
    · exact ih' _

/-- What a successful pass of the loop did. -/
lemma waterStepR_ok {L W : ℕ} (g : Rng K σ) (E : WEnv L W K) (step : ℕ) (st st' : WState L W K)
    (recs : List StepRec) (s s' : σ) (h : waterStepR F D g E step st s = .ok (st', recs, s')) :
    step < (checkSize E.stepmax step st).ncols ∧
    st'.ncols = (checkSize E.stepmax step st).ncols ∧
    Forall₃ (StepOfR D g E step) (checkSize E.stepmax step st).parcels st'.parcels recs ∧
    ∃ f1 f2, addFluxesR F D E (·.cur) (fun _ => true) recs st.flux = .ok f1 ∧
      addFluxesR F D E (·.new1) (fun _ => true) recs f1 = .ok f2 ∧
      addFluxesR F D E (·.new2) (·.bnd) recs f2 = .ok st'.flux := by
  have hfl : (checkSize E.stepmax step st).flux = st.flux := by
    unfold checkSize; split <;> rfl
  unfold waterStepR at h
  simp only at h
  split at h
  · rename_i hlt
    split at h
    · cases h
    · rename_i ds s1 hds
      split at h
      · cases h
      · rename_i ps rs hps
        split at h
        · cases h
        · rename_i f1 hf1
          split at h
          · cases h
          · rename_i f2 hf2
            split at h
            · cases h
            · rename_i f3 hf3
              simp only [Except.ok.injEq, Prod.mk.injEq] at h
              obtain ⟨rfl, rfl, rfl⟩ := h
              refine ⟨hlt, rfl, parcelStepsR_ok g E step _ _ _ _ (chooseDirsR_ok g E _ _ _ _ hds) hps,
                f1, f2, ?_, hf2, hf3⟩
              rw [← hfl]; exact hf1
  · cases h

/-- A pass of the loop never fails under the layout conditions. -/
lemma waterStepR_total {L W : ℕ} (g : Rng K σ) (hg : ∀ s, (g.next s).1 ≤ 1) {E : WEnv L W K}
    (hS : SafeLayout E) (hstep : 4 ≤ E.stepmax) (step : ℕ) (st : WState L W K)
    (hn : step ≤ st.ncols) (hp : ∀ p ∈ st.parcels, GoodInd E p.ind) (s : σ) :
    ∃ st' recs s', waterStepR F D g E step st s = .ok (st', recs, s') ∧
      (∀ p ∈ st'.parcels, GoodInd E p.ind) ∧ step < st'.ncols := by
  have hlt := checkSize_ncols E.stepmax step hstep st hn
  have hp1 := checkSize_parcels E.stepmax step st (GoodInd E) hp
  have hfc : ∀ i ∈ (checkSize E.stepmax step st).parcels.map (·.ind),
      ∃ c, flatCell L W i = some c := by
    intro i hi
    obtain ⟨p, hpm, rfl⟩ := List.mem_map.mp hi
    have hL := hS.hL
    have hW := hS.hW
    rcases hp1 p hpm with h | ⟨c, h, -⟩
    · rw [h]; exact flatCell_exists_of_bounds hL (by omega) (by omega) (by positivity)
    · exact ⟨c, by rw [h]; exact flatCell_posOf c⟩
  obtain ⟨ds, s1, hds⟩ := chooseDirsR_total (D := D) g hg E hS.weights _ hfc s
  obtain ⟨ps, rs, hps, hgood, hcells⟩ := parcelStepsR_total (D := D) g hS step _ ds hp1
    (chooseDirsR_ok g E _ _ _ _ hds)
  obtain ⟨f1, hf1⟩ := addFluxesR_total (F := F) (D := D) E (·.cur) (fun _ => true) rs (fun r hr => (hcells r hr).1)
    (checkSize E.stepmax step st).flux
  obtain ⟨f2, hf2⟩ := addFluxesR_total (F := F) (D := D) E (·.new1) (fun _ => true) rs
    (fun r hr => (hcells r hr).2.1) f1
  obtain ⟨f3, hf3⟩ := addFluxesR_total (F := F) (D := D) E (·.new2) (·.bnd) rs (fun r hr => (hcells r hr).2.2) f2
  refine ⟨⟨f3, ps, (checkSize E.stepmax step st).ncols⟩, rs, s1, ?_, hgood, hlt⟩
  unfold waterStepR
  simp only [hlt, if_true, hds, hps, hf1, hf2, hf3]

/-- General induction for the loop: an invariant of passes holds at the end, and a property of
passes holds for the whole log. -/
lemma waterLoopR_induct {L W : ℕ} (g : Rng K σ) (E : WEnv L W K)
    (I : ℕ → WState L W K → Prop) (R : ℕ → List StepRec → Prop)
    (hstep : ∀ step st s st' recs s', I step st → (st.parcels.map (·.ind)).sum > 0 →
      step < E.stepmax → waterStepR F D g E (step + 1) st s = .ok (st', recs, s') →
      I (step + 1) st' ∧ R (step + 1) recs)
    (step : ℕ) (st st' : WState L W K) (s s' : σ) (log : List (List StepRec)) (n : ℕ)
    (hI : I step st) (h : waterLoopR F D g E step st s = .ok (st', log, n, s')) :
    I n st' ∧ n = step + log.length ∧ (step ≤ E.stepmax → n ≤ E.stepmax) ∧
      ¬ ((st'.parcels.map (·.ind)).sum > 0 ∧ n < E.stepmax) ∧
      ∀ k (hk : k < log.length), R (step + 1 + k) log[k] := by
  induction hfuel : E.stepmax - step generalizing step st s log with
  | zero =>
    unfold waterLoopR at h
    rw [if_neg (by omega)] at h
    simp only [Except.ok.injEq, Prod.mk.injEq] at h
    obtain ⟨rfl, rfl, rfl, rfl⟩ := h
    exact ⟨hI, by simp, fun h => h, by omega, by simp⟩
  | succ m ih =>
    unfold waterLoopR at h
    split at h
    · rename_i hc
      split at h
      · cases h
      · rename_i st1 recs s1 h1
        split at h
        · cases h
        · rename_i st2 log' n' s2 h2
          simp only [Except.ok.injEq, Prod.mk.injEq] at h
          obtain ⟨rfl, rfl, rfl, rfl⟩ := h
          obtain ⟨hI1, hR1⟩ := hstep step st s st1 recs s1 hI hc.1 hc.2 h1
          obtain ⟨a, b, c, d, e⟩ := ih (step + 1) st1 s1 log' hI1 h2 (by omega)
          refine ⟨a, by simp [b]; omega, fun _ => c (by omega), d, ?_⟩
          intro k hk
          rcases k with _ | k
          · simpa using hR1
          · have := e k (by simpa using hk)
            have e' : step + 1 + (k + 1) = step + 1 + 1 + k := by omega
            rw [e']
            simpa using this
    · rename_i hc
      simp only [Except.ok.injEq, Prod.mk.injEq] at h
      obtain ⟨rfl, rfl, rfl, rfl⟩ := h
      exact ⟨hI, by simp, fun h => h, hc, by simp⟩

/-- The loop never fails under the layout conditions. -/
lemma waterLoopR_total {L W : ℕ} (g : Rng K σ) (hg : ∀ s, (g.next s).1 ≤ 1) {E : WEnv L W K}
    (hS : SafeLayout E) (hstep : 4 ≤ E.stepmax) (step : ℕ) (st : WState L W K)
    (hn : step < st.ncols) (hp : ∀ p ∈ st.parcels, GoodInd E p.ind) (s : σ) :
    ∃ st' log n s', waterLoopR F D g E step st s = .ok (st', log, n, s') := by
  induction hfuel : E.stepmax - step generalizing step st s with
  | zero =>
    unfold waterLoopR
    rw [if_neg (by omega)]
    exact ⟨_, _, _, _, rfl⟩
  | succ m ih =>
    unfold waterLoopR
    split
    · obtain ⟨st1, recs, s1, h1, hp1, hn1⟩ := waterStepR_total (F := F) (D := D) g hg hS hstep (step + 1) st (by omega) hp s
      obtain ⟨st2, log, n, s2, h2⟩ := ih (step + 1) st1 hn1 hp1 s1 (by omega)
      exact ⟨st2, recs :: log, n, s2, by simp only [h1, h2]⟩
    · exact ⟨_, _, _, _, rfl⟩

lemma parcelStepR_fields {L W : ℕ} {E : WEnv L W K} {step : ℕ} {p p' : WParcel} {d : Fin 9}
    {r : StepRec} (h : parcelStepR D E step p d = .ok (p', r)) :
    r.cur = p.ind ∧ r.dir = d ∧ r.new1 = calcNewInd W p.ind d ∧
    checkLoopR D E step p.walk r.new1 = .ok (r.new2, r.looped) ∧ isBoundary E r.new2 = .ok r.bnd ∧
    p'.ind = after r ∧ p'.flag = (p.flag && !r.looped) ∧ p'.walk = p.walk.set step (recorded r) := by
  unfold parcelStepR at h
  simp only at h
  split at h
  · cases h
  · rename_i new2 looped h1
    split at h
    · cases h
    · rename_i bnd h2
      simp only [Except.ok.injEq, Prod.mk.injEq] at h
      obtain ⟨rfl, rfl⟩ := h
      refine ⟨rfl, rfl, rfl, h1, h2, ?_, rfl, rfl⟩
      simp only [after]
      split
      · rfl
      · rename_i hb; simp [hb]

/-- What one pass does to the path record. -/
lemma waterStepR_walk {L W : ℕ} (g : Rng K σ) (E : WEnv L W K) (step : ℕ) (st st' : WState L W K)
    (recs : List StepRec) (s s' : σ) (hR : Rect st)
    (h : waterStepR F D g E step st s = .ok (st', recs, s')) :
    Rect st' ∧ st.ncols ≤ st'.ncols ∧ step < st'.ncols ∧
    (∀ j i, i ≠ step → i < st.ncols → walkAt st' j i = walkAt st j i) ∧
    (∀ j i v, i ≠ step → st.ncols ≤ i → walkAt st' j i = some v → v = 0) ∧
    (∀ j, walkAt st' j step = recs[j]?.map recorded) ∧
    (∀ j : ℕ, recs[j]?.map (·.cur) = st.parcels[j]?.map (·.ind)) ∧
    (∀ j : ℕ, st'.parcels[j]?.map (·.ind) = recs[j]?.map after) ∧
    (∀ j : ℕ, st'.parcels[j]?.map (·.flag) =
      (st.parcels[j]?.bind fun p => recs[j]?.map fun r => p.flag && !r.looped)) := by
  obtain ⟨h1, h2, h3, -⟩ := waterStepR_ok g E step st st' recs s s' h
  have hR1 := checkSize_rect E.stepmax step st hR
  have hcsn : st.ncols ≤ (checkSize E.stepmax step st).ncols := by
    unfold checkSize; split <;> simp
  have hR' : Rect st' := by
    intro p' hp'
    obtain ⟨p, hp, r, hr, d, -, hd⟩ := h3.mem₂ p' hp'
    obtain ⟨-, -, -, -, -, -, -, hw⟩ := parcelStepR_fields hd
    rw [hw, List.length_set, hR1 p hp, h2]
  have hind : ∀ j : ℕ, (checkSize E.stepmax step st).parcels[j]?.map (fun p : WParcel => (p.ind, p.flag)) =
      st.parcels[j]?.map (fun p : WParcel => (p.ind, p.flag)) := by
    intro j
    unfold checkSize
    split
    · simp only [List.getElem?_map, Option.map_map]; rfl
    · rfl
  refine ⟨hR', by omega, by omega, ?_, ?_, ?_, ?_, ?_, ?_⟩
  · intro j i hi hlt
    rw [← checkSize_walkAt E.stepmax step st hR j i hlt]
    unfold walkAt
    rcases h3.getElem? j with ⟨e1, e2, -⟩ | ⟨p, p', r, e1, e2, -, d, -, hd⟩
    · rw [e1, e2]
    · rw [e1, e2]
      obtain ⟨-, -, -, -, -, -, -, hw⟩ := parcelStepR_fields hd
      simp only [Option.bind_some, hw]
      rw [List.getElem?_set_ne (Ne.symm hi)]
  · intro j i v hi hge hv
    apply checkSize_walkAt_new E.stepmax step st hR j i hge v
    rw [← hv]
    unfold walkAt
    rcases h3.getElem? j with ⟨e1, e2, -⟩ | ⟨p, p', r, e1, e2, -, d, -, hd⟩
    · rw [e1, e2]
    · rw [e1, e2]
      obtain ⟨-, -, -, -, -, -, -, hw⟩ := parcelStepR_fields hd
      simp only [Option.bind_some, hw]
      rw [List.getElem?_set_ne (Ne.symm hi)]
  · intro j
    unfold walkAt
    rcases h3.getElem? j with ⟨e1, e2, e3⟩ | ⟨p, p', r, e1, e2, e3, d, -, hd⟩
    · rw [e2, e3]; rfl
    · rw [e2, e3]
      obtain ⟨-, -, -, -, -, -, -, hw⟩ := parcelStepR_fields hd
      simp only [Option.bind_some, hw, Option.map_some]
      rw [List.getElem?_set_self]
      rw [hR1 p (List.mem_of_getElem? e1)]
      exact h1
  · intro j
    have hj := hind j
    rcases h3.getElem? j with ⟨e1, e2, e3⟩ | ⟨p, p', r, e1, e2, e3, d, -, hd⟩
    · rw [e1] at hj
      rw [e3]
      cases hq : st.parcels[j]? with
      | none => rfl
      | some q => rw [hq] at hj; simp at hj
    · rw [e1] at hj
      cases hq : st.parcels[j]? with
      | none => rw [hq] at hj; simp at hj
      | some q =>
        rw [hq] at hj
        simp only [Option.map_some, Option.some.injEq, Prod.mk.injEq] at hj
        rw [e3]
        simp only [Option.map_some, (parcelStepR_fields hd).1, hj.1]
  · intro j
    rcases h3.getElem? j with ⟨e1, e2, e3⟩ | ⟨p, p', r, e1, e2, e3, d, -, hd⟩
    · rw [e2, e3]; rfl
    · rw [e2, e3]
      simp only [Option.map_some, (parcelStepR_fields hd).2.2.2.2.2.1]
  · intro j
    have hj := hind j
    rcases h3.getElem? j with ⟨e1, e2, e3⟩ | ⟨p, p', r, e1, e2, e3, d, -, hd⟩
    · rw [e1] at hj
      rw [e2, e3]
      cases hq : st.parcels[j]? with
      | none => rfl
      | some q => rw [hq] at hj; simp at hj
    · rw [e1] at hj
      cases hq : st.parcels[j]? with
      | none => rw [hq] at hj; simp at hj
      | some q =>
        rw [hq] at hj
        simp only [Option.map_some, Option.some.injEq, Prod.mk.injEq] at hj
        rw [e2, e3]
        simp only [Option.map_some, Option.bind_some, (parcelStepR_fields hd).2.2.2.2.2.2.1, hj.2]

/-- The path record after the loop: earlier entries kept, one entry per step, zeros after. -/
lemma waterLoopR_walk {L W : ℕ} (g : Rng K σ) (E : WEnv L W K) (step : ℕ) (st st' : WState L W K)
    (s s' : σ) (log : List (List StepRec)) (n : ℕ) (hR : Rect st) (hn : step < st.ncols)
    (h : waterLoopR F D g E step st s = .ok (st', log, n, s')) :
    Rect st' ∧ n < st'.ncols ∧ st.ncols ≤ st'.ncols ∧
    (∀ j i, i ≤ step → walkAt st' j i = walkAt st j i) ∧
    (∀ k (hk : k < log.length) j, walkAt st' j (step + 1 + k) = (log[k])[j]?.map recorded) ∧
    ((∀ j i v, step < i → walkAt st j i = some v → v = 0) →
      ∀ j i v, n < i → walkAt st' j i = some v → v = 0) ∧
    (∀ k (hk : k < log.length) (j : ℕ), (log[k])[j]?.map (·.cur) =
      if k = 0 then st.parcels[j]?.map (·.ind) else (log[k - 1]?.bind (·[j]?)).map after) ∧
    (∀ j : ℕ, st'.parcels[j]?.map (·.ind) =
      if log.length = 0 then st.parcels[j]?.map (·.ind)
      else (log[log.length - 1]?.bind (·[j]?)).map after) ∧
    (∀ j : ℕ, st'.parcels[j]?.map (·.flag) = st.parcels[j]?.map (fun p => p.flag &&
      log.all (fun recs => (recs[j]?.map (fun r => !r.looped)).getD true))) := by
  induction hfuel : E.stepmax - step generalizing step st s log with
  | zero =>
    unfold waterLoopR at h
    rw [if_neg (by omega)] at h
    simp only [Except.ok.injEq, Prod.mk.injEq] at h
    obtain ⟨rfl, rfl, rfl, rfl⟩ := h
    exact ⟨hR, hn, le_refl _, fun _ _ _ => rfl, by simp, fun h => h, by simp, by simp, by simp⟩
  | succ m ih =>
    unfold waterLoopR at h
    split at h
    · rename_i hc
      split at h
      · cases h
      · rename_i st1 recs s1 h1
        split at h
        · cases h
        · rename_i st2 log' n' s2 h2
          simp only [Except.ok.injEq, Prod.mk.injEq] at h
          obtain ⟨rfl, rfl, rfl, rfl⟩ := h
          obtain ⟨hR1, hm1, hlt1, hold, hnew, hcur, hprev, hnext, hflag⟩ :=
            waterStepR_walk g E (step + 1) st st1 recs s s1 hR h1
          obtain ⟨a1, a2, a3, a4, a5, a6, a7, a8, a9⟩ := ih (step + 1) st1 s1 log' hR1 hlt1 h2 (by omega)
          refine ⟨a1, a2, by omega, ?_, ?_, ?_, ?_, ?_, ?_⟩
          · intro j i hi
            rw [a4 j i (by omega), hold j i (by omega) (by omega)]
          · intro k hk j
            rcases k with _ | k
            · rw [a4 j _ (by omega)]
              simpa using hcur j
            · have e' : step + 1 + (k + 1) = step + 1 + 1 + k := by omega
              rw [e', a5 k (by simpa using hk) j]
              simp
          · intro hz
            apply a6
            intro j i v hi hv
            by_cases hlt : i < st.ncols
            · rw [hold j i (by omega) hlt] at hv
              exact hz j i v (by omega) hv
            · exact hnew j i v (by omega) (by omega) hv
          · intro k hk j
            rcases k with _ | k
            · simpa using hprev j
            · have := a7 k (by simpa using hk) j
              simp only [List.getElem_cons_succ, this]
              rcases k with _ | k
              · simp [hnext j]
              · simp
          · intro j
            rw [a8 j]
            by_cases hl : log'.length = 0
            · have : log' = [] := List.length_eq_zero_iff.mp hl
              subst this
              simp [hnext j]
            · rw [if_neg hl, if_neg (by simp)]
              congr 1
              have : (recs :: log').length - 1 = (log'.length - 1) + 1 := by
                simp only [List.length_cons]; omega
              rw [this, List.getElem?_cons_succ]
          · intro j
            rw [a9 j]
            have hf := hflag j
            have hp := hprev j
            cases hq : st.parcels[j]? with
            | none =>
              rw [hq] at hf
              simp only [Option.bind_none] at hf
              cases hq1 : st1.parcels[j]? with
              | none => simp
              | some q => rw [hq1] at hf; simp at hf
            | some q =>
              rw [hq] at hf hp
              cases hr : recs[j]? with
              | none => rw [hr] at hp; simp at hp
              | some r =>
                rw [hr] at hf
                cases hq1 : st1.parcels[j]? with
                | none => rw [hq1] at hf; simp at hf
                | some q1 =>
                  rw [hq1] at hf
                  simp only [Option.map_some, Option.bind_some, Option.some.injEq] at hf
                  simp [hf, hr, Bool.and_assoc]
    · rename_i hc
      simp only [Except.ok.injEq, Prod.mk.injEq] at h
      obtain ⟨rfl, rfl, rfl, rfl⟩ := h
      exact ⟨hR, hn, le_refl _, fun _ _ _ => rfl, by simp, fun h => h, by simp, by simp, by simp⟩

/-- Every pass of the loop is a `waterStepR` from a state whose path record agrees with the final
one on the steps done so far and is zero afterwards. -/
lemma waterLoopR_at {L W : ℕ} (g : Rng K σ) (E : WEnv L W K) (step : ℕ) (st st' : WState L W K)
    (s s' : σ) (log : List (List StepRec)) (n : ℕ) (hR : Rect st) (hn : step < st.ncols)
    (hz : ∀ j i v, step < i → walkAt st j i = some v → v = 0)
    (h : waterLoopR F D g E step st s = .ok (st', log, n, s')) (k : ℕ) (hk : k < log.length) :
    ∃ stk sk stk' sk', waterStepR F D g E (step + 1 + k) stk sk = .ok (stk', log[k], sk') ∧ Rect stk ∧
      step + k < stk.ncols ∧ (stk.parcels.map (·.ind)).sum > 0 ∧
      (∀ j i, i ≤ step + k → walkAt stk j i = walkAt st' j i) ∧
      (∀ j i v, step + k < i → walkAt stk j i = some v → v = 0) := by
  induction hfuel : E.stepmax - step generalizing step st s log k with
  | zero =>
    unfold waterLoopR at h
    rw [if_neg (by omega)] at h
    simp only [Except.ok.injEq, Prod.mk.injEq] at h
    obtain ⟨rfl, rfl, rfl, rfl⟩ := h
    simp at hk
  | succ m ih =>
    have hall := waterLoopR_walk g E step st st' s s' log n hR hn h
    unfold waterLoopR at h
    split at h
    · rename_i hc
      split at h
      · cases h
      · rename_i st1 recs s1 h1
        split at h
        · cases h
        · rename_i st2 log' n' s2 h2
          simp only [Except.ok.injEq, Prod.mk.injEq] at h
          obtain ⟨rfl, rfl, rfl, rfl⟩ := h
          obtain ⟨hR1, hm1, hlt1, hold, hnew, hcur, hprev, hnext, hflag⟩ :=
            waterStepR_walk g E (step + 1) st st1 recs s s1 hR h1
          rcases k with _ | k
          · refine ⟨st, s, st1, s1, by simpa using h1, hR, by omega, hc.1, ?_, ?_⟩
            · intro j i hi
              exact (hall.2.2.2.1 j i (by omega)).symm
            · intro j i v hi hv; exact hz j i v (by omega) hv
          · have hz1 : ∀ j i v, step + 1 < i → walkAt st1 j i = some v → v = 0 := by
              intro j i v hi hv
              by_cases hlt : i < st.ncols
              · rw [hold j i (by omega) hlt] at hv
                exact hz j i v (by omega) hv
              · exact hnew j i v (by omega) (by omega) hv
            obtain ⟨stk, sk, stk', sk', b1, b2, b3, b3', b4, b5⟩ :=
              ih (step + 1) st1 s1 log' hR1 hlt1 hz1 h2 k (by simpa using hk) (by omega)
            have e1 : step + 1 + (k + 1) = step + 1 + 1 + k := by omega
            have e2 : step + (k + 1) = step + 1 + k := by omega
            refine ⟨stk, sk, stk', sk', ?_, b2, ?_, b3', ?_, ?_⟩
            · rw [e1]; simpa using b1
            · rw [e2]; exact b3
            · rw [e2]; exact b4
            · rw [e2]; exact b5
    · rename_i hc
      simp only [Except.ok.injEq, Prod.mk.injEq] at h
      obtain ⟨rfl, rfl, rfl, rfl⟩ := h
      simp at hk

/-- What a successful iteration started from. -/
lemma runWaterR_ok {L W m : ℕ} (g : Rng K σ) (E : WEnv L W K) (inlet : Fin m → ℤ) (np ncols : ℕ)
    (s : σ) (res) (h : runWaterIterationR F D g E inlet np ncols s = .ok res) :
    ∃ starts st, getStartIndicesR D inlet (getInletWeights inlet : Fin m → K) (drawN g np s).1 =
        some starts ∧ waterStartR F D E ncols starts = .ok st ∧
      waterLoopR F D g E 0 st (drawN g np s).2 = .ok res := by
  unfold runWaterIterationR at h
  simp only at h
  split at h
  · cases h
  · rename_i starts hs
    split at h
    · cases h
    · rename_i st hst
      exact ⟨starts, st, hs, hst, h⟩

lemma waterStartR_ok {L W : ℕ} {E : WEnv L W K} {ncols : ℕ} {starts : List ℤ} {st : WState L W K}
    (h : waterStartR F D E ncols starts = .ok st) :
    (∀ i ∈ starts, ∃ c, flatCell L W i = some c) ∧ 0 < ncols ∧ st.ncols = ncols ∧ Rect st ∧
    (∀ j : ℕ, st.parcels[j]?.map (·.ind) = starts[j]?) ∧
    (∀ j : ℕ, st.parcels[j]?.map (·.flag) = starts[j]?.map (fun _ => true)) ∧
    (∀ j, walkAt st j 0 = starts[j]?) ∧ (∀ j i v, 0 < i → walkAt st j i = some v → v = 0) ∧
    st.parcels.map (·.ind) = starts ∧
    st.flux = ⟨fancyAddR F (fun _ => 0) starts 1, fancyAddR F (fun _ => 0) starts 0,
      fancyAddR F (fun _ => 0) starts (halfShareR D E)⟩ := by
  unfold waterStartR at h
  split at h
  · rename_i hc
    simp only [Except.ok.injEq] at h
    subst h
    have hw : ∀ j i, walkAt ({
      flux := {
        qx := fancyAddR F (fun _ => 0) starts 1
        qy := fancyAddR F (fun _ => 0) starts 0
        qw := fancyAddR F (fun _ => 0) starts (halfShareR D E) }
      parcels := starts.map (fun i => ⟨i, true, (List.replicate ncols 0).set 0 i⟩)
      ncols := ncols } : WState L W K) j i = starts[j]?.bind
        (fun x => ((List.replicate ncols (0 : ℤ)).set 0 x)[i]?) := by
      intro j i
      unfold walkAt
      simp only [List.getElem?_map]
      cases starts[j]? <;> rfl
    refine ⟨?_, hc.2, rfl, ?_, ?_, ?_, ?_, ?_, ?_, rfl⟩
    · intro i hi
      have := List.all_eq_true.mp hc.1 i hi
      exact Option.isSome_iff_exists.mp this
    · intro p hp
      simp only [List.mem_map] at hp
      obtain ⟨i, -, rfl⟩ := hp
      simp
    · intro j
      simp only [List.getElem?_map, Option.map_map]
      cases starts[j]? <;> rfl
    · intro j
      simp only [List.getElem?_map, Option.map_map]
      cases starts[j]? <;> rfl
    · intro j
      rw [hw]
      cases starts[j]? with
      | none => rfl
      | some x =>
        simp only [Option.bind_some]
        rw [List.getElem?_set_self (by simpa using hc.2)]
    · intro j i v hi hv
      rw [hw] at hv
      cases hx : starts[j]? with
      | none => rw [hx] at hv; simp at hv
      | some x =>
        rw [hx] at hv
        simp only [Option.bind_some] at hv
        rw [List.getElem?_set_ne (by omega)] at hv
        exact List.eq_of_mem_replicate (List.mem_of_getElem? hv)
    · simp [Function.comp_def]
  · cases h



end Verif.Lemmas
