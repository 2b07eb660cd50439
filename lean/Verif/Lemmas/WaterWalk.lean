import Verif.Model.WaterWalk
import Verif.Lemmas.Flat
import Verif.Lemmas.Pick
import Verif.Props.Index

set_option linter.unusedSectionVars false

namespace Verif.Lemmas

open Verif.Model

variable {K : Type*} [Field K] [LinearOrder K] [IsStrictOrderedRing K] [FloorRing K] {σ : Type*}

/-- The condition under which `_check_for_loops` relocates a parcel. -/
def Repeats {L W : ℕ} (E : WEnv L W K) (step : ℕ) (walk : List ℤ) (newInd : ℤ) : Prop :=
  (step : ℤ) > E.L0 ∧ newInd > 0 ∧ newInd ∈ walk ∧ E.L0 * W ≤ newInd

lemma checkLoop_not {L W : ℕ} (E : WEnv L W K) (step : ℕ) (walk : List ℤ) (newInd : ℤ)
    (h : ¬ Repeats E step walk newInd) : checkLoop E step walk newInd = .ok (newInd, false) := by
  unfold checkLoop
  simp only []
  by_cases h1 : (step : ℤ) > E.L0
  · rw [if_pos h1]
    by_cases h2 : newInd > 0
    · rw [if_pos h2, if_neg]
      intro hm
      simp only [List.mem_filter, decide_eq_true_eq] at hm
      exact h ⟨h1, h2, hm.1.1, by omega⟩
    · rw [if_neg h2]
  · rw [if_neg h1]

/-- The relocation target before ravelling. -/
lemma checkLoop_repeats {L W : ℕ} (E : WEnv L W K) (step : ℕ) (walk : List ℤ) (c : Cell L W)
    (h : Repeats E step walk (posOf c)) (hW : 2 ≤ W) :
    checkLoop E step walk (posOf c) =
      if E.nrm ((c.1.val : K) - 1) ((c.2.val : K) - (E.CTR : K)) ≠ 0 then
        .ok (W * (min ((L : ℤ) - 2) (max (c.1.val + roundHalfEven
              (((c.1.val : K) - 1) / E.nrm ((c.1.val : K) - 1) ((c.2.val : K) - (E.CTR : K)) * 5)) E.L0))
            + min ((W : ℤ) - 2) (max 1 (c.2.val + roundHalfEven
              (((c.2.val : K) - (E.CTR : K)) /
                E.nrm ((c.1.val : K) - 1) ((c.2.val : K) - (E.CTR : K)) * 5))),
          !decide (|E.stageAboveSL c| < 1 / 10))
      else .error .unbound := by
  obtain ⟨h1, h2, h3, h4⟩ := h
  have hlt := posOf_lt c
  have hWp : (0 : ℤ) < W := by omega
  have hin : Props.InDomain L W ((c.1.val : ℤ), (c.2.val : ℤ)) :=
    ⟨by simp, by simp only; exact_mod_cast c.1.isLt, by simp,
      by simp only; exact_mod_cast c.2.isLt⟩
  have hun : customUnravel (posOf c) ((L : ℤ), (W : ℤ)) = .ok ((c.1.val : ℤ), (c.2.val : ℤ)) := by
    obtain ⟨i, -, hip, -, -, hu⟩ := Props.C01_ravel_unravel hin
    simp only [Props.IsPosition] at hip
    unfold posOf
    rw [← hip]; exact hu
  have hpc : pyCell L W (c.1.val : ℤ) (c.2.val : ℤ) = some c := by
    obtain ⟨d, hd, h1, h2⟩ := pyCell_nonneg (L := L) (W := W) (x := c.1.val) (y := c.2.val)
      (by simp) (by exact_mod_cast c.1.isLt) (by simp) (by exact_mod_cast c.2.isLt)
    rw [hd]
    congr 1
    exact Prod.ext (Fin.ext (by exact_mod_cast h1)) (Fin.ext (by exact_mod_cast h2))
  unfold checkLoop
  simp only []
  rw [if_pos h1, if_pos h2, if_pos]
  · rw [hun]
    simp only [hpc, Int.cast_natCast]
    split
    · have hr : ∀ a b : ℤ, customRavel (min ((L : ℤ) - 2) (max a E.L0),
          min ((W : ℤ) - 2) (max 1 b)) ((L : ℤ), (W : ℤ)) =
          .ok (W * min ((L : ℤ) - 2) (max a E.L0) + min ((W : ℤ) - 2) (max 1 b)) := by
        intro a b
        unfold customRavel
        rw [if_neg (by simp only; omega)]
        simp only [Except.ok.injEq]; ring
      rw [hr]
    · rfl
  · simp only [List.mem_filter, decide_eq_true_eq]
    exact ⟨⟨h3, h2⟩, by omega⟩

/-- Bounds of a relocated parcel. -/
lemma relocated_bounds {L W : ℕ} (hL : 2 ≤ L) (hW : 2 ≤ W) {L0 : ℤ} (hL0 : 0 ≤ L0) (a b : ℤ) :
    0 ≤ min ((L : ℤ) - 2) (max a L0) ∧ min ((L : ℤ) - 2) (max a L0) ≤ L - 2 ∧
    0 ≤ min ((W : ℤ) - 2) (max 1 b) ∧ min ((W : ℤ) - 2) (max 1 b) ≤ W - 2 := by
  omega

/-- The layout conditions under which no index is ever out of range, whatever is drawn. -/
structure SafeLayout {L W : ℕ} (E : WEnv L W K) : Prop where
  hL : 2 ≤ L
  hW : 2 ≤ W
  hL0 : 2 ≤ E.L0
  edge : ∀ c : Cell L W, E.cellType c ≠ -1 → c.1.val + 1 < L ∧ (c.1.val + 2 = L → c.2.val + 1 < W)
  weights : ∀ c d, 0 ≤ E.weights c d
  nrm : ∀ x y, E.nrm x y = 0 → x = 0 ∧ y = 0

/-- A current index: finished, or a cell that is not an edge cell. -/
def GoodInd {L W : ℕ} (E : WEnv L W K) (i : ℤ) : Prop :=
  i = 0 ∨ ∃ c : Cell L W, i = posOf c ∧ E.cellType c ≠ -1

lemma iwalk_bounds (d : Fin 9) : -1 ≤ iwalk d ∧ iwalk d ≤ 1 := by fin_cases d <;> decide
lemma jwalk_bounds (d : Fin 9) : -1 ≤ jwalk d ∧ jwalk d ≤ 1 := by fin_cases d <;> decide

lemma ravelWalk_bounds {W : ℤ} (hW : 0 ≤ W) (d : Fin 9) :
    -(W + 1) ≤ ravelWalk W d ∧ ravelWalk W d ≤ W + 1 := by
  have h1 := iwalk_bounds d
  have h2 := jwalk_bounds d
  unfold ravelWalk
  constructor <;> nlinarith

lemma new1_bounds {L W : ℕ} {E : WEnv L W K} (hS : SafeLayout E) {i : ℤ} (hi : GoodInd E i)
    {d : Fin 9} (hd : i = 0 → d = 4) :
    -(W + 1 : ℤ) ≤ calcNewInd W i d ∧ calcNewInd W i d < L * W := by
  have hL := hS.hL
  have hW := hS.hW
  have hLW : (2 : ℤ) * W ≤ L * W := by
    have : (2 : ℤ) ≤ L := by exact_mod_cast hL
    have h0 : (0 : ℤ) ≤ W := by positivity
    nlinarith
  unfold calcNewInd
  by_cases h4 : d = 4
  · rw [if_neg (by simpa using h4)]; omega
  · rw [if_pos (by simpa using h4)]
    rcases hi with rfl | ⟨c, rfl, hc⟩
    · exact absurd (hd rfl) h4
    · obtain ⟨h1, h2⟩ := hS.edge c hc
      have hb := ravelWalk_bounds (W := W) (by positivity) d
      have h0 := posOf_nonneg c
      refine ⟨by omega, ?_⟩
      have hc2 := c.2.isLt
      have hup : posOf c + (W + 1) < L * W := by
        unfold posOf
        rcases Nat.lt_or_ge (c.1.val + 2) L with h | h
        · have : (c.1.val : ℤ) ≤ L - 3 := by omega
          have h0 : (0 : ℤ) ≤ W := by positivity
          have : (W : ℤ) * c.1.val ≤ W * (L - 3) := by nlinarith
          have e : (W : ℤ) * (L - 3) = L * W - 3 * W := by ring
          omega
        · have e : (c.1.val : ℤ) = L - 2 := by omega
          have h3 := h2 (by omega)
          rw [e]
          have e' : (W : ℤ) * (L - 2) = L * W - 2 * W := by ring
          omega
      omega

lemma flatCell_exists_of_bounds {L W : ℕ} (hL : 2 ≤ L) (hW : 1 ≤ W) {n : ℤ}
    (h1 : -(W + 1 : ℤ) ≤ n) (h2 : n < L * W) : ∃ c, flatCell L W n = some c := by
  rw [flatCell_isSome_iff]
  have hLW : (2 : ℤ) * W ≤ L * W := by
    have : (2 : ℤ) ≤ L := by exact_mod_cast hL
    have h0 : (0 : ℤ) ≤ W := by positivity
    nlinarith
  omega

lemma checkLoop_safe {L W : ℕ} {E : WEnv L W K} (hL : 2 ≤ L) (hW : 2 ≤ W) (hL0 : 2 ≤ E.L0)
    (hnrm : ∀ x y, E.nrm x y = 0 → x = 0 ∧ y = 0) (step : ℕ) (walk : List ℤ) {n : ℤ} (h1 : -(W + 1 : ℤ) ≤ n) (h2 : n < L * W) :
    ∃ m lp, checkLoop E step walk n = .ok (m, lp) ∧
      (m = n ∨ ∃ c : Cell L W, m = posOf c ∧ min ((L : ℤ) - 2) E.L0 ≤ c.1.val ∧ c.1.val + 1 < L ∧
        0 < c.2.val + (if W = 2 then 1 else 0) ∧ c.2.val + 1 < W) := by
  by_cases hr : Repeats E step walk n
  · have h0 : 0 ≤ n := hr.2.1.le
    obtain ⟨c, -, hc⟩ := flatCell_nonneg h0 h2
    have hc' : n = posOf c := hc
    subst hc'
    rw [checkLoop_repeats E step walk c hr hW]
    have hne : E.nrm ((c.1.val : K) - 1) ((c.2.val : K) - (E.CTR : K)) ≠ 0 := by
      intro h
      obtain ⟨hx, -⟩ := hnrm _ _ h
      have hx' : c.1.val = 1 := by
        have : (c.1.val : K) = 1 := by linarith
        exact_mod_cast this
      have hrow := hr.2.2.2
      have hc2 := c.2.isLt
      unfold posOf at hrow
      rw [hx'] at hrow
      have hW0 : (0 : ℤ) ≤ W := by positivity
      have : 2 * (W : ℤ) ≤ E.L0 * W := by nlinarith
      push_cast at hrow
      omega
    rw [if_pos hne]
    refine ⟨_, _, rfl, .inr ?_⟩
    generalize roundHalfEven (((c.1.val : K) - 1) /
      E.nrm ((c.1.val : K) - 1) ((c.2.val : K) - (E.CTR : K)) * 5) = a
    generalize roundHalfEven (((c.2.val : K) - (E.CTR : K)) /
      E.nrm ((c.1.val : K) - 1) ((c.2.val : K) - (E.CTR : K)) * 5) = b
    have hb := relocated_bounds hL hW (by linarith : 0 ≤ E.L0)
      (c.1.val + a) (c.2.val + b)
    have hx := Int.toNat_of_nonneg hb.1
    have hy := Int.toNat_of_nonneg hb.2.2.1
    refine ⟨(⟨(min ((L : ℤ) - 2) (max (c.1.val + a) E.L0)).toNat, by omega⟩,
      ⟨(min ((W : ℤ) - 2) (max 1 (c.2.val + b))).toNat, by omega⟩), ?_, ?_, ?_, ?_, ?_⟩
    · simp only [posOf]; rw [hx, hy]
    · simp only; rw [hx]; omega
    · simp only; omega
    · simp only; split <;> omega
    · simp only; omega
  · exact ⟨n, false, checkLoop_not E step walk n hr, .inl rfl⟩

/-- One parcel step never fails and leads to a good index. -/
lemma parcelStep_safe {L W : ℕ} {E : WEnv L W K} (hS : SafeLayout E) (step : ℕ) (p : WParcel)
    (hp : GoodInd E p.ind) (d : Fin 9) (hd : p.ind = 0 → d = 4) :
    ∃ p' r, parcelStep E step p d = .ok (p', r) ∧ GoodInd E p'.ind ∧
      (∃ c, flatCell L W r.cur = some c) ∧ (∃ c, flatCell L W r.new1 = some c) ∧
      (∃ c, flatCell L W r.new2 = some c) := by
  have hL := hS.hL
  have hW := hS.hW
  obtain ⟨hb1, hb2⟩ := new1_bounds hS hp hd
  obtain ⟨m, lp, hm, hmc⟩ := checkLoop_safe hL hW hS.hL0 hS.nrm step p.walk hb1 hb2
  have hmb : -(W + 1 : ℤ) ≤ m ∧ m < L * W := by
    rcases hmc with rfl | ⟨c, rfl, -⟩
    · exact ⟨hb1, hb2⟩
    · exact ⟨by have := posOf_nonneg c; omega, posOf_lt c⟩
  obtain ⟨c, hc⟩ := flatCell_exists_of_bounds hL (by omega) hmb.1 hmb.2
  obtain ⟨c1, hc1⟩ := flatCell_exists_of_bounds hL (by omega) hb1 hb2
  have hcur : ∃ c, flatCell L W p.ind = some c := by
    rcases hp with h0 | ⟨c, h, -⟩
    · rw [h0]; exact flatCell_exists_of_bounds hL (by omega) (by omega) (by positivity)
    · exact ⟨c, by rw [h]; exact flatCell_posOf c⟩
  have hbnd : isBoundary E m = .ok (decide (E.cellType c = -1)) := by
    unfold isBoundary; rw [hc]
  refine ⟨⟨if decide (E.cellType c = -1) then 0 else
      (if lp && decide (E.cellType c = -1) then 0 else m), p.flag && !lp,
      p.walk.set step (if lp && decide (E.cellType c = -1) then 0 else m)⟩,
    ⟨p.ind, d, calcNewInd W p.ind d, m, lp, decide (E.cellType c = -1)⟩, ?_, ?_, hcur,
    ⟨c1, hc1⟩, ⟨c, hc⟩⟩
  · unfold parcelStep; simp only [hm, hbnd]
  · by_cases ht : E.cellType c = -1
    · left; simp [ht]
    · simp only [ht, decide_false, Bool.and_false, Bool.false_eq_true, if_false]
      by_cases h0 : 0 ≤ m
      · right; exact ⟨c, flatCell_some_nonneg h0 hc, ht⟩
      · exfalso
        apply absurd ht
        push Not
        by_contra hne
        obtain ⟨he1, he2⟩ := hS.edge c hne
        obtain ⟨c', hc', hpos⟩ := flatCell_neg (L := L) (W := W) (not_le.mp h0) (by
          have := flatCell_isSome_iff.mp ⟨c, hc⟩; omega)
        rw [hc] at hc'
        cases hc'
        have hc2 := c.2.isLt
        rcases Nat.lt_or_ge (c.1.val + 2) L with h | h
        · have : (c.1.val : ℤ) ≤ L - 3 := by omega
          have h0' : (0 : ℤ) ≤ W := by positivity
          have : (W : ℤ) * c.1.val ≤ W * (L - 3) := by nlinarith
          have e : (W : ℤ) * (L - 3) = L * W - 3 * W := by ring
          omega
        · have e : (c.1.val : ℤ) = L - 2 := by omega
          have h3 := he2 (by omega)
          rw [e] at hpos
          have e' : (W : ℤ) * (L - 2) = L * W - 2 * W := by ring
          omega

/-- How a direction was chosen for a parcel. -/
def ChoiceOK {L W : ℕ} (g : Rng K σ) (E : WEnv L W K) (ind : ℤ) (d : Fin 9) : Prop :=
  (ind = 0 ∧ d = 4) ∨ (ind ≠ 0 ∧ ∃ c s, flatCell L W ind = some c ∧
    randomPick (E.weights c) (g.next s).1 = some d)

lemma chooseDirs_ok {L W : ℕ} (g : Rng K σ) (E : WEnv L W K) (inds : List ℤ) (s s' : σ)
    (ds : List (Fin 9)) (h : chooseDirs g E.weights inds s = .ok (ds, s')) :
    List.Forall₂ (ChoiceOK g E) inds ds := by
  induction inds generalizing s ds with
  | nil => simp only [chooseDirs, Except.ok.injEq, Prod.mk.injEq] at h; rw [← h.1]; exact .nil
  | cons i is ih =>
    unfold chooseDirs at h
    split at h
    · rename_i hi
      split at h
      · cases h
      · rename_i c hc
        simp only at h
        split at h
        · cases h
        · rename_i d hd
          split at h
          · cases h
          · rename_i ds' s2 hrec
            simp only [Except.ok.injEq, Prod.mk.injEq] at h
            obtain ⟨rfl, rfl⟩ := h
            exact .cons (.inr ⟨hi, c, s, hc, hd⟩) (ih _ _ hrec)
    · rename_i hi
      split at h
      · cases h
      · rename_i ds' s2 hrec
        simp only [Except.ok.injEq, Prod.mk.injEq] at h
        obtain ⟨rfl, rfl⟩ := h
        exact .cons (.inl ⟨by simpa using hi, rfl⟩) (ih _ _ hrec)

lemma randomPick_total {n : ℕ} (hn : 0 < n) (w : Fin n → K) (hw : ∀ i, 0 ≤ w i) (r : K)
    (hr1 : r ≤ 1) : ∃ k, randomPick w r = some k := by
  have hne : List.ofFn w ≠ [] := by
    intro h; have := congrArg List.length h; simp at this; omega
  have hs : 0 ≤ (List.ofFn w).sum := by
    apply List.sum_nonneg; intro x hx; rw [List.mem_ofFn] at hx
    obtain ⟨i, rfl⟩ := hx; exact hw i
  have := search_lt_length 0 ((List.ofFn w).sum * r) (List.ofFn w) hne (by nlinarith)
  simp only [List.length_ofFn] at this
  refine ⟨⟨_, this⟩, ?_⟩
  simp [randomPick, cumsumFrom_getLast? 0 _ hne, getRandomUniform, this]

lemma chooseDirs_total {L W : ℕ} (g : Rng K σ) (hg : ∀ s, (g.next s).1 ≤ 1) (E : WEnv L W K)
    (hw : ∀ c d, 0 ≤ E.weights c d) (inds : List ℤ)
    (hi : ∀ i ∈ inds, ∃ c, flatCell L W i = some c) (s : σ) :
    ∃ ds s', chooseDirs g E.weights inds s = .ok (ds, s') := by
  induction inds generalizing s with
  | nil => exact ⟨[], s, rfl⟩
  | cons i is ih =>
    have hi' : ∀ j ∈ is, ∃ c, flatCell L W j = some c := fun j hj => hi j (List.mem_cons_of_mem _ hj)
    unfold chooseDirs
    by_cases h0 : i ≠ 0
    · rw [if_pos h0]
      obtain ⟨c, hc⟩ := hi i List.mem_cons_self
      obtain ⟨d, hd⟩ := randomPick_total (by norm_num) (E.weights c) (hw c) (g.next s).1 (hg s)
      obtain ⟨ds, s', hrec⟩ := ih hi' (g.next s).2
      refine ⟨d :: ds, s', ?_⟩
      simp only [hc, hd, hrec]
    · rw [if_neg h0]
      obtain ⟨ds, s', hrec⟩ := ih hi' s
      exact ⟨4 :: ds, s', by simp only [hrec]⟩

/-- One parcel before and after a pass, with its record. -/
def StepOf {L W : ℕ} (g : Rng K σ) (E : WEnv L W K) (step : ℕ) (p p' : WParcel) (r : StepRec) :
    Prop :=
  ∃ d, ChoiceOK g E p.ind d ∧ parcelStep E step p d = .ok (p', r)

/-- Three lists of equal length related element by element. -/
inductive Forall₃ {α β γ : Type*} (R : α → β → γ → Prop) : List α → List β → List γ → Prop
  | nil : Forall₃ R [] [] []
  | cons {a b c as bs cs} : R a b c → Forall₃ R as bs cs → Forall₃ R (a :: as) (b :: bs) (c :: cs)

lemma Forall₃.length₁₂ {α β γ : Type*} {R : α → β → γ → Prop} {as bs cs}
    (h : Forall₃ R as bs cs) : as.length = bs.length := by
  induction h with
  | nil => rfl
  | cons _ _ ih => simp [ih]

lemma Forall₃.length₁₃ {α β γ : Type*} {R : α → β → γ → Prop} {as bs cs}
    (h : Forall₃ R as bs cs) : as.length = cs.length := by
  induction h with
  | nil => rfl
  | cons _ _ ih => simp [ih]

lemma Forall₃.imp {α β γ : Type*} {R S : α → β → γ → Prop} {as bs cs}
    (h : Forall₃ R as bs cs) (hi : ∀ a b c, R a b c → S a b c) : Forall₃ S as bs cs := by
  induction h with
  | nil => exact .nil
  | cons h1 _ ih => exact .cons (hi _ _ _ h1) ih

lemma Forall₃.mem₂ {α β γ : Type*} {R : α → β → γ → Prop} {as bs cs}
    (h : Forall₃ R as bs cs) : ∀ b ∈ bs, ∃ a ∈ as, ∃ c ∈ cs, R a b c := by
  induction h with
  | nil => intro b hb; simp at hb
  | cons h1 _ ih =>
    intro b hb
    rcases List.mem_cons.mp hb with rfl | hb
    · exact ⟨_, List.mem_cons_self, _, List.mem_cons_self, h1⟩
    · obtain ⟨a, ha, c, hc, hr⟩ := ih b hb
      exact ⟨a, List.mem_cons_of_mem _ ha, c, List.mem_cons_of_mem _ hc, hr⟩

lemma Forall₃.mem₃ {α β γ : Type*} {R : α → β → γ → Prop} {as bs cs}
    (h : Forall₃ R as bs cs) : ∀ c ∈ cs, ∃ a ∈ as, ∃ b ∈ bs, R a b c := by
  induction h with
  | nil => intro b hb; simp at hb
  | cons h1 _ ih =>
    intro b hb
    rcases List.mem_cons.mp hb with rfl | hb
    · exact ⟨_, List.mem_cons_self, _, List.mem_cons_self, h1⟩
    · obtain ⟨a, ha, c, hc, hr⟩ := ih b hb
      exact ⟨a, List.mem_cons_of_mem _ ha, c, List.mem_cons_of_mem _ hc, hr⟩

lemma parcelSteps_ok {L W : ℕ} (g : Rng K σ) (E : WEnv L W K) (step : ℕ) (ps ps' : List WParcel)
    (ds : List (Fin 9)) (rs : List StepRec)
    (hd : List.Forall₂ (ChoiceOK g E) (ps.map (·.ind)) ds)
    (h : parcelSteps E step ps ds = .ok (ps', rs)) :
    Forall₃ (StepOf g E step) ps ps' rs := by
  induction ps generalizing ds ps' rs with
  | nil =>
    cases hd
    simp only [parcelSteps, Except.ok.injEq, Prod.mk.injEq] at h
    rw [← h.1, ← h.2]; exact .nil
  | cons p ps ih =>
    cases hd with
    | cons hd1 hds =>
      rename_i d ds
      unfold parcelSteps at h
      split at h
      · cases h
      · rename_i p1 r1 h1
        split at h
        · cases h
        · rename_i ps1 rs1 h2
          simp only [Except.ok.injEq, Prod.mk.injEq] at h
          rw [← h.1, ← h.2]
          exact .cons ⟨d, hd1, h1⟩ (ih _ _ _ hds h2)

lemma ChoiceOK.zero {L W : ℕ} {g : Rng K σ} {E : WEnv L W K} {i : ℤ} {d : Fin 9}
    (h : ChoiceOK g E i d) : i = 0 → d = 4 := by
  rintro rfl
  rcases h with h | h
  · exact h.2
  · exact absurd rfl h.1

lemma parcelSteps_total {L W : ℕ} (g : Rng K σ) {E : WEnv L W K} (hS : SafeLayout E) (step : ℕ)
    (ps : List WParcel) (ds : List (Fin 9)) (hp : ∀ p ∈ ps, GoodInd E p.ind)
    (hd : List.Forall₂ (ChoiceOK g E) (ps.map (·.ind)) ds) :
    ∃ ps' rs, parcelSteps E step ps ds = .ok (ps', rs) ∧ (∀ p ∈ ps', GoodInd E p.ind) ∧
      ∀ r ∈ rs, (∃ c, flatCell L W r.cur = some c) ∧ (∃ c, flatCell L W r.new1 = some c) ∧
      (∃ c, flatCell L W r.new2 = some c) := by
  induction ps generalizing ds with
  | nil =>
    cases hd
    exact ⟨[], [], rfl, by simp, by simp⟩
  | cons p ps ih =>
    cases hd with
    | cons hd1 hds =>
      rename_i d ds
      obtain ⟨ps', rs, h1, h2, h3⟩ := ih ds (fun p hp' => hp p (List.mem_cons_of_mem _ hp')) hds
      obtain ⟨p1, r1, hs1, hs2, hs3⟩ := parcelStep_safe hS step p (hp p List.mem_cons_self) d hd1.zero
      refine ⟨p1 :: ps', r1 :: rs, ?_, ?_, ?_⟩
      · unfold parcelSteps; simp only [hs1, h1]
      · intro q hq
        rcases List.mem_cons.mp hq with rfl | hq
        · exact hs2
        · exact h2 q hq
      · intro q hq
        rcases List.mem_cons.mp hq with rfl | hq
        · exact hs3
        · exact h3 q hq

lemma addFluxes_total {L W : ℕ} (E : WEnv L W K) (sel : StepRec → ℤ) (p : StepRec → Bool)
    (rs : List StepRec) (h : ∀ r ∈ rs, ∃ c, flatCell L W (sel r) = some c) (f : Flux L W K) :
    ∃ f', addFluxes E sel p rs f = .ok f' := by
  induction rs generalizing f with
  | nil => exact ⟨f, rfl⟩
  | cons r rs ih =>
    have ih' := ih (fun r hr => h r (List.mem_cons_of_mem _ hr))
    unfold addFluxes
    split
    · obtain ⟨c, hc⟩ := h r List.mem_cons_self
      unfold addFlux
      by_cases h4 : r.dir ≠ 4
      · rw [if_pos h4, hc]; exact ih' _
      · rw [if_neg h4]; exact ih' _
    · exact ih' _

/-- What a successful pass of the loop did. -/
lemma waterStep_ok {L W : ℕ} (g : Rng K σ) (E : WEnv L W K) (step : ℕ) (st st' : WState L W K)
    (recs : List StepRec) (s s' : σ) (h : waterStep g E step st s = .ok (st', recs, s')) :
    step < (checkSize E.stepmax step st).ncols ∧
    st'.ncols = (checkSize E.stepmax step st).ncols ∧
    Forall₃ (StepOf g E step) (checkSize E.stepmax step st).parcels st'.parcels recs ∧
    ∃ f1 f2, addFluxes E (·.cur) (fun _ => true) recs st.flux = .ok f1 ∧
      addFluxes E (·.new1) (fun _ => true) recs f1 = .ok f2 ∧
      addFluxes E (·.new2) (·.bnd) recs f2 = .ok st'.flux := by
  have hfl : (checkSize E.stepmax step st).flux = st.flux := by
    unfold checkSize; split <;> rfl
  unfold waterStep at h
  simp only at h
  split at h
  · rename_i hlt
    split at h
    · cases h
    · rename_i ds s1 hds
      split at h
      · cases h
      · rename_i ps rs hps
        split at h
        · cases h
        · rename_i f1 hf1
          split at h
          · cases h
          · rename_i f2 hf2
            split at h
            · cases h
            · rename_i f3 hf3
              simp only [Except.ok.injEq, Prod.mk.injEq] at h
              obtain ⟨rfl, rfl, rfl⟩ := h
              refine ⟨hlt, rfl, parcelSteps_ok g E step _ _ _ _ (chooseDirs_ok g E _ _ _ _ hds) hps,
                f1, f2, ?_, hf2, hf3⟩
              rw [← hfl]; exact hf1
  · cases h

lemma checkSize_parcels {L W : ℕ} (stepmax it : ℕ) (st : WState L W K) (P : ℤ → Prop)
    (h : ∀ p ∈ st.parcels, P p.ind) : ∀ p ∈ (checkSize stepmax it st).parcels, P p.ind := by
  unfold checkSize
  split
  · intro p hp
    simp only [List.mem_map] at hp
    obtain ⟨q, hq, rfl⟩ := hp
    exact h q hq
  · exact h

lemma checkSize_ncols {L W : ℕ} (stepmax it : ℕ) (hs : 4 ≤ stepmax) (st : WState L W K)
    (h : it ≤ st.ncols) : it < (checkSize stepmax it st).ncols := by
  unfold checkSize
  split
  · simp only; omega
  · rename_i h'; omega

/-- A pass of the loop never fails under the layout conditions. -/
lemma waterStep_total {L W : ℕ} (g : Rng K σ) (hg : ∀ s, (g.next s).1 ≤ 1) {E : WEnv L W K}
    (hS : SafeLayout E) (hstep : 4 ≤ E.stepmax) (step : ℕ) (st : WState L W K)
    (hn : step ≤ st.ncols) (hp : ∀ p ∈ st.parcels, GoodInd E p.ind) (s : σ) :
    ∃ st' recs s', waterStep g E step st s = .ok (st', recs, s') ∧
      (∀ p ∈ st'.parcels, GoodInd E p.ind) ∧ step < st'.ncols := by
  have hlt := checkSize_ncols E.stepmax step hstep st hn
  have hp1 := checkSize_parcels E.stepmax step st (GoodInd E) hp
  have hfc : ∀ i ∈ (checkSize E.stepmax step st).parcels.map (·.ind),
      ∃ c, flatCell L W i = some c := by
    intro i hi
    obtain ⟨p, hpm, rfl⟩ := List.mem_map.mp hi
    have hL := hS.hL
    have hW := hS.hW
    rcases hp1 p hpm with h | ⟨c, h, -⟩
    · rw [h]; exact flatCell_exists_of_bounds hL (by omega) (by omega) (by positivity)
    · exact ⟨c, by rw [h]; exact flatCell_posOf c⟩
  obtain ⟨ds, s1, hds⟩ := chooseDirs_total g hg E hS.weights _ hfc s
  obtain ⟨ps, rs, hps, hgood, hcells⟩ := parcelSteps_total g hS step _ ds hp1
    (chooseDirs_ok g E _ _ _ _ hds)
  obtain ⟨f1, hf1⟩ := addFluxes_total E (·.cur) (fun _ => true) rs (fun r hr => (hcells r hr).1)
    (checkSize E.stepmax step st).flux
  obtain ⟨f2, hf2⟩ := addFluxes_total E (·.new1) (fun _ => true) rs
    (fun r hr => (hcells r hr).2.1) f1
  obtain ⟨f3, hf3⟩ := addFluxes_total E (·.new2) (·.bnd) rs (fun r hr => (hcells r hr).2.2) f2
  refine ⟨⟨f3, ps, (checkSize E.stepmax step st).ncols⟩, rs, s1, ?_, hgood, hlt⟩
  unfold waterStep
  simp only [hlt, if_true, hds, hps, hf1, hf2, hf3]

/-- General induction for the loop: an invariant of passes holds at the end, and a property of
passes holds for the whole log. -/
lemma waterLoop_induct {L W : ℕ} (g : Rng K σ) (E : WEnv L W K)
    (I : ℕ → WState L W K → Prop) (R : ℕ → List StepRec → Prop)
    (hstep : ∀ step st s st' recs s', I step st → (st.parcels.map (·.ind)).sum > 0 →
      step < E.stepmax → waterStep g E (step + 1) st s = .ok (st', recs, s') →
      I (step + 1) st' ∧ R (step + 1) recs)
    (step : ℕ) (st st' : WState L W K) (s s' : σ) (log : List (List StepRec)) (n : ℕ)
    (hI : I step st) (h : waterLoop g E step st s = .ok (st', log, n, s')) :
    I n st' ∧ n = step + log.length ∧ (step ≤ E.stepmax → n ≤ E.stepmax) ∧
      ¬ ((st'.parcels.map (·.ind)).sum > 0 ∧ n < E.stepmax) ∧
      ∀ k (hk : k < log.length), R (step + 1 + k) log[k] := by
  induction hfuel : E.stepmax - step generalizing step st s log with
  | zero =>
    unfold waterLoop at h
    rw [if_neg (by omega)] at h
    simp only [Except.ok.injEq, Prod.mk.injEq] at h
    obtain ⟨rfl, rfl, rfl, rfl⟩ := h
    exact ⟨hI, by simp, fun h => h, by omega, by simp⟩
  | succ m ih =>
    unfold waterLoop at h
    split at h
    · rename_i hc
      split at h
      · cases h
      · rename_i st1 recs s1 h1
        split at h
        · cases h
        · rename_i st2 log' n' s2 h2
          simp only [Except.ok.injEq, Prod.mk.injEq] at h
          obtain ⟨rfl, rfl, rfl, rfl⟩ := h
          obtain ⟨hI1, hR1⟩ := hstep step st s st1 recs s1 hI hc.1 hc.2 h1
          obtain ⟨a, b, c, d, e⟩ := ih (step + 1) st1 s1 log' hI1 h2 (by omega)
          refine ⟨a, by simp [b]; omega, fun _ => c (by omega), d, ?_⟩
          intro k hk
          rcases k with _ | k
          · simpa using hR1
          · have := e k (by simpa using hk)
            have e' : step + 1 + (k + 1) = step + 1 + 1 + k := by omega
            rw [e']
            simpa using this
    · rename_i hc
      simp only [Except.ok.injEq, Prod.mk.injEq] at h
      obtain ⟨rfl, rfl, rfl, rfl⟩ := h
      exact ⟨hI, by simp, fun h => h, hc, by simp⟩

/-- The loop never fails under the layout conditions. -/
lemma waterLoop_total {L W : ℕ} (g : Rng K σ) (hg : ∀ s, (g.next s).1 ≤ 1) {E : WEnv L W K}
    (hS : SafeLayout E) (hstep : 4 ≤ E.stepmax) (step : ℕ) (st : WState L W K)
    (hn : step < st.ncols) (hp : ∀ p ∈ st.parcels, GoodInd E p.ind) (s : σ) :
    ∃ st' log n s', waterLoop g E step st s = .ok (st', log, n, s') := by
  induction hfuel : E.stepmax - step generalizing step st s with
  | zero =>
    unfold waterLoop
    rw [if_neg (by omega)]
    exact ⟨_, _, _, _, rfl⟩
  | succ m ih =>
    unfold waterLoop
    split
    · obtain ⟨st1, recs, s1, h1, hp1, hn1⟩ := waterStep_total g hg hS hstep (step + 1) st (by omega) hp s
      obtain ⟨st2, log, n, s2, h2⟩ := ih (step + 1) st1 hn1 hp1 s1 (by omega)
      exact ⟨st2, recs :: log, n, s2, by simp only [h1, h2]⟩
    · exact ⟨_, _, _, _, rfl⟩

lemma Forall₃.getElem? {α β γ : Type*} {R : α → β → γ → Prop} {as bs cs}
    (h : Forall₃ R as bs cs) (j : ℕ) :
    (as[j]? = none ∧ bs[j]? = none ∧ cs[j]? = none) ∨
      ∃ a b c, as[j]? = some a ∧ bs[j]? = some b ∧ cs[j]? = some c ∧ R a b c := by
  induction h generalizing j with
  | nil => left; simp
  | cons h1 _ ih =>
    rcases j with _ | j
    · right; exact ⟨_, _, _, rfl, rfl, rfl, h1⟩
    · simpa using ih j

/-- What is written into the path record for a step. -/
def recorded (r : StepRec) : ℤ := if r.looped && r.bnd then 0 else r.new2

/-- The index the parcel continues from. -/
def after (r : StepRec) : ℤ := if r.bnd then 0 else r.new2

lemma parcelStep_fields {L W : ℕ} {E : WEnv L W K} {step : ℕ} {p p' : WParcel} {d : Fin 9}
    {r : StepRec} (h : parcelStep E step p d = .ok (p', r)) :
    r.cur = p.ind ∧ r.dir = d ∧ r.new1 = calcNewInd W p.ind d ∧
    checkLoop E step p.walk r.new1 = .ok (r.new2, r.looped) ∧ isBoundary E r.new2 = .ok r.bnd ∧
    p'.ind = after r ∧ p'.flag = (p.flag && !r.looped) ∧ p'.walk = p.walk.set step (recorded r) := by
  unfold parcelStep at h
  simp only at h
  split at h
  · cases h
  · rename_i new2 looped h1
    split at h
    · cases h
    · rename_i bnd h2
      simp only [Except.ok.injEq, Prod.mk.injEq] at h
      obtain ⟨rfl, rfl⟩ := h
      refine ⟨rfl, rfl, rfl, h1, h2, ?_, rfl, rfl⟩
      simp only [after]
      split
      · rfl
      · rename_i hb; simp [hb]

/-- Entry `i` of the path record of parcel `j`. -/
def walkAt {L W : ℕ} (st : WState L W K) (j i : ℕ) : Option ℤ :=
  (st.parcels[j]?).bind (fun p => p.walk[i]?)

/-- All rows of the path record have `ncols` entries. -/
def Rect {L W : ℕ} (st : WState L W K) : Prop := ∀ p ∈ st.parcels, p.walk.length = st.ncols

lemma checkSize_rect {L W : ℕ} (stepmax it : ℕ) (st : WState L W K) (h : Rect st) :
    Rect (checkSize stepmax it st) := by
  unfold checkSize
  split
  · intro p hp
    simp only [List.mem_map] at hp
    obtain ⟨q, hq, rfl⟩ := hp
    simp [h q hq]
  · exact h

lemma checkSize_walkAt {L W : ℕ} (stepmax it : ℕ) (st : WState L W K) (h : Rect st) (j i : ℕ)
    (hi : i < st.ncols) : walkAt (checkSize stepmax it st) j i = walkAt st j i := by
  unfold checkSize
  split
  · unfold walkAt
    simp only [List.getElem?_map]
    cases hj : st.parcels[j]? with
    | none => simp
    | some p =>
      have hl := h p (List.mem_of_getElem? hj)
      simp only [Option.map_some, Option.bind_some]
      rw [List.getElem?_append_left (by omega)]
  · rfl

lemma checkSize_walkAt_new {L W : ℕ} (stepmax it : ℕ) (st : WState L W K) (h : Rect st) (j i : ℕ)
    (hi : st.ncols ≤ i) (v : ℤ) (hv : walkAt (checkSize stepmax it st) j i = some v) : v = 0 := by
  unfold checkSize at hv
  split at hv
  · unfold walkAt at hv
    simp only [List.getElem?_map] at hv
    cases hj : st.parcels[j]? with
    | none => simp [hj] at hv
    | some p =>
      have hl := h p (List.mem_of_getElem? hj)
      simp only [hj, Option.map_some, Option.bind_some] at hv
      rw [List.getElem?_append_right (by omega)] at hv
      have := List.mem_of_getElem? hv
      exact List.eq_of_mem_replicate this
  · unfold walkAt at hv
    cases hj : st.parcels[j]? with
    | none => simp [hj] at hv
    | some p =>
      have hl := h p (List.mem_of_getElem? hj)
      simp only [hj, Option.bind_some] at hv
      rw [List.getElem?_eq_none (by omega)] at hv
      cases hv

/-- What one pass does to the path record. -/
lemma waterStep_walk {L W : ℕ} (g : Rng K σ) (E : WEnv L W K) (step : ℕ) (st st' : WState L W K)
    (recs : List StepRec) (s s' : σ) (hR : Rect st)
    (h : waterStep g E step st s = .ok (st', recs, s')) :
    Rect st' ∧ st.ncols ≤ st'.ncols ∧ step < st'.ncols ∧
    (∀ j i, i ≠ step → i < st.ncols → walkAt st' j i = walkAt st j i) ∧
    (∀ j i v, i ≠ step → st.ncols ≤ i → walkAt st' j i = some v → v = 0) ∧
    (∀ j, walkAt st' j step = recs[j]?.map recorded) ∧
    (∀ j : ℕ, recs[j]?.map (·.cur) = st.parcels[j]?.map (·.ind)) ∧
    (∀ j : ℕ, st'.parcels[j]?.map (·.ind) = recs[j]?.map after) ∧
    (∀ j : ℕ, st'.parcels[j]?.map (·.flag) =
      (st.parcels[j]?.bind fun p => recs[j]?.map fun r => p.flag && !r.looped)) := by
  obtain ⟨h1, h2, h3, -⟩ := waterStep_ok g E step st st' recs s s' h
  have hR1 := checkSize_rect E.stepmax step st hR
  have hcsn : st.ncols ≤ (checkSize E.stepmax step st).ncols := by
    unfold checkSize; split <;> simp
  have hR' : Rect st' := by
    intro p' hp'
    obtain ⟨p, hp, r, hr, d, -, hd⟩ := h3.mem₂ p' hp'
    obtain ⟨-, -, -, -, -, -, -, hw⟩ := parcelStep_fields hd
    rw [hw, List.length_set, hR1 p hp, h2]
  have hind : ∀ j : ℕ, (checkSize E.stepmax step st).parcels[j]?.map (fun p : WParcel => (p.ind, p.flag)) =
      st.parcels[j]?.map (fun p : WParcel => (p.ind, p.flag)) := by
    intro j
    unfold checkSize
    split
    · simp only [List.getElem?_map, Option.map_map]; rfl
    · rfl
  refine ⟨hR', by omega, by omega, ?_, ?_, ?_, ?_, ?_, ?_⟩
  · intro j i hi hlt
    rw [← checkSize_walkAt E.stepmax step st hR j i hlt]
    unfold walkAt
    rcases h3.getElem? j with ⟨e1, e2, -⟩ | ⟨p, p', r, e1, e2, -, d, -, hd⟩
    · rw [e1, e2]
    · rw [e1, e2]
      obtain ⟨-, -, -, -, -, -, -, hw⟩ := parcelStep_fields hd
      simp only [Option.bind_some, hw]
      rw [List.getElem?_set_ne (Ne.symm hi)]
  · intro j i v hi hge hv
    apply checkSize_walkAt_new E.stepmax step st hR j i hge v
    rw [← hv]
    unfold walkAt
    rcases h3.getElem? j with ⟨e1, e2, -⟩ | ⟨p, p', r, e1, e2, -, d, -, hd⟩
    · rw [e1, e2]
    · rw [e1, e2]
      obtain ⟨-, -, -, -, -, -, -, hw⟩ := parcelStep_fields hd
      simp only [Option.bind_some, hw]
      rw [List.getElem?_set_ne (Ne.symm hi)]
  · intro j
    unfold walkAt
    rcases h3.getElem? j with ⟨e1, e2, e3⟩ | ⟨p, p', r, e1, e2, e3, d, -, hd⟩
    · rw [e2, e3]; rfl
    · rw [e2, e3]
      obtain ⟨-, -, -, -, -, -, -, hw⟩ := parcelStep_fields hd
      simp only [Option.bind_some, hw, Option.map_some]
      rw [List.getElem?_set_self]
      rw [hR1 p (List.mem_of_getElem? e1)]
      exact h1
  · intro j
    have hj := hind j
    rcases h3.getElem? j with ⟨e1, e2, e3⟩ | ⟨p, p', r, e1, e2, e3, d, -, hd⟩
    · rw [e1] at hj
      rw [e3]
      cases hq : st.parcels[j]? with
      | none => rfl
      | some q => rw [hq] at hj; simp at hj
    · rw [e1] at hj
      cases hq : st.parcels[j]? with
      | none => rw [hq] at hj; simp at hj
      | some q =>
        rw [hq] at hj
        simp only [Option.map_some, Option.some.injEq, Prod.mk.injEq] at hj
        rw [e3]
        simp only [Option.map_some, (parcelStep_fields hd).1, hj.1]
  · intro j
    rcases h3.getElem? j with ⟨e1, e2, e3⟩ | ⟨p, p', r, e1, e2, e3, d, -, hd⟩
    · rw [e2, e3]; rfl
    · rw [e2, e3]
      simp only [Option.map_some, (parcelStep_fields hd).2.2.2.2.2.1]
  · intro j
    have hj := hind j
    rcases h3.getElem? j with ⟨e1, e2, e3⟩ | ⟨p, p', r, e1, e2, e3, d, -, hd⟩
    · rw [e1] at hj
      rw [e2, e3]
      cases hq : st.parcels[j]? with
      | none => rfl
      | some q => rw [hq] at hj; simp at hj
    · rw [e1] at hj
      cases hq : st.parcels[j]? with
      | none => rw [hq] at hj; simp at hj
      | some q =>
        rw [hq] at hj
        simp only [Option.map_some, Option.some.injEq, Prod.mk.injEq] at hj
        rw [e2, e3]
        simp only [Option.map_some, Option.bind_some, (parcelStep_fields hd).2.2.2.2.2.2.1, hj.2]

/-- The path record after the loop: earlier entries kept, one entry per step, zeros after. -/
lemma waterLoop_walk {L W : ℕ} (g : Rng K σ) (E : WEnv L W K) (step : ℕ) (st st' : WState L W K)
    (s s' : σ) (log : List (List StepRec)) (n : ℕ) (hR : Rect st) (hn : step < st.ncols)
    (h : waterLoop g E step st s = .ok (st', log, n, s')) :
    Rect st' ∧ n < st'.ncols ∧ st.ncols ≤ st'.ncols ∧
    (∀ j i, i ≤ step → walkAt st' j i = walkAt st j i) ∧
    (∀ k (hk : k < log.length) j, walkAt st' j (step + 1 + k) = (log[k])[j]?.map recorded) ∧
    ((∀ j i v, step < i → walkAt st j i = some v → v = 0) →
      ∀ j i v, n < i → walkAt st' j i = some v → v = 0) ∧
    (∀ k (hk : k < log.length) (j : ℕ), (log[k])[j]?.map (·.cur) =
      if k = 0 then st.parcels[j]?.map (·.ind) else (log[k - 1]?.bind (·[j]?)).map after) ∧
    (∀ j : ℕ, st'.parcels[j]?.map (·.ind) =
      if log.length = 0 then st.parcels[j]?.map (·.ind)
      else (log[log.length - 1]?.bind (·[j]?)).map after) ∧
    (∀ j : ℕ, st'.parcels[j]?.map (·.flag) = st.parcels[j]?.map (fun p => p.flag &&
      log.all (fun recs => (recs[j]?.map (fun r => !r.looped)).getD true))) := by
  induction hfuel : E.stepmax - step generalizing step st s log with
  | zero =>
    unfold waterLoop at h
    rw [if_neg (by omega)] at h
    simp only [Except.ok.injEq, Prod.mk.injEq] at h
    obtain ⟨rfl, rfl, rfl, rfl⟩ := h
    exact ⟨hR, hn, le_refl _, fun _ _ _ => rfl, by simp, fun h => h, by simp, by simp, by simp⟩
  | succ m ih =>
    unfold waterLoop at h
    split at h
    · rename_i hc
      split at h
      · cases h
      · rename_i st1 recs s1 h1
        split at h
        · cases h
        · rename_i st2 log' n' s2 h2
          simp only [Except.ok.injEq, Prod.mk.injEq] at h
          obtain ⟨rfl, rfl, rfl, rfl⟩ := h
          obtain ⟨hR1, hm1, hlt1, hold, hnew, hcur, hprev, hnext, hflag⟩ :=
            waterStep_walk g E (step + 1) st st1 recs s s1 hR h1
          obtain ⟨a1, a2, a3, a4, a5, a6, a7, a8, a9⟩ := ih (step + 1) st1 s1 log' hR1 hlt1 h2 (by omega)
          refine ⟨a1, a2, by omega, ?_, ?_, ?_, ?_, ?_, ?_⟩
          · intro j i hi
            rw [a4 j i (by omega), hold j i (by omega) (by omega)]
          · intro k hk j
            rcases k with _ | k
            · rw [a4 j _ (by omega)]
              simpa using hcur j
            · have e' : step + 1 + (k + 1) = step + 1 + 1 + k := by omega
              rw [e', a5 k (by simpa using hk) j]
              simp
          · intro hz
            apply a6
            intro j i v hi hv
            by_cases hlt : i < st.ncols
            · rw [hold j i (by omega) hlt] at hv
              exact hz j i v (by omega) hv
            · exact hnew j i v (by omega) (by omega) hv
          · intro k hk j
            rcases k with _ | k
            · simpa using hprev j
            · have := a7 k (by simpa using hk) j
              simp only [List.getElem_cons_succ, this]
              rcases k with _ | k
              · simp [hnext j]
              · simp
          · intro j
            rw [a8 j]
            by_cases hl : log'.length = 0
            · have : log' = [] := List.length_eq_zero_iff.mp hl
              subst this
              simp [hnext j]
            · rw [if_neg hl, if_neg (by simp)]
              congr 1
              have : (recs :: log').length - 1 = (log'.length - 1) + 1 := by
                simp only [List.length_cons]; omega
              rw [this, List.getElem?_cons_succ]
          · intro j
            rw [a9 j]
            have hf := hflag j
            have hp := hprev j
            cases hq : st.parcels[j]? with
            | none =>
              rw [hq] at hf
              simp only [Option.bind_none] at hf
              cases hq1 : st1.parcels[j]? with
              | none => simp
              | some q => rw [hq1] at hf; simp at hf
            | some q =>
              rw [hq] at hf hp
              cases hr : recs[j]? with
              | none => rw [hr] at hp; simp at hp
              | some r =>
                rw [hr] at hf
                cases hq1 : st1.parcels[j]? with
                | none => rw [hq1] at hf; simp at hf
                | some q1 =>
                  rw [hq1] at hf
                  simp only [Option.map_some, Option.bind_some, Option.some.injEq] at hf
                  simp [hf, hr, Bool.and_assoc]
    · rename_i hc
      simp only [Except.ok.injEq, Prod.mk.injEq] at h
      obtain ⟨rfl, rfl, rfl, rfl⟩ := h
      exact ⟨hR, hn, le_refl _, fun _ _ _ => rfl, by simp, fun h => h, by simp, by simp, by simp⟩

/-- Every pass of the loop is a `waterStep` from a state whose path record agrees with the final
one on the steps done so far and is zero afterwards. -/
lemma waterLoop_at {L W : ℕ} (g : Rng K σ) (E : WEnv L W K) (step : ℕ) (st st' : WState L W K)
    (s s' : σ) (log : List (List StepRec)) (n : ℕ) (hR : Rect st) (hn : step < st.ncols)
    (hz : ∀ j i v, step < i → walkAt st j i = some v → v = 0)
    (h : waterLoop g E step st s = .ok (st', log, n, s')) (k : ℕ) (hk : k < log.length) :
    ∃ stk sk stk' sk', waterStep g E (step + 1 + k) stk sk = .ok (stk', log[k], sk') ∧ Rect stk ∧
      step + k < stk.ncols ∧ (stk.parcels.map (·.ind)).sum > 0 ∧
      (∀ j i, i ≤ step + k → walkAt stk j i = walkAt st' j i) ∧
      (∀ j i v, step + k < i → walkAt stk j i = some v → v = 0) := by
  induction hfuel : E.stepmax - step generalizing step st s log k with
  | zero =>
    unfold waterLoop at h
    rw [if_neg (by omega)] at h
    simp only [Except.ok.injEq, Prod.mk.injEq] at h
    obtain ⟨rfl, rfl, rfl, rfl⟩ := h
    simp at hk
  | succ m ih =>
    have hall := waterLoop_walk g E step st st' s s' log n hR hn h
    unfold waterLoop at h
    split at h
    · rename_i hc
      split at h
      · cases h
      · rename_i st1 recs s1 h1
        split at h
        · cases h
        · rename_i st2 log' n' s2 h2
          simp only [Except.ok.injEq, Prod.mk.injEq] at h
          obtain ⟨rfl, rfl, rfl, rfl⟩ := h
          obtain ⟨hR1, hm1, hlt1, hold, hnew, hcur, hprev, hnext, hflag⟩ :=
            waterStep_walk g E (step + 1) st st1 recs s s1 hR h1
          rcases k with _ | k
          · refine ⟨st, s, st1, s1, by simpa using h1, hR, by omega, hc.1, ?_, ?_⟩
            · intro j i hi
              exact (hall.2.2.2.1 j i (by omega)).symm
            · intro j i v hi hv; exact hz j i v (by omega) hv
          · have hz1 : ∀ j i v, step + 1 < i → walkAt st1 j i = some v → v = 0 := by
              intro j i v hi hv
              by_cases hlt : i < st.ncols
              · rw [hold j i (by omega) hlt] at hv
                exact hz j i v (by omega) hv
              · exact hnew j i v (by omega) (by omega) hv
            obtain ⟨stk, sk, stk', sk', b1, b2, b3, b3', b4, b5⟩ :=
              ih (step + 1) st1 s1 log' hR1 hlt1 hz1 h2 k (by simpa using hk) (by omega)
            have e1 : step + 1 + (k + 1) = step + 1 + 1 + k := by omega
            have e2 : step + (k + 1) = step + 1 + k := by omega
            refine ⟨stk, sk, stk', sk', ?_, b2, ?_, b3', ?_, ?_⟩
            · rw [e1]; simpa using b1
            · rw [e2]; exact b3
            · rw [e2]; exact b4
            · rw [e2]; exact b5
    · rename_i hc
      simp only [Except.ok.injEq, Prod.mk.injEq] at h
      obtain ⟨rfl, rfl, rfl, rfl⟩ := h
      simp at hk

lemma flatCell_eq_some_iff {L W : ℕ} {i : ℤ} {c : Cell L W} :
    flatCell L W i = some c ↔ i = posOf c ∨ i + L * W = posOf c := by
  constructor
  · intro h
    by_cases h0 : 0 ≤ i
    · exact .inl (flatCell_some_nonneg h0 h)
    · have hb := flatCell_isSome_iff.mp ⟨c, h⟩
      obtain ⟨d, hd, he⟩ := flatCell_neg (L := L) (W := W) (not_le.mp h0) (by omega)
      rw [h] at hd
      cases hd
      exact .inr he
  · rintro (h | h)
    · rw [h]; exact flatCell_posOf c
    · have h1 := posOf_lt c
      have h2 := posOf_nonneg c
      obtain ⟨d, hd, he⟩ := flatCell_neg (L := L) (W := W) (i := i) (by omega) (by omega)
      rw [hd]
      congr 1
      apply posOf_injective
      rw [← h]; exact he.symm

/-- The moves counted by one call of `addFluxes` at one cell. -/
def movesAt (L W : ℕ) (sel : StepRec → ℤ) (p : StepRec → Bool) (c : Cell L W)
    (rs : List StepRec) : List StepRec :=
  rs.filter (fun r => p r && decide (r.dir ≠ 4) && decide (flatCell L W (sel r) = some c))

lemma addFluxes_ok {L W : ℕ} (E : WEnv L W K) (sel : StepRec → ℤ) (p : StepRec → Bool)
    (rs : List StepRec) (f f' : Flux L W K) (h : addFluxes E sel p rs f = .ok f') (c : Cell L W) :
    f'.qw c = f.qw c + (E.Qp / E.dx / 2) * (movesAt L W sel p c rs).length ∧
    f'.qx c = f.qx c + ((movesAt L W sel p c rs).map
      (fun r => (jwalk r.dir : K) / stepDist E.s2 r.dir)).sum ∧
    f'.qy c = f.qy c + ((movesAt L W sel p c rs).map
      (fun r => (iwalk r.dir : K) / stepDist E.s2 r.dir)).sum ∧
    (∀ r ∈ rs, p r = true → r.dir ≠ 4 → ∃ c', flatCell L W (sel r) = some c') := by
  induction rs generalizing f with
  | nil =>
    simp only [addFluxes, Except.ok.injEq] at h
    subst h
    simp [movesAt]
  | cons r rs ih =>
    unfold addFluxes at h
    split at h
    · rename_i hp
      split at h
      · cases h
      · rename_i f1 h1
        obtain ⟨i1, i2, i3, i4⟩ := ih f1 h
        unfold addFlux at h1
        split at h1
        · rename_i hd
          split at h1
          · cases h1
          · rename_i c' hc'
            simp only [Except.ok.injEq] at h1
            subst h1
            simp only at i1 i2 i3
            have hi4 : ∀ q ∈ r :: rs, p q = true → q.dir ≠ 4 → ∃ c', flatCell L W (sel q) = some c' := by
              intro q hq
              rcases List.mem_cons.mp hq with rfl | hq
              · exact fun _ _ => ⟨c', hc'⟩
              · exact i4 q hq
            by_cases hcc : c' = c
            · subst hcc
              have e : movesAt L W sel p c' (r :: rs) = r :: movesAt L W sel p c' rs := by
                unfold movesAt
                rw [List.filter_cons_of_pos (by simp [hp, hd, hc'])]
              rw [e, i1, i2, i3]
              simp only [Function.update_self, List.length_cons, List.map_cons, List.sum_cons]
              refine ⟨by push_cast; ring, by ring, by ring, hi4⟩
            · have e : movesAt L W sel p c (r :: rs) = movesAt L W sel p c rs := by
                unfold movesAt
                rw [List.filter_cons_of_neg (by simp [hc', hcc])]
              rw [e, i1, i2, i3]
              simp only [Function.update_of_ne (Ne.symm hcc)]
              exact ⟨trivial, trivial, trivial, hi4⟩
        · rename_i hd
          simp only [Except.ok.injEq] at h1
          subst h1
          have e : movesAt L W sel p c (r :: rs) = movesAt L W sel p c rs := by
            unfold movesAt
            rw [List.filter_cons_of_neg (by simp only [not_not] at hd; simp [hd])]
          rw [e]
          refine ⟨i1, i2, i3, ?_⟩
          intro q hq
          rcases List.mem_cons.mp hq with rfl | hq
          · exact fun _ hne => absurd hne hd
          · exact i4 q hq
    · rename_i hp
      obtain ⟨i1, i2, i3, i4⟩ := ih f h
      have e : movesAt L W sel p c (r :: rs) = movesAt L W sel p c rs := by
        unfold movesAt
        rw [List.filter_cons_of_neg (by simp [hp])]
      rw [e]
      refine ⟨i1, i2, i3, ?_⟩
      intro q hq
      rcases List.mem_cons.mp hq with rfl | hq
      · exact fun hne => absurd hne (by simpa using hp)
      · exact i4 q hq

/-- What the passes add to the flux fields at a cell. -/
lemma waterLoop_flux {L W : ℕ} (g : Rng K σ) (E : WEnv L W K) (step : ℕ) (st st' : WState L W K)
    (s s' : σ) (log : List (List StepRec)) (n : ℕ)
    (h : waterLoop g E step st s = .ok (st', log, n, s')) (c : Cell L W) :
    st'.flux.qw c = st.flux.qw c + (E.Qp / E.dx / 2) *
      ((movesAt L W (·.cur) (fun _ => true) c log.flatten).length +
       (movesAt L W (·.new1) (fun _ => true) c log.flatten).length +
       (movesAt L W (·.new2) (·.bnd) c log.flatten).length : ℕ) ∧
    st'.flux.qx c = st.flux.qx c +
      ((((movesAt L W (·.cur) (fun _ => true) c log.flatten).map
        (fun r => (jwalk r.dir : K) / stepDist E.s2 r.dir)).sum +
      ((movesAt L W (·.new1) (fun _ => true) c log.flatten).map
        (fun r => (jwalk r.dir : K) / stepDist E.s2 r.dir)).sum) +
      ((movesAt L W (·.new2) (·.bnd) c log.flatten).map
        (fun r => (jwalk r.dir : K) / stepDist E.s2 r.dir)).sum) ∧
    st'.flux.qy c = st.flux.qy c +
      ((((movesAt L W (·.cur) (fun _ => true) c log.flatten).map
        (fun r => (iwalk r.dir : K) / stepDist E.s2 r.dir)).sum +
      ((movesAt L W (·.new1) (fun _ => true) c log.flatten).map
        (fun r => (iwalk r.dir : K) / stepDist E.s2 r.dir)).sum) +
      ((movesAt L W (·.new2) (·.bnd) c log.flatten).map
        (fun r => (iwalk r.dir : K) / stepDist E.s2 r.dir)).sum) ∧
    (∀ r ∈ log.flatten, r.dir ≠ 4 → (∃ c', flatCell L W r.cur = some c') ∧
      (∃ c', flatCell L W r.new1 = some c') ∧
      (r.bnd = true → ∃ c', flatCell L W r.new2 = some c')) := by
  induction hfuel : E.stepmax - step generalizing step st s log with
  | zero =>
    unfold waterLoop at h
    rw [if_neg (by omega)] at h
    simp only [Except.ok.injEq, Prod.mk.injEq] at h
    obtain ⟨rfl, rfl, rfl, rfl⟩ := h
    simp [movesAt]
  | succ m ih =>
    unfold waterLoop at h
    split at h
    · rename_i hc
      split at h
      · cases h
      · rename_i st1 recs s1 h1
        split at h
        · cases h
        · rename_i st2 log' n' s2 h2
          simp only [Except.ok.injEq, Prod.mk.injEq] at h
          obtain ⟨rfl, rfl, rfl, rfl⟩ := h
          obtain ⟨i1, i2, i3, i4⟩ := ih (step + 1) st1 s1 log' h2 (by omega)
          obtain ⟨-, -, -, f1, f2, hf1, hf2, hf3⟩ := waterStep_ok g E (step + 1) st st1 recs s s1 h1
          obtain ⟨a1, a2, a3, a4⟩ := addFluxes_ok E _ _ recs _ _ hf1 c
          obtain ⟨b1, b2, b3, b4⟩ := addFluxes_ok E _ _ recs _ _ hf2 c
          obtain ⟨c1, c2, c3, c4⟩ := addFluxes_ok E _ _ recs _ _ hf3 c
          have e : ∀ sel p, movesAt L W sel p c (recs :: log').flatten =
              movesAt L W sel p c recs ++ movesAt L W sel p c log'.flatten := by
            intro sel p; simp [movesAt]
          simp only [e, List.length_append, List.map_append, List.sum_append]
          refine ⟨?_, ?_, ?_, ?_⟩
          · rw [i1, c1, b1, a1]; push_cast; ring
          · rw [i2, c2, b2, a2]; ring
          · rw [i3, c3, b3, a3]; ring
          · intro r hr hd
            simp only [List.flatten_cons, List.mem_append] at hr
            rcases hr with hr | hr
            · exact ⟨a4 r hr rfl hd, b4 r hr rfl hd, fun hb => c4 r hr hb hd⟩
            · exact i4 r hr hd
    · rename_i hc
      simp only [Except.ok.injEq, Prod.mk.injEq] at h
      obtain ⟨rfl, rfl, rfl, rfl⟩ := h
      simp [movesAt]

/-- The moves at the individual cells add up to all moves. -/
lemma movesAt_total (L W : ℕ) (sel : StepRec → ℤ) (p : StepRec → Bool) (rs : List StepRec)
    (h : ∀ r ∈ rs, p r = true → r.dir ≠ 4 → ∃ c', flatCell L W (sel r) = some c') :
    ∑ c : Cell L W, (movesAt L W sel p c rs).length =
      (rs.filter (fun r => p r && decide (r.dir ≠ 4))).length := by
  induction rs with
  | nil => simp [movesAt]
  | cons r rs ih =>
    have ih' := ih (fun q hq => h q (List.mem_cons_of_mem _ hq))
    by_cases hp : (p r && decide (r.dir ≠ 4)) = true
    · obtain ⟨c', hc'⟩ := h r List.mem_cons_self (by simp_all) (by simp_all)
      have e : ∀ c, (movesAt L W sel p c (r :: rs)).length =
          (movesAt L W sel p c rs).length + (if c = c' then 1 else 0) := by
        intro c
        unfold movesAt
        by_cases hcc : c = c'
        · subst hcc
          rw [List.filter_cons_of_pos (by simp only [hp, hc']; simp)]
          simp
        · rw [List.filter_cons_of_neg (by simp only [hp, hc']; simp [Ne.symm hcc])]
          simp [hcc]
      rw [Finset.sum_congr rfl (fun c _ => e c), Finset.sum_add_distrib, ih',
        List.filter_cons, if_pos hp]
      simp
    · have e : ∀ c, movesAt L W sel p c (r :: rs) = movesAt L W sel p c rs := by
        intro c
        unfold movesAt
        rw [List.filter_cons_of_neg]
        simp only [Bool.and_eq_true] at hp ⊢
        tauto
      rw [Finset.sum_congr rfl (fun c _ => by rw [e c]), ih', List.filter_cons, if_neg hp]

/-- What a successful iteration started from. -/
lemma runWater_ok {L W m : ℕ} (g : Rng K σ) (E : WEnv L W K) (inlet : Fin m → ℤ) (np ncols : ℕ)
    (s : σ) (res) (h : runWaterIteration g E inlet np ncols s = .ok res) :
    ∃ starts st, getStartIndices inlet (getInletWeights inlet : Fin m → K) (drawN g np s).1 =
        some starts ∧ waterStart E ncols starts = .ok st ∧
      waterLoop g E 0 st (drawN g np s).2 = .ok res := by
  unfold runWaterIteration at h
  simp only at h
  split at h
  · cases h
  · rename_i starts hs
    split at h
    · cases h
    · rename_i st hst
      exact ⟨starts, st, hs, hst, h⟩

lemma waterStart_ok {L W : ℕ} {E : WEnv L W K} {ncols : ℕ} {starts : List ℤ} {st : WState L W K}
    (h : waterStart E ncols starts = .ok st) :
    (∀ i ∈ starts, ∃ c, flatCell L W i = some c) ∧ 0 < ncols ∧ st.ncols = ncols ∧ Rect st ∧
    (∀ j : ℕ, st.parcels[j]?.map (·.ind) = starts[j]?) ∧
    (∀ j : ℕ, st.parcels[j]?.map (·.flag) = starts[j]?.map (fun _ => true)) ∧
    (∀ j, walkAt st j 0 = starts[j]?) ∧ (∀ j i v, 0 < i → walkAt st j i = some v → v = 0) ∧
    st.parcels.map (·.ind) = starts ∧
    st.flux = ⟨fancyAdd (fun _ => 0) starts 1, fancyAdd (fun _ => 0) starts 0,
      fancyAdd (fun _ => 0) starts (E.Qp / E.dx / 2)⟩ := by
  unfold waterStart at h
  split at h
  · rename_i hc
    simp only [Except.ok.injEq] at h
    subst h
    have hw : ∀ j i, walkAt ({
      flux := {
        qx := fancyAdd (fun _ => 0) starts 1
        qy := fancyAdd (fun _ => 0) starts 0
        qw := fancyAdd (fun _ => 0) starts (E.Qp / E.dx / 2) }
      parcels := starts.map (fun i => ⟨i, true, (List.replicate ncols 0).set 0 i⟩)
      ncols := ncols } : WState L W K) j i = starts[j]?.bind
        (fun x => ((List.replicate ncols (0 : ℤ)).set 0 x)[i]?) := by
      intro j i
      unfold walkAt
      simp only [List.getElem?_map]
      cases starts[j]? <;> rfl
    refine ⟨?_, hc.2, rfl, ?_, ?_, ?_, ?_, ?_, ?_, rfl⟩
    · intro i hi
      have := List.all_eq_true.mp hc.1 i hi
      exact Option.isSome_iff_exists.mp this
    · intro p hp
      simp only [List.mem_map] at hp
      obtain ⟨i, -, rfl⟩ := hp
      simp
    · intro j
      simp only [List.getElem?_map, Option.map_map]
      cases starts[j]? <;> rfl
    · intro j
      simp only [List.getElem?_map, Option.map_map]
      cases starts[j]? <;> rfl
    · intro j
      rw [hw]
      cases starts[j]? with
      | none => rfl
      | some x =>
        simp only [Option.bind_some]
        rw [List.getElem?_set_self (by simpa using hc.2)]
    · intro j i v hi hv
      rw [hw] at hv
      cases hx : starts[j]? with
      | none => rw [hx] at hv; simp at hv
      | some x =>
        rw [hx] at hv
        simp only [Option.bind_some] at hv
        rw [List.getElem?_set_ne (by omega)] at hv
        exact List.eq_of_mem_replicate (List.mem_of_getElem? hv)
    · simp [Function.comp_def]
  · cases h

end Verif.Lemmas
