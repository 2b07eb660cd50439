import Verif.Model.Weights

set_option linter.unusedSectionVars false

namespace Verif.Lemmas

open Verif.Model

variable {K : Type*} [Field K] [LinearOrder K] [IsStrictOrderedRing K]

lemma rebalance_nonneg {w : Fin 9 → K} (h : ∀ d, 0 ≤ w d) (d : Fin 9) : 0 ≤ rebalance w d := by
  unfold rebalance
  split
  · rename_i hs; exact div_nonneg (h d) hs.le
  · exact h d

lemma rebalance_zero {w : Fin 9 → K} {d : Fin 9} (h : w d = 0) : rebalance w d = 0 := by
  unfold rebalance
  split
  · simp [h]
  · exact h

/-- normalising by the sum -/
lemma normalised_sum {w : Fin 9 → K} (h : ∑ d, w d ≠ 0) : ∑ d, w d / ∑ e, w e = 1 := by
  rw [← Finset.sum_div, div_self h]

/-- uniform weights on a non-empty set have sum one -/
lemma uniform_sum (p : Fin 9 → Bool)
    (h : 0 < (Finset.univ.filter (fun d => p d = true)).card) :
    ∑ d, (if p d then 1 / (((Finset.univ.filter (fun d => p d = true)).card : ℕ) : K) else 0)
      = 1 := by
  rw [← Finset.sum_filter, Finset.sum_const, nsmul_eq_mul]
  have : (((Finset.univ.filter (fun d => p d = true)).card : ℕ) : K) ≠ 0 := by
    exact_mod_cast h.ne'
  rw [mul_one_div, div_self this]

/-- The non-normalised water weight before the fallback. -/
def rawWater (wSfc wInt depthN modN : Fin 9 → K) (ctN : Fin 9 → ℤ) (dryDepth gamma : K)
    (pw : K → K) : Fin 9 → K := fun d =>
  if d = 4 then 0 else pw (depthN d * modN d) *
    (gamma * rebalance (fun d => if d = 4 then 0 else
        if depthN d < dryDepth ∨ ctN d = -2 then 0 else wSfc d) d +
      (1 - gamma) * rebalance (fun d => if d = 4 then 0 else
        if depthN d < dryDepth ∨ ctN d = -2 then 0 else wInt d) d)

lemma rawWater_nonneg {wSfc wInt depthN modN : Fin 9 → K} {ctN : Fin 9 → ℤ} {dryDepth gamma : K}
    {pw : K → K} (hs : ∀ d, 0 ≤ wSfc d) (hi : ∀ d, 0 ≤ wInt d)
    (hp : ∀ d, 0 ≤ pw (depthN d * modN d)) (hg0 : 0 ≤ gamma) (hg1 : gamma ≤ 1) (d : Fin 9) :
    0 ≤ rawWater wSfc wInt depthN modN ctN dryDepth gamma pw d := by
  unfold rawWater
  split
  · exact le_refl _
  · apply mul_nonneg (hp d)
    apply add_nonneg
    · apply mul_nonneg hg0 (rebalance_nonneg _ d)
      intro d; split
      · exact le_refl _
      · split
        · exact le_refl _
        · exact hs d
    · apply mul_nonneg (by linarith) (rebalance_nonneg _ d)
      intro d; split
      · exact le_refl _
      · split
        · exact le_refl _
        · exact hi d

lemma rawWater_zero {wSfc wInt depthN modN : Fin 9 → K} {ctN : Fin 9 → ℤ} {dryDepth gamma : K}
    {pw : K → K} {d : Fin 9} (h : d = 4 ∨ depthN d < dryDepth ∨ ctN d = -2) :
    rawWater wSfc wInt depthN modN ctN dryDepth gamma pw d = 0 := by
  unfold rawWater
  by_cases h4 : d = 4
  · simp [h4]
  · have h' : depthN d < dryDepth ∨ ctN d = -2 := by tauto
    rw [if_neg h4, rebalance_zero, rebalance_zero]
    · ring
    · simp only [h', if_true, ite_self]
    · simp only [h', if_true, ite_self]

/-- The possible results of the water weights. -/
inductive WaterResult (row0 : Bool) (wSfc wInt depthN modN : Fin 9 → K) (ctN : Fin 9 → ℤ)
    (dryDepth gamma : K) (pw : K → K) : Except Err (Fin 9 → K) → Prop
  | main (h : 0 < ∑ d, rawWater wSfc wInt depthN modN ctN dryDepth gamma pw d) :
      WaterResult row0 wSfc wInt depthN modN ctN dryDepth gamma pw
        (.ok (fun d => rawWater wSfc wInt depthN modN ctN dryDepth gamma pw d /
          ∑ e, rawWater wSfc wInt depthN modN ctN dryDepth gamma pw e))
  | land (h : ∑ d, rawWater wSfc wInt depthN modN ctN dryDepth gamma pw d = 0) (hl : ctN 4 = -2) :
      WaterResult row0 wSfc wInt depthN modN ctN dryDepth gamma pw (.ok (fun _ => 0))
  | wet (h : ∑ d, rawWater wSfc wInt depthN modN ctN dryDepth gamma pw d = 0) (hl : ctN 4 ≠ -2)
      (p : Fin 9 → Bool)
      (hp : ∀ d, p d = true ↔ (dryDepth ≤ depthN d ∧ ctN d ≠ -2 ∧ d ≠ 4 ∧
        ¬ (row0 = true ∧ d.val < 3)))
      (hn : 0 < (Finset.univ.filter (fun d => p d = true)).card) :
      WaterResult row0 wSfc wInt depthN modN ctN dryDepth gamma pw
        (.ok (fun d => if p d then 1 / (((Finset.univ.filter (fun d => p d = true)).card : ℕ) : K)
          else 0))
  | any (h : ∑ d, rawWater wSfc wInt depthN modN ctN dryDepth gamma pw d = 0) (hl : ctN 4 ≠ -2)
      (hnone : ∀ d, ¬ (dryDepth ≤ depthN d ∧ ctN d ≠ -2 ∧ d ≠ 4 ∧ ¬ (row0 = true ∧ d.val < 3)))
      (p : Fin 9 → Bool) (hp : ∀ d, p d = true ↔ ctN d ≠ -2)
      (hn : 0 < (Finset.univ.filter (fun d => p d = true)).card) :
      WaterResult row0 wSfc wInt depthN modN ctN dryDepth gamma pw
        (.ok (fun d => if p d then 1 / (((Finset.univ.filter (fun d => p d = true)).card : ℕ) : K)
          else 0))
  | neg (h : ∑ d, rawWater wSfc wInt depthN modN ctN dryDepth gamma pw d < 0) :
      WaterResult row0 wSfc wInt depthN modN ctN dryDepth gamma pw (.error .waterNegativeSum)

lemma water_result (row0 : Bool) (wSfc wInt depthN modN : Fin 9 → K) (ctN : Fin 9 → ℤ)
    (dryDepth gamma : K) (pw : K → K) :
    WaterResult row0 wSfc wInt depthN modN ctN dryDepth gamma pw
      (waterWeightAtCell row0 wSfc wInt depthN modN ctN dryDepth gamma pw) := by
  have hraw : (fun d => if (decide (d = 4)) = true then (0 : K) else
      pw (depthN d * modN d) * (gamma * rebalance (fun d => if (decide (d = 4)) = true then (0 : K)
        else if (decide (depthN d < dryDepth) || decide (ctN d = -2)) = true then 0 else wSfc d) d +
      (1 - gamma) * rebalance (fun d => if (decide (d = 4)) = true then (0 : K)
        else if (decide (depthN d < dryDepth) || decide (ctN d = -2)) = true then 0 else wInt d) d))
      = rawWater wSfc wInt depthN modN ctN dryDepth gamma pw := by
    unfold rawWater
    simp only [decide_eq_true_eq, Bool.or_eq_true]
  unfold waterWeightAtCell
  simp only []
  rw [hraw]
  by_cases h1 : 0 < ∑ d, rawWater wSfc wInt depthN modN ctN dryDepth gamma pw d
  · rw [if_pos h1]
    convert WaterResult.main (row0 := row0) h1 using 4
    exact congrFun hraw _
  rw [if_neg h1]
  by_cases h2 : ∑ d, rawWater wSfc wInt depthN modN ctN dryDepth gamma pw d = 0
  · rw [if_pos h2]
    by_cases hl : ctN 4 = -2
    · rw [if_pos (by simpa using hl)]; exact .land h2 hl
    rw [if_neg (by simpa using hl)]
    split
    · rename_i hn
      rw [uniform_sum _ hn]
      simp only [div_one]
      refine .wet h2 hl _ ?_ hn
      intro d
      cases row0 <;> simp [and_assoc]
    · rename_i hn
      have hn4 : 0 < (Finset.univ.filter (fun d => (!decide (ctN d = -2)) = true)).card :=
        Finset.card_pos.mpr ⟨4, by simpa using hl⟩
      rw [if_pos hn4, uniform_sum (fun d => !decide (ctN d = -2)) hn4]
      simp only [div_one]
      refine .any h2 hl ?_ (fun d => !decide (ctN d = -2)) ?_ hn4
      · intro d hd
        apply hn
        apply Finset.card_pos.mpr
        refine ⟨d, ?_⟩
        simp only [Finset.mem_filter, Finset.mem_univ, true_and]
        cases row0 <;> simp [and_assoc] <;> simpa using hd
      · intro d; simp
  · rw [if_neg h2]
    exact .neg (lt_of_le_of_ne (not_lt.mp h1) h2)

/-- The sediment weight before the fallback. -/
def rawSed (wInt depthN modN : Fin 9 → K) (ctN : Fin 9 → ℤ) (dryDepth : K)
    (pw : K → K) : Fin 9 → K := fun d =>
  if depthN d ≤ dryDepth ∨ ctN d = -2 ∨ d = 4 then 0 else pw (depthN d * modN d) * wInt d

/-- The fallback sediment weight. -/
def fallSed (ctN : Fin 9 → ℤ) (dist : Fin 9 → K) : Fin 9 → K := fun d =>
  if ctN d = -2 ∨ d = 4 then 0 else 1 / dist d

/-- The possible results of the sediment weights. -/
inductive SedResult (wInt depthN modN : Fin 9 → K) (ctN : Fin 9 → ℤ)
    (dryDepth : K) (pw : K → K) (dist : Fin 9 → K) : Except Err (Fin 9 → K) → Prop
  | main (h : ∑ d, rawSed wInt depthN modN ctN dryDepth pw d ≠ 0) :
      SedResult wInt depthN modN ctN dryDepth pw dist
        (.ok (fun d => rawSed wInt depthN modN ctN dryDepth pw d /
          ∑ e, rawSed wInt depthN modN ctN dryDepth pw e))
  | fall (h : ∑ d, rawSed wInt depthN modN ctN dryDepth pw d = 0)
      (h2 : ∑ d, fallSed ctN dist d ≠ 0) :
      SedResult wInt depthN modN ctN dryDepth pw dist
        (.ok (fun d => fallSed ctN dist d / ∑ e, fallSed ctN dist e))
  | err (h : ∑ d, rawSed wInt depthN modN ctN dryDepth pw d = 0)
      (h2 : ∑ d, fallSed ctN dist d = 0) :
      SedResult wInt depthN modN ctN dryDepth pw dist (.error .sedNoWeights)

lemma sed_result (wInt depthN modN : Fin 9 → K) (ctN : Fin 9 → ℤ)
    (dryDepth : K) (pw : K → K) (dist : Fin 9 → K) :
    SedResult wInt depthN modN ctN dryDepth pw dist
      (sedWeightAtCell wInt depthN modN ctN dryDepth pw dist) := by
  have hraw : (fun d => if (decide (depthN d ≤ dryDepth) || decide (ctN d = -2)) = true then (0 : K)
      else if (decide (d = 4)) = true then 0 else
        pw (depthN d * modN d) * (if (decide (d = 4)) = true then 0 else wInt d))
      = rawSed wInt depthN modN ctN dryDepth pw := by
    unfold rawSed
    funext d
    by_cases h1 : depthN d ≤ dryDepth <;> by_cases h2 : ctN d = -2 <;> by_cases h3 : d = 4 <;>
      simp [h1, h2, h3]
  have hfall : (fun d => if (decide (d = 4)) = true then (0 : K) else
      (fun d => if (decide (ctN d = -2)) = true then (0 : K) else 1 / dist d) d)
      = fallSed ctN dist := by
    unfold fallSed
    funext d
    by_cases h2 : ctN d = -2 <;> by_cases h3 : d = 4 <;> simp [h2, h3]
  have hraw4 : (fun d => if (decide (d = 4)) = true then (0 : K) else
      rawSed wInt depthN modN ctN dryDepth pw d) = rawSed wInt depthN modN ctN dryDepth pw := by
    funext d
    by_cases h3 : d = 4
    · simp [h3, rawSed]
    · simp [h3]
  unfold sedWeightAtCell
  simp only []
  rw [hraw]
  by_cases h1 : ∑ d, rawSed wInt depthN modN ctN dryDepth pw d = 0
  · simp only [if_pos h1]
    rw [hfall]
    split
    · rename_i h2; exact .err h1 h2
    · rename_i h2
      convert SedResult.fall h1 h2 using 4
      exact congrFun hfall _
  · simp only [if_neg h1]
    rw [hraw4, if_neg h1]
    convert SedResult.main (dist := dist) h1 using 4
    exact congrFun hraw4 _

lemma rawSed_nonneg {wInt depthN modN : Fin 9 → K} {ctN : Fin 9 → ℤ} {dryDepth : K} {pw : K → K}
    (hi : ∀ d, 0 ≤ wInt d) (hp : ∀ d, 0 ≤ pw (depthN d * modN d)) (d : Fin 9) :
    0 ≤ rawSed wInt depthN modN ctN dryDepth pw d := by
  unfold rawSed; split
  · exact le_refl _
  · exact mul_nonneg (hp d) (hi d)

lemma fallSed_nonneg {ctN : Fin 9 → ℤ} {dist : Fin 9 → K} (hd : ∀ d, 0 < dist d) (d : Fin 9) :
    0 ≤ fallSed ctN dist d := by
  unfold fallSed; split
  · exact le_refl _
  · exact (one_div_pos.mpr (hd d)).le

lemma fallSed_pos_iff {ctN : Fin 9 → ℤ} {dist : Fin 9 → K} (hd : ∀ d, 0 < dist d) (d : Fin 9) :
    0 < fallSed ctN dist d ↔ ctN d ≠ -2 ∧ d ≠ 4 := by
  unfold fallSed; split
  · rename_i h; simp; tauto
  · rename_i h
    push Not at h
    simp [h.1, h.2, hd d]

lemma fallSed_sum_zero {ctN : Fin 9 → ℤ} {dist : Fin 9 → K} (hd : ∀ d, 0 < dist d) :
    ∑ d, fallSed ctN dist d = 0 ↔ ∀ d, d ≠ 4 → ctN d = -2 := by
  rw [Finset.sum_eq_zero_iff_of_nonneg (fun d _ => fallSed_nonneg hd d)]
  constructor
  · intro h d h4
    by_contra hc
    have := (fallSed_pos_iff (ctN := ctN) hd d).mpr ⟨hc, h4⟩
    rw [h d (Finset.mem_univ _)] at this
    exact lt_irrefl _ this
  · intro h d _
    by_contra hc
    have := (fallSed_pos_iff (ctN := ctN) hd d).mp (lt_of_le_of_ne (fallSed_nonneg hd d) (Ne.symm hc))
    exact this.1 (h d this.2)

lemma distances_pos {s2 : K} (h : 0 < s2) (d : Fin 9) : 0 < distances s2 d := by
  fin_cases d <;> simp [distances, h]

lemma weightSfc_nonneg (stage : K) (stageN : Fin 9 → K) (s2 : K) (d : Fin 9) :
    0 ≤ weightSfc stage stageN s2 d := le_max_left _ _

lemma weightInt_nonneg (qx qy s05 s2 : K) (d : Fin 9) : 0 ≤ weightInt qx qy s05 s2 d :=
  le_max_left _ _

end Verif.Lemmas
