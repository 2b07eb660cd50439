import Verif.Spec.Weights
import Verif.Props.Weights
import Verif.Model.WaterIteration

/-!
# C78: where parcels go

The weights against the rules in `Verif.Spec.Weights`.
-/

set_option linter.unusedSectionVars false

namespace Verif.Props

open Verif.Model Verif.Lemmas Verif.Spec

variable {K : Type*} [Field K] [LinearOrder K] [IsStrictOrderedRing K]

lemma nbrs_seen {L W : ℕ} [NeZero L] [NeZero W] {α : Type*} [Zero α] (arr : Grid L W α)
    (c : Cell L W) (d : Fin 9) : nbrs arr c d = arr (seen c d) := by
  obtain ⟨n, h1, h2, h3⟩ := C03_neighbourhood arr c d
  rw [h3]
  congr 1
  unfold seen closest stepRow stepCol
  apply Prod.ext
  · apply Fin.ext
    simp only [nearest] at h1
    simp only
    omega
  · apply Fin.ext
    simp only [nearest] at h2
    simp only
    omega

lemma distances_len (s2 : K) (d : Fin 9) (hd : d ≠ 4) : distances s2 d = stepLen s2 d := by
  fin_cases d <;> first | exact absurd rfl hd | simp [distances, stepLen, stepRow, stepCol]

lemma jvec_row {s2 s05 : K} (h : s05 * s2 = 1) (d : Fin 9) :
    jvec s05 d = stepRow d / stepLen s2 d := by
  have h2 : s2 ≠ 0 := by rintro rfl; simp at h
  have h3 : s05 = 1 / s2 := by field_simp; exact h
  fin_cases d <;> simp [jvec, stepLen, stepRow, stepCol, h3, neg_div]

lemma ivec_col {s2 s05 : K} (h : s05 * s2 = 1) (d : Fin 9) :
    ivec s05 d = stepCol d / stepLen s2 d := by
  have h2 : s2 ≠ 0 := by rintro rfl; simp at h
  have h3 : s05 = 1 / s2 := by field_simp; exact h
  fin_cases d <;> simp [ivec, stepLen, stepRow, stepCol, h3, neg_div]

/-- Rebalancing a weight that vanishes outside a set gives the shares in the set. -/
lemma rebalance_share {A : Finset (Fin 9)} {f : Fin 9 → K} (hf : ∀ d, 0 ≤ f d)
    {w : Fin 9 → K} (hw : ∀ d, w d = if d ∈ A then f d else 0) (d : Fin 9) :
    rebalance w d = share A f d := by
  have hs : ∑ d, w d = ∑ e ∈ A, f e := by
    simp only [hw]
    rw [Finset.sum_ite_mem, Finset.univ_inter]
  unfold rebalance share
  by_cases h : 0 < ∑ d, w d
  · rw [if_pos h, hs, hw d]
    split_ifs <;> simp
  · rw [if_neg h, hw d]
    split_ifs with hd
    · rw [hs] at h
      have h0 : ∑ e ∈ A, f e = 0 :=
        le_antisymm (not_lt.mp h) (Finset.sum_nonneg (fun e _ => hf e))
      rw [h0, div_zero]
      exact (Finset.sum_eq_zero_iff_of_nonneg (fun e _ => hf e)).mp h0 d hd
    · rfl

section water

variable {L W : ℕ} [NeZero L] [NeZero W] (depth stage modW : Grid L W K)
  (cellType : Grid L W ℤ) (qx qy : Grid L W K) (s2 s05 dryDepth gamma : K) (pw : K → K)

lemma mem_openWater (c : Cell L W) (d : Fin 9) : d ∈ openWater depth cellType dryDepth c ↔
    d ≠ 4 ∧ dryDepth ≤ depth (seen c d) ∧ cellType (seen c d) ≠ -2 := by
  simp [openWater]

lemma rawWater_attract (hs : s05 * s2 = 1) (c : Cell L W) (d : Fin 9) :
    rawWater (weightSfc (stage c) (nbrs stage c) s2) (weightInt (qx c) (qy c) s05 s2)
      (nbrs depth c) (nbrs modW c) (nbrs cellType c) dryDepth gamma pw d =
    attractWater depth stage modW cellType qx qy s2 dryDepth gamma pw c d := by
  have hmem := mem_openWater depth cellType dryDepth c
  have e1 := rebalance_share (A := openWater depth cellType dryDepth c) (f := fall stage s2 c)
    (fun d => le_max_left _ _)
    (w := fun d => if d = 4 then 0 else if nbrs depth c d < dryDepth ∨ nbrs cellType c d = -2 then 0
      else weightSfc (stage c) (nbrs stage c) s2 d) (by
      intro d
      simp only [nbrs_seen, hmem]
      by_cases h4 : d = 4
      · simp [h4]
      · by_cases h : depth (seen c d) < dryDepth ∨ cellType (seen c d) = -2
        · rw [if_neg h4, if_pos h, if_neg]
          rintro ⟨-, a, b⟩
          rcases h with h | h
          · exact absurd a (not_le.mpr h)
          · exact b h
        · rw [if_neg h4, if_neg h, if_pos]
          · simp only [weightSfc, fall, nbrs_seen, distances_len s2 d h4]
          · push Not at h
            exact ⟨h4, h.1, h.2⟩)
  have e2 := rebalance_share (A := openWater depth cellType dryDepth c) (f := pull qx qy s2 c)
    (fun d => le_max_left _ _)
    (w := fun d => if d = 4 then 0 else if nbrs depth c d < dryDepth ∨ nbrs cellType c d = -2 then 0
      else weightInt (qx c) (qy c) s05 s2 d) (by
      intro d
      simp only [nbrs_seen, hmem]
      by_cases h4 : d = 4
      · simp [h4]
      · by_cases h : depth (seen c d) < dryDepth ∨ cellType (seen c d) = -2
        · rw [if_neg h4, if_pos h, if_neg]
          rintro ⟨-, a, b⟩
          rcases h with h | h
          · exact absurd a (not_le.mpr h)
          · exact b h
        · rw [if_neg h4, if_neg h, if_pos]
          · simp only [weightInt, pull, distances_len s2 d h4, jvec_row hs, ivec_col hs]
          · push Not at h
            exact ⟨h4, h.1, h.2⟩)
  unfold rawWater attractWater
  rw [e1 d, e2 d, nbrs_seen, nbrs_seen]
  by_cases h4 : d = 4
  · rw [if_pos h4]
    have : d ∉ openWater depth cellType dryDepth c := by rw [hmem]; simp [h4]
    simp [share, this]
  · rw [if_neg h4]

/-- C78 for water: a parcel goes to the wet neighbours that are not land in proportion to depth to a
power times the mean of the shares of surface slope and flow. If nothing attracts it, it goes evenly
to those of them that are not upstream of the first row; if there are none, evenly to all cells
around that are not land, or it stays. For all fields. -/
theorem C78_water (hs : s05 * s2 = 1) (c : Cell L W) (hc : cellType c ≠ -2) (w : Fin 9 → K)
    (h : waterWeights depth stage modW cellType qx qy s2 s05 dryDepth gamma pw c = .ok w) :
    (∑ d, attractWater depth stage modW cellType qx qy s2 dryDepth gamma pw c d ≠ 0 →
      Proportional w (attractWater depth stage modW cellType qx qy s2 dryDepth gamma pw c)) ∧
    (∑ d, attractWater depth stage modW cellType qx qy s2 dryDepth gamma pw c d = 0 →
      let A := (openWater depth cellType dryDepth c).filter
        fun d => ¬ (c.1.val = 0 ∧ stepRow d = -1)
      (A.Nonempty → Evenly w A) ∧
      (A = ∅ → Evenly w (Finset.univ.filter fun d => cellType (seen c d) ≠ -2))) := by
  have hres := water_result (decide (c.1.val = 0)) (weightSfc (stage c) (nbrs stage c) s2)
    (weightInt (qx c) (qy c) s05 s2) (nbrs depth c) (nbrs modW c) (nbrs cellType c)
    dryDepth gamma pw
  have hraw := rawWater_attract depth stage modW cellType qx qy s2 s05 dryDepth gamma pw hs c
  have h4 : nbrs cellType c 4 ≠ -2 := by rw [C03_centre]; exact hc
  have hup : ∀ d : Fin 9, d.val < 3 ↔ stepRow d = -1 := by
    intro d; unfold stepRow; omega
  unfold waterWeights at h
  rw [h] at hres
  generalize hw : (Except.ok w : Except Err (Fin 9 → K)) = r at hres
  cases hres with
  | main hm =>
    simp only [hraw] at hm hw
    cases hw
    exact ⟨fun _ d => rfl, fun h0 => absurd h0 hm.ne'⟩
  | land h0 hl => exact absurd hl h4
  | wet h0 hl p hp hn =>
    simp only [hraw] at h0
    cases hw
    refine ⟨fun hne => absurd h0 hne, fun _ => ?_⟩
    have hA : Finset.univ.filter (fun d => p d = true) = (openWater depth cellType dryDepth c).filter
        (fun d => ¬ (c.1.val = 0 ∧ stepRow d = -1)) := by
      ext d
      simp only [Finset.mem_filter, Finset.mem_univ, true_and, mem_openWater, hp, nbrs_seen,
        decide_eq_true_eq, hup]
      tauto
    have hpm : ∀ d, p d = true ↔ d ∈ (openWater depth cellType dryDepth c).filter
        (fun d => ¬ (c.1.val = 0 ∧ stepRow d = -1)) := by
      intro d; rw [← hA]; simp
    rw [hA] at hn
    refine ⟨fun _ d => ?_, fun hemp => ?_⟩
    · simp only [hA]
      by_cases hd : p d = true
      · rw [if_pos hd, if_pos ((hpm d).mp hd)]
      · rw [if_neg hd, if_neg (fun h' => hd ((hpm d).mpr h'))]
    · rw [hemp] at hn; simp at hn
  | any h0 hl hnone p hp hn =>
    simp only [hraw] at h0
    cases hw
    refine ⟨fun hne => absurd h0 hne, fun _ => ⟨?_, fun _ d => ?_⟩⟩
    · rintro ⟨d, hd⟩
      exfalso
      simp only [Finset.mem_filter, mem_openWater] at hd
      refine hnone d ⟨?_, ?_, hd.1.1, ?_⟩
      · rw [nbrs_seen]; exact hd.1.2.1
      · rw [nbrs_seen]; exact hd.1.2.2
      · simpa [hup] using hd.2
    · have hA : Finset.univ.filter (fun d => p d = true) =
          Finset.univ.filter fun d => cellType (seen c d) ≠ -2 := by
        ext d
        simp only [Finset.mem_filter, Finset.mem_univ, true_and, hp, nbrs_seen]
      simp only [hA]
      by_cases hd : p d = true
      · have : cellType (seen c d) ≠ -2 := by rw [← nbrs_seen cellType]; exact (hp d).mp hd
        rw [if_pos hd, if_pos (by simpa using this)]
      · rw [if_neg hd, if_neg]
        intro h'
        apply hd
        rw [hp, nbrs_seen]
        simpa using h'
  | neg h0 => cases hw

lemma firstErr_all {α : Type*} {f : Cell L W → Except Err α} {l : List (Cell L W)}
    (h : firstErr f l = none) : ∀ c ∈ l, ∃ a, f c = .ok a := by
  induction l with
  | nil => simp
  | cons x xs ih =>
    unfold firstErr at h
    cases hx : f x with
    | error e => rw [hx] at h; simp at h
    | ok a =>
      rw [hx] at h
      intro c hc
      rcases List.mem_cons.1 hc with rfl | hc
      · exact ⟨a, hx⟩
      · exact ih h c hc

lemma waterWeightArray_ok {m : ℕ} {P : Params L W m K} {S : State L W K}
    {w : Grid L W (Fin 9 → K)} (h : waterWeightArray P S = .ok w) (c : Cell L W) :
    waterWeights S.depth S.stage P.modWater P.cellType S.qx S.qy P.s2 P.s05 P.dryDepth P.gamma
      P.pwWater c = .ok (w c) := by
  have hc : c ∈ allCells L W := by
    unfold allCells
    simp only [List.mem_flatMap, List.mem_finRange, List.mem_map, true_and]
    exact ⟨c.1, c.2, rfl⟩
  unfold waterWeightArray at h
  simp only at h
  split at h
  · cases h
  · rename_i hn
    cases h
    obtain ⟨a, ha⟩ := firstErr_all hn c hc
    simp only [ha]

/-- C78: the weights of a model in a given state follow the rule with its own coefficients and
fields. -/
theorem C78_water_model {m : ℕ} {P : Params L W m K} {S : State L W K} (hs : P.s05 * P.s2 = 1)
    {w : Grid L W (Fin 9 → K)} (h : waterWeightArray P S = .ok w) (c : Cell L W)
    (hc : P.cellType c ≠ -2) :
    let a := attractWater S.depth S.stage P.modWater P.cellType S.qx S.qy P.s2 P.dryDepth P.gamma
      P.pwWater c
    let A := (openWater S.depth P.cellType P.dryDepth c).filter
      fun d => ¬ (c.1.val = 0 ∧ stepRow d = -1)
    (∑ d, a d ≠ 0 → Proportional (w c) a) ∧
    (∑ d, a d = 0 → A.Nonempty → Evenly (w c) A) ∧
    (∑ d, a d = 0 → A = ∅ → Evenly (w c) (Finset.univ.filter fun d => P.cellType (seen c d) ≠ -2)) := by
  have hw := waterWeightArray_ok h c
  obtain ⟨h1, h2⟩ := C78_water _ _ _ _ _ _ _ _ _ _ _ hs c hc (w c) hw
  exact ⟨h1, fun h0 => (h2 h0).1, fun h0 => (h2 h0).2⟩

/-- C78: only differences of the stage matter. -/
theorem C78_datum (z : K) (c : Cell L W) :
    waterWeights depth (fun x => stage x + z) modW cellType qx qy s2 s05 dryDepth gamma pw c =
      waterWeights depth stage modW cellType qx qy s2 s05 dryDepth gamma pw c := by
  have : weightSfc (stage c + z) (nbrs (fun x => stage x + z) c) s2 =
      weightSfc (stage c) (nbrs stage c) s2 := by
    funext d
    simp only [weightSfc, nbrs_seen, add_sub_add_right_eq_sub]
  unfold waterWeights
  rw [this]

end water

section sediment

variable {L W : ℕ} [NeZero L] [NeZero W] (view : Fin 9 → K) (modS : Grid L W K)
  (cellType : Grid L W ℤ) (qx qy : Grid L W K) (s2 s05 dryDepth : K) (pw : K → K)

/-- C78 for sediment: with `view d` the depth that the router holds for direction `d`, a parcel goes to
the wet neighbours that are not land in proportion to depth to a power times the flow towards them. If
nothing attracts it, it goes to all neighbours that are not land, in inverse proportion to their
distance. For all fields. -/
theorem C78_sediment (hs : s05 * s2 = 1) (padDepth : Grid (L + 2) (W + 2) K) (c : Cell L W)
    (w : Fin 9 → K)
    (h : sedWeights padDepth (customPad modS) (customPad cellType) qx qy s2 s05 dryDepth pw c =
      .ok w) :
    let a := attractSed (padSlice padDepth c) modS cellType qx qy s2 dryDepth pw c
    (∑ d, a d ≠ 0 → Proportional w a) ∧
    (∑ d, a d = 0 → Proportional w (fun d =>
      if d ≠ 4 ∧ cellType (seen c d) ≠ -2 then 1 / stepLen s2 d else 0)) := by
  intro a
  have hres := sed_result (weightInt (qx c) (qy c) s05 s2) (padSlice padDepth c)
    (padSlice (customPad modS) c) (padSlice (customPad cellType) c) dryDepth pw (distances s2)
  have hm : ∀ d, padSlice (customPad modS) c d = modS (seen c d) := nbrs_seen modS c
  have ht : ∀ d, padSlice (customPad cellType) c d = cellType (seen c d) := nbrs_seen cellType c
  have hraw : ∀ d, rawSed (weightInt (qx c) (qy c) s05 s2) (padSlice padDepth c)
      (padSlice (customPad modS) c) (padSlice (customPad cellType) c) dryDepth pw d = a d := by
    intro d
    unfold rawSed
    simp only [a, attractSed, hm, ht]
    by_cases h4 : d = 4
    · rw [if_pos (Or.inr (Or.inr h4)), if_neg (fun h' => h'.1 h4)]
    · by_cases h1 : padSlice padDepth c d ≤ dryDepth
      · rw [if_pos (Or.inl h1), if_neg (fun h' => absurd h'.2.1 (not_lt.mpr h1))]
      · by_cases h2 : cellType (seen c d) = -2
        · rw [if_pos (Or.inr (Or.inl h2)), if_neg (fun h' => h'.2.2 h2)]
        · rw [if_neg (by tauto), if_pos ⟨h4, not_le.mp h1, h2⟩]
          simp only [weightInt, pull, distances_len s2 d h4, jvec_row hs, ivec_col hs]
  have hfall : ∀ d, fallSed (padSlice (customPad cellType) c) (distances s2) d =
      if d ≠ 4 ∧ cellType (seen c d) ≠ -2 then 1 / stepLen s2 d else 0 := by
    intro d
    unfold fallSed
    simp only [ht]
    by_cases h4 : d = 4
    · rw [if_pos (Or.inr h4), if_neg (fun h' => h'.1 h4)]
    · by_cases h2 : cellType (seen c d) = -2
      · rw [if_pos (Or.inl h2), if_neg (fun h' => h'.2 h2)]
      · rw [if_neg (by tauto), if_pos ⟨h4, h2⟩, distances_len s2 d h4]
  unfold sedWeights at h
  rw [h] at hres
  generalize hw : (Except.ok w : Except Err (Fin 9 → K)) = r at hres
  cases hres with
  | main hm =>
    simp only [hraw] at hm hw
    cases hw
    exact ⟨fun _ d => rfl, fun h0 => absurd h0 hm⟩
  | fall h0 h2 =>
    simp only [hraw] at h0
    simp only [hfall] at hw
    cases hw
    exact ⟨fun hne => absurd h0 hne, fun _ d => rfl⟩
  | err h0 h2 => cases hw

end sediment

/-! ## Non-trivial cases -/

/-- A surface falling away from the inlet. -/
def ruleStage : Grid 4 3 ℚ := fun c => 3 - c.1.val

/-- Land left and right of the inlet, edge cells in the last row. -/
def ruleType : Grid 4 3 ℤ := fun c =>
  if c.1.val = 3 then -1 else if c.1.val = 0 ∧ c.2.val ≠ 1 then -2 else 0

-- the first case of C78: the flow and the slope lead straight down
example : (5 / 7 : ℚ) * (7 / 5) = 1 ∧ ruleType (0, 1) ≠ -2 ∧
    (waterWeights (fun _ => 1) ruleStage (fun _ => 1) ruleType (fun _ => 1) (fun _ => 0) (7 / 5) (5 / 7)
      (1 / 10) (1 / 2) id (0, 1)).map List.ofFn =
        .ok [0, 0, 0, 0, 0, 0, 460 / 1683, 763 / 1683, 460 / 1683] ∧
    ∑ d, attractWater (fun _ => (1 : ℚ)) ruleStage (fun _ => 1) ruleType (fun _ => 1) (fun _ => 0)
      (7 / 5) (1 / 10) (1 / 2) id (0, 1) d = 1 := by
  decide +kernel

-- the second case: no slope and no flow
example : (waterWeights (fun _ => 1) (fun _ => 0) (fun _ => 1) ruleType (fun _ => 0) (fun _ => 0) (7 / 5)
      (5 / 7) (1 / 10) (1 / 2) id (0, 1)).map List.ofFn =
        .ok [0, 0, 0, 0, 0, 0, 1 / 3, 1 / 3, (1 / 3 : ℚ)] ∧
    ∑ d, attractWater (fun _ => (1 : ℚ)) (fun _ => 0) (fun _ => 1) ruleType (fun _ => 0) (fun _ => 0)
      (7 / 5) (1 / 10) (1 / 2) id (0, 1) d = 0 ∧
    ((openWater (fun _ => (1 : ℚ)) ruleType (1 / 10) (0, 1)).filter
      fun d => ¬ (((0, 1) : Cell 4 3).1.val = 0 ∧ stepRow d = -1)) = {6, 7, 8} := by
  decide +kernel

-- the third case: everything is dry
example : (waterWeights (fun _ => 0) ruleStage (fun _ => 1) ruleType (fun _ => 0) (fun _ => 0) (7 / 5)
      (5 / 7) (1 / 10) (1 / 2) id (0, 1)).map List.ofFn =
        .ok [0, 1 / 5, 0, 0, 1 / 5, 0, 1 / 5, 1 / 5, (1 / 5 : ℚ)] ∧
    openWater (fun _ => (0 : ℚ)) ruleType (1 / 10) (0, 1) = ∅ := by
  decide +kernel

-- sediment: depths 1 in front, 1/2 on the right
example : (sedWeights (customPad fun c : Cell 4 3 => if c.2.val = 2 then 1 / 2 else 1)
      (customPad fun _ : Cell 4 3 => 1) (customPad ruleType) (fun _ => 1) (fun _ => 0) (7 / 5) (5 / 7)
      (1 / 10) id (0, 1)).map List.ofFn =
        .ok [0, 0, 0, 0, 0, 0, 50 / 173, 98 / 173, (25 / 173 : ℚ)] := by
  decide +kernel

-- sediment where all is dry: by distance
example : (sedWeights (customPad fun _ : Cell 4 3 => 0)
      (customPad fun _ : Cell 4 3 => 1) (customPad ruleType) (fun _ => 1) (fun _ => 0) (7 / 5) (5 / 7)
      (1 / 10) id (1, 1)).map List.ofFn =
        .ok [0, 7 / 38, 0, 7 / 38, 0, 7 / 38, 5 / 38, 7 / 38, (5 / 38 : ℚ)] := by
  decide +kernel

end Verif.Props
