import Verif.Lemmas.Weights
import Verif.Props.Pad

/-!
# C06, C07, C08, C09: routing weights

Specification vocabulary: directions `d : Fin 9` have row offset `d / 3 - 1` and column offset
`d % 3 - 1`; direction 4 means "stay". The values seen around a cell are described by C03.
-/

set_option linter.unusedSectionVars false

namespace Verif.Props

open Verif.Model Verif.Lemmas

variable {K : Type*} [Field K] [LinearOrder K] [IsStrictOrderedRing K]

/-- Specification: `w` is a probability distribution on the nine directions. -/
def IsDistribution (w : Fin 9 → K) : Prop := (∀ d, 0 ≤ w d) ∧ ∑ d, w d = 1

/-- Specification: row offset of a direction. -/
def rowOff (d : Fin 9) : ℤ := (d.val / 3 : ℕ) - 1

/-- Specification: column offset of a direction. -/
def colOff (d : Fin 9) : ℤ := (d.val % 3 : ℕ) - 1

section water

variable {L W : ℕ} [NeZero L] [NeZero W] (depth stage modW : Grid L W K)
  (cellType : Grid L W ℤ) (qx qy : Grid L W K) (s2 s05 dryDepth gamma : K) (pw : K → K)

lemma nbrs_forall {α : Type*} [Zero α] {arr : Grid L W α} {P : α → Prop} (h : ∀ c, P (arr c))
    (c : Cell L W) (d : Fin 9) : P (nbrs arr c d) := by
  obtain ⟨m, -, -, hv⟩ := C03_neighbourhood arr c d
  rw [hv]; exact h m

/-- C06: at every non-land cell the water weights are computed without error and form a
probability distribution. -/
theorem C06_water_distribution (hd : ∀ c, 0 ≤ depth c) (hm : ∀ c, 0 ≤ modW c)
    (hpw : ∀ x, 0 ≤ x → 0 ≤ pw x) (hg0 : 0 ≤ gamma) (hg1 : gamma ≤ 1)
    (c : Cell L W) (hc : cellType c ≠ -2) :
    ∃ w, waterWeights depth stage modW cellType qx qy s2 s05 dryDepth gamma pw c = .ok w ∧
      IsDistribution w := by
  have hp : ∀ d, 0 ≤ pw (nbrs depth c d * nbrs modW c d) := fun d =>
    hpw _ (mul_nonneg (nbrs_forall hd c d) (nbrs_forall hm c d))
  have hnn := rawWater_nonneg (ctN := nbrs cellType c) (dryDepth := dryDepth)
    (weightSfc_nonneg (stage c) (nbrs stage c) s2)
    (weightInt_nonneg (qx c) (qy c) s05 s2) hp hg0 hg1
  have h4 : nbrs cellType c 4 ≠ -2 := by rw [C03_centre]; exact hc
  have hres := water_result (decide (c.1.val = 0)) (weightSfc (stage c) (nbrs stage c) s2)
    (weightInt (qx c) (qy c) s05 s2) (nbrs depth c) (nbrs modW c) (nbrs cellType c)
    dryDepth gamma pw
  unfold waterWeights
  generalize waterWeightAtCell (decide (c.1.val = 0)) (weightSfc (stage c) (nbrs stage c) s2)
    (weightInt (qx c) (qy c) s05 s2) (nbrs depth c) (nbrs modW c) (nbrs cellType c)
    dryDepth gamma pw = r at hres
  cases hres with
  | main h =>
    exact ⟨_, rfl, fun d => div_nonneg (hnn d) h.le, normalised_sum h.ne'⟩
  | land h hl => exact absurd hl h4
  | wet h hl p hp hn =>
    refine ⟨_, rfl, fun d => ?_, uniform_sum p hn⟩
    simp only
    split
    · positivity
    · exact le_refl _
  | any h hl hnone p hp hn =>
    refine ⟨_, rfl, fun d => ?_, uniform_sum p hn⟩
    simp only
    split
    · positivity
    · exact le_refl _
  | neg h =>
    exact absurd (Finset.sum_nonneg (fun d _ => hnn d)) (not_le.mpr h)

/-- C06 at land cells: no error either; the weights are a distribution or all zero. -/
theorem C06_land (hd : ∀ c, 0 ≤ depth c) (hm : ∀ c, 0 ≤ modW c)
    (hpw : ∀ x, 0 ≤ x → 0 ≤ pw x) (hg0 : 0 ≤ gamma) (hg1 : gamma ≤ 1)
    (c : Cell L W) (hc : cellType c = -2) :
    ∃ w, waterWeights depth stage modW cellType qx qy s2 s05 dryDepth gamma pw c = .ok w ∧
      (IsDistribution w ∨ ∀ d, w d = 0) := by
  have hp : ∀ d, 0 ≤ pw (nbrs depth c d * nbrs modW c d) := fun d =>
    hpw _ (mul_nonneg (nbrs_forall hd c d) (nbrs_forall hm c d))
  have hnn := rawWater_nonneg (ctN := nbrs cellType c) (dryDepth := dryDepth)
    (weightSfc_nonneg (stage c) (nbrs stage c) s2)
    (weightInt_nonneg (qx c) (qy c) s05 s2) hp hg0 hg1
  have h4 : nbrs cellType c 4 = -2 := by rw [C03_centre]; exact hc
  have hres := water_result (decide (c.1.val = 0)) (weightSfc (stage c) (nbrs stage c) s2)
    (weightInt (qx c) (qy c) s05 s2) (nbrs depth c) (nbrs modW c) (nbrs cellType c)
    dryDepth gamma pw
  unfold waterWeights
  generalize waterWeightAtCell (decide (c.1.val = 0)) (weightSfc (stage c) (nbrs stage c) s2)
    (weightInt (qx c) (qy c) s05 s2) (nbrs depth c) (nbrs modW c) (nbrs cellType c)
    dryDepth gamma pw = r at hres
  cases hres with
  | main h =>
    exact ⟨_, rfl, .inl ⟨fun d => div_nonneg (hnn d) h.le, normalised_sum h.ne'⟩⟩
  | land h hl => exact ⟨_, rfl, .inr (fun _ => rfl)⟩
  | wet h hl p hp hn => exact absurd h4 hl
  | any h hl hnone p hp hn => exact absurd h4 hl
  | neg h =>
    exact absurd (Finset.sum_nonneg (fun d _ => hnn d)) (not_le.mpr h)

/-- C07: whatever the inputs, a direction whose cell is land has weight zero. -/
theorem C07_never_land (c : Cell L W) (w : Fin 9 → K)
    (h : waterWeights depth stage modW cellType qx qy s2 s05 dryDepth gamma pw c = .ok w)
    (d : Fin 9) (hl : nbrs cellType c d = -2) : w d = 0 := by
  have hres := water_result (decide (c.1.val = 0)) (weightSfc (stage c) (nbrs stage c) s2)
    (weightInt (qx c) (qy c) s05 s2) (nbrs depth c) (nbrs modW c) (nbrs cellType c)
    dryDepth gamma pw
  unfold waterWeights at h
  rw [h] at hres
  cases hres with
  | main h =>
    simp only
    rw [rawWater_zero (by tauto), zero_div]
  | land h hl => rfl
  | wet h hl' p hp hn =>
    have : ¬ p d = true := by rw [hp]; tauto
    simp [this]
  | any h hl' hnone p hp hn =>
    have : ¬ p d = true := by rw [hp]; tauto
    simp [this]

/-- C07 for the actual neighbour cell `n` of `c` in direction `d`: if `n` is land it is never
chosen. -/
theorem C07_never_land_cell (c n : Cell L W) (w : Fin 9 → K)
    (h : waterWeights depth stage modW cellType qx qy s2 s05 dryDepth gamma pw c = .ok w)
    (d : Fin 9) (h1 : (n.1.val : ℤ) = c.1.val + (d.val / 3 : ℕ) - 1)
    (h2 : (n.2.val : ℤ) = c.2.val + (d.val % 3 : ℕ) - 1) (hl : cellType n = -2) : w d = 0 :=
  C07_never_land depth stage modW cellType qx qy s2 s05 dryDepth gamma pw c w h d
    (by rw [C03_interior_exact cellType c n d h1 h2]; exact hl)

/-- C07: if some neighbour is wet, not land, and not upstream of the first row, then staying in
place and every dry neighbour have weight zero. -/
theorem C07_no_dry_while_wet (c : Cell L W) (w : Fin 9 → K)
    (h : waterWeights depth stage modW cellType qx qy s2 s05 dryDepth gamma pw c = .ok w)
    (hex : ∃ d, d ≠ 4 ∧ dryDepth ≤ nbrs depth c d ∧ nbrs cellType c d ≠ -2 ∧
      ¬ (c.1.val = 0 ∧ rowOff d = -1)) :
    w 4 = 0 ∧ ∀ d, nbrs depth c d < dryDepth → w d = 0 := by
  have hres := water_result (decide (c.1.val = 0)) (weightSfc (stage c) (nbrs stage c) s2)
    (weightInt (qx c) (qy c) s05 s2) (nbrs depth c) (nbrs modW c) (nbrs cellType c)
    dryDepth gamma pw
  unfold waterWeights at h
  rw [h] at hres
  cases hres with
  | main h =>
    refine ⟨by simp only; rw [rawWater_zero (by tauto), zero_div], fun d hd => ?_⟩
    simp only
    rw [rawWater_zero (by tauto), zero_div]
  | land h hl => exact ⟨rfl, fun _ _ => rfl⟩
  | wet h hl' p hp hn =>
    refine ⟨?_, fun d hd => ?_⟩
    · have : ¬ p 4 = true := by rw [hp]; tauto
      simp [this]
    · have : ¬ p d = true := by rw [hp]; intro hh; exact absurd hh.1 (not_le.mpr hd)
      simp [this]
  | any h hl' hnone p hp hn =>
    obtain ⟨d, h4, hdry, hct, hrow⟩ := hex
    refine absurd ⟨hdry, hct, h4, ?_⟩ (hnone d)
    rintro ⟨hr, hd3⟩
    apply hrow
    refine ⟨by simpa using hr, ?_⟩
    simp only [rowOff]; omega

end water

/-- Water surface and flow fields of a 3×3 domain whose centre is wet and higher than the cell
in front of it. -/
def wExDepth : Grid 3 3 ℚ := fun c => if c = (1, 0) then 0 else 2
/-- stage of the example -/
def wExStage : Grid 3 3 ℚ := fun c => if c = (2, 1) then 0 else 1
/-- cell types of the example: the corner (0,0) is land -/
def wExType : Grid 3 3 ℤ := fun c => if c = (0, 0) then -2 else 0

example : (waterWeights wExDepth wExStage (fun _ => 1) wExType (fun _ => 1) (fun _ => 0)
    (7/5) (7/10) (1/10) (1/2) (fun x => x) (1, 1)).map List.ofFn
    = .ok [0, 0, 0, 0, 0, 0, 1/8, 3/4, 1/8] := by decide +kernel
-- hypotheses of C06 / C07 for this example
example : (∀ c, 0 ≤ wExDepth c) ∧ wExType (1, 1) ≠ -2 ∧
    ∃ d, d ≠ (4 : Fin 9) ∧ (1/10 : ℚ) ≤ nbrs wExDepth (1, 1) d ∧ nbrs wExType (1, 1) d ≠ -2 ∧
      ¬ (((1 : Fin 3), (1 : Fin 3)).1.val = 0 ∧ rowOff d = -1) := by
  refine ⟨fun c => ?_, by decide, 7, by decide, by decide +kernel, by decide, by decide⟩
  unfold wExDepth; split <;> norm_num

/-- C07/C06 side remark, proved on a witness: when no wet way exists the fallback lets the parcel
stay in place (direction 4 has positive weight). -/
theorem C07_may_stay_witness :
    ∃ w, waterWeights (fun _ : Cell 3 3 => (0 : ℚ)) (fun _ => 0) (fun _ => 1) (fun _ => 0)
      (fun _ => 0) (fun _ => 0) (7/5) (7/10) (1/10) (1/2) (fun x => x) (1, 1) = .ok w ∧ 0 < w 4 := by
  refine ⟨fun _ => 1/9, ?_, by norm_num⟩
  have : (waterWeights (fun _ : Cell 3 3 => (0 : ℚ)) (fun _ => 0) (fun _ => 1) (fun _ => 0)
      (fun _ => 0) (fun _ => 0) (7/5) (7/10) (1/10) (1/2) (fun x => x) (1, 1)).map List.ofFn
      = (Except.ok (fun _ : Fin 9 => (1/9 : ℚ)) : Except Err _).map List.ofFn := by decide +kernel
  revert this
  generalize waterWeights (fun _ : Cell 3 3 => (0 : ℚ)) (fun _ => 0) (fun _ => 1) (fun _ => 0)
      (fun _ => 0) (fun _ => 0) (7/5) (7/10) (1/10) (1/2) (fun x => x) (1, 1) = e
  intro h
  cases e with
  | error e => simp [Except.map] at h
  | ok w =>
    simp only [Except.map, Except.ok.injEq] at h
    rw [List.ofFn_injective h]

section sediment

variable {L W : ℕ} (padDepth padModS : Grid (L + 2) (W + 2) K)
  (padCellType : Grid (L + 2) (W + 2) ℤ) (qx qy : Grid L W K) (s2 s05 dryDepth : K) (pw : K → K)

/-- Specification: the flow at `c` has a positive component towards direction `d`. -/
def FlowTowards (qx qy : Grid L W K) (c : Cell L W) (d : Fin 9) : Prop :=
  0 < qx c * (rowOff d : K) + qy c * (colOff d : K)

lemma weightInt_pos_iff {qx qy s05 s2 : K} (h05 : 0 < s05) (h2 : 0 < s2) (d : Fin 9) :
    0 < weightInt qx qy s05 s2 d ↔ 0 < qx * (rowOff d : K) + qy * (colOff d : K) := by
  unfold weightInt
  rw [lt_max_iff]
  simp only [lt_irrefl, false_or]
  rw [div_pos_iff_of_pos_right (distances_pos h2 d)]
  have key : ∀ a : K, 0 < a * s05 ↔ 0 < a := fun a => mul_pos_iff_of_pos_right h05
  fin_cases d <;> simp [jvec, ivec, rowOff, colOff]
  · rw [← neg_mul, mul_lt_mul_iff_left₀ h05]
  · rw [mul_lt_mul_iff_left₀ h05]
  · rw [mul_lt_mul_iff_left₀ h05]
  · rw [← key (qx + qy), add_mul]

/-- C08: whenever weights are returned they form a distribution; staying in place and land have
weight zero. -/
theorem C08_sediment_distribution (hs2 : 0 < s2) (hpw : ∀ x, 0 ≤ x → 0 ≤ pw x)
    (hd : ∀ c, 0 ≤ padDepth c) (hm : ∀ c, 0 ≤ padModS c) (c : Cell L W) (w : Fin 9 → K)
    (h : sedWeights padDepth padModS padCellType qx qy s2 s05 dryDepth pw c = .ok w) :
    IsDistribution w ∧ w 4 = 0 ∧ ∀ d, padSlice padCellType c d = -2 → w d = 0 := by
  have hp : ∀ d, 0 ≤ pw (padSlice padDepth c d * padSlice padModS c d) := fun d =>
    hpw _ (mul_nonneg (hd _) (hm _))
  have hnn := rawSed_nonneg (ctN := padSlice padCellType c) (dryDepth := dryDepth)
    (weightInt_nonneg (qx c) (qy c) s05 s2) hp
  have hres := sed_result (weightInt (qx c) (qy c) s05 s2) (padSlice padDepth c)
    (padSlice padModS c) (padSlice padCellType c) dryDepth pw (distances s2)
  unfold sedWeights at h
  rw [h] at hres
  cases hres with
  | main hs =>
    refine ⟨⟨fun d => div_nonneg (hnn d) (Finset.sum_nonneg (fun d _ => hnn d)),
      normalised_sum hs⟩, by simp [rawSed], fun d hl => ?_⟩
    simp [rawSed, hl]
  | fall hs h2 =>
    have hf := fallSed_nonneg (ctN := padSlice padCellType c) (distances_pos hs2)
    refine ⟨⟨fun d => div_nonneg (hf d) (Finset.sum_nonneg (fun d _ => hf d)),
      normalised_sum h2⟩, by simp [fallSed], fun d hl => ?_⟩
    simp [fallSed, hl]

/-- C08: a dry cell gets positive weight only if no wet non-land neighbour lies in the direction
of the flow. -/
theorem C08_dry_only_without_wet_way (hs2 : 0 < s2) (hs05 : 0 < s05)
    (hpw : ∀ x, 0 < x → 0 < pw x) (hpw0 : ∀ x, 0 ≤ x → 0 ≤ pw x)
    (hd : ∀ c, 0 ≤ padDepth c) (hm : ∀ c, 0 < padModS c) (hdry : 0 ≤ dryDepth)
    (c : Cell L W) (w : Fin 9 → K)
    (h : sedWeights padDepth padModS padCellType qx qy s2 s05 dryDepth pw c = .ok w)
    (d : Fin 9) (hdd : padSlice padDepth c d ≤ dryDepth) (hpos : 0 < w d) :
    ∀ e, e ≠ 4 → dryDepth < padSlice padDepth c e → padSlice padCellType c e ≠ -2 →
      ¬ FlowTowards qx qy c e := by
  intro e he4 hew het hflow
  have hp : ∀ d, 0 ≤ pw (padSlice padDepth c d * padSlice padModS c d) := fun d =>
    hpw0 _ (mul_nonneg (hd _) (hm _).le)
  have hnn := rawSed_nonneg (ctN := padSlice padCellType c) (dryDepth := dryDepth)
    (weightInt_nonneg (qx c) (qy c) s05 s2) hp
  have hepos : 0 < rawSed (weightInt (qx c) (qy c) s05 s2) (padSlice padDepth c)
      (padSlice padModS c) (padSlice padCellType c) dryDepth pw e := by
    unfold rawSed
    rw [if_neg (by push Not; exact ⟨hew, het, he4⟩)]
    refine mul_pos (hpw _ (mul_pos (lt_of_le_of_lt hdry hew) (hm _))) ?_
    exact (weightInt_pos_iff hs05 hs2 e).mpr hflow
  have hres := sed_result (weightInt (qx c) (qy c) s05 s2) (padSlice padDepth c)
    (padSlice padModS c) (padSlice padCellType c) dryDepth pw (distances s2)
  unfold sedWeights at h
  rw [h] at hres
  cases hres with
  | main hs => simp [rawSed, hdd] at hpos
  | fall hs h2 =>
    rw [Finset.sum_eq_zero_iff_of_nonneg (fun d _ => hnn d)] at hs
    rw [hs e (Finset.mem_univ _)] at hepos
    exact lt_irrefl _ hepos

/-- C08: the weights fail with the "no weights" error exactly when all eight neighbours are
land, and with no other error. -/
theorem C08_error_iff (hs2 : 0 < s2) (hpw : ∀ x, 0 ≤ x → 0 ≤ pw x) (hd : ∀ c, 0 ≤ padDepth c)
    (hm : ∀ c, 0 ≤ padModS c) (c : Cell L W) (err : Err) :
    sedWeights padDepth padModS padCellType qx qy s2 s05 dryDepth pw c = .error err ↔
      err = .sedNoWeights ∧ ∀ d, d ≠ 4 → padSlice padCellType c d = -2 := by
  have hp : ∀ d, 0 ≤ pw (padSlice padDepth c d * padSlice padModS c d) := fun d =>
    hpw _ (mul_nonneg (hd _) (hm _))
  have hnn := rawSed_nonneg (ctN := padSlice padCellType c) (dryDepth := dryDepth)
    (weightInt_nonneg (qx c) (qy c) s05 s2) hp
  have hres := sed_result (weightInt (qx c) (qy c) s05 s2) (padSlice padDepth c)
    (padSlice padModS c) (padSlice padCellType c) dryDepth pw (distances s2)
  unfold sedWeights
  generalize sedWeightAtCell (weightInt (qx c) (qy c) s05 s2) (padSlice padDepth c)
    (padSlice padModS c) (padSlice padCellType c) dryDepth pw (distances s2) = r at hres
  rw [← fallSed_sum_zero (distances_pos hs2)]
  cases hres with
  | main hs =>
    constructor
    · intro h; cases h
    · rintro ⟨-, h⟩
      exfalso
      apply hs
      apply Finset.sum_eq_zero
      intro d _
      rw [fallSed_sum_zero (distances_pos hs2)] at h
      by_cases h4 : d = 4
      · simp [rawSed, h4]
      · simp [rawSed, h d h4]
  | fall hs h2 =>
    constructor
    · intro h; cases h
    · rintro ⟨-, h⟩; exact absurd h h2
  | err hs h2 =>
    constructor
    · intro h; cases h; exact ⟨rfl, h2⟩
    · rintro ⟨rfl, -⟩; rfl

end sediment

example : (sedWeights (customPad wExDepth) (customPad (fun _ : Cell 3 3 => (1 : ℚ)))
    (customPad wExType) (fun _ => 1) (fun _ => 1) (7/5) (7/10) (1/10) (fun x => x) (1, 1)).map
    List.ofFn = .ok [0, 0, 0, 0, 0, 1/3, 0, 1/3, 1/3] := by decide +kernel
-- the fallback: no flow, all non-land cells by distance
example : (sedWeights (customPad wExDepth) (customPad (fun _ : Cell 3 3 => (1 : ℚ)))
    (customPad wExType) (fun _ => 0) (fun _ => 0) (7/5) (7/10) (1/10) (fun x => x) (1, 1)).map
    List.ofFn = .ok [0, 7/43, 5/43, 7/43, 0, 7/43, 5/43, 7/43, 5/43] := by decide +kernel

/-! ## C09: the upstream boundary -/

/-- C09 fails for water: in the first row, a lower lateral neighbour makes the outward diagonal
attractive (the padded stage repeats the row). Here the chance to leave is 5/17. -/
theorem C09_water_witness :
    (waterWeights (fun _ : Cell 3 3 => (1 : ℚ)) (fun c => if c.2 = 0 then 0 else 1) (fun _ => 1)
      (fun _ => 0) (fun _ => 0) (fun _ => 0) (7/5) (7/10) (1/10) 1 (fun x => x) (0, 1)).map
      (fun w => w 0) = .ok (5/17) := by decide +kernel

/-- C09 fails for sediment: in the first row, if every downstream cell is dry, the parcel may
leave upstream. -/
theorem C09_sediment_witness :
    (sedWeights (customPad (fun c : Cell 3 3 => if c.1 = 0 then (1 : ℚ) else 0))
      (customPad (fun _ => 1)) (customPad (fun _ => 0)) (fun _ => 1) (fun _ => 0) (7/5) (7/10) (1/10)
      (fun x => x) (0, 1)).map (fun w => w 1) = .ok (7/48) := by decide +kernel

section C09

variable {L W : ℕ} [NeZero L] [NeZero W] (depth stage modW : Grid L W K)
  (cellType : Grid L W ℤ) (qx qy : Grid L W K) (s2 s05 dryDepth gamma : K) (pw : K → K)

lemma weightInt_upstream {qx s05 s2 : K} (hq : 0 ≤ qx) (h05 : 0 < s05) (h2 : 0 < s2) {d : Fin 9}
    (hd : rowOff d = -1) : weightInt qx 0 s05 s2 d = 0 := by
  have h0 := weightInt_nonneg qx 0 s05 s2 d
  rcases h0.lt_or_eq with h | h
  · rw [weightInt_pos_iff h05 h2, hd] at h
    simp at h; exact absurd hq (not_le.mpr h)
  · exact h.symm

/-- C09 for water, under conditions: in the first row, if the discharge points downstream (as
enforced at the inlet), the cells of the first row beside are not lower, and some admissible wet
neighbour exists, then no upstream direction is ever taken. Missing for the full property: the
cases excluded by these hypotheses, in which it is false (`C09_water_witness`). -/
theorem C09_water_partial (hs2 : 0 < s2) (hs05 : 0 < s05) (c : Cell L W) (hc : c.1.val = 0)
    (hq : 0 ≤ qx c) (hqy : qy c = 0) (hstage : ∀ n : Cell L W, n.1 = c.1 → stage c ≤ stage n)
    (hex : ∃ d, d ≠ 4 ∧ dryDepth ≤ nbrs depth c d ∧ nbrs cellType c d ≠ -2 ∧ rowOff d ≠ -1)
    (w : Fin 9 → K)
    (h : waterWeights depth stage modW cellType qx qy s2 s05 dryDepth gamma pw c = .ok w)
    (d : Fin 9) (hd : rowOff d = -1) : w d = 0 := by
  have hsfc : weightSfc (stage c) (nbrs stage c) s2 d = 0 := by
    obtain ⟨m, hm1, hm2, hv⟩ := C03_neighbourhood stage c d
    have hm : m.1 = c.1 := by
      apply Fin.ext
      simp only [rowOff] at hd
      simp only [nearest] at hm1
      omega
    have := hstage m hm
    unfold weightSfc
    apply max_eq_left
    apply div_nonpos_of_nonpos_of_nonneg
    · rw [hv]; linarith
    · exact (distances_pos hs2 d).le
  have hint : weightInt (qx c) (qy c) s05 s2 d = 0 := by
    rw [hqy]; exact weightInt_upstream hq hs05 hs2 hd
  have hres := water_result (decide (c.1.val = 0)) (weightSfc (stage c) (nbrs stage c) s2)
    (weightInt (qx c) (qy c) s05 s2) (nbrs depth c) (nbrs modW c) (nbrs cellType c)
    dryDepth gamma pw
  unfold waterWeights at h
  rw [h] at hres
  cases hres with
  | main h =>
    have : rawWater (weightSfc (stage c) (nbrs stage c) s2) (weightInt (qx c) (qy c) s05 s2)
        (nbrs depth c) (nbrs modW c) (nbrs cellType c) dryDepth gamma pw d = 0 := by
      unfold rawWater
      split
      · rfl
      · rw [rebalance_zero, rebalance_zero]
        · ring
        · simp [hint]
        · simp [hsfc]
    simp only [this, zero_div]
  | land h hl => rfl
  | wet h hl' p hp hn =>
    have : ¬ p d = true := by
      rw [hp]
      intro hh
      apply hh.2.2.2
      refine ⟨by simpa using hc, ?_⟩
      simp only [rowOff] at hd; omega
    simp [this]
  | any h hl' hnone p hp hn =>
    obtain ⟨e, h4, hdry, hct, hrow⟩ := hex
    refine absurd ⟨hdry, hct, h4, ?_⟩ (hnone e)
    rintro ⟨-, he3⟩
    apply hrow
    simp only [rowOff]; omega

/-- C09 for sediment, under conditions: in the first row, if the discharge points downstream (as
enforced at the inlet) and the cell in front is wet and not land, no upstream direction is ever
taken. Missing: the fallback case, in which it is false (`C09_sediment_witness`). -/
theorem C09_sediment_partial (padDepth padModS : Grid (L + 2) (W + 2) K)
    (padCellType : Grid (L + 2) (W + 2) ℤ) (hs2 : 0 < s2) (hs05 : 0 < s05)
    (hpw : ∀ x, 0 < x → 0 < pw x) (hpw0 : ∀ x, 0 ≤ x → 0 ≤ pw x)
    (hd : ∀ c, 0 ≤ padDepth c) (hm : ∀ c, 0 < padModS c) (hdry : 0 ≤ dryDepth)
    (c : Cell L W) (hq : 0 < qx c) (hqy : qy c = 0)
    (hfront : dryDepth < padSlice padDepth c 7) (hfront' : padSlice padCellType c 7 ≠ -2)
    (w : Fin 9 → K)
    (h : sedWeights padDepth padModS padCellType qx qy s2 s05 dryDepth pw c = .ok w)
    (d : Fin 9) (hdu : rowOff d = -1) : w d = 0 := by
  have hp : ∀ d, 0 ≤ pw (padSlice padDepth c d * padSlice padModS c d) := fun d =>
    hpw0 _ (mul_nonneg (hd _) (hm _).le)
  have hnn := rawSed_nonneg (ctN := padSlice padCellType c) (dryDepth := dryDepth)
    (weightInt_nonneg (qx c) (qy c) s05 s2) hp
  have hpos : 0 < rawSed (weightInt (qx c) (qy c) s05 s2) (padSlice padDepth c)
      (padSlice padModS c) (padSlice padCellType c) dryDepth pw 7 := by
    unfold rawSed
    rw [if_neg (by push Not; exact ⟨hfront, hfront', by decide⟩)]
    refine mul_pos (hpw _ (mul_pos (lt_of_le_of_lt hdry hfront) (hm _))) ?_
    rw [weightInt_pos_iff hs05 hs2]
    simp [rowOff, colOff, hq]
  have hres := sed_result (weightInt (qx c) (qy c) s05 s2) (padSlice padDepth c)
    (padSlice padModS c) (padSlice padCellType c) dryDepth pw (distances s2)
  unfold sedWeights at h
  rw [h] at hres
  cases hres with
  | main hs =>
    have : weightInt (qx c) (qy c) s05 s2 d = 0 := by
      rw [hqy]; exact weightInt_upstream hq.le hs05 hs2 hdu
    simp [rawSed, this]
  | fall hs h2 =>
    rw [Finset.sum_eq_zero_iff_of_nonneg (fun d _ => hnn d)] at hs
    rw [hs 7 (Finset.mem_univ _)] at hpos
    exact absurd hpos (lt_irrefl _)

end C09

-- a first-row inlet cell meeting the hypotheses of the partial theorems
example : (waterWeights (fun _ : Cell 3 3 => (1 : ℚ)) (fun c => if c.1 = 0 then 1 else 0)
    (fun _ => 1) (fun _ => 0) (fun _ => 1) (fun _ => 0) (7/5) (7/10) (1/10) (1/2) (fun x => x)
    (0, 1)).map List.ofFn = .ok [0, 0, 0, 0, 0, 0, 37/136, 31/68, 37/136] := by decide +kernel

end Verif.Props
