import Verif.Lemmas.Pick

/-!
# C04, C05: weighted choice and start cells
-/

set_option linter.unusedSectionVars false

namespace Verif.Props

open Verif.Model Verif.Lemmas

variable {K : Type*} [Field K] [LinearOrder K] [IsStrictOrderedRing K]

/-- Specification: total weight of the positions before `k`. -/
def before {n : ℕ} (w : Fin n → K) (k : ℕ) : K := ∑ i : Fin n, if i.val < k then w i else 0

/-- Specification: total weight. -/
def total {n : ℕ} (w : Fin n → K) : K := ∑ i : Fin n, w i

lemma take_ofFn_sum {n : ℕ} (w : Fin n → K) (k : ℕ) :
    ((List.ofFn w).take k).sum = before w k := by
  unfold before
  induction n generalizing k with
  | zero => simp
  | succ n ih =>
    rcases k with _ | k
    · simp
    · rw [List.ofFn_succ, List.take_succ_cons, List.sum_cons, ih, Fin.sum_univ_succ]
      simp

lemma before_succ {n : ℕ} (w : Fin n → K) (k : Fin n) :
    before w (k.val + 1) = before w k.val + w k := by
  unfold before
  have : ∀ i : Fin n, (if i.val < k.val + 1 then w i else 0) =
      (if i.val < k.val then w i else 0) + (if i = k then w i else 0) := by
    intro i
    rcases lt_trichotomy i.val k.val with h | h | h
    · have : i ≠ k := fun e => by rw [e] at h; exact lt_irrefl _ h
      simp [h, this, Nat.lt_succ_of_lt h]
    · have : i = k := Fin.ext h
      subst this; simp
    · have h' : i ≠ k := fun e => by rw [e] at h; exact lt_irrefl _ h
      have h1 : ¬ i.val < k.val + 1 := by omega
      have h2 : ¬ i.val < k.val := by omega
      simp [h1, h2, h']
  rw [Finset.sum_congr rfl (fun i _ => this i), Finset.sum_add_distrib]
  simp

/-- C04: the choice returns a position for every draw. -/
theorem C04_pick_total {n : ℕ} (hn : 0 < n) (w : Fin n → K) (hw : ∀ i, 0 ≤ w i) (r : K)
    (hr1 : r ≤ 1) : ∃ k, randomPick w r = some k := by
  have hne : List.ofFn w ≠ [] := by
    intro h; have := congrArg List.length h; simp at this; omega
  have hs : 0 ≤ (List.ofFn w).sum := by
    apply List.sum_nonneg; intro x hx; rw [List.mem_ofFn] at hx
    obtain ⟨i, rfl⟩ := hx; exact hw i
  have := search_lt_length 0 ((List.ofFn w).sum * r) (List.ofFn w) hne (by nlinarith)
  simp only [List.length_ofFn] at this
  refine ⟨⟨_, this⟩, ?_⟩
  simp [randomPick, cumsumFrom_getLast? 0 _ hne, getRandomUniform, this]

/-- C04: position `k` is chosen exactly for the draws `r` with
`before k < r * total ≤ before k + w k` (position 0 also for the draw 0): an interval of
draws of length `w k / total`. -/
theorem C04_pick_interval {n : ℕ} (w : Fin n → K) (hw : ∀ i, 0 ≤ w i) (r : K) (k : Fin n) :
    randomPick w r = some k ↔
      (k.val = 0 ∨ before w k.val < r * total w) ∧ r * total w ≤ before w k.val + w k := by
  have hn : 0 < n := lt_of_le_of_lt (Nat.zero_le _) k.isLt
  have hne : List.ofFn w ≠ [] := by
    intro h; have := congrArg List.length h; simp at this; omega
  have hnn : ∀ x ∈ List.ofFn w, 0 ≤ x := by
    intro x hx; rw [List.mem_ofFn] at hx; obtain ⟨i, rfl⟩ := hx; exact hw i
  have ht : (List.ofFn w).sum = total w := by rw [List.sum_ofFn]; rfl
  have hc := search_cumsum 0 (total w * r) (List.ofFn w) hnn k.val (by simp)
  rw [take_ofFn_sum, take_ofFn_sum, before_succ, zero_add, zero_add] at hc
  rw [mul_comm r, ← hc]
  unfold randomPick
  simp only [cumsumFrom_getLast? 0 _ hne, getRandomUniform, zero_add, sub_zero, ht]
  constructor
  · intro h
    split at h
    · simp only [Option.some.injEq] at h; rw [← h]
    · exact absurd h (by simp)
  · intro h
    rw [dif_pos (by omega)]
    simp only [Option.some.injEq]
    exact Fin.ext h

/-- C04: for positive draws the chosen position has positive weight.
Missing for the full property: the draw 0, which returns position 0 whatever its weight. -/
theorem C04_positive_weight_partial {n : ℕ} (w : Fin n → K) (hw : ∀ i, 0 ≤ w i)
    (hpos : 0 < total w) (r : K) (hr : 0 < r) (k : Fin n) (h : randomPick w r = some k) :
    0 < w k := by
  rw [C04_pick_interval w hw] at h
  obtain ⟨h1, h2⟩ := h
  have hb : before w k.val < r * total w := by
    rcases h1 with h1 | h1
    · have : before w k.val = 0 := by simp [before, h1]
      rw [this]; positivity
    · exact h1
  linarith

/-- C04: every position with positive weight is chosen by some draw in `[0, 1]`. -/
theorem C04_reachable {n : ℕ} (w : Fin n → K) (hw : ∀ i, 0 ≤ w i) (k : Fin n) (hk : 0 < w k) :
    ∃ r, 0 < r ∧ r ≤ 1 ∧ randomPick w r = some k := by
  have hb0 : 0 ≤ before w k.val := Finset.sum_nonneg (fun i _ => by split <;> simp [hw])
  have hbt : before w k.val + w k ≤ total w := by
    rw [← before_succ]
    exact Finset.sum_le_sum (fun i _ => by split <;> simp [hw])
  have ht : 0 < total w := by linarith
  refine ⟨(before w k.val + w k) / total w, by positivity, ?_, ?_⟩
  · rw [div_le_one ht]; exact hbt
  · rw [C04_pick_interval w hw, div_mul_cancel₀ _ (ne_of_gt ht)]
    exact ⟨Or.inr (by linarith), le_refl _⟩

/-- C04 fails for the draw 0: position 0 is returned although its weight is zero. -/
theorem C04_zero_draw_witness : randomPick (![0, 1, 3] : Fin 3 → ℚ) 0 = some 0 := by
  decide +kernel

/-- C04: the zero draw always returns position 0, for every weights. -/
theorem C04_zero_draw {n : ℕ} [NeZero n] (w : Fin n → K) (hw : ∀ i, 0 ≤ w i) :
    randomPick w 0 = some 0 := by
  rw [C04_pick_interval w hw]
  have : before w (0 : Fin n).val = 0 := by simp [before]
  rw [this]
  simp [hw]

example : (∀ i, 0 ≤ (![0, 1, 3] : Fin 3 → ℚ) i) ∧
    randomPick (![0, 1, 3] : Fin 3 → ℚ) (1 / 4) = some 1 ∧
    randomPick (![0, 1, 3] : Fin 3 → ℚ) (1 / 2) = some 2 := by
  refine ⟨fun i => by fin_cases i <;> simp, by decide +kernel, by decide +kernel⟩

/-- C05: for every draw sequence the start cells have the requested number and each is an
inlet cell. -/
theorem C05_start_indices {m : ℕ} (hm : 0 < m) (inlet : Fin m → ℤ) (w : Fin m → K)
    (hw : ∀ i, 0 ≤ w i) (hpos : 0 < total w) (draws : List K) (hr : ∀ r ∈ draws, 0 ≤ r ∧ r ≤ 1) :
    ∃ l, getStartIndices inlet w draws = some l ∧ l.length = draws.length ∧
      ∀ x ∈ l, ∃ k, x = inlet k := by
  have ht : (List.ofFn w).sum = total w := by rw [List.sum_ofFn]; rfl
  unfold getStartIndices
  rw [ht]
  have hw' : ∀ i, 0 ≤ (fun k => w k / total w) i := fun i => div_nonneg (hw i) hpos.le
  induction draws with
  | nil => exact ⟨[], rfl, rfl, by simp⟩
  | cons r rs ih =>
    obtain ⟨l, hl, hlen, hmem⟩ := ih (fun r h => hr r (List.mem_cons_of_mem _ h))
    obtain ⟨k, hk⟩ := C04_pick_total hm (fun k => w k / total w) hw' r (hr r List.mem_cons_self).2
    refine ⟨inlet k :: l, by simp [startLoop, hk, hl], by simp [hlen], ?_⟩
    intro x hx
    rcases List.mem_cons.mp hx with rfl | hx
    · exact ⟨k, rfl⟩
    · exact hmem x hx

/-- C05: each start cell has positive inlet weight. Missing for the full property: the draw 0
(see `C04_zero_draw`), so the draws are assumed positive. -/
theorem C05_positive_weight_partial {m : ℕ} (inlet : Fin m → ℤ) (w : Fin m → K)
    (hw : ∀ i, 0 ≤ w i) (hpos : 0 < total w) (draws : List K) (hr : ∀ r ∈ draws, 0 < r)
    (l : List ℤ) (h : getStartIndices inlet w draws = some l) :
    ∀ x ∈ l, ∃ k, x = inlet k ∧ 0 < w k := by
  have ht : (List.ofFn w).sum = total w := by rw [List.sum_ofFn]; rfl
  unfold getStartIndices at h
  rw [ht] at h
  have hw' : ∀ i, 0 ≤ (fun k => w k / total w) i := fun i => div_nonneg (hw i) hpos.le
  have hpos' : 0 < total (fun k => w k / total w) := by
    unfold total
    rw [← Finset.sum_div]
    exact div_pos hpos hpos
  induction draws generalizing l with
  | nil => simp [startLoop] at h; subst h; simp
  | cons r rs ih =>
    simp only [startLoop] at h
    split at h
    · rename_i k ks hk hks
      simp only [Option.some.injEq] at h
      subst h
      intro x hx
      rcases List.mem_cons.mp hx with rfl | hx
      · refine ⟨k, rfl, ?_⟩
        have := C04_positive_weight_partial _ hw' hpos' r (hr r List.mem_cons_self) k hk
        rwa [div_pos_iff_of_pos_right hpos] at this
      · exact ih (fun r h => hr r (List.mem_cons_of_mem _ h)) ks hks x hx
    · simp at h

/-- C05 with the default inlet weights (all ones): every start cell is an inlet cell, for all
draws in `[0, 1)` including 0, and the `k`-th inlet cell is chosen exactly for
`k < r * m ≤ k + 1` (equal chances). -/
theorem C05_default_weights {m : ℕ} (hm : 0 < m) (inlet : Fin m → ℤ) (draws : List K)
    (hr : ∀ r ∈ draws, 0 ≤ r ∧ r < 1) :
    ∃ l, getStartIndices inlet (getInletWeights inlet : Fin m → K) draws = some l ∧
      List.Forall₂ (fun r x => ∃ k : Fin m, x = inlet k ∧
        (k.val = 0 ∨ (k.val : K) < r * m) ∧ r * m ≤ k.val + 1) draws l := by
  have ht : (List.ofFn (getInletWeights inlet : Fin m → K)).sum = m := by
    rw [List.sum_ofFn]; simp [getInletWeights]
  have hmK : (0 : K) < m := by exact_mod_cast hm
  unfold getStartIndices
  rw [ht]
  have hw' : ∀ i, 0 ≤ (fun k => (getInletWeights inlet : Fin m → K) k / (m : K)) i :=
    fun i => by simp [getInletWeights]
  have htot : total (fun k => (getInletWeights inlet : Fin m → K) k / (m : K)) = 1 := by
    simp [total, getInletWeights, hmK.ne']
  have hbef : ∀ k : Fin m, before (fun k => (getInletWeights inlet : Fin m → K) k / (m : K)) k.val
      = k.val / m := by
    intro k
    simp only [before, getInletWeights]
    rw [← Finset.sum_filter, Finset.sum_const, nsmul_eq_mul]
    have : (Finset.univ.filter (fun i : Fin m => i.val < k.val)).card = k.val := by
      have : (Finset.univ.filter (fun i : Fin m => i.val < k.val)) = Finset.Iio k := by
        ext i; simp
      rw [this, Fin.card_Iio]
    rw [this]; ring
  induction draws with
  | nil => exact ⟨[], rfl, List.Forall₂.nil⟩
  | cons r rs ih =>
    obtain ⟨l, hl, hmem⟩ := ih (fun r h => hr r (List.mem_cons_of_mem _ h))
    obtain ⟨hr0, hr1⟩ := hr r List.mem_cons_self
    obtain ⟨k, hk⟩ := C04_pick_total hm _ hw' r hr1.le
    refine ⟨inlet k :: l, by simp [startLoop, hk, hl], List.Forall₂.cons ⟨k, rfl, ?_⟩ hmem⟩
    rw [C04_pick_interval _ hw', htot, hbef, mul_one] at hk
    obtain ⟨h1, h2⟩ := hk
    refine ⟨?_, ?_⟩
    · rcases h1 with h1 | h1
      · exact Or.inl h1
      · exact Or.inr ((div_lt_iff₀ hmK).mp h1)
    · simp only [getInletWeights] at h2
      rw [← add_div, le_div_iff₀ hmK] at h2
      exact h2

example : getStartIndices (![5, 6, 7] : Fin 3 → ℤ) (![0, 1, 3] : Fin 3 → ℚ) [1/4, 1/2, 1/8]
    = some [6, 7, 6] := by decide +kernel
example : getStartIndices (![5, 6, 7] : Fin 3 → ℤ) (getInletWeights ![5, 6, 7] : Fin 3 → ℚ)
    [0, 1/2, 9/10] = some [5, 6, 7] := by decide +kernel

end Verif.Props
