import Verif.Model.Grid

namespace Verif.Lemmas

open Verif.Model

lemma divModCell_pos {L W : ℕ} (k : Fin (L * W)) :
    (k.val : ℤ) = W * ((divModCell k).1.val : ℤ) + ((divModCell k).2.val : ℤ) := by
  have := Nat.div_add_mod k.val W
  simp only [divModCell]
  exact_mod_cast this.symm

lemma flatCell_nonneg {L W : ℕ} {i : ℤ} (h0 : 0 ≤ i) (h1 : i < L * W) :
    ∃ c, flatCell L W i = some c ∧ i = W * (c.1.val : ℤ) + (c.2.val : ℤ) := by
  have h1' : i < ((L * W : ℕ) : ℤ) := by push_cast; exact h1
  refine ⟨divModCell ⟨i.toNat, by omega⟩, ?_, ?_⟩
  · unfold flatCell pyIdx
    rw [dif_pos ⟨h0, h1'⟩]
    rfl
  · rw [← divModCell_pos]
    simp only; omega

lemma flatCell_neg {L W : ℕ} {i : ℤ} (h0 : i < 0) (h1 : 0 ≤ i + L * W) :
    ∃ c, flatCell L W i = some c ∧ i + L * W = W * (c.1.val : ℤ) + (c.2.val : ℤ) := by
  have h1' : 0 ≤ i + ((L * W : ℕ) : ℤ) := by push_cast; exact h1
  refine ⟨divModCell ⟨(i + ((L * W : ℕ) : ℤ)).toNat, by omega⟩, ?_, ?_⟩
  · unfold flatCell pyIdx
    rw [dif_neg (by omega), dif_pos ⟨h0, h1'⟩]
    rfl
  · rw [← divModCell_pos]
    simp only
    push_cast at h1' ⊢; omega

lemma flatCell_isSome_iff {L W : ℕ} {i : ℤ} :
    (∃ c, flatCell L W i = some c) ↔ (-(L * W : ℤ) ≤ i ∧ i < L * W) := by
  constructor
  · rintro ⟨c, hc⟩
    unfold flatCell pyIdx at hc
    split at hc
    · rename_i h; push_cast at h
      have : (0 : ℤ) ≤ L * W := by positivity
      omega
    · split at hc
      · rename_i h; push_cast at h; omega
      · simp at hc
  · rintro ⟨h1, h2⟩
    by_cases h0 : 0 ≤ i
    · obtain ⟨c, hc, -⟩ := flatCell_nonneg h0 h2; exact ⟨c, hc⟩
    · obtain ⟨c, hc, -⟩ := flatCell_neg (not_le.mp h0) (by omega : 0 ≤ i + (L : ℤ) * W)
      exact ⟨c, hc⟩

/-- The flat position of a cell. -/
def posOf {L W : ℕ} (c : Cell L W) : ℤ := W * (c.1.val : ℤ) + (c.2.val : ℤ)

lemma posOf_nonneg {L W : ℕ} (c : Cell L W) : 0 ≤ posOf c := by unfold posOf; positivity

lemma posOf_lt {L W : ℕ} (c : Cell L W) : posOf c < L * W := by
  unfold posOf
  have h1 := c.1.isLt
  have h2 := c.2.isLt
  have h1' : (c.1.val : ℤ) ≤ L - 1 := by omega
  have h2' : (c.2.val : ℤ) ≤ W - 1 := by omega
  have hW : (0 : ℤ) ≤ W := by positivity
  nlinarith

lemma posOf_injective {L W : ℕ} {c d : Cell L W} (h : posOf c = posOf d) : c = d := by
  unfold posOf at h
  have h2 := c.2.isLt
  have h2' := d.2.isLt
  have hW : (0 : ℤ) < W := by omega
  have e1 : (c.1.val : ℤ) = d.1.val := by
    have a : ((W : ℤ) * c.1.val + c.2.val) / W = c.1.val := by
      rw [Int.mul_add_ediv_left _ _ (ne_of_gt hW),
        Int.ediv_eq_zero_of_lt (by positivity) (by exact_mod_cast h2), add_zero]
    have b : ((W : ℤ) * d.1.val + d.2.val) / W = d.1.val := by
      rw [Int.mul_add_ediv_left _ _ (ne_of_gt hW),
        Int.ediv_eq_zero_of_lt (by positivity) (by exact_mod_cast h2'), add_zero]
    rw [← a, h, b]
  have e2 : (c.2.val : ℤ) = d.2.val := by rw [e1] at h; linarith
  exact Prod.ext (Fin.ext (by exact_mod_cast e1)) (Fin.ext (by exact_mod_cast e2))

lemma flatCell_posOf {L W : ℕ} (c : Cell L W) : flatCell L W (posOf c) = some c := by
  obtain ⟨d, hd, he⟩ := flatCell_nonneg (posOf_nonneg c) (posOf_lt c)
  rw [hd]
  congr 1
  exact posOf_injective he.symm

lemma flatCell_some_nonneg {L W : ℕ} {i : ℤ} {c : Cell L W} (h0 : 0 ≤ i)
    (h : flatCell L W i = some c) : i = posOf c := by
  have h1 := (flatCell_isSome_iff.mp ⟨c, h⟩).2
  obtain ⟨d, hd, he⟩ := flatCell_nonneg h0 h1
  rw [h] at hd
  cases hd
  exact he

lemma pyIdx_nonneg {n : ℕ} {i : ℤ} (h0 : 0 ≤ i) (h1 : i < n) :
    ∃ k, pyIdx n i = some k ∧ (k.val : ℤ) = i := by
  unfold pyIdx
  rw [dif_pos ⟨h0, h1⟩]
  exact ⟨_, rfl, by simp only; omega⟩

lemma pyCell_nonneg {L W : ℕ} {x y : ℤ} (hx0 : 0 ≤ x) (hx1 : x < L) (hy0 : 0 ≤ y) (hy1 : y < W) :
    ∃ c : Cell L W, pyCell L W x y = some c ∧ (c.1.val : ℤ) = x ∧ (c.2.val : ℤ) = y := by
  obtain ⟨a, ha, ha'⟩ := pyIdx_nonneg hx0 hx1
  obtain ⟨b, hb, hb'⟩ := pyIdx_nonneg hy0 hy1
  exact ⟨(a, b), by simp [pyCell, ha, hb], ha', hb'⟩

end Verif.Lemmas
