import Verif.Model.Pick

set_option linter.unusedSectionVars false

namespace Verif.Lemmas

open Verif.Model

variable {K : Type*} [Field K] [LinearOrder K] [IsStrictOrderedRing K]

lemma cumsumFrom_length (acc : K) (l : List K) : (cumsumFrom acc l).length = l.length := by
  induction l generalizing acc with
  | nil => rfl
  | cons x xs ih => simp [cumsumFrom, ih]

lemma cumsumFrom_getLast? (acc : K) (l : List K) (h : l ≠ []) :
    (cumsumFrom acc l).getLast? = some (acc + l.sum) := by
  induction l generalizing acc with
  | nil => exact absurd rfl h
  | cons x xs ih =>
    by_cases hx : xs = []
    · subst hx; simp [cumsumFrom]
    · have := ih (acc + x) hx
      simp only [cumsumFrom, List.sum_cons]
      rw [List.getLast?_cons, this]
      simp [add_assoc]

lemma sum_take_nonneg (l : List K) (h : ∀ x ∈ l, 0 ≤ x) (k : ℕ) : 0 ≤ (l.take k).sum :=
  List.sum_nonneg (fun x hx => h x (List.mem_of_mem_take hx))

/-- Characterisation of the search in the cumulative sums. -/
lemma search_cumsum (acc v : K) (l : List K) (h : ∀ x ∈ l, 0 ≤ x) (k : ℕ) (hk : k < l.length) :
    searchsortedLeft (cumsumFrom acc l) v = k ↔
      ((k = 0 ∨ acc + (l.take k).sum < v) ∧ v ≤ acc + (l.take (k + 1)).sum) := by
  induction l generalizing acc k with
  | nil => simp at hk
  | cons x xs ih =>
    have hxs : ∀ y ∈ xs, 0 ≤ y := fun y hy => h y (List.mem_cons_of_mem _ hy)
    have hx : 0 ≤ x := h x List.mem_cons_self
    by_cases hv : acc + x < v
    · have e : searchsortedLeft (cumsumFrom acc (x :: xs)) v =
          searchsortedLeft (cumsumFrom (acc + x) xs) v + 1 := by
        simp [searchsortedLeft, cumsumFrom, hv]
      rw [e]
      rcases k with _ | k
      · constructor
        · intro hh; omega
        · rintro ⟨-, h2⟩
          simp at h2
          exact absurd hv (not_lt.mpr h2)
      · simp only [List.length_cons, Nat.add_lt_add_iff_right] at hk
        have := ih (acc + x) hxs k hk
        rw [Nat.add_right_cancel_iff, this]
        simp only [List.take_succ_cons, List.sum_cons, ← add_assoc]
        constructor
        · rintro ⟨h1, h2⟩
          refine ⟨Or.inr ?_, h2⟩
          rcases h1 with h1 | h1
          · subst h1; simpa using hv
          · exact h1
        · rintro ⟨h1, h2⟩
          refine ⟨?_, h2⟩
          rcases h1 with h1 | h1
          · omega
          · exact Or.inr h1
    · have e : searchsortedLeft (cumsumFrom acc (x :: xs)) v = 0 := by
        simp [searchsortedLeft, cumsumFrom, hv]
      rw [e]
      push Not at hv
      rcases k with _ | k
      · simp [hv]
      · constructor
        · intro hh; omega
        · rintro ⟨h1, -⟩
          rcases h1 with h1 | h1
          · omega
          · simp only [List.take_succ_cons, List.sum_cons, ← add_assoc] at h1
            have := sum_take_nonneg xs hxs k
            linarith

lemma search_lt_length (acc v : K) (l : List K) (hl : l ≠ []) (hv : v ≤ acc + l.sum) :
    searchsortedLeft (cumsumFrom acc l) v < l.length := by
  induction l generalizing acc with
  | nil => exact absurd rfl hl
  | cons x xs ih =>
    by_cases hx : acc + x < v
    · have e : searchsortedLeft (cumsumFrom acc (x :: xs)) v =
          searchsortedLeft (cumsumFrom (acc + x) xs) v + 1 := by
        simp [searchsortedLeft, cumsumFrom, hx]
      rw [e]
      have hne : xs ≠ [] := by
        rintro rfl
        simp at hv
        exact absurd hx (not_lt.mpr hv)
      have := ih (acc + x) hne (by simpa [add_assoc] using hv)
      simp only [List.length_cons]; omega
    · have e : searchsortedLeft (cumsumFrom acc (x :: xs)) v = 0 := by
        simp [searchsortedLeft, cumsumFrom, hx]
      rw [e]; simp

end Verif.Lemmas
