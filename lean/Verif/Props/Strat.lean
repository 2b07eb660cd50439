import Verif.Model.Strat
import Mathlib.Order.Bounds.Basic
import Mathlib.Order.MinMax

/-!
# C67: the preserved surfaces
-/

namespace Verif.Props

open Verif.Model

variable {X α : Type*} [LinearOrder α]

lemma strataLoop_spec (dz : ℕ) (depth : ℕ → X → α) (c : X) :
    ∀ (fuel i : ℕ) (s : ℕ → X → α), fuel + i = dz → 1 ≤ i →
      (∀ k, dz - i ≤ k → k < dz → IsLeast {x | ∃ j, k ≤ j ∧ j < dz ∧ x = depth j c} (s k c)) →
      ∀ k, k < dz →
        IsLeast {x | ∃ j, k ≤ j ∧ j < dz ∧ x = depth j c} (strataLoop dz depth fuel i s k c)
  | 0, i, s, hf, hi, h, k, hk => h k (by omega) hk
  | fuel + 1, i, s, hf, hi, h, k, hk => by
    refine strataLoop_spec dz depth c fuel (i + 1) _ (by omega) (by omega) ?_ k hk
    intro k h1 h2
    by_cases e : k = dz - i - 1
    · subst e
      rw [Function.update_self]
      have hb := h (dz - i) (le_refl _) (by omega)
      constructor
      · rcases min_choice (depth (dz - i - 1) c) (s (dz - i) c) with e | e <;> rw [e]
        · exact ⟨_, le_refl _, h2, rfl⟩
        · obtain ⟨j, a, b, e'⟩ := hb.1
          exact ⟨j, by omega, b, e'⟩
      · rintro x ⟨j, a, b, rfl⟩
        by_cases ej : j = dz - i - 1
        · subst ej; exact min_le_left _ _
        · exact le_trans (min_le_right _ _) (hb.2 ⟨j, by omega, b, rfl⟩)
    · rw [Function.update_of_ne e]
      exact h k (by omega) h2

/-- C67: the preserved surface at each time and place is the least of the bed surfaces from that time
on. -/
theorem C67_least {zero : α} {dz : ℕ} {depth : ℕ → X → α} {s : ℕ → X → α}
    (h : preserved zero dz depth = some s) {k : ℕ} (hk : k < dz) (c : X) :
    IsLeast {x | ∃ j, k ≤ j ∧ j < dz ∧ x = depth j c} (s k c) := by
  unfold preserved at h
  by_cases h0 : dz = 0
  · omega
  rw [if_neg h0] at h
  obtain rfl := Option.some.inj h
  refine strataLoop_spec dz depth c (dz - 1) 1 _ (by omega) (le_refl _) ?_ k hk
  intro k a b
  obtain rfl : k = dz - 1 := by omega
  rw [Function.update_self]
  refine ⟨⟨dz - 1, le_refl _, b, rfl⟩, ?_⟩
  rintro x ⟨j, a', b', rfl⟩
  obtain rfl : j = dz - 1 := by omega
  exact le_refl _

/-- C67: it is never above the bed at that or a later time. -/
theorem C67_below {zero : α} {dz : ℕ} {depth : ℕ → X → α} {s : ℕ → X → α}
    (h : preserved zero dz depth = some s) {k j : ℕ} (hkj : k ≤ j) (hj : j < dz) (c : X) :
    s k c ≤ depth j c :=
  (C67_least h (lt_of_le_of_lt hkj hj) c).2 ⟨j, hkj, hj, rfl⟩

/-- C67: it does not decrease in time. -/
theorem C67_monotone {zero : α} {dz : ℕ} {depth : ℕ → X → α} {s : ℕ → X → α}
    (h : preserved zero dz depth = some s) {k j : ℕ} (hkj : k ≤ j) (hj : j < dz) (c : X) :
    s k c ≤ s j c := by
  obtain ⟨i, a, b, e⟩ := (C67_least h hj c).1
  rw [e]
  exact C67_below h (le_trans hkj a) b c

/-- C67: at the last time it is the bed. -/
theorem C67_last {zero : α} {dz : ℕ} {depth : ℕ → X → α} {s : ℕ → X → α}
    (h : preserved zero dz depth = some s) : s (dz - 1) = depth (dz - 1) := by
  have h0 : dz ≠ 0 := by intro e; simp [preserved, e] at h
  funext c
  obtain ⟨i, a, b, e⟩ := (C67_least h (show dz - 1 < dz by omega) c).1
  obtain rfl : i = dz - 1 := by omega
  exact e

/-- C67: where the bed never falls later, all of it is preserved. -/
theorem C67_all {zero : α} {dz : ℕ} {depth : ℕ → X → α} {s : ℕ → X → α}
    (h : preserved zero dz depth = some s) {k : ℕ} (hk : k < dz) (c : X)
    (hm : ∀ j, k ≤ j → j < dz → depth k c ≤ depth j c) : s k c = depth k c := by
  refine le_antisymm (C67_below h (le_refl _) hk c) ?_
  obtain ⟨i, a, b, e⟩ := (C67_least h hk c).1
  rw [e]; exact hm i a b

/-- C67: there is a result exactly if there is a saved surface. -/
theorem C67_defined (zero : α) (dz : ℕ) (depth : ℕ → X → α) :
    (∃ s, preserved zero dz depth = some s) ↔ 0 < dz := by
  unfold preserved
  by_cases h : dz = 0
  · simp [h]
  · simp [h]; omega

/-- A bed that is built up, cut and filled again. -/
def exBed : ℕ → Unit → ℤ := fun k _ => ([0, 3, 1, 2] : List ℤ).getD k 0

example : (preserved 0 4 exBed).map (fun s => (List.range 4).map (fun k => s k ())) =
    some [0, 1, 1, 2] := by decide +kernel

end Verif.Props
