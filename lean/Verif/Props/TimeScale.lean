import Verif.Model.TimeScale
import Mathlib.Tactic.FieldSimp
import Mathlib.Tactic.Linarith
import Mathlib.Tactic.LinearCombination
import Mathlib.Tactic.NormNum
import Mathlib.Tactic.Positivity
import Mathlib.Algebra.Order.Ring.Rat

/-!
# C65: model time and real time
-/

set_option linter.unusedSectionVars false

namespace Verif.Props

open Verif.Model

variable {K : Type*} [Field K] [LinearOrder K] [IsStrictOrderedRing K]

/-- Specification: the known units with their length in seconds. -/
def IsUnit' (K : Type*) [Field K] (u : String) (sec : K) : Prop :=
  (u = "seconds" ∧ sec = 1) ∨ (u = "days" ∧ sec = 24 * 60 * 60) ∨
    (u = "years" ∧ sec = (365 + 1 / 4) * (24 * 60 * 60))

lemma isUnit_pos {u : String} {sec : K} (h : IsUnit' K u sec) : 0 < sec := by
  rcases h with ⟨_, rfl⟩ | ⟨_, rfl⟩ | ⟨_, rfl⟩ <;> norm_num

lemma isUnit_factor {u : String} {sec : K} (h : IsUnit' K u sec) (If : K) :
    scaleFactor If u = .ok (If * sec) := by
  rcases h with ⟨rfl, rfl⟩ | ⟨rfl, rfl⟩ | ⟨rfl, rfl⟩
  · rfl
  · rw [show (24 * 60 * 60 : K) = 86400 by norm_num]; rfl
  · rw [show ((365 + 1 / 4) * (24 * 60 * 60) : K) = 86400 * (1461 / 4) by norm_num]; rfl

/-- C65: exactly a known unit and an intermittency in (0, 1] are accepted, and real time is then the
one of which the fraction `If` is the model time. -/
theorem C65_scale (t If : K) (u : String) (r : K) :
    scaleModelTime t If u = .ok r ↔
      (0 < If ∧ If ≤ 1) ∧ ∃ sec, IsUnit' K u sec ∧ r * sec * If = t := by
  constructor
  · intro h
    unfold scaleModelTime at h
    by_cases hI : If ≤ 0 ∨ 1 < If
    · simp [hI] at h
    · rw [if_neg hI] at h
      push Not at hI
      refine ⟨hI, ?_⟩
      have key : ∀ sec : K, IsUnit' K u sec → r * sec * If = t := by
        intro sec hs
        rw [isUnit_factor hs] at h
        have hp := isUnit_pos hs
        have h' : t / (If * sec) = r := by simpa using h
        rw [← h']
        have := hI.1
        field_simp
      by_cases h1 : u = "seconds"
      · exact ⟨1, Or.inl ⟨h1, rfl⟩, key _ (Or.inl ⟨h1, rfl⟩)⟩
      · by_cases h2 : u = "days"
        · exact ⟨_, Or.inr (Or.inl ⟨h2, rfl⟩), key _ (Or.inr (Or.inl ⟨h2, rfl⟩))⟩
        · by_cases h3 : u = "years"
          · exact ⟨_, Or.inr (Or.inr ⟨h3, rfl⟩), key _ (Or.inr (Or.inr ⟨h3, rfl⟩))⟩
          · simp [scaleFactor, h1, h2, h3] at h
  · rintro ⟨⟨h0, h1⟩, sec, hs, rfl⟩
    have hp := isUnit_pos hs
    unfold scaleModelTime
    rw [if_neg (by push Not; exact ⟨h0, h1⟩), isUnit_factor hs]
    congr 1
    field_simp

/-- C65: an intermittency outside (0, 1] is rejected as such, then an unknown unit. -/
theorem C65_rejected (t If : K) (u : String) :
    (¬ (0 < If ∧ If ≤ 1) → scaleModelTime t If u = .error .intermittency) ∧
    ((0 < If ∧ If ≤ 1) → (∀ sec, ¬ IsUnit' K u sec) → scaleModelTime t If u = .error .units) := by
  constructor
  · intro h
    have : If ≤ 0 ∨ 1 < If := by
      by_contra hc; push Not at hc; exact h hc
    simp [scaleModelTime, this]
  · intro h hu
    have h1 : u ≠ "seconds" := fun e => hu 1 (Or.inl ⟨e, rfl⟩)
    have h2 : u ≠ "days" := fun e => hu _ (Or.inr (Or.inl ⟨e, rfl⟩))
    have h3 : u ≠ "years" := fun e => hu _ (Or.inr (Or.inr ⟨e, rfl⟩))
    have : ¬ (If ≤ 0 ∨ 1 < If) := by push Not; exact h
    simp [scaleModelTime, this, scaleFactor, h1, h2, h3]

/-- C65: any real time comes from exactly one model time. -/
theorem C65_invertible {If : K} {u : String} {sec : K} (hI : 0 < If ∧ If ≤ 1) (hu : IsUnit' K u sec)
    (r : K) : ∃! t, scaleModelTime t If u = .ok r := by
  refine ⟨r * sec * If, (C65_scale _ _ _ _).2 ⟨hI, sec, hu, rfl⟩, ?_⟩
  intro t ht
  obtain ⟨-, s, hs, e⟩ := (C65_scale _ _ _ _).1 ht
  have : s = sec := by
    rcases hs with ⟨a, rfl⟩ | ⟨a, rfl⟩ | ⟨a, rfl⟩ <;> rcases hu with ⟨b, rfl⟩ | ⟨b, rfl⟩ | ⟨b, rfl⟩ <;>
      first | rfl | (exfalso; rw [a] at b; exact absurd b (by decide))
  rw [← e, this]

/-- C65: scaling is linear in the time. -/
theorem C65_linear {t t' If : K} {u : String} {r r' : K} (a b : K)
    (h : scaleModelTime t If u = .ok r) (h' : scaleModelTime t' If u = .ok r') :
    scaleModelTime (a * t + b * t') If u = .ok (a * r + b * r') := by
  obtain ⟨hI, s, hs, e⟩ := (C65_scale _ _ _ _).1 h
  have h2 : r' * s * If = t' := by
    unfold scaleModelTime at h'
    rw [if_neg (by push Not; exact hI), isUnit_factor hs] at h'
    have h' : t' / (If * s) = r' := by simpa using h'
    rw [← h']
    have := hI.1
    have := isUnit_pos hs
    field_simp
  refine (C65_scale _ _ _ _).2 ⟨hI, s, hs, ?_⟩
  rw [← e, ← h2]; ring

/-- C65: later model time is later real time. -/
theorem C65_monotone {t t' If : K} {u : String} {r r' : K}
    (h : scaleModelTime t If u = .ok r) (h' : scaleModelTime t' If u = .ok r') :
    t < t' ↔ r < r' := by
  have hd := C65_linear (1 : K) (-1) h' h
  obtain ⟨hI, s, hs, e⟩ := (C65_scale _ _ _ _).1 hd
  have hp : 0 < s * If := mul_pos (isUnit_pos hs) hI.1
  have e : (r' - r) * (s * If) = t' - t := by linear_combination e
  constructor
  · intro hlt
    have : 0 < (r' - r) * (s * If) := by rw [e]; linarith
    have := (mul_pos_iff_of_pos_right hp).1 this
    linarith
  · intro hlt
    have : 0 < (r' - r) * (s * If) := mul_pos (by linarith) hp
    rw [e] at this; linarith

/-- C65: the units agree with each other. -/
theorem C65_units {t If s d y : K} (hs : scaleModelTime t If "seconds" = .ok s)
    (hd : scaleModelTime t If "days" = .ok d) (hy : scaleModelTime t If "years" = .ok y) :
    s = d * 86400 ∧ d * 4 = y * 1461 := by
  have key : ∀ (u : String) (sec r : K), IsUnit' K u sec → scaleModelTime t If u = .ok r →
      (0 < If) ∧ r * sec * If = t := by
    intro u sec r hu h
    obtain ⟨hI, s', hs', e⟩ := (C65_scale _ _ _ _).1 h
    unfold scaleModelTime at h
    rw [if_neg (by push Not; exact hI), isUnit_factor hu] at h
    have h : t / (If * sec) = r := by simpa using h
    refine ⟨hI.1, ?_⟩
    rw [← h]
    have := hI.1
    have := isUnit_pos hu
    field_simp
  obtain ⟨hI, e1⟩ := key _ 1 s (Or.inl ⟨rfl, rfl⟩) hs
  obtain ⟨-, e2⟩ := key _ _ d (Or.inr (Or.inl ⟨rfl, rfl⟩)) hd
  obtain ⟨-, e3⟩ := key _ _ y (Or.inr (Or.inr ⟨rfl, rfl⟩)) hy
  constructor
  · apply mul_right_cancel₀ hI.ne'; linear_combination e1 - e2
  · apply mul_right_cancel₀ (show (21600 * If : K) ≠ 0 by positivity)
    linear_combination e2 - e3

/-- C65: without intermittency seconds are unchanged. -/
theorem C65_default (t : K) : scaleModelTime t 1 "seconds" = .ok t :=
  (C65_scale _ _ _ _).2 ⟨⟨one_pos, le_refl _⟩, 1, Or.inl ⟨rfl, rfl⟩, by ring⟩

/-- C65: a scaled rate of sea level rise gives `mmyr` millimetres in the model time of one year. -/
theorem C65_rate {mmyr If r t : K} (hr : scaleRate mmyr If = .ok r)
    (ht : scaleModelTime t If "years" = .ok 1) : r * t * 1000 = mmyr := by
  obtain ⟨hI, s, hs, e⟩ := (C65_scale _ _ _ _).1 ht
  have hp := isUnit_pos hs
  have h0 := hI.1
  unfold scaleRate at hr
  rw [isUnit_factor hs] at hr
  have hne : If * s ≠ 0 := by positivity
  simp only [if_neg hne] at hr
  have hr : mmyr / 1000 * (1 / (If * s)) = r := by simpa using hr
  rw [← hr, ← e]
  field_simp

/-- C65: a rate is scaled whenever the intermittency is valid. -/
theorem C65_rate_accepted {mmyr If : K} (h : 0 < If) : ∃ r, scaleRate mmyr If = .ok r := by
  unfold scaleRate
  rw [isUnit_factor (Or.inr (Or.inr ⟨rfl, rfl⟩))]
  have : If * ((365 + 1 / 4) * (24 * 60 * 60)) ≠ 0 := by positivity
  simp only [if_neg this]
  exact ⟨_, rfl⟩

/-- The limit of C65: rates are scaled with an invalid intermittency too. Here a negative one makes
a rise a fall; zero divides by zero. -/
theorem C65_rate_unchecked :
    (∃ r : ℚ, scaleRate (3 : ℚ) (-1) = .ok r ∧ r < 0) ∧
    scaleRate (3 : ℚ) 0 = .error .zeroDivision ∧ (∃ r : ℚ, scaleRate (3 : ℚ) 2 = .ok r) := by
  refine ⟨⟨-3 / 31557600000, ?_, by norm_num⟩, by decide +kernel, ⟨3 / 63115200000, ?_⟩⟩ <;>
    decide +kernel

/-- A week of flooding at one tenth is seventy days. -/
example : scaleModelTime (604800 : ℚ) (1 / 10) "days" = .ok 70 := by decide +kernel

example : scaleRate (2 : ℚ) (1 / 2) = .ok (1 / 7889400000) := by decide +kernel

end Verif.Props
