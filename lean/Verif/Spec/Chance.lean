import Mathlib.MeasureTheory.Constructions.Pi
import Mathlib.MeasureTheory.Measure.Lebesgue.Basic
import Mathlib.MeasureTheory.Integral.Bochner.Basic
import Mathlib.Probability.Independence.Basic

/-!
# Specification: independent, uniformly distributed random numbers
-/

namespace Verif.Spec

open MeasureTheory ProbabilityTheory

/-- The uniform distribution of numbers between 0 and 1. -/
noncomputable def unitLaw : Measure ℝ := volume.restrict (Set.Ioc 0 1)

/-- The numbers `U 0`, `U 1`, … are independent and uniformly distributed. -/
structure RandomNumbers {Ω : Type*} [MeasurableSpace Ω] (μ : Measure Ω) (U : ℕ → Ω → ℝ) : Prop where
  measurable : ∀ i, Measurable (U i)
  independent : iIndepFun U μ
  uniform : ∀ i, μ.map (U i) = unitLaw

/-- The first `n` numbers in a case `ω`. -/
def firstNumbers {Ω : Type*} (U : ℕ → Ω → ℝ) (n : ℕ) (ω : Ω) : List ℝ := List.ofFn fun i : Fin n => U i ω

/-- `E` is an event of probability `p`. -/
def HasProb {Ω : Type*} [MeasurableSpace Ω] (μ : Measure Ω) (E : Ω → Prop) (p : ℝ) : Prop :=
  0 ≤ p ∧ NullMeasurableSet {ω | E ω} μ ∧ μ {ω | E ω} = ENNReal.ofReal p

/-- `X` has the mean `e`. -/
def HasMean {Ω : Type*} [MeasurableSpace Ω] (μ : Measure Ω) (X : Ω → ℝ) (e : ℝ) : Prop :=
  Integrable X μ ∧ ∫ ω, X ω ∂μ = e

/-- The numbers of the run `j` of several runs with `n` numbers each. -/
def numbersOf {Ω : Type*} (U : ℕ → Ω → ℝ) (n j : ℕ) (ω : Ω) : List ℝ := List.ofFn fun i : Fin n => U (j * n + i) ω

end Verif.Spec
