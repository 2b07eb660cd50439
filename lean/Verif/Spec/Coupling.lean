import Verif.Spec.Draws
import Verif.Model.Rng

/-!
# Specification: two random processes that are equally likely

A random process is a program that is run on a tape of numbers between 0 and 1. Two programs behave alike
by chance if their random choices can be matched: whenever one makes a choice with some weights, the other
makes a choice with the same weights in some other order, and what they do after matching choices behaves
alike again. Every outcome of one then has the probability of the matching outcome of the other.
-/

namespace Verif.Spec

open Verif.Model

variable {K : Type*}

/-- A generator that reads numbers above 0 and up to 1 from a tape. (Anything else on the tape, or its
end, counts as 1.) -/
def tape [Field K] [LinearOrder K] : Rng K (List K) where
  next := fun l => (if 0 < l.headD 1 ∧ l.headD 1 ≤ 1 then l.headD 1 else 1, l.tail)

/-- Two programs that read a tape behave alike by chance, up to the relation `R` on what is left to do.
Either `R` holds already; or both read a number. The first chooses with weights `w`, the second with
weights `w'`, which are the same in the order `e`. For every choice `k` that has a chance, what the first
does after `k` and what the second does after `e k` behave alike. -/
inductive SameChances [Field K] [LinearOrder K] {ρ ρ' : Type*} (R : (List K → ρ) → (List K → ρ') → Prop) :
    (List K → ρ) → (List K → ρ') → Prop
  | done {F : List K → ρ} {G : List K → ρ'} (h : R F G) : SameChances R F G
  | draw {F : List K → ρ} {G : List K → ρ'} {n : ℕ} (w w' : Fin n → K) (e : Fin n ≃ Fin n)
      (F' : Fin n → List K → ρ) (G' : Fin n → List K → ρ') (nonneg : ∀ k, 0 ≤ w k) (pos : 0 < ∑ k, w k)
      (same : ∀ k, w' (e k) = w k)
      (left : ∀ k x t, 0 < x → x ≤ 1 → Chosen w x k → F (x :: t) = F' k t)
      (right : ∀ k x t, 0 < x → x ≤ 1 → Chosen w' x (e k) → G (x :: t) = G' k t)
      (next : ∀ k, 0 < w k → SameChances R (F' k) (G' k)) : SameChances R F G

/-- The probability `p` that a program that reads a tape comes to do what `A` says rather than what `B`
says: 1 if it does so already, 0 if it does the other already; after a choice with weights `w`, the
average of the probabilities after each choice, by weight. -/
inductive Probability [Field K] [LinearOrder K] {ρ : Type*} (A B : (List K → ρ) → Prop) :
    (List K → ρ) → K → Prop
  | yes {F : List K → ρ} (h : A F) : Probability A B F 1
  | no {F : List K → ρ} (h : B F) : Probability A B F 0
  | draw {F : List K → ρ} {n : ℕ} (w : Fin n → K) (F' : Fin n → List K → ρ) (p : Fin n → K)
      (nonneg : ∀ k, 0 ≤ w k) (pos : 0 < ∑ k, w k)
      (step : ∀ k x t, 0 < x → x ≤ 1 → Chosen w x k → F (x :: t) = F' k t)
      (next : ∀ k, 0 < w k → Probability A B (F' k) (p k)) :
      Probability A B F ((∑ k, w k * p k) / ∑ k, w k)

end Verif.Spec
