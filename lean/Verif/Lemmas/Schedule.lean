import Verif.Spec.Schedule
import Mathlib.Algebra.Order.Floor.Semiring
import Mathlib.Algebra.Order.Floor.Defs
import Mathlib.Tactic.Ring

/-!
# Facts about schedules
-/

set_option linter.unusedSectionVars false
set_option linter.unusedSimpArgs false

namespace Verif.Lemmas

open Verif.Spec

variable {K : Type*} [Field K] [LinearOrder K] [IsStrictOrderedRing K]

lemma _root_.Verif.Spec.OnSchedule.congr {d : K} {T T' : ℕ → K} {n : ℕ} {is : List ℕ} (h : OnSchedule d T n is)
    (hT : ∀ k ≤ n, T k = T' k) (hle : ∀ a ∈ is, a ≤ n) : OnSchedule d T' n is := by
  refine ⟨h.first, ?_, ?_⟩
  · have := h.next
    clear h
    induction is with
    | nil => exact List.IsChain.nil
    | cons a is ih =>
      cases is with
      | nil => exact List.IsChain.singleton _
      | cons b is =>
        rw [List.isChain_cons_cons] at this ⊢
        refine ⟨?_, ih (fun x hx => hle x (List.mem_cons_of_mem _ hx)) this.2⟩
        obtain ⟨h1, h2, h3⟩ := this.1
        have hb : b ≤ n := hle b (by simp)
        refine ⟨h1, by rw [← hT b hb, ← hT a (by omega)]; exact h2, fun k hk hk' => ?_⟩
        rw [← hT k (by omega), ← hT a (by omega)]
        exact h3 k hk hk'
  · intro a ha
    obtain ⟨h1, h2⟩ := h.last a ha
    refine ⟨h1, fun k hk hk' => ?_⟩
    rw [← hT k hk', ← hT a h1]
    exact h2 k hk hk'

lemma _root_.Verif.Spec.OnSchedule.ne_nil {d : K} {T : ℕ → K} {n : ℕ} {is : List ℕ} (h : OnSchedule d T n is) :
    is ≠ [] := by
  rintro rfl
  simpa using h.first

/-- One more update: an event if due, none otherwise. -/
lemma _root_.Verif.Spec.OnSchedule.fire {d : K} {T : ℕ → K} {n : ℕ} {is : List ℕ} (h : OnSchedule d T n is)
    (hd : ∀ a ∈ is.getLast?, d ≤ T (n + 1) - T a) : OnSchedule d T (n + 1) (is ++ [n + 1]) := by
  refine ⟨?_, ?_, ?_⟩
  · have h1 := h.first
    cases is with
    | nil => simp at h1
    | cons a is => simpa using h1
  · rw [List.isChain_append]
    refine ⟨h.next, List.IsChain.singleton _, ?_⟩
    intro a ha b hb
    simp only [List.head?_cons, Option.mem_def, Option.some.injEq] at hb
    subst hb
    obtain ⟨h1, h2⟩ := h.last a ha
    exact ⟨by omega, hd a ha, fun k hk hk' => h2 k hk (by omega)⟩
  · intro a ha
    simp only [List.getLast?_append, List.getLast?_singleton, Option.some_or, Option.mem_def,
      Option.some.injEq] at ha
    subst ha
    exact ⟨le_rfl, fun k hk hk' => by omega⟩

lemma _root_.Verif.Spec.OnSchedule.skip {d : K} {T : ℕ → K} {n : ℕ} {is : List ℕ} (h : OnSchedule d T n is)
    (hd : ∀ a ∈ is.getLast?, T (n + 1) - T a < d) : OnSchedule d T (n + 1) is := by
  refine ⟨h.first, h.next, fun a ha => ?_⟩
  obtain ⟨h1, h2⟩ := h.last a ha
  refine ⟨by omega, fun k hk hk' => ?_⟩
  rcases Nat.lt_or_ge k (n + 1) with hkn | hkn
  · exact h2 k hk (by omega)
  · have : k = n + 1 := by omega
    subst this
    exact hd a ha

lemma chain_le_last {d : K} {T : ℕ → K} : ∀ {is : List ℕ} {l : ℕ},
    is.IsChain (NextDue d T) → is.getLast? = some l → ∀ a ∈ is, a ≤ l := by
  intro is
  induction is with
  | nil => intro l _ h; simp at h
  | cons a is ih =>
    intro l hc hl x hx
    cases is with
    | nil =>
      simp only [List.getLast?_singleton, Option.some.injEq] at hl
      simp only [List.mem_singleton] at hx
      omega
    | cons b is =>
      rw [List.isChain_cons_cons] at hc
      rw [List.getLast?_cons_cons] at hl
      have h1 := ih hc.2 hl
      rcases List.mem_cons.1 hx with rfl | hx
      · have := h1 b (by simp)
        have := hc.1.1
        omega
      · exact h1 x hx

lemma _root_.Verif.Spec.OnSchedule.le {d : K} {T : ℕ → K} {n : ℕ} {is : List ℕ} (h : OnSchedule d T n is) :
    ∀ a ∈ is, a ≤ n := by
  intro a ha
  cases hl : is.getLast? with
  | none => simp [List.getLast?_eq_none_iff] at hl; subst hl; simp at ha
  | some l =>
    exact le_trans (chain_le_last h.next hl a ha) (h.last l hl).1

private lemma unique_aux {d : K} {T : ℕ → K} {n : ℕ} : ∀ {is js : List ℕ} {a : ℕ},
    (a :: is).IsChain (NextDue d T) → (a :: js).IsChain (NextDue d T) →
    (∀ x ∈ (a :: is).getLast?, x ≤ n ∧ ∀ k, x < k → k ≤ n → T k - T x < d) →
    (∀ x ∈ (a :: js).getLast?, x ≤ n ∧ ∀ k, x < k → k ≤ n → T k - T x < d) → is = js := by
  intro is
  induction is with
  | nil =>
    intro js a _ h2 h3 h4
    cases js with
    | nil => rfl
    | cons b js =>
      exfalso
      rw [List.isChain_cons_cons] at h2
      obtain ⟨hn, hd⟩ := h3 a (by simp)
      have hb : b ≤ n := by
        rw [List.getLast?_cons_cons] at h4
        cases hl : (b :: js).getLast? with
        | none => simp at hl
        | some l => exact le_trans (chain_le_last h2.2 hl b (by simp)) (h4 l hl).1
      exact absurd (hd b h2.1.1 hb) (not_lt.2 h2.1.2.1)
  | cons c is ih =>
    intro js a h1 h2 h3 h4
    rw [List.isChain_cons_cons] at h1
    rw [List.getLast?_cons_cons] at h3
    cases js with
    | nil =>
      exfalso
      obtain ⟨hn, hd⟩ := h4 a (by simp)
      have hb : c ≤ n := by
        cases hl : (c :: is).getLast? with
        | none => simp at hl
        | some l => exact le_trans (chain_le_last h1.2 hl c (by simp)) (h3 l hl).1
      exact absurd (hd c h1.1.1 hb) (not_lt.2 h1.1.2.1)
    | cons b js =>
      rw [List.isChain_cons_cons] at h2
      rw [List.getLast?_cons_cons] at h4
      have hbc : c = b := by
        rcases lt_trichotomy c b with h | h | h
        · exact absurd (h2.1.2.2 c h1.1.1 h) (not_lt.2 h1.1.2.1)
        · exact h
        · exact absurd (h1.1.2.2 b h2.1.1 h) (not_lt.2 h2.1.2.1)
      subst hbc
      rw [ih h1.2 h2.2 h3 h4]

/-- The schedule determines the events. -/
lemma _root_.Verif.Spec.OnSchedule.unique {d : K} {T : ℕ → K} {n : ℕ} {is js : List ℕ} (h : OnSchedule d T n is)
    (h' : OnSchedule d T n js) : is = js := by
  have h1 := h.first
  have h2 := h'.first
  cases is with
  | nil => simp at h1
  | cons a is =>
    cases js with
    | nil => simp at h2
    | cons b js =>
      simp only [List.head?_cons, Option.some.injEq] at h1 h2
      subst h1 h2
      rw [unique_aux h.next h'.next h.last h'.last]

/-- Number of steps of length `dt` between events. -/
def period [FloorRing K] (d dt : K) : ℕ := max 1 ⌈d / dt⌉₊

lemma period_spec [FloorRing K] {d dt : K} (hdt : 0 < dt) (k : ℕ) (hk : 1 ≤ k) :
    d ≤ (k : K) * dt ↔ period d dt ≤ k := by
  unfold period
  rw [max_le_iff, Nat.ceil_le, div_le_iff₀ hdt]
  exact ⟨fun h => ⟨hk, h⟩, fun h => h.2⟩

/-- With a constant step the events are at the multiples of the period. -/
lemma onSchedule_const [FloorRing K] {d dt : K} (hdt : 0 < dt) {T : ℕ → K} {t0 : K} {n : ℕ}
    (hT : ∀ k ≤ n, T k = t0 + (k : K) * dt) :
    OnSchedule d T n ((List.range (n / period d dt + 1)).map (· * period d dt)) := by
  set p := period d dt with hp
  have hp1 : 1 ≤ p := le_max_left _ _
  have hbound : ∀ i, i < n / p + 1 → i * p ≤ n := by
    intro i hi
    calc i * p ≤ (n / p) * p := Nat.mul_le_mul_right _ (by omega)
      _ ≤ n := Nat.div_mul_le_self n p
  have hdiff : ∀ a b, a ≤ b → b ≤ n → T b - T a = ((b - a : ℕ) : K) * dt := by
    intro a b hab hb
    rw [hT b hb, hT a (by omega), Nat.cast_sub hab]
    ring
  have hbefore : ∀ a k, a < k → k ≤ n → k < a + p → T k - T a < d := by
    intro a k h1 h2 h3
    rw [hdiff a k h1.le h2]
    by_contra hcon
    rw [not_lt, period_spec hdt _ (by omega)] at hcon
    omega
  refine ⟨?_, ?_, ?_⟩
  · simp [List.range_succ_eq_map]
  · rw [List.isChain_map]
    rw [List.isChain_iff_getElem]
    intro i hi
    simp only [List.length_range] at hi
    simp only [List.getElem_range]
    have h2 := hbound (i + 1) hi
    have e : (i + 1) * p = i * p + p := by ring
    refine ⟨by omega, ?_, fun k hk hk' => hbefore _ _ hk (by omega) (by omega)⟩
    rw [hdiff _ _ (by omega) h2, period_spec hdt _ (by omega)]
    omega
  · intro a ha
    rw [List.range_succ, List.map_append] at ha
    simp only [List.map_cons, List.map_nil, List.getLast?_append, List.getLast?_singleton,
      Option.some_or, Option.mem_def, Option.some.injEq] at ha
    subst ha
    refine ⟨Nat.div_mul_le_self n p, fun k hk hk' => hbefore _ _ hk hk' ?_⟩
    have := Nat.lt_div_mul_add (a := n) (b := p) (by omega)
    omega

end Verif.Lemmas
