import Verif.Spec.Coupling
import Verif.Props.Draws

/-!
# Composing programs that behave alike by chance
-/

set_option linter.unusedSectionVars false

namespace Verif.Props

open Verif.Model Verif.Lemmas Verif.Spec

variable {K : Type*} [Field K] [LinearOrder K] [IsStrictOrderedRing K]

lemma tape_positive : PositiveDraws (tape : Rng K (List K)) := by
  intro s
  unfold tape
  simp only
  split
  · assumption
  · exact ⟨one_pos, le_rfl⟩

lemma tape_next {x : K} (h0 : 0 < x) (h1 : x ≤ 1) (t : List K) : tape.next (x :: t) = (x, t) := by
  unfold tape
  simp [h0, h1]

/-- A choice that has a chance is made for some number. -/
lemma chosen_exists {n : ℕ} {w : Fin n → K} (hw : ∀ i, 0 ≤ w i) {k : Fin n} (hk : 0 < w k) :
    ∃ x, 0 < x ∧ x ≤ 1 ∧ Chosen w x k := by
  have hb0 : 0 ≤ before w k.val := Finset.sum_nonneg (fun i _ => by split <;> simp [hw])
  have hbt : before w k.val + w k ≤ total w := by
    rw [← before_succ]
    exact Finset.sum_le_sum (fun i _ => by split <;> simp [hw])
  have ht : 0 < total w := by linarith
  refine ⟨(before w k.val + w k) / total w, by positivity, (div_le_one ht).mpr hbt, ?_⟩
  rw [← pick_chosen hw, C04_pick_interval w hw, div_mul_cancel₀ _ ht.ne']
  exact ⟨.inr (by linarith), le_rfl⟩

lemma same_imp {ρ ρ' : Type*} {R R' : (List K → ρ) → (List K → ρ') → Prop} (hR : ∀ F G, R F G → R' F G)
    {F : List K → ρ} {G : List K → ρ'} (h : SameChances R F G) : SameChances R' F G := by
  induction h with
  | done h => exact .done (hR _ _ h)
  | draw w w' e F' G' a1 a2 a3 a4 a5 _ ih => exact .draw w w' e F' G' a1 a2 a3 a4 a5 ih

/-- What is left to do is reached with some tape. -/
lemma same_reach {ρ ρ' : Type*} {R : (List K → ρ) → (List K → ρ') → Prop}
    {F : List K → ρ} {G : List K → ρ'} (h : SameChances R F G) :
    SameChances (fun F' G' => R F' G' ∧ ∃ t, ∀ r, F (t ++ r) = F' r) F G := by
  induction h with
  | done h => exact .done ⟨h, [], fun _ => rfl⟩
  | draw w w' e F' G' a1 a2 a3 a4 a5 _ ih =>
    refine .draw w w' e F' G' a1 a2 a3 a4 a5 (fun k hk => same_imp ?_ (ih k hk))
    rintro F1 G1 ⟨h1, t, h2⟩
    obtain ⟨x, x0, x1, hx⟩ := chosen_exists a1 hk
    refine ⟨h1, x :: t, fun r => ?_⟩
    rw [List.cons_append, a4 k x _ x0 x1 hx, h2]

/-- One thing after the other. -/
lemma same_then {ρ ρ' τ τ' : Type*} {R : (List K → ρ) → (List K → ρ') → Prop}
    {R' : (List K → τ) → (List K → τ') → Prop} {F1 : List K → ρ} {G1 : List K → ρ'}
    (h : SameChances R F1 G1) (k : ρ → τ) (k' : ρ' → τ') {F : List K → τ} {G : List K → τ'}
    (eF : ∀ t, F t = k (F1 t)) (eG : ∀ t, G t = k' (G1 t))
    (h' : ∀ F' G', R F' G' → SameChances R' (fun t => k (F' t)) (fun t => k' (G' t))) :
    SameChances R' F G := by
  have e1 : F = fun t => k (F1 t) := funext eF
  have e2 : G = fun t => k' (G1 t) := funext eG
  rw [e1, e2]
  clear eF eG e1 e2
  induction h with
  | done h => exact h' _ _ h
  | draw w w' e F' G' a1 a2 a3 a4 a5 _ ih =>
    refine .draw w w' e (fun j t => k (F' j t)) (fun j t => k' (G' j t)) a1 a2 a3 ?_ ?_ ih
    · intro j x t x0 x1 hx; rw [a4 j x t x0 x1 hx]
    · intro j x t x0 x1 hx; rw [a5 j x t x0 x1 hx]

/-- `R` holds, unless the first program has failed. -/
def OrFail {ρ : Type*} {ρ' : Type*} (R : (List K → Except Err ρ) → (List K → ρ') → Prop)
    (F : List K → Except Err ρ) (G : List K → ρ') : Prop := (∃ e, F = fun _ => .error e) ∨ R F G

/-- One thing after the other, with errors passed on. -/
lemma same_try {ρ ρ' τ τ' : Type*} {R : (List K → Except Err ρ) → (List K → ρ') → Prop}
    {R' : (List K → Except Err τ) → (List K → τ') → Prop} {F1 : List K → Except Err ρ} {G1 : List K → ρ'}
    (h : SameChances (OrFail R) F1 G1) (k : Except Err ρ → Except Err τ) (k' : ρ' → τ')
    {F : List K → Except Err τ} {G : List K → τ'} (hk : ∀ e, k (.error e) = .error e)
    (eF : ∀ t, F t = k (F1 t)) (eG : ∀ t, G t = k' (G1 t))
    (h' : ∀ F' G', R F' G' → SameChances (OrFail R') (fun t => k (F' t)) (fun t => k' (G' t))) :
    SameChances (OrFail R') F G := by
  refine same_then h k k' eF eG ?_
  rintro F' G' (⟨e, rfl⟩ | hR)
  · exact .done (.inl ⟨e, by simp only [hk]⟩)
  · exact h' F' G' hR

/-- A program that never fails. -/
lemma same_safe {ρ ρ' : Type*} {R : (List K → Except Err ρ) → (List K → ρ') → Prop}
    {F : List K → Except Err ρ} {G : List K → ρ'} (h : SameChances (OrFail R) F G)
    (hs : ∀ t e, F t ≠ .error e) : SameChances R F G := by
  refine same_imp ?_ (same_reach h)
  rintro F' G' ⟨⟨e, rfl⟩ | hR, t, ht⟩
  · exact absurd (ht []) (hs _ e)
  · exact hR

/-- One choice. -/
lemma same_pick {n : ℕ} {w w' : Fin n → K} (e : Fin n ≃ Fin n) (hw : ∀ i, 0 ≤ w i) (ht : 0 < total w)
    (hk : ∀ k, w' (e k) = w k) {ρ ρ' : Type*} {R : (List K → ρ) → (List K → ρ') → Prop} {F : List K → ρ}
    {G : List K → ρ'} (F' : Fin n → List K → ρ) (G' : Fin n → List K → ρ')
    (hF : ∀ k t, randomPick w (tape.next t).1 = some k → F t = F' k (tape.next t).2)
    (hG : ∀ k t, randomPick w' (tape.next t).1 = some (e k) → G t = G' k (tape.next t).2)
    (h : ∀ k, 0 < w k → SameChances R (F' k) (G' k)) : SameChances R F G := by
  have hw' : ∀ i, 0 ≤ w' i := by
    intro i
    obtain ⟨k, rfl⟩ := e.surjective i
    rw [hk]; exact hw k
  refine .draw w w' e F' G' hw ht hk ?_ ?_ h
  · intro k x t x0 x1 hx
    have := hF k (x :: t)
    rw [tape_next x0 x1] at this
    exact this ((pick_chosen hw).mpr hx)
  · intro k x t x0 x1 hx
    have := hG k (x :: t)
    rw [tape_next x0 x1] at this
    exact this ((pick_chosen hw').mpr hx)

/-- The start cells: a cell of one inlet is chosen with the chance of its counterpart `e` in the other. -/
lemma same_starts {m : ℕ} (hm : 0 < m) (inlet inlet' : Fin m → ℤ) {Q : ℤ → ℤ → Prop} (e : Fin m ≃ Fin m)
    (hQ : ∀ k, Q (inlet k) (inlet' (e k))) (n : ℕ) :
    SameChances (fun F G => ∃ starts starts', List.Forall₂ Q starts starts' ∧
        F = (fun t => (some starts, t)) ∧ G = fun t => (some starts', t))
      (fun t : List K => (getStartIndices inlet (getInletWeights inlet : Fin m → K) (drawN tape n t).1,
        (drawN tape n t).2))
      (fun t : List K => (getStartIndices inlet' (getInletWeights inlet' : Fin m → K) (drawN tape n t).1,
        (drawN tape n t).2)) := by
  unfold getStartIndices
  have hsum : ((List.ofFn (getInletWeights inlet : Fin m → K)).sum) = m := by
    rw [List.sum_ofFn]; simp [getInletWeights]
  have hsum' : ((List.ofFn (getInletWeights inlet' : Fin m → K)).sum) = m := by
    rw [List.sum_ofFn]; simp [getInletWeights]
  simp only [hsum, hsum']
  have e1 : (fun k => (getInletWeights inlet : Fin m → K) k / (m : K)) = fun _ => 1 / (m : K) := rfl
  have e2 : (fun k => (getInletWeights inlet' : Fin m → K) k / (m : K)) = fun _ => 1 / (m : K) := rfl
  rw [e1, e2]
  have hmK : (0 : K) < m := by exact_mod_cast hm
  have hw : ∀ i : Fin m, 0 ≤ (fun _ : Fin m => 1 / (m : K)) i := fun _ => by positivity
  have ht : 0 < total (fun _ : Fin m => 1 / (m : K)) := by
    unfold total
    simp only [Finset.sum_const, Finset.card_univ, Fintype.card_fin, nsmul_eq_mul]
    positivity
  induction n with
  | zero => exact .done ⟨[], [], .nil, rfl, rfl⟩
  | succ n ih =>
    refine same_pick (w' := fun _ => 1 / (m : K)) e hw ht (fun _ => rfl)
      (fun k t => ((startLoop inlet (fun _ => 1 / (m : K)) (drawN tape n t).1).map (inlet k :: ·), (drawN tape n t).2))
      (fun k t => ((startLoop inlet' (fun _ => 1 / (m : K)) (drawN tape n t).1).map (inlet' (e k) :: ·),
        (drawN tape n t).2)) ?_ ?_ ?_
    · intro k t h
      simp only [drawN, startLoop, h]
      cases startLoop inlet (fun _ => 1 / (m : K)) (drawN tape n (tape.next t).2).1 <;> rfl
    · intro k t h
      simp only [drawN, startLoop, h]
      cases startLoop inlet' (fun _ => 1 / (m : K)) (drawN tape n (tape.next t).2).1 <;> rfl
    · intro k _
      refine same_then ih (fun x => (x.1.map (inlet k :: ·), x.2)) (fun x => (x.1.map (inlet' (e k) :: ·), x.2))
        (fun _ => rfl) (fun _ => rfl) ?_
      rintro F' G' ⟨starts, starts', hs, rfl, rfl⟩
      exact .done ⟨_, _, .cons (hQ k) hs, rfl, rfl⟩

/-- Programs that behave alike by chance reach related things with the same probability. -/
lemma same_probability {ρ ρ' : Type*} {R : (List K → ρ) → (List K → ρ') → Prop} {F : List K → ρ}
    {G : List K → ρ'} (h : SameChances R F G) {A B : (List K → ρ) → Prop} {A' B' : (List K → ρ') → Prop}
    (hR : ∀ F G, R F G → (A F ∧ A' G) ∨ (B F ∧ B' G)) :
    ∃ p, Probability A B F p ∧ Probability A' B' G p := by
  induction h with
  | done h =>
    rcases hR _ _ h with ⟨a, b⟩ | ⟨a, b⟩
    · exact ⟨1, .yes a, .yes b⟩
    · exact ⟨0, .no a, .no b⟩
  | draw w w' e F' G' a1 a2 a3 a4 a5 _ ih =>
    choose! p hp using ih
    have hw' : ∀ i, w' i = w (e.symm i) := fun i => by rw [← a3, Equiv.apply_symm_apply]
    have hsum : ∑ k, w' k = ∑ k, w k := by
      rw [← Equiv.sum_comp e w']
      exact Finset.sum_congr rfl fun k _ => a3 k
    refine ⟨(∑ k, w k * p k) / ∑ k, w k, .draw w F' p a1 a2 a4 (fun k hk => (hp k hk).1), ?_⟩
    have hs : (∑ k, w k * p k) / ∑ k, w k = (∑ k, w' k * p (e.symm k)) / ∑ k, w' k := by
      rw [hsum, ← Equiv.sum_comp e fun k => w' k * p (e.symm k)]
      simp only [a3, Equiv.symm_apply_apply]
    rw [hs]
    refine .draw w' (fun k => G' (e.symm k)) _ (fun k => by rw [hw']; exact a1 _) (by rw [hsum]; exact a2) ?_ ?_
    · intro k x t x0 x1 hx
      exact a5 (e.symm k) x t x0 x1 (by rwa [Equiv.apply_symm_apply])
    · intro k hk
      exact (hp (e.symm k) (by rwa [← hw'])).2

end Verif.Props
