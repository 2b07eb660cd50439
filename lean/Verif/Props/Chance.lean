import Mathlib.Probability.StrongLaw
import Mathlib.Probability.Independence.InfinitePi
import Verif.Spec.Chance
import Verif.Props.Reals
import Verif.Props.MirrorSediment
import Verif.Props.Centred

set_option linter.unusedSectionVars false

namespace Verif.Props

open Verif.Model Verif.Lemmas Verif.Spec MeasureTheory ProbabilityTheory

instance : IsProbabilityMeasure unitLaw := ⟨by simp [unitLaw]⟩

/-- The numbers of a tape as one random element. -/
noncomputable def tapeLaw (n : ℕ) : Measure (Fin n → ℝ) := Measure.pi fun _ => unitLaw

instance (n : ℕ) : IsProbabilityMeasure (tapeLaw n) := by unfold tapeLaw; infer_instance

/-- The tapes of numbers between 0 and 1 on which a program does what is claimed. -/
def tapesOf {ρ : Type*} (F : List ℝ → ρ) (C : ρ → Prop) (n : ℕ) : Set (Fin n → ℝ) :=
  {x | (∀ i, 0 < x i ∧ x i ≤ 1) ∧ C (F (List.ofFn x))}

lemma tapes_box (n : ℕ) : tapeLaw n {x | ∀ i, 0 < x i ∧ x i ≤ 1}ᶜ = 0 := by
  have e : {x : Fin n → ℝ | ∀ i, 0 < x i ∧ x i ≤ 1} = Set.univ.pi fun _ => Set.Ioc 0 1 := by
    ext x; simp [Set.mem_pi]
  rw [e, prob_compl_eq_zero_iff (MeasurableSet.univ_pi fun _ => measurableSet_Ioc)]
  unfold tapeLaw
  rw [Measure.pi_pi]
  simp [unitLaw]

/-- The numbers that make a choice. -/
def numbersFor {n : ℕ} (w : Fin n → ℝ) (k : Fin n) : Set ℝ := {x | 0 < x ∧ x ≤ 1 ∧ Chosen w x k}

lemma numbersFor_interval {n : ℕ} {w : Fin n → ℝ} (hw : ∀ k, 0 ≤ w k) (ht : 0 < ∑ k, w k) (k : Fin n) :
    ∃ a, 0 ≤ a ∧ a + w k / ∑ i, w i ≤ 1 ∧ numbersFor w k = Set.Ioc a (a + w k / ∑ i, w i) := by
  have hle : ∑ i with i ≤ k, w i = ∑ i with i < k, w i + w k := by
    have : Finset.univ.filter (fun i => i ≤ k) = insert k (Finset.univ.filter (fun i => i < k)) := by
      ext i
      simp only [Finset.mem_filter, Finset.mem_univ, true_and, Finset.mem_insert]
      rw [le_iff_eq_or_lt]
    rw [this, Finset.sum_insert (by simp), add_comm]
  have hs : ∑ i with i ≤ k, w i ≤ ∑ i, w i :=
    Finset.sum_le_sum_of_subset_of_nonneg (Finset.filter_subset _ _) (fun i _ _ => hw i)
  have h0 : 0 ≤ ∑ i with i < k, w i := Finset.sum_nonneg fun i _ => hw i
  have hone : (∑ i with i < k, w i) / ∑ i, w i + w k / ∑ i, w i ≤ 1 := by
    rw [← add_div, div_le_one ht, ← hle]; exact hs
  refine ⟨(∑ i with i < k, w i) / ∑ i, w i, by positivity, hone, ?_⟩
  ext x
  unfold numbersFor Chosen
  rw [Set.mem_ofPred_eq, Set.mem_Ioc, hle, div_lt_iff₀ ht]
  constructor
  · rintro ⟨hx, -, h1, h2⟩
    refine ⟨?_, by rw [← add_div, le_div_iff₀ ht]; exact h2⟩
    rcases h1 with h1 | h1
    · have : Finset.univ.filter (fun i : Fin n => i < k) = ∅ := by
        ext i
        simp only [Finset.mem_filter, Finset.mem_univ, true_and, Finset.notMem_empty, iff_false]
        intro h
        have : i.val < k.val := h
        omega
      rw [this, Finset.sum_empty]
      positivity
    · exact h1
  · rintro ⟨h1, h2⟩
    have hx : 0 < x := by
      rcases lt_or_ge 0 x with h | h
      · exact h
      · have := mul_nonpos_of_nonpos_of_nonneg h ht.le
        linarith
    refine ⟨hx, h2.trans hone, .inr h1, ?_⟩
    rw [← add_div, le_div_iff₀ ht] at h2
    exact h2

lemma numbersFor_law {n : ℕ} {w : Fin n → ℝ} (hw : ∀ k, 0 ≤ w k) (ht : 0 < ∑ k, w k) (k : Fin n) :
    MeasurableSet (numbersFor w k) ∧ unitLaw (numbersFor w k) = ENNReal.ofReal (w k / ∑ i, w i) := by
  obtain ⟨a, h0, h1, e⟩ := numbersFor_interval hw ht k
  rw [e]
  refine ⟨measurableSet_Ioc, ?_⟩
  unfold unitLaw
  rw [Measure.restrict_apply measurableSet_Ioc, Set.inter_eq_left.mpr (Set.Ioc_subset_Ioc h0 h1)]
  simp

lemma numbersFor_cover {n : ℕ} {w : Fin n → ℝ} (hw : ∀ k, 0 ≤ w k) (ht : 0 < ∑ k, w k) {x : ℝ} (h0 : 0 < x)
    (h1 : x ≤ 1) : ∃ k, 0 < w k ∧ x ∈ numbersFor w k := by
  have hn : 0 < n := by
    rcases Nat.eq_zero_or_pos n with rfl | h
    · simp at ht
    · exact h
  obtain ⟨k, hk⟩ := C04_pick_total hn w hw x h1
  exact ⟨k, C04_positive_weight_partial w hw ht x h0 k hk, h0, h1, (pick_chosen hw).mp hk⟩

lemma numbersFor_unique {n : ℕ} {w : Fin n → ℝ} (hw : ∀ k, 0 ≤ w k) {x : ℝ} {k j : Fin n}
    (hk : x ∈ numbersFor w k) (hj : x ∈ numbersFor w j) : k = j := by
  have h1 := (pick_chosen hw).mpr hk.2.2
  have h2 := (pick_chosen hw).mpr hj.2.2
  rw [h1] at h2
  exact Option.some.inj h2

/-- After one choice. -/
lemma tapes_draw {ρ : Type*} {F : List ℝ → ρ} {n : ℕ} (w : Fin n → ℝ) (F' : Fin n → List ℝ → ρ)
    (hw : ∀ k, 0 ≤ w k) (ht : 0 < ∑ k, w k)
    (step : ∀ k x t, 0 < x → x ≤ 1 → Chosen w x k → F (x :: t) = F' k t) (C : ρ → Prop) {j : ℕ}
    (hm : ∀ k, 0 < w k → MeasurableSet (tapesOf (F' k) C j)) :
    MeasurableSet (tapesOf F C (j + 1)) ∧
      tapeLaw (j + 1) (tapesOf F C (j + 1)) =
        ∑ k, ENNReal.ofReal (w k / ∑ i, w i) * tapeLaw j (tapesOf (F' k) C j) := by
  classical
  let s : Finset (Fin n) := Finset.univ.filter fun k => 0 < w k
  let V : Fin n → Set (ℝ × (Fin j → ℝ)) := fun k => numbersFor w k ×ˢ tapesOf (F' k) C j
  let φ := MeasurableEquiv.piFinSuccAbove (fun _ : Fin (j + 1) => ℝ) 0
  have e : tapesOf F C (j + 1) = φ ⁻¹' ⋃ k ∈ s, V k := by
    ext x
    have hφ : φ x = (x 0, fun i : Fin j => x i.succ) := by
      ext i
      · rfl
      · rfl
    have hx : List.ofFn x = x 0 :: List.ofFn fun i : Fin j => x i.succ := List.ofFn_succ
    simp only [Set.mem_preimage, hφ, Set.mem_iUnion, V, Set.mem_prod, s, Finset.mem_filter, Finset.mem_univ,
      true_and, exists_prop]
    unfold tapesOf
    simp only [Set.mem_ofPred_eq, hx]
    constructor
    · rintro ⟨h1, h2⟩
      obtain ⟨k, hk, hxk⟩ := numbersFor_cover hw ht (h1 0).1 (h1 0).2
      refine ⟨k, hk, hxk, fun i => h1 i.succ, ?_⟩
      rwa [step k (x 0) _ (h1 0).1 (h1 0).2 hxk.2.2] at h2
    · rintro ⟨k, hk, hxk, h1, h2⟩
      refine ⟨fun i => ?_, ?_⟩
      · refine Fin.cases ⟨hxk.1, hxk.2.1⟩ (fun i => h1 i) i
      · rw [step k (x 0) _ hxk.1 hxk.2.1 hxk.2.2]; exact h2
  have hV : ∀ k ∈ s, MeasurableSet (V k) := by
    intro k hk
    exact (numbersFor_law hw ht k).1.prod (hm k (Finset.mem_filter.mp hk).2)
  have hU : MeasurableSet (⋃ k ∈ s, V k) := Finset.measurableSet_biUnion s hV
  refine ⟨by rw [e]; exact φ.measurable hU, ?_⟩
  have mp := measurePreserving_piFinSuccAbove (fun _ : Fin (j + 1) => unitLaw) 0
  have h1 : tapeLaw (j + 1) (tapesOf F C (j + 1)) = (unitLaw.prod (tapeLaw j)) (⋃ k ∈ s, V k) := by
    rw [e]
    exact mp.measure_preimage hU.nullMeasurableSet
  have hd : Set.PairwiseDisjoint (s : Set (Fin n)) V := by
    intro k _ l _ hkl
    refine Set.disjoint_left.mpr fun x hx hy => hkl (numbersFor_unique hw hx.1 hy.1)
  rw [h1, measure_biUnion_finset hd hV]
  simp only [V, Measure.prod_prod]
  rw [Finset.sum_filter]
  refine Finset.sum_congr rfl fun k _ => ?_
  split
  · rw [(numbersFor_law hw ht k).2]
  · rename_i h
    have : w k = 0 := le_antisymm (not_lt.mp h) (hw k)
    simp [this]

/-- What a choice followed by something of a given probability gives. -/
lemma tapes_average {ρ : Type*} {F : List ℝ → ρ} {n : ℕ} (w : Fin n → ℝ) (F' : Fin n → List ℝ → ρ)
    (hw : ∀ k, 0 ≤ w k) (ht : 0 < ∑ k, w k)
    (step : ∀ k x t, 0 < x → x ≤ 1 → Chosen w x k → F (x :: t) = F' k t) (C : ρ → Prop) {j : ℕ} {p : Fin n → ℝ}
    (hm : ∀ k, 0 < w k → 0 ≤ p k ∧ MeasurableSet (tapesOf (F' k) C j) ∧
      tapeLaw j (tapesOf (F' k) C j) = ENNReal.ofReal (p k)) :
    MeasurableSet (tapesOf F C (j + 1)) ∧
      tapeLaw (j + 1) (tapesOf F C (j + 1)) = ENNReal.ofReal ((∑ k, w k * p k) / ∑ k, w k) := by
  obtain ⟨h1, h2⟩ := tapes_draw w F' hw ht step C fun k hk => (hm k hk).2.1
  refine ⟨h1, ?_⟩
  rw [h2, Finset.sum_div]
  have hnn : ∀ k, 0 ≤ w k * p k / ∑ k, w k := by
    intro k
    rcases (hw k).eq_or_lt with h | h
    · rw [← h]; simp
    · exact div_nonneg (mul_nonneg h.le (hm k h).1) ht.le
  rw [ENNReal.ofReal_sum_of_nonneg fun k _ => hnn k]
  refine Finset.sum_congr rfl fun k _ => ?_
  rcases (hw k).eq_or_lt with h | h
  · rw [← h]; simp
  · rw [(hm k h).2.2, ← ENNReal.ofReal_mul (div_nonneg h.le ht.le), div_mul_eq_mul_div]

/-- A claim that holds of everything, or of nothing. -/
lemma tapes_sure {ρ : Type*} {F : List ℝ → ρ} {C : ρ → Prop} (h : ∀ t, C (F t)) (n : ℕ) :
    MeasurableSet (tapesOf F C n) ∧ tapeLaw n (tapesOf F C n) = ENNReal.ofReal 1 := by
  have e : tapesOf F C n = {x | ∀ i, 0 < x i ∧ x i ≤ 1} := by ext x; simp [tapesOf, h]
  have hm : MeasurableSet {x : Fin n → ℝ | ∀ i, 0 < x i ∧ x i ≤ 1} := by
    have e : {x : Fin n → ℝ | ∀ i, 0 < x i ∧ x i ≤ 1} = Set.univ.pi fun _ => Set.Ioc 0 1 := by
      ext x; simp [Set.mem_pi]
    rw [e]; exact MeasurableSet.univ_pi fun _ => measurableSet_Ioc
  rw [e]
  refine ⟨hm, ?_⟩
  rw [ENNReal.ofReal_one, ← prob_compl_eq_zero_iff hm]
  exact tapes_box n

lemma tapes_never {ρ : Type*} {F : List ℝ → ρ} {C : ρ → Prop} (h : ∀ t, ¬ C (F t)) (n : ℕ) :
    MeasurableSet (tapesOf F C n) ∧ tapeLaw n (tapesOf F C n) = ENNReal.ofReal 0 := by
  have e : tapesOf F C n = ∅ := by ext x; simp [tapesOf, h]
  rw [e]; simp

/-- Programs that behave alike by chance: claims that are true of one when they are of the other. -/
lemma same_law {ρ ρ' : Type*} {R : (List ℝ → ρ) → (List ℝ → ρ') → Prop} {F : List ℝ → ρ}
    {G : List ℝ → ρ'} (h : SameChances R F G) : ∃ N, ∀ (C : ρ → Prop) (C' : ρ' → Prop),
      (∀ F G, R F G → ((∀ t, C (F t)) ∧ ∀ t, C' (G t)) ∨ ((∀ t, ¬ C (F t)) ∧ ∀ t, ¬ C' (G t))) →
      ∃ p, 0 ≤ p ∧ ∀ n ≥ N, (MeasurableSet (tapesOf F C n) ∧ tapeLaw n (tapesOf F C n) = ENNReal.ofReal p) ∧
        MeasurableSet (tapesOf G C' n) ∧ tapeLaw n (tapesOf G C' n) = ENNReal.ofReal p := by
  induction h with
  | done h =>
    refine ⟨0, fun C C' hC => ?_⟩
    rcases hC _ _ h with ⟨a, b⟩ | ⟨a, b⟩
    · exact ⟨1, zero_le_one, fun n _ => ⟨tapes_sure a n, tapes_sure b n⟩⟩
    · exact ⟨0, le_rfl, fun n _ => ⟨tapes_never a n, tapes_never b n⟩⟩
  | draw w w' e F' G' a1 a2 a3 a4 a5 _ ih =>
    choose! N hN using ih
    refine ⟨Finset.univ.sup N + 1, fun C C' hC => ?_⟩
    choose! p hp using fun k hk => hN k hk C C' hC
    have hw' : ∀ i, w' i = w (e.symm i) := fun i => by rw [← a3, Equiv.apply_symm_apply]
    have hsum : ∑ k, w' k = ∑ k, w k := by
      rw [← Equiv.sum_comp e w']
      exact Finset.sum_congr rfl fun k _ => a3 k
    refine ⟨(∑ k, w k * p k) / ∑ k, w k, div_nonneg (Finset.sum_nonneg fun k _ => ?_) a2.le, fun n hn => ?_⟩
    · rcases (a1 k).eq_or_lt with h | h
      · rw [← h]; simp
      · exact mul_nonneg h.le (hp k h).1
    obtain ⟨j, rfl⟩ : ∃ j, n = j + 1 := ⟨n - 1, by omega⟩
    have hj : ∀ k, N k ≤ j := fun k => le_trans (Finset.le_sup (f := N) (Finset.mem_univ k)) (by omega)
    refine ⟨tapes_average w F' a1 a2 a4 C fun k hk => ⟨(hp k hk).1, ((hp k hk).2 j (hj k)).1⟩, ?_⟩
    have hs : (∑ k, w k * p k) / ∑ k, w k = (∑ k, w' k * p (e.symm k)) / ∑ k, w' k := by
      rw [hsum, ← Equiv.sum_comp e fun k => w' k * p (e.symm k)]
      simp only [a3, Equiv.symm_apply_apply]
    rw [hs]
    refine tapes_average w' (fun k => G' (e.symm k)) (fun k => by rw [hw']; exact a1 _) (by rw [hsum]; exact a2)
      ?_ C' (p := fun k => p (e.symm k)) fun k hk => ?_
    · intro k x t x0 x1 hx
      exact a5 (e.symm k) x t x0 x1 (by rwa [Equiv.apply_symm_apply])
    · have hk' : 0 < w (e.symm k) := by rwa [← hw']
      exact ⟨(hp _ hk').1, ((hp _ hk').2 j (hj _)).2⟩

/-- What has a probability as defined for tapes has it for tapes of random numbers. -/
lemma prob_law {ρ : Type*} {A B : (List ℝ → ρ) → Prop} {F : List ℝ → ρ} {p : ℝ} (h : Probability A B F p)
    {C : ρ → Prop} (hA : ∀ F, A F → ∀ t, C (F t)) (hB : ∀ F, B F → ∀ t, ¬ C (F t)) :
    ∃ N, 0 ≤ p ∧ ∀ n ≥ N, MeasurableSet (tapesOf F C n) ∧ tapeLaw n (tapesOf F C n) = ENNReal.ofReal p := by
  induction h with
  | yes h => exact ⟨0, zero_le_one, fun n _ => tapes_sure (hA _ h) n⟩
  | no h => exact ⟨0, le_rfl, fun n _ => tapes_never (hB _ h) n⟩
  | draw w F' p a1 a2 a3 _ ih =>
    choose! N hN using ih
    refine ⟨Finset.univ.sup N + 1, div_nonneg (Finset.sum_nonneg fun k _ => ?_) a2.le, fun n hn => ?_⟩
    · rcases (a1 k).eq_or_lt with h | h
      · rw [← h]; simp
      · exact mul_nonneg h.le (hN k h).1
    obtain ⟨j, rfl⟩ : ∃ j, n = j + 1 := ⟨n - 1, by omega⟩
    have hj : ∀ k, N k ≤ j := fun k => le_trans (Finset.le_sup (f := N) (Finset.mem_univ k)) (by omega)
    exact tapes_average w F' a1 a2 a3 C fun k hk => ⟨(hN k hk).1, (hN k hk).2 j (hj k)⟩

section Space

variable {Ω : Type*} [MeasurableSpace Ω] {μ : Measure Ω} {U : ℕ → Ω → ℝ}

lemma numbers_prob (h : RandomNumbers μ U) : IsProbabilityMeasure μ := by
  have := h.uniform 0
  refine ⟨?_⟩
  have h1 : μ.map (U 0) Set.univ = 1 := by rw [this]; exact measure_univ
  rwa [Measure.map_apply (h.measurable 0) MeasurableSet.univ] at h1

lemma numbers_tape (h : RandomNumbers μ U) (n : ℕ) :
    μ.map (fun ω (i : Fin n) => U i ω) = tapeLaw n := by
  have := numbers_prob h
  have h1 : iIndepFun (fun i : Fin n => U i) μ := h.independent.precomp Fin.val_injective
  rw [iIndepFun.map_fun_eq_pi_map (f := fun i : Fin n => U i) (fun i => (h.measurable i).aemeasurable) h1]
  unfold tapeLaw
  congr 1
  funext i
  exact h.uniform i

/-- From tapes to random numbers of any origin. -/
lemma prob_of_tapes (h : RandomNumbers μ U) {ρ : Type*} {F : List ℝ → ρ} {C : ρ → Prop} {n : ℕ} {p : ℝ} (h0 : 0 ≤ p)
    (hm : MeasurableSet (tapesOf F C n)) (hp : tapeLaw n (tapesOf F C n) = ENNReal.ofReal p) :
    HasProb μ (fun ω => C (F (firstNumbers U n ω))) p := by
  have hf : Measurable fun ω (i : Fin n) => U i ω := measurable_pi_lambda _ fun i => h.measurable i
  have e : {ω | C (F (firstNumbers U n ω))} = (fun ω (i : Fin n) => U i ω) ⁻¹' {x | C (F (List.ofFn x))} := rfl
  have hae : {x : Fin n → ℝ | C (F (List.ofFn x))} =ᵐ[tapeLaw n] tapesOf F C n := by
    have : {x : Fin n → ℝ | ∀ i, 0 < x i ∧ x i ≤ 1} ∈ ae (tapeLaw n) := tapes_box n
    filter_upwards [this] with x hx
    exact propext ⟨fun hc => ⟨hx, hc⟩, fun hc => hc.2⟩
  have hnm : NullMeasurableSet {x : Fin n → ℝ | C (F (List.ofFn x))} (tapeLaw n) :=
    ⟨_, hm, hae⟩
  have mp : MeasurePreserving (fun ω (i : Fin n) => U i ω) μ (tapeLaw n) := ⟨hf, numbers_tape h n⟩
  refine ⟨h0, ?_, ?_⟩
  · rw [e]; exact hnm.preimage mp.quasiMeasurePreserving
  · rw [e, mp.measure_preimage hnm, measure_congr hae, hp]

/-- C111: a weighted choice takes each option with a probability in proportion to its weight. -/
theorem C111_choice (h : RandomNumbers μ U) {n : ℕ} {w : Fin n → ℝ} (hw : ∀ k, 0 ≤ w k) (ht : 0 < ∑ k, w k)
    (i : ℕ) (k : Fin n) : HasProb μ (fun ω => randomPick w (U i ω) = some k) (w k / ∑ k, w k) := by
  obtain ⟨hm, hp⟩ := numbersFor_law hw ht k
  have mp : MeasurePreserving (U i) μ unitLaw := ⟨h.measurable i, h.uniform i⟩
  have hae : {x : ℝ | randomPick w x = some k} =ᵐ[unitLaw] numbersFor w k := by
    have : Set.Ioc (0 : ℝ) 1 ∈ ae unitLaw := by
      have := prob_compl_eq_zero_iff (μ := unitLaw) (measurableSet_Ioc (a := (0 : ℝ)) (b := 1))
      exact this.mpr (by simp [unitLaw])
    filter_upwards [this] with x hx
    exact propext ⟨fun hc => ⟨hx.1, hx.2, (pick_chosen hw).mp hc⟩, fun hc => (pick_chosen hw).mpr hc.2.2⟩
  have hnm : NullMeasurableSet {x : ℝ | randomPick w x = some k} unitLaw := ⟨_, hm, hae⟩
  have e : {ω | randomPick w (U i ω) = some k} = U i ⁻¹' {x | randomPick w x = some k} := rfl
  refine ⟨div_nonneg (hw k) ht.le, ?_, ?_⟩
  · rw [e]; exact hnm.preimage mp.quasiMeasurePreserving
  · rw [e, mp.measure_preimage hnm, measure_congr hae, hp]

/-- C111: the start cells of `n` parcels are independent and each of the `m` cells of the inlet is as likely as
the others: every sequence of start cells has probability `1 / m ^ n`. -/
theorem C111_starts (h : RandomNumbers μ U) {m : ℕ} (hm : 0 < m) {inlet : Fin m → ℤ}
    (hi : Function.Injective inlet) (ks : List (Fin m)) :
    HasProb μ (fun ω => getStartIndices inlet (getInletWeights inlet : Fin m → ℝ)
      (firstNumbers U ks.length ω) = some (ks.map inlet)) ((1 / (m : ℝ)) ^ ks.length) := by
  have hmK : (0 : ℝ) < m := by exact_mod_cast hm
  have hsum : ((List.ofFn (getInletWeights inlet : Fin m → ℝ)).sum) = m := by
    rw [List.sum_ofFn]; simp [getInletWeights]
  have e1 : (fun k => (getInletWeights inlet : Fin m → ℝ) k / (m : ℝ)) = fun _ => 1 / (m : ℝ) := rfl
  unfold getStartIndices
  simp only [hsum, e1]
  have ht : ∑ _k : Fin m, 1 / (m : ℝ) = 1 := by
    simp only [Finset.sum_const, Finset.card_univ, Fintype.card_fin, nsmul_eq_mul]
    field_simp
  have key : ∀ ks : List (Fin m), MeasurableSet (tapesOf (startLoop inlet fun _ => 1 / (m : ℝ))
      (fun r => r = some (ks.map inlet)) ks.length) ∧ tapeLaw ks.length (tapesOf (startLoop inlet fun _ => 1 / (m : ℝ))
      (fun r => r = some (ks.map inlet)) ks.length) = ENNReal.ofReal ((1 / (m : ℝ)) ^ ks.length) := by
    intro ks
    induction ks with
    | nil =>
      have e : tapesOf (startLoop inlet fun _ => 1 / (m : ℝ)) (fun r => r = some (List.map inlet []))
          (List.length ([] : List (Fin m))) = Set.univ := by
        ext x
        simp [tapesOf, startLoop]
      rw [e]
      exact ⟨MeasurableSet.univ, by simp⟩
    | cons k0 ks ih =>
      have hw : ∀ k : Fin m, 0 ≤ (fun _ : Fin m => 1 / (m : ℝ)) k := fun _ => by positivity
      have hd := tapes_draw (F := fun t => startLoop inlet (fun _ => 1 / (m : ℝ)) t)
        (fun _ : Fin m => 1 / (m : ℝ))
        (fun k t => (startLoop inlet (fun _ => 1 / (m : ℝ)) t).map (inlet k :: ·)) hw
        (by rw [ht]; exact one_pos) (by
          intro k x t x0 x1 hx
          have := (pick_chosen hw).mpr hx
          simp only [startLoop, this]
          cases startLoop inlet (fun _ => 1 / (m : ℝ)) t <;> rfl)
        (fun r => r = some ((k0 :: ks).map inlet)) (j := ks.length)
      have e : ∀ k, tapesOf (fun t => (startLoop inlet (fun _ => 1 / (m : ℝ)) t).map (inlet k :: ·))
          (fun r => r = some ((k0 :: ks).map inlet)) ks.length =
          if k = k0 then tapesOf (startLoop inlet fun _ => 1 / (m : ℝ)) (fun r => r = some (ks.map inlet)) ks.length
          else ∅ := by
        intro k
        ext x
        unfold tapesOf
        split
        · rename_i hk
          subst hk
          simp only [Set.mem_ofPred_eq, List.map_cons, Option.map_eq_some_iff, List.cons.injEq, true_and,
            exists_eq_right]
        · rename_i hk
          simp only [Set.mem_ofPred_eq, List.map_cons, Option.map_eq_some_iff, List.cons.injEq,
            Set.mem_empty_iff_false, iff_false, not_and]
          rintro - ⟨a, -, h1, -⟩
          exact hk (hi h1)
      have hm' := hd (by
        intro k _
        rw [e k]
        split
        · exact ih.1
        · exact MeasurableSet.empty)
      refine ⟨hm'.1, ?_⟩
      rw [List.length_cons, hm'.2]
      have : ∀ k : Fin m, ENNReal.ofReal (1 / (m : ℝ) / ∑ _i : Fin m, 1 / (m : ℝ)) * tapeLaw ks.length
          (tapesOf (fun t => (startLoop inlet (fun _ => 1 / (m : ℝ)) t).map (inlet k :: ·))
          (fun r => r = some ((k0 :: ks).map inlet)) ks.length) =
          if k = k0 then ENNReal.ofReal ((1 / (m : ℝ)) ^ (ks.length + 1)) else 0 := by
        intro k
        rw [e k, ht]
        split
        · rw [ih.2, ← ENNReal.ofReal_mul (by positivity), pow_succ', div_one]
        · simp
      rw [Finset.sum_congr rfl fun k _ => this k]
      simp
  exact prob_of_tapes h (by positivity) (key ks).1 (key ks).2

end Space

/-! ## Runs -/

variable {L W m : ℕ} [NeZero L] [NeZero W]

/-- The run ends in fields as described by `Q`. -/
def EndsWith {α : Type*} (Q : State L W ℝ → Prop) : Except Err (State L W ℝ × α × List ℝ) → Prop
  | .ok (S', _, _) => Q S'
  | .error _ => False

/-- A quantity of the fields at the end of a run. -/
def endValue {α : Type*} (h : State L W ℝ → ℝ) : Except Err (State L W ℝ × α × List ℝ) → ℝ
  | .ok (S', _, _) => h S'
  | .error _ => 0

/-- C111: if the numbers are independent and uniformly distributed, whatever is said about the fields at the end of
a run of any length is an event. Its probability does not depend on where the numbers come from nor on how many there
are, if there are enough (`N` is enough for all claims). The claim has the same probability for the mirrored fields in
the mirrored basin. -/
theorem C111_run {Ps : List (Params L W m ℝ)} (hPs : ∀ P ∈ Ps, MirrorSetup P ∧ SedDomain P ∧ 0 ≤ P.h0)
    {S : State L W ℝ} (hd : ∀ c, 0 ≤ S.depth c) (hn : 0 < S.ncols) :
    ∃ N, ∀ Q : State L W ℝ → Prop, ∃ p, ∀ n ≥ N, ∀ {Ω : Type*} [MeasurableSpace Ω] (μ : Measure Ω) (U : ℕ → Ω → ℝ),
      RandomNumbers μ U →
      HasProb μ (fun ω => EndsWith Q (timesteps tape Ps S (firstNumbers U n ω))) p ∧
      HasProb μ (fun ω => EndsWith (fun S => Q (mirrorState S))
        (timesteps tape (Ps.map mirrorParams) (mirrorState S) (firstNumbers U n ω))) p := by
  obtain ⟨N, hN⟩ := same_law (C80_run hPs hd hn)
  refine ⟨N, fun Q => ?_⟩
  obtain ⟨p, h0, hp⟩ := hN (EndsWith Q) (EndsWith fun S => Q (mirrorState S)) (by
    rintro F G ⟨S', l, l', -, -, rfl, rfl⟩
    by_cases hQ : Q S'
    · exact .inl ⟨fun t => hQ, fun t => by simp only [EndsWith, mirrorState_mirror]; exact hQ⟩
    · exact .inr ⟨fun t => hQ, fun t => by simp only [EndsWith, mirrorState_mirror]; exact hQ⟩)
  refine ⟨p, fun n hn Ω _ μ U hU => ?_⟩
  exact ⟨prob_of_tapes hU h0 (hp n hn).1.1 (hp n hn).1.2, prob_of_tapes hU h0 (hp n hn).2.1 (hp n hn).2.2⟩

/-- C111: the probabilities of C80 and C91 are probabilities of this kind. -/
theorem C111_meaning {Ps : List (Params L W m ℝ)} {S : State L W ℝ} {Q : State L W ℝ → Prop} {p : ℝ}
    (h : Probability (EndsIn Q) (EndsIn fun S => ¬ Q S) (timesteps tape Ps S) p) :
    ∃ N, ∀ n ≥ N, ∀ {Ω : Type*} [MeasurableSpace Ω] (μ : Measure Ω) (U : ℕ → Ω → ℝ), RandomNumbers μ U →
      HasProb μ (fun ω => EndsWith Q (timesteps tape Ps S (firstNumbers U n ω))) p := by
  obtain ⟨N, h0, hp⟩ := prob_law (C := EndsWith Q) h
    (by rintro F ⟨S', l, rfl, hQ⟩ t; exact hQ) (by rintro F ⟨S', l, rfl, hQ⟩ t; exact hQ)
  exact ⟨N, fun n hn Ω _ μ U hU => prob_of_tapes hU h0 (hp n hn).1 (hp n hn).2⟩

/-- A program that comes to an end has finitely many results. -/
lemma same_finite {ρ ρ' : Type*} {R : (List ℝ → ρ) → (List ℝ → ρ') → Prop} {F : List ℝ → ρ} {G : List ℝ → ρ'}
    (h : SameChances R F G) : ∃ N : ℕ, ∀ {α : Type*} (f : ρ → α), (∀ F G, R F G → ∃ a, ∀ t, f (F t) = a) →
    ∃ V : List α, ∀ t : List ℝ, N ≤ t.length → (∀ x ∈ t, 0 < x ∧ x ≤ 1) → f (F t) ∈ V := by
  induction h with
  | done h =>
    refine ⟨0, fun f hf => ?_⟩
    obtain ⟨a, ha⟩ := hf _ _ h
    exact ⟨[a], fun t _ _ => by rw [ha]; exact List.mem_singleton.mpr rfl⟩
  | @draw F G n w w' e F' G' a1 a2 a3 a4 a5 _ ih =>
    choose! N hN using ih
    refine ⟨Finset.univ.sup N + 1, fun f hf => ?_⟩
    choose! V hV using fun k hk => hN k hk f hf
    refine ⟨(List.ofFn V).flatten, fun t ht hx => ?_⟩
    cases t with
    | nil => simp at ht
    | cons x t =>
      obtain ⟨x0, x1⟩ := hx x List.mem_cons_self
      obtain ⟨k, hk, hxk⟩ := numbersFor_cover a1 a2 x0 x1
      rw [a4 k x t x0 x1 hxk.2.2]
      refine List.mem_flatten.mpr ⟨V k, (List.mem_ofFn).mpr ⟨k, rfl⟩, hV k hk t ?_ fun y hy => hx y (List.mem_cons_of_mem _ hy)⟩
      have : N k ≤ Finset.univ.sup N := Finset.le_sup (f := N) (Finset.mem_univ k)
      rw [List.length_cons] at ht
      omega

/-- C111: a run has finitely many possible outcomes. -/
theorem C111_finite {Ps : List (Params L W m ℝ)} (hPs : ∀ P ∈ Ps, MirrorSetup P ∧ SedDomain P ∧ 0 ≤ P.h0)
    {S : State L W ℝ} (hd : ∀ c, 0 ≤ S.depth c) (hn : 0 < S.ncols) :
    ∃ (N : ℕ) (V : List (State L W ℝ)), ∀ t : List ℝ, N ≤ t.length → (∀ x ∈ t, 0 < x ∧ x ≤ 1) →
      ∃ S' ∈ V, ∃ ls t', timesteps tape Ps S t = .ok (S', ls, t') := by
  obtain ⟨N, hN⟩ := same_finite (C80_run hPs hd hn)
  obtain ⟨V, hV⟩ := hN (fun r => match r with | .ok (S', _, _) => S' | .error _ => S) (by
      rintro F G ⟨S', l, l', -, -, rfl, rfl⟩
      exact ⟨S', fun t => rfl⟩)
  refine ⟨N, V, fun t ht hx => ?_⟩
  obtain ⟨S', ls, t', he⟩ := C71_run tape_positive (fun P hP => ⟨(hPs P hP).1.water, (hPs P hP).2⟩) hd hn t
  have h1 := hV t ht hx
  simp only [he] at h1
  exact ⟨S', h1, ls, t', he⟩

lemma tapes_null {ρ : Type*} {F : List ℝ → ρ} {C : ρ → Prop} {n : ℕ} (hm : MeasurableSet (tapesOf F C n)) :
    NullMeasurableSet {x : Fin n → ℝ | C (F (List.ofFn x))} (tapeLaw n) ∧
      tapeLaw n {x : Fin n → ℝ | C (F (List.ofFn x))} = tapeLaw n (tapesOf F C n) := by
  have hae : {x : Fin n → ℝ | C (F (List.ofFn x))} =ᵐ[tapeLaw n] tapesOf F C n := by
    have : {x : Fin n → ℝ | ∀ i, 0 < x i ∧ x i ≤ 1} ∈ ae (tapeLaw n) := tapes_box n
    filter_upwards [this] with x hx
    exact propext ⟨fun hc => ⟨hx, hc⟩, fun hc => hc.2⟩
  exact ⟨hm.nullMeasurableSet.congr hae.symm, measure_congr hae⟩

/-- Quantities that agree after matching choices have the same distribution. -/
lemma same_ident {ρ ρ' : Type*} {R : (List ℝ → ρ) → (List ℝ → ρ') → Prop} {F : List ℝ → ρ} {G : List ℝ → ρ'}
    (h : SameChances R F G) : ∃ N : ℕ, ∀ (f : ρ → ℝ) (f' : ρ' → ℝ),
      (∀ F G, R F G → ∃ a, (∀ t, f (F t) = a) ∧ ∀ t, f' (G t) = a) → ∀ n ≥ N,
      IdentDistrib (fun x : Fin n → ℝ => f (F (List.ofFn x))) (fun x : Fin N → ℝ => f (F (List.ofFn x)))
        (tapeLaw n) (tapeLaw N) ∧
      IdentDistrib (fun x : Fin n → ℝ => f' (G (List.ofFn x))) (fun x : Fin N → ℝ => f (F (List.ofFn x)))
        (tapeLaw n) (tapeLaw N) ∧
      Integrable (fun x : Fin N → ℝ => f (F (List.ofFn x))) (tapeLaw N) := by
  obtain ⟨N1, hN1⟩ := same_finite h
  obtain ⟨N2, hN2⟩ := same_law h
  refine ⟨max N1 N2, fun f f' hf n hn => ?_⟩
  have key : ∀ B : Set ℝ, ∃ p, 0 ≤ p ∧ ∀ n ≥ N2,
      (MeasurableSet (tapesOf F (fun r => f r ∈ B) n) ∧ tapeLaw n (tapesOf F (fun r => f r ∈ B) n) = ENNReal.ofReal p) ∧
      MeasurableSet (tapesOf G (fun r => f' r ∈ B) n) ∧ tapeLaw n (tapesOf G (fun r => f' r ∈ B) n) = ENNReal.ofReal p := by
    intro B
    refine hN2 (fun r => f r ∈ B) (fun r => f' r ∈ B) ?_
    intro F G hR
    obtain ⟨a, h1, h2⟩ := hf F G hR
    by_cases hB : a ∈ B
    · exact .inl ⟨fun t => by rw [h1]; exact hB, fun t => by rw [h2]; exact hB⟩
    · exact .inr ⟨fun t => by rw [h1]; exact hB, fun t => by rw [h2]; exact hB⟩
  have mF : ∀ n ≥ N2, AEMeasurable (fun x : Fin n → ℝ => f (F (List.ofFn x))) (tapeLaw n) := by
    intro n hn
    refine NullMeasurable.aemeasurable fun B _ => ?_
    obtain ⟨p, -, hp⟩ := key B
    exact (tapes_null (hp n hn).1.1).1
  have mG : ∀ n ≥ N2, AEMeasurable (fun x : Fin n → ℝ => f' (G (List.ofFn x))) (tapeLaw n) := by
    intro n hn
    refine NullMeasurable.aemeasurable fun B _ => ?_
    obtain ⟨p, -, hp⟩ := key B
    exact (tapes_null (hp n hn).2.1).1
  have hM := le_max_right N1 N2
  refine ⟨⟨mF n (hM.trans hn), mF _ hM, ?_⟩, ⟨mG n (hM.trans hn), mF _ hM, ?_⟩, ?_⟩
  · ext B hB
    rw [Measure.map_apply_of_aemeasurable (mF n (hM.trans hn)) hB, Measure.map_apply_of_aemeasurable (mF _ hM) hB]
    obtain ⟨p, -, hp⟩ := key B
    refine ((tapes_null (hp n (hM.trans hn)).1.1).2.trans (hp n (hM.trans hn)).1.2).trans ?_
    exact ((tapes_null (hp _ hM).1.1).2.trans (hp _ hM).1.2).symm
  · ext B hB
    rw [Measure.map_apply_of_aemeasurable (mG n (hM.trans hn)) hB, Measure.map_apply_of_aemeasurable (mF _ hM) hB]
    obtain ⟨p, -, hp⟩ := key B
    refine ((tapes_null (hp n (hM.trans hn)).2.1).2.trans (hp n (hM.trans hn)).2.2).trans ?_
    exact ((tapes_null (hp _ hM).1.1).2.trans (hp _ hM).1.2).symm
  · obtain ⟨V, hV⟩ := hN1 f fun F G hR => by
      obtain ⟨a, h1, -⟩ := hf F G hR
      exact ⟨a, h1⟩
    have hb : ∃ B : ℝ, ∀ v ∈ V, |v| ≤ B := by
      clear hV
      induction V with
      | nil => exact ⟨0, fun v hv => by simp at hv⟩
      | cons a V ih =>
        obtain ⟨B, hB⟩ := ih
        refine ⟨max |a| B, fun v hv => ?_⟩
        rcases List.mem_cons.mp hv with rfl | hv
        · exact le_max_left _ _
        · exact (hB v hv).trans (le_max_right _ _)
    obtain ⟨B, hB⟩ := hb
    refine Integrable.of_bound (mF _ hM).aestronglyMeasurable B ?_
    have : {x : Fin (max N1 N2) → ℝ | ∀ i, 0 < x i ∧ x i ≤ 1} ∈ ae (tapeLaw _) := tapes_box _
    filter_upwards [this] with x hx
    rw [Real.norm_eq_abs]
    refine hB _ (hV _ ?_ ?_)
    · rw [List.length_ofFn]; exact le_max_left _ _
    · intro y hy
      obtain ⟨i, rfl⟩ := (List.mem_ofFn).mp hy
      exact hx i

section

variable {Ω : Type*} [MeasurableSpace Ω] {μ : Measure Ω} {U : ℕ → Ω → ℝ}

/-- The numbers of one of several runs. -/
lemma numbers_block (h : RandomNumbers μ U) (n j : ℕ) :
    MeasurePreserving (fun ω (i : Fin n) => U (j * n + i) ω) μ (tapeLaw n) := by
  have := numbers_prob h
  have h1 : iIndepFun (fun i : Fin n => U (j * n + i)) μ :=
    h.independent.precomp (g := fun i : Fin n => j * n + i.val) fun a b hab => by
      simp only at hab; exact Fin.ext (by omega)
  refine ⟨measurable_pi_lambda _ fun i => h.measurable _, ?_⟩
  rw [iIndepFun.map_fun_eq_pi_map (f := fun i : Fin n => U (j * n + i)) (fun i => (h.measurable _).aemeasurable) h1]
  unfold tapeLaw
  congr 1
  funext i
  exact h.uniform _

lemma ident_block (h : RandomNumbers μ U) {n N : ℕ} {X : (Fin n → ℝ) → ℝ} {Y : (Fin N → ℝ) → ℝ}
    (hX : IdentDistrib X Y (tapeLaw n) (tapeLaw N)) (j : ℕ) :
    IdentDistrib (fun ω => X fun i : Fin n => U (j * n + i) ω) Y μ (tapeLaw N) := by
  have hb := numbers_block h n j
  refine ⟨hX.1.comp_quasiMeasurePreserving hb.quasiMeasurePreserving, hX.2, ?_⟩
  rw [← hX.3, ← hb.map_eq, AEMeasurable.map_map_of_aemeasurable (by rw [hb.map_eq]; exact hX.1) hb.measurable.aemeasurable]
  rfl

lemma first_block (U : ℕ → Ω → ℝ) (n : ℕ) (ω : Ω) : firstNumbers U n ω = numbersOf U n 0 ω := by
  unfold firstNumbers numbersOf; simp

lemma mean_block (h : RandomNumbers μ U) {n N : ℕ} {X : (Fin n → ℝ) → ℝ} {Y : (Fin N → ℝ) → ℝ}
    (hX : IdentDistrib X Y (tapeLaw n) (tapeLaw N)) (hY : Integrable Y (tapeLaw N)) (j : ℕ) :
    HasMean μ (fun ω => X fun i : Fin n => U (j * n + i) ω) (∫ x, Y x ∂tapeLaw N) := by
  have := ident_block h hX j
  exact ⟨this.integrable_iff.mpr hY, this.integral_eq⟩

lemma indep_blocks (h : RandomNumbers μ U) (n : ℕ) {j k : ℕ} (hjk : j ≠ k) :
    IndepFun (fun ω (i : Fin n) => U (j * n + i) ω) (fun ω (i : Fin n) => U (k * n + i) ω) μ := by
  let B : ℕ → Finset ℕ := fun j => Finset.Ico (j * n) (j * n + n)
  have hd : Disjoint (B j) (B k) := by
    rw [Finset.disjoint_left]
    intro a ha hb
    simp only [B, Finset.mem_Ico] at ha hb
    rcases Nat.lt_or_gt_of_ne hjk with h | h
    · have := Nat.mul_le_mul_right n (Nat.succ_le_of_lt h); rw [Nat.succ_mul] at this; omega
    · have := Nat.mul_le_mul_right n (Nat.succ_le_of_lt h); rw [Nat.succ_mul] at this; omega
  have h1 := h.independent.indepFun_finset (B j) (B k) hd h.measurable
  have hg : ∀ j, Measurable fun (x : B j → ℝ) (i : Fin n) => x ⟨j * n + i, by simp [B]⟩ := fun j =>
    measurable_pi_lambda _ fun i => measurable_pi_apply _
  exact h1.comp (hg j) (hg k)

end

/-- C111: every quantity that depends on the fields at the end of a run has a mean, which does not depend on where the
numbers come from; in the mirrored basin the same quantity of the mirrored fields has the same mean. -/
theorem C111_mean {Ps : List (Params L W m ℝ)} (hPs : ∀ P ∈ Ps, MirrorSetup P ∧ SedDomain P ∧ 0 ≤ P.h0)
    {S : State L W ℝ} (hd : ∀ c, 0 ≤ S.depth c) (hn : 0 < S.ncols) :
    ∃ N, ∀ q : State L W ℝ → ℝ, ∃ e, ∀ n ≥ N, ∀ {Ω : Type*} [MeasurableSpace Ω] (μ : Measure Ω) (U : ℕ → Ω → ℝ),
      RandomNumbers μ U → ∀ j,
      HasMean μ (fun ω => endValue q (timesteps tape Ps S (numbersOf U n j ω))) e ∧
      HasMean μ (fun ω => endValue (fun S => q (mirrorState S))
        (timesteps tape (Ps.map mirrorParams) (mirrorState S) (numbersOf U n j ω))) e := by
  obtain ⟨N, hN⟩ := same_ident (C80_run hPs hd hn)
  refine ⟨N, fun q => ⟨∫ x : Fin N → ℝ, endValue q (timesteps tape Ps S (List.ofFn x)) ∂tapeLaw N, fun n hn Ω _ μ U hU j => ?_⟩⟩
  obtain ⟨h1, h2, h3⟩ := hN (endValue q) (endValue fun S => q (mirrorState S)) (by
    rintro F G ⟨S', ls, ls', -, -, rfl, rfl⟩
    exact ⟨q S', fun t => rfl, fun t => by simp only [endValue, mirrorState_mirror]⟩) n hn
  exact ⟨mean_block hU h1 h3 j, mean_block hU h2 h3 j⟩

/-- C111: the average over more and more runs, each with numbers of its own, tends to the mean. -/
theorem C111_ensemble {Ps : List (Params L W m ℝ)} (hPs : ∀ P ∈ Ps, MirrorSetup P ∧ SedDomain P ∧ 0 ≤ P.h0)
    {S : State L W ℝ} (hd : ∀ c, 0 ≤ S.depth c) (hn : 0 < S.ncols) :
    ∃ N, ∀ q : State L W ℝ → ℝ, ∃ e, ∀ n ≥ N, ∀ {Ω : Type*} [MeasurableSpace Ω] (μ : Measure Ω) (U : ℕ → Ω → ℝ),
      RandomNumbers μ U → HasMean μ (fun ω => endValue q (timesteps tape Ps S (firstNumbers U n ω))) e ∧
      ∀ᵐ ω ∂μ, Filter.Tendsto (fun r : ℕ =>
        (∑ j ∈ Finset.range r, endValue q (timesteps tape Ps S (numbersOf U n j ω))) / r) Filter.atTop (nhds e) := by
  obtain ⟨N, hN⟩ := same_ident (C80_run hPs hd hn)
  refine ⟨N, fun q => ⟨∫ x : Fin N → ℝ, endValue q (timesteps tape Ps S (List.ofFn x)) ∂tapeLaw N, fun n hn Ω _ μ U hU => ?_⟩⟩
  obtain ⟨h1, -, h3⟩ := hN (endValue q) (endValue fun S => q (mirrorState S)) (by
    rintro F G ⟨S', ls, ls', -, -, rfl, rfl⟩
    exact ⟨q S', fun t => rfl, fun t => by simp only [endValue, mirrorState_mirror]⟩) n hn
  have m0 := mean_block hU h1 h3 0
  refine ⟨by simp only [first_block]; exact m0, ?_⟩
  have := strong_law_ae_real (μ := μ) (fun j ω => endValue q (timesteps tape Ps S (numbersOf U n j ω))) m0.1 ?_ ?_
  · have e : (∫ ω, endValue q (timesteps tape Ps S (numbersOf U n 0 ω)) ∂μ) = _ := m0.2
    rwa [e] at this
  · intro j k hjk
    have hj := numbers_block hU n j
    have hk := numbers_block hU n k
    exact (indep_blocks hU n hjk).comp₀ hj.measurable.aemeasurable hk.measurable.aemeasurable
      (φ := fun x : Fin n → ℝ => endValue q (timesteps tape Ps S (List.ofFn x)))
      (ψ := fun x : Fin n → ℝ => endValue q (timesteps tape Ps S (List.ofFn x)))
      (by rw [hj.map_eq]; exact h1.1) (by rw [hk.map_eq]; exact h1.1)
  · intro j
    exact (ident_block hU h1 j).trans (ident_block hU h1 0).symm

open Classical in
/-- C111: the frequency of an event in more and more runs, each with numbers of its own, tends to its probability. -/
theorem C111_frequency {Ps : List (Params L W m ℝ)} (hPs : ∀ P ∈ Ps, MirrorSetup P ∧ SedDomain P ∧ 0 ≤ P.h0)
    {S : State L W ℝ} (hd : ∀ c, 0 ≤ S.depth c) (hn : 0 < S.ncols) :
    ∃ N, ∀ Q : State L W ℝ → Prop, ∃ p, ∀ n ≥ N, ∀ {Ω : Type*} [MeasurableSpace Ω] (μ : Measure Ω) (U : ℕ → Ω → ℝ),
      RandomNumbers μ U →
      HasProb μ (fun ω => EndsWith Q (timesteps tape Ps S (firstNumbers U n ω))) p ∧
      HasProb μ (fun ω => EndsWith (fun S => Q (mirrorState S))
        (timesteps tape (Ps.map mirrorParams) (mirrorState S) (firstNumbers U n ω))) p ∧
      ∀ᵐ ω ∂μ, Filter.Tendsto (fun r : ℕ => (((Finset.range r).filter fun j =>
        EndsWith Q (timesteps tape Ps S (numbersOf U n j ω))).card : ℝ) / r) Filter.atTop (nhds p) := by
  obtain ⟨N1, h1⟩ := C111_run hPs hd hn
  obtain ⟨N2, h2⟩ := C111_ensemble hPs hd hn
  refine ⟨max N1 N2, fun Q => ?_⟩
  obtain ⟨p, hp⟩ := h1 Q
  obtain ⟨e, he⟩ := h2 fun S => if Q S then 1 else 0
  refine ⟨p, fun n hn Ω _ μ U hU => ?_⟩
  obtain ⟨a1, a2⟩ := hp n ((le_max_left _ _).trans hn) μ U hU
  obtain ⟨b1, b2⟩ := he n ((le_max_right _ _).trans hn) μ U hU
  refine ⟨a1, a2, ?_⟩
  have hv : ∀ t, endValue (fun S => if Q S then 1 else 0) (timesteps tape Ps S t) =
      if EndsWith Q (timesteps tape Ps S t) then (1 : ℝ) else 0 := by
    intro t
    generalize timesteps tape Ps S t = r
    cases r with
    | error x => simp [endValue, EndsWith]
    | ok x => rfl
  simp only [hv] at b1 b2
  have hep : e = p := by
    rw [← b1.2]
    have : (fun ω => if EndsWith Q (timesteps tape Ps S (firstNumbers U n ω)) then (1 : ℝ) else 0) =
        Set.indicator {ω | EndsWith Q (timesteps tape Ps S (firstNumbers U n ω))} fun _ => 1 := by
      funext ω; rfl
    rw [this, integral_indicator₀ a1.2.1]
    simp only [integral_const, smul_eq_mul, mul_one, measureReal_def, Measure.restrict_apply_univ]
    rw [a1.2.2, ENNReal.toReal_ofReal a1.1]
  rw [hep] at b2
  filter_upwards [b2] with ω hω
  simpa only [Finset.sum_boole] using hω

open Classical in
/-- C111: in every configuration that can be run, with the real square roots and powers: whatever is said about the
fields after `r` updates of the created basin is an event, with the same probability as the same said about the mirrored
fields in the basin built the other way round; its frequency in more and more runs tends to that probability; and
every quantity of these fields has a mean, to which the average over more and more runs tends. -/
theorem C111_created {I : Input ℝ} (hI : Runnable I) :
    ∃ (L W m : ℕ) (_ : NeZero L) (_ : NeZero W) (P : Params L W m ℝ) (S : State L W ℝ),
      create realOracle I = .ok ⟨L, W, m, P, S⟩ ∧ ∀ r : ℕ, ∃ N, ∀ n ≥ N,
        ∀ {Ω : Type*} [MeasurableSpace Ω] (μ : Measure Ω) (U : ℕ → Ω → ℝ), RandomNumbers μ U →
        (∀ Q : State L W ℝ → Prop, ∃ p,
          HasProb μ (fun ω => EndsWith Q (timesteps tape (List.replicate r P) S (firstNumbers U n ω))) p ∧
          HasProb μ (fun ω => EndsWith (fun S => Q (mirrorState S))
            (timesteps tape (List.replicate r (mirrorParams P)) (mirrorState S) (firstNumbers U n ω))) p ∧
          ∀ᵐ ω ∂μ, Filter.Tendsto (fun k : ℕ => (((Finset.range k).filter fun j =>
            EndsWith Q (timesteps tape (List.replicate r P) S (numbersOf U n j ω))).card : ℝ) / k)
            Filter.atTop (nhds p)) ∧
        ∀ q : State L W ℝ → ℝ, ∃ e,
          HasMean μ (fun ω => endValue q (timesteps tape (List.replicate r P) S (firstNumbers U n ω))) e ∧
          ∀ᵐ ω ∂μ, Filter.Tendsto (fun k : ℕ => (∑ j ∈ Finset.range k,
            endValue q (timesteps tape (List.replicate r P) S (numbersOf U n j ω))) / k) Filter.atTop (nhds e) := by
  obtain ⟨L, W, m, iL, iW, P, S, hc, hW, hD, -, hR, hd, hn, -⟩ := C74_created realOracleOk hI
  refine ⟨L, W, m, iL, iW, P, S, hc, fun r => ?_⟩
  have hM : MirrorSetup P := by
    refine ⟨hW, ?_, ?_⟩
    · intro c h0
      have h1 := (C52_types hc c).2.1.2
      obtain ⟨hA, D, hD, hs, e⟩ := create_ok hc
      have i1 := (C50_inlet_size hD).1
      have e' : P.L0 = D.L0 := congrArg (fun M : Built ℝ => M.P.L0) e
      simp only at h1
      have := h1 (by omega)
      omega
    · obtain ⟨hA, D, hD, hs', e⟩ := create_ok hc
      have e' : P.nrm = realOracle.nrm := congrArg (fun M : Built ℝ => M.P.nrm) e
      rw [e']
      intro x y
      simp [realOracle]
  have hPs : ∀ P' ∈ List.replicate r P, MirrorSetup P' ∧ SedDomain P' ∧ 0 ≤ P'.h0 := by
    intro P' hP'
    obtain rfl := List.eq_of_mem_replicate hP'
    exact ⟨hM, hD, hR.h0⟩
  obtain ⟨N1, h1⟩ := C111_frequency hPs hd hn
  obtain ⟨N2, h2⟩ := C111_ensemble hPs hd hn
  refine ⟨max N1 N2, fun n hn Ω _ μ U hU => ⟨fun Q => ?_, fun q => ?_⟩⟩
  · obtain ⟨p, hp⟩ := h1 Q
    refine ⟨p, ?_⟩
    have := hp n ((le_max_left _ _).trans hn) μ U hU
    rwa [List.map_replicate] at this
  · obtain ⟨e, he⟩ := h2 q
    exact ⟨e, he n ((le_max_right _ _).trans hn) μ U hU⟩

/-! ## Non-trivial cases -/

/-- There are random numbers. -/
lemma numbers_exist : RandomNumbers (Measure.infinitePi fun _ : ℕ => unitLaw) fun i x => x i where
  measurable := fun i => measurable_pi_apply i
  independent := iIndepFun_infinitePi (X := fun _ x => x) fun _ => measurable_id
  uniform := fun i => Measure.infinitePi_map_eval _ i

-- an inlet of three columns: the middle one is the first start in a third of the cases
example : HasProb (Measure.infinitePi fun _ : ℕ => unitLaw) (fun ω => getStartIndices (fun k : Fin 3 => (k.val : ℤ) + 4)
    (getInletWeights (fun k : Fin 3 => (k.val : ℤ) + 4) : Fin 3 → ℝ) (firstNumbers (fun i x => x i) 1 ω) = some [5]) (1 / 3) := by
  have := C111_starts numbers_exist (m := 3) (by norm_num) (inlet := fun k : Fin 3 => (k.val : ℤ) + 4)
    (by intro a b h; simp only at h; exact Fin.ext (by omega)) [1]
  simpa using this

-- the default configuration: the bed at any cell after 100 updates has a mean
example : ∃ (L W m : ℕ) (_ : NeZero L) (_ : NeZero W) (P : Params L W m ℝ) (S : State L W ℝ),
    create realOracle realInput = .ok ⟨L, W, m, P, S⟩ ∧ ∃ n, ∀ c, ∃ e,
      HasMean (Measure.infinitePi fun _ : ℕ => unitLaw) (fun ω => endValue (fun S' => S'.eta c)
        (timesteps tape (List.replicate 100 P) S (firstNumbers (fun i x => x i) n ω))) e := by
  obtain ⟨L, W, m, iL, iW, P, S, hc, h⟩ := C111_created realRunnable
  obtain ⟨N, hN⟩ := h 100
  refine ⟨L, W, m, iL, iW, P, S, hc, N, fun c => ?_⟩
  obtain ⟨e, he, -⟩ := (hN N le_rfl _ _ numbers_exist).2 fun S' => S'.eta c
  exact ⟨e, he⟩

end Verif.Props
