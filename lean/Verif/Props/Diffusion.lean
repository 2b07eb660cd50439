import Verif.Props.SedWalk
import Mathlib.Tactic.LinearCombination

/-!
# Topographic diffusion (C29, C30) and the volume balance of a sediment routing (C24)
-/

set_option linter.unusedSectionVars false
set_option linter.unusedSimpArgs false

namespace Verif.Props

open Verif.Model Verif.Lemmas Verif.Spec

section cells

variable {K : Type*} [Field K] [LinearOrder K] [IsStrictOrderedRing K] {L W : ℕ}

/-- The neighbours of a cell that are in the domain. -/
def around (c : Cell L W) : Finset (Cell L W) := Finset.univ.filter (fun n => Adjacent c n)

/-- Cells whose bed the diffusion never changes: land and the first row. -/
def Held (ct : Grid L W ℤ) (c : Cell L W) : Prop := ct c = -2 ∨ c.1.val = 0

instance (ct : Grid L W ℤ) (c : Cell L W) : Decidable (Held ct c) := by
  unfold Held; infer_instance

lemma at0_eq_sum (g : Grid L W K) (i j : ℤ) :
    at0 g i j = ∑ n : Cell L W, if (n.1.val : ℤ) = i ∧ (n.2.val : ℤ) = j then g n else 0 := by
  unfold at0 cellAt
  split_ifs with h
  · simp only
    rw [Finset.sum_eq_single (⟨i.toNat, by omega⟩, ⟨j.toNat, by omega⟩)]
    · rw [if_pos]
      constructor <;> simp only <;> omega
    · intro n _ hn
      rw [if_neg]
      rintro ⟨h1, h2⟩
      apply hn
      exact Prod.ext (Fin.ext (by simp only; omega)) (Fin.ext (by simp only; omega))
    · intro h; exact absurd (Finset.mem_univ _) h
  · simp only
    symm
    apply Finset.sum_eq_zero
    intro n _
    rw [if_neg]
    rintro ⟨h1, h2⟩
    have := n.1.isLt
    have := n.2.isLt
    omega

lemma dir_count (a b : ℤ) (k4 : K) (kn : K) :
    (∑ d : Fin 9, (if d = 4 then k4 else kn) *
      (if rowOff d = a ∧ colOff d = b then (1 : K) else 0)) =
      if a = 0 ∧ b = 0 then k4 else if |a| ≤ 1 ∧ |b| ≤ 1 then kn else 0 := by
  by_cases h : |a| ≤ 1 ∧ |b| ≤ 1
  · rw [abs_le, abs_le] at h
    have ha : a = -1 ∨ a = 0 ∨ a = 1 := by omega
    have hb : b = -1 ∨ b = 0 ∨ b = 1 := by omega
    rcases ha with rfl | rfl | rfl <;> rcases hb with rfl | rfl | rfl <;>
      simp [Fin.sum_univ_succ, rowOff, colOff]
  · rw [if_neg h, if_neg]
    · apply Finset.sum_eq_zero
      intro d _
      have hz : ¬ (rowOff d = a ∧ colOff d = b) := ?_
      · rw [if_neg hz, mul_zero]
      rintro ⟨rfl, rfl⟩
      apply h
      rw [abs_le, abs_le]
      have := rowOff_bounds d
      have := colOff_bounds d
      omega
    · rintro ⟨rfl, rfl⟩
      exact h (by simp)

/-- Convolution with a kernel that has one value in the centre and another one around. -/
lemma convolve_eq (k4 kn : K) (arr : Grid L W K) (c : Cell L W) :
    convolve (fun d : Fin 9 => if d = 4 then k4 else kn) arr c =
      k4 * arr c + kn * ∑ n ∈ around c, arr n := by
  unfold convolve
  have h1 : ∀ d : Fin 9, at0 arr ((c.1.val : ℤ) - ((d.val / 3 : ℕ) - 1))
      ((c.2.val : ℤ) - ((d.val % 3 : ℕ) - 1)) = ∑ n : Cell L W,
      (if rowOff d = (c.1.val : ℤ) - n.1.val ∧ colOff d = (c.2.val : ℤ) - n.2.val then (1 : K) else 0)
        * arr n := by
    intro d
    rw [at0_eq_sum]
    apply Finset.sum_congr rfl
    intro n _
    by_cases h : (n.1.val : ℤ) = (c.1.val : ℤ) - ((d.val / 3 : ℕ) - 1) ∧
        (n.2.val : ℤ) = (c.2.val : ℤ) - ((d.val % 3 : ℕ) - 1)
    · rw [if_pos h, if_pos (by unfold rowOff colOff; omega), one_mul]
    · rw [if_neg h, if_neg (by unfold rowOff colOff; omega), zero_mul]
  simp only [h1, Finset.mul_sum]
  rw [Finset.sum_comm]
  have h2 : ∀ n : Cell L W, (∑ d : Fin 9, (if d = 4 then k4 else kn) *
      ((if rowOff d = (c.1.val : ℤ) - n.1.val ∧ colOff d = (c.2.val : ℤ) - n.2.val then (1 : K) else 0)
        * arr n)) = (if n = c then k4 else if Adjacent c n then kn else 0) * arr n := by
    intro n
    simp only [← mul_assoc, ← Finset.sum_mul]
    rw [dir_count]
    congr 1
    by_cases hn : n = c
    · subst hn; simp
    · have hz : ¬ ((c.1.val : ℤ) - n.1.val = 0 ∧ (c.2.val : ℤ) - n.2.val = 0) := by
        rintro ⟨e1, e2⟩
        exact hn (Prod.ext (Fin.ext (by omega)) (Fin.ext (by omega)))
      rw [if_neg hz, if_neg hn]
      congr 1
      unfold Adjacent
      simp [Ne.symm hn]
  simp only [h2]
  have h3 : ∀ n : Cell L W, (if n = c then k4 else if Adjacent c n then kn else 0) * arr n =
      (if n = c then k4 * arr n else 0) + (if Adjacent c n then kn * arr n else 0) := by
    intro n
    by_cases hn : n = c
    · subst hn
      simp [Adjacent]
    · simp [hn]
  simp only [h3]
  rw [Finset.sum_add_distrib, Finset.sum_ite_eq' Finset.univ c, if_pos (Finset.mem_univ _)]
  congr 1
  rw [around, Finset.sum_filter]

lemma kernel1_eq : (kernel1 : Fin 9 → K) = fun d => if d = 4 then -8 else 1 := by
  funext d
  fin_cases d <;> simp [kernel1]

lemma kernel2_eq : (kernel2 : Fin 9 → K) = fun d => if d = 4 then 0 else 1 := by
  funext d
  fin_cases d <;> simp [kernel2]

/-- The exchange with the neighbour `n`: what `c` gains from it. -/
def exchange (mult : K) (qs eta : Grid L W K) (c n : Cell L W) : K :=
  mult * ((qs c + qs n) * (eta n - eta c))

/-- C29: the exchange is antisymmetric: what one cell gains the other loses. -/
theorem C29_antisymmetric (mult : K) (qs eta : Grid L W K) (c n : Cell L W) :
    exchange mult qs eta c n = -exchange mult qs eta n c := by
  unfold exchange; ring

/-- C29: one pass of diffusion adds to each cell, except land and the first row, its exchanges with the
neighbours; a cell at the border also loses to each missing neighbour as if the bed there were at
elevation zero. -/
theorem C29_cell (ct : Grid L W ℤ) (mult : K) (qs eta : Grid L W K) (c : Cell L W) :
    topoDiffusion ct mult qs 1 eta c = eta c + if Held ct c then 0 else
      ∑ n ∈ around c, exchange mult qs eta c n - mult * ((8 - ((around c).card : K)) * (qs c * eta c)) := by
  unfold topoDiffusion topoDiffusion diffusionChange
  simp only
  congr 1
  have hH : Held ct c ↔ (ct c = -2 ∨ c.1.val = 0) := Iff.rfl
  unfold assign
  simp only [decide_eq_true_eq]
  by_cases h1 : c.1.val = 0
  · rw [if_pos h1, if_pos (hH.2 (.inr h1))]
  · by_cases h2 : ct c = -2
    · rw [if_neg h1, if_pos h2, if_pos (hH.2 (.inl h2))]
    · rw [if_neg h1, if_neg h2, if_neg (by rw [hH]; tauto), kernel1_eq, kernel2_eq, convolve_eq, convolve_eq,
        convolve_eq]
      have : ∑ n ∈ around c, exchange mult qs eta c n = mult * (qs c * ∑ n ∈ around c, eta n
          - ((around c).card : K) * (qs c * eta c) + ∑ n ∈ around c, qs n * eta n
          - eta c * ∑ n ∈ around c, qs n) := by
        have e : ∀ n, exchange mult qs eta c n = mult * (qs c * eta n - qs c * eta c + qs n * eta n
          - eta c * qs n) := by intro n; unfold exchange; ring
        simp only [e, ← Finset.mul_sum, Finset.sum_sub_distrib, Finset.sum_add_distrib,
          Finset.sum_const, nsmul_eq_mul]
        ring
      rw [this]
      ring

/-- A cell with all eight neighbours in the domain. -/
lemma around_interior (c : Cell L W) (h1 : 0 < c.1.val) (h2 : c.1.val + 1 < L) (h3 : 0 < c.2.val)
    (h4 : c.2.val + 1 < W) : (around c).card = 8 := by
  have : around c = (Finset.univ.filter (fun d : Fin 9 => d ≠ 4)).image (fun d =>
      ((⟨c.1.val + d.val / 3 - 1, by have := d.isLt; omega⟩,
        ⟨c.2.val + d.val % 3 - 1, by omega⟩) : Cell L W)) := by
    ext n
    simp only [around, Finset.mem_filter, Finset.mem_univ, true_and, Finset.mem_image]
    constructor
    · intro h
      have : NeZero L := ⟨by omega⟩
      have : NeZero W := ⟨by omega⟩
      obtain ⟨d, hd, e1, e2⟩ := direction_of h
      refine ⟨d, hd, Prod.ext (Fin.ext ?_) (Fin.ext ?_)⟩
      · simp only; unfold rowOff at e1; omega
      · simp only; unfold colOff at e2; omega
    · rintro ⟨d, hd, rfl⟩
      have := off_ne_zero hd
      refine ⟨?_, ?_, ?_⟩
      · intro he
        have e1 := congrArg (fun x : Cell L W => x.1.val) he
        have e2 := congrArg (fun x : Cell L W => x.2.val) he
        simp only at e1 e2
        unfold rowOff colOff at this
        omega
      · rw [abs_le]; simp only; have := d.isLt; omega
      · rw [abs_le]; simp only; omega
  rw [this, Finset.card_image_of_injective]
  · decide
  · intro a b hab
    have e1 := congrArg (fun x : Cell L W => x.1.val) hab
    have e2 := congrArg (fun x : Cell L W => x.2.val) hab
    simp only at e1 e2
    apply Fin.ext
    omega

/-- C29: inside the domain a cell gains exactly what its neighbours lose to it. -/
theorem C29_interior (ct : Grid L W ℤ) (mult : K) (qs eta : Grid L W K) (c : Cell L W)
    (h1 : 0 < c.1.val) (h2 : c.1.val + 1 < L) (h3 : 0 < c.2.val) (h4 : c.2.val + 1 < W)
    (hl : ct c ≠ -2) :
    topoDiffusion ct mult qs 1 eta c = eta c + ∑ n ∈ around c, exchange mult qs eta c n := by
  rw [C29_cell, if_neg (by unfold Held; omega), around_interior c h1 h2 h3 h4]
  norm_num

lemma diffusion_induct {ct : Grid L W ℤ} {mult : K} {qs : Grid L W K} (I : Grid L W K → Prop)
    (h : ∀ eta, I eta → I (topoDiffusion ct mult qs 1 eta)) :
    ∀ n eta, I eta → I (topoDiffusion ct mult qs n eta)
  | 0, _, hI => hI
  | n + 1, eta, hI => diffusion_induct I h n _ (h eta hI)

/-- C29: land cells and the first row never change, for any number of passes. -/
theorem C29_held (ct : Grid L W ℤ) (mult : K) (qs eta : Grid L W K) (n : ℕ) (c : Cell L W)
    (hc : Held ct c) : topoDiffusion ct mult qs n eta c = eta c :=
  diffusion_induct (fun e => e c = eta c) (fun e he => by rw [C29_cell, if_pos hc, add_zero, he]) n
    eta rfl

/-- C29, the exact balance of one pass: the total bed changes only by exchanges with cells that are
held fixed and by the losses at the border. -/
theorem C29_balance (ct : Grid L W ℤ) (mult : K) (qs eta : Grid L W K) :
    ∑ c, topoDiffusion ct mult qs 1 eta c = ∑ c, eta c +
      ∑ c ∈ Finset.univ.filter (fun c => ¬ Held ct c),
        (∑ n ∈ (around c).filter (fun n => Held ct n), exchange mult qs eta c n
          - mult * ((8 - ((around c).card : K)) * (qs c * eta c))) := by
  simp only [C29_cell, Finset.sum_add_distrib]
  congr 1
  have h1 : ∀ c : Cell L W, (if Held ct c then (0 : K) else
      ∑ n ∈ around c, exchange mult qs eta c n - mult * ((8 - ((around c).card : K)) * (qs c * eta c)))
      = if ¬ Held ct c then
      ∑ n ∈ around c, exchange mult qs eta c n - mult * ((8 - ((around c).card : K)) * (qs c * eta c))
      else 0 := by intro c; split_ifs <;> simp_all
  simp only [h1]
  rw [← Finset.sum_filter]
  have h2 : ∀ c : Cell L W, ∑ n ∈ around c, exchange mult qs eta c n =
      ∑ n ∈ (around c).filter (fun n => Held ct n), exchange mult qs eta c n +
      ∑ n ∈ (around c).filter (fun n => ¬ Held ct n), exchange mult qs eta c n := fun c =>
    (Finset.sum_filter_add_sum_filter_not _ _ _).symm
  have hz : ∑ c ∈ Finset.univ.filter (fun c => ¬ Held ct c),
      ∑ n ∈ (around c).filter (fun n => ¬ Held ct n), exchange mult qs eta c n = 0 := by
    set X := ∑ c ∈ Finset.univ.filter (fun c => ¬ Held ct c),
      ∑ n ∈ (around c).filter (fun n => ¬ Held ct n), exchange mult qs eta c n with hX
    have hswap : X = -X := by
      conv_lhs => rw [hX]
      rw [Finset.sum_comm' (s' := fun n => (around n).filter (fun c => ¬ Held ct c))
        (t' := Finset.univ.filter (fun c => ¬ Held ct c))]
      · rw [hX, ← Finset.sum_neg_distrib]
        apply Finset.sum_congr rfl
        intro n _
        rw [← Finset.sum_neg_distrib]
        apply Finset.sum_congr rfl
        intro c _
        exact C29_antisymmetric _ _ _ _ _
      · intro c n
        simp only [Finset.mem_filter, Finset.mem_univ, true_and, around]
        have : Adjacent c n ↔ Adjacent n c := by
          unfold Adjacent
          rw [abs_sub_comm, abs_sub_comm (c.2.val : ℤ), ne_comm]
        rw [this]
        tauto
    linarith
  rw [Finset.sum_congr rfl (fun c _ => by rw [h2 c])]
  have h3 : ∀ c : Cell L W, ∑ n ∈ (around c).filter (fun n => Held ct n), exchange mult qs eta c n +
      ∑ n ∈ (around c).filter (fun n => ¬ Held ct n), exchange mult qs eta c n -
        mult * ((8 - ((around c).card : K)) * (qs c * eta c)) =
      (∑ n ∈ (around c).filter (fun n => Held ct n), exchange mult qs eta c n -
        mult * ((8 - ((around c).card : K)) * (qs c * eta c))) +
      ∑ n ∈ (around c).filter (fun n => ¬ Held ct n), exchange mult qs eta c n := fun c => by ring
  rw [Finset.sum_congr rfl (fun c _ => h3 c), Finset.sum_add_distrib, hz, add_zero]

/-- C29, under conditions: if no sand moves in border cells nor along land and the first row, the total
bed volume is unchanged for any number of passes. Missing for the full statement: flux at the border
or next to held cells, where volume is created or lost (`C29_border_witness`,
`C29_land_witness`). -/
theorem C29_conserved_partial (ct : Grid L W ℤ) (mult : K) (qs eta : Grid L W K) (k : ℕ)
    (hb : ∀ c, ¬ Held ct c → (around c).card ≠ 8 → qs c = 0)
    (hh : ∀ c n, ¬ Held ct c → Held ct n → Adjacent c n → qs c + qs n = 0) :
    ∑ c, topoDiffusion ct mult qs k eta c = ∑ c, eta c := by
  refine diffusion_induct (fun e => ∑ c, e c = ∑ c, eta c) ?_ k eta rfl
  intro e he
  rw [C29_balance, he, add_eq_left]
  apply Finset.sum_eq_zero
  intro c hc
  simp only [Finset.mem_filter, Finset.mem_univ, true_and] at hc
  have h1 : ∑ n ∈ (around c).filter (fun n => Held ct n), exchange mult qs e c n = 0 := by
    apply Finset.sum_eq_zero
    intro n hn
    simp only [around, Finset.mem_filter, Finset.mem_univ, true_and] at hn
    unfold exchange
    rw [hh c n hc hn.2 hn.1]
    ring
  rw [h1]
  by_cases h8 : (around c).card = 8
  · rw [h8]; norm_num
  · rw [hb c hc h8]; ring

/-! ## C30 -/

lemma around_le (c : Cell L W) : (around c).card ≤ 8 := by
  have : (around c) ⊆ (Finset.univ.filter (fun d : Fin 9 => d ≠ 4)).biUnion (fun d =>
      Finset.univ.filter (fun n : Cell L W => (n.1.val : ℤ) = c.1.val + rowOff d ∧
        (n.2.val : ℤ) = c.2.val + colOff d)) := by
    intro n hn
    simp only [around, Finset.mem_filter, Finset.mem_univ, true_and] at hn
    have : NeZero L := ⟨by have := c.1.isLt; omega⟩
    have : NeZero W := ⟨by have := c.2.isLt; omega⟩
    obtain ⟨d, hd, e1, e2⟩ := direction_of hn
    simp only [Finset.mem_biUnion, Finset.mem_filter, Finset.mem_univ, true_and]
    exact ⟨d, hd, e1, e2⟩
  refine (Finset.card_le_card this).trans ((Finset.card_biUnion_le_card_mul _ _ 1 ?_).trans ?_)
  · intro d _
    rw [Finset.card_le_one]
    intro a ha b hb
    simp only [Finset.mem_filter, Finset.mem_univ, true_and] at ha hb
    exact Prod.ext (Fin.ext (by omega)) (Fin.ext (by omega))
  · rw [mul_one]
    decide

/-- C30: if the coefficient is small against the local sand flux, one pass keeps every bed between any
bounds that hold in the neighbourhood. In a border cell with sand flux the bounds must include
elevation zero (see C29). -/
theorem C30_bounds (ct : Grid L W ℤ) {mult : K} {qs eta : Grid L W K} {lo hi : K} (c : Cell L W)
    (hm : 0 ≤ mult) (hq : ∀ n, 0 ≤ qs n)
    (hstab : mult * (∑ n ∈ around c, (qs c + qs n) + (8 - ((around c).card : K)) * qs c) ≤ 1)
    (hc : lo ≤ eta c ∧ eta c ≤ hi) (hn : ∀ n, Adjacent c n → lo ≤ eta n ∧ eta n ≤ hi)
    (hb : (around c).card = 8 ∨ qs c = 0 ∨ (lo ≤ 0 ∧ 0 ≤ hi)) :
    lo ≤ topoDiffusion ct mult qs 1 eta c ∧ topoDiffusion ct mult qs 1 eta c ≤ hi := by
  rw [C29_cell]
  split_ifs with hh
  · rw [add_zero]; exact hc
  set M := (8 - ((around c).card : K)) * qs c with hM
  have hM0 : 0 ≤ M := mul_nonneg (by
    have : ((around c).card : K) ≤ 8 := by exact_mod_cast around_le c
    linarith) (hq c)
  have hexp : eta c + (∑ n ∈ around c, exchange mult qs eta c n -
      mult * ((8 - ((around c).card : K)) * (qs c * eta c))) =
      (1 - mult * (∑ n ∈ around c, (qs c + qs n) + M)) * eta c +
        mult * ∑ n ∈ around c, (qs c + qs n) * eta n := by
    have e : ∀ n, exchange mult qs eta c n = mult * ((qs c + qs n) * eta n) -
        mult * eta c * (qs c + qs n) := by intro n; unfold exchange; ring
    simp only [e, Finset.sum_sub_distrib, ← Finset.mul_sum]
    rw [hM]
    ring
  rw [hexp]
  have hw : 0 ≤ 1 - mult * (∑ n ∈ around c, (qs c + qs n) + M) := by linarith
  have hlo : (∑ n ∈ around c, (qs c + qs n)) * lo ≤ ∑ n ∈ around c, (qs c + qs n) * eta n := by
    rw [Finset.sum_mul]
    apply Finset.sum_le_sum
    intro n hn'
    simp only [around, Finset.mem_filter, Finset.mem_univ, true_and] at hn'
    exact mul_le_mul_of_nonneg_left (hn n hn').1 (add_nonneg (hq c) (hq n))
  have hhi : ∑ n ∈ around c, (qs c + qs n) * eta n ≤ (∑ n ∈ around c, (qs c + qs n)) * hi := by
    rw [Finset.sum_mul]
    apply Finset.sum_le_sum
    intro n hn'
    simp only [around, Finset.mem_filter, Finset.mem_univ, true_and] at hn'
    exact mul_le_mul_of_nonneg_left (hn n hn').2 (add_nonneg (hq c) (hq n))
  set A := ∑ n ∈ around c, (qs c + qs n) with hA
  have hMlo : M * lo ≤ 0 ∧ 0 ≤ M * hi := by
    rcases hb with hb | hb | hb
    · have : M = 0 := by rw [hM, hb]; norm_num
      rw [this]; simp
    · have : M = 0 := by rw [hM, hb]; ring
      rw [this]; simp
    · exact ⟨mul_nonpos_of_nonneg_of_nonpos hM0 hb.1, mul_nonneg hM0 hb.2⟩
  have a1 := mul_le_mul_of_nonneg_left hlo hm
  have a2 := mul_le_mul_of_nonneg_left hhi hm
  have a3 := mul_le_mul_of_nonneg_left hc.1 hw
  have a4 := mul_le_mul_of_nonneg_left hc.2 hw
  have a5 := mul_nonneg hm hMlo.2
  have a6 := mul_nonpos_of_nonneg_of_nonpos hm hMlo.1
  constructor <;> nlinarith

/-- C30: under the stability bound, any number of passes creates no new extremes: bounds that hold
everywhere and include elevation zero keep holding. -/
theorem C30_no_extremes (ct : Grid L W ℤ) {mult : K} {qs : Grid L W K} {lo hi : K}
    (hm : 0 ≤ mult) (hq : ∀ n, 0 ≤ qs n)
    (hstab : ∀ c, mult * (∑ n ∈ around c, (qs c + qs n) + (8 - ((around c).card : K)) * qs c) ≤ 1)
    (hlo : lo ≤ 0) (hhi : 0 ≤ hi) (k : ℕ) {eta : Grid L W K}
    (h : ∀ c, lo ≤ eta c ∧ eta c ≤ hi) :
    ∀ c, lo ≤ topoDiffusion ct mult qs k eta c ∧ topoDiffusion ct mult qs k eta c ≤ hi :=
  diffusion_induct (fun e => ∀ c, lo ≤ e c ∧ e c ≤ hi) (fun _ he c =>
    C30_bounds ct c hm hq (hstab c) (he c) (fun n _ => he n) (.inr (.inr ⟨hlo, hhi⟩)))
    k eta h

/-- C30: a sufficient condition for the stability bound in terms of the largest flux. -/
theorem C30_stability {mult Q : K} {qs : Grid L W K} (hm : 0 ≤ mult) (hQ : 0 ≤ Q)
    (hq : ∀ n, 0 ≤ qs n ∧ qs n ≤ Q) (h : mult * (16 * Q) ≤ 1) (c : Cell L W) :
    mult * (∑ n ∈ around c, (qs c + qs n) + (8 - ((around c).card : K)) * qs c) ≤ 1 := by
  refine le_trans (mul_le_mul_of_nonneg_left ?_ hm) h
  have hc : ((around c).card : K) ≤ 8 := by exact_mod_cast around_le c
  have h1 : ∑ n ∈ around c, (qs c + qs n) ≤ (around c).card * (2 * Q) := by
    rw [← nsmul_eq_mul]
    apply Finset.sum_le_card_nsmul
    intro n _
    linarith [(hq c).2, (hq n).2]
  have h2 : (8 - ((around c).card : K)) * qs c ≤ (8 - ((around c).card : K)) * Q :=
    mul_le_mul_of_nonneg_left (hq c).2 (by linarith)
  have h3 : (0 : K) ≤ (8 - ((around c).card : K)) * Q := mul_nonneg (by linarith) hQ
  nlinarith

end cells

/-! ## The balance of a sediment routing -/

variable {K : Type*} [Field K] [LinearOrder K] [IsStrictOrderedRing K] [FloorRing K] {σ : Type*}
  {L W m : ℕ} [NeZero L] [NeZero W]

/-- C24 for a whole sediment routing: the bed volume changes by what the sand and mud parcels left
behind, and by the diffusion of the bed that the sand parcels left (see C29 for its balance). -/
theorem C24_sediment_routing {g : Rng K σ} {P : Params L W m K} (hdx : P.dx ≠ 0)
    {S S' : State L W K} {s s' : σ} {sand mud : List (SedLog L W K)}
    (h : routeSediment g P S s = .ok (S', sand, mud, s')) :
    ∃ S1 : State L W K, bedVolume P.dx S1 - bedVolume P.dx S =
        (sand.map (fun l => P.VpSed - l.left)).sum ∧
      bedVolume P.dx S' = bedVolume P.dx S1
        + (∑ c, topoDiffusion P.cellType P.diffMult S1.qs P.Ncross S1.eta c - ∑ c, S1.eta c) * P.dx ^ 2
        + (mud.map (fun l => P.VpSed - l.left)).sum := by
  obtain ⟨S1, s1, h1, h2⟩ := routeSediment_ok h
  refine ⟨S1, (by have := C24_mass hdx h1; exact this), ?_⟩
  have := C24_mass hdx h2
  have e : ∀ x : Grid L W K, ∑ c, x c * (P.dx * P.dx) = (∑ c, x c) * P.dx ^ 2 := by
    intro x; rw [← Finset.sum_mul, sq]
  unfold bedVolume at this ⊢
  simp only [e] at this ⊢
  linear_combination this

/-- C25 for a whole sediment routing: the deposit records start at zero, and hold what the sand and the
mud parcels deposited in this timestep. -/
theorem C25_sediment_routing {g : Rng K σ} {P : Params L W m K}
    {S S' : State L W K} {s s' : σ} {sand mud : List (SedLog L W K)}
    (h : routeSediment g P S s = .ok (S', sand, mud, s')) (c : Cell L W) :
    S'.depSand c = deposited sand c ∧ S'.depMud c = deposited mud c := by
  obtain ⟨S1, s1, h1, h2⟩ := routeSediment_ok h
  have a := (C25_records h1 c).1 rfl
  have b := (C25_records h2 c).2 rfl
  simp only [initSediment] at a
  simp only at b
  exact ⟨by rw [b.2, a.1, zero_add], by rw [b.1, a.2, zero_add]⟩

/-- C31 for a whole sediment routing: the sand flux starts at zero and holds the flux of this
timestep's sand parcels. -/
theorem C31_sediment_routing {g : Rng K σ} {P : Params L W m K} (hs2 : 0 < P.s2)
    {S S' : State L W K} {s s' : σ} {sand mud : List (SedLog L W K)}
    (h : routeSediment g P S s = .ok (S', sand, mud, s')) (c : Cell L W) :
    S'.qs c = (sand.map (fun l =>
      (if c.1 = 0 ∧ l.start = c.2 then P.VpSed / (2 * P.dt * P.dx) else 0) +
      (l.steps.map (fun r => stepFlux P r c)).sum)).sum := by
  obtain ⟨S1, s1, h1, h2⟩ := routeSediment_ok h
  rw [C31_mud h2]
  change S1.qs c = _
  rw [C31_cell hs2 h1 c]
  simp [initSediment]

/-! ## Non-trivial cases -/

/-- A bump in the middle of a 5 × 5 domain with sand flux on and beside it. -/
def exBump : Grid 5 5 ℚ := fun c => if c = (2, 2) then 1 else 0

def exFlux : Grid 5 5 ℚ := fun c => if c = (2, 2) then 1 else 0

-- C29: the bump spreads and the total stays 1; the hypotheses of C29_conserved_partial hold
example : topoDiffusion (fun _ => 0) (1 / 20) exFlux 1 exBump (2, 2) = 3 / 5 ∧
    topoDiffusion (fun _ => 0) (1 / 20) exFlux 1 exBump (1, 1) = 1 / 20 := by decide +kernel

example (c : Cell 5 5) : (¬ Held (fun _ => 0) c → (around c).card ≠ 8 → exFlux c = 0) ∧
    ∀ n : Cell 5 5, ¬ Held (fun _ => 0) c → Held (fun _ => 0) n → Adjacent c n →
      exFlux c + exFlux n = 0 := by
  revert c; decide +kernel

-- C30: the stability bound holds in this case
example (c : Cell 5 5) : (1 / 20 : ℚ) * (∑ n ∈ around c, (exFlux c + exFlux n) +
    (8 - ((around c).card : ℚ)) * exFlux c) ≤ 1 :=
  C30_stability (Q := 1) (by norm_num) (by norm_num)
    (fun n => by unfold exFlux; split_ifs <;> norm_num) (by norm_num) c

/-- C29 fails at the border: a flat bed at elevation 1 with sand flux loses volume there. -/
theorem C29_border_witness :
    (∑ c, topoDiffusion (fun _ : Cell 3 3 => (0 : ℤ)) (1 / 20 : ℚ) (fun _ => 1) 1 (fun _ => 1) c) =
      161 / 20 ∧ (∑ _c : Cell 3 3, (1 : ℚ)) = 9 := by decide +kernel

/-- C29 fails beside land: the neighbour loses to the land cell, which does not gain. -/
theorem C29_land_witness :
    (∑ c, topoDiffusion (fun c : Cell 5 5 => if c = (1, 2) then -2 else 0) (1 / 20 : ℚ) exFlux 1
      exBump c) = 19 / 20 ∧ (∑ c, exBump c) = 1 := by decide +kernel

/-- C30 fails for a large coefficient: the bump turns into a hole. -/
theorem C30_unstable_witness :
    topoDiffusion (fun _ => 0) 1 exFlux 1 exBump (2, 2) = -7 := by decide +kernel

end Verif.Props
