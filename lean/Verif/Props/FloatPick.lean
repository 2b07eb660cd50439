import Verif.Model.FloatWeights
import Verif.Lemmas.Float
import Verif.Lemmas.Pick

/-!
# C97: routing decisions in rounded arithmetic
-/

set_option linter.unusedSectionVars false
set_option linter.unusedSimpArgs false

namespace Verif.Props

open Verif.Model Verif.Lemmas

variable {K : Type*} [Field K] [LinearOrder K] [IsStrictOrderedRing K] {R D : Rounding K}

/-! ## Without rounding these are the functions of the exact model -/

lemma foldl_add (l : List K) (a : K) : l.foldl (fun a x => a + x) a = a + l.sum := by
  induction l generalizing a with
  | nil => simp
  | cons x xs ih => rw [List.foldl_cons, ih, List.sum_cons, add_assoc]

theorem sumR_exact {n : ℕ} (w : Fin n → K) : sumR (exact K) (List.ofFn w) = ∑ d, w d := by
  have := foldl_add (List.ofFn w) 0
  rw [zero_add, List.sum_ofFn] at this
  exact this

theorem waterWeightAtCellR_exact (row0 : Bool) (wSfc wInt depthN modN : Fin 9 → K)
    (ctN : Fin 9 → ℤ) (dryDepth gamma : K) (pw : K → K) :
    waterWeightAtCellR (exact K) row0 wSfc wInt depthN modN ctN dryDepth gamma pw =
      waterWeightAtCell row0 wSfc wInt depthN modN ctN dryDepth gamma pw := by
  simp only [waterWeightAtCellR, waterWeightAtCell, rebalanceR, rebalance, sumR_exact]
  rfl

theorem sedWeightAtCellR_exact (wInt depthN modN : Fin 9 → K) (ctN : Fin 9 → ℤ) (dryDepth : K)
    (pw : K → K) (dist : Fin 9 → K) :
    sedWeightAtCellR (exact K) wInt depthN modN ctN dryDepth pw dist =
      sedWeightAtCell wInt depthN modN ctN dryDepth pw dist := by
  simp only [sedWeightAtCellR, sedWeightAtCell, sumR_exact]
  rfl

lemma cumsumFromR_exact (acc : K) (l : List K) : cumsumFromR (exact K) acc l = cumsumFrom acc l := by
  induction l generalizing acc with
  | nil => rfl
  | cons x xs ih => rw [cumsumFromR, ih]; rfl

theorem randomPickR_exact {n : ℕ} (prob : Fin n → K) (r : K) :
    randomPickR (exact K) (exact K) prob r = randomPick prob r := by
  simp only [randomPickR, randomPick, cumsumFromR_exact]
  rfl

/-! ## Weights -/

/-- Both numbers are positive or both are zero. -/
structure SameSign (a b : K) : Prop where
  left : 0 ≤ a
  right : 0 ≤ b
  pos : 0 < a ↔ 0 < b

lemma SameSign.zero : SameSign (0 : K) 0 := ⟨le_rfl, le_rfl, Iff.rfl⟩

lemma SameSign.refl {a : K} (h : 0 ≤ a) : SameSign a a := ⟨h, h, Iff.rfl⟩

lemma SameSign.fl {a b : K} (h : SameSign a b) : SameSign (R.fl a) b :=
  ⟨fl_nonneg R h.left, h.right, (fl_pos_iff R).trans h.pos⟩

lemma pos_mul_iff {a b : K} (ha : 0 ≤ a) (hb : 0 ≤ b) : 0 < a * b ↔ 0 < a ∧ 0 < b := by
  constructor
  · intro h
    refine ⟨ha.lt_of_ne fun e => ?_, hb.lt_of_ne fun e => ?_⟩
    · rw [← e, zero_mul] at h; exact lt_irrefl _ h
    · rw [← e, mul_zero] at h; exact lt_irrefl _ h
  · rintro ⟨h1, h2⟩; exact mul_pos h1 h2

lemma SameSign.mul {a b c d : K} (h : SameSign a b) (h' : SameSign c d) : SameSign (a * c) (b * d) :=
  ⟨mul_nonneg h.left h'.left, mul_nonneg h.right h'.right, by
    rw [pos_mul_iff h.left h'.left, pos_mul_iff h.right h'.right, h.pos, h'.pos]⟩

lemma SameSign.inv {a b : K} (h : SameSign a b) : SameSign a⁻¹ b⁻¹ :=
  ⟨inv_nonneg.2 h.left, inv_nonneg.2 h.right, by rw [inv_pos, inv_pos, h.pos]⟩

lemma SameSign.div {a b c d : K} (h : SameSign a b) (h' : SameSign c d) : SameSign (a / c) (b / d) := by
  rw [div_eq_mul_inv, div_eq_mul_inv]; exact h.mul h'.inv

lemma pos_add_iff {a b : K} (ha : 0 ≤ a) (hb : 0 ≤ b) : 0 < a + b ↔ 0 < a ∨ 0 < b := by
  constructor
  · intro h
    by_contra hc
    rw [not_or, not_lt, not_lt] at hc
    linarith [hc.1, hc.2]
  · rintro (h | h) <;> linarith

lemma SameSign.add {a b c d : K} (h : SameSign a b) (h' : SameSign c d) : SameSign (a + c) (b + d) :=
  ⟨add_nonneg h.left h'.left, add_nonneg h.right h'.right, by
    rw [pos_add_iff h.left h'.left, pos_add_iff h.right h'.right, h.pos, h'.pos]⟩

lemma foldl_sign {l l' : List K} (hl : List.Forall₂ SameSign l l') : ∀ {a b : K}, SameSign a b →
    SameSign (l.foldl (fun a x => R.fl (a + x)) a) (l'.foldl (fun a x => a + x) b) := by
  induction hl with
  | nil => intro a b h; exact h
  | cons hx _ ih => intro a b h; exact ih (h.add hx).fl

lemma sum_sign {w w' : Fin 9 → K} (h : ∀ d, SameSign (w d) (w' d)) :
    SameSign (sumR R (List.ofFn w)) (∑ d, w' d) := by
  have := foldl_sign (R := R) (l := List.ofFn w) (l' := List.ofFn w') (by
    rw [List.forall₂_iff_get]
    refine ⟨by simp, fun i h1 h2 => ?_⟩
    simp only [List.get_eq_getElem, List.getElem_ofFn]
    exact h _) SameSign.zero
  rw [foldl_add, zero_add, List.sum_ofFn] at this
  exact this

lemma SameSign.eq_zero {a b : K} (h : SameSign a b) : a = 0 ↔ b = 0 := by
  constructor
  · rintro rfl
    exact le_antisymm (not_lt.1 fun hb => lt_irrefl _ (h.pos.2 hb)) h.right
  · rintro rfl
    exact le_antisymm (not_lt.1 fun hb => lt_irrefl _ (h.pos.1 hb)) h.left

lemma rebalance_sign {w w' : Fin 9 → K} (h : ∀ d, SameSign (w d) (w' d)) (d : Fin 9) :
    SameSign (rebalanceR R w d) (rebalance w' d) := by
  have hs := sum_sign (R := R) h
  unfold rebalanceR rebalance
  by_cases hp : 0 < ∑ d, w' d
  · rw [if_pos hp, if_pos (hs.pos.2 hp)]
    exact ((h d).div hs).fl
  · rw [if_neg hp, if_neg (fun h => hp (hs.pos.1 h))]
    exact h d

lemma SameSign.ite {a b : K} (h : SameSign a b) (p : Prop) [Decidable p] :
    SameSign (if p then 0 else a) (if p then 0 else b) := by
  split_ifs
  · exact SameSign.zero
  · exact h

/-- Specification: two results of a weight computation allow the same choices: both fail in the same
way, or the same positions have positive weight, and no weight is negative. -/
inductive SameChoices : Except Err (Fin 9 → K) → Except Err (Fin 9 → K) → Prop
  | error (e : Err) : SameChoices (.error e) (.error e)
  | ok (w w' : Fin 9 → K) (h : ∀ d, 0 ≤ w d ∧ 0 ≤ w' d ∧ (0 < w d ↔ 0 < w' d)) :
    SameChoices (.ok w) (.ok w')

lemma sameChoices_ok {w w' : Fin 9 → K} (h : ∀ d, SameSign (w d) (w' d)) :
    SameChoices (.ok w : Except Err _) (.ok w') :=
  .ok _ _ fun d => ⟨(h d).left, (h d).right, (h d).pos⟩

/-- C97: rounding does not change to which cells water can go. -/
theorem C97_water {row0 : Bool} {wSfc wInt depthN modN : Fin 9 → K} {ctN : Fin 9 → ℤ} {dryDepth gamma : K}
    {pw pw' : K → K} (hs : ∀ d, 0 ≤ wSfc d) (hi : ∀ d, 0 ≤ wInt d) (hd : ∀ d, 0 ≤ depthN d)
    (hm : ∀ d, 0 ≤ modN d) (hg0 : 0 ≤ gamma) (hg1 : gamma ≤ 1)
    (hpw : ∀ x, 0 ≤ x → 0 ≤ pw (R.fl x) ∧ 0 ≤ pw' x ∧ (0 < pw (R.fl x) ↔ 0 < pw' x)) :
    SameChoices (waterWeightAtCellR R row0 wSfc wInt depthN modN ctN dryDepth gamma pw)
      (waterWeightAtCell row0 wSfc wInt depthN modN ctN dryDepth gamma pw') := by
  have hpow : ∀ d, SameSign (pw (R.fl (depthN d * modN d))) (pw' (depthN d * modN d)) := fun d =>
    have h := hpw _ (mul_nonneg (hd d) (hm d))
    ⟨h.1, h.2.1, h.2.2⟩
  simp only [waterWeightAtCellR, waterWeightAtCell]
  generalize hA : (fun d => if decide (d = 4) = true then 0 else
    R.fl (pw (R.fl (depthN d * modN d)) *
      R.fl (R.fl (gamma * rebalanceR R (fun d => if decide (d = 4) = true then 0 else
          if (decide (depthN d < dryDepth) || decide (ctN d = -2)) = true then 0 else wSfc d) d) +
        R.fl (R.fl (1 - gamma) * rebalanceR R (fun d => if decide (d = 4) = true then 0 else
          if (decide (depthN d < dryDepth) || decide (ctN d = -2)) = true then 0 else wInt d) d)))) = A
  generalize hB : (fun d => if decide (d = 4) = true then 0 else
    pw' (depthN d * modN d) *
      (gamma * rebalance (fun d => if decide (d = 4) = true then 0 else
          if (decide (depthN d < dryDepth) || decide (ctN d = -2)) = true then 0 else wSfc d) d +
        (1 - gamma) * rebalance (fun d => if decide (d = 4) = true then 0 else
          if (decide (depthN d < dryDepth) || decide (ctN d = -2)) = true then 0 else wInt d) d)) = B
  have hAB : ∀ d, SameSign (A d) (B d) := by
    intro d
    rw [← hA, ← hB]
    refine SameSign.ite ?_ _
    refine ((hpow d).mul ?_).fl
    refine SameSign.fl (SameSign.add ?_ ?_)
    · refine SameSign.fl (SameSign.mul (SameSign.refl hg0) (rebalance_sign (fun e => ?_) d))
      exact ((SameSign.refl (hs e)).ite _).ite _
    · refine SameSign.fl (SameSign.mul (SameSign.refl (by linarith : 0 ≤ 1 - gamma)).fl
        (rebalance_sign (fun e => ?_) d))
      exact ((SameSign.refl (hi e)).ite _).ite _
  have hsum := sum_sign (R := R) hAB
  have even : ∀ (s : Fin 9 → Bool) (n : ℕ), ∀ d,
      SameSign (R.fl ((if s d = true then R.fl (1 / (n : K)) else 0) /
          sumR R (List.ofFn fun d => if s d = true then R.fl (1 / (n : K)) else 0)))
        ((if s d = true then 1 / (n : K) else 0) / ∑ e, if s e = true then 1 / (n : K) else 0) := by
    intro s n d
    have h1 : ∀ d, SameSign (if s d = true then R.fl (1 / (n : K)) else 0) (if s d = true then 1 / (n : K) else 0) := by
      intro d
      split_ifs
      · exact (SameSign.refl (by positivity)).fl
      · exact SameSign.zero
    exact ((h1 d).div (sum_sign h1)).fl
  by_cases hp : 0 < ∑ d, B d
  · rw [if_pos hp, if_pos (hsum.pos.2 hp)]
    subst hA hB
    exact sameChoices_ok fun d => ((hAB d).div hsum).fl
  · have h0 : ∑ d, B d = 0 := le_antisymm (not_lt.1 hp) hsum.right
    rw [if_neg hp, if_neg (fun h => hp (hsum.pos.1 h)), if_pos h0, if_pos (hsum.eq_zero.2 h0)]
    split_ifs
    · exact sameChoices_ok fun _ => SameSign.zero
    · exact sameChoices_ok fun d => even (fun d => !decide (depthN d < dryDepth) &&
        !(decide (ctN d = -2) || decide (d = 4) || row0 && decide (d.val < 3))) _ d
    · exact sameChoices_ok fun d => even (fun d => !decide (ctN d = -2)) _ d
    · exact .error _

/-- C97: rounding does not change to which cells sediment can go. -/
theorem C97_sediment {wInt depthN modN dist : Fin 9 → K} {ctN : Fin 9 → ℤ} {dryDepth : K}
    {pw pw' : K → K} (hi : ∀ d, 0 ≤ wInt d) (hd : ∀ d, 0 ≤ depthN d) (hm : ∀ d, 0 ≤ modN d)
    (hs : ∀ d, 0 ≤ dist d)
    (hpw : ∀ x, 0 ≤ x → 0 ≤ pw (R.fl x) ∧ 0 ≤ pw' x ∧ (0 < pw (R.fl x) ↔ 0 < pw' x)) :
    SameChoices (sedWeightAtCellR R wInt depthN modN ctN dryDepth pw dist)
      (sedWeightAtCell wInt depthN modN ctN dryDepth pw' dist) := by
  have hpow : ∀ d, SameSign (pw (R.fl (depthN d * modN d))) (pw' (depthN d * modN d)) := fun d =>
    have h := hpw _ (mul_nonneg (hd d) (hm d))
    ⟨h.1, h.2.1, h.2.2⟩
  simp only [sedWeightAtCellR, sedWeightAtCell]
  generalize hA : (fun d => if (decide (depthN d ≤ dryDepth) || decide (ctN d = -2)) = true then 0 else
    if decide (d = 4) = true then 0 else
      R.fl (pw (R.fl (depthN d * modN d)) * if decide (d = 4) = true then 0 else wInt d)) = A
  generalize hB : (fun d => if (decide (depthN d ≤ dryDepth) || decide (ctN d = -2)) = true then 0 else
    if decide (d = 4) = true then 0 else
      pw' (depthN d * modN d) * if decide (d = 4) = true then 0 else wInt d) = B
  have hAB : ∀ d, SameSign (A d) (B d) := by
    intro d
    rw [← hA, ← hB]
    refine SameSign.ite (SameSign.ite ?_ _) _
    exact ((hpow d).mul ((SameSign.refl (hi d)).ite _)).fl
  have hsum := sum_sign (R := R) hAB
  have hC : ∀ d, SameSign
      (if decide (d = 4) = true then 0 else
        (if sumR R (List.ofFn A) = 0 then fun d => if decide (ctN d = -2) = true then 0 else R.fl (1 / dist d)
          else A) d)
      (if decide (d = 4) = true then 0 else
        (if ∑ d, B d = 0 then fun d => if decide (ctN d = -2) = true then 0 else 1 / dist d else B) d) := by
    intro d
    refine SameSign.ite ?_ _
    by_cases h0 : ∑ d, B d = 0
    · rw [if_pos h0, if_pos (hsum.eq_zero.2 h0)]
      exact SameSign.ite (SameSign.refl (by have := hs d; positivity)).fl _
    · rw [if_neg h0, if_neg (fun h => h0 (hsum.eq_zero.1 h))]
      exact hAB d
  have hsumC := sum_sign (R := R) hC
  by_cases h0 : ∑ d, (if decide (d = 4) = true then 0 else
      (if ∑ d, B d = 0 then fun d => if decide (ctN d = -2) = true then 0 else 1 / dist d else B) d) = 0
  · rw [if_pos h0, if_pos (hsumC.eq_zero.2 h0)]
    exact .error _
  · rw [if_neg h0, if_neg (fun h => h0 (hsumC.eq_zero.1 h))]
    exact sameChoices_ok fun d => ((hC d).div hsumC).fl

/-! ## Choice -/

/-- Specification: the sum of the first `k` weights, rounded after each addition. -/
def beforeR (R : Rounding K) {n : ℕ} (w : Fin n → K) : ℕ → K
  | 0 => 0
  | k + 1 => if h : k < n then R.fl (beforeR R w k + w ⟨k, h⟩) else beforeR R w k

lemma cumsumR_get {n : ℕ} (w : Fin n → K) : ∀ (j : ℕ) (k : ℕ), (hj : j ≤ n) → (hk : j + k < n) →
    (cumsumFromR R (beforeR R w j) ((List.ofFn w).drop j))[k]? = some (beforeR R w (j + k + 1)) := by
  intro j k
  induction k generalizing j with
  | zero =>
    intro hj hk
    rw [List.drop_eq_getElem_cons (by simpa using hk), cumsumFromR, List.getElem?_cons_zero, beforeR,
      dif_pos (by simpa using hk)]
    simp
  | succ k ih =>
    intro hj hk
    rw [List.drop_eq_getElem_cons (by simp; omega), cumsumFromR, List.getElem?_cons_succ]
    have hb : R.fl (beforeR R w j + (List.ofFn w)[j]'(by simp; omega)) = beforeR R w (j + 1) := by
      rw [beforeR, dif_pos (by omega : j < n)]
      simp
    rw [hb, ih (j + 1) (by omega) (by omega)]
    congr 2
    omega

lemma cumsumR_eq {n : ℕ} (w : Fin n → K) :
    cumsumFromR R 0 (List.ofFn w) = List.ofFn fun k : Fin n => beforeR R w (k + 1) := by
  have hlen : ∀ (l : List K) (a : K), (cumsumFromR R a l).length = l.length := by
    intro l
    induction l with
    | nil => intro a; rfl
    | cons x xs ih => intro a; simp [cumsumFromR, ih]
  apply List.ext_getElem?
  intro k
  by_cases hk : k < n
  · have := cumsumR_get (R := R) w 0 k (Nat.zero_le _) (by omega)
    rw [List.drop_zero] at this
    rw [show cumsumFromR R 0 (List.ofFn w) = cumsumFromR R (beforeR R w 0) (List.ofFn w) from rfl, this]
    rw [List.getElem?_ofFn]
    simp [hk]
  · rw [List.getElem?_eq_none (by rw [hlen]; simp; omega), List.getElem?_eq_none (by simp; omega)]

lemma beforeR_rounded {n : ℕ} (w : Fin n → K) (k : ℕ) : R.fl (beforeR R w k) = beforeR R w k := by
  induction k with
  | zero => exact fl_zero R
  | succ k ih =>
    unfold beforeR
    split_ifs
    · exact R.idem _
    · exact ih

lemma beforeR_mono {n : ℕ} {w : Fin n → K} (hw : ∀ i, 0 ≤ w i) : Monotone (beforeR R w) := by
  refine monotone_nat_of_le_succ fun k => ?_
  conv_rhs => unfold beforeR
  split_ifs with h
  · exact le_fl_of_le R (beforeR_rounded w k) (by linarith [hw ⟨k, h⟩])
  · exact le_rfl

lemma search_mono {a : ℕ → K} (ha : Monotone a) (v : K) : ∀ (n : ℕ) (k : ℕ), k < n →
    (searchsortedLeft (List.ofFn fun i : Fin n => a i) v = k ↔ (∀ j < k, a j < v) ∧ v ≤ a k) := by
  intro n
  induction n generalizing a with
  | zero => intro k hk; omega
  | succ n ih =>
    intro k hk
    rw [List.ofFn_succ]
    have ih' := ih (a := fun i => a (i + 1)) (fun i j h => ha (by omega))
    by_cases h0 : a 0 < v
    · have e : searchsortedLeft (a 0 :: List.ofFn fun i : Fin n => a (i + 1)) v =
          searchsortedLeft (List.ofFn fun i : Fin n => a (i + 1)) v + 1 := by
        simp [searchsortedLeft, h0]
      simp only [Fin.val_zero, Fin.val_succ]
      rw [e]
      cases k with
      | zero =>
        refine ⟨fun h => by omega, fun h => absurd h0 (not_lt.2 h.2)⟩
      | succ k =>
        rw [Nat.add_right_cancel_iff, ih' k (by omega)]
        refine ⟨fun h => ⟨fun j hj => ?_, h.2⟩, fun h => ⟨fun j hj => h.1 (j + 1) (by omega), h.2⟩⟩
        cases j with
        | zero => exact h0
        | succ j => exact h.1 j (by omega)
    · have e : searchsortedLeft (a 0 :: List.ofFn fun i : Fin n => a (i + 1)) v = 0 := by
        simp [searchsortedLeft, h0]
      simp only [Fin.val_zero, Fin.val_succ]
      rw [e]
      cases k with
      | zero => exact ⟨fun _ => ⟨fun j hj => by omega, not_lt.1 h0⟩, fun _ => rfl⟩
      | succ k => exact ⟨fun h => by omega, fun h => absurd (h.1 0 (by omega)) h0⟩

/-- Specification: numbers rounded by `R` are numbers of `D`. -/
def Within (R D : Rounding K) : Prop := ∀ x, R.fl x = x → D.fl x = x

/-- C97: position `k` is chosen exactly for the draws that fall between the rounded sums before it and
after it (position 0 also for the draw 0). -/
theorem C97_interval (hRD : Within R D) {n : ℕ} {w : Fin n → K} (hw : ∀ i, 0 ≤ w i) (r : K) (k : Fin n) :
    randomPickR R D w r = some k ↔
      (k.val = 0 ∨ beforeR R w k < D.fl (beforeR R w n * r)) ∧
        D.fl (beforeR R w n * r) ≤ beforeR R w (k + 1) := by
  have hn : 0 < n := lt_of_le_of_lt (Nat.zero_le _) k.isLt
  obtain ⟨m, rfl⟩ : ∃ m, n = m + 1 := ⟨n - 1, by omega⟩
  have hmono := beforeR_mono (R := R) hw
  have hlast : (List.ofFn fun k : Fin (m + 1) => beforeR R w (k + 1)).getLast? = some (beforeR R w (m + 1)) := by
    rw [List.getLast?_eq_getElem?, List.length_ofFn, List.getElem?_ofFn]
    simp
  simp only [randomPickR, cumsumR_eq, hlast, sub_zero, zero_add, D.idem, hRD _ (beforeR_rounded w _)]
  set v := D.fl (beforeR R w (m + 1) * r)
  have hs := search_mono (a := fun i => beforeR R w (i + 1)) (fun i j h => hmono (by omega)) v (m + 1) k k.isLt
  have hfin : (∀ j < k.val, beforeR R w (j + 1) < v) ↔ k.val = 0 ∨ beforeR R w k < v := by
    constructor
    · intro h
      by_cases h0 : k.val = 0
      · exact .inl h0
      · refine .inr ?_
        have := h (k.val - 1) (by omega)
        rwa [Nat.sub_add_cancel (by omega)] at this
    · intro h j hj
      rcases h with h | h
      · omega
      · exact (hmono (by omega)).trans_lt h
  rw [← hfin, ← hs]
  constructor
  · intro h
    split at h
    · simp only [Option.some.injEq] at h; rw [← h]
    · exact absurd h (by simp)
  · intro h
    rw [dif_pos (by rw [h]; exact k.isLt)]
    simp only [Option.some.injEq]
    exact Fin.ext h

/-- C97: for every draw a position is chosen; there is no read outside of the array. -/
theorem C97_pick_total (hRD : Within R D) {n : ℕ} (hn : 0 < n) {w : Fin n → K} (hw : ∀ i, 0 ≤ w i) {r : K}
    (hr : r ≤ 1) : ∃ k, randomPickR R D w r = some k := by
  have hmono := beforeR_mono (R := R) hw
  have h0 : 0 ≤ beforeR R w n := hmono (Nat.zero_le n)
  have htop : D.fl (beforeR R w n * r) ≤ beforeR R w n :=
    fl_le_of_le D (hRD _ (beforeR_rounded w n)) (mul_le_of_le_one_right h0 hr)
  have hex : ∃ k, k < n ∧ D.fl (beforeR R w n * r) ≤ beforeR R w (k + 1) :=
    ⟨n - 1, by omega, by rwa [Nat.sub_add_cancel hn]⟩
  classical
  obtain ⟨hk, hle⟩ := Nat.find_spec hex
  refine ⟨⟨Nat.find hex, hk⟩, (C97_interval hRD hw r _).2 ⟨?_, hle⟩⟩
  by_cases hz : Nat.find hex = 0
  · exact .inl hz
  · right
    have := Nat.find_min hex (m := Nat.find hex - 1) (by omega)
    rw [not_and, not_le] at this
    have := this (by omega)
    rwa [Nat.sub_add_cancel (by omega)] at this

/-- C97: for positive draws the chosen position has positive weight. -/
theorem C97_positive_partial (hRD : Within R D) {n : ℕ} {w : Fin n → K} (hw : ∀ i, 0 ≤ w i)
    (hpos : ∃ i, 0 < w i) {r : K} (hr : 0 < r) {k : Fin n} (h : randomPickR R D w r = some k) : 0 < w k := by
  have hmono := beforeR_mono (R := R) hw
  obtain ⟨h1, h2⟩ := (C97_interval hRD hw r k).1 h
  have htot : 0 < beforeR R w n := by
    obtain ⟨i, hi⟩ := hpos
    have : 0 < beforeR R w (i + 1) := by
      rw [beforeR, dif_pos i.isLt]
      exact fl_pos R (by have := hmono (Nat.zero_le i); simp only [beforeR] at this; linarith)
    exact this.trans_le (hmono i.isLt)
  have hlt : beforeR R w k < beforeR R w (k + 1) := by
    rcases h1 with h1 | h1
    · refine lt_of_lt_of_le ?_ h2
      rw [h1]
      exact fl_pos D (mul_pos htot hr)
    · exact h1.trans_le h2
  by_contra hc
  have hz : w k = 0 := le_antisymm (not_lt.1 hc) (hw k)
  rw [beforeR, dif_pos k.isLt] at hlt
  simp only [Fin.eta, hz, add_zero, beforeR_rounded] at hlt
  exact lt_irrefl _ hlt

/-- C97: the rounded sums are off by a factor between `(1 - u) ^ k` and `(1 + u) ^ k`. -/
theorem C97_sums {n : ℕ} {w : Fin n → K} (hw : ∀ i, 0 ≤ w i) (k : ℕ) :
    (∑ i : Fin n, if i.val < k then w i else 0) * (1 - R.u) ^ k ≤ beforeR R w k ∧
      beforeR R w k ≤ (∑ i : Fin n, if i.val < k then w i else 0) * (1 + R.u) ^ k := by
  have hu := R.u_nonneg
  have hh := R.u_half
  induction k with
  | zero => simp [beforeR]
  | succ k ih =>
    have h0 : 0 ≤ ∑ i : Fin n, (if i.val < k then w i else 0) :=
      Finset.sum_nonneg fun i _ => by split_ifs <;> simp [hw]
    by_cases hk : k < n
    · have hs : (∑ i : Fin n, if i.val < k + 1 then w i else 0) =
          (∑ i : Fin n, if i.val < k then w i else 0) + w ⟨k, hk⟩ := by
        have : ∀ i : Fin n, (if i.val < k + 1 then w i else 0) =
            (if i.val < k then w i else 0) + (if i = ⟨k, hk⟩ then w i else 0) := by
          intro i
          by_cases h1 : i.val < k
          · rw [if_pos h1, if_pos (by omega), if_neg (by rintro rfl; simp at h1), add_zero]
          · by_cases h2 : i = ⟨k, hk⟩
            · subst h2; simp
            · have : ¬ i.val < k + 1 := fun h => h2 (Fin.ext (by simp; omega))
              rw [if_neg h1, if_neg this, if_neg h2, add_zero]
        rw [Finset.sum_congr rfl fun i _ => this i, Finset.sum_add_distrib]
        simp
      rw [hs, beforeR, dif_pos hk]
      set s := ∑ i : Fin n, (if i.val < k then w i else 0)
      have hwk := hw ⟨k, hk⟩
      have hb : 0 ≤ beforeR R w k := beforeR_mono (R := R) hw (Nat.zero_le k)
      have hp1 : (1 - R.u) ^ k ≤ 1 := pow_le_one₀ (by linarith) (by linarith)
      have hp2 : 1 ≤ (1 + R.u) ^ k := one_le_pow₀ (by linarith)
      constructor
      · calc _ = (s * (1 - R.u) ^ k + w ⟨k, hk⟩ * (1 - R.u) ^ k) * (1 - R.u) := by ring
          _ ≤ (beforeR R w k + w ⟨k, hk⟩) * (1 - R.u) :=
            mul_le_mul_of_nonneg_right (add_le_add ih.1 (mul_le_of_le_one_right hwk hp1)) (by linarith)
          _ ≤ _ := fl_ge R (add_nonneg hb hwk)
      · calc _ ≤ (beforeR R w k + w ⟨k, hk⟩) * (1 + R.u) := fl_le R (add_nonneg hb hwk)
          _ ≤ (s * (1 + R.u) ^ k + w ⟨k, hk⟩ * (1 + R.u) ^ k) * (1 + R.u) :=
            mul_le_mul_of_nonneg_right (add_le_add ih.2 (le_mul_of_one_le_right hwk hp2)) (by linarith)
          _ = _ := by ring
    · have hs : (∑ i : Fin n, if i.val < k + 1 then w i else 0) = ∑ i : Fin n, if i.val < k then w i else 0 := by
        refine Finset.sum_congr rfl fun i _ => ?_
        rw [if_pos (by have := i.isLt; omega), if_pos (by have := i.isLt; omega)]
      rw [hs, beforeR, dif_neg hk]
      have hp1 : (1 - R.u) ^ (k + 1) ≤ (1 - R.u) ^ k := by
        rw [pow_succ]
        exact mul_le_of_le_one_right (pow_nonneg (by linarith) _) (by linarith)
      have hp2 : (1 + R.u) ^ k ≤ (1 + R.u) ^ (k + 1) := by
        rw [pow_succ]
        exact le_mul_of_one_le_right (pow_nonneg (by linarith) _) (by linarith)
      exact ⟨(mul_le_mul_of_nonneg_left hp1 h0).trans ih.1, ih.2.trans (mul_le_mul_of_nonneg_left hp2 h0)⟩

/-- C97 is false where a weight is lost in the sum of those before it: the position is never chosen,
although its weight is positive. -/
theorem C97_absorbed (hRD : Within R D) {n : ℕ} {w : Fin n → K} (hw : ∀ i, 0 ≤ w i) {k : Fin n}
    (hk : k.val ≠ 0) (h : R.fl (beforeR R w k + w k) = beforeR R w k) (r : K) :
    randomPickR R D w r ≠ some k := by
  intro hp
  obtain ⟨h1, h2⟩ := (C97_interval hRD hw r k).1 hp
  rw [beforeR, dif_pos k.isLt] at h2
  simp only [Fin.eta, h] at h2
  rcases h1 with h1 | h1
  · exact hk h1
  · exact absurd h2 (not_le.2 h1)

/-! ## Numbers of 24 and of 53 digits -/

lemma within_binary [FloorRing K] {p q : ℕ} (hp : 1 ≤ p) (hq : 1 ≤ q) (h : p ≤ q) :
    Within (binary K p hp) (binary K q hq) := by
  intro x hx
  obtain ⟨m, hm, e, he⟩ := nearest_repr p x
  have : x = (m : K) * 2 ^ e := hx.symm.trans he
  rw [this]
  exact nearest_exact hq (hm.trans (pow_le_pow_right₀ (by norm_num) h)) e

/-- The numbers of `float32` arrays. -/
abbrev single : Rounding ℚ := binary ℚ 24 (by norm_num)

/-- Weights of which the second is lost. -/
def exLost : Fin 3 → ℚ := ![1, 1 / 2 ^ 25, 1 / 2]

/-- C97: with these weights the second position is never chosen in the arithmetic of the program;
the others are. -/
theorem C97_witness : (∀ i, 0 < exLost i) ∧ (∀ i, single.fl (exLost i) = exLost i) ∧
    ∀ r, randomPickR single (binary ℚ 53 (by norm_num)) exLost r ≠ some 1 := by
  have hw : ∀ i, 0 < exLost i := by decide +kernel
  refine ⟨hw, by decide +kernel, fun r => ?_⟩
  refine C97_absorbed (within_binary _ _ (by norm_num)) (fun i => (hw i).le) (by decide) ?_ r
  decide +kernel

example : randomPickR single (binary ℚ 53 (by norm_num)) exLost (1 / 2) = some 0 ∧
    randomPickR single (binary ℚ 53 (by norm_num)) exLost (3 / 4) = some 2 ∧
    randomPick exLost ((1 + 1 / 2 ^ 25) / (3 / 2 + 1 / 2 ^ 25)) = some 1 := by decide +kernel

/-- Non-trivial case for `C97_water` and `C97_sediment`: powers with exponent 1 in single precision. -/
example : ∀ x : ℚ, 0 ≤ x → 0 ≤ single.fl (single.fl x) ∧ 0 ≤ x ∧ (0 < single.fl (single.fl x) ↔ 0 < x) :=
  fun x hx => ⟨fl_nonneg _ (fl_nonneg _ hx), hx, (fl_pos_iff _).trans (fl_pos_iff _)⟩

end Verif.Props
