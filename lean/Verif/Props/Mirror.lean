import Verif.Spec.Mirror
import Verif.Props.Draws
import Verif.Props.Surface
import Verif.Props.Diffusion
import Verif.Props.Timestep

/-!
# C80: left and right are treated alike

Every deterministic part of a timestep commutes with the mirror of `Verif.Spec.Mirror`.
-/

set_option linter.unusedSectionVars false
set_option linter.unusedSimpArgs false

namespace Verif.Props

open Verif.Model Verif.Lemmas Verif.Spec

variable {K : Type*} [Field K] [LinearOrder K] [IsStrictOrderedRing K] {L W m : ℕ}

lemma mirrorCell_mirror (c : Cell L W) : mirrorCell (mirrorCell c) = c := by
  simp [mirrorCell]

lemma mirrorDir_mirror (d : Fin 9) : mirrorDir (mirrorDir d) = d := by
  fin_cases d <;> rfl

/-- The mirror as a permutation of the directions. -/
def mirrorPerm : Equiv.Perm (Fin 9) := ⟨mirrorDir, mirrorDir, mirrorDir_mirror, mirrorDir_mirror⟩

lemma sum_mirror {M : Type*} [AddCommMonoid M] (f : Fin 9 → M) :
    ∑ d, f (mirrorDir d) = ∑ d, f d :=
  Equiv.sum_comp mirrorPerm f

lemma card_mirror (p : Fin 9 → Bool) :
    (Finset.univ.filter fun d => p (mirrorDir d) = true).card =
      (Finset.univ.filter fun d => p d = true).card := by
  rw [Finset.card_filter, Finset.card_filter]
  exact sum_mirror fun d => if p d = true then 1 else 0

lemma mirrorDir_four (d : Fin 9) : mirrorDir d = 4 ↔ d = 4 := by
  revert d; decide

lemma mirrorDir_up (d : Fin 9) : (mirrorDir d).val < 3 ↔ d.val < 3 := by
  revert d; decide

lemma seen_mirror [NeZero L] [NeZero W] (c : Cell L W) (d : Fin 9) :
    seen (mirrorCell c) (mirrorDir d) = mirrorCell (seen c d) := by
  have hW := NeZero.pos W
  have h2 := c.2.isLt
  have e : ∀ d : Fin 9, stepRow (mirrorDir d) = stepRow d ∧ stepCol (mirrorDir d) = - stepCol d := by
    decide
  unfold seen mirrorCell closest
  apply Prod.ext
  · simp [(e d).1]
  · apply Fin.ext
    simp only [(e d).2, Fin.val_rev]
    omega

lemma nbrs_mirror [NeZero L] [NeZero W] {α : Type*} [Zero α] (f : Grid L W α) (c : Cell L W)
    (d : Fin 9) : nbrs (mirror f) c d = nbrs f (mirrorCell c) (mirrorDir d) := by
  rw [nbrs_seen, nbrs_seen, seen_mirror]
  rfl

lemma rebalance_mirror (w : Fin 9 → K) :
    rebalance (fun d => w (mirrorDir d)) = fun d => rebalance w (mirrorDir d) := by
  unfold rebalance
  rw [sum_mirror]
  split_ifs <;> rfl

lemma distances_mirror (s2 : K) (d : Fin 9) : distances s2 (mirrorDir d) = distances s2 d := by
  fin_cases d <;> rfl

/-- The branches of the weights of a cell, for the raw weights `w`. -/
def waterBranches (w : Fin 9 → K) (wall4 : Bool) (wetvalid notwall : Fin 9 → Bool) :
    Except Err (Fin 9 → K) :=
  if 0 < ∑ d, w d then .ok (fun d => w d / ∑ e, w e)
  else if ∑ d, w d = 0 then
    if wall4 then .ok (fun _ => 0)
    else
      let n : ℕ := (Finset.univ.filter (fun d => wetvalid d = true)).card
      if 0 < n then
        let v : Fin 9 → K := fun d => if wetvalid d then 1 / (n : K) else 0
        .ok (fun d => v d / ∑ e, v e)
      else
        let n : ℕ := (Finset.univ.filter (fun d => notwall d = true)).card
        if 0 < n then
          let v : Fin 9 → K := fun d => if notwall d then 1 / (n : K) else 0
          .ok (fun d => v d / ∑ e, v e)
        else .error .waterNoNonWall
  else .error .waterNegativeSum

/-- The raw weights of a cell. -/
def waterRaw (wSfc wInt depthN modN : Fin 9 → K) (ctN : Fin 9 → ℤ) (dryDepth gamma : K) (pw : K → K) :
    Fin 9 → K :=
  let part : (Fin 9 → K) → Fin 9 → K := fun f => rebalance fun d => if decide (d = 4) then 0 else
    if decide (depthN d < dryDepth) || decide (ctN d = -2) then 0 else f d
  fun d => if decide (d = 4) then 0 else
    pw (depthN d * modN d) * (gamma * part wSfc d + (1 - gamma) * part wInt d)

lemma waterWeightAtCell_eq (row0 : Bool) (wSfc wInt depthN modN : Fin 9 → K) (ctN : Fin 9 → ℤ)
    (dryDepth gamma : K) (pw : K → K) :
    waterWeightAtCell row0 wSfc wInt depthN modN ctN dryDepth gamma pw =
      waterBranches (waterRaw wSfc wInt depthN modN ctN dryDepth gamma pw) (decide (ctN 4 = -2))
        (fun d => !decide (depthN d < dryDepth) &&
          !((decide (ctN d = -2) || decide (d = 4)) || (row0 && decide (d.val < 3))))
        (fun d => !decide (ctN d = -2)) := rfl

lemma waterBranches_mirror (w : Fin 9 → K) (wall4 : Bool) (wetvalid notwall : Fin 9 → Bool) :
    waterBranches (fun d => w (mirrorDir d)) wall4 (fun d => wetvalid (mirrorDir d))
      (fun d => notwall (mirrorDir d)) =
    (waterBranches w wall4 wetvalid notwall).map fun w d => w (mirrorDir d) := by
  unfold waterBranches
  simp only [sum_mirror w, card_mirror]
  rw [sum_mirror fun d => if wetvalid d = true then
      1 / (((Finset.univ.filter fun d => wetvalid d = true).card : ℕ) : K) else 0,
    sum_mirror fun d => if notwall d = true then
      1 / (((Finset.univ.filter fun d => notwall d = true).card : ℕ) : K) else 0]
  split_ifs <;> rfl

lemma waterRaw_mirror (wSfc wInt depthN modN : Fin 9 → K) (ctN : Fin 9 → ℤ) (dryDepth gamma : K)
    (pw : K → K) :
    waterRaw (fun d => wSfc (mirrorDir d)) (fun d => wInt (mirrorDir d))
      (fun d => depthN (mirrorDir d)) (fun d => modN (mirrorDir d)) (fun d => ctN (mirrorDir d))
      dryDepth gamma pw =
    fun d => waterRaw wSfc wInt depthN modN ctN dryDepth gamma pw (mirrorDir d) := by
  have part : ∀ f : Fin 9 → K, rebalance (fun d => if decide (d = 4) then 0 else
      if decide (depthN (mirrorDir d) < dryDepth) || decide (ctN (mirrorDir d) = -2) then 0
        else f (mirrorDir d)) =
      fun d => rebalance (fun d => if decide (d = 4) then 0 else
        if decide (depthN d < dryDepth) || decide (ctN d = -2) then 0 else f d) (mirrorDir d) := by
    intro f
    rw [← rebalance_mirror]
    congr 1
    funext d
    simp [mirrorDir_four]
  unfold waterRaw
  simp only [part]
  funext d
  simp [mirrorDir_four]

lemma weightSfc_mirror [NeZero L] [NeZero W] (stage : Grid L W K) (s2 : K) (c : Cell L W) :
    weightSfc (mirror stage c) (nbrs (mirror stage) c) s2 =
      fun d => weightSfc (stage (mirrorCell c)) (nbrs stage (mirrorCell c)) s2 (mirrorDir d) := by
  funext d
  simp only [weightSfc, nbrs_mirror, distances_mirror]
  rfl

lemma weightInt_mirror (qx qy : Grid L W K) (s05 s2 : K) (c : Cell L W) :
    weightInt (mirror qx c) (mirrorAcross qy c) s05 s2 =
      fun d => weightInt (qx (mirrorCell c)) (qy (mirrorCell c)) s05 s2 (mirrorDir d) := by
  have h1 : ∀ d, jvec s05 (mirrorDir d) = jvec s05 d := by
    intro d; fin_cases d <;> rfl
  have h2 : ∀ d, ivec s05 (mirrorDir d) = - ivec s05 d := by
    intro d; fin_cases d <;> simp [ivec, mirrorDir]
  funext d
  simp only [weightInt, distances_mirror, h1, h2, mirror, mirrorAcross]
  rw [neg_mul, mul_neg]

/-- C80: in the mirrored basin the water weights are mirrored. -/
theorem C80_water_weights [NeZero L] [NeZero W] (depth stage modW : Grid L W K)
    (cellType : Grid L W ℤ) (qx qy : Grid L W K) (s2 s05 dryDepth gamma : K) (pw : K → K)
    (c : Cell L W) :
    waterWeights (mirror depth) (mirror stage) (mirror modW) (mirror cellType) (mirror qx)
      (mirrorAcross qy) s2 s05 dryDepth gamma pw c =
    (waterWeights depth stage modW cellType qx qy s2 s05 dryDepth gamma pw (mirrorCell c)).map
      fun w d => w (mirrorDir d) := by
  unfold waterWeights
  rw [weightSfc_mirror, weightInt_mirror]
  have e : ∀ {α : Type _} [Zero α] (f : Grid L W α), nbrs (mirror f) c =
      fun d => nbrs f (mirrorCell c) (mirrorDir d) := fun f => funext (nbrs_mirror f c)
  rw [e depth, e modW, funext (nbrs_mirror cellType c), waterWeightAtCell_eq, waterWeightAtCell_eq,
    waterRaw_mirror, ← waterBranches_mirror]
  congr 1
  funext d
  have hup : ∀ d : Fin 9, decide ((mirrorDir d).val < 3) = decide (d.val < 3) := fun d => by
    simp [mirrorDir_up]
  have hctr : ∀ d : Fin 9, decide (mirrorDir d = 4) = decide (d = 4) := fun d => by
    simp [mirrorDir_four]
  simp only [hup, hctr]
  rfl

/-- The branches of the sediment weights, for raw weights `w` and fallback `f`. -/
def sedBranches (w f : Fin 9 → K) : Except Err (Fin 9 → K) :=
  let w3 : Fin 9 → K := if ∑ d, w d = 0 then f else w
  let v : Fin 9 → K := fun d => if decide (d = 4) then 0 else w3 d
  if ∑ d, v d = 0 then .error .sedNoWeights else .ok (fun d => v d / ∑ e, v e)

lemma sedBranches_mirror (w f : Fin 9 → K) :
    sedBranches (fun d => w (mirrorDir d)) (fun d => f (mirrorDir d)) =
      (sedBranches w f).map fun w d => w (mirrorDir d) := by
  unfold sedBranches
  simp only [sum_mirror w]
  have e : ∀ g : Fin 9 → K, (∑ d, if decide (d = 4) = true then 0 else g (mirrorDir d)) =
      ∑ d, if decide (d = 4) = true then 0 else g d := by
    intro g
    rw [← sum_mirror fun d => if decide (d = 4) = true then 0 else g d]
    refine Finset.sum_congr rfl (fun d _ => ?_)
    simp [mirrorDir_four]
  have h4 : ∀ d : Fin 9, decide (mirrorDir d = 4) = decide (d = 4) := fun d => by
    simp [mirrorDir_four]
  by_cases h : ∑ d, w d = 0
  · simp only [if_pos h, e f]
    split_ifs
    · rfl
    · simp only [Except.map, h4]
  · simp only [if_neg h, e w]
    split_ifs
    · rfl
    · simp only [Except.map, h4]

/-- A slice of a mirrored padded array. -/
lemma padSlice_mirror {α : Type*} (pad : Grid (L + 2) (W + 2) α) (c : Cell L W) (d : Fin 9) :
    padSlice (mirror pad) c d = padSlice pad (mirrorCell c) (mirrorDir d) := by
  have h1 : (mirrorDir d).val / 3 = d.val / 3 := by revert d; decide
  have h2 : (mirrorDir d).val % 3 = 2 - d.val % 3 := by revert d; decide
  unfold padSlice mirror
  congr 1
  unfold mirrorCell
  have := c.2.isLt
  have : d.val % 3 < 3 := Nat.mod_lt _ (by norm_num)
  refine Prod.ext (Fin.ext ?_) (Fin.ext ?_)
  · simp only [h1]
  · simp only [Fin.val_rev, h2]
    omega

lemma sedWeights_mirror [NeZero L] [NeZero W] {padD padD' : Grid (L + 2) (W + 2) K} (modS : Grid L W K)
    (cellType : Grid L W ℤ) (qx qy : Grid L W K) (s2 s05 dryDepth : K) (pw : K → K)
    (c : Cell L W) (h : padSlice padD' c = fun d => padSlice padD (mirrorCell c) (mirrorDir d)) :
    sedWeights padD' (customPad (mirror modS)) (customPad (mirror cellType))
      (mirror qx) (mirrorAcross qy) s2 s05 dryDepth pw c =
    (sedWeights padD (customPad modS) (customPad cellType) qx qy s2 s05 dryDepth pw
      (mirrorCell c)).map fun w d => w (mirrorDir d) := by
  unfold sedWeights
  rw [weightInt_mirror]
  have e : ∀ {α : Type _} [Zero α] (f : Grid L W α), padSlice (customPad (mirror f)) c =
      fun d => padSlice (customPad f) (mirrorCell c) (mirrorDir d) :=
    fun f => funext (nbrs_mirror f c)
  rw [h, e modS]
  rw [show padSlice (customPad (mirror cellType)) c =
      fun d => padSlice (customPad cellType) (mirrorCell c) (mirrorDir d) from
    funext (nbrs_mirror cellType c)]
  generalize weightInt (qx (mirrorCell c)) (qy (mirrorCell c)) s05 s2 = wI
  generalize padSlice padD (mirrorCell c) = dN
  generalize padSlice (customPad modS) (mirrorCell c) = mN
  generalize padSlice (customPad cellType) (mirrorCell c) = tN
  have hctr : ∀ d : Fin 9, decide (mirrorDir d = 4) = decide (d = 4) := fun d => by
    simp [mirrorDir_four]
  have key : ∀ wI dN mN (tN : Fin 9 → ℤ), sedWeightAtCell wI dN mN tN dryDepth pw (distances s2) =
      sedBranches (fun d => if decide (dN d ≤ dryDepth) || decide (tN d = -2) then 0 else
        if decide (d = 4) then 0 else pw (dN d * mN d) * if decide (d = 4) then 0 else wI d)
        (fun d => if decide (tN d = -2) then 0 else 1 / distances s2 d) := fun _ _ _ _ => rfl
  rw [key, key, ← sedBranches_mirror]
  simp only [hctr, distances_mirror]

/-- C80: in the mirrored basin the sediment weights are mirrored. -/
theorem C80_sediment_weights [NeZero L] [NeZero W] (depth modS : Grid L W K)
    (cellType : Grid L W ℤ) (qx qy : Grid L W K) (s2 s05 dryDepth : K) (pw : K → K)
    (c : Cell L W) :
    sedWeights (customPad (mirror depth)) (customPad (mirror modS)) (customPad (mirror cellType))
      (mirror qx) (mirrorAcross qy) s2 s05 dryDepth pw c =
    (sedWeights (customPad depth) (customPad modS) (customPad cellType) qx qy s2 s05 dryDepth pw
      (mirrorCell c)).map fun w d => w (mirrorDir d) :=
  sedWeights_mirror modS cellType qx qy s2 s05 dryDepth pw c (funext (nbrs_mirror depth c))

/-! ## The water surface -/

/-- C80: smoothing commutes with the mirror. -/
theorem C80_smooth [NeZero L] [NeZero W] (cellType : Grid L W ℤ) (C : K) (n : ℕ) (H : Grid L W K) :
    smooth (mirror cellType) C n (mirror H) = mirror (smooth cellType C n H) := by
  have hpass : ∀ H, smoothPass (mirror cellType) C (mirror H) = mirror (smoothPass cellType C H) := by
    intro H
    funext c
    have h4 : ∀ d : Fin 9, decide (d = 4) = decide (mirrorDir d = 4) := fun d => by
      simp [mirrorDir_four]
    have e1 : (∑ d, if (decide (nbrs (mirror cellType) c d = -2) || decide (d = 4)) = true then 0
        else nbrs (mirror H) c d) =
        ∑ d, if (decide (nbrs cellType (mirrorCell c) d = -2) || decide (d = 4)) = true then 0
          else nbrs H (mirrorCell c) d := by
      rw [← sum_mirror fun d => if (decide (nbrs cellType (mirrorCell c) d = -2) ||
        decide (d = 4)) = true then 0 else nbrs H (mirrorCell c) d]
      refine Finset.sum_congr rfl (fun d _ => ?_)
      rw [nbrs_mirror, nbrs_mirror, h4]
    have e2 : (Finset.univ.filter fun d =>
        (!(decide (nbrs (mirror cellType) c d = -2) || decide (d = 4))) = true).card =
        (Finset.univ.filter fun d =>
          (!(decide (nbrs cellType (mirrorCell c) d = -2) || decide (d = 4))) = true).card := by
      rw [← card_mirror fun d => !(decide (nbrs cellType (mirrorCell c) d = -2) || decide (d = 4))]
      congr 1
      ext d
      simp only [Finset.mem_filter, nbrs_mirror, h4 d]
    unfold smoothPass
    simp only [e1, e2]
    rfl
  induction n generalizing H with
  | zero => rfl
  | succ n ih =>
    unfold smooth
    rw [hpass, ih]

/-- The eight directions of the flooding correction seen in the mirror. -/
def mirror8 : Fin 8 → Fin 8 := ![4, 3, 2, 1, 0, 7, 6, 5]

lemma mirror8_mirror (k : Fin 8) : mirror8 (mirror8 k) = k := by
  revert k; decide

/-- The mirror as a permutation of the eight directions. -/
def mirrorPerm8 : Equiv.Perm (Fin 8) := ⟨mirror8, mirror8, mirror8_mirror, mirror8_mirror⟩

lemma off8_mirror (k : Fin 8) : off8 (mirror8 k) = ((off8 k).1, -(off8 k).2) := by
  revert k; decide

lemma plain_mirror [NeZero L] [NeZero W] (arr : Grid L W K) (k : Fin 8) (c : Cell L W) :
    buildWeightArray (mirror arr) false k c = buildWeightArray arr false (mirror8 k) (mirrorCell c) := by
  have hc := c.2.isLt
  rcases buildWeightArray_plain (mirror arr) k c with ⟨n, h1, h2, h3⟩ | ⟨h1, h2⟩
  · rcases buildWeightArray_plain arr (mirror8 k) (mirrorCell c) with ⟨n', g1, g2, g3⟩ | ⟨g1, g2⟩
    · rw [h3, g3]
      rw [off8_mirror] at g1 g2
      have hn := n.2.isLt
      have : n' = mirrorCell n := by
        apply Prod.ext <;> apply Fin.ext <;> simp only [mirrorCell, Fin.val_rev] at * <;> omega
      rw [this]
      rfl
    · exfalso
      apply g1
      have hn := n.2.isLt
      refine ⟨mirrorCell n, ?_, ?_⟩ <;> rw [off8_mirror] <;>
        simp only [mirrorCell, Fin.val_rev] <;> omega
  · rcases buildWeightArray_plain arr (mirror8 k) (mirrorCell c) with ⟨n', g1, g2, g3⟩ | ⟨g1, g2⟩
    · exfalso
      apply h1
      have hn := n'.2.isLt
      rw [off8_mirror] at g1 g2
      refine ⟨mirrorCell n', ?_, ?_⟩ <;> simp only [mirrorCell, Fin.val_rev] at * <;> omega
    · rw [h2, g2]

lemma fixed_mirror [NeZero L] [NeZero W] (hL : 2 ≤ L) (hW : 2 ≤ W) (arr : Grid L W K) (k : Fin 8)
    (c : Cell L W) :
    buildWeightArray (mirror arr) true k c = buildWeightArray arr true (mirror8 k) (mirrorCell c) := by
  have hc := c.2.isLt
  obtain ⟨n, h1, h2, h3⟩ := buildWeightArray_fixed hL hW (mirror arr) k c
  obtain ⟨n', g1, g2, g3⟩ := buildWeightArray_fixed hL hW arr (mirror8 k) (mirrorCell c)
  rw [h3, g3]
  rw [off8_mirror] at g1 g2
  have hn := n.2.isLt
  have : n' = mirrorCell n := by
    apply Prod.ext <;> apply Fin.ext <;> simp only [mirrorCell, Fin.val_rev, nearest] at * <;> omega
  rw [this]
  rfl

/-- C80: the flooding correction commutes with the mirror. -/
theorem C80_flooding [NeZero L] [NeZero W] (hL : 2 ≤ L) (hW : 2 ≤ W) (eta depth stage : Grid L W K)
    (dryDepth : K) :
    floodingCorrection (mirror eta) (mirror depth) (mirror stage) dryDepth =
      mirror (floodingCorrection eta depth stage dryDepth) := by
  funext c
  have e1 : ∀ k, wetMaskNh (mirror depth) dryDepth k c =
      wetMaskNh depth dryDepth (mirror8 k) (mirrorCell c) := fun k =>
    fixed_mirror hL hW (fun c => if depth c > dryDepth then (1 : K) else 0) k c
  have e2 : ∑ k, wetMaskNh (mirror depth) dryDepth k c =
      ∑ k, wetMaskNh depth dryDepth k (mirrorCell c) := by
    simp only [e1]
    exact Equiv.sum_comp mirrorPerm8 fun k => wetMaskNh depth dryDepth k (mirrorCell c)
  have e3 : ∀ T : Fin 8 → K, (Finset.univ.sup' Finset.univ_nonempty fun k => T (mirror8 k)) =
      Finset.univ.sup' Finset.univ_nonempty T := by
    intro T
    apply le_antisymm
    · exact Finset.sup'_le _ _ (fun k _ => Finset.le_sup' T (Finset.mem_univ (mirror8 k)))
    · refine Finset.sup'_le _ _ (fun k _ => ?_)
      have := Finset.le_sup' (fun k => T (mirror8 k)) (Finset.mem_univ (mirror8 k))
      simp only [mirror8_mirror] at this
      exact this
  have e4 : (∃ k, wetMaskNh (mirror depth) dryDepth k c * buildWeightArray (mirror stage) false k c >
      eta (mirrorCell c)) ↔ ∃ k, wetMaskNh depth dryDepth k (mirrorCell c) *
        buildWeightArray stage false k (mirrorCell c) > eta (mirrorCell c) := by
    constructor
    · rintro ⟨k, hk⟩
      exact ⟨mirror8 k, by rw [← e1, ← plain_mirror]; exact hk⟩
    · rintro ⟨k, hk⟩
      exact ⟨mirror8 k, by rw [e1, plain_mirror, mirror8_mirror]; exact hk⟩
  have e5 : (Finset.univ.sup' Finset.univ_nonempty fun k =>
      wetMaskNh (mirror depth) dryDepth k c * buildWeightArray (mirror stage) false k c) =
      Finset.univ.sup' Finset.univ_nonempty fun k => wetMaskNh depth dryDepth k (mirrorCell c) *
        buildWeightArray stage false k (mirrorCell c) := by
    simp only [e1, plain_mirror]
    exact e3 fun k => wetMaskNh depth dryDepth k (mirrorCell c) *
        buildWeightArray stage false k (mirrorCell c)
  unfold floodingCorrection
  simp only [e2, e5]
  unfold mirror
  by_cases h : ∃ k, wetMaskNh depth dryDepth k (mirrorCell c) *
        buildWeightArray stage false k (mirrorCell c) > eta (mirrorCell c)
  · have h' := e4.2 h
    unfold mirror at h'
    simp only [if_pos h, if_pos h']
  · have h' := fun x => h (e4.1 x)
    unfold mirror at h'
    simp only [if_neg h, if_neg h']

lemma update_mirror {α : Type*} (f : Grid L W α) (c : Cell L W) (v : α) :
    Function.update (mirror f) (mirrorCell c) v = mirror (Function.update f c v) := by
  funext x
  unfold mirror
  by_cases h : x = mirrorCell c
  · subst h; simp [mirrorCell_mirror]
  · rw [Function.update_of_ne h, Function.update_of_ne]
    rintro rfl
    exact h (mirrorCell_mirror x).symm

lemma mirror_at {α : Type*} (f : Grid L W α) (c : Cell L W) : mirror f (mirrorCell c) = f c := by
  unfold mirror; rw [mirrorCell_mirror]

lemma across_at (f : Grid L W K) (c : Cell L W) : mirrorAcross f (mirrorCell c) = - f c := by
  unfold mirrorAcross; rw [mirrorCell_mirror]

/-- The mirror on the accumulators of the free surface. -/
def mirrorAcc (a : SfcAcc L W K) : SfcAcc L W K := ⟨mirror a.visit, mirror a.sum⟩

/-- The mirror on the fields that the free surface is computed from. -/
def mirrorSfc (E : SfcEnv L W K) : SfcEnv L W K :=
  { E with
    cellType := mirror E.cellType, uw := mirror E.uw, ux := mirror E.ux, uy := mirrorAcross E.uy
    depth := mirror E.depth }

/-- The mirror on the state of a walk. -/
def mirrorSfcState (s : SfcState L W K) : SfcState L W K :=
  ⟨mirror s.hnew, s.inOcean, s.dH, mirrorAcc s.acc⟩

lemma backStep_mirror (E : SfcEnv L W K) (nx c : Cell L W) (s : SfcState L W K) :
    backStep (mirrorSfc E) (mirrorCell nx) (mirrorCell c) (mirrorSfcState s) =
      mirrorSfcState (backStep E nx c s) := by
  have hne : ((mirrorCell c).1 ≠ (mirrorCell nx).1 ∨ (mirrorCell c).2 ≠ (mirrorCell nx).2) ↔
      (c.1 ≠ nx.1 ∨ c.2 ≠ nx.2) := by
    simp [mirrorCell]
  have hslope : (E.ux c * (((mirrorCell nx).1.val : K) - ((mirrorCell c).1.val : K))
        * E.dx + mirrorAcross E.uy (mirrorCell c) *
          (((mirrorCell nx).2.val : K) - ((mirrorCell c).2.val : K)) * E.dx) =
      E.ux c * ((nx.1.val : K) - (c.1.val : K)) * E.dx + E.uy c * ((nx.2.val : K) - (c.2.val : K)) * E.dx := by
    rw [across_at]
    have h1 := c.2.isLt
    have h2 := nx.2.isLt
    simp only [mirrorCell, Fin.val_rev]
    rw [Nat.cast_sub (by omega), Nat.cast_sub (by omega)]
    push_cast
    ring
  obtain ⟨hn, b, d, av, as⟩ := s
  unfold backStep
  by_cases h : c.1 ≠ nx.1 ∨ c.2 ≠ nx.2
  · simp only [if_pos h, if_pos (hne.2 h)]
    cases b
    · by_cases hu : E.uw c = 0
      · simp only [mirrorSfcState, mirrorAcc, mirrorSfc, mirror_at, hu, if_true, Bool.false_eq_true,
          if_false, update_mirror]
      · simp only [mirrorSfcState, mirrorAcc, mirrorSfc, mirror_at, hu, Bool.false_eq_true,
          if_false, update_mirror, hslope]
    · by_cases hu : E.uw c > E.u0 * (1 / 2) ∨ E.depth c < (1 / 10) * E.h0
      · simp only [mirrorSfcState, mirrorAcc, mirrorSfc, mirror_at, if_pos hu, if_true,
          update_mirror]
      · simp only [mirrorSfcState, mirrorAcc, mirrorSfc, mirror_at, if_neg hu, if_true,
          update_mirror]
  · simp only [if_neg h, if_neg (fun x => h (hne.1 x)), mirrorSfcState, mirrorAcc, mirror_at,
      update_mirror]

lemma backWalk_mirror (E : SfcEnv L W K) : ∀ (cs : List (Cell L W)) (nx : Cell L W)
    (s : SfcState L W K), backWalk (mirrorSfc E) (mirrorCell nx) (cs.map mirrorCell) (mirrorSfcState s) =
      mirrorSfcState (backWalk E nx cs s) := by
  intro cs
  induction cs with
  | nil => intro nx s; rfl
  | cons c cs ih =>
    intro nx s
    simp only [List.map_cons, backWalk]
    rw [backStep_mirror, ih]

/-- Two recorded walks that visit mirrored cells. -/
def MirrorWalk (L W : ℕ) (p q : List ℤ × Bool) : Prop :=
  q.2 = p.2 ∧ ∃ cs, walkCells L W p.1 = .ok cs ∧ walkCells L W q.1 = .ok (cs.map mirrorCell)

lemma sfcParcel_mirror (E : SfcEnv L W K) {p q : List ℤ × Bool} (h : MirrorWalk L W p q)
    (a : SfcAcc L W K) :
    sfcParcel (mirrorSfc E) q.1 q.2 (mirrorAcc a) = (sfcParcel E p.1 p.2 a).map mirrorAcc := by
  obtain ⟨h1, cs, h2, h3⟩ := h
  unfold sfcParcel
  rw [h2, h3, h1]
  simp only [← List.map_reverse]
  cases cs.reverse with
  | nil => rfl
  | cons last rest =>
    simp only [List.map_cons]
    rw [show (mirrorSfc E).cellType (mirrorCell last) = E.cellType last from mirror_at _ _]
    split_ifs
    · have hz : (Function.update (fun _ => 0) (mirrorCell last) (mirrorSfc E).HSL : Grid L W K) =
          mirror (Function.update (fun _ => 0) last E.HSL) := update_mirror (fun _ => 0) last E.HSL
      rw [hz]
      have := backWalk_mirror E rest last ⟨Function.update (fun _ => 0) last E.HSL, true, 0, a⟩
      unfold mirrorSfcState at this
      simp only at this
      rw [this]
      rfl
    · rfl

lemma sfcParcels_mirror (E : SfcEnv L W K) {ps qs : List (List ℤ × Bool)}
    (h : List.Forall₂ (MirrorWalk L W) ps qs) : ∀ a : SfcAcc L W K,
    sfcParcels (mirrorSfc E) qs (mirrorAcc a) = (sfcParcels E ps a).map mirrorAcc := by
  induction h with
  | nil => intro a; rfl
  | @cons p q ps qs hpq _ ih =>
    intro a
    obtain ⟨p1, p2⟩ := p
    obtain ⟨q1, q2⟩ := q
    have := sfcParcel_mirror E hpq a
    simp only at this
    simp only [sfcParcels, this]
    cases sfcParcel E p1 p2 a with
    | error e => rfl
    | ok a1 => exact ih a1

/-- C80: for mirrored walks the elevations found along them are mirrored. -/
theorem C80_surface_walks (E : SfcEnv L W K) {ps qs : List (List ℤ × Bool)}
    (h : List.Forall₂ (MirrorWalk L W) ps qs) :
    accumulateFreeSurface (mirrorSfc E) qs = (accumulateFreeSurface E ps).map mirrorAcc :=
  sfcParcels_mirror E h ⟨fun _ => 0, fun _ => 0⟩

/-- C80: the new water level from mirrored walks over a mirrored basin is mirrored. -/
theorem C80_surface [NeZero L] [NeZero W] (hL : 2 ≤ L) (hW : 2 ≤ W) (P : Params L W m K)
    (S : State L W K) {ps qs : List WParcel}
    (h : List.Forall₂ (MirrorWalk L W) (ps.map fun p => (p.walk, p.flag))
      (qs.map fun p => (p.walk, p.flag))) :
    computeFreeSurface (mirrorParams P) (mirrorState S) qs =
      (computeFreeSurface P S ps).map mirror := by
  unfold computeFreeSurface
  have e : sfcEnv (mirrorParams P) (mirrorState S) = mirrorSfc (sfcEnv P S) := rfl
  rw [e, C80_surface_walks _ h]
  cases accumulateFreeSurface (sfcEnv P S) (ps.map fun p => (p.walk, p.flag)) with
  | error e => rfl
  | ok a =>
    simp only [Except.map]
    congr 1
    have hH : computeHnew (mirrorState S).eta (mirrorState S).depth (mirrorAcc a) (mirrorState S).HSL =
        mirror (computeHnew S.eta S.depth a S.HSL) := rfl
    rw [hH]
    unfold finalizeFreeSurface
    simp only
    have e1 : smooth (mirrorParams P).cellType (mirrorParams P).Csmooth (mirrorParams P).Nsmooth
        (mirror (computeHnew S.eta S.depth a S.HSL)) =
        mirror (smooth P.cellType P.Csmooth P.Nsmooth (computeHnew S.eta S.depth a S.HSL)) :=
      C80_smooth _ _ _ _
    rw [e1]
    generalize smooth P.cellType P.Csmooth P.Nsmooth (computeHnew S.eta S.depth a S.HSL) = H
    have e2 : (if (mirrorState S).timeIter > 0 then fun c =>
          (1 - (mirrorParams P).omegaSfc) * (mirrorState S).stage c +
            (mirrorParams P).omegaSfc * mirror H c else (mirrorState S).stage) =
        mirror (if S.timeIter > 0 then fun c => (1 - P.omegaSfc) * S.stage c + P.omegaSfc * H c
          else S.stage) := by
      by_cases ht : S.timeIter > 0
      · rw [if_pos ht, if_pos (show (mirrorState S).timeIter > 0 from ht)]; rfl
      · rw [if_neg ht, if_neg (show ¬ (mirrorState S).timeIter > 0 from ht)]; rfl
    rw [e2]
    exact C80_flooding hL hW _ _ _ _

lemma isInlet_mirror (inlet : Fin m → Fin W) (c : Cell L W) :
    isInlet (fun k => (inlet k.rev).rev) c = isInlet inlet (mirrorCell c) := by
  unfold isInlet mirrorCell
  congr 1
  rw [Bool.eq_iff_iff]
  simp only [List.any_eq_true, List.mem_finRange, true_and, decide_eq_true_eq]
  constructor
  · rintro ⟨k, hk⟩
    exact ⟨k.rev, by rw [← hk, Fin.rev_rev]⟩
  · rintro ⟨k, hk⟩
    exact ⟨k.rev, by rw [Fin.rev_rev, hk, Fin.rev_rev]⟩

/-- The mirror on the fluxes summed over the parcels. -/
def mirrorFlux (f : Flux L W K) : Flux L W K := ⟨mirror f.qx, mirrorAcross f.qy, mirror f.qw⟩

/-- C80: the water fields after an iteration are mirrored when the paths of the parcels and the
water level are. `nrm` is the length of a vector, which does not depend on the sign. -/
theorem C80_water_fields (P : Params L W m K) (hn : ∀ x y, P.nrm x (-y) = P.nrm x y)
    (S : State L W K) (iteration : ℕ) (stage : Grid L W K) (f : Flux L W K) :
    finalizeWaterIteration (mirrorParams P) (mirrorState S) iteration (mirror stage) (mirrorFlux f) =
      mirrorState (finalizeWaterIteration P S iteration stage f) := by
  have hq : updateFlow P.nrm P.omegaFlow P.omegaFlowIter P.qw0 (mirrorParams P).inlet S.timeIter iteration
      (mirror S.qx) (mirrorAcross S.qy) (mirrorFlux f) =
      mirrorFlux (updateFlow P.nrm P.omegaFlow P.omegaFlowIter P.qw0 P.inlet S.timeIter iteration
        S.qx S.qy f) := by
    have hd : qwnDiv P.nrm (mirrorFlux f) = mirror (qwnDiv P.nrm f) := by
      funext c
      simp only [qwnDiv, mirrorFlux, mirror, mirrorAcross, hn]
    unfold updateFlow
    simp only [hd]
    generalize qwnDiv P.nrm f = div
    by_cases ht : S.timeIter > 0
    · simp only [if_pos ht, mirrorFlux, mirrorParams]
      congr 1 <;> funext c <;> simp only [assign, isInlet_mirror, mirror, mirrorAcross]
      · split_ifs <;> ring
      · rw [← hn]
        congr 2
        ring
    · simp only [if_neg ht, mirrorFlux, mirrorParams]
      congr 1 <;> funext c <;> simp only [assign, isInlet_mirror, mirror, mirrorAcross]
      · split_ifs <;> ring
      · rw [← hn]
        congr 2
        ring
  have hq' := hq
  unfold finalizeWaterIteration
  have h1 : (mirrorState S).qx = mirror S.qx := rfl
  have h2 : (mirrorState S).qy = mirrorAcross S.qy := rfl
  simp only [h1, h2]
  rw [show (mirrorParams P).nrm = P.nrm from rfl, show (mirrorParams P).omegaFlow = P.omegaFlow from rfl,
    show (mirrorParams P).omegaFlowIter = P.omegaFlowIter from rfl,
    show (mirrorParams P).qw0 = P.qw0 from rfl, show (mirrorState S).timeIter = S.timeIter from rfl, hq]
  generalize updateFlow P.nrm P.omegaFlow P.omegaFlowIter P.qw0 P.inlet S.timeIter iteration
    S.qx S.qy f = q
  have hy : ∀ c, (updateVelocity P.uMax P.dryDepth
      (mirror (depthOf (stageAboveSea stage S.HSL) S.eta)) (mirrorFlux q)).uy c =
      mirrorAcross (updateVelocity P.uMax P.dryDepth (depthOf (stageAboveSea stage S.HSL) S.eta) q).uy c := by
    intro c
    have key : ∀ (b : Bool) (x y : K), x = -y → (if b = true then x else 0) = -(if b = true then y else 0) := by
      intro b x y h
      cases b <;> simp [h]
    unfold updateVelocity
    refine key _ _ _ ?_
    simp only [mirrorFlux, mirror, mirrorAcross]
    ring
  unfold mirrorState
  simp only
  congr 1
  exact funext hy

lemma around_mirror (c n : Cell L W) : mirrorCell n ∈ around (mirrorCell c) ↔ n ∈ around c := by
  have h1 := c.2.isLt
  have h2 := n.2.isLt
  have he : mirrorCell c ≠ mirrorCell n ↔ c ≠ n := by
    rw [not_iff_not]
    exact ⟨fun h => by rw [← mirrorCell_mirror c, h, mirrorCell_mirror], fun h => h ▸ rfl⟩
  unfold around
  rw [Finset.mem_filter, Finset.mem_filter]
  simp only [Finset.mem_univ, true_and, Adjacent, he]
  simp only [mirrorCell, Fin.val_rev]
  rw [Nat.cast_sub (by omega), Nat.cast_sub (by omega),
    show ((W : ℤ) - ((c.2.val + 1 : ℕ) : ℤ) - ((W : ℤ) - ((n.2.val + 1 : ℕ) : ℤ))) =
      -((c.2.val : ℤ) - n.2.val) by push_cast; ring, abs_neg]

/-- The mirror as a permutation of the cells. -/
def mirrorCells : Equiv.Perm (Cell L W) :=
  ⟨mirrorCell, mirrorCell, mirrorCell_mirror, mirrorCell_mirror⟩

lemma convolve_mirror (k4 kn : K) (arr : Grid L W K) :
    convolve (fun d : Fin 9 => if d = 4 then k4 else kn) (mirror arr) =
      mirror (convolve (fun d : Fin 9 => if d = 4 then k4 else kn) arr) := by
  funext c
  unfold mirror
  rw [convolve_eq, convolve_eq]
  congr 2
  refine Finset.sum_equiv mirrorCells (fun n => ?_) (fun n _ => rfl)
  exact (around_mirror c n).symm

/-- C80: the bed after diffusion is mirrored. -/
theorem C80_diffusion (cellType : Grid L W ℤ) (mult : K) (qs : Grid L W K) (n : ℕ) (eta : Grid L W K) :
    topoDiffusion (mirror cellType) mult (mirror qs) n (mirror eta) =
      mirror (topoDiffusion cellType mult qs n eta) := by
  induction n generalizing eta with
  | zero => rfl
  | succ n ih =>
    unfold topoDiffusion
    rw [← ih]
    congr 1
    funext x
    unfold diffusionChange
    have e : (fun x => mirror qs x * mirror eta x) = mirror (fun x => qs x * eta x) := rfl
    simp only [e, kernel1_eq, kernel2_eq, convolve_mirror]
    rfl

/-- C80: one step of a parcel of sediment changes the fields of the mirrored basin in the mirrored
way, and the same volume goes to or comes from the bed. -/
theorem C80_sediment_step (k : Sed) (P : Params L W m K) (S : State L W K) (c0 c : Cell L W) (d : Fin 9)
    (res : K) :
    let S1 := fieldsAt k P S c0 c d res
    let v := volumeChange k P S1 c res
    let S1' := fieldsAt k (mirrorParams P) (mirrorState S) (mirrorCell c0) (mirrorCell c) (mirrorDir d) res
    let v' := volumeChange k (mirrorParams P) S1' (mirrorCell c) res
    v' = v ∧ updateFields (mirrorParams P) (recordDeposit k S1' (mirrorCell c) v') (mirrorCell c) v' =
      mirrorState (updateFields P (recordDeposit k S1 c v) c v) := by
  intro S1 v S1' v'
  have h1 : S1' = mirrorState S1 := by
    simp only [S1', S1]
    cases k
    · simp only [fieldsAt, partitionSand]
      have hd : stepDist (mirrorParams P).s2 (mirrorDir d) = stepDist P.s2 d := by
        fin_cases d <;> rfl
      rw [hd]
      split_ifs
      · simp only [mirrorState, mirrorParams, mirror_at, update_mirror]
      · rfl
    · rfl
  have h2 : v' = v := by
    simp only [v', v, h1]
    cases k <;>
      simp only [volumeChange, sandChange, mudChange, mirrorState, mirrorParams, mirror_at]
  refine ⟨h2, ?_⟩
  rw [h2, h1]
  have h3 : recordDeposit k (mirrorState S1) (mirrorCell c) v = mirrorState (recordDeposit k S1 c v) := by
    unfold recordDeposit
    split_ifs
    · cases k <;> simp only [mirrorState, mirror_at, update_mirror]
    · rfl
  rw [h3]
  generalize recordDeposit k S1 c v = T
  unfold updateFields
  simp only [mirrorState, mirrorParams, mirror_at, update_mirror, across_at]
  congr 1
  funext x
  unfold mirrorAcross
  by_cases hx : x = mirrorCell c
  · subst hx
    rw [mirrorCell_mirror, Function.update_self, Function.update_self]
    split_ifs <;> ring
  · rw [Function.update_of_ne hx, Function.update_of_ne]
    rintro rfl
    exact hx (mirrorCell_mirror x).symm

lemma anyCell_mirror [NeZero L] [NeZero W] (p : Cell L W → Bool) : anyCell (fun c => p (mirrorCell c)) = anyCell p := by
  rw [Bool.eq_iff_iff]
  simp only [anyCell, List.any_eq_true]
  constructor
  · rintro ⟨c, _, h⟩; exact ⟨_, mem_allCells _, h⟩
  · rintro ⟨c, _, h⟩; exact ⟨mirrorCell c, mem_allCells _, by rwa [mirrorCell_mirror]⟩

/-- C80: the end of a timestep of the mirrored basin. -/
theorem C80_end [NeZero L] [NeZero W] (hL : 2 ≤ L) (hW : 2 ≤ W) (P : Params L W m K) (eta0 : Grid L W K)
    (S : State L W K) :
    finalizeTimestep (mirrorParams P) (mirror eta0) (applySubsidence (mirrorParams P) (mirrorState S)) =
      mirrorState (finalizeTimestep P eta0 (applySubsidence P S)) := by
  have h1 : applySubsidence (mirrorParams P) (mirrorState S) = mirrorState (applySubsidence P S) := by
    unfold applySubsidence
    simp only [show (mirrorParams P).toggleSub = P.toggleSub from rfl,
      show (mirrorParams P).startSub = P.startSub from rfl, show (mirrorState S).time = S.time from rfl]
    split_ifs <;> rfl
  rw [h1]
  generalize applySubsidence P S = T
  unfold finalizeTimestep
  have h2 : floodingCorrection (mirrorState T).eta (mirrorState T).depth (mirrorState T).stage
      (mirrorParams P).dryDepth = mirror (floodingCorrection T.eta T.depth T.stage P.dryDepth) :=
    C80_flooding hL hW _ _ _ _
  rw [h2]
  generalize floodingCorrection T.eta T.depth T.stage P.dryDepth = st
  have h3 : isInlet (L := L) (mirrorParams P).inlet = fun c => isInlet P.inlet (mirrorCell c) :=
    funext fun c => isInlet_mirror _ _
  have h4 : ∀ U : State L W K, computeSandFrac (mirrorParams P) (mirror eta0) (mirrorState U) =
      mirrorState (computeSandFrac P eta0 U) := by
    intro U
    unfold computeSandFrac
    have a1 : anyCell (fun c => decide ((mirrorState U).eta c - mirror eta0 c < 0)) =
        anyCell (fun c => decide (U.eta c - eta0 c < 0)) :=
      anyCell_mirror (fun c => decide (U.eta c - eta0 c < 0))
    have a2 : anyCell (fun c => decide ((mirrorState U).depSand c > 0) ||
          decide ((mirrorState U).depMud c > 1 / 1000000)) =
        anyCell (fun c => decide (U.depSand c > 0) || decide (U.depMud c > 1 / 1000000)) :=
      anyCell_mirror (fun c => decide (U.depSand c > 0) || decide (U.depMud c > 1 / 1000000))
    simp only [a1, a2]
    split_ifs <;> rfl
  simp only [h3]
  rw [show ({ mirrorState T with
      eta := assign (mirrorState T).eta (fun c => isInlet P.inlet (mirrorCell c))
        (fun c => max (mirror st c) (mirrorState T).HSL - (mirrorParams P).h0)
      stage := fun c => max (mirror st c) (mirrorState T).HSL
      depth := assign (fun c => max (max (mirror st c) (mirrorState T).HSL - (mirrorState T).eta c) 0)
        (fun c => isInlet P.inlet (mirrorCell c)) (fun _ => (mirrorParams P).h0) } : State L W K) =
    mirrorState { T with
      eta := assign T.eta (isInlet P.inlet) (fun c => max (st c) T.HSL - P.h0)
      stage := fun c => max (st c) T.HSL
      depth := assign (fun c => max (max (st c) T.HSL - T.eta c) 0) (isInlet P.inlet)
        (fun _ => P.h0) } from rfl, h4]
  rfl

/-- The numbers that choose `k` are an interval with a length that is the share of `k`. -/
lemma chosen_interval {n : ℕ} (w : Fin n → K) (ht : 0 < ∑ i, w i) (k : Fin n) :
    ∃ a, ∀ x, 0 < x → (Chosen w x k ↔ a < x ∧ x ≤ a + w k / ∑ i, w i) := by
  refine ⟨(∑ i with i < k, w i) / ∑ i, w i, fun x hx => ?_⟩
  have hle : ∑ i with i ≤ k, w i = ∑ i with i < k, w i + w k := by
    have : Finset.univ.filter (fun i => i ≤ k) = insert k (Finset.univ.filter (fun i => i < k)) := by
      ext i
      simp only [Finset.mem_filter, Finset.mem_univ, true_and, Finset.mem_insert]
      rw [le_iff_eq_or_lt]
    rw [this, Finset.sum_insert (by simp), add_comm]
  unfold Chosen
  rw [hle, ← add_div, div_lt_iff₀ ht, le_div_iff₀ ht]
  constructor
  · rintro ⟨h1, h2⟩
    refine ⟨?_, h2⟩
    rcases h1 with h1 | h1
    · have : Finset.univ.filter (fun i : Fin n => i < k) = ∅ := by
        ext i
        simp only [Finset.mem_filter, Finset.mem_univ, true_and, Finset.notMem_empty, iff_false]
        intro h
        have : i.val < k.val := h
        omega
      rw [this, Finset.sum_empty]
      positivity
    · exact h1
  · rintro ⟨h1, h2⟩
    exact ⟨.inr h1, h2⟩

/-- C80: with mirrored weights, the mirrored direction is chosen by as many of the random numbers: both
are intervals of the same length. -/
theorem C80_choice (w : Fin 9 → K) (ht : 0 < ∑ d, w d) (d : Fin 9) :
    ∃ a b, (∀ x, 0 < x → (Chosen w x d ↔ a < x ∧ x ≤ a + w d / ∑ d, w d)) ∧
      ∀ x, 0 < x → (Chosen (fun d => w (mirrorDir d)) x (mirrorDir d) ↔
        b < x ∧ x ≤ b + w d / ∑ d, w d) := by
  obtain ⟨a, ha⟩ := chosen_interval w ht d
  obtain ⟨b, hb⟩ := chosen_interval (fun d => w (mirrorDir d)) (by rwa [sum_mirror]) (mirrorDir d)
  refine ⟨a, b, ha, fun x hx => ?_⟩
  have := hb x hx
  rwa [mirrorDir_mirror, sum_mirror] at this

/-! ## Examples -/

/-- A weight on one side only. -/
def sideWeight : Fin 9 → ℚ := ![0, 0, 0, 0, 0, 1, 0, 3, 0]

example : ∃ a b, (∀ x, 0 < x → (Chosen sideWeight x 5 ↔ a < x ∧ x ≤ a + 1 / 4)) ∧
    ∀ x, 0 < x → (Chosen (fun d => sideWeight (mirrorDir d)) x 3 ↔ b < x ∧ x ≤ b + 1 / 4) := by
  have h : ∑ d, sideWeight d = 4 := by decide +kernel
  have := C80_choice sideWeight (by rw [h]; norm_num) 5
  rw [h] at this
  exact this

/-- Walks over 3 rows of 4 columns, down to the right and down to the left. -/
example : MirrorWalk 3 4 ([1, 6, 11], true) ([2, 5, 8], true) :=
  ⟨rfl, [(0, 1), (1, 2), (2, 3)], by decide +kernel, by decide +kernel⟩

/-- Water on the left, dry land on the right. -/
def slantStage : Grid 2 3 ℚ := fun c => if c.2.val = 0 then 2 else 0

/-- The depth of that water. -/
def slantDepth : Grid 2 3 ℚ := fun c => if c.2.val = 0 then 1 else 0

example : floodingCorrection (fun _ => 1) slantDepth slantStage (1 / 10) (0, 1) = 2 ∧
    floodingCorrection (fun _ => 1) slantDepth slantStage (1 / 10) (0, 2) = 0 ∧
    floodingCorrection (mirror fun _ => 1) (mirror slantDepth) (mirror slantStage) (1 / 10) (0, 1) = 2 ∧
    floodingCorrection (mirror fun _ => 1) (mirror slantDepth) (mirror slantStage) (1 / 10) (0, 0) = 0 := by
  decide +kernel

/-- The length of a vector as the sum of the sizes of its parts. -/
example : ∀ x y : ℚ, (fun x y : ℚ => |x| + |y|) x (-y) = (fun x y : ℚ => |x| + |y|) x y := by
  intro x y
  simp

end Verif.Props
