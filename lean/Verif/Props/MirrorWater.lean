import Verif.Props.Mirror
import Verif.Props.Coupling
import Verif.Props.RouteWater

/-!
# C80: the walks of the water parcels in the mirrored basin
-/

set_option linter.unusedSectionVars false
set_option linter.unusedSimpArgs false

namespace Verif.Props

open Verif.Model Verif.Lemmas Verif.Spec

variable {K : Type*} [Field K] [LinearOrder K] [IsStrictOrderedRing K] [FloorRing K] {σ : Type*}
  {L W m : ℕ}

/-- Rounding treats the signs alike. -/
lemma round_neg (x : K) : roundHalfEven (-x) = - roundHalfEven x := by
  unfold roundHalfEven
  simp only
  by_cases hx : (⌊x⌋ : K) = x
  · have h1 : ⌊-x⌋ = -⌊x⌋ := by
      rw [Int.floor_eq_iff]; push_cast; rw [hx]; constructor <;> linarith
    have h2 : -x - (⌊-x⌋ : K) = 0 := by rw [h1]; push_cast; rw [hx]; ring
    have h3 : x - (⌊x⌋ : K) = 0 := by rw [hx]; ring
    rw [h2, h3, if_pos (by norm_num), if_pos (by norm_num), h1]
  · have hlt : (⌊x⌋ : K) < x := lt_of_le_of_ne (Int.floor_le x) hx
    have hlt2 := Int.lt_floor_add_one x
    have h1 : ⌊-x⌋ = -⌊x⌋ - 1 := by
      rw [Int.floor_eq_iff]; push_cast; constructor <;> linarith
    have h2 : -x - (⌊-x⌋ : K) = 1 - (x - ⌊x⌋) := by rw [h1]; push_cast; ring
    rw [h2, h1]
    generalize x - (⌊x⌋ : K) = r
    generalize ⌊x⌋ = f
    rcases lt_trichotomy r (1 / 2) with h | h | h
    · rw [if_neg (by linarith), if_pos (by linarith), if_pos h]; ring
    · subst h
      norm_num
      split_ifs <;> omega
    · rw [if_pos (by linarith), if_neg (by linarith), if_pos h]; ring

/-- Two flat indices that mean mirrored cells; 0 means a parcel that has finished. -/
def Twin (L W : ℕ) (i j : ℤ) : Prop :=
  (i = 0 ∧ j = 0) ∨ (i ≠ 0 ∧ j ≠ 0 ∧ (0 < i ↔ 0 < j) ∧
    ∃ c : Cell L W, flatCell L W i = some c ∧ flatCell L W j = some (mirrorCell c))

lemma twin_zero {i j : ℤ} (h : Twin L W i j) : i = 0 ↔ j = 0 := by
  rcases h with ⟨h1, h2⟩ | ⟨h1, h2, -⟩ <;> simp [h1, h2]

lemma twin_pos {i j : ℤ} (h : Twin L W i j) : 0 < i ↔ 0 < j := by
  rcases h with ⟨h1, h2⟩ | ⟨h1, h2, h3, -⟩
  · simp [h1, h2]
  · exact h3

lemma mirror_coords (c : Cell L W) : (mirrorCell c).1 = c.1 ∧
    ((mirrorCell c).2.val : ℤ) = W - 1 - c.2.val := by
  refine ⟨rfl, ?_⟩
  have := c.2.isLt
  simp only [mirrorCell, Fin.val_rev]
  omega

lemma mirrorCell_inj {c d : Cell L W} (h : mirrorCell c = mirrorCell d) : c = d := by
  rw [← mirrorCell_mirror c, h, mirrorCell_mirror]

/-- Twins with one index in common. -/
lemma twin_inj {i j i' j' : ℤ} (h : Twin L W i j) (h' : Twin L W i' j') : i = i' ↔ j = j' := by
  have aux : ∀ {i i' : ℤ} {c : Cell L W}, (0 < i ↔ 0 < i') → i ≠ 0 → i' ≠ 0 →
      flatCell L W i = some c → flatCell L W i' = some c → i = i' := by
    intro i i' c hp h0 h0' h1 h2
    have n1 := posOf_nonneg c
    have n2 := posOf_lt c
    rcases flatCell_eq_some_iff.mp h1 with a | a <;> rcases flatCell_eq_some_iff.mp h2 with b | b <;>
      omega
  rcases h with ⟨h1, h2⟩ | ⟨h1, h2, h3, c, h4, h5⟩ <;>
    rcases h' with ⟨g1, g2⟩ | ⟨g1, g2, g3, d, g4, g5⟩
  · simp [h1, h2, g1, g2]
  · subst h1 h2; exact ⟨fun h => absurd h.symm g1, fun h => absurd h.symm g2⟩
  · subst g1 g2; exact ⟨fun h => absurd h h1, fun h => absurd h h2⟩
  · constructor
    · rintro rfl
      rw [h4] at g4
      cases g4
      exact aux (h3.symm.trans g3) h2 g2 h5 g5
    · rintro rfl
      rw [h5] at g5
      have : c = d := mirrorCell_inj (Option.some.inj g5)
      subst this
      exact aux (h3.trans g3.symm) h1 g1 h4 g4

lemma twin_mem {i j : ℤ} (h : Twin L W i j) : ∀ {l l' : List ℤ}, List.Forall₂ (Twin L W) l l' →
    (i ∈ l ↔ j ∈ l')
  | _, _, .nil => by simp
  | _, _, .cons h1 h2 => by
    rw [List.mem_cons, List.mem_cons, twin_inj h h1, twin_mem h h2]

/-- The mirrored setting of the walks. -/
def mirrorEnv (E : WEnv L W K) : WEnv L W K :=
  { E with
    weights := fun c d => E.weights (mirrorCell c) (mirrorDir d)
    cellType := mirror E.cellType
    stageAboveSL := mirror E.stageAboveSL
    CTR := (W : ℤ) - 1 - E.CTR }

/-- The first row has neither edge cells nor an active corner. -/
def FirstRow (E : WEnv L W K) : Prop := ∀ c : Cell L W, c.1.val = 0 → E.cellType c ≠ -1

lemma twin_of_cells {i j : ℤ} {c : Cell L W} (hi : i = posOf c) (hj : j = posOf (mirrorCell c)) (h0 : i ≠ 0)
    (h1 : j ≠ 0) : Twin L W i j := by
  have := posOf_nonneg c
  have := posOf_nonneg (mirrorCell c)
  refine .inr ⟨h0, h1, by omega, c, by rw [hi, flatCell_posOf], by rw [hj, flatCell_posOf]⟩

lemma twin_repeats {E : WEnv L W K} {step : ℕ} {walk walk' : List ℤ} (hw : List.Forall₂ (Twin L W) walk walk')
    {i j : ℤ} (h : Twin L W i j) (hL0 : 0 ≤ E.L0) : Repeats E step walk i ↔ Repeats (mirrorEnv E) step walk' j := by
  unfold Repeats
  rw [twin_mem h hw]
  have hp := twin_pos h
  constructor
  · rintro ⟨h1, h2, h3, h4⟩
    refine ⟨h1, hp.mp h2, h3, ?_⟩
    rcases h with ⟨a1, a2⟩ | ⟨a1, a2, a3, c, a4, a5⟩
    · omega
    · have e1 := flatCell_some_nonneg h2.le a4
      have e2 := flatCell_some_nonneg (hp.mp h2).le a5
      change E.L0 * W ≤ j
      rw [e1] at h4
      rw [e2]
      unfold posOf at h4 ⊢
      obtain ⟨b1, b2⟩ := mirror_coords c
      have b3 := c.2.isLt
      rw [b1, b2]
      have hWp : (0 : ℤ) < W := by omega
      have : E.L0 ≤ c.1.val := by
        by_contra hcon
        have h5 : (c.1.val : ℤ) + 1 ≤ E.L0 := by omega
        have := mul_le_mul_of_nonneg_right h5 hWp.le
        have e : ((c.1.val : ℤ) + 1) * W = W * c.1.val + W := by ring
        omega
      have := mul_le_mul_of_nonneg_right this hWp.le
      have e : (c.1.val : ℤ) * W = W * c.1.val := by ring
      omega
  · rintro ⟨h1, h2, h3, h4⟩
    refine ⟨h1, hp.mpr h2, h3, ?_⟩
    rcases h with ⟨a1, a2⟩ | ⟨a1, a2, a3, c, a4, a5⟩
    · omega
    · have e1 := flatCell_some_nonneg (hp.mpr h2).le a4
      have e2 := flatCell_some_nonneg h2.le a5
      change E.L0 * W ≤ j at h4
      rw [e2] at h4
      rw [e1]
      unfold posOf at h4 ⊢
      obtain ⟨b1, b2⟩ := mirror_coords c
      have b3 := c.2.isLt
      rw [b1, b2] at h4
      have hWp : (0 : ℤ) < W := by omega
      have : E.L0 ≤ c.1.val := by
        by_contra hcon
        have h5 : (c.1.val : ℤ) + 1 ≤ E.L0 := by omega
        have := mul_le_mul_of_nonneg_right h5 hWp.le
        have e : ((c.1.val : ℤ) + 1) * W = W * c.1.val + W := by ring
        omega
      have := mul_le_mul_of_nonneg_right this hWp.le
      have e : (c.1.val : ℤ) * W = W * c.1.val := by ring
      omega

lemma mirror_clip (W : ℕ) (hW : 3 ≤ W) (y : ℤ) :
    min ((W : ℤ) - 2) (max 1 ((W : ℤ) - 1 - y)) = (W : ℤ) - 1 - min ((W : ℤ) - 2) (max 1 y) := by
  omega

/-- The handling of loops of mirrored parcels. -/
lemma checkLoop_mirror {E : WEnv L W K} (hn : ∀ x y, E.nrm x (-y) = E.nrm x y) (hL0 : 2 ≤ E.L0)
    (hL : E.L0 + 2 ≤ L) (hW : 3 ≤ W) {step : ℕ} {walk walk' : List ℤ}
    (hw : List.Forall₂ (Twin L W) walk walk') {i j i2 : ℤ} {lp : Bool} (h : Twin L W i j)
    (hc : checkLoop E step walk i = .ok (i2, lp)) :
    ∃ j2, checkLoop (mirrorEnv E) step walk' j = .ok (j2, lp) ∧ Twin L W i2 j2 ∧ (i ≠ 0 → i2 ≠ 0) := by
  have hrep := twin_repeats (E := E) (step := step) hw h (by omega)
  by_cases hr : Repeats E step walk i
  · have hr' := hrep.mp hr
    have hip := hr.2.1
    have hjp := hr'.2.1
    rcases h with ⟨a1, a2⟩ | ⟨a1, a2, a3, c, a4, a5⟩
    · omega
    have e1 := flatCell_some_nonneg hip.le a4
    have e2 := flatCell_some_nonneg hjp.le a5
    subst e1 e2
    rw [checkLoop_repeats E step walk c hr (by omega)] at hc
    rw [checkLoop_repeats (mirrorEnv E) step walk' (mirrorCell c) hr' (by omega)]
    obtain ⟨b1, b2⟩ := mirror_coords c
    have hy : (((mirrorCell c).2.val : ℕ) : K) - ((mirrorEnv E).CTR : K) = -((c.2.val : K) - (E.CTR : K)) := by
      have : (((mirrorCell c).2.val : ℤ) : K) = ((W : ℤ) - 1 - c.2.val : ℤ) := by rw [b2]
      push_cast at this
      rw [this]
      change _ - (((W : ℤ) - 1 - E.CTR : ℤ) : K) = _
      push_cast
      ring
    have hx : (((mirrorCell c).1.val : ℕ) : K) = (c.1.val : K) := rfl
    have hnn : (mirrorEnv E).nrm = E.nrm := rfl
    rw [hy, hx, hnn, hn]
    split at hc
    · rename_i hF
      rw [if_pos hF]
      simp only [Except.ok.injEq, Prod.mk.injEq] at hc
      obtain ⟨hc1, hc2⟩ := hc
      have e3 : -((c.2.val : K) - (E.CTR : K)) / E.nrm ((c.1.val : K) - 1) ((c.2.val : K) - (E.CTR : K)) * 5 =
          -(((c.2.val : K) - (E.CTR : K)) / E.nrm ((c.1.val : K) - 1) ((c.2.val : K) - (E.CTR : K)) * 5) := by
        ring
      rw [e3, round_neg]
      revert hc1
      generalize roundHalfEven (((c.1.val : K) - 1) /
        E.nrm ((c.1.val : K) - 1) ((c.2.val : K) - (E.CTR : K)) * 5) = a
      generalize roundHalfEven (((c.2.val : K) - (E.CTR : K)) /
        E.nrm ((c.1.val : K) - 1) ((c.2.val : K) - (E.CTR : K)) * 5) = b
      intro hc1
      have e4 : ((mirrorCell c).2.val : ℤ) + -b = (W : ℤ) - 1 - (c.2.val + b) := by rw [b2]; ring
      rw [e4, mirror_clip W hW]
      have hL0' : (mirrorEnv E).L0 = E.L0 := rfl
      rw [hL0']
      have e5 : (mirrorEnv E).stageAboveSL (mirrorCell c) = E.stageAboveSL c := mirror_at _ c
      rw [e5, hc2]
      refine ⟨_, rfl, ?_⟩
      · rw [← hc1]
        obtain ⟨t, -, ht1, ht2⟩ := pyCell_nonneg (L := L) (W := W)
          (x := min ((L : ℤ) - 2) (max (c.1.val + a) E.L0))
          (y := min ((W : ℤ) - 2) (max 1 (c.2.val + b))) (by omega) (by omega) (by omega) (by omega)
        obtain ⟨m1, m2⟩ := mirror_coords t
        have hWr : (0 : ℤ) ≤ (W : ℤ) * t.1.val := by positivity
        refine ⟨twin_of_cells (c := t) ?_ ?_ ?_ ?_, fun _ => by rw [← ht1, ← ht2]; omega⟩
        · unfold posOf; rw [ht1, ht2]
        · unfold posOf; rw [m1, m2, ht1, ht2]; rfl
        · rw [← ht1, ← ht2]
          omega
        · rw [show ((mirrorCell c).1.val : ℤ) = c.1.val from rfl, ← ht1, ← ht2]
          omega
    · cases hc
  · rw [checkLoop_not E step walk i hr] at hc
    simp only [Except.ok.injEq, Prod.mk.injEq] at hc
    obtain ⟨rfl, rfl⟩ := hc
    exact ⟨j, checkLoop_not _ step walk' j (fun h => hr (hrep.mpr h)), h, id⟩

/-- What the walks need to be mirrored: the layout and the weights of C10, a first row without edge
cells, and a length of vectors that does not depend on the sign. -/
structure MirrorOk (E : WEnv L W K) : Prop where
  layout : ClosedLayout E
  weights : AdmissibleWeights E
  first : FirstRow E
  sign : ∀ x y, E.nrm x (-y) = E.nrm x y

/-- Parcels at mirrored places with mirrored records. -/
structure TwinParcel (L W : ℕ) (p q : WParcel) : Prop where
  ind : Twin L W p.ind q.ind
  flag : q.flag = p.flag
  walk : List.Forall₂ (Twin L W) p.walk q.walk

/-- Mirrored steps. -/
structure TwinStep (L W : ℕ) (r r' : StepRec) : Prop where
  dir : r'.dir = mirrorDir r.dir
  cur : r.dir ≠ 4 → Twin L W r.cur r'.cur ∧ r.cur ≠ 0
  new1 : r.dir ≠ 4 → Twin L W r.new1 r'.new1 ∧ r.new1 ≠ 0
  new2 : r.dir ≠ 4 → Twin L W r.new2 r'.new2 ∧ r.new2 ≠ 0
  bnd : r.dir ≠ 4 → r'.bnd = r.bnd

/-- A direction that a parcel can choose. -/
def MayGo (E : WEnv L W K) (i : ℤ) (d : Fin 9) : Prop :=
  (i = 0 ∧ d = 4) ∨ ∃ c : Cell L W, i = position c ∧ IsActive E c ∧ 0 < E.weights c d

lemma mirrorDir_walk (d : Fin 9) : jwalk (mirrorDir d) = jwalk d ∧ iwalk (mirrorDir d) = - iwalk d := by
  revert d; decide

/-- A position is not that of a corner of the first row. -/
lemma position_ne_zero {c : Cell L W} (h : ¬ (c.1.val = 0 ∧ c.2.val = 0)) : posOf c ≠ 0 := by
  unfold posOf
  have hW : (0 : ℤ) < W := by have := c.2.isLt; omega
  intro h0
  have h1 : (0 : ℤ) ≤ (W : ℤ) * c.1.val := by positivity
  have h2 : (W : ℤ) * c.1.val = 0 := by omega
  rcases mul_eq_zero.mp h2 with h3 | h3
  · omega
  · exact h ⟨by exact_mod_cast h3, by omega⟩

lemma active_twin {E : WEnv L W K} (hM : MirrorOk E) {c : Cell L W} (hc : IsActive E c) {j : ℤ}
    (h : Twin L W (position c) j) : j = posOf (mirrorCell c) := by
  obtain ⟨h1, h2, h3⟩ := hM.layout.active c hc
  have h0 : posOf c ≠ 0 := position_ne_zero (by omega)
  have hp : 0 < posOf c := lt_of_le_of_ne (posOf_nonneg c) h0.symm
  rcases h with ⟨a1, -⟩ | ⟨a1, a2, a3, d, a4, a5⟩
  · exact absurd a1 h0
  · change 0 < posOf c ↔ 0 < j at a3
    change flatCell L W (posOf c) = some d at a4
    rw [flatCell_posOf] at a4
    cases a4
    exact flatCell_some_nonneg (a3.mp hp).le a5

/-- Where mirrored steps lead. -/
lemma new_twin {E : WEnv L W K} (hM : MirrorOk E) {c : Cell L W} (hc : IsActive E c) {d : Fin 9}
    (hd : d ≠ 4) (hw : 0 < E.weights c d) :
    Twin L W (calcNewInd W (posOf c) d) (calcNewInd W (posOf (mirrorCell c)) (mirrorDir d)) ∧
      calcNewInd W (posOf c) d ≠ 0 := by
  obtain ⟨h1, h2, h3⟩ := hM.layout.active c hc
  have hd' : mirrorDir d ≠ 4 := fun h => hd ((mirrorDir_four d).mp h)
  obtain ⟨m1, m2⟩ := mirrorDir_walk d
  obtain ⟨o1, o2⟩ := walk_offsets d
  have b1 := rowOff_bounds d
  have b2 := colOff_bounds d
  obtain ⟨c1, c2⟩ := mirror_coords c
  unfold calcNewInd ravelWalk
  rw [if_pos hd, if_pos hd', m1, m2, o1, o2]
  have e1 : posOf c + (rowOff d * W + colOff d) = W * (c.1.val + rowOff d) + (c.2.val + colOff d) := by
    unfold posOf; ring
  have e2 : posOf (mirrorCell c) + (rowOff d * W + -colOff d) =
      W * (c.1.val + rowOff d) + (W - 1 - (c.2.val + colOff d)) := by
    unfold posOf; rw [c1, c2]; ring
  rw [e1, e2]
  by_cases hup : 0 ≤ (c.1.val : ℤ) + rowOff d
  · obtain ⟨n, -, hn1, hn2⟩ := pyCell_nonneg (L := L) (W := W) (x := c.1.val + rowOff d)
      (y := c.2.val + colOff d) hup (by omega) (by omega) (by omega)
    obtain ⟨d1, d2⟩ := mirror_coords n
    rw [← hn1, ← hn2]
    have hcorner : ¬ (n.1.val = 0 ∧ (n.2.val = 0 ∨ n.2.val + 1 = W)) := by
      rintro ⟨k1, k2⟩
      have t1 := hM.first n k1
      have t2 : E.cellType n = -2 := by
        by_contra t2
        have := hM.layout.active n ⟨t1, t2⟩
        omega
      have := (hM.weights c hc).2 d n hn1 hn2 t2
      rw [this] at hw
      exact lt_irrefl _ hw
    have z1 : posOf n ≠ 0 := position_ne_zero (by omega)
    have z2 : posOf (mirrorCell n) ≠ 0 := position_ne_zero (by
      rw [d1]
      rintro ⟨k1, k2⟩
      exact hcorner ⟨k1, .inr (by omega)⟩)
    refine ⟨twin_of_cells (c := n) rfl ?_ z1 ?_, z1⟩
    · unfold posOf; rw [d1, d2]
    · unfold posOf at z2; rw [d1, d2] at z2; exact z2
  · have hrow : (c.1.val : ℤ) + rowOff d = -1 := by omega
    rw [hrow]
    obtain ⟨n, -, hn1, hn2⟩ := pyCell_nonneg (L := L) (W := W) (x := (L : ℤ) - 1)
      (y := c.2.val + colOff d) (by omega) (by omega) (by omega) (by omega)
    obtain ⟨d1, d2⟩ := mirror_coords n
    refine ⟨.inr ⟨by omega, by omega, by omega, n, ?_, ?_⟩, by omega⟩
    · rw [flatCell_eq_some_iff]
      right
      unfold posOf
      rw [hn1, hn2]; ring
    · rw [flatCell_eq_some_iff]
      right
      unfold posOf
      rw [d1, d2, hn1, hn2]; ring

lemma twin_boundary {E : WEnv L W K} (hM : MirrorOk E) {i j : ℤ} (h : Twin L W i j) :
    isBoundary (mirrorEnv E) j = isBoundary E i := by
  rcases h with ⟨rfl, rfl⟩ | ⟨-, -, -, c, h1, h2⟩
  · have hL0 := hM.layout.hL0
    have hL := hM.layout.hL
    have hW := hM.layout.hW
    obtain ⟨c, hc, he⟩ := flatCell_nonneg (L := L) (W := W) (i := 0) le_rfl (by
      have : (0 : ℤ) < L := by omega
      have : (0 : ℤ) < W := by omega
      positivity)
    have hr : c.1.val = 0 := by
      have h1 : (0 : ℤ) ≤ (W : ℤ) * c.1.val := by positivity
      have h2 : (W : ℤ) * c.1.val = 0 := by omega
      rcases mul_eq_zero.mp h2 with h3 | h3
      · omega
      · exact_mod_cast h3
    unfold isBoundary
    rw [hc]
    simp only
    have t1 := hM.first c hr
    have t2 : (mirrorEnv E).cellType c ≠ -1 := hM.first (mirrorCell c) hr
    simp [t1, t2]
  · unfold isBoundary
    rw [h1, h2]
    simp only
    rw [show (mirrorEnv E).cellType (mirrorCell c) = E.cellType c from mirror_at _ c]

lemma twin_set {l l' : List ℤ} (h : List.Forall₂ (Twin L W) l l') (n : ℕ) {i j : ℤ} (hij : Twin L W i j) :
    List.Forall₂ (Twin L W) (l.set n i) (l'.set n j) := by
  induction h generalizing n with
  | nil => exact .nil
  | cons h1 h2 ih =>
    cases n with
    | zero => exact .cons hij h2
    | succ n => exact .cons h1 (ih n)

/-- One step of mirrored parcels. -/
lemma parcelStep_mirror {E : WEnv L W K} (hM : MirrorOk E) {step : ℕ} {p q p' : WParcel} {d : Fin 9}
    {r : StepRec} (hp : TwinParcel L W p q) (hd : MayGo E p.ind d)
    (h : parcelStep E step p d = .ok (p', r)) :
    ∃ q' r', parcelStep (mirrorEnv E) step q (mirrorDir d) = .ok (q', r') ∧ TwinParcel L W p' q' ∧
      TwinStep L W r r' := by
  have hnew : Twin L W (calcNewInd W p.ind d) (calcNewInd W q.ind (mirrorDir d)) ∧
      (d ≠ 4 → p.ind ≠ 0 ∧ calcNewInd W p.ind d ≠ 0) := by
    by_cases hd4 : d = 4
    · subst hd4
      refine ⟨.inl ⟨by simp [calcNewInd], by simp [calcNewInd, show mirrorDir 4 = 4 from rfl]⟩, fun h => absurd rfl h⟩
    · rcases hd with ⟨-, h4⟩ | ⟨c, h1, h2, h3⟩
      · exact absurd h4 hd4
      · have hq := active_twin hM h2 (h1 ▸ hp.ind)
        have hc := hM.layout.active c h2
        have := new_twin hM h2 hd4 h3
        rw [h1, hq]
        exact ⟨this.1, fun _ => ⟨position_ne_zero (c := c) (by omega), this.2⟩⟩
  unfold parcelStep at h
  simp only at h
  split at h
  · cases h
  · rename_i new2 looped h1
    obtain ⟨j2, g1, g2, g3⟩ := checkLoop_mirror hM.sign hM.layout.hL0 hM.layout.hL hM.layout.hW hp.walk
      hnew.1 h1
    have hb := twin_boundary hM g2
    split at h
    · cases h
    · rename_i bnd h2
      cases h
      rw [h2] at hb
      unfold parcelStep
      simp only [g1, hb]
      have hcur : Twin L W (if (looped && bnd) = true then 0 else new2)
          (if (looped && bnd) = true then 0 else j2) := by
        split_ifs
        · exact .inl ⟨rfl, rfl⟩
        · exact g2
      refine ⟨_, _, rfl, ⟨?_, ?_, twin_set hp.walk step hcur⟩, ⟨rfl, ?_, ?_, ?_, fun _ => rfl⟩⟩
      · cases bnd
        · simpa using hcur
        · exact .inl ⟨rfl, rfl⟩
      · simp only [hp.flag]
      · exact fun h => ⟨hp.ind, (hnew.2 h).1⟩
      · exact fun h => ⟨hnew.1, (hnew.2 h).2⟩
      · exact fun h => ⟨g2, g3 (hnew.2 h).2⟩

lemma parcelSteps_mirror {E : WEnv L W K} (hM : MirrorOk E) {step : ℕ} : ∀ {ps qs ps' : List WParcel}
    {ds : List (Fin 9)} {rs : List StepRec}, List.Forall₂ (TwinParcel L W) ps qs →
    List.Forall₂ (MayGo E) (ps.map (·.ind)) ds → parcelSteps E step ps ds = .ok (ps', rs) →
    ∃ qs' rs', parcelSteps (mirrorEnv E) step qs (ds.map mirrorDir) = .ok (qs', rs') ∧
      List.Forall₂ (TwinParcel L W) ps' qs' ∧ List.Forall₂ (TwinStep L W) rs rs' := by
  intro ps
  induction ps with
  | nil =>
    intro qs ps' ds rs hpq hd h
    cases hpq
    cases hd
    simp only [parcelSteps, Except.ok.injEq, Prod.mk.injEq] at h
    obtain ⟨rfl, rfl⟩ := h
    exact ⟨[], [], rfl, .nil, .nil⟩
  | cons p ps ih =>
    intro qs ps' ds rs hpq hd h
    cases hpq with
    | cons h1 h2 =>
      cases hd with
      | cons d1 d2 =>
        unfold parcelSteps at h
        split at h
        · cases h
        · rename_i p1 r1 e1
          split at h
          · cases h
          · rename_i ps1 rs1 e2
            cases h
            obtain ⟨q1, r1', a1, a2, a3⟩ := parcelStep_mirror hM h1 d1 e1
            obtain ⟨qs1, rs1', b1, b2, b3⟩ := ih h2 d2 e2
            refine ⟨q1 :: qs1, r1' :: rs1', ?_, .cons a2 b2, .cons a3 b3⟩
            rw [List.map_cons, parcelSteps, a1]
            simp only [b1]

/-- A choice before others. -/
def moreDirs (d : Fin 9) : Except Err (List (Fin 9) × List K) → Except Err (List (Fin 9) × List K)
  | .error e => .error e
  | .ok (ds, s) => .ok (d :: ds, s)

/-- The choices of mirrored parcels. -/
lemma same_dirs {E : WEnv L W K} (hM : MirrorOk E) :
    ∀ {inds inds' : List ℤ}, List.Forall₂ (Twin L W) inds inds' →
    (∀ i ∈ inds, i = 0 ∨ ∃ c : Cell L W, i = position c ∧ IsActive E c) →
    SameChances (OrFail fun F G => ∃ ds, List.Forall₂ (MayGo E) inds ds ∧ F = (fun t => .ok (ds, t)) ∧
        G = fun t => .ok (ds.map mirrorDir, t))
      (chooseDirs tape E.weights inds) (chooseDirs tape (mirrorEnv E).weights inds') := by
  intro inds
  induction inds with
  | nil =>
    intro inds' ht hi
    cases ht
    exact .done (.inr ⟨[], .nil, rfl, rfl⟩)
  | cons i inds ih =>
    intro inds' ht hi
    cases ht with
    | cons h1 h2 =>
      rename_i j js
      have hi' : ∀ i ∈ inds, i = 0 ∨ ∃ c : Cell L W, i = position c ∧ IsActive E c :=
        fun x hx => hi x (List.mem_cons_of_mem _ hx)
      have more : ∀ d : Fin 9, MayGo E i d →
          SameChances (OrFail fun F G => ∃ ds, List.Forall₂ (MayGo E) (i :: inds) ds ∧ F = (fun t => .ok (ds, t)) ∧
            G = fun t => .ok (ds.map mirrorDir, t)) (fun t => moreDirs d (chooseDirs tape E.weights inds t))
            (fun t => moreDirs (mirrorDir d) (chooseDirs tape (mirrorEnv E).weights js t)) := by
        intro d hd
        refine same_try (ih h2 hi') (moreDirs d) (moreDirs (mirrorDir d)) (fun _ => rfl) (fun _ => rfl)
          (fun _ => rfl) ?_
        rintro F' G' ⟨ds, hds, rfl, rfl⟩
        exact .done (.inr ⟨d :: ds, .cons hd hds, rfl, rfl⟩)
      by_cases h0 : i = 0
      · have hj0 := (twin_zero h1).mp h0
        have e1 : chooseDirs tape E.weights (i :: inds) =
            fun t => moreDirs 4 (chooseDirs tape E.weights inds t) := by
          funext t
          rw [chooseDirs, if_neg (not_not.mpr h0)]
          rcases chooseDirs tape E.weights inds t with e | ⟨ds, s⟩ <;> rfl
        have e2 : chooseDirs tape (mirrorEnv E).weights (j :: js) =
            fun t => moreDirs (mirrorDir 4) (chooseDirs tape (mirrorEnv E).weights js t) := by
          funext t
          rw [chooseDirs, if_neg (not_not.mpr hj0)]
          rcases chooseDirs tape (mirrorEnv E).weights js t with e | ⟨ds, s⟩ <;> rfl
        rw [e1, e2]
        exact more 4 (.inl ⟨h0, rfl⟩)
      · have hj0 : j ≠ 0 := fun h => h0 ((twin_zero h1).mpr h)
        obtain ⟨c, hc, hact⟩ : ∃ c : Cell L W, i = position c ∧ IsActive E c := by
          rcases hi i List.mem_cons_self with h | h
          · exact absurd h h0
          · exact h
        have hq := active_twin hM hact (hc ▸ h1)
        have hfi : flatCell L W i = some c := by rw [hc]; exact flatCell_posOf c
        have hfj : flatCell L W j = some (mirrorCell c) := by rw [hq]; exact flatCell_posOf _
        obtain ⟨hdist, -⟩ := hM.weights c hact
        have ht : 0 < total (E.weights c) := by unfold total; rw [hdist.2]; exact one_pos
        have hwm : ∀ d, (mirrorEnv E).weights (mirrorCell c) (mirrorPerm d) = E.weights c d := by
          intro d
          change E.weights (mirrorCell (mirrorCell c)) (mirrorDir (mirrorDir d)) = _
          rw [mirrorCell_mirror, mirrorDir_mirror]
        refine same_pick mirrorPerm hdist.1 ht hwm
          (fun d t => moreDirs d (chooseDirs tape E.weights inds t))
          (fun d t => moreDirs (mirrorDir d) (chooseDirs tape (mirrorEnv E).weights js t)) ?_ ?_
          (fun d hd => more d (.inr ⟨c, hc, hact, hd⟩))
        · intro d t hp
          rw [chooseDirs, if_pos h0, hfi]
          simp only [hp]
          rcases chooseDirs tape E.weights inds (tape.next t).2 with e | ⟨ds, s⟩ <;> rfl
        · intro d t hp
          rw [chooseDirs, if_pos hj0, hfj]
          simp only [hp]
          rcases chooseDirs tape (mirrorEnv E).weights js (tape.next t).2 with e | ⟨ds, s⟩ <;> rfl

/-- The fluxes of mirrored steps. -/
lemma addFluxes_mirror {E : WEnv L W K} (sel : StepRec → ℤ) (p : StepRec → Bool) :
    ∀ {rs rs' : List StepRec}, List.Forall₂ (fun r r' => r'.dir = mirrorDir r.dir ∧ (r.dir ≠ 4 →
      p r' = p r ∧ Twin L W (sel r) (sel r') ∧ sel r ≠ 0)) rs rs' → ∀ {f f' : Flux L W K},
    addFluxes E sel p rs f = .ok f' → addFluxes (mirrorEnv E) sel p rs' (mirrorFlux f) = .ok (mirrorFlux f') := by
  intro rs
  induction rs with
  | nil =>
    intro rs' hr f f' h
    cases hr
    simp only [addFluxes, Except.ok.injEq] at h ⊢
    rw [h]
  | cons r rs ih =>
    intro rs' hr f f' h
    cases hr with
    | cons h1 h2 =>
      rename_i r' rs'
      obtain ⟨hdir, hrest⟩ := h1
      have hone : ∀ f1, addFlux E f (sel r) r.dir = .ok f1 → r.dir ≠ 4 →
          addFlux (mirrorEnv E) (mirrorFlux f) (sel r') r'.dir = .ok (mirrorFlux f1) := by
        intro f1 hf hd
        obtain ⟨-, ht, hz⟩ := hrest hd
        have hd' : r'.dir ≠ 4 := by rw [hdir]; exact fun h => hd ((mirrorDir_four _).mp h)
        rcases ht with ⟨a1, -⟩ | ⟨-, -, -, c, a4, a5⟩
        · exact absurd a1 hz
        · unfold addFlux at hf ⊢
          rw [if_pos hd, a4] at hf
          rw [if_pos hd', a5]
          simp only [Except.ok.injEq] at hf ⊢
          rw [← hf, hdir]
          have e1 := mirrorDir_walk r.dir
          have e2 : stepDist (mirrorEnv E).s2 (mirrorDir r.dir) = stepDist E.s2 r.dir := by
            unfold stepDist
            rw [e1.1, e1.2]
            simp only [neg_eq_zero]
            rfl
          unfold mirrorFlux
          simp only [Flux.mk.injEq]
          rw [e1.1, e1.2, e2, mirror_at, mirror_at, across_at]
          refine ⟨update_mirror _ _ _, ?_, update_mirror _ _ _⟩
          funext x
          simp only [mirrorAcross]
          by_cases hx : x = mirrorCell c
          · subst hx
            rw [mirrorCell_mirror, Function.update_self, Function.update_self]
            push_cast
            ring
          · rw [Function.update_of_ne hx, Function.update_of_ne]
            · rfl
            rintro rfl
            exact hx (mirrorCell_mirror x).symm
      have hnone : r.dir = 4 → ∀ f, addFlux E f (sel r) r.dir = .ok f ∧
          addFlux (mirrorEnv E) (mirrorFlux f) (sel r') r'.dir = .ok (mirrorFlux f) := by
        intro hd f
        have hd' : r'.dir = 4 := by rw [hdir, hd]; rfl
        unfold addFlux
        rw [if_neg (not_not.mpr hd), if_neg (not_not.mpr hd')]
        exact ⟨rfl, rfl⟩
      rw [addFluxes] at h ⊢
      by_cases hd : r.dir = 4
      · have hgo : addFluxes E sel p rs f = .ok f' := by
          split at h
          · rw [(hnone hd f).1] at h; exact h
          · exact h
        have := ih h2 hgo
        split
        · rw [(hnone hd f).2]; exact this
        · exact this
      · rw [(hrest hd).1]
        split at h
        · rename_i hp
          rw [if_pos hp]
          split at h
          · cases h
          · rename_i f1 hf1
            rw [hone f1 hf1 hd]
            exact ih h2 h
        · rename_i hp
          rw [if_neg hp]
          exact ih h2 h

/-- Where a parcel may be between two steps. -/
def Resting (E : WEnv L W K) (i : ℤ) : Prop := i = 0 ∨ ∃ c : Cell L W, i = position c ∧ IsActive E c

/-- The routing of mirrored parcels. -/
structure TwinWater (st st' : WState L W K) : Prop where
  flux : st'.flux = mirrorFlux st.flux
  parcels : List.Forall₂ (TwinParcel L W) st.parcels st'.parcels
  ncols : st'.ncols = st.ncols

lemma twin_checkSize {st st' : WState L W K} (h : TwinWater st st') (stepmax it : ℕ) :
    TwinWater (checkSize stepmax it st) (checkSize stepmax it st') := by
  unfold checkSize
  rw [h.ncols]
  split
  · refine ⟨h.flux, ?_, rfl⟩
    simp only
    obtain ⟨-, hps, -⟩ := h
    revert hps
    generalize st.parcels = ps
    generalize st'.parcels = qs
    intro hps
    induction hps with
    | nil => exact .nil
    | cons h1 h2 ih =>
      refine .cons ⟨h1.ind, h1.flag, ?_⟩ ih
      simp only
      refine List.rel_append h1.walk ?_
      generalize stepmax / 4 = n
      induction n with
      | zero => exact .nil
      | succ n ih => exact .cons (.inl ⟨rfl, rfl⟩) ih
  · exact h

lemma twin_inds {ps qs : List WParcel} (h : List.Forall₂ (TwinParcel L W) ps qs) :
    List.Forall₂ (Twin L W) (ps.map (·.ind)) (qs.map (·.ind)) := by
  induction h with
  | nil => exact .nil
  | cons h1 _ ih => exact .cons h1.ind ih

/-- What a pass does once the directions are chosen. -/
def passOn (E : WEnv L W K) (step : ℕ) (st1 : WState L W K) (ds : List (Fin 9)) :
    Except Err (WState L W K × List StepRec) :=
  match parcelSteps E step st1.parcels ds with
  | .error e => .error e
  | .ok (ps, recs) =>
    match addFluxes E (·.cur) (fun _ => true) recs st1.flux with
    | .error e => .error e
    | .ok f1 =>
      match addFluxes E (·.new1) (fun _ => true) recs f1 with
      | .error e => .error e
      | .ok f2 =>
        match addFluxes E (·.new2) (·.bnd) recs f2 with
        | .error e => .error e
        | .ok f3 => .ok (⟨f3, ps, st1.ncols⟩, recs)

/-- The same with the tape. -/
def passAll (E : WEnv L W K) (step : ℕ) (st1 : WState L W K) :
    Except Err (List (Fin 9) × List K) → Except Err (WState L W K × List StepRec × List K)
  | .error e => .error e
  | .ok (ds, t) =>
    match passOn E step st1 ds with
    | .error e => .error e
    | .ok (st, recs) => .ok (st, recs, t)

lemma waterStep_pass (E : WEnv L W K) (step : ℕ) (st : WState L W K)
    (h : step < (checkSize E.stepmax step st).ncols) (t : List K) :
    waterStep tape E step st t = passAll E step (checkSize E.stepmax step st)
      (chooseDirs tape E.weights ((checkSize E.stepmax step st).parcels.map (·.ind)) t) := by
  unfold waterStep
  simp only [if_pos h]
  generalize chooseDirs tape E.weights ((checkSize E.stepmax step st).parcels.map (·.ind)) t = x
  cases x with
  | error e => rfl
  | ok a =>
    obtain ⟨ds, t1⟩ := a
    unfold passAll passOn
    simp only
    cases parcelSteps E step (checkSize E.stepmax step st).parcels ds with
    | error e => rfl
    | ok b =>
      obtain ⟨ps, recs⟩ := b
      simp only
      cases addFluxes E (·.cur) (fun _ => true) recs (checkSize E.stepmax step st).flux with
      | error e => rfl
      | ok f1 =>
        simp only
        cases addFluxes E (·.new1) (fun _ => true) recs f1 with
        | error e => rfl
        | ok f2 =>
          simp only
          cases addFluxes E (·.new2) (·.bnd) recs f2 with
          | error e => rfl
          | ok f3 => rfl

/-- The mirrored pass with mirrored directions. -/
lemma passOn_mirror {E : WEnv L W K} (hM : MirrorOk E) {step : ℕ} {st1 st2 st : WState L W K}
    {ds : List (Fin 9)} {recs : List StepRec} (ht : TwinWater st1 st2)
    (hd : List.Forall₂ (MayGo E) (st1.parcels.map (·.ind)) ds) (h : passOn E step st1 ds = .ok (st, recs)) :
    ∃ st3 recs', passOn (mirrorEnv E) step st2 (ds.map mirrorDir) = .ok (st3, recs') ∧ TwinWater st st3 := by
  unfold passOn at h
  split at h
  · cases h
  · rename_i ps rs h2
    split at h
    · cases h
    · rename_i f1 e1
      split at h
      · cases h
      · rename_i f2 e2
        split at h
        · cases h
        · rename_i f3 e3
          cases h
          obtain ⟨qs, rs', b1, b2, b3⟩ := parcelSteps_mirror hM ht.parcels hd h2
          have c1 := addFluxes_mirror (E := E) (·.cur) (fun _ => true)
            (b3.imp fun r r' h => ⟨h.dir, fun hd => ⟨rfl, h.cur hd⟩⟩) e1
          have c2 := addFluxes_mirror (E := E) (·.new1) (fun _ => true)
            (b3.imp fun r r' h => ⟨h.dir, fun hd => ⟨rfl, h.new1 hd⟩⟩) e2
          have c3 := addFluxes_mirror (E := E) (·.new2) (·.bnd)
            (b3.imp fun r r' h => ⟨h.dir, fun hd => ⟨h.bnd hd, h.new2 hd⟩⟩) e3
          refine ⟨⟨mirrorFlux f3, qs, st2.ncols⟩, rs', ?_, ⟨rfl, b2, ht.ncols⟩⟩
          unfold passOn
          simp only [b1, ht.flux, c1, c2, c3]

/-- What is left to do after a pass over mirrored parcels. -/
def TwinPass (E : WEnv L W K) (F G : List K → Except Err (WState L W K × List StepRec × List K)) : Prop :=
  ∃ st1 st3 recs recs', TwinWater st1 st3 ∧ (∀ p ∈ st1.parcels, Resting E p.ind) ∧
    F = (fun t => .ok (st1, recs, t)) ∧ G = fun t => .ok (st3, recs', t)

/-- One pass over mirrored parcels. -/
lemma waterStep_mirror {E : WEnv L W K} (hM : MirrorOk E) {step : ℕ}
    {st st2 : WState L W K} (ht : TwinWater st st2) (hp : ∀ p ∈ st.parcels, Resting E p.ind) :
    SameChances (OrFail (TwinPass E)) (waterStep tape E step st) (waterStep tape (mirrorEnv E) step st2) := by
  have hI' := checkSize_parcels E.stepmax step st (Resting E) hp
  have hts := twin_checkSize ht E.stepmax step
  by_cases hlt : step < (checkSize E.stepmax step st).ncols
  · have hlt' : step < (checkSize (mirrorEnv E).stepmax step st2).ncols := by
      rw [← hts.ncols] at hlt; exact hlt
    have hd := same_dirs hM (twin_inds hts.parcels) (by
      intro i hi
      obtain ⟨p, hp, rfl⟩ := List.mem_map.mp hi
      exact hI' p hp)
    have key : SameChances (OrFail fun F G => ∃ st1 st3 recs recs', TwinWater st1 st3 ∧
        F = (fun t => .ok (st1, recs, t)) ∧ G = fun t => .ok (st3, recs', t))
        (waterStep tape E step st) (waterStep tape (mirrorEnv E) step st2) := by
      refine same_try hd (passAll E step (checkSize E.stepmax step st))
        (passAll (mirrorEnv E) step (checkSize E.stepmax step st2)) (fun _ => rfl)
        (waterStep_pass E step st hlt) (waterStep_pass (mirrorEnv E) step st2 hlt') ?_
      rintro F' G' ⟨ds, hds, rfl, rfl⟩
      unfold passAll
      simp only
      cases hpass : passOn E step (checkSize E.stepmax step st) ds with
      | error e => exact .done (.inl ⟨e, rfl⟩)
      | ok a =>
        obtain ⟨st1, recs⟩ := a
        obtain ⟨st3, recs', q1, q2⟩ := passOn_mirror hM hts hds hpass
        rw [q1]
        exact .done (.inr ⟨st1, st3, recs, recs', q2, rfl, rfl⟩)
    refine same_imp ?_ (same_reach key)
    rintro F G ⟨⟨e, rfl⟩ | ⟨st1, st3, recs, recs', q1, rfl, rfl⟩, t, hr⟩
    · exact .inl ⟨e, rfl⟩
    · refine .inr ⟨st1, st3, recs, recs', q1, ?_, rfl, rfl⟩
      obtain ⟨-, -, hf, -⟩ := waterStep_ok tape E step st st1 recs _ _ (hr [])
      intro p' hp'
      obtain ⟨p, hp, r, -, hso⟩ := hf.mem₂ p' hp'
      exact (stepKind_of tape_positive hM.layout hM.weights (hI' p hp) hso).2
  · refine .done (.inl ⟨.index, ?_⟩)
    funext t
    unfold waterStep
    simp only [if_neg hlt]

/-- The sums of the positions of mirrored parcels are positive together. -/
lemma twin_sum {E : WEnv L W K} : ∀ {is js : List ℤ}, List.Forall₂ (Twin L W) is js →
    (∀ i ∈ is, Resting E i) → 0 ≤ is.sum ∧ 0 ≤ js.sum ∧ (0 < is.sum ↔ 0 < js.sum) := by
  intro is js h
  induction h with
  | nil => intro _; simp
  | cons h1 h2 ih =>
    rename_i i j is js
    intro hr
    obtain ⟨a1, a2, a3⟩ := ih (fun x hx => hr x (List.mem_cons_of_mem _ hx))
    have hi : 0 ≤ i := by
      rcases hr i List.mem_cons_self with h | ⟨c, h, -⟩
      · omega
      · rw [h]; exact posOf_nonneg c
    have hz := twin_zero h1
    have hpos := twin_pos h1
    rw [List.sum_cons, List.sum_cons]
    omega

/-- What is left to do after the loop over mirrored parcels. -/
def TwinLoop (F G : List K → Except Err (WState L W K × List (List StepRec) × ℕ × List K)) : Prop :=
  ∃ st1 st3 log log' n, TwinWater st1 st3 ∧ F = (fun t => .ok (st1, log, n, t)) ∧
    G = fun t => .ok (st3, log', n, t)

/-- The records of a pass before those of the rest. -/
def moreLog (recs : List StepRec) : Except Err (WState L W K × List (List StepRec) × ℕ × List K) →
    Except Err (WState L W K × List (List StepRec) × ℕ × List K)
  | .error e => .error e
  | .ok (st2, log, n, t2) => .ok (st2, recs :: log, n, t2)

/-- The rest of the loop after one pass. -/
def loopOn (E : WEnv L W K) (step : ℕ) : Except Err (WState L W K × List StepRec × List K) →
    Except Err (WState L W K × List (List StepRec) × ℕ × List K)
  | .error e => .error e
  | .ok (st1, recs, t1) => moreLog recs (waterLoop tape E step st1 t1)

/-- The loop over mirrored parcels. -/
lemma waterLoop_mirror {E : WEnv L W K} (hM : MirrorOk E) :
    ∀ {k : ℕ} {step : ℕ}, E.stepmax - step = k → ∀ {st st2 : WState L W K}, TwinWater st st2 →
    (∀ p ∈ st.parcels, Resting E p.ind) →
    SameChances (OrFail TwinLoop) (waterLoop tape E step st) (waterLoop tape (mirrorEnv E) step st2) := by
  intro k
  induction k with
  | zero =>
    intro step hk st st2 ht hp
    have hno : ¬ step < E.stepmax := by omega
    refine .done (.inr ⟨st, st2, [], [], step, ht, ?_, ?_⟩)
    · funext t; rw [waterLoop, if_neg (fun x => hno x.2)]
    · funext t; rw [waterLoop, if_neg (fun x => hno x.2)]
  | succ k ih =>
    intro step hk st st2 ht hp
    have hlt : step < E.stepmax := by omega
    have hlt' : step < (mirrorEnv E).stepmax := hlt
    have hsum := (twin_sum (E := E) (twin_inds ht.parcels) (by
      intro i hi
      obtain ⟨p, hp', rfl⟩ := List.mem_map.mp hi
      exact hp p hp')).2.2
    by_cases hpos : (st.parcels.map (·.ind)).sum > 0
    · refine same_try (waterStep_mirror hM (step := step + 1) ht hp) (loopOn E (step + 1))
        (loopOn (mirrorEnv E) (step + 1)) (fun _ => rfl) ?_ ?_ ?_
      · intro t
        rw [waterLoop, if_pos ⟨hpos, hlt⟩]
        rcases waterStep tape E (step + 1) st t with e | ⟨st1, recs, t1⟩
        · rfl
        · unfold loopOn
          simp only
          rcases waterLoop tape E (step + 1) st1 t1 with e | ⟨st2, log, n, t2⟩ <;> rfl
      · intro t
        rw [waterLoop, if_pos ⟨hsum.mp hpos, hlt'⟩]
        rcases waterStep tape (mirrorEnv E) (step + 1) st2 t with e | ⟨st1, recs, t1⟩
        · rfl
        · unfold loopOn
          simp only
          rcases waterLoop tape (mirrorEnv E) (step + 1) st1 t1 with e | ⟨st2, log, n, t2⟩ <;> rfl
      · rintro F' G' ⟨st1, st3, recs, recs', q1, q2, rfl, rfl⟩
        refine same_try (ih (by omega) q1 q2) (moreLog recs) (moreLog recs') (fun _ => rfl) (fun _ => rfl)
          (fun _ => rfl) ?_
        rintro F' G' ⟨st4, st5, log, log', n, r1, rfl, rfl⟩
        exact .done (.inr ⟨st4, st5, recs :: log, recs' :: log', n, r1, rfl, rfl⟩)
    · refine .done (.inr ⟨st, st2, [], [], step, ht, ?_, ?_⟩)
      · funext t; rw [waterLoop, if_neg (fun x => hpos x.1)]
      · funext t; rw [waterLoop, if_neg (fun x => hpos (hsum.mpr x.1))]

/-- Mirrored start cells. -/
lemma waterStart_mirror {E : WEnv L W K} {ncols : ℕ} {starts starts' : List ℤ} {st : WState L W K}
    (ht : List.Forall₂ (fun i j => Twin L W i j ∧ i ≠ 0) starts starts')
    (h : waterStart E ncols starts = .ok st) :
    ∃ st2, waterStart (mirrorEnv E) ncols starts' = .ok st2 ∧ TwinWater st st2 := by
  have hadd : ∀ v : K, fancyAdd (L := L) (W := W) (fun _ => 0) starts' v =
      mirror (fancyAdd (fun _ => 0) starts v) := by
    intro v
    funext c
    unfold fancyAdd mirror
    have : (starts'.any fun i => decide (flatCell L W i = some c)) =
        starts.any fun i => decide (flatCell L W i = some (mirrorCell c)) := by
      clear h
      induction ht with
      | nil => rfl
      | cons h1 h2 ih =>
        rw [List.any_cons, List.any_cons, ih]
        congr 1
        obtain ⟨⟨a1, -⟩ | ⟨-, -, -, d, a4, a5⟩, hz⟩ := h1
        · exact absurd a1 hz
        · rw [a4, a5]
          simp only [Option.some.injEq]
          rw [decide_eq_decide]
          constructor
          · rintro rfl; rw [mirrorCell_mirror]
          · rintro rfl; rw [mirrorCell_mirror]
    rw [this]
  unfold waterStart at h ⊢
  split at h
  · rename_i hc
    cases h
    have hall : starts'.all (fun i => (flatCell L W i).isSome) = true := by
      clear hc hadd
      induction ht with
      | nil => rfl
      | cons h1 h2 ih =>
        rw [List.all_cons, ih, Bool.and_true]
        obtain ⟨⟨a1, -⟩ | ⟨-, -, -, d, a4, a5⟩, hz⟩ := h1
        · exact absurd a1 hz
        · rw [a5]; rfl
    rw [if_pos ⟨hall, hc.2⟩]
    refine ⟨_, rfl, ⟨?_, ?_, rfl⟩⟩
    · unfold mirrorFlux
      simp only [hadd, Flux.mk.injEq]
      refine ⟨trivial, ?_, rfl⟩
      funext c
      unfold mirror mirrorAcross fancyAdd
      simp
    · simp only
      clear hc hall hadd
      induction ht with
      | nil => exact .nil
      | cons h1 h2 ih =>
        refine .cons ⟨h1.1, rfl, ?_⟩ ih
        simp only
        apply twin_set _ _ h1.1
        clear ih
        induction ncols with
        | zero => exact .nil
        | succ n ih => exact .cons (.inl ⟨rfl, rfl⟩) ih
  · cases h

/-- The routing once the start cells are drawn. -/
def startOn (E : WEnv L W K) (ncols : ℕ) : Option (List ℤ) × List K →
    Except Err (WState L W K × List (List StepRec) × ℕ × List K)
  | (none, _) => .error .index
  | (some starts, t) =>
    match waterStart E ncols starts with
    | .error e => .error e
    | .ok st => waterLoop tape E 0 st t

/-- Drawing the start cells and routing the parcels. -/
lemma runWater_mirror {m : ℕ} {E : WEnv L W K} (hM : MirrorOk E)
    (hm : 0 < m) {inlet inlet' : Fin m → ℤ} (e : Fin m ≃ Fin m)
    (hin : ∀ k, ∃ c : Cell L W, inlet k = position c ∧ IsActive E c)
    (hR : ∀ k, Twin L W (inlet k) (inlet' (e k))) {np ncols : ℕ} :
    SameChances (OrFail TwinLoop) (runWaterIteration tape E inlet np ncols)
      (runWaterIteration tape (mirrorEnv E) inlet' np ncols) := by
  have hne : ∀ k, inlet k ≠ 0 := by
    intro k
    obtain ⟨c, h1, h2⟩ := hin k
    have := hM.layout.active c h2
    rw [h1]
    exact position_ne_zero (c := c) (by omega)
  refine same_then (same_starts (K := K) hm inlet inlet'
    (Q := fun i j => Twin L W i j ∧ i ≠ 0 ∧ ∃ k, i = inlet k) e (fun k => ⟨hR k, hne k, k, rfl⟩) np)
    (startOn E ncols) (startOn (mirrorEnv E) ncols) ?_ ?_ ?_
  · intro t
    unfold runWaterIteration startOn
    simp only
    cases getStartIndices inlet (getInletWeights inlet : Fin m → K) (drawN tape np t).1 <;> rfl
  · intro t
    unfold runWaterIteration startOn
    simp only
    cases getStartIndices inlet' (getInletWeights inlet' : Fin m → K) (drawN tape np t).1 <;> rfl
  · rintro F' G' ⟨starts, starts', hs, rfl, rfl⟩
    unfold startOn
    simp only
    cases h2 : waterStart E ncols starts with
    | error e => exact .done (.inl ⟨e, rfl⟩)
    | ok st0 =>
      obtain ⟨st2, a1, a2⟩ := waterStart_mirror (hs.imp fun _ _ h => ⟨h.1, h.2.1⟩) h2
      have hrest : ∀ p ∈ st0.parcels, Resting E p.ind := by
        intro p hp
        obtain ⟨-, -, -, -, -, -, -, -, hmap, -⟩ := waterStart_ok h2
        have hmem : p.ind ∈ starts := by rw [← hmap]; exact List.mem_map_of_mem hp
        have : ∀ i ∈ starts, ∃ k, i = inlet k := by
          clear a1 h2 hmap hmem
          induction hs with
          | nil => intro i hi; cases hi
          | cons h1 h2 ih =>
            intro i hi
            rcases List.mem_cons.mp hi with rfl | hi
            · exact h1.2.2
            · exact ih i hi
        obtain ⟨k, hk⟩ := this _ hmem
        rw [hk]; exact .inr (hin k)
      rw [a1]
      exact waterLoop_mirror hM rfl a2 hrest

/-- The records of mirrored parcels visit mirrored cells. -/
lemma twin_path {walk walk' : List ℤ} (h : List.Forall₂ (Twin L W) walk walk') :
    ∀ {cs : List (Cell L W)}, IsPath walk cs → IsPath walk' (cs.map mirrorCell) := by
  unfold IsPath
  induction h with
  | nil =>
    intro cs hc
    have : cs = [] := by simpa using hc.symm
    subst this
    rfl
  | cons h1 h2 ih =>
    rename_i i j is js
    intro cs hc
    by_cases hi : 0 < i
    · have hj := (twin_pos h1).mp hi
      rw [List.filter_cons_of_pos (by simpa using hi)] at hc
      rw [List.filter_cons_of_pos (by simpa using hj)]
      cases cs with
      | nil => cases hc
      | cons c cs =>
        rw [List.map_cons] at hc
        obtain ⟨e1, e2⟩ := List.cons_eq_cons.mp hc
        rw [List.map_cons, List.map_cons, ih e2]
        congr 1
        rcases h1 with ⟨a1, -⟩ | ⟨-, -, -, d, a4, a5⟩
        · omega
        · have h3 := flatCell_some_nonneg hi.le a4
          have h4 : c = d := by
            have : flatCell L W (posOf c) = flatCell L W (posOf d) := by
              rw [← h3, show posOf c = i from e1.symm]
            rw [flatCell_posOf, flatCell_posOf] at this
            exact Option.some.inj this
          rw [h4]
          exact flatCell_some_nonneg hj.le a5
    · have hj : ¬ 0 < j := fun h => hi ((twin_pos h1).mpr h)
      rw [List.filter_cons_of_neg (by simpa using hi)] at hc
      rw [List.filter_cons_of_neg (by simpa using hj)]
      exact ih hc

lemma twin_walked {ps qs : List WParcel} (h : List.Forall₂ (TwinParcel L W) ps qs) :
    ∀ {css : List (List (Cell L W))}, Walked (ps.map fun p => (p.walk, p.flag)) css →
    List.Forall₂ (MirrorWalk L W) (ps.map fun p => (p.walk, p.flag)) (qs.map fun p => (p.walk, p.flag)) := by
  induction h with
  | nil => intro css _; exact .nil
  | cons h1 h2 ih =>
    intro css hw
    cases hw with
    | cons w1 w2 =>
      exact .cons ⟨h1.flag, _, walkCells_of_path w1.1, walkCells_of_path (twin_path h1.walk w1.1)⟩ (ih w2)

/-- What the mirrored basin needs: the setup of C71, no edge cell in the first row, and a length of
vectors that does not depend on the sign. -/
structure MirrorSetup [NeZero L] [NeZero W] (P : Params L W m K) : Prop where
  water : WaterSetup P
  first : ∀ c : Cell L W, c.1.val = 0 → P.cellType c ≠ -1
  sign : ∀ x y, P.nrm x (-y) = P.nrm x y

lemma mirrorSetup [NeZero L] [NeZero W] {P : Params L W m K} (h : WaterSetup P) : WaterSetup (mirrorParams P) where
  hL0 := h.hL0
  hL := h.hL
  hW := h.hW
  active := by
    intro c h1 h2
    have := h.active (mirrorCell c) h1 h2
    have hc := mirror_coords c
    refine ⟨this.1, ?_, ?_⟩ <;> omega
  last := fun c hc => h.last (mirrorCell c) hc
  land := fun c hc => h.land (mirrorCell c) hc
  nrm := h.nrm
  mod := fun c => h.mod _
  pw := h.pw
  gamma0 := h.gamma0
  gamma1 := h.gamma1
  steps := h.steps
  hm := h.hm
  inlet := by
    intro k
    have := h.inlet k.rev
    change P.cellType (0, ((P.inlet k.rev).rev).rev) ≠ -1 ∧ P.cellType (0, ((P.inlet k.rev).rev).rev) ≠ -2
    rwa [Fin.rev_rev]

/-- The end of an iteration. -/
def surfOn [NeZero L] [NeZero W] (P : Params L W m K) (it : ℕ) (S : State L W K) :
    Except Err (WState L W K × List (List StepRec) × ℕ × List K) → Except Err (State L W K × List K)
  | .error e => .error e
  | .ok (wst, _, _, s1) =>
    match computeFreeSurface P S wst.parcels with
    | .error e => .error e
    | .ok stage => .ok ({ finalizeWaterIteration P S it stage wst.flux with ncols := wst.ncols }, s1)

/-- What is left to do is to return a state, and in the mirrored basin the mirrored state. -/
def MirrorEnd (F G : List K → Except Err (State L W K × List K)) : Prop :=
  ∃ S' : State L W K, (∀ c, 0 ≤ S'.depth c) ∧ 0 < S'.ncols ∧ F = (fun t => .ok (S', t)) ∧
    G = fun t => .ok (mirrorState S', t)

/-- C80: one water iteration. For every outcome, the mirrored outcome of the mirrored basin is as
likely. -/
theorem C80_water_iteration [NeZero L] [NeZero W] {P : Params L W m K}
    (hP : MirrorSetup P) (it : ℕ) {S : State L W K} (hd : ∀ c, 0 ≤ S.depth c) (hn : 0 < S.ncols) :
    SameChances MirrorEnd (waterIteration tape P it S)
      (waterIteration tape (mirrorParams P) it (mirrorState S)) := by
  have hL2 : 2 ≤ L := by have := hP.water.hL; have := hP.water.hL0; omega
  have hW2 : 2 ≤ W := by have := hP.water.hW; omega
  obtain ⟨w, hw, hwc⟩ := weights_total hP.water hd
  obtain ⟨w', hw', hwc'⟩ := weights_total (mirrorSetup hP.water) (S := mirrorState S) (fun c => hd _)
  have hww : w' = fun c d => w (mirrorCell c) (mirrorDir d) := by
    funext c
    have e1 := C80_water_weights S.depth S.stage P.modWater P.cellType S.qx S.qy P.s2 P.s05 P.dryDepth
      P.gamma P.pwWater c
    rw [hwc (mirrorCell c)] at e1
    have e2 := (hwc' c).symm.trans e1
    simpa [Except.map] using e2
  have henv : waterEnv (mirrorParams P) (mirrorState S) w' = mirrorEnv (waterEnv P S w) := by
    rw [hww]; rfl
  obtain ⟨st, log, n, s', hr⟩ := waterRun_of tape_positive hP.water hd hn [] hwc
  have hM : MirrorOk (waterEnv P S w) := ⟨hr.layout, hr.weights, hP.first, hP.sign⟩
  have hrun := runWater_mirror hM hP.water.hm (np := P.NpWater) (ncols := S.ncols)
    (inlet' := fun k => (((mirrorParams P).inlet k).val : ℤ)) Fin.revPerm hr.inlet (by
      intro k
      have hk := (P.inlet k).isLt
      have hact := hP.water.active (0, P.inlet k) (hP.water.inlet k).1 (hP.water.inlet k).2
      simp only at hact
      have e : (mirrorParams P).inlet k.rev = (P.inlet k).rev := by
        change (P.inlet k.rev.rev).rev = _
        rw [Fin.rev_rev]
      refine twin_of_cells (c := (0, P.inlet k)) ?_ ?_ ?_ ?_
      · simp [posOf]
      · simp only [Fin.revPerm_apply, e]
        simp [posOf, mirrorCell]
      · omega
      · simp only [Fin.revPerm_apply, e, Fin.val_rev]; omega)
  rw [← henv] at hrun
  have key : SameChances (OrFail fun F G => ∃ S' : State L W K, F = (fun t => .ok (S', t)) ∧
      G = fun t => .ok (mirrorState S', t)) (waterIteration tape P it S)
      (waterIteration tape (mirrorParams P) it (mirrorState S)) := by
    refine same_then (same_reach hrun) (surfOn P it S) (surfOn (mirrorParams P) it (mirrorState S)) ?_ ?_ ?_
    · intro t
      unfold waterIteration
      simp only [hw]
      rcases runWaterIteration tape (waterEnv P S w) (fun k => ((P.inlet k).val : ℤ)) P.NpWater S.ncols t
        with e | ⟨wst, log, n, s1⟩
      · rfl
      · unfold surfOn
        simp only
        rcases computeFreeSurface P S wst.parcels with e | stage <;> rfl
    · intro t
      unfold waterIteration
      have n1 : (mirrorParams P).NpWater = P.NpWater := rfl
      have n2 : (mirrorState S).ncols = S.ncols := rfl
      simp only [hw', n1, n2]
      rcases runWaterIteration tape (waterEnv (mirrorParams P) (mirrorState S) w')
        (fun k => (((mirrorParams P).inlet k).val : ℤ)) P.NpWater S.ncols t with e | ⟨wst, log, n, s1⟩
      · rfl
      · unfold surfOn
        simp only
        rcases computeFreeSurface (mirrorParams P) (mirrorState S) wst.parcels with e | stage <;> rfl
    · rintro F G ⟨⟨e, rfl⟩ | ⟨st1, st3, log, log', n, q1, rfl, rfl⟩, t, ht⟩
      · exact .done (.inl ⟨e, rfl⟩)
      · obtain ⟨css, hcss⟩ := C15_routed_walks (g := tape) (inlet := fun k => ((P.inlet k).val : ℤ))
          ⟨ht [], tape_positive, hr.layout, hr.weights, hr.hm, hr.inlet⟩
        have hsurf := C80_surface hL2 hW2 P S (twin_walked q1.parcels hcss)
        unfold surfOn
        simp only
        cases hst : computeFreeSurface P S st1.parcels with
        | error e => exact .done (.inl ⟨e, rfl⟩)
        | ok stage =>
          rw [hst] at hsurf
          simp only [Except.map] at hsurf
          refine .done (.inr ⟨_, rfl, ?_⟩)
          simp only [hsurf, q1.flux, q1.ncols, C80_water_fields P hP.sign]
          rfl
  have hsafe := same_safe key (by
    intro t e h
    obtain ⟨S', s', h', -⟩ := C71_water_iteration tape_positive hP.water it hd hn t
    rw [h'] at h
    cases h)
  refine same_imp ?_ (same_reach hsafe)
  rintro F G ⟨⟨S', rfl, rfl⟩, t, ht⟩
  obtain ⟨S1, s', h', h1, h2⟩ := C71_water_iteration tape_positive hP.water it hd hn t
  have := ht []
  rw [List.append_nil, h'] at this
  cases this
  exact ⟨_, h1, h2, rfl, rfl⟩

/-- C80: the water routing of a timestep. -/
theorem C80_water_routing [NeZero L] [NeZero W] {P : Params L W m K}
    (hP : MirrorSetup P) {S : State L W K} (hd : ∀ c, 0 ≤ S.depth c) (hn : 0 < S.ncols) :
    SameChances MirrorEnd (routeWater tape P S) (routeWater tape (mirrorParams P) (mirrorState S)) := by
  suffices key : ∀ n it (S : State L W K), (∀ c, 0 ≤ S.depth c) → 0 < S.ncols →
      SameChances MirrorEnd (routeWaterFrom tape P it n S)
        (routeWaterFrom tape (mirrorParams P) it n (mirrorState S)) from key _ _ S hd hn
  intro n
  induction n with
  | zero =>
    intro it S hd hn
    exact .done ⟨S, hd, hn, rfl, rfl⟩
  | succ n ih =>
    intro it S hd hn
    refine same_then (C80_water_iteration hP it hd hn)
      (fun x => match x with
        | .error e => .error e
        | .ok (S1, s1) => routeWaterFrom tape P (it + 1) n S1 s1)
      (fun x => match x with
        | .error e => .error e
        | .ok (S1, s1) => routeWaterFrom tape (mirrorParams P) (it + 1) n S1 s1) ?_ ?_ ?_
    · intro t
      rw [routeWaterFrom]
      rcases waterIteration tape P it S t with e | ⟨S1, s1⟩ <;> rfl
    · intro t
      rw [routeWaterFrom]
      rcases waterIteration tape (mirrorParams P) it (mirrorState S) t with e | ⟨S1, s1⟩ <;> rfl
    · rintro F G ⟨S', h1, h2, rfl, rfl⟩
      exact ih (it + 1) S' h1 h2

end Verif.Props
