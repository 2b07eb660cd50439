import Verif.Props.Setup
import Verif.Spec.Sediment
import Mathlib.Data.List.Sort
import Mathlib.Data.List.FinRange

/-!
# C51, C52, C53: inlet, cell types and initial state
-/

set_option linter.unusedSectionVars false
set_option linter.unusedSimpArgs false

namespace Verif.Props

open Verif.Model Verif.Spec

variable {K : Type*} [Field K] [LinearOrder K] [IsStrictOrderedRing K] [FloorRing K]

/-- What a successful construction consists of. -/
lemma create_ok {O : Oracle K} {I : Input K} {M : Built K} (h : create O I = .ok M) :
    Accepted I ∧ ∃ D, boundaryConditions I (cellsAlong I.Length I.dx) (cellsAlong I.Width I.dx) = .ok D ∧
      0 ≤ D.sizeInd ∧ M =
      ⟨(cellsAlong I.Length I.dx).toNat, (cellsAlong I.Width I.dx).toNat,
        (inletCols (cellTypes (cellsAlong I.Length I.dx).toNat (cellsAlong I.Width I.dx).toNat
          (centre (cellsAlong I.Width I.dx)) D.L0 D.N0)).length,
        initialParams (centre (cellsAlong I.Width I.dx))
          (cellTypes (cellsAlong I.Length I.dx).toNat (cellsAlong I.Width I.dx).toNat
          (centre (cellsAlong I.Width I.dx)) D.L0 D.N0) O I D,
        initialState (cellsAlong I.Length I.dx).toNat (cellsAlong I.Width I.dx).toNat
          (centre (cellsAlong I.Width I.dx)) O I D⟩ := by
  unfold create at h
  cases hv : validate I with
  | error e => rw [hv] at h; simp at h
  | ok u =>
    rw [hv] at h
    simp only at h
    refine ⟨(C50_validate I).1 hv, ?_⟩
    cases hb : boundaryConditions I (cellsAlong I.Length I.dx) (cellsAlong I.Width I.dx) with
    | error e => rw [hb] at h; simp at h
    | ok D =>
      rw [hb] at h
      simp only at h
      split_ifs at h with hs
      exact ⟨D, rfl, not_lt.1 hs, (Except.ok.inj h).symm⟩

/-! ## The slices -/

lemma inSlice_nonneg {n : ℕ} {a b : ℤ} {j : ℕ} (ha : 0 ≤ a) (hb : 0 ≤ b) (hj : j < n) :
    inSlice n a b j = true ↔ a ≤ j ∧ (j : ℤ) < b := by
  unfold inSlice
  simp only [Bool.and_eq_true, decide_eq_true_eq]
  rw [if_neg (by omega), if_neg (by omega)]
  omega

lemma landRows_iff {L W : ℕ} {L0 : ℤ} (h : 0 ≤ L0) (c : Cell L W) :
    landRows L W L0 c = true ↔ (c.1.val : ℤ) < L0 := by
  unfold landRows
  rw [inSlice_nonneg le_rfl h c.1.isLt]
  omega

lemma half_round (n : ℤ) :
    2 * roundHalfEven ((n : ℚ) / 2) ≤ n + 1 ∧ n - 1 ≤ 2 * roundHalfEven ((n : ℚ) / 2) := by
  have := round_near ((n : ℚ) / 2)
  rw [abs_le] at this
  constructor
  · have : (2 * roundHalfEven ((n : ℚ) / 2) : ℚ) ≤ n + 1 := by linarith
    exact_mod_cast this
  · have : ((n : ℚ) - 1) ≤ 2 * roundHalfEven ((n : ℚ) / 2) := by linarith
    exact_mod_cast this

lemma half_three : roundHalfEven (((3 : ℤ) : ℚ) / 2) = 2 := by decide +kernel

/-- The inlet lies inside a domain of at least three columns and away from its sides if there are at
least five. -/
lemma channel_bounds {W N0 : ℤ} (hW : 3 ≤ W) (h3 : 3 ≤ N0) (hN : N0 ≤ max 3 (W / 4)) :
    0 ≤ channelInds (centre W) N0 ∧ channelInds (centre W) N0 + N0 ≤ W ∧
    (5 ≤ W → 1 ≤ channelInds (centre W) N0 ∧ channelInds (centre W) N0 + N0 < W) ∧
    |2 * channelInds (centre W) N0 + N0 - W| ≤ 2 := by
  obtain ⟨r1, r2⟩ := half_round N0
  unfold channelInds
  by_cases hs : W < 6
  · have e : N0 = 3 := by omega
    subst e
    rw [half_three]
    unfold centre
    rw [abs_le]
    split_ifs <;> omega
  · unfold centre
    rw [if_neg (by omega), abs_le]
    omega

lemma channelCells_iff {L W : ℕ} {L0 N0 : ℤ} (hL : 0 ≤ L0) (hW : 3 ≤ W) (h3 : 3 ≤ N0)
    (hN : N0 ≤ max 3 ((W : ℤ) / 4)) (c : Cell L W) :
    channelCells L W (centre W) L0 N0 c = true ↔ (c.1.val : ℤ) < L0 ∧
      channelInds (centre W) N0 ≤ c.2.val ∧ (c.2.val : ℤ) < channelInds (centre W) N0 + N0 := by
  obtain ⟨b1, b2, -, -⟩ := channel_bounds (by exact_mod_cast hW) h3 hN
  unfold channelCells
  rw [Bool.and_eq_true, landRows_iff hL, inSlice_nonneg b1 (by omega) c.2.isLt]

/-- The cell types in closed form. -/
lemma cellTypes_eq (L W : ℕ) (CTR L0 N0 : ℤ) (c : Cell L W) :
    cellTypes L W CTR L0 N0 c =
      if channelCells L W CTR L0 N0 c then 1
      else if landRows L W L0 c then -2
      else if c.1.val + 1 = L ∨ c.2.val = 0 ∨ c.2.val + 1 = W ∨ farCells L W CTR c then -1
      else 0 := by
  unfold cellTypes cellType0 assign
  by_cases h1 : channelCells L W CTR L0 N0 c = true
  · simp [h1]
  · by_cases h2 : landRows L W L0 c = true
    · simp [h1, h2]
    · by_cases h3 : c.1.val + 1 = L <;> by_cases h4 : c.2.val = 0 <;> by_cases h5 : c.2.val + 1 = W <;>
        by_cases h6 : farCells L W CTR c = true <;> simp [h1, h2, h3, h4, h5, h6]

/-! ## C51 -/

/-- The row of inlet columns, for a domain of any length. -/
lemma inletCols_eq {L W : ℕ} {L0 N0 : ℤ} (hL : 1 ≤ L) (hL0 : 1 ≤ L0) (hW : 3 ≤ W) (h3 : 3 ≤ N0)
    (hN : N0 ≤ max 3 ((W : ℤ) / 4)) :
    (inletCols (cellTypes L W (centre W) L0 N0)).map Fin.val =
      List.range' (channelInds (centre W) N0).toNat N0.toNat := by
  obtain ⟨b1, b2, -, -⟩ := channel_bounds (by exact_mod_cast hW) h3 hN
  apply List.Pairwise.eq_of_mem_iff (r := (· < ·))
  · rw [List.pairwise_map]
    unfold inletCols
    exact ((List.sortedLT_finRange W).pairwise.filter _).imp (fun h => h)
  · exact List.pairwise_lt_range'
  · intro j
    simp only [inletCols, List.mem_map, List.mem_filter, List.mem_finRange, true_and,
      decide_eq_true_eq, List.mem_range'_1]
    have hone : ∀ c : Cell L W, cellTypes L W (centre W) L0 N0 c = 1 ↔
        channelCells L W (centre W) L0 N0 c = true := by
      intro c
      rw [cellTypes_eq]
      split_ifs <;> simp_all
    constructor
    · rintro ⟨k, ⟨i, hi⟩, rfl⟩
      rw [hone, channelCells_iff (by omega) hW h3 hN] at hi
      simp only at hi
      omega
    · intro hj
      refine ⟨⟨j, by omega⟩, ⟨⟨0, hL⟩, ?_⟩, rfl⟩
      rw [hone, channelCells_iff (by omega) hW h3 hN]
      simp only
      omega

/-- The size of the domain. -/
lemma create_size {O : Oracle K} {I : Input K} {M : Built K} (h : create O I = .ok M) :
    1 ≤ M.L ∧ 1 ≤ M.W ∧ (M.L : ℤ) = cellsAlong I.Length I.dx ∧ (M.W : ℤ) = cellsAlong I.Width I.dx := by
  obtain ⟨hA, D, hD, hs, e⟩ := create_ok h
  have h1 := (C50_cells hA.dx hA.dxLength).1
  have h2 := (C50_cells hA.dx hA.dxWidth).1
  rw [e]
  simp only
  omega

/-- C51: in a domain of at least three columns the inlet consists of consecutive columns inside the
domain, in increasing order, at the centre of the inflow side up to one column; their number is
between 3 and a quarter of the domain (or 3), and the discharge brought by all water parcels is the
one through an inlet of that width.
Partial: C51 claims this for all widths, see `C51_narrow`. -/
theorem C51_inlet_partial {O : Oracle K} {I : Input K} {M : Built K} (h : create O I = .ok M)
    (hW : 3 ≤ M.W) :
    ∃ a, List.ofFn (fun k => (M.P.inlet k).val) = List.range' a M.m ∧ a + M.m ≤ M.W ∧
      (5 ≤ M.W → 0 < a ∧ a + M.m < M.W) ∧ |2 * (a : ℤ) + M.m - M.W| ≤ 2 ∧
      3 ≤ M.m ∧ (M.m : ℤ) ≤ max 3 ((M.W : ℤ) / 4) ∧
      (3 ≤ roundHalfEven (I.N0m / I.dx) → roundHalfEven (I.N0m / I.dx) ≤ (M.W : ℤ) / 4 →
        (M.m : ℤ) = roundHalfEven (I.N0m / I.dx)) ∧
      (M.P.NpWater : K) * M.P.QpWater = I.u0 * I.h0 * (M.m * I.dx) := by
  obtain ⟨hA, D, hD, hs, e⟩ := create_ok h
  obtain ⟨s1, s2, s3, s4⟩ := create_size h
  obtain ⟨i1, i2, i3, i4, i5, i6⟩ := C50_inlet_size hD
  have hL' : 1 ≤ (cellsAlong I.Length I.dx).toNat := by omega
  have hW' : 3 ≤ (cellsAlong I.Width I.dx).toNat := by omega
  have hz : (((cellsAlong I.Width I.dx).toNat : ℕ) : ℤ) = cellsAlong I.Width I.dx := by omega
  have hcols := inletCols_eq (L := (cellsAlong I.Length I.dx).toNat) hL' i1 hW' i3 (by rw [hz]; exact i4)
  rw [hz] at hcols
  obtain ⟨b1, b2, b3, b4⟩ := channel_bounds (W := cellsAlong I.Width I.dx) (by omega) i3 i4
  have hm : (M.m : ℤ) = D.N0 := by
    have := congrArg List.length hcols
    rw [List.length_map, List.length_range'] at this
    have e1 : M.m = D.N0.toNat := by rw [e]; exact this
    omega
  refine ⟨(channelInds (centre (cellsAlong I.Width I.dx)) D.N0).toNat, ?_, by omega, ?_, ?_, by omega,
    by rw [hm, s4]; exact i4, ?_, ?_⟩
  · have e1 : M.m = D.N0.toNat := by omega
    refine Eq.trans ?_ (congrArg (List.range' _) e1).symm
    rw [← hcols]
    subst e
    simp only [initialParams]
    exact (List.ofFn_get (l := (inletCols _).map Fin.val) ▸ by
      apply List.ext_get
      · simp
      · intro n h1 h2
        simp)
  · intro h5
    have := b3 (by omega)
    omega
  · rw [abs_le] at b4 ⊢
    omega
  · rw [hm, s4]; exact i6
  · have b := bc_ok hD
    have e1 : M.P.NpWater = I.NpWater.toNat := by subst e; rfl
    have e2 : M.P.QpWater = D.QpWater := by subst e; rfl
    have hN : ((I.NpWater.toNat : ℕ) : K) = (I.NpWater : K) := by
      have : ((I.NpWater.toNat : ℕ) : ℤ) = I.NpWater := Int.toNat_of_nonneg hA.NpWater.le
      exact_mod_cast congrArg (Int.cast : ℤ → K) this
    have hp : (0 : K) < I.NpWater := by exact_mod_cast hA.NpWater
    have hmk : (M.m : K) = (D.N0 : K) := by rw [← hm]; simp
    rw [e1, e2, hN, b.eQp, mul_div_cancel₀ _ hp.ne', b.eQw0, hmk]
    ring

lemma inletCols_two {L : ℕ} {w L0 N0 : ℤ} (hw : w = 2) (hL : 1 ≤ L) (hL0 : 1 ≤ L0) (hN : N0 = 3) :
    (inletCols (cellTypes L w.toNat (centre w) L0 N0)).length = 2 := by
  subst hw hN
  have : inletCols (cellTypes L (2 : ℤ).toNat (centre 2) L0 3) = List.finRange 2 := by
    unfold inletCols
    apply List.filter_eq_self.2
    intro j _
    simp only [decide_eq_true_eq]
    refine ⟨⟨0, hL⟩, ?_⟩
    rw [cellTypes_eq, if_pos]
    unfold channelCells
    rw [Bool.and_eq_true, landRows_iff (by omega)]
    refine ⟨by simp only; omega, ?_⟩
    have e : channelInds (centre 2) 3 = 0 := by decide +kernel
    rw [e]
    simp only
    revert j
    decide +revert
  rw [this, List.length_finRange]

/-- C51 fails: in a domain of two columns the inlet has two cells, but the discharge is the one through
three. -/
theorem C51_narrow {O : Oracle K} {I : Input K} {M : Built K} (h : create O I = .ok M)
    (hW : M.W = 2) :
    M.m = 2 ∧ (M.P.NpWater : K) * M.P.QpWater = I.u0 * I.h0 * (3 * I.dx) := by
  obtain ⟨hA, D, hD, hs, e⟩ := create_ok h
  obtain ⟨s1, s2, s3, s4⟩ := create_size h
  obtain ⟨i1, i2, i3, i4, i5, i6⟩ := C50_inlet_size hD
  have hw : cellsAlong I.Width I.dx = 2 := by omega
  have hN : D.N0 = 3 := by omega
  constructor
  · rw [e]
    exact inletCols_two hw (by omega) i1 hN
  · have b := bc_ok hD
    have e1 : M.P.NpWater = I.NpWater.toNat := by subst e; rfl
    have e2 : M.P.QpWater = D.QpWater := by subst e; rfl
    have hc : ((I.NpWater.toNat : ℕ) : K) = (I.NpWater : K) := by
      have : ((I.NpWater.toNat : ℕ) : ℤ) = I.NpWater := Int.toNat_of_nonneg hA.NpWater.le
      exact_mod_cast congrArg (Int.cast : ℤ → K) this
    have hp : (0 : K) < I.NpWater := by exact_mod_cast hA.NpWater
    rw [e1, e2, hc, b.eQp, mul_div_cancel₀ _ hp.ne', b.eQw0, hN]
    push_cast
    ring

/-! ## C52 -/

/-- The four types and where they are, for a domain of at least three columns. -/
lemma cellTypes_cases {L W : ℕ} {L0 N0 : ℤ} (hL0 : 1 ≤ L0) (hW : 3 ≤ W)
    (h3 : 3 ≤ N0) (hN : N0 ≤ max 3 ((W : ℤ) / 4)) (c : Cell L W) :
    (cellTypes L W (centre W) L0 N0 c = 1 ↔ (c.1.val : ℤ) < L0 ∧
      channelInds (centre W) N0 ≤ c.2.val ∧ (c.2.val : ℤ) < channelInds (centre W) N0 + N0) ∧
    (cellTypes L W (centre W) L0 N0 c = -2 ↔ (c.1.val : ℤ) < L0 ∧
      ¬ (channelInds (centre W) N0 ≤ c.2.val ∧ (c.2.val : ℤ) < channelInds (centre W) N0 + N0)) ∧
    (cellTypes L W (centre W) L0 N0 c = 0 ∨ cellTypes L W (centre W) L0 N0 c = -1 ↔
      L0 ≤ c.1.val) ∧
    (cellTypes L W (centre W) L0 N0 c = 0 → c.1.val + 1 < L ∧ 0 < c.2.val ∧ c.2.val + 1 < W) := by
  have a := channelCells_iff (L := L) (by omega : 0 ≤ L0) hW h3 hN c
  have b := landRows_iff (L := L) (W := W) (by omega : 0 ≤ L0) c
  have h1 := c.1.isLt
  have h2 := c.2.isLt
  rw [cellTypes_eq]
  by_cases hc : channelCells L W (centre W) L0 N0 c = true
  · rw [if_pos hc]
    have := a.1 hc
    refine ⟨by simpa using this, by simp; omega, by omega, by omega⟩
  · rw [if_neg hc]
    rw [a] at hc
    by_cases hl : landRows L W L0 c = true
    · rw [if_pos hl]
      have := b.1 hl
      refine ⟨by omega, by omega, by omega, by omega⟩
    · rw [if_neg hl]
      rw [b] at hl
      split_ifs with h
      · refine ⟨⟨fun h' => by norm_num at h', fun h' => absurd h'.1 hl⟩,
          ⟨fun h' => by norm_num at h', fun h' => absurd h'.1 hl⟩, by omega,
          fun h' => by norm_num at h'⟩
      · push Not at h
        refine ⟨by omega, ⟨fun h' => by norm_num at h', fun h' => absurd h'.1 hl⟩, by omega,
          fun _ => by omega⟩

/-- C52: every cell has exactly one of the four types; land and inlet channel are exactly the first
`L0` rows; beyond them the last row and both side columns are edge. For every accepted
configuration. -/
theorem C52_types {O : Oracle K} {I : Input K} {M : Built K} (h : create O I = .ok M) (c : Cell M.L M.W) :
    (M.P.cellType c = -2 ∨ M.P.cellType c = 1 ∨ M.P.cellType c = 0 ∨ M.P.cellType c = -1) ∧
    (M.P.cellType c = -2 ∨ M.P.cellType c = 1 ↔ (c.1.val : ℤ) < M.P.L0) ∧
    (M.P.L0 ≤ c.1.val → c.1.val + 1 = M.L ∨ c.2.val = 0 ∨ c.2.val + 1 = M.W →
      M.P.cellType c = -1) := by
  obtain ⟨hA, D, hD, hs, e⟩ := create_ok h
  have i1 := (C50_inlet_size hD).1
  subst e
  simp only [initialParams] at c ⊢
  have hl := landRows_iff (by omega : 0 ≤ D.L0) c
  have hcl : channelCells _ _ (centre (cellsAlong I.Width I.dx)) D.L0 D.N0 c = true →
      landRows _ _ D.L0 c = true := by
    unfold channelCells
    rw [Bool.and_eq_true]
    exact fun h => h.1
  rw [cellTypes_eq, ← hl]
  by_cases h1 : channelCells _ _ (centre (cellsAlong I.Width I.dx)) D.L0 D.N0 c = true
  · have := hl.1 (hcl h1)
    rw [if_pos h1]
    refine ⟨by omega, ?_, by omega⟩
    simp [hcl h1]
  · rw [if_neg h1]
    by_cases h2 : landRows _ _ D.L0 c = true
    · have := hl.1 h2
      rw [if_pos h2]
      refine ⟨by omega, by simp [h2], by omega⟩
    · rw [if_neg h2]
      split_ifs with h3
      · exact ⟨by omega, by simp [h2], fun _ _ => rfl⟩
      · refine ⟨by omega, by simp [h2], ?_⟩
        intro _ h4
        exfalso
        apply h3
        rcases h4 with h4 | h4 | h4
        · exact .inl h4
        · exact .inr (.inl h4)
        · exact .inr (.inr (.inl h4))

/-- `create_ok` in terms of the fields used below. -/
lemma create_layout {O : Oracle K} {I : Input K} {M : Built K} (h : create O I = .ok M)
    (hW : 3 ≤ M.W) : ∃ N0 : ℤ, 1 ≤ M.P.L0 ∧ M.P.L0 ≤ max 1 ((M.L : ℤ) / 4) ∧ 3 ≤ N0 ∧
      N0 ≤ max 3 ((M.W : ℤ) / 4) ∧ M.P.cellType = cellTypes M.L M.W (centre M.W) M.P.L0 N0 := by
  obtain ⟨hA, D, hD, hs, e⟩ := create_ok h
  obtain ⟨s1, s2, s3, s4⟩ := create_size h
  obtain ⟨i1, i2, i3, i4, -, -⟩ := C50_inlet_size hD
  rw [← s3] at i2
  rw [← s4] at i4
  refine ⟨D.N0, ?_, ?_, i3, i4, ?_⟩
  · subst e; exact i1
  · subst e; exact i2
  · rw [s4]; subst e; rfl

/-- C52: in a domain of at least five columns and two rows, a cell that a parcel can occupy lies above
the last row and between the side columns, so all its neighbours except those upstream of the first
row are cells of the domain.
Partial: C52 claims this for all sizes, see `C52_open_side` and `C52_open_end`. -/
theorem C52_closed_partial {O : Oracle K} {I : Input K} {M : Built K} (h : create O I = .ok M)
    (hL : 2 ≤ M.L) (hW : 5 ≤ M.W) (c : Cell M.L M.W) (h1 : M.P.cellType c ≠ -1)
    (h2 : M.P.cellType c ≠ -2) :
    (c.1.val + 1 < M.L ∧ 0 < c.2.val ∧ c.2.val + 1 < M.W) ∧
    ∀ x y : ℤ, |x| ≤ 1 → |y| ≤ 1 → 0 ≤ (c.1.val : ℤ) + x →
      ∃ n : Cell M.L M.W, (n.1.val : ℤ) = c.1.val + x ∧ (n.2.val : ℤ) = c.2.val + y := by
  obtain ⟨N0, i1, i2, i3, i4, e⟩ := create_layout h (by omega)
  obtain ⟨t1, t2, t3, t4⟩ := cellTypes_cases (L := M.L) i1 (by omega) i3 i4 c
  rw [← e] at t1 t2 t3 t4
  obtain ⟨b1, b2, b3, -⟩ := channel_bounds (W := M.W) (by omega) i3 i4
  have key : c.1.val + 1 < M.L ∧ 0 < c.2.val ∧ c.2.val + 1 < M.W := by
    rcases (C52_types h c).1 with h0 | h0 | h0 | h0
    · exact absurd h0 h2
    · have := t1.1 h0
      omega
    · exact t4 h0
    · exact absurd h0 h1
  refine ⟨key, ?_⟩
  intro x y hx hy h0
  rw [abs_le] at hx hy
  exact ⟨(⟨((c.1.val : ℤ) + x).toNat, by omega⟩, ⟨((c.2.val : ℤ) + y).toNat, by omega⟩),
    by simp only; omega, by simp only; omega⟩

/-- C52 fails: in a domain of three or four columns an inlet cell lies in the last column. -/
theorem C52_open_side {O : Oracle K} {I : Input K} {M : Built K} (h : create O I = .ok M)
    (hW : M.W = 3 ∨ M.W = 4) : ∃ c : Cell M.L M.W, M.P.cellType c = 1 ∧ c.2.val + 1 = M.W := by
  obtain ⟨N0, i1, i2, i3, i4, e⟩ := create_layout h (by omega)
  obtain ⟨s1, s2, s3, s4⟩ := create_size h
  refine ⟨(⟨0, s1⟩, ⟨M.W - 1, by omega⟩), ?_, by simp only; omega⟩
  rw [e, (cellTypes_cases i1 (by omega) i3 i4 _).1]
  have hN : N0 = 3 := by omega
  subst hN
  simp only
  have c1 : channelInds (centre 3) 3 = 0 := by decide +kernel
  have c2 : channelInds (centre 4) 3 = 1 := by decide +kernel
  rcases hW with hW | hW
  · have : ((M.W : ℕ) : ℤ) = 3 := by omega
    rw [this, c1]
    omega
  · have : ((M.W : ℕ) : ℤ) = 4 := by omega
    rw [this, c2]
    omega

/-- C52 fails: in a domain of one row an inlet cell lies in the last row. -/
theorem C52_open_end {O : Oracle K} {I : Input K} {M : Built K} (h : create O I = .ok M)
    (hL : M.L = 1) (hW : 3 ≤ M.W) : ∃ c : Cell M.L M.W, M.P.cellType c = 1 ∧ c.1.val + 1 = M.L := by
  obtain ⟨N0, i1, i2, i3, i4, e⟩ := create_layout h hW
  obtain ⟨s1, s2, s3, s4⟩ := create_size h
  obtain ⟨b1, b2, -, -⟩ := channel_bounds (W := M.W) (by omega) i3 i4
  refine ⟨(⟨0, s1⟩, ⟨(channelInds (centre M.W) N0).toNat, by omega⟩), ?_, by simp only; omega⟩
  rw [e, (cellTypes_cases i1 (by omega) i3 i4 _).1]
  simp only
  omega

end Verif.Props
