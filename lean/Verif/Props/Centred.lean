import Verif.Props.Created
import Verif.Props.MirrorSediment

/-!
# C91: is a created basin its own mirror image?

The two sides of a created basin, its inlet and its edge.
-/

set_option linter.unusedSectionVars false
set_option linter.unusedSimpArgs false

namespace Verif.Props

open Verif.Model Verif.Lemmas Verif.Spec

variable {K : Type*} [Field K] [LinearOrder K] [IsStrictOrderedRing K] [FloorRing K]

/-- Halves are rounded to the even neighbour. -/
lemma half_exact (n : ℤ) : roundHalfEven ((n : ℚ) / 2) = if n % 4 = 3 then n / 2 + 1 else n / 2 := by
  have hf : ⌊(n : ℚ) / 2⌋ = n / 2 := by
    rw [Int.floor_eq_iff]
    have h1 : (2 * (n / 2) + n % 2 : ℤ) = n := by omega
    have h2 : ((2 * (n / 2) + n % 2 : ℤ) : ℚ) = n := by rw [h1]
    push_cast at h2
    have h3 : (0 : ℚ) ≤ (n % 2 : ℤ) := by exact_mod_cast Int.emod_nonneg n (by norm_num)
    have h4 : ((n % 2 : ℤ) : ℚ) ≤ 1 := by
      have : n % 2 ≤ 1 := by omega
      exact_mod_cast this
    constructor <;> linarith
  unfold roundHalfEven
  simp only [hf]
  rcases Int.emod_two_eq_zero_or_one n with h | h
  · have e : (n : ℚ) / 2 - ((n / 2 : ℤ) : ℚ) = 0 := by
      have h1 : (2 * (n / 2) : ℤ) = n := by omega
      have h2 : ((2 * (n / 2) : ℤ) : ℚ) = n := by rw [h1]
      push_cast at h2
      linarith
    rw [e, if_pos (by norm_num), if_neg (by omega)]
  · have e : (n : ℚ) / 2 - ((n / 2 : ℤ) : ℚ) = 1 / 2 := by
      have h1 : (2 * (n / 2) + 1 : ℤ) = n := by omega
      have h2 : ((2 * (n / 2) + 1 : ℤ) : ℚ) = n := by rw [h1]
      push_cast at h2
      linarith
    rw [e, if_neg (by norm_num), if_neg (by norm_num)]
    split_ifs <;> omega

/-- The centre column that a created model is given. -/
lemma create_centre {O : Oracle K} {I : Input K} {M : Built K} (h : create O I = .ok M) :
    M.P.CTR = centre M.W := by
  obtain ⟨s1, s2, s3, s4⟩ := create_size h
  obtain ⟨hA, D, hD, hs, e⟩ := create_ok h
  rw [s4]
  subst e
  rfl

/-- C91: the centre column is never in the middle: half a column to the left of it if the number of
columns is even, one column if it is odd. -/
theorem C91_centre {O : Oracle K} {I : Input K} {M : Built K} (h : create O I = .ok M) (hW : 6 ≤ M.W) :
    (M.W : ℤ) - 1 - 2 * M.P.CTR = if M.W % 2 = 0 then 1 else 2 := by
  rw [create_centre h]
  unfold centre
  rw [if_neg (by omega)]
  split_ifs <;> omega

/-- C91: how many columns of land there are to the left and to the right of the inlet: their difference
depends on the parities only. It is zero for an even number of columns in both, and for an odd number of
columns and an inlet of 5, 9, 13, … columns. -/
theorem C91_inlet {O : Oracle K} {I : Input K} {M : Built K} (h : create O I = .ok M) (hW : 6 ≤ M.W) :
    ∃ left right : ℕ, List.ofFn (fun k => (M.P.inlet k).val) = List.range' left M.m ∧
      left + M.m + right = M.W ∧
      (right : ℤ) - left =
        if M.W % 2 = 0 then (if M.m % 4 = 1 then -1 else if M.m % 4 = 3 then 1 else 0)
        else (if M.m % 4 = 1 then 0 else if M.m % 4 = 3 then 2 else 1) := by
  obtain ⟨hA, D, hD, hs, e⟩ := create_ok h
  obtain ⟨s1, s2, s3, s4⟩ := create_size h
  obtain ⟨i1, i2, i3, i4, i5, i6⟩ := C50_inlet_size hD
  have hL' : 1 ≤ (cellsAlong I.Length I.dx).toNat := by omega
  have hW' : 3 ≤ (cellsAlong I.Width I.dx).toNat := by omega
  have hz : (((cellsAlong I.Width I.dx).toNat : ℕ) : ℤ) = cellsAlong I.Width I.dx := by omega
  have hcols := inletCols_eq (L := (cellsAlong I.Length I.dx).toNat) hL' i1 hW' i3 (by rw [hz]; exact i4)
  rw [hz] at hcols
  obtain ⟨b1, b2, b3, b4⟩ := channel_bounds (W := cellsAlong I.Width I.dx) (by omega) i3 i4
  have hm : (M.m : ℤ) = D.N0 := by
    have := congrArg List.length hcols
    rw [List.length_map, List.length_range'] at this
    have e1 : M.m = D.N0.toNat := by rw [e]; exact this
    omega
  have e1 : M.m = D.N0.toNat := by omega
  refine ⟨(channelInds (centre (cellsAlong I.Width I.dx)) D.N0).toNat,
    M.W - (channelInds (centre (cellsAlong I.Width I.dx)) D.N0).toNat - M.m, ?_, by omega, ?_⟩
  · refine Eq.trans ?_ (congrArg (List.range' _) e1).symm
    rw [← hcols]
    subst e
    simp only [initialParams]
    exact (List.ofFn_get (l := (inletCols _).map Fin.val) ▸ by
      apply List.ext_get
      · simp
      · intro n h1 h2
        simp)
  · have hc : channelInds (centre (cellsAlong I.Width I.dx)) D.N0 =
        centre (cellsAlong I.Width I.dx) - (if D.N0 % 4 = 3 then D.N0 / 2 + 1 else D.N0 / 2) + 1 := by
      unfold channelInds
      rw [half_exact]
    have hce : centre (cellsAlong I.Width I.dx) = cellsAlong I.Width I.dx / 2 - 1 := by
      unfold centre
      rw [if_neg (by omega)]
    rw [hce] at hc
    rw [hce] at b1 b2 ⊢
    generalize channelInds (cellsAlong I.Width I.dx / 2 - 1) D.N0 = a at *
    have q1 : (M.m % 4 : ℕ) = D.N0 % 4 := by omega
    have q2 : ((M.W % 2 : ℕ) : ℤ) = cellsAlong I.Width I.dx % 2 := by omega
    split_ifs at hc ⊢ <;> omega

/-- C91: the centre column is the middle of the inlet, as the documentation has it, exactly for inlets of 3,
7, 11, … columns. -/
theorem C91_midpoint {O : Oracle K} {I : Input K} {M : Built K} (h : create O I = .ok M) (hW : 6 ≤ M.W) :
    ∃ first last : ℕ, List.ofFn (fun k => (M.P.inlet k).val) = List.range' first M.m ∧
      last + 1 = first + M.m ∧ ((first : ℤ) + last = 2 * M.P.CTR ↔ M.m % 4 = 3) := by
  obtain ⟨l, r, h1, h2, h3⟩ := C91_inlet h hW
  have h4 := C91_centre h hW
  have h5 := (C51_inlet_partial h (by omega)).choose_spec.2.2.2.2.1
  refine ⟨l, l + M.m - 1, h1, by omega, ?_⟩
  split_ifs at h3 h4 <;> omega

/-- The edge in the rows of the sea. -/
lemma sea_edge {L W : ℕ} {CTR L0 N0 : ℤ} (h0 : 0 ≤ L0) (c : Cell L W) (hr : L0 ≤ c.1.val) :
    cellTypes L W CTR L0 N0 c =
      if c.1.val + 1 = L ∨ c.2.val = 0 ∨ c.2.val + 1 = W ∨ farCells L W CTR c then -1 else 0 := by
  have h1 : ¬ landRows L W L0 c = true := by rw [landRows_iff h0]; omega
  have h2 : ¬ channelCells L W CTR L0 N0 c = true := by
    unfold channelCells
    rw [Bool.and_eq_true]
    exact fun h => h1 h.1
  rw [cellTypes_eq, if_neg h2, if_neg h1]

/-- C91 fails: every created basin that has a cell of sea has a cell of sea whose mirror image is a cell
of the edge. -/
theorem C91_edges {O : Oracle K} {I : Input K} {M : Built K} (h : create O I = .ok M) {c₀ : Cell M.L M.W}
    (hc : M.P.cellType c₀ = 0) :
    ∃ c, M.P.cellType c = 0 ∧ M.P.cellType (mirrorCell c) = -1 := by
  have hrow : M.P.L0 ≤ c₀.1.val := by
    by_contra hlt
    have := (C52_types h c₀).2.1.2 (by omega)
    omega
  obtain ⟨hA, D, hD, hs, e⟩ := create_ok h
  obtain ⟨s1, s2, s3, s4⟩ := create_size h
  have i1 := (C50_inlet_size hD).1
  have hP : M.P.cellType = cellTypes M.L M.W (centre M.W) M.P.L0 D.N0 := by
    rw [s4]; subst e; rfl
  have hL0 : M.P.L0 = D.L0 := by subst e; rfl
  rw [hP] at hc ⊢
  have hL0' : 0 ≤ M.P.L0 := by omega
  rw [sea_edge hL0' _ hrow] at hc
  split_ifs at hc with hn
  push Not at hn
  obtain ⟨n1, n2, n3, n4⟩ := hn
  unfold farCells at n4
  simp only [ne_eq, decide_eq_true_eq] at n4
  push Not at n4
  obtain ⟨r0, r1⟩ := n4
  obtain ⟨R, hR⟩ : ∃ R : ℤ, min (2 * ((M.L : ℤ) - 5)) ((M.W : ℤ) - 10) = R := ⟨_, rfl⟩
  obtain ⟨C, hC⟩ : ∃ C, centre (M.W : ℤ) = C := ⟨_, rfl⟩
  rw [hR] at r0 r1
  have hCe : C = M.W / 2 - 1 := by
    rw [← hC]; unfold centre; rw [if_neg (by omega)]
  -- the first column of the edge, counted from the centre
  have hex : ∃ d : ℕ, R * R ≤ 4 * (((c₀.1.val : ℤ) - 3) * ((c₀.1.val : ℤ) - 3) + (d : ℤ) * d) :=
    ⟨R.toNat, by
      have : ((R.toNat : ℕ) : ℤ) = R := by omega
      rw [this]; nlinarith [mul_self_nonneg ((c₀.1.val : ℤ) - 3), mul_pos r0 r0]⟩
  classical
  obtain ⟨d, hd, hmin⟩ : ∃ d : ℕ, (R * R ≤ 4 * (((c₀.1.val : ℤ) - 3) * ((c₀.1.val : ℤ) - 3) + (d : ℤ) * d)) ∧
      ∀ k < d, ¬ R * R ≤ 4 * (((c₀.1.val : ℤ) - 3) * ((c₀.1.val : ℤ) - 3) + (k : ℤ) * k) :=
    ⟨Nat.find hex, Nat.find_spec hex, fun k hk => Nat.find_min hex hk⟩
  have hd0 : 0 < d := by
    rcases Nat.eq_zero_or_pos d with h0 | h0
    · subst h0
      exfalso
      push_cast at hd
      nlinarith [mul_self_nonneg ((c₀.2.val : ℤ) - centre M.W)]
    · exact h0
  have hd1 : 2 * (d : ℤ) ≤ R + 1 := by
    by_contra hgt
    have := hmin (d - 1) (by omega)
    apply this
    have h1 : R ≤ 2 * ((d - 1 : ℕ) : ℤ) := by omega
    have h2 : R * R ≤ 2 * ((d - 1 : ℕ) : ℤ) * (2 * ((d - 1 : ℕ) : ℤ)) :=
      mul_self_le_mul_self r0.le h1
    nlinarith [mul_self_nonneg ((c₀.1.val : ℤ) - 3)]
  have hRW : R ≤ M.W - 10 := by omega
  have hlast := hmin (d - 1) (by omega)
  let c : Cell M.L M.W := (c₀.1, ⟨(C - (d - 1 : ℕ)).toNat, by omega⟩)
  have hc2 : (c.2.val : ℤ) = C - (d - 1 : ℕ) := by
    change (((C - (d - 1 : ℕ)).toNat : ℕ) : ℤ) = _
    omega
  have hc3 : ((mirrorCell c).2.val : ℤ) = M.W - 1 - c.2.val := by
    change ((c.2.rev.val : ℕ) : ℤ) = _
    have := c.2.isLt
    rw [Fin.val_rev]
    omega
  refine ⟨c, ?_, ?_⟩
  · rw [sea_edge hL0' c hrow, if_neg]
    rintro (h1 | h1 | h1 | h1)
    · exact n1 h1
    · omega
    · omega
    · unfold farCells at h1
      simp only [decide_eq_true_eq] at h1
      rw [hR, hC, hc2] at h1
      rcases h1 with h1 | h1
      · omega
      · apply hlast
        have e1 : C - ((d - 1 : ℕ) : ℤ) - C = - ((d - 1 : ℕ) : ℤ) := by ring
        rw [e1, neg_mul_neg] at h1
        exact h1
  · rw [sea_edge hL0' (mirrorCell c) hrow, if_pos]
    right; right; right
    unfold farCells
    simp only [decide_eq_true_eq]
    right
    rw [hR, hC, hc3, hc2]
    have e1 : (d : ℤ) ≤ (M.W : ℤ) - 1 - (C - (d - 1 : ℕ)) - C := by omega
    have e2 := mul_self_le_mul_self (by omega : (0 : ℤ) ≤ d) e1
    change R * R ≤ 4 * (((c₀.1.val : ℤ) - 3) * ((c₀.1.val : ℤ) - 3) + _)
    nlinarith

/-- C91: the edge lies alike on both sides of the centre column: two cells of a row of the sea at the same
distance from it are of the same type, unless one is in a side column.
Partial: C91 claims this of the middle of the basin, see `C91_edges`. -/
theorem C91_edges_partial {O : Oracle K} {I : Input K} {M : Built K} (h : create O I = .ok M)
    {c c' : Cell M.L M.W} (hr : c.1 = c'.1) (hsea : M.P.L0 ≤ c.1.val)
    (hd : (c.2.val : ℤ) - M.P.CTR = M.P.CTR - c'.2.val)
    (h1 : 0 < c.2.val ∧ c.2.val + 1 < M.W) (h2 : 0 < c'.2.val ∧ c'.2.val + 1 < M.W) :
    M.P.cellType c = M.P.cellType c' := by
  rw [create_centre h] at hd
  obtain ⟨hA, D, hD, hs, e⟩ := create_ok h
  obtain ⟨s1, s2, s3, s4⟩ := create_size h
  have i1 := (C50_inlet_size hD).1
  have hP : M.P.cellType = cellTypes M.L M.W (centre M.W) M.P.L0 D.N0 := by
    rw [s4]; subst e; rfl
  have hL0 : M.P.L0 = D.L0 := by subst e; rfl
  have hL0' : 0 ≤ M.P.L0 := by omega
  rw [hP, sea_edge hL0' _ hsea, sea_edge hL0' _ (hr ▸ hsea)]
  have hf : farCells M.L M.W (centre M.W) c = farCells M.L M.W (centre M.W) c' := by
    unfold farCells
    simp only [hr, hd]
    rw [decide_eq_decide]
    have e1 : (centre (M.W : ℤ) - c'.2.val) * (centre (M.W : ℤ) - c'.2.val) =
      ((c'.2.val : ℤ) - centre M.W) * ((c'.2.val : ℤ) - centre M.W) := by ring
    rw [e1]
  rw [hf, hr]
  have a1 : c.2.val ≠ 0 := by omega
  have a2 : c.2.val + 1 ≠ M.W := by omega
  have a3 : c'.2.val ≠ 0 := by omega
  have a4 : c'.2.val + 1 ≠ M.W := by omega
  simp [a1, a2, a3, a4]

/-- C91: in every configuration that can be run, a created basin and the same basin built the other way
round are equally likely to end in any fields and in their mirror image, after any number of updates.
Partial: C91 claims that both are the same basin, see `C91_edges`. -/
theorem C91_twins_partial {O : Oracle K} (hO : OracleOk O) (hs : ∀ x y, O.nrm x (-y) = O.nrm x y)
    {I : Input K} (hI : Runnable I) :
    ∃ (L W m : ℕ) (_ : NeZero L) (_ : NeZero W) (P : Params L W m K) (S : State L W K),
      create O I = .ok ⟨L, W, m, P, S⟩ ∧ ∀ (n : ℕ) (Q : State L W K → Prop),
        ∃ p, Probability (EndsIn Q) (EndsIn fun S => ¬ Q S) (timesteps tape (List.replicate n P) S) p ∧
          Probability (EndsIn fun S => Q (mirrorState S)) (EndsIn fun S => ¬ Q (mirrorState S))
            (timesteps tape (List.replicate n (mirrorParams P)) (mirrorState S)) p := by
  obtain ⟨L, W, m, iL, iW, P, S, hc, hW, hD, -, hR, hd, hn, -⟩ := C74_created hO hI
  refine ⟨L, W, m, iL, iW, P, S, hc, ?_⟩
  intro n Q
  have hM : MirrorSetup P := by
    refine ⟨hW, ?_, ?_⟩
    · intro c h0
      have h1 := (C52_types hc c).2.1.2
      obtain ⟨hA, D, hD, hs, e⟩ := create_ok hc
      have i1 := (C50_inlet_size hD).1
      have e' : P.L0 = D.L0 := congrArg (fun M : Built K => M.P.L0) e
      simp only at h1
      have := h1 (by omega)
      omega
    · obtain ⟨hA, D, hD, hs', e⟩ := create_ok hc
      have e' : P.nrm = O.nrm := congrArg (fun M : Built K => M.P.nrm) e
      rw [e']
      exact hs
  have := C80_probability (Ps := List.replicate n P) (by
    intro P' hP'
    obtain rfl := List.eq_of_mem_replicate hP'
    exact ⟨hM, hD, hR.h0⟩) hd hn Q
  rwa [List.map_replicate] at this

/-! ## Non-trivial case: the default configuration -/

-- the default basin: 98 columns of land to the left of the inlet, 97 to the right of it, the centre column
-- to the left of the middle, and some sea
example : ∃ M, create exOracle exInput = .ok M ∧ M.W = 200 ∧ M.P.CTR = 99 ∧
    List.ofFn (fun k => (M.P.inlet k).val) = [98, 99, 100, 101, 102] ∧ (∃ c, M.P.cellType c = 0) := by
  obtain ⟨L, W, m, iL, iW, P, S, h, -⟩ := C74_created exOracleOk exRunnable
  obtain ⟨s1, s2, s3, s4⟩ := create_size h
  have e1 : cellsAlong exInput.Length exInput.dx = 100 := by decide +kernel
  have e2 : cellsAlong exInput.Width exInput.dx = 200 := by decide +kernel
  rw [e1] at s3
  rw [e2] at s4
  simp only at s3 s4
  obtain rfl : W = 200 := by omega
  obtain rfl : L = 100 := by omega
  obtain ⟨a, -, -, -, -, -, -, hm, -⟩ := C51_inlet_partial h (by simp only; omega)
  have e3 : roundHalfEven (exInput.N0m / exInput.dx) = 5 := by decide +kernel
  rw [e3] at hm
  have hm5 : m = 5 := by
    have := hm (by norm_num) (by norm_num)
    exact_mod_cast this
  have hc := C91_centre h (by norm_num)
  obtain ⟨l, r, q1, q2, q3⟩ := C91_inlet h (by norm_num)
  simp only at q1 q2 q3 hc
  subst hm5
  norm_num at q3 hc
  obtain rfl : l = 98 := by omega
  refine ⟨_, h, rfl, by simp only; omega, ?_, ?_⟩
  · simp only
    rw [q1]
    rfl
  · obtain ⟨N0, -, b2, -, -, e⟩ := create_layout h (by norm_num)
    simp only at e b2
    refine ⟨((⟨50, by norm_num⟩ : Fin 100), (⟨99, by norm_num⟩ : Fin 200)), ?_⟩
    have hL0 : 0 ≤ P.L0 := by
      have := (create_layout h (by norm_num)).choose_spec.1
      simp only at this
      omega
    simp only
    rw [e, sea_edge hL0 _ (by norm_num at b2 ⊢; omega)]
    have : farCells 100 200 (centre (200 : ℕ)) ((⟨50, by norm_num⟩ : Fin 100), (⟨99, by norm_num⟩ : Fin 200)) = false := by decide +kernel
    rw [this]
    decide

end Verif.Props
