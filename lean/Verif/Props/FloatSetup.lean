import Verif.Model.FloatSetup
import Verif.Props.FloatDefined
import Verif.Props.FloatBudget
import Verif.Props.Reals
import Mathlib.Data.Nat.Log

/-!
# C107: creating a model in rounded arithmetic
-/

set_option linter.unusedSectionVars false
set_option linter.unusedSimpArgs false

namespace Verif.Props

open Verif.Model Verif.Lemmas Verif.Spec

section setup

variable {K : Type} [Field K] [LinearOrder K] [IsStrictOrderedRing K] [FloorRing K]

/-! ## The grid -/

/-- Numbers of `p` binary digits are not rounded. -/
def Digits (R : Rounding K) (p : ℕ) : Prop := ∀ m e : ℤ, |m| ≤ 2 ^ p → R.fl (m * 2 ^ e) = m * 2 ^ e

lemma digits_exact (p : ℕ) : Digits (exact K) p := fun _ _ _ => rfl

lemma digits_binary (p : ℕ) (hp : 1 ≤ p) : Digits (binary K p hp) p := fun _ e h => nearest_exact hp h e

lemma Digits.int {R : Rounding K} {p : ℕ} (h : Digits R p) {m : ℤ} (hm : |m| ≤ 2 ^ p) :
    R.fl (m : K) = m := by
  have := h m 0 hm
  simpa using this

lemma Digits.half {R : Rounding K} {p : ℕ} (h : Digits R p) {m : ℤ} (hm : |m| ≤ 2 ^ p) :
    R.fl ((m : K) / 2) = m / 2 := by
  have := h m (-1) hm
  simpa [div_eq_mul_inv] using this

lemma Digits.one {R : Rounding K} {p : ℕ} (h : Digits R p) : R.fl 1 = 1 := by
  have := h.int (m := 1) (by rw [abs_one]; exact one_le_pow₀ (by norm_num))
  simpa using this

/-- Specification: the square root of a sum of two squares of integers is rounded correctly, that is, it
does not pass over a rounded number. -/
def RootsOk (R : Rounding K) (nrm : K → K → K) : Prop :=
  ∀ (a b : ℤ) (r : K), 0 ≤ r → R.fl r = r →
    (r * r ≤ (a * a + b * b : ℤ) → r ≤ R.fl (nrm a b)) ∧ (((a * a + b * b : ℤ) : K) ≤ r * r → R.fl (nrm a b) ≤ r)

/-- Exact roots that are rounded afterwards are rounded correctly. -/
lemma rootsOk_of_exact (R : Rounding K) {nrm : K → K → K} (h0 : ∀ x y, 0 ≤ nrm x y)
    (h : ∀ x y, nrm x y * nrm x y = x * x + y * y) : RootsOk R nrm := by
  intro a b r hr hf
  have e := h (a : K) b
  push_cast
  constructor
  · intro h1
    refine le_fl_of_le R hf ?_
    rw [← e] at h1
    exact abs_le_of_sq_le_sq' (by nlinarith) (h0 _ _) |>.2
  · intro h1
    refine fl_le_of_le R hf ?_
    rw [← e] at h1
    exact abs_le_of_sq_le_sq' (by nlinarith) hr |>.2

/-- A number of few digits just below half an integer. -/
lemma below_half {R : Rounding K} {p : ℕ} (hR : Digits R p) {r : ℤ} (hr : 0 < r) (hp : 4 * (r * r) ≤ 2 ^ p) :
    ∃ x : K, 0 ≤ x ∧ x < r / 2 ∧ R.fl x = x ∧ (r * r : K) / 4 - 1 / 4 ≤ x * x := by
  obtain ⟨n, rfl⟩ : ∃ n : ℕ, r = n := ⟨r.toNat, by omega⟩
  have hn : n ≠ 0 := by omega
  have h1 := Nat.lt_pow_succ_log_self (b := 2) (by norm_num) n
  have h2 := Nat.pow_log_le_self 2 hn
  set k := Nat.log 2 n
  have e : (2 : K) ^ (-((k : ℤ) + 3)) * 2 ^ (k + 3) = 1 := by
    rw [zpow_neg]
    have : (2 : K) ^ ((k : ℤ) + 3) = 2 ^ (k + 3) := by exact_mod_cast zpow_natCast (2 : K) (k + 3)
    rw [this, inv_mul_cancel₀ (by positivity)]
  set d : K := 2 ^ (-((k : ℤ) + 3)) with hd
  have hd0 : 0 < d := two_zpow_pos _
  have h1K : (n : K) + 1 ≤ 2 ^ (k + 1) := by exact_mod_cast h1
  have h2K : (2 : K) ^ k ≤ n := by exact_mod_cast h2
  have e3 : d * 2 ^ k = 1 / 8 := by
    rw [pow_add] at e
    linarith
  have hnd : (n : K) * d ≤ 1 / 4 := by
    have : (n : K) * d ≤ 2 ^ (k + 1) * d := mul_le_mul_of_nonneg_right (by linarith) hd0.le
    rw [pow_succ] at this
    linarith
  have hnd8 : 1 / 8 ≤ (n : K) * d := by
    have := mul_le_mul_of_nonneg_right h2K hd0.le
    linarith
  have hn1 : (1 : K) ≤ n := by exact_mod_cast Nat.one_le_iff_ne_zero.2 hn
  have hx : ((n * 2 ^ (k + 2) - 1 : ℤ) : K) * d = (n : K) / 2 - d := by
    push_cast
    have : (2 : K) ^ (k + 2) * d = 1 / 2 := by rw [pow_add]; linarith
    linear_combination (n : K) * this
  have hd8 : d ≤ 1 / 8 := by
    have : (1 : K) ≤ 2 ^ k := one_le_pow₀ (by norm_num)
    nlinarith
  refine ⟨(n : K) / 2 - d, by linarith, ?_, ?_, ?_⟩
  · push_cast; linarith
  · rw [← hx]
    refine hR _ _ ?_
    have h3 : (1 : ℤ) ≤ n * 2 ^ (k + 2) := by
      have : (0 : ℤ) < n * 2 ^ (k + 2) := by positivity
      omega
    rw [abs_of_nonneg (by linarith)]
    have h4 : (n : ℤ) * 2 ^ (k + 2) ≤ 4 * (n * n) := by
      have : (2 : ℤ) ^ k ≤ n := by exact_mod_cast h2
      rw [pow_add]
      nlinarith
    linarith
  · push_cast
    nlinarith [mul_pos hd0 hd0]

/-- Where the square root meets the threshold. -/
lemma far_iff {R : Rounding K} {p : ℕ} (hR : Digits R p) {nrm : K → K → K} (hn : RootsOk R nrm) {r : ℤ}
    (hp : 4 * (r * r) ≤ 2 ^ p) (a b : ℤ) :
    (r : K) / 2 ≤ R.fl (nrm a b) ↔ r ≤ 0 ∨ r * r ≤ 4 * (a * a + b * b) := by
  rcases le_or_gt r 0 with h0 | h0
  · refine ⟨fun _ => .inl h0, fun _ => ?_⟩
    have h1 := (hn a b 0 le_rfl (fl_zero R)).1
      (by rw [zero_mul]; exact_mod_cast (by nlinarith [mul_self_nonneg a, mul_self_nonneg b] :
        (0 : ℤ) ≤ a * a + b * b))
    have h2 : (r : K) ≤ 0 := by exact_mod_cast h0
    linarith
  · have hr : |r| ≤ 2 ^ p := by rw [abs_of_pos h0]; nlinarith
    have hK : (0 : K) < r := by exact_mod_cast h0
    constructor
    · intro h
      right
      by_contra hlt
      obtain ⟨x, x0, x1, x2, x3⟩ := below_half hR h0 hp
      have h1 : 4 * (a * a + b * b) + 1 ≤ r * r := by omega
      have h2 : (4 : K) * (a * a + b * b : ℤ) + 1 ≤ r * r := by exact_mod_cast h1
      have h3 := (hn a b x x0 x2).2 (by linarith)
      linarith
    · rintro (h | h)
      · omega
      · refine (hn a b _ (by linarith) (hR.half hr)).1 ?_
        have h2 : (r * r : K) ≤ 4 * (a * a + b * b : ℤ) := by exact_mod_cast h
        linarith

/-- C107: in a domain that is not enormous (for doubles, of fewer than 47 million columns) rounding does not move
the edge of the basin: the cells beyond the circle are those of exact arithmetic. -/
theorem farCellsR_eq {R : Rounding K} {p : ℕ} (hR : Digits R p) {nrm : K → K → K} (hn : RootsOk R nrm)
    {L W : ℕ} (hp : 4 * ((W : ℤ) * W) ≤ 2 ^ p) (CTR : ℤ) (c : Cell L W) :
    farCellsR L W CTR R nrm c = farCells L W CTR c := by
  have hW2 : |(W : ℤ)| ≤ 2 ^ p := by
    rw [abs_of_nonneg (by omega)]
    nlinarith [c.2.isLt]
  have hW1 : 0 < W := by have := c.2.isLt; omega
  unfold farCellsR farCells
  simp only
  have e1 : R.fl ((W : K) / 2) = (W : K) / 2 := by
    have := hR.half hW2
    simpa using this
  rw [e1]
  rcases lt_or_ge W 10 with h10 | h10
  · -- the right side is negative or small
    have hneg : R.fl ((W : K) / 2 - 5) ≤ 0 := fl_nonpos R (by
      have : (W : K) < 10 := by exact_mod_cast h10
      linarith)
    have h1 := (hn ((c.1.val : ℤ) - 3) ((c.2.val : ℤ) - CTR) 0 le_rfl (fl_zero R)).1
      (by rw [zero_mul]; exact_mod_cast (by nlinarith [mul_self_nonneg ((c.1.val : ℤ) - 3), mul_self_nonneg ((c.2.val : ℤ) - CTR)] :
        (0 : ℤ) ≤ ((c.1.val : ℤ) - 3) * ((c.1.val : ℤ) - 3) + ((c.2.val : ℤ) - CTR) * ((c.2.val : ℤ) - CTR)))
    rw [decide_eq_true, decide_eq_true]
    · left; omega
    · exact (min_le_right _ _).trans (hneg.trans h1)
  · have hle : |(W : ℤ) - 10| ≤ 2 ^ p := by
      rw [abs_of_nonneg (by omega)]
      rw [abs_of_nonneg (by omega)] at hW2
      omega
    have e2 : R.fl ((W : K) / 2 - 5) = ((W : ℤ) - 10 : ℤ) / 2 := by
      rw [← hR.half hle]
      congr 1
      push_cast
      ring
    have e3 : min (((L : ℤ) - 5 : ℤ) : K) (((W : ℤ) - 10 : ℤ) / 2) =
        ((min (2 * ((L : ℤ) - 5)) ((W : ℤ) - 10) : ℤ) : K) / 2 := by
      rcases le_total (2 * ((L : ℤ) - 5)) ((W : ℤ) - 10) with h | h
      · rw [min_eq_left h, min_eq_left]
        · push_cast; ring
        · have : (2 * ((L : ℤ) - 5 : ℤ) : K) ≤ ((W : ℤ) - 10 : ℤ) := by exact_mod_cast h
          linarith
      · rw [min_eq_right h, min_eq_right]
        have : (((W : ℤ) - 10 : ℤ) : K) ≤ 2 * ((L : ℤ) - 5 : ℤ) := by exact_mod_cast h
        linarith
    rw [e2, e3, decide_eq_decide]
    rcases le_or_gt (min (2 * ((L : ℤ) - 5)) ((W : ℤ) - 10)) 0 with h | h
    · have h1 := (hn ((c.1.val : ℤ) - 3) ((c.2.val : ℤ) - CTR) 0 le_rfl (fl_zero R)).1
        (by rw [zero_mul]; exact_mod_cast (by nlinarith [mul_self_nonneg ((c.1.val : ℤ) - 3), mul_self_nonneg ((c.2.val : ℤ) - CTR)] :
          (0 : ℤ) ≤ ((c.1.val : ℤ) - 3) * ((c.1.val : ℤ) - 3) + ((c.2.val : ℤ) - CTR) * ((c.2.val : ℤ) - CTR)))
      refine ⟨fun _ => .inl h, fun _ => le_trans ?_ h1⟩
      have : ((min (2 * ((L : ℤ) - 5)) ((W : ℤ) - 10) : ℤ) : K) ≤ 0 := by exact_mod_cast h
      linarith
    · refine far_iff hR hn ?_ _ _
      have h5 := min_le_right (2 * ((L : ℤ) - 5)) ((W : ℤ) - 10)
      set r := min (2 * ((L : ℤ) - 5)) ((W : ℤ) - 10)
      nlinarith

/-- C107: and so all cell types are those of exact arithmetic. -/
theorem C107_types {R : Rounding K} {p : ℕ} (hR : Digits R p) {nrm : K → K → K} (hn : RootsOk R nrm)
    {L W : ℕ} (hp : 4 * ((W : ℤ) * W) ≤ 2 ^ p) (CTR L0 N0 : ℤ) :
    cellTypesR L W CTR L0 N0 R nrm = cellTypes L W CTR L0 N0 := by
  have : farCellsR L W CTR R nrm = farCells L W CTR := funext fun c => farCellsR_eq hR hn hp CTR c
  unfold cellTypesR cellTypes
  rw [this]

/-! ## Without rounding -/

/-- Without rounding `boundaryConditionsR` is `boundaryConditions`. -/
lemma boundaryConditionsR_exact (I : Input K) (L W : ℤ) :
    boundaryConditionsR (exact K) I L W = boundaryConditions I L W := by
  unfold boundaryConditionsR boundaryConditions cellsAlongR
  simp only [exact, id, mul_self_eq_zero]
  rfl

/-- Without rounding, and with exact roots, `createR` is `create`. -/
theorem createR_exact {O : Oracle K} (h0 : ∀ x y, 0 ≤ O.nrm x y)
    (h : ∀ x y, O.nrm x y * O.nrm x y = x * x + y * y) (I : Input K) :
    createR (exact K) (exact K) O I = create O I := by
  have ht : ∀ (L W : ℕ) (CTR L0 N0 : ℤ),
      cellTypesR L W CTR L0 N0 (exact K) O.nrm = cellTypes L W CTR L0 N0 := by
    intro L W CTR L0 N0
    obtain ⟨p, hp⟩ : ∃ p : ℕ, 4 * ((W : ℤ) * W) ≤ 2 ^ p := by
      refine ⟨4 * (W * W), ?_⟩
      have := (Nat.lt_two_pow_self (n := 4 * (W * W))).le
      exact_mod_cast this
    exact C107_types (digits_exact p) (rootsOk_of_exact _ h0 h) hp CTR L0 N0
  have hp : ∀ {L W : ℕ} (CTR : ℤ) (ct : Grid L W ℤ) (B : Derived K),
      initialParamsR CTR (exact K) (exact K) ct O I B = initialParams CTR ct O I B := by
    intro L W CTR ct B
    have e1 : resolveActThickR (exact K) I = resolveActThick I := by
      unfold resolveActThickR resolveActThick
      cases I.actThick <;> rfl
    unfold initialParamsR initialParams
    rw [e1]
    rfl
  have hs : ∀ (L W : ℕ) (CTR : ℤ) (B : Derived K),
      initialStateR L W CTR (exact K) (exact K) O I B = initialState L W CTR O I B := fun _ _ _ _ => rfl
  have key : ∀ (L W : ℤ) (B : Derived K),
      (⟨L.toNat, W.toNat, (inletCols (cellTypesR L.toNat W.toNat (centre W) B.L0 B.N0 (exact K) O.nrm)).length,
        initialParamsR (centre W) (exact K) (exact K)
          (cellTypesR L.toNat W.toNat (centre W) B.L0 B.N0 (exact K) O.nrm) O I B,
        initialStateR L.toNat W.toNat (centre W) (exact K) (exact K) O I B⟩ : Built K) =
      ⟨L.toNat, W.toNat, (inletCols (cellTypes L.toNat W.toNat (centre W) B.L0 B.N0)).length,
        initialParams (centre W) (cellTypes L.toNat W.toNat (centre W) B.L0 B.N0) O I B,
        initialState L.toNat W.toNat (centre W) O I B⟩ := by
    intro L W B
    rw [ht, hp, hs]
  unfold createR create
  cases validate I with
  | error e => rfl
  | ok u =>
    simp only [boundaryConditionsR_exact]
    show (match boundaryConditions I (cellsAlong I.Length I.dx) (cellsAlong I.Width I.dx) with
      | .error e => _ | .ok B => _) = _
    cases boundaryConditions I (cellsAlong I.Length I.dx) (cellsAlong I.Width I.dx) with
    | error e => rfl
    | ok B =>
      simp only
      split_ifs
      · rfl
      · exact congrArg Except.ok (key _ _ B)

/-! ## Numbers of cells -/

/-- C107: the number of cells along a side is the quotient of length and cell size up to half a cell and the
rounding of the quotient. -/
theorem C107_cells (R : Rounding K) {len dx : K} (hdx : 0 < dx) (h : 0 ≤ len) :
    |(cellsAlongR R len dx : K) - len / dx| ≤ 1 / 2 + R.u * (len / dx) := by
  have h1 := round_near (R.fl (len / dx))
  have h2 := R.err (len / dx)
  rw [abs_of_nonneg (div_nonneg h hdx.le)] at h2
  have h3 := abs_add_le ((cellsAlongR R len dx : K) - R.fl (len / dx)) (R.fl (len / dx) - len / dx)
  rw [sub_add_sub_cancel] at h3
  unfold cellsAlongR at *
  linarith

/-- C107: unless the quotient is within its rounding of half a cell the number of cells is that of exact
arithmetic. -/
theorem C107_cells_same (R : Rounding K) {len dx : K} (hdx : 0 < dx) (h : 0 ≤ len)
    (hfar : ∀ n : ℤ, R.u * (len / dx) < |len / dx - (n + 1 / 2)|) :
    cellsAlongR R len dx = cellsAlong len dx := by
  have h2 := R.err (len / dx)
  rw [abs_of_nonneg (div_nonneg h hdx.le), abs_le] at h2
  set x := len / dx
  unfold cellsAlongR cellsAlong
  have h1 := round_near x
  rw [abs_le] at h1
  have a := hfar (roundHalfEven x)
  have b := hfar (roundHalfEven x - 1)
  push_cast at b
  have hu : 0 ≤ R.u * x := mul_nonneg R.u_nonneg (div_nonneg h hdx.le)
  rw [abs_of_nonpos (by linarith)] at a
  rw [abs_of_nonneg (by linarith)] at b
  have h3 := round_near (R.fl x)
  rw [abs_le] at h3
  have h4 : (roundHalfEven (R.fl x) : K) < roundHalfEven x + 1 := by linarith
  have h5 : (roundHalfEven x : K) < roundHalfEven (R.fl x) + 1 := by linarith
  have h6 : roundHalfEven (R.fl x) < roundHalfEven x + 1 := by exact_mod_cast h4
  have h7 : roundHalfEven x < roundHalfEven (R.fl x) + 1 := by exact_mod_cast h5
  exact le_antisymm (Int.lt_add_one_iff.1 h6) (Int.lt_add_one_iff.1 h7)

/-- C107: a length of a whole number of cells gives that number. -/
theorem C107_cells_whole {R : Rounding K} {p : ℕ} (hR : Digits R p) {dx : K} (hdx : 0 < dx) {n : ℤ}
    (hn : |n| ≤ 2 ^ p) : cellsAlongR R (n * dx) dx = n := by
  unfold cellsAlongR
  rw [mul_div_assoc, div_self hdx.ne', mul_one, hR.int hn, round_int]

/-! ## Derived quantities -/

/-- Specification: `y` is `x` up to `n` factors between `1 - u` and `1 / (1 - u)`. -/
structure CloseTo (u : K) (n : ℕ) (x y : K) : Prop where
  pos : 0 ≤ x
  low : (1 - u) ^ n * x ≤ y
  high : (1 - u) ^ n * y ≤ x

section close

variable {u : K}

lemma CloseTo.pos' (hu : u ≤ 1 / 2) {n : ℕ} {x y : K} (h : CloseTo u n x y) : 0 ≤ y :=
  le_trans (mul_nonneg (pow_nonneg (by linarith) _) h.pos) h.low

lemma CloseTo.refl {x : K} (hx : 0 ≤ x) : CloseTo u 0 x x := ⟨hx, by simp, by simp⟩

lemma CloseTo.rfl' (R : Rounding K) {n : ℕ} {x y : K} (h : CloseTo R.u n x y) :
    CloseTo R.u (n + 1) x (R.fl y) := by
  have hu := R.u_half
  have hu0 := R.u_nonneg
  have hy := h.pos' hu
  have hp : 0 ≤ (1 - R.u) ^ n := pow_nonneg (by linarith) _
  refine ⟨h.pos, ?_, ?_⟩
  · have h1 := fl_ge R hy
    have h2 : (1 - R.u) ^ n * x * (1 - R.u) ≤ y * (1 - R.u) :=
      mul_le_mul_of_nonneg_right h.low (by linarith)
    rw [pow_succ]
    linarith
  · have h1 := fl_le R hy
    have h2 : (1 - R.u) * R.fl y ≤ y := by
      have := mul_le_mul_of_nonneg_left h1 (by linarith : 0 ≤ 1 - R.u)
      nlinarith [mul_nonneg (mul_nonneg hu0 hu0) hy]
    have h3 : (1 - R.u) ^ n * ((1 - R.u) * R.fl y) ≤ (1 - R.u) ^ n * y := mul_le_mul_of_nonneg_left h2 hp
    rw [pow_succ]
    linarith [h.high]

lemma CloseTo.mul (hu : u ≤ 1 / 2) {n k : ℕ} {x y z w : K} (h : CloseTo u n x y) (h' : CloseTo u k z w) :
    CloseTo u (n + k) (x * z) (y * w) := by
  have hn : 0 ≤ (1 - u) ^ n := pow_nonneg (by linarith) _
  have hk : 0 ≤ (1 - u) ^ k := pow_nonneg (by linarith) _
  refine ⟨mul_nonneg h.pos h'.pos, ?_, ?_⟩
  · calc (1 - u) ^ (n + k) * (x * z) = ((1 - u) ^ n * x) * ((1 - u) ^ k * z) := by ring
      _ ≤ y * w := mul_le_mul h.low h'.low (mul_nonneg hk h'.pos) (h.pos' hu)
  · calc (1 - u) ^ (n + k) * (y * w) = ((1 - u) ^ n * y) * ((1 - u) ^ k * w) := by ring
      _ ≤ x * z := mul_le_mul h.high h'.high (mul_nonneg hk (h'.pos' hu)) h.pos

lemma CloseTo.div (hu : u ≤ 1 / 2) {n k : ℕ} {x y z w : K} (h : CloseTo u n x y) (h' : CloseTo u k z w)
    (hz : 0 < z) : CloseTo u (n + k) (x / z) (y / w) := by
  have hn : 0 ≤ (1 - u) ^ n := pow_nonneg (by linarith) _
  have hk : 0 < (1 - u) ^ k := pow_pos (by linarith) _
  have hw : 0 < w := lt_of_lt_of_le (mul_pos hk hz) h'.low
  refine ⟨div_nonneg h.pos hz.le, ?_, ?_⟩
  · rw [le_div_iff₀ hw, mul_div_assoc', div_mul_eq_mul_div, div_le_iff₀ hz]
    calc (1 - u) ^ (n + k) * x * w = ((1 - u) ^ n * x) * ((1 - u) ^ k * w) := by ring
      _ ≤ y * z := mul_le_mul h.low h'.high (mul_nonneg hk.le hw.le) (h.pos' hu)
  · rw [le_div_iff₀ hz, mul_div_assoc', div_mul_eq_mul_div, div_le_iff₀ hw]
    calc (1 - u) ^ (n + k) * y * z = ((1 - u) ^ n * y) * ((1 - u) ^ k * z) := by ring
      _ ≤ x * w := mul_le_mul h.high h'.low (mul_nonneg hk.le hz.le) h.pos

lemma CloseTo.symm (hu : u ≤ 1 / 2) {n : ℕ} {x y : K} (h : CloseTo u n x y) : CloseTo u n y x :=
  ⟨h.pos' hu, h.high, h.low⟩

lemma CloseTo.pos_iff (hu : u ≤ 1 / 2) {n : ℕ} {x y : K} (h : CloseTo u n x y) (hx : 0 < x) : 0 < y :=
  lt_of_lt_of_le (mul_pos (pow_pos (by linarith) _) hx) h.low

end close

/-- The equations that define the rounded quantities, and what is not zero. -/
structure BcFactsR (R : Rounding K) (I : Input K) (L W : ℤ) (B : Derived K) : Prop where
  u0 : R.fl (I.u0 * I.u0) ≠ 0
  Qs : B.Qs0 ≠ 0
  iter : I.itermax ≠ 0
  V : B.V0 ≠ 0
  Nc : B.Ncross ≠ 0
  eL0 : B.L0 = max 1 (min (cellsAlongR R I.L0m I.dx) (L / 4))
  eN0 : B.N0 = max 3 (min (cellsAlongR R I.N0m I.dx) (W / 4))
  euMax : B.uMax = R.fl (2 * I.u0)
  eC0 : B.C0 = R.fl (R.fl (I.C0pct * 1) / 100)
  edry : B.dryDepth = min (R.fl (1 / 10)) (R.fl (R.fl (1 / 10) * I.h0))
  egamma : B.gamma = R.fl (R.fl (R.fl (R.fl (981 / 100) * I.S0) * I.dx) / R.fl (I.u0 * I.u0))
  eV0 : B.V0 = R.fl (I.h0 * R.fl (I.dx * I.dx))
  eQw0 : B.Qw0 = R.fl (R.fl (R.fl (I.u0 * I.h0) * (B.N0 : K)) * I.dx)
  eqw0 : B.qw0 = R.fl (I.u0 * I.h0)
  eQp : B.QpWater = R.fl (B.Qw0 / (I.NpWater : K))
  eqs0 : B.qs0 = R.fl (B.qw0 * B.C0)
  edVs : B.dVs = R.fl (R.fl (R.fl (1 / 10) * R.fl ((B.N0 : K) * (B.N0 : K))) * B.V0)
  eQs0 : B.Qs0 = R.fl (B.Qw0 * B.C0)
  eVp : B.VpSed = R.fl (B.dVs / (I.NpSed : K))
  estepNone : I.stepmax = none → B.stepmax = 2 * (L + W)
  estepSome : ∀ x, I.stepmax = some x → B.stepmax = truncInt x
  esize : B.sizeInd = Int.tdiv B.stepmax 2
  edt : B.dt = R.fl (B.dVs / B.Qs0)
  eomega : B.omegaFlowIter = R.fl (2 / (I.itermax : K))
  eNcross : B.Ncross = roundHalfEven (R.fl (B.dVs / B.V0))
  elam : B.lam = I.sedLag
  ediff : B.diffMult =
    R.fl (R.fl (R.fl (R.fl (B.dt / (B.Ncross : K)) * I.alpha) * (1 / 2)) / R.fl (I.dx * I.dx))

lemma bcR_ok {R : Rounding K} {I : Input K} {L W : ℤ} {B : Derived K}
    (h : boundaryConditionsR R I L W = .ok B) : BcFactsR R I L W B := by
  unfold boundaryConditionsR at h
  simp only at h
  split_ifs at h with hz
  simp only [Except.ok.injEq] at h
  subst h
  push Not at hz
  obtain ⟨a, b, c, d, e⟩ := hz
  exact ⟨a, b, c, d, e, rfl, rfl, rfl, rfl, rfl, rfl, rfl, rfl, rfl, rfl, rfl, rfl, rfl, rfl,
    fun h => by rw [h], fun x h => by rw [h], rfl, rfl, rfl, rfl, rfl, rfl⟩

/-- The time step of C95 is that of the created model. -/
lemma bcR_dt {R : Rounding K} {I : Input K} {L W : ℤ} {B : Derived K}
    (h : boundaryConditionsR R I L W = .ok B) : B.dt = timeStepR R I B.N0 := by
  have b := bcR_ok h
  unfold timeStepR
  rw [b.edt, b.edVs, b.eQs0, b.eQw0, b.eC0, b.eV0]

lemma bcR_sizes {R : Rounding K} {I : Input K} {L W : ℤ} {B : Derived K}
    (h : boundaryConditionsR R I L W = .ok B) :
    1 ≤ B.L0 ∧ B.L0 ≤ max 1 (L / 4) ∧ 3 ≤ B.N0 ∧ B.N0 ≤ max 3 (W / 4) := by
  rw [(bcR_ok h).eL0, (bcR_ok h).eN0]
  refine ⟨by omega, by omega, by omega, by omega⟩

/-- C107: the derived quantities are those of the formulas up to a few roundings each: the discharge and the
volume of a parcel, the fluxes at the inlet, the time step, the limits; and the sediment parcels of a
timestep together are the supply of the timestep. -/
theorem C107_derived {R : Rounding K} {I : Input K} (hA : Accepted I) (hF : Flowing I) {L W : ℤ}
    {B : Derived K} (h : boundaryConditionsR R I L W = .ok B) :
    CloseTo R.u 1 (I.u0 * I.h0) B.qw0 ∧
    CloseTo R.u 3 (I.u0 * I.h0 * (B.N0 * I.dx)) B.Qw0 ∧
    CloseTo R.u 4 (I.u0 * I.h0 * (B.N0 * I.dx) / I.NpWater) B.QpWater ∧
    CloseTo R.u 4 (I.u0 * I.h0 * (I.C0pct / 100)) B.qs0 ∧
    CloseTo R.u 7 (B.N0 ^ 2 / 10 * (I.h0 * I.dx ^ 2) / I.NpSed) B.VpSed ∧
    CloseTo R.u 13 (10 * (B.N0 * I.dx) / (I.u0 * I.C0pct)) B.dt ∧
    CloseTo R.u 1 (2 * I.u0) B.uMax ∧ CloseTo R.u 1 (2 / I.itermax) B.omegaFlowIter ∧
    (0 ≤ I.S0 → CloseTo R.u 5 (981 / 100 * I.S0 * I.dx / I.u0 ^ 2) B.gamma) ∧
    (0 ≤ I.alpha → 0 < B.Ncross →
      CloseTo R.u 5 (B.dt / B.Ncross * I.alpha / 2 / I.dx ^ 2) B.diffMult) ∧
    CloseTo R.u 8 (I.u0 * I.h0 * (B.N0 * I.dx) * (I.C0pct / 100) * B.dt) (I.NpSed * B.VpSed) := by
  have b := bcR_ok h
  have hu := R.u_half
  have hN : (0 : K) < B.N0 := by
    have : (3 : K) ≤ B.N0 := by exact_mod_cast (bcR_sizes h).2.2.1
    linarith
  have hp : (0 : K) < I.NpWater := by exact_mod_cast hA.NpWater
  have hs : (0 : K) < I.NpSed := by exact_mod_cast hA.NpSed
  have hi : (0 : K) < I.itermax := by exact_mod_cast hF.itermax
  have hdx := hA.dx
  have hu0 := hF.u0
  have hh := hF.h0
  have hC := hF.C0
  have ref : ∀ {x : K}, 0 ≤ x → CloseTo R.u 0 x x := fun hx => CloseTo.refl hx
  have q1 : CloseTo R.u 1 (I.u0 * I.h0) B.qw0 := by
    rw [b.eqw0]
    exact (ref (by positivity)).rfl' R
  have q2 : CloseTo R.u 3 (I.u0 * I.h0 * (B.N0 * I.dx)) B.Qw0 := by
    rw [b.eQw0, ← mul_assoc, ← b.eqw0]
    exact (((q1.mul hu (ref hN.le)).rfl' R).mul hu (ref hdx.le)).rfl' R
  have q3 : CloseTo R.u 4 (I.u0 * I.h0 * (B.N0 * I.dx) / I.NpWater) B.QpWater := by
    rw [b.eQp]
    exact (q2.div hu (ref hp.le) hp).rfl' R
  have c0 : CloseTo R.u 2 (I.C0pct / 100) B.C0 := by
    rw [b.eC0]
    have := ((ref (x := I.C0pct * 1) (by linarith)).rfl' R).div hu (ref (x := (100 : K)) (by norm_num))
      (by norm_num)
    rw [mul_one] at this ⊢
    exact this.rfl' R
  have q4 : CloseTo R.u 4 (I.u0 * I.h0 * (I.C0pct / 100)) B.qs0 := by
    rw [b.eqs0]
    exact (q1.mul hu c0).rfl' R
  have v0 : CloseTo R.u 2 (I.h0 * I.dx ^ 2) B.V0 := by
    rw [b.eV0, sq]
    have := (ref hh.le).mul hu ((ref (x := I.dx * I.dx) (by positivity)).rfl' R)
    exact this.rfl' R
  have dv : CloseTo R.u 6 (B.N0 ^ 2 / 10 * (I.h0 * I.dx ^ 2)) B.dVs := by
    rw [b.edVs]
    have h1 := ((ref (x := (1 : K) / 10) (by norm_num)).rfl' R).mul hu
      ((ref (x := (B.N0 : K) * B.N0) (by positivity)).rfl' R)
    have h2 := ((h1.rfl' R).mul hu v0).rfl' R
    have e : (1 : K) / 10 * (B.N0 * B.N0) = B.N0 ^ 2 / 10 := by ring
    rw [e] at h2
    exact h2
  have qs : CloseTo R.u 6 (I.u0 * I.h0 * (B.N0 * I.dx) * (I.C0pct / 100)) B.Qs0 := by
    rw [b.eQs0]
    exact (q2.mul hu c0).rfl' R
  have hQ : 0 < I.u0 * I.h0 * (B.N0 * I.dx) * (I.C0pct / 100) := by positivity
  have dt : CloseTo R.u 13 (10 * (B.N0 * I.dx) / (I.u0 * I.C0pct)) B.dt := by
    rw [b.edt]
    have h1 := (dv.div hu qs hQ).rfl' R
    have e : (B.N0 : K) ^ 2 / 10 * (I.h0 * I.dx ^ 2) / (I.u0 * I.h0 * (B.N0 * I.dx) * (I.C0pct / 100)) =
        10 * (B.N0 * I.dx) / (I.u0 * I.C0pct) := by
      field_simp
      norm_num
    rw [e] at h1
    exact h1
  have vp : CloseTo R.u 7 (B.N0 ^ 2 / 10 * (I.h0 * I.dx ^ 2) / I.NpSed) B.VpSed := by
    rw [b.eVp]
    exact (dv.div hu (ref hs.le) hs).rfl' R
  refine ⟨q1, q2, q3, q4, vp, dt, ?_, ?_, fun hS => ?_, fun ha hN1 => ?_, ?_⟩
  · rw [b.euMax]
    exact (ref (by linarith)).rfl' R
  · rw [b.eomega]
    exact (ref (by positivity)).rfl' R
  · rw [b.egamma]
    have h1 := (((((ref (x := (981 : K) / 100) (by norm_num)).rfl' R).mul hu (ref hS)).rfl' R).mul hu
      (ref hdx.le)).rfl' R
    have h2 := (ref (x := I.u0 * I.u0) (by positivity)).rfl' R
    rw [sq]
    exact (h1.div hu h2 (by positivity)).rfl' R
  · rw [b.ediff]
    have hNc : (0 : K) < B.Ncross := by exact_mod_cast hN1
    have h1 := ((ref (dt.pos' hu)).div hu (ref hNc.le) hNc).rfl' R
    have h2 := ((((h1.mul hu (ref ha)).rfl' R).mul hu (ref (x := (1 : K) / 2) (by norm_num))).rfl' R).div hu
      ((ref (x := I.dx * I.dx) (by positivity)).rfl' R) (by positivity)
    have e : B.dt / B.Ncross * I.alpha / 2 / I.dx ^ 2 =
        B.dt / B.Ncross * I.alpha * (1 / 2) / (I.dx * I.dx) := by ring
    rw [e]
    exact h2.rfl' R
  · have hQs : 0 < B.Qs0 := qs.pos_iff hu hQ
    have hdV : 0 ≤ B.dVs := dv.pos' hu
    have h1 : CloseTo R.u 1 (B.dVs / I.NpSed) B.VpSed := by
      rw [b.eVp]
      exact (ref (div_nonneg hdV hs.le)).rfl' R
    have h2 : CloseTo R.u 1 B.dVs (I.NpSed * B.VpSed) := by
      have := (ref hs.le).mul hu h1
      rwa [mul_div_cancel₀ _ hs.ne', zero_add] at this
    have h3 : CloseTo R.u 1 (B.dVs / B.Qs0) B.dt := by
      rw [b.edt]
      exact (ref (div_nonneg hdV hQs.le)).rfl' R
    have h4 : CloseTo R.u 7 (I.u0 * I.h0 * (B.N0 * I.dx) * (I.C0pct / 100) * B.dt) B.dVs := by
      have := qs.mul hu (h3.symm hu)
      rwa [mul_div_cancel₀ _ hQs.ne'] at this
    exact {
      pos := h4.pos
      low := by
        have a := h4.low
        have c := h2.low
        have hp1 : 0 ≤ 1 - R.u := by linarith
        have := mul_le_mul_of_nonneg_left a hp1
        calc _ = (1 - R.u) * ((1 - R.u) ^ 7 *
              (I.u0 * I.h0 * (B.N0 * I.dx) * (I.C0pct / 100) * B.dt)) := by ring
          _ ≤ (1 - R.u) * B.dVs := this
          _ ≤ _ := by rw [pow_one] at c; exact c
      high := by
        have a := h4.high
        have c := h2.high
        have hp1 : 0 ≤ (1 - R.u) ^ 7 := pow_nonneg (by linarith) _
        have := mul_le_mul_of_nonneg_left c hp1
        calc _ = (1 - R.u) ^ 7 * ((1 - R.u) ^ 1 * (I.NpSed * B.VpSed)) := by ring
          _ ≤ (1 - R.u) ^ 7 * B.dVs := this
          _ ≤ _ := a }

/-! ## Created models -/

/-- The types in closed form. -/
lemma cellTypesR_eq (L W : ℕ) (CTR L0 N0 : ℤ) (R : Rounding K) (nrm : K → K → K) (c : Cell L W) :
    cellTypesR L W CTR L0 N0 R nrm c =
      if channelCells L W CTR L0 N0 c then 1
      else if landRows L W L0 c then -2
      else if c.1.val + 1 = L ∨ c.2.val = 0 ∨ c.2.val + 1 = W ∨ farCellsR L W CTR R nrm c then -1
      else 0 := by
  unfold cellTypesR cellType0 assign
  by_cases h1 : channelCells L W CTR L0 N0 c = true
  · simp [h1]
  · by_cases h2 : landRows L W L0 c = true
    · simp [h1, h2]
    · by_cases h3 : c.1.val + 1 = L <;> by_cases h4 : c.2.val = 0 <;> by_cases h5 : c.2.val + 1 = W <;>
        by_cases h6 : farCellsR L W CTR R nrm c = true <;> simp [h1, h2, h3, h4, h5, h6]

/-- The four types and where they are, whatever the rounding does to the circle. -/
lemma cellTypesR_cases {L W : ℕ} {L0 N0 : ℤ} (R : Rounding K) (nrm : K → K → K) (hL0 : 1 ≤ L0) (hW : 3 ≤ W)
    (h3 : 3 ≤ N0) (hN : N0 ≤ max 3 ((W : ℤ) / 4)) (c : Cell L W) :
    let t := cellTypesR L W (centre W) L0 N0 R nrm c
    (t = -2 ∨ t = 1 ∨ t = 0 ∨ t = -1) ∧
    (t = 1 ↔ (c.1.val : ℤ) < L0 ∧
      channelInds (centre W) N0 ≤ c.2.val ∧ (c.2.val : ℤ) < channelInds (centre W) N0 + N0) ∧
    (t = -2 ↔ (c.1.val : ℤ) < L0 ∧
      ¬ (channelInds (centre W) N0 ≤ c.2.val ∧ (c.2.val : ℤ) < channelInds (centre W) N0 + N0)) ∧
    (t = 0 → c.1.val + 1 < L ∧ 0 < c.2.val ∧ c.2.val + 1 < W) ∧
    (L0 ≤ c.1.val → c.1.val + 1 = L ∨ c.2.val = 0 ∨ c.2.val + 1 = W → t = -1) := by
  have a := channelCells_iff (L := L) (by omega : 0 ≤ L0) hW h3 hN c
  have b := landRows_iff (L := L) (W := W) (by omega : 0 ≤ L0) c
  have h1 := c.1.isLt
  have h2 := c.2.isLt
  simp only
  rw [cellTypesR_eq]
  by_cases hc : channelCells L W (centre W) L0 N0 c = true
  · rw [if_pos hc]
    have := a.1 hc
    refine ⟨by omega, by simpa using this, by simp; omega, by omega, by omega⟩
  · rw [if_neg hc]
    rw [a] at hc
    by_cases hl : landRows L W L0 c = true
    · rw [if_pos hl]
      have := b.1 hl
      refine ⟨by omega, by omega, by omega, by omega, by omega⟩
    · rw [if_neg hl]
      rw [b] at hl
      split_ifs with h
      · refine ⟨by omega, ⟨fun h' => by norm_num at h', fun h' => absurd h'.1 hl⟩,
          ⟨fun h' => by norm_num at h', fun h' => absurd h'.1 hl⟩, fun h' => by norm_num at h', fun _ _ => rfl⟩
      · push Not at h
        refine ⟨by omega, by omega, ⟨fun h' => by norm_num at h', fun h' => absurd h'.1 hl⟩,
          fun _ => by omega, fun _ h4 => by omega⟩

/-- The row of inlet columns. -/
lemma inletColsR_eq {L W : ℕ} {L0 N0 : ℤ} (R : Rounding K) (nrm : K → K → K) (hL : 1 ≤ L) (hL0 : 1 ≤ L0)
    (hW : 3 ≤ W) (h3 : 3 ≤ N0) (hN : N0 ≤ max 3 ((W : ℤ) / 4)) :
    (inletCols (cellTypesR L W (centre W) L0 N0 R nrm)).map Fin.val =
      List.range' (channelInds (centre W) N0).toNat N0.toNat := by
  rw [← inletCols_eq hL hL0 hW h3 hN]
  have e : inletCols (cellTypesR L W (centre W) L0 N0 R nrm) = inletCols (cellTypes L W (centre W) L0 N0) := by
    unfold inletCols
    congr 1
    funext j
    rw [decide_eq_decide]
    refine exists_congr fun i => ?_
    rw [(cellTypesR_cases R nrm hL0 hW h3 hN (i, j)).2.1, (cellTypes_cases hL0 hW h3 hN (i, j)).1]
  rw [e]

/-- The configurations that can be run in rounded arithmetic: as `Runnable`, where the numbers of cells and the
slope are as the program computes them. -/
structure RunnableR (R : Rounding K) (I : Input K) : Prop where
  accepted : Accepted I
  flowing : Flowing I
  hb : ∀ b, I.hb = some b → 0 ≤ b
  rows : 2 ≤ cellsAlongR R I.L0m I.dx
  L : 8 ≤ cellsAlongR R I.Length I.dx
  W : 5 ≤ cellsAlongR R I.Width I.dx
  slope0 : 0 ≤ I.S0
  slope1 : R.fl (R.fl (R.fl (981 / 100) * I.S0) * I.dx) ≤ R.fl (I.u0 * I.u0)
  steps : ∀ x, I.stepmax = some x → 4 ≤ x
  lag0 : 0 ≤ I.sedLag
  lag1 : I.sedLag ≤ 1
  eroSand : 0 < I.coeffUeroSand
  eroMud : 0 < I.coeffUeroMud
  depMud : 0 < I.coeffUdepMud
  theta : 0 ≤ I.thetaWater
  thetaSand : 0 ≤ I.coeffThetaSand
  thetaMud : 0 ≤ I.coeffThetaMud
  beta : 0 ≤ I.beta
  sand0 : 0 ≤ I.sandFracBc
  sand1 : I.sandFracBc ≤ 1

/-- With at most one part in 16 of rounding the number of diffusion passes is at least one. -/
lemma ncrossR_pos {R : Rounding K} (hu : R.u ≤ 1 / 16) {n : ℤ} (hn : 3 ≤ n) {v : K} (hv : 0 < v) :
    1 ≤ roundHalfEven (R.fl (R.fl (R.fl (R.fl (1 / 10) * R.fl ((n : K) * n)) * v) / v)) := by
  have hn3 : (3 : K) ≤ n := by exact_mod_cast hn
  have hh := R.u_half
  have ref : ∀ {x : K}, 0 ≤ x → CloseTo R.u 0 x x := fun hx => CloseTo.refl hx
  have h1 := ((((((ref (x := (1 : K) / 10) (by norm_num)).rfl' R).mul hh
    ((ref (x := (n : K) * n) (by positivity)).rfl' R)).rfl' R).mul hh (ref hv.le)).rfl' R).div hh
      (ref hv.le) hv
  have h2 := (h1.rfl' R).low
  rw [mul_div_assoc (1 / 10 * ((n : K) * n)), div_self hv.ne', mul_one] at h2
  refine round_mono_half (lt_of_lt_of_le ?_ h2)
  have h3 : ((15 : K) / 16) ^ 5 ≤ (1 - R.u) ^ (0 + 1 + (0 + 1) + 1 + 0 + 1 + 0 + 1) :=
    pow_le_pow_left₀ (by norm_num) (by linarith) 5
  have h4 : (9 : K) / 10 ≤ 1 / 10 * (n * n) := by nlinarith
  have h5 := mul_le_mul h3 h4 (by norm_num) (by positivity)
  push_cast
  norm_num at h5 ⊢
  linarith

/-- C107: a configuration that can be run gives a model in rounded arithmetic, of the expected size and with
the expected inlet; the layout and all settings are as the theorems about rounded runs ask for, and so are the
initial fields. -/
theorem C107_created {F D : Rounding K} (hu : D.u ≤ 1 / 16) (h1 : D.fl 1 = 1) {O : Oracle K}
    (hO : OracleOk O) {I : Input K} (hI : RunnableR D I) :
    ∃ (L W m : ℕ) (_ : NeZero L) (_ : NeZero W) (P : Params L W m K) (S : State L W K),
      createR F D O I = .ok ⟨L, W, m, P, S⟩ ∧
      (L : ℤ) = cellsAlongR D I.Length I.dx ∧ (W : ℤ) = cellsAlongR D I.Width I.dx ∧
      (m : ℤ) = max 3 (min (cellsAlongR D I.N0m I.dx) ((W : ℤ) / 4)) ∧
      P.dt = timeStepR D I m ∧
      WaterSetup P ∧ SedDomain P ∧ RangeSetup P ∧ DefinedSetup P ∧
      NonnegFlow S ∧ Stored F S ∧ 0 < S.ncols ∧ (∀ c, P.cellType c = -2 → P.sigma c = 0) := by
  have hA := hI.accepted
  have hF := hI.flowing
  have hdx := hA.dx
  have hu0 := hF.u0
  have hh := hF.h0
  have hC := hF.C0
  have hhalf := D.u_half
  -- the derived quantities
  have hex : ∃ B, boundaryConditionsR D I (cellsAlongR D I.Length I.dx) (cellsAlongR D I.Width I.dx) = .ok B := by
    unfold boundaryConditionsR
    simp only
    have hN : (3 : ℤ) ≤ max 3 (min (cellsAlongR D I.N0m I.dx) (cellsAlongR D I.Width I.dx / 4)) := le_max_left _ _
    set N0 := max 3 (min (cellsAlongR D I.N0m I.dx) (cellsAlongR D I.Width I.dx / 4))
    have hNK : (0 : K) < N0 := by
      have : (3 : K) ≤ N0 := by exact_mod_cast hN
      linarith
    have hV : 0 < D.fl (I.h0 * D.fl (I.dx * I.dx)) := fl_pos _ (mul_pos hh (fl_pos _ (mul_pos hdx hdx)))
    have hQ : 0 < D.fl (D.fl (D.fl (D.fl (I.u0 * I.h0) * (N0 : K)) * I.dx) * D.fl (D.fl (I.C0pct * 1) / 100)) := by
      refine fl_pos _ (mul_pos (fl_pos _ (mul_pos (fl_pos _ (mul_pos (fl_pos _ (mul_pos hu0 hh)) hNK)) hdx)) ?_)
      exact fl_pos _ (div_pos (fl_pos _ (by linarith)) (by norm_num))
    have hc := ncrossR_pos (R := D) hu hN hV
    rw [if_neg]
    · exact ⟨_, rfl⟩
    · push Not
      exact ⟨(fl_pos _ (mul_pos hu0 hu0)).ne', hQ.ne', hF.itermax.ne', hV.ne', by omega⟩
  obtain ⟨B, hB⟩ := hex
  have b := bcR_ok hB
  obtain ⟨i1, i2, i3, i4⟩ := bcR_sizes hB
  obtain ⟨d1, d2, d3, d4, d5, d6, d7, d8, d9, -, -⟩ := C107_derived hA hF hB
  have hNK : (0 : K) < B.N0 := by
    have : (3 : K) ≤ B.N0 := by exact_mod_cast i3
    linarith
  have hL8 := hI.L
  have hW5 := hI.W
  have hstep : 4 ≤ B.stepmax := by
    cases hs : I.stepmax with
    | none => rw [b.estepNone hs]; omega
    | some x =>
      rw [b.estepSome x hs]
      exact trunc_ge (by norm_num) (by exact_mod_cast hI.steps x hs)
  have hsize : 2 ≤ B.sizeInd := by rw [b.esize, Int.tdiv_eq_ediv_of_nonneg (by omega)]; omega
  -- the layout
  set Lz := cellsAlongR D I.Length I.dx with hLz
  set Wz := cellsAlongR D I.Width I.dx with hWz
  obtain ⟨L, hL⟩ : ∃ L : ℕ, Lz = L := ⟨Lz.toNat, by omega⟩
  obtain ⟨W, hW⟩ : ∃ W : ℕ, Wz = W := ⟨Wz.toNat, by omega⟩
  rw [hL] at i2 hL8
  rw [hW] at i4 hW5
  have hW3 : 3 ≤ W := by omega
  have hrows : 2 ≤ B.L0 := by
    have := hI.rows
    rw [b.eL0, hL]
    omega
  have hrows2 : B.L0 + 2 ≤ L := by omega
  set ct := cellTypesR L W (centre W) B.L0 B.N0 D O.nrm with hct
  have hcols := inletColsR_eq D O.nrm (L := L) (W := W) (by omega) (by omega : 1 ≤ B.L0) hW3 i3 i4
  rw [← hct] at hcols
  have hm : (inletCols ct).length = B.N0.toNat := by
    have := congrArg List.length hcols
    rwa [List.length_map, List.length_range'] at this
  have hcases := fun c => cellTypesR_cases (L := L) D O.nrm (by omega : 1 ≤ B.L0) hW3 i3 i4 c
  simp only [← hct] at hcases
  obtain ⟨b1, b2, b3, -⟩ := channel_bounds (W := (W : ℤ)) (by omega) i3 i4
  haveI iL : NeZero L := ⟨by omega⟩
  haveI iW : NeZero W := ⟨by omega⟩
  have hinlet : ∀ k, ct (0, (inletCols ct).get k) = 1 := by
    intro k
    have hmem := List.get_mem (inletCols ct) k
    simp only [inletCols, List.mem_filter, List.mem_finRange, true_and, decide_eq_true_eq] at hmem
    obtain ⟨i, hi⟩ := hmem
    have h2 := (hcases _).2.1.1 hi
    exact (hcases _).2.1.2 ⟨by simp; omega, h2.2⟩
  have hact : ∀ c : Cell L W, ct c ≠ -1 → ct c ≠ -2 → c.1.val + 1 < L ∧ 0 < c.2.val ∧ c.2.val + 1 < W := by
    intro c h1 h2
    rcases (hcases c).1 with h0 | h0 | h0 | h0
    · exact absurd h0 h2
    · have := (hcases c).2.1.1 h0
      have := b3 (by omega)
      omega
    · exact (hcases c).2.2.2.1 h0
    · exact absurd h0 h1
  have hlast : ∀ c : Cell L W, c.1.val + 1 = L → ct c = -1 := fun c hc =>
    (hcases c).2.2.2.2 (by omega) (.inl hc)
  have hthS : 0 ≤ D.fl (I.coeffThetaSand * I.thetaWater) := fl_nonneg _ (mul_nonneg hI.thetaSand hI.theta)
  have hthM : 0 ≤ D.fl (I.coeffThetaMud * I.thetaWater) := fl_nonneg _ (mul_nonneg hI.thetaMud hI.theta)
  have hs2 : 0 < F.fl (D.fl O.s2) := fl_pos _ (fl_pos _ hO.s2)
  have hdt : 0 < B.dt := d6.pos_iff hhalf (by positivity)
  have hdry : 0 ≤ B.dryDepth := by
    rw [b.edry]
    exact le_min (fl_nonneg _ (by norm_num)) (fl_nonneg _ (mul_nonneg (fl_nonneg _ (by norm_num)) hh.le))
  have hqw : 0 ≤ B.qw0 := d1.pos' hhalf
  have huM : 0 ≤ B.uMax := d7.pos' hhalf
  set P := initialParamsR (centre W) F D ct O I B with hP
  set S := initialStateR L W (centre W) F D O I B with hS
  have hcreate : createR F D O I = .ok ⟨L, W, (inletCols ct).length, P, S⟩ := by
    unfold createR
    rw [(C50_validate I).2 hA]
    simp only [← hLz, ← hWz, hB]
    rw [if_neg (by omega)]
    have key : ∀ a b : ℤ, a = L → b = W →
        (Except.ok ⟨a.toNat, b.toNat, _, initialParamsR (centre b) F D
          (cellTypesR a.toNat b.toNat (centre b) B.L0 B.N0 D O.nrm) O I B,
          initialStateR a.toNat b.toNat (centre b) F D O I B⟩ : Except SetupErr (Built K)) =
          .ok ⟨L, W, (inletCols ct).length, P, S⟩ := by
      rintro _ _ rfl rfl
      rfl
    exact key _ _ hL hW
  have hsed : SedSetup P := {
    dx := hdx
    dt := hdt
    vp := d5.pos' hhalf
    mod := fun _ => zero_le_one
    lam0 := by show 0 ≤ B.lam; rw [b.elam]; exact hI.lag0
    lam1 := by show B.lam ≤ 1; rw [b.elam]; exact hI.lag1
    pwNonneg := fun x hx => hO.powNonneg _ _ hI.beta hx
    pwPos := fun x hx => hO.powPos _ _ hI.beta hx
    pwMono := fun x y hx hxy => hO.powMono _ _ _ hI.beta hx hxy
    eroSand := fl_pos _ (mul_pos hI.eroSand hu0)
    eroMud := fl_pos _ (mul_pos hI.eroMud hu0)
    depMud := fl_pos _ (mul_pos hI.depMud hu0)
    uMax := huM
    s2 := hs2 }
  have hwater : WaterSetup P := {
    hL0 := hrows
    hL := hrows2
    hW := hW3
    active := hact
    last := hlast
    land := by
      intro c hc h2
      have := (hcases c).2.2.1.1 h2
      have h3 : B.L0 ≤ c.1.val := hc
      omega
    nrm := hO.nrmZero
    mod := fun _ => zero_le_one
    pw := fun x hx => hO.powNonneg _ _ hI.theta hx
    gamma0 := (d9 hI.slope0).pos' hhalf
    gamma1 := by
      show B.gamma ≤ 1
      rw [b.egamma]
      refine fl_le_of_le D h1 ?_
      rw [div_le_one (fl_pos _ (mul_pos hu0 hu0))]
      exact hI.slope1
    steps := by show 4 ≤ B.stepmax.toNat; omega
    hm := by omega
    inlet := by
      intro k
      have : P.cellType (0, P.inlet k) = 1 := hinlet k
      rw [this]
      norm_num }
  have hdom : SedDomain P := {
    hL := by omega
    active := fun c h => hact c h.1 h.2
    last := hlast
    below := by
      intro c n hc hn1 hn2 h2
      obtain ⟨t0, t1, t2, t3, t4⟩ := hcases c
      have hn := (hcases n).2.2.1.1 h2
      rw [hn2] at hn
      have hc1 : ct c ≠ -1 := hc.1
      have hc2 : ct c ≠ -2 := hc.2
      rcases t0 with h0 | h0 | h0 | h0
      · exact hc2 h0
      · exact hn.2 (t1.1 h0).2
      · have h5 : (c.1.val : ℤ) < B.L0 := by omega
        rcases Classical.em (channelInds (centre W) B.N0 ≤ c.2.val ∧
          (c.2.val : ℤ) < channelInds (centre W) B.N0 + B.N0) with h6 | h6
        · exact hn.2 h6
        · have := t2.2 ⟨h5, h6⟩
          exact hc2 this
      · exact hc1 h0
    inlet := by
      intro k
      have : P.cellType (0, P.inlet k) = 1 := hinlet k
      unfold ActiveCell
      rw [this]
      norm_num
    hm := by omega
    steps := by show 1 ≤ B.stepmax.toNat; omega
    s2 := hs2
    pw := by
      intro k x hx
      cases k
      · exact hO.powNonneg _ _ hthS hx
      · exact hO.powNonneg _ _ hthM hx
    mod := fun _ => zero_le_one }
  have hdef : DefinedSetup P := {
    dx := hdx.ne'
    dt := hdt.ne'
    s2 := hs2.ne'
    dry := hdry
    uMax := huM
    qw0 := hqw
    h0 := hh.le
    nrm := hO.nrm
    modWater := fun _ => zero_le_one
    modSed := fun _ => zero_le_one
    u0 := hu0
    eroSand := hsed.eroSand
    eroMud := hsed.eroMud
    depMud := hsed.depMud
    pw := fun x hx => (hsed.pwPos x hx).ne'
    hm := by omega }
  have hhb : 0 ≤ resolveHb I := by
    unfold resolveHb
    cases hb : I.hb with
    | none => exact hh.le
    | some x =>
      simp only
      split_ifs
      · exact hh.le
      · exact hI.hb x hb
  have hd : ∀ c, 0 ≤ S.depth c := by
    intro c
    simp only [hS, initialStateR, assign]
    split_ifs
    · exact fl_nonneg _ hh.le
    · exact fl_nonneg _ hhb
    · exact le_rfl
  have hq : ∀ c, 0 ≤ S.qw c := fun c => fl_nonneg _ (hO.nrm _ _)
  have hstored : Stored F S := by
    refine ⟨fun c => F.idem _, fun c => ?_, fun c => ?_, fun c => ?_, fun c => fl_zero F, fun c => F.idem _,
      fun c => ?_, fun c => ?_, fun c => ?_⟩ <;>
    · simp only [hS, initialStateR, assign]
      split_ifs <;> first | exact fl_zero F | exact F.idem _
  refine ⟨L, W, (inletCols ct).length, iL, iW, P, S, hcreate, by omega, by omega, ?_, ?_, hwater, hdom,
    ⟨hsed, hdry, hqw, hO.nrm, ?_, hh.le⟩, hdef, ⟨hd, ?_, hq⟩, hstored, ?_, ?_⟩
  · have := b.eN0
    rw [hW] at this
    rw [← this]
    omega
  · show B.dt = _
    rw [bcR_dt hB]
    congr 1
    omega
  · show 0 < I.itermax.toNat
    have := hF.itermax
    omega
  · intro c
    change (0 : K) ≤ if (decide (0 < S.depth c)) = true then F.fl (S.qw c / S.depth c) else 0
    split_ifs
    · exact fl_nonneg _ (div_nonneg (hq c) (hd c))
    · exact le_rfl
  · show 0 < B.sizeInd.toNat
    omega
  · intro c hc
    have h2 := (hcases c).2.2.1.1 hc
    show initialSigmaR L W D I B c = 0
    unfold initialSigmaR
    split_ifs with ht
    · simp only [assign, (landRows_iff (by omega : 0 ≤ B.L0) c).2 h2.1, if_true]
      rw [zero_mul, fl_zero, zero_mul, fl_zero]
    · rfl

lemma createR_ok {F D : Rounding K} {O : Oracle K} {I : Input K} {M : Built K} (h : createR F D O I = .ok M) :
    Accepted I ∧ ∃ B, boundaryConditionsR D I (cellsAlongR D I.Length I.dx) (cellsAlongR D I.Width I.dx) = .ok B ∧
      M =
      ⟨(cellsAlongR D I.Length I.dx).toNat, (cellsAlongR D I.Width I.dx).toNat,
        (inletCols (cellTypesR (cellsAlongR D I.Length I.dx).toNat (cellsAlongR D I.Width I.dx).toNat
          (centre (cellsAlongR D I.Width I.dx)) B.L0 B.N0 D O.nrm)).length,
        initialParamsR (centre (cellsAlongR D I.Width I.dx)) F D
          (cellTypesR (cellsAlongR D I.Length I.dx).toNat (cellsAlongR D I.Width I.dx).toNat
          (centre (cellsAlongR D I.Width I.dx)) B.L0 B.N0 D O.nrm) O I B,
        initialStateR (cellsAlongR D I.Length I.dx).toNat (cellsAlongR D I.Width I.dx).toNat
          (centre (cellsAlongR D I.Width I.dx)) F D O I B⟩ := by
  unfold createR at h
  cases hv : validate I with
  | error e => rw [hv] at h; simp at h
  | ok u =>
    rw [hv] at h
    simp only at h
    refine ⟨(C50_validate I).1 hv, ?_⟩
    cases hb : boundaryConditionsR D I (cellsAlongR D I.Length I.dx) (cellsAlongR D I.Width I.dx) with
    | error e => rw [hb] at h; simp at h
    | ok B =>
      rw [hb] at h
      simp only at h
      split_ifs at h
      exact ⟨B, rfl, by cases h; rfl⟩

/-- C107: the initial fields of every cell, as in C53, in the arithmetic of the program: bed, stage, depth and
discharge by type; velocity is discharge over depth where there is water. -/
theorem C107_initial {F D : Rounding K} {O : Oracle K} {I : Input K} {M : Built K} (h : createR F D O I = .ok M)
    (c : Cell M.L M.W) :
    M.S.eta c = F.fl (M.S.stage c - M.S.depth c) ∧
    (M.P.cellType c = 1 → M.S.depth c = F.fl I.h0 ∧ M.S.qx c = F.fl (D.fl (I.u0 * I.h0))) ∧
    (M.P.cellType c = -2 → M.S.depth c = 0 ∧ M.S.qx c = 0) ∧
    (M.P.L0 ≤ c.1.val → M.S.stage c = 0 ∧ M.S.qx c = F.fl (D.fl (D.fl (I.u0 * I.h0) / 5)) ∧
      (I.hb = none → M.S.depth c = F.fl I.h0) ∧ ∀ b, I.hb = some b → b ≠ 0 → M.S.depth c = F.fl b) ∧
    ((c.1.val : ℤ) < M.P.L0 →
      M.S.stage c = F.fl (D.fl (D.fl (((M.P.L0 - 1 - c.1.val : ℤ) : K) * I.dx) * I.S0))) ∧
    M.S.qy c = 0 ∧ M.S.qw c = F.fl (O.nrm (M.S.qx c) 0) ∧
    (0 < M.S.depth c → M.S.ux c = F.fl (M.S.qx c / M.S.depth c) ∧ M.S.uy c = 0 ∧
      M.S.uw c = F.fl (M.S.qw c / M.S.depth c)) ∧
    (M.S.depth c ≤ 0 → M.S.ux c = 0 ∧ M.S.uy c = 0 ∧ M.S.uw c = 0) ∧
    M.S.sandFrac c = F.fl I.sandFracBc ∧ M.S.activeLayer c = F.fl I.sandFracBc := by
  obtain ⟨hA, B, hB, e⟩ := createR_ok h
  have b := bcR_ok hB
  have i1 := (bcR_sizes hB).1
  subst e
  simp only at c
  have hl := landRows_iff (by omega : 0 ≤ B.L0) c
  have hcl : channelCells _ _ (centre (cellsAlongR D I.Width I.dx)) B.L0 B.N0 c = true →
      landRows _ _ B.L0 c = true := by
    unfold channelCells
    rw [Bool.and_eq_true]
    exact fun h => h.1
  have hfinal := cellTypesR_eq _ _ (centre (cellsAlongR D I.Width I.dx)) B.L0 B.N0 D O.nrm c
  have hinit := cellType0_eq _ _ (centre (cellsAlongR D I.Width I.dx)) B.L0 B.N0 c
  simp only [initialParamsR, initialStateR, assign, decide_eq_true_eq, Bool.decide_eq_true, zero_add, F.idem,
    zero_div, fl_zero, ite_self]
  have hstage : (c.1.val : ℤ) < B.L0 → ((max 0 (B.L0 - c.1.val - 1) : ℤ) : K) * I.dx =
      ((B.L0 - 1 - c.1.val : ℤ) : K) * I.dx := by
    intro hr
    rw [max_eq_right (by omega)]
    congr 2
    ring
  have hvel : ∀ q d : K, (0 < d → (if 0 < d then F.fl (q / d) else 0) = F.fl (q / d)) ∧
      (d ≤ 0 → (if 0 < d then F.fl (q / d) else 0) = 0) :=
    fun q d => ⟨fun h => if_pos h, fun h => if_neg (not_lt.2 h)⟩
  by_cases h1 : channelCells _ _ (centre (cellsAlongR D I.Width I.dx)) B.L0 B.N0 c = true
  · rw [if_pos h1] at hfinal hinit
    have hr := hl.1 (hcl h1)
    simp only [hfinal, hinit, one_ne_zero, if_false, if_true, forall_const, b.eqw0]
    refine ⟨trivial, ⟨trivial, trivial⟩, by norm_num, by omega, fun hr => by rw [hstage hr], trivial, trivial,
      fun hd => ⟨(hvel _ _).1 hd, trivial, (hvel _ _).1 hd⟩, fun hd => ⟨(hvel _ _).2 hd, trivial, (hvel _ _).2 hd⟩,
      trivial, trivial⟩
  · rw [if_neg h1] at hfinal hinit
    by_cases h2 : landRows _ _ B.L0 c = true
    · rw [if_pos h2] at hfinal hinit
      have hr := hl.1 h2
      have n1 : (-2 : ℤ) ≠ 0 := by norm_num
      have n2 : (-2 : ℤ) ≠ 1 := by norm_num
      simp only [hfinal, hinit, n1, n2, if_false, if_true, forall_const]
      refine ⟨trivial, fun h => absurd h id, ⟨trivial, trivial⟩, by omega, fun hr => by rw [hstage hr], trivial, trivial,
        fun hd => ⟨(hvel _ _).1 hd, trivial, (hvel _ _).1 hd⟩,
        fun hd => ⟨(hvel _ _).2 hd, trivial, (hvel _ _).2 hd⟩, trivial, trivial⟩
    · rw [if_neg h2] at hfinal hinit
      have hr : B.L0 ≤ c.1.val := by rw [hl] at h2; omega
      have h3 : cellTypesR (cellsAlongR D I.Length I.dx).toNat (cellsAlongR D I.Width I.dx).toNat
        (centre (cellsAlongR D I.Width I.dx)) B.L0 B.N0 D O.nrm c ≠ 1 := by rw [hfinal]; split_ifs <;> norm_num
      have h4 : cellTypesR (cellsAlongR D I.Length I.dx).toNat (cellsAlongR D I.Width I.dx).toNat
        (centre (cellsAlongR D I.Width I.dx)) B.L0 B.N0 D O.nrm c ≠ -2 := by rw [hfinal]; split_ifs <;> norm_num
      simp only [hinit, h3, h4, zero_ne_one, if_false, if_true, b.eqw0, forall_const]
      refine ⟨trivial, fun h => absurd h id, fun h => absurd h id, fun _ => ⟨trivial, trivial, ?_, ?_⟩,
        fun h => absurd h (by omega), trivial, trivial,
        fun hd => ⟨(hvel _ _).1 hd, trivial, (hvel _ _).1 hd⟩,
        fun hd => ⟨(hvel _ _).2 hd, trivial, (hvel _ _).2 hd⟩, trivial, trivial⟩
      · exact fun hb => by rw [(resolveHb_cases I).1 hb]
      · exact fun x hb h0 => by rw [(resolveHb_cases I).2 x hb h0]

lemma timestepsR_last {L W m : ℕ} [NeZero L] [NeZero W] {σ : Type} {F D : Rounding K} {g : Rng K σ}
    {P : Params L W m K} :
    ∀ {n : ℕ} {S S' : State L W K} {s s' : σ} {ls : List (StepLog L W K)},
    timestepsR F D g (List.replicate (n + 1) P) S s = .ok (S', ls, s') →
    ∃ S1 ls1 s1 l, timestepsR F D g (List.replicate n P) S s = .ok (S1, ls1, s1) ∧
      timestepR F D g P S1 s1 = .ok (S', l, s') := by
  intro n
  induction n with
  | zero =>
    intro S S' s s' ls h
    obtain ⟨S1, l, s1, ls1, h1, h2, rfl⟩ := timestepsR_cons h
    cases h2
    exact ⟨S, [], s, l, rfl, h1⟩
  | succ n ih =>
    intro S S' s s' ls h
    rw [List.replicate_succ] at h
    obtain ⟨S1, l, s1, ls1, h1, h2, rfl⟩ := timestepsR_cons h
    obtain ⟨S2, ls2, s2, l2, h3, h4⟩ := ih h2
    exact ⟨S2, l :: ls2, s2, l2, by rw [List.replicate_succ]; simp only [timestepsR, h1, h3], h4⟩

/-- C107: a configuration that can be run, in the arithmetic of the program from the configuration on: the model
is created, and its runs never abort, for any number of timesteps and all draws in (0, 1]; every operation
is defined (as in C106); the clock and the sea level are sums of the time step and the rise per timestep, rounded each time; land keeps its
bed; depths are not negative, sand fractions are fractions, the fields hold numbers of their precision; the fields are as in C101, and the inlet
has its depth and its discharge. -/
theorem C107_run {σ : Type} {F D : Rounding K} (hFD : Within F D) (hu : D.u ≤ 1 / 16) (hF1 : F.fl 1 = 1)
    (h1 : D.fl 1 = 1) {O : Oracle K} (hO : OracleOk O) {I : Input K} (hI : RunnableR D I) {g : Rng K σ}
    (hg : PositiveDraws g) :
    ∃ (L W m : ℕ) (_ : NeZero L) (_ : NeZero W) (P : Params L W m K) (S : State L W K),
      createR F D O I = .ok ⟨L, W, m, P, S⟩ ∧ 0 < P.dt ∧ P.dt = timeStepR D I m ∧
      ∀ (n : ℕ) (s : σ), ∃ S' ls s', timestepsR F D g (List.replicate n P) S s = .ok (S', ls, s') ∧
        timestepsRD F D g (List.replicate n P) S s = .ok (S', ls, s') ∧ ls.length = n ∧
        S'.time = ticks D P.dt 0 n ∧ S'.HSL = ticks D (D.fl (I.SLR * P.dt)) I.HSL n ∧
        (∀ c, P.cellType c = -2 → S'.eta c = S.eta c) ∧
        (∀ c, 0 ≤ S'.depth c) ∧ (∀ c, 0 ≤ S'.sandFrac c ∧ S'.sandFrac c ≤ 1) ∧ Stored F S' ∧
        (0 < n → EndFloat F P (ticks D (D.fl (I.SLR * P.dt)) I.HSL (n - 1)) S') ∧
        (0 < n → ∀ k, S'.depth (0, P.inlet k) = F.fl I.h0 ∧
          S'.qx (0, P.inlet k) = F.fl (D.fl (I.u0 * I.h0)) ∧ S'.qy (0, P.inlet k) = 0) := by
  obtain ⟨L, W, m, iL, iW, P, S, hc, hL, hW, -, hdt, hWat, hSed, hRan, hDef, hN, hSt, hn, hsig⟩ :=
    C107_created (F := F) hu h1 hO hI
  refine ⟨L, W, m, iL, iW, P, S, hc, hRan.sed.dt, hdt, ?_⟩
  have hL8 := hI.L
  have hW5 := hI.W
  have hfix : P.h0 = I.h0 ∧ P.SLR = I.SLR ∧ P.qw0 = D.fl (I.u0 * I.h0) ∧
      S.time = 0 ∧ S.HSL = I.HSL ∧ P.sandFracBc = I.sandFracBc := by
    obtain ⟨-, B, hB, e⟩ := createR_ok hc
    cases e
    have b := bcR_ok hB
    exact ⟨rfl, rfl, b.eqw0, rfl, rfl, rfl⟩
  obtain ⟨e1, e2, e3, e4, e5, e6⟩ := hfix
  have hfr : ∀ c, S.sandFrac c = F.fl I.sandFracBc ∧ S.activeLayer c = F.fl I.sandFracBc := by
    intro c
    obtain ⟨-, -, -, -, -, -, -, -, -, h9, h10⟩ := C107_initial hc c
    exact ⟨h9, h10⟩
  have hfr' : 0 ≤ F.fl I.sandFracBc ∧ F.fl I.sandFracBc ≤ 1 := ⟨fl_nonneg _ hI.sand0, fl_le_of_le F hF1 hI.sand1⟩
  intro n s
  obtain ⟨S', ls, s', h, hlen⟩ := C101_run hFD hg (Ps := List.replicate n P)
    (fun Q hQ => by rw [List.eq_of_mem_replicate hQ]; exact ⟨hWat, hSed, hRan.h0⟩) hN.depth hn s
  rw [List.length_replicate] at hlen
  have hck := C101_clock h
  have hdef : ∀ Q ∈ List.replicate n P, DefinedSetup Q := fun Q hQ => by
    rw [List.eq_of_mem_replicate hQ]; exact hDef
  have hnn := C106_nonneg hdef hN h
  have hstored : Stored F S' := by
    refine (timestepsR_inv (A := fun Q => Q = P) (I := Stored F) (J := fun _ => True) ?_ h
      (fun Q hQ => List.eq_of_mem_replicate hQ) hSt).1
    intro Q T s T' l s' hQ hT ht
    exact ⟨(C101_stored (by omega) (by omega) hT ht).2.2, trivial⟩
  refine ⟨S', ls, s', h, ?_, hlen, ?_, ?_, ?_, hnn.depth, ?_, hstored, ?_, ?_⟩
  · rw [C106_run F D g hdef hN s, h]
    rfl
  · rw [hck.1, e4]
  · rw [hck.2.1, e5, e2]
  · intro c hcl
    exact C101_land hFD hg (fun Q hQ => by
      rw [List.eq_of_mem_replicate hQ]; exact ⟨hWat, hSed, hRan.h0, hcl, hsig c hcl⟩) hN.depth hn (hSt.1 c) h
  · intro c
    refine (C101_fractions hF1 (fun Q hQ => ?_) h (fun c => ?_) c).1
    · rw [List.eq_of_mem_replicate hQ, e6]
      exact ⟨hI.sand0, hI.sand1⟩
    · rw [(hfr c).1, (hfr c).2]
      exact ⟨hfr', hfr'⟩
  · intro hpos
    obtain ⟨k, rfl⟩ : ∃ k, n = k + 1 := ⟨n - 1, by omega⟩
    obtain ⟨S1, ls1, s1, l, a1, a2⟩ := timestepsR_last h
    have := C101_fields hRan.h0 a2
    rw [(C101_clock a1).2.1, e5, e2] at this
    exact this
  · intro hpos k
    obtain ⟨q, rfl⟩ : ∃ k, n = k + 1 := ⟨n - 1, by omega⟩
    obtain ⟨S1, ls1, s1, l, a1, a2⟩ := timestepsR_last h
    obtain ⟨r, -⟩ := step_resultR a2
    have hin : InletCell P (0, P.inlet k) := ⟨rfl, k, rfl⟩
    obtain ⟨t1, hw, -⟩ := timestepR_ok a2
    have hwf := C100_fields hRan.sed.uMax hRan.dry hRan.iter hw
    have hi := hwf.inlet _ hin
    refine ⟨by rw [r.inletDepth _ hin, e1], ?_, ?_⟩
    · rw [r.flow.1, hi.1, e3]
    · rw [r.flow.2.1, hi.2.1]

/-! ## Diffusion passes -/

lemma round_stable {x y : K} (hfar : ∀ n : ℤ, |y - x| < |x - (n + 1 / 2)|) :
    roundHalfEven y = roundHalfEven x := by
  have h1 := round_near x
  rw [abs_le] at h1
  have a := hfar (roundHalfEven x)
  have b := hfar (roundHalfEven x - 1)
  push_cast at b
  have hu : 0 ≤ |y - x| := abs_nonneg _
  have h8 := le_abs_self (y - x)
  have h9 := neg_abs_le (y - x)
  rw [abs_of_nonpos (a := x - _) (by linarith)] at a
  rw [abs_of_nonneg (a := x - _) (by linarith)] at b
  have h3 := round_near y
  rw [abs_le] at h3
  have h4 : (roundHalfEven y : K) < roundHalfEven x + 1 := by linarith
  have h5 : (roundHalfEven x : K) < roundHalfEven y + 1 := by linarith
  have h6 : roundHalfEven y < roundHalfEven x + 1 := by exact_mod_cast h4
  have h7 : roundHalfEven x < roundHalfEven y + 1 := by exact_mod_cast h5
  exact le_antisymm (Int.lt_add_one_iff.1 h6) (Int.lt_add_one_iff.1 h7)

lemma CloseTo.near {u : K} (hu0 : 0 ≤ u) (hu : 10 * u ≤ 1) {x y : K} (h : CloseTo u 5 x y) :
    |y - x| ≤ 10 * u * x := by
  have h1 : 1 - 5 * u ≤ (1 - u) ^ 5 := by
    have := one_add_mul_le_pow (show (-2 : K) ≤ -u by linarith) 5
    rw [← sub_eq_add_neg] at this
    norm_num at this ⊢
    linarith
  have hx := h.pos
  have hy := CloseTo.pos' (by linarith : u ≤ 1 / 2) h
  have l := le_trans (mul_le_mul_of_nonneg_right h1 hx) h.low
  have r := le_trans (mul_le_mul_of_nonneg_right h1 hy) h.high
  have hux : 0 ≤ u * x := mul_nonneg hu0 hx
  have hy2 : y ≤ 2 * x := by
    have : 1 / 2 * y ≤ (1 - 5 * u) * y := mul_le_mul_of_nonneg_right (by linarith) hy
    linarith
  have huy : u * y ≤ u * (2 * x) := mul_le_mul_of_nonneg_left hy2 hu0
  rw [abs_le]
  constructor <;> nlinarith

/-- C107: the number of diffusion passes is that of exact arithmetic, a tenth of the square of the width of the inlet in
cells, to the nearest integer, unless that is halfway between two integers (the width ends in 5). -/
theorem C107_passes {R : Rounding K} {I : Input K} (hA : Accepted I) (hF : Flowing I) {L W : ℤ} {B : Derived K}
    (h : boundaryConditionsR R I L W = .ok B) (h5 : B.N0 % 10 ≠ 5) (hu : 10 * R.u ≤ 1)
    (hN : 10 * (R.u * (B.N0 * B.N0)) < 1) :
    B.Ncross = roundHalfEven ((B.N0 : K) * B.N0 / 10) := by
  have b := bcR_ok h
  have hh := R.u_half
  have hV : 0 < B.V0 := by rw [b.eV0]; exact fl_pos _ (mul_pos hF.h0 (fl_pos _ (mul_pos hA.dx hA.dx)))
  have ref : ∀ {x : K}, 0 ≤ x → CloseTo R.u 0 x x := fun hx => CloseTo.refl hx
  have h1 := ((((((ref (x := (1 : K) / 10) (by norm_num)).rfl' R).mul hh
    ((ref (x := (B.N0 : K) * B.N0) (mul_self_nonneg _)).rfl' R)).rfl' R).mul hh (ref hV.le)).rfl' R).div hh
      (ref hV.le) hV
  have h2 := h1.rfl' R
  rw [mul_div_assoc (1 / 10 * ((B.N0 : K) * B.N0)), div_self hV.ne', mul_one, ← b.edVs] at h2
  have h3 := CloseTo.near R.u_nonneg hu h2
  rw [b.eNcross]
  rw [show (B.N0 : K) * B.N0 / 10 = 1 / 10 * (B.N0 * B.N0) by ring]
  refine round_stable fun n => lt_of_le_of_lt h3 ?_
  have h4 : (1 : ℤ) ≤ |B.N0 * B.N0 - (10 * n + 5)| := by
    refine Int.one_le_abs fun h0 => ?_
    apply h5
    have h6 : (B.N0 * B.N0) % 10 = 5 := by omega
    have h7 : B.N0 % 10 = 0 ∨ B.N0 % 10 = 1 ∨ B.N0 % 10 = 2 ∨ B.N0 % 10 = 3 ∨ B.N0 % 10 = 4 ∨ B.N0 % 10 = 5 ∨
      B.N0 % 10 = 6 ∨ B.N0 % 10 = 7 ∨ B.N0 % 10 = 8 ∨ B.N0 % 10 = 9 := by omega
    rw [Int.mul_emod] at h6
    rcases h7 with h7 | h7 | h7 | h7 | h7 | h7 | h7 | h7 | h7 | h7 <;> rw [h7] at h6 <;> first | omega | norm_num at h6
  have h6 : (1 : K) ≤ |(B.N0 : K) * B.N0 - (10 * n + 5)| := by exact_mod_cast h4
  have h7 : |1 / 10 * ((B.N0 : K) * B.N0) - (n + 1 / 2)| = 1 / 10 * |(B.N0 : K) * B.N0 - (10 * n + 5)| := by
    rw [show 1 / 10 * ((B.N0 : K) * B.N0) - (n + 1 / 2) = 1 / 10 * ((B.N0 : K) * B.N0 - (10 * n + 5)) by ring,
      abs_mul, abs_of_pos (by norm_num : (0 : K) < 1 / 10)]
  rw [h7]
  nlinarith

/-! ## Non-trivial cases -/

/-- The default configuration (pyDeltaRCM/default.yml), read into doubles. -/
def exDoubles : Input ℚ :=
  { exDefault with
    S0 := double.fl (3 / 20000)
    Csmooth := double.fl (9 / 10)
    subRate := double.fl (1 / 500000000)
    omegaSfc := double.fl (1 / 10)
    omegaFlow := double.fl (9 / 10)
    coeffUdepMud := double.fl (3 / 10)
    coeffUeroSand := double.fl (21 / 20)
    alpha := double.fl (1 / 10) }

lemma exDoublesAccepted : Accepted exDoubles := (C50_validate _).1 (by decide +kernel)

lemma exDoublesFlowing : Flowing exDoubles := ⟨by decide +kernel, by decide +kernel, by decide +kernel,
    by decide +kernel⟩

lemma exDoublesRunnable : RunnableR double exDoubles where
  accepted := exDoublesAccepted
  flowing := exDoublesFlowing
  hb := by intro b h; cases h
  rows := by decide +kernel
  L := by decide +kernel
  W := by decide +kernel
  slope0 := by decide +kernel
  slope1 := by decide +kernel
  steps := by intro x h; cases h
  lag0 := by decide +kernel
  lag1 := by decide +kernel
  eroSand := by decide +kernel
  eroMud := by decide +kernel
  depMud := by decide +kernel
  theta := by decide +kernel
  thetaSand := by decide +kernel
  thetaMud := by decide +kernel
  beta := by decide +kernel
  sand0 := by decide +kernel
  sand1 := by decide +kernel

lemma double_small : double.u ≤ 1 / 16 := by norm_num [binary]

/-- The default configuration in the arithmetic of the program can be run for any number of timesteps. -/
theorem C107_default {σ : Type} {g : Rng ℚ σ} (hg : PositiveDraws g) :
    ∃ (L W m : ℕ) (_ : NeZero L) (_ : NeZero W) (P : Params L W m ℚ) (S : State L W ℚ),
      createR single double exOracle exDoubles = .ok ⟨L, W, m, P, S⟩ ∧ 0 < P.dt ∧
      ∀ (n : ℕ) (s : σ), ∃ S' ls s',
        timestepsR single double g (List.replicate n P) S s = .ok (S', ls, s') ∧ Stored single S' := by
  have hFD : Within single double := within_binary _ _ (by norm_num)
  obtain ⟨L, W, m, iL, iW, P, S, h, h0, -, hr⟩ := C107_run (σ := σ) hFD double_small
    (by decide +kernel) (by decide +kernel) exOracleOk exDoublesRunnable hg
  refine ⟨L, W, m, iL, iW, P, S, h, h0, fun n s => ?_⟩
  obtain ⟨S', ls, s', h1, -, -, -, -, -, -, -, h2, -⟩ := hr n s
  exact ⟨S', ls, s', h1, h2⟩

/-- With the square roots of the real numbers, `C107_types` applies to the domain of 200 columns in doubles. -/
theorem C107_types_real (CTR L0 N0 : ℤ) :
    cellTypesR 100 200 CTR L0 N0 (binary ℝ 53 (by norm_num)) realOracle.nrm = cellTypes 100 200 CTR L0 N0 :=
  C107_types (digits_binary 53 (by norm_num))
    (rootsOk_of_exact _ (fun _ _ => Real.sqrt_nonneg _) (fun x y => by
      show Real.sqrt (x ^ 2 + y ^ 2) * Real.sqrt (x ^ 2 + y ^ 2) = _
      rw [Real.mul_self_sqrt (by positivity)]; ring)) (by norm_num) CTR L0 N0

lemma ok_exists {α : Type} {x : Except SetupErr α} {p : α → Prop} [DecidablePred p]
    (h : (match x with | .ok B => decide (p B) | .error _ => false) = true) : ∃ B, x = .ok B ∧ p B := by
  cases x with
  | error e => cases h
  | ok B => exact ⟨B, rfl, by simpa using h⟩

/-- An inlet of 15 cells of 12 metres, 2.9 metres deep. -/
def exWide : Input ℚ := { exDoubles with dx := 12, Length := 1200, Width := 1200, N0m := 180, h0 := double.fl (29 / 10) }

/-- Between two integers, rounding decides: a tenth of 15 squared is 22.5, and 22 passes in exact
arithmetic; the program makes 23. -/
theorem C107_passes_tie :
    (∃ B, boundaryConditions exWide 100 100 = .ok B ∧ B.N0 = 15 ∧ B.Ncross = 22) ∧
    ∃ B, boundaryConditionsR double exWide 100 100 = .ok B ∧ B.N0 = 15 ∧ B.Ncross = 23 := by
  constructor
  · exact ok_exists (by decide +kernel)
  · exact ok_exists (by decide +kernel)

/-- Likewise for the number of cells: a length of 1.5 in cells of 0.2 (the double nearest to it, which
is larger) is less than 7.5 cells, to the nearest integer 7; the program makes 8. -/
theorem C107_cells_tie :
    cellsAlong (3 / 2 : ℚ) (double.fl (1 / 5)) = 7 ∧ cellsAlongR double (3 / 2 : ℚ) (double.fl (1 / 5)) = 8 := by
  constructor <;> decide +kernel

/-- `C107_passes` applies to the default configuration made 7 cells wide. -/
example : ∃ B, boundaryConditionsR double { exDoubles with N0m := 350 } 100 200 = .ok B ∧ B.N0 % 10 ≠ 5 ∧
    10 * double.u ≤ 1 ∧ 10 * (double.u * (B.N0 * B.N0)) < 1 ∧ B.Ncross = 5 := by
  exact ok_exists (by decide +kernel)

end setup

end Verif.Props
