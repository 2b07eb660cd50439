import Verif.Props.FloatTimestep
import Verif.Props.Budget

/-!
# C105: the sediment budget of a run in rounded arithmetic
-/

set_option linter.unusedSectionVars false
set_option linter.unusedSimpArgs false

namespace Verif.Props

open Verif.Model Verif.Lemmas Verif.Spec

variable {K : Type*} [Field K] [LinearOrder K] [IsStrictOrderedRing K] [FloorRing K] {σ : Type*}
  {L W m : ℕ} [NeZero L] [NeZero W] {F D : Rounding K}

/-! ## Accumulated relative errors -/

/-- `a` was computed for `x`, from numbers that add up to at most `X` in absolute value, with roundings that
multiply up to `g`. -/
structure Near (g a x X : K) : Prop where
  size : |x| ≤ X
  err : |a - x| ≤ (g - 1) * X

lemma Near.nonneg {g a x X : K} (h : Near g a x X) : 0 ≤ X := (abs_nonneg _).trans h.size

lemma Near.self {x : K} : Near 1 x x |x| := ⟨le_rfl, by simp⟩

lemma Near.weaken {g g' a x X : K} (h : Near g a x X) (hg : g ≤ g') : Near g' a x X :=
  ⟨h.size, h.err.trans (mul_le_mul_of_nonneg_right (by linarith) h.nonneg)⟩

lemma Near.bound {g a x X : K} (h : Near g a x X) : |a| ≤ g * X := by
  have h1 := abs_sub_abs_le_abs_sub a x
  have := h.size
  have := h.err
  linarith

lemma Near.fl {g a x X : K} (R : Rounding K) (h : Near g a x X) : Near (g * (1 + R.u)) (R.fl a) x X := by
  refine ⟨h.size, ?_⟩
  have h1 := R.err a
  have h2 : R.u * |a| ≤ R.u * (g * X) := mul_le_mul_of_nonneg_left h.bound R.u_nonneg
  have h3 := abs_sub_le (R.fl a) a x
  have h4 := h.err
  have e : (g * (1 + R.u) - 1) * X = R.u * (g * X) + (g - 1) * X := by ring
  rw [e]
  linarith

lemma Near.add {g a b x y X Y : K} (h : Near g a x X) (k : Near g b y Y) : Near g (a + b) (x + y) (X + Y) := by
  refine ⟨(abs_add_le _ _).trans (add_le_add h.size k.size), ?_⟩
  rw [show a + b - (x + y) = (a - x) + (b - y) by ring, mul_add]
  exact (abs_add_le _ _).trans (add_le_add h.err k.err)

lemma Near.neg {g a x X : K} (h : Near g a x X) : Near g (-a) (-x) X :=
  ⟨by rw [abs_neg]; exact h.size, by rw [show -a - -x = -(a - x) by ring, abs_neg]; exact h.err⟩

lemma Near.sub {g a b x y X Y : K} (h : Near g a x X) (k : Near g b y Y) : Near g (a - b) (x - y) (X + Y) := by
  rw [sub_eq_add_neg, sub_eq_add_neg]
  exact h.add k.neg

lemma Near.mul {g g' a b x y X Y : K} (hg' : 0 ≤ g') (h : Near g a x X) (k : Near g' b y Y) :
    Near (g * g') (a * b) (x * y) (X * Y) := by
  refine ⟨by rw [abs_mul]; exact mul_le_mul h.size k.size (abs_nonneg _) h.nonneg, ?_⟩
  have e : a * b - x * y = (a - x) * b + x * (b - y) := by ring
  have h1 : |(a - x) * b| ≤ (g - 1) * X * (g' * Y) := by
    rw [abs_mul]
    exact mul_le_mul h.err k.bound (abs_nonneg _) ((abs_nonneg _).trans h.err)
  have h2 : |x * (b - y)| ≤ X * ((g' - 1) * Y) := by
    rw [abs_mul]
    exact mul_le_mul h.size k.err (abs_nonneg _) h.nonneg
  rw [e]
  refine (abs_add_le _ _).trans ((add_le_add h1 h2).trans (le_of_eq ?_))
  ring

lemma sumR_near_aux {R : Rounding K} (n : ℕ) : ∀ (f v V : Fin n → K) {g a x X : K}, 1 ≤ g → Near g a x X →
    (∀ d, Near g (f d) (v d) (V d)) →
    Near (g * (1 + R.u) ^ n) ((List.ofFn f).foldl (fun a x => R.fl (a + x)) a) (x + ∑ d, v d) (X + ∑ d, V d) := by
  induction n with
  | zero => intro f v V g a x X _ h _; simpa using h
  | succ n ih =>
    intro f v V g a x X hg h hf
    have hu := R.u_nonneg
    have hg' : g ≤ g * (1 + R.u) := le_mul_of_one_le_right (by linarith) (by linarith)
    have := ih (fun d => f d.succ) (fun d => v d.succ) (fun d => V d.succ) (g := g * (1 + R.u))
      (hg.trans hg') ((h.add (hf 0)).fl R) (fun d => (hf d.succ).weaken hg')
    rw [List.ofFn_succ, List.foldl_cons, Fin.sum_univ_succ, Fin.sum_univ_succ, ← add_assoc, ← add_assoc,
      pow_succ', ← mul_assoc]
    exact this

lemma sumR_near {R : Rounding K} {n : ℕ} {f v V : Fin n → K} {g : K} (hg : 1 ≤ g)
    (hf : ∀ d, Near g (f d) (v d) (V d)) :
    Near (g * (1 + R.u) ^ n) (sumR R (List.ofFn f)) (∑ d, v d) (∑ d, V d) := by
  have := sumR_near_aux (R := R) n f v V hg (a := 0) (x := 0) (X := 0) ⟨by simp, by simp⟩ hf
  rw [zero_add, zero_add] at this
  exact this

/-! ## A pass of diffusion -/

/-- The values around a cell, as diffusion adds them up, with no sign. -/
def absAround (f : Grid L W K) (c : Cell L W) : K := ∑ n ∈ around c, |f n|

lemma at0_near {g : K} {a b B : Grid L W K} (h : ∀ c, Near g (a c) (b c) (B c)) (i j : ℤ) :
    Near g (at0 a i j) (at0 b i j) (at0 B i j) := by
  unfold at0
  split
  · exact h _
  · exact ⟨by simp, by simp⟩

lemma convolveR_near {g k4 : K} {a b B : Grid L W K} (hg : 1 ≤ g) (h : ∀ c, Near g (a c) (b c) (B c))
    (c : Cell L W) :
    Near (g * (1 + D.u) ^ 10 * (1 + F.u)) (convolveR F D (fun d : Fin 9 => if d = 4 then k4 else 1) a c)
      (convolve (fun d : Fin 9 => if d = 4 then k4 else 1) b c) (|k4| * B c + ∑ n ∈ around c, B n) := by
  have hu := D.u_nonneg
  have h1 : ∀ d : Fin 9, Near (g * (1 + D.u))
      (D.fl ((if d = 4 then k4 else 1) * at0 a ((c.1.val : ℤ) - ((d.val / 3 : ℕ) - 1))
        ((c.2.val : ℤ) - ((d.val % 3 : ℕ) - 1))))
      ((if d = 4 then k4 else 1) * at0 b ((c.1.val : ℤ) - ((d.val / 3 : ℕ) - 1))
        ((c.2.val : ℤ) - ((d.val % 3 : ℕ) - 1)))
      ((if d = 4 then |k4| else 1) * at0 B ((c.1.val : ℤ) - ((d.val / 3 : ℕ) - 1))
        ((c.2.val : ℤ) - ((d.val % 3 : ℕ) - 1))) := by
    intro d
    have e : (if d = 4 then |k4| else 1) = |if d = 4 then k4 else 1| := by split_ifs <;> simp
    rw [e]
    have := (Near.self (x := if d = 4 then k4 else 1)).mul (by linarith) (at0_near h
      ((c.1.val : ℤ) - ((d.val / 3 : ℕ) - 1)) ((c.2.val : ℤ) - ((d.val % 3 : ℕ) - 1)))
    rw [one_mul] at this
    exact this.fl D
  have h2 := (sumR_near (R := D) (one_le_mul_of_one_le_of_one_le hg (by linarith)) h1).fl F
  have e3 := convolve_eq (|k4|) 1 B c
  unfold convolve at e3
  rw [one_mul] at e3
  rw [e3] at h2
  unfold convolveR convolve
  refine h2.weaken (le_of_eq ?_)
  ring

/-- What the terms of the diffusion of a cell add up to, with no sign. -/
def stirred (mult : K) (qs eta : Grid L W K) (c : Cell L W) : K :=
  |mult| * (|qs c| * (8 * |eta c| + absAround eta c) + |eta c| * absAround qs c +
    ∑ n ∈ around c, |qs n| * |eta n|)

/-- The roundings of a pass of diffusion. -/
def passRounds (F D : Rounding K) : K := (1 + F.u) ^ 7 * (1 + D.u) ^ 10

lemma abs_kernel : |(-8 : K)| = 8 := by norm_num

lemma diffusionChangeR_near (ct : Grid L W ℤ) (mult : K) (qs eta : Grid L W K) {c : Cell L W}
    (hc : ¬ Held ct c) :
    Near ((1 + F.u) ^ 6 * (1 + D.u) ^ 10) (diffusionChangeR F D ct mult qs eta c)
      (diffusionChange ct mult qs eta c) (stirred mult qs eta c) := by
  have huF := F.u_nonneg
  have huD := D.u_nonneg
  have hc1 : ¬ ct c = -2 := fun h => hc (.inl h)
  have hc2 : ¬ c.1.val = 0 := fun h => hc (.inr h)
  have n1 := convolveR_near (F := F) (D := D) (k4 := -8) (a := eta) (b := eta) (B := fun c => |eta c|)
    le_rfl (fun c => Near.self) c
  have n2 := convolveR_near (F := F) (D := D) (k4 := 0) (a := qs) (b := qs) (B := fun c => |qs c|)
    le_rfl (fun c => Near.self) c
  have n3 := convolveR_near (F := F) (D := D) (k4 := 0) (a := fun x => F.fl (qs x * eta x))
    (b := fun x => qs x * eta x) (B := fun x => |qs x| * |eta x|) (g := 1 + F.u) (by linarith)
    (fun c => by
      have := (Near.self (x := qs c * eta c)).fl F
      rw [one_mul, abs_mul] at this
      exact this) c
  rw [abs_kernel] at n1
  rw [abs_zero, zero_mul, zero_add] at n2 n3
  have p1 := ((Near.self (x := qs c)).mul (by positivity) n1).fl F
  have p2 := ((Near.self (x := eta c)).mul (by positivity) n2).fl F
  have p4 := (p1.sub p2).fl F
  have hw : (1 + F.u) * (1 + D.u) ^ 10 * (1 + F.u) ≤
      1 * (1 * (1 + D.u) ^ 10 * (1 + F.u)) * (1 + F.u) * (1 + F.u) := by
    have : 0 ≤ (1 + D.u) ^ 10 * (1 + F.u) ^ 2 * F.u := by positivity
    nlinarith [this]
  have p5 := (p4.add (n3.weaken hw)).fl F
  have p6 := (((Near.self (x := mult)).fl F).mul (by positivity) p5).fl F
  unfold diffusionChangeR diffusionChange
  simp only [assign, hc1, hc2, decide_false, Bool.false_eq_true, if_false]
  rw [kernel1_eq, kernel2_eq]
  refine Near.weaken ?_ (le_of_eq (?_ : 1 * (1 + F.u) * (1 * (1 * (1 + D.u) ^ 10 * (1 + F.u)) * (1 + F.u) * (1 + F.u) * (1 + F.u)) * (1 + F.u) = _))
  · unfold stirred absAround
    exact p6
  · ring

/-- The rounding error of a pass of diffusion in a cell. -/
def passCellError (F D : Rounding K) (mult : K) (qs eta : Grid L W K) (c : Cell L W) : K :=
  F.u * |eta c| + (passRounds F D - 1) * stirred mult qs eta c

lemma pass_cell (ct : Grid L W ℤ) (mult : K) (qs eta : Grid L W K) {c : Cell L W} (hc : ¬ Held ct c) :
    |topoDiffusionR F D ct mult qs 1 eta c - topoDiffusion ct mult qs 1 eta c| ≤
      passCellError F D mult qs eta c := by
  have h1 := diffusionChangeR_near (F := F) (D := D) ct mult qs eta hc
  have huF := F.u_nonneg
  have e1 : topoDiffusionR F D ct mult qs 1 eta c = F.fl (eta c + diffusionChangeR F D ct mult qs eta c) := rfl
  have e2 : topoDiffusion ct mult qs 1 eta c = eta c + diffusionChange ct mult qs eta c := rfl
  rw [e1, e2]
  set a := diffusionChangeR F D ct mult qs eta c
  set x := diffusionChange ct mult qs eta c
  set X := stirred mult qs eta c
  set G := (1 + F.u) ^ 6 * (1 + D.u) ^ 10
  have h2 := F.err (eta c + a)
  have h3 : |eta c + a| ≤ |eta c| + G * X := (abs_add_le _ _).trans (by linarith [h1.bound])
  have h4 : F.u * |eta c + a| ≤ F.u * (|eta c| + G * X) := mul_le_mul_of_nonneg_left h3 huF
  have h5 := abs_sub_le (F.fl (eta c + a)) (eta c + a) (eta c + x)
  rw [show eta c + a - (eta c + x) = a - x by ring] at h5
  have h6 := h1.err
  have e : passCellError F D mult qs eta c = F.u * (|eta c| + G * X) + (G - 1) * X := by
    unfold passCellError passRounds
    simp only [G, X]
    ring
  rw [e]
  linarith

/-- The rounding error of a pass of diffusion. -/
def passError (F D : Rounding K) (ct : Grid L W ℤ) (mult : K) (qs eta : Grid L W K) : K :=
  ∑ c with ¬ Held ct c, passCellError F D mult qs eta c

/-- One pass changes the bed in total by its exchanges with held cells and its losses at the border, up to
rounding. -/
lemma pass_total (ct : Grid L W ℤ) (mult : K) (qs : Grid L W K) {eta : Grid L W K}
    (hs : ∀ c, F.fl (eta c) = eta c) :
    |∑ c, topoDiffusionR F D ct mult qs 1 eta c - (∑ c, eta c + passGain ct mult qs eta)| ≤
      passError F D ct mult qs eta := by
  have hb : ∑ c, topoDiffusion ct mult qs 1 eta c = ∑ c, eta c + passGain ct mult qs eta :=
    C29_balance ct mult qs eta
  rw [← hb, ← Finset.sum_sub_distrib]
  unfold passError
  rw [Finset.sum_filter]
  refine (Finset.abs_sum_le_sum_abs _ _).trans (Finset.sum_le_sum fun c _ => ?_)
  by_cases hc : Held ct c
  · rw [if_neg (not_not.2 hc), topoDiffusionR_held ct mult qs 1 (hs c) hc, C29_held ct mult qs eta 1 c hc]
    simp
  · rw [if_pos hc]
    exact pass_cell ct mult qs eta hc

lemma passes_total (ct : Grid L W ℤ) (mult : K) (qs : Grid L W K) (n : ℕ) {eta : Grid L W K}
    (hs : ∀ c, F.fl (eta c) = eta c) :
    |∑ c, topoDiffusionR F D ct mult qs n eta c - (∑ c, eta c +
      ∑ i ∈ Finset.range n, passGain ct mult qs (topoDiffusionR F D ct mult qs i eta))| ≤
      ∑ i ∈ Finset.range n, passError F D ct mult qs (topoDiffusionR F D ct mult qs i eta) := by
  induction n generalizing eta with
  | zero => simp [topoDiffusionR]
  | succ n ih =>
    have e : ∀ k, topoDiffusionR F D ct mult qs (k + 1) eta =
        topoDiffusionR F D ct mult qs k (topoDiffusionR F D ct mult qs 1 eta) := fun k => rfl
    have e0 : topoDiffusionR F D ct mult qs 0 eta = eta := rfl
    have h1 := pass_total (D := D) ct mult qs hs
    have h2 := ih (eta := topoDiffusionR F D ct mult qs 1 eta)
      (fun c => topoDiffusionR_stored ct mult qs 1 hs c)
    have e3 : ∀ f : Grid L W K → K, ∑ i ∈ Finset.range n, f (topoDiffusionR F D ct mult qs (i + 1) eta) =
        ∑ i ∈ Finset.range n, f (topoDiffusionR F D ct mult qs i (topoDiffusionR F D ct mult qs 1 eta)) :=
      fun f => Finset.sum_congr rfl (fun i _ => by rw [e i])
    rw [Finset.sum_range_succ', Finset.sum_range_succ', e0, e3, e3, e n]
    set A := ∑ c, topoDiffusionR F D ct mult qs n (topoDiffusionR F D ct mult qs 1 eta) c
    set B := ∑ c, topoDiffusionR F D ct mult qs 1 eta c
    set G := ∑ i ∈ Finset.range n, passGain ct mult qs
      (topoDiffusionR F D ct mult qs i (topoDiffusionR F D ct mult qs 1 eta))
    have h3 := abs_add_le (A - (B + G)) (B - (∑ c, eta c + passGain ct mult qs eta))
    rw [show A - (∑ c, eta c + (G + passGain ct mult qs eta)) =
      (A - (B + G)) + (B - (∑ c, eta c + passGain ct mult qs eta)) by ring]
    linarith

/-! ## The parcels of a routing -/

/-- The area of a cell as the routers compute it. -/
def cellArea (F : Rounding K) (P : Params L W m K) : K := F.fl (P.dx * P.dx)

/-- The rounding error of a step in what the parcel carries. -/
def parcelError (F D : Rounding K) (r : SedRec L W K) : K := (F.u + D.u + F.u * D.u) * |r.res - r.change|

/-- The rounding error of a step in the volume of the bed. -/
def bedError (F D : Rounding K) (P : Params L W m K) (r : SedRec L W K) : K :=
  (F.u + D.u + F.u * D.u) * (cellArea F P * |r.before.eta r.cell + bedChangeR F D P.dx r.change|) +
    D.u * |r.change|

lemma stepError_eq (P : Params L W m K) (r : SedRec L W K) :
    stepError F D P r = parcelError F D r + bedError F D P r := by
  unfold stepError parcelError bedError cellArea
  ring

/-- The bed that a list of parcels leaves, from what its steps recorded. -/
def leftBed (eta : Grid L W K) (logs : List (SedLog L W K)) : Grid L W K :=
  (logs.flatMap (·.steps)).foldl (fun _ r => r.after.eta) eta

lemma sedStepR_parts {g : Rng K σ} {k : Sed} {P : Params L W m K} (hdx : 0 < P.dx) {st st1 : SedSt L W K}
    {px py : ℤ} {res res1 : K} {s s1 : σ} {r : SedRec L W K}
    (h : sedStepR F D g k P st px py res s = .ok (st1, res1, r, s1)) :
    (∀ c, |st1.S.eta c * cellArea F P - st.S.eta c * cellArea F P - (if r.cell = c then r.change else 0)| ≤
      if r.cell = c then bedError F D P r else 0) ∧ |res1 - (res - r.change)| ≤ parcelError F D r ∧
      st1.S.eta = r.after.eta := by
  obtain ⟨c0, d, c', cp, w, -, -, -, -, -, -, -, -, -, -, rfl, hres, hb, -, hres1, ha, h1, -⟩ := sedStepR_ok h
  rw [recordDepositR_frame] at ha
  have hbe : r.before.eta = st.S.eta := by rw [hb, fieldsAtR_frame]
  have hq : 0 < cellArea F P := fl_pos F (mul_pos hdx hdx)
  have aEta : r.after.eta = Function.update r.before.eta r.cell
      (F.fl (D.fl (r.before.eta r.cell + bedChangeR F D P.dx r.change))) := by rw [ha]; rfl
  refine ⟨fun c => ?_, ?_, by rw [h1]⟩
  · rw [h1, aEta, hbe]
    by_cases hc : r.cell = c
    · subst hc
      rw [if_pos rfl, if_pos rfl, Function.update_self]
      set b := bedChangeR F D P.dx r.change with hbd
      have e1 := stored_err (F := F) (D := D) (st.S.eta r.cell + b)
      have e2 : |b * cellArea F P - r.change| ≤ D.u * |r.change| := by
        have h4 := D.err (r.change / cellArea F P)
        have h5 : b * cellArea F P - r.change = (b - r.change / cellArea F P) * cellArea F P := by
          rw [sub_mul, div_mul_cancel₀ _ hq.ne']
        rw [h5, abs_mul, abs_of_pos hq]
        calc |b - r.change / cellArea F P| * cellArea F P ≤
              D.u * |r.change / cellArea F P| * cellArea F P := mul_le_mul_of_nonneg_right h4 hq.le
          _ = D.u * |r.change| := by
            rw [abs_div, abs_of_pos hq, mul_assoc, div_mul_cancel₀ _ hq.ne']
      set X := F.fl (D.fl (st.S.eta r.cell + b))
      have e3 : |(X - (st.S.eta r.cell + b)) * cellArea F P| ≤
          (F.u + D.u + F.u * D.u) * (cellArea F P * |st.S.eta r.cell + b|) := by
        rw [abs_mul, abs_of_pos hq]
        refine (mul_le_mul_of_nonneg_right e1 hq.le).trans (le_of_eq (by ring))
      rw [show X * cellArea F P - st.S.eta r.cell * cellArea F P - r.change =
        (X - (st.S.eta r.cell + b)) * cellArea F P + (b * cellArea F P - r.change) by ring]
      unfold bedError
      rw [hbe, ← hbd]
      exact (abs_add_le _ _).trans (add_le_add e3 e2)
    · rw [if_neg hc, if_neg hc, Function.update_of_ne (Ne.symm hc)]
      simp
  · rw [hres1]
    unfold parcelError
    rw [← hres]
    exact stored_err _

lemma sedLoopR_parts {g : Rng K σ} {k : Sed} {P : Params L W m K} (hdx : 0 < P.dx) :
    ∀ n st px py res s st' res' rs s', sedLoopR F D g k P n st px py res s = .ok (st', res', rs, s') →
    (∀ c, |st'.S.eta c * cellArea F P - st.S.eta c * cellArea F P -
        (rs.map fun r => if r.cell = c then r.change else 0).sum| ≤
      (rs.map fun r => if r.cell = c then bedError F D P r else 0).sum) ∧
      |res' - (res - (rs.map fun r => r.change).sum)| ≤ (rs.map (parcelError F D)).sum ∧
      st'.S.eta = rs.foldl (fun _ r => r.after.eta) st.S.eta := by
  intro n
  induction n with
  | zero => intro st px py res s st' res' rs s' h; simp [sedLoopR] at h
  | succ n ih =>
    intro st px py res s st' res' rs s' h
    unfold sedLoopR at h
    generalize hs : sedStepR F D g k P st px py res s = x at h
    cases x with
    | error e => simp at h
    | ok x =>
      obtain ⟨st1, res1, r, s1⟩ := x
      obtain ⟨p1, p2, p3⟩ := sedStepR_parts hdx hs
      simp only at h
      split_ifs at h with hc
      · simp only [Except.ok.injEq, Prod.mk.injEq] at h
        obtain ⟨rfl, rfl, rfl, rfl⟩ := h
        refine ⟨fun c => ?_, ?_, p3⟩
        · simpa using p1 c
        · simpa using p2
      · generalize hl : sedLoopR F D g k P n st1 r.new.1 r.new.2 res1 s1 = y at h
        cases y with
        | error e => simp at h
        | ok y =>
          obtain ⟨st2, res2, rs2, s2⟩ := y
          simp only [Except.ok.injEq, Prod.mk.injEq] at h
          obtain ⟨rfl, rfl, rfl, rfl⟩ := h
          obtain ⟨q1, q2, q3⟩ := ih _ _ _ _ _ _ _ _ _ hl
          refine ⟨fun c => ?_, ?_, ?_⟩
          · simp only [List.map_cons, List.sum_cons]
            have a := p1 c
            have b := q1 c
            set v := (if r.cell = c then r.change else 0)
            set V := (rs2.map fun r => if r.cell = c then r.change else 0).sum
            rw [show st2.S.eta c * cellArea F P - st.S.eta c * cellArea F P - (v + V) =
              (st1.S.eta c * cellArea F P - st.S.eta c * cellArea F P - v) +
              (st2.S.eta c * cellArea F P - st1.S.eta c * cellArea F P - V) by ring]
            exact (abs_add_le _ _).trans (add_le_add a b)
          · simp only [List.map_cons, List.sum_cons]
            set V := (rs2.map fun r => r.change).sum
            rw [show res2 - (res - (r.change + V)) = (res1 - (res - r.change)) + (res2 - (res1 - V)) by ring]
            exact (abs_add_le _ _).trans (add_le_add p2 q2)
          · rw [q3, p3, List.foldl_cons]

/-- The rounding errors of the steps in one cell. -/
def bedErrorAt (F D : Rounding K) (P : Params L W m K) (logs : List (SedLog L W K)) (c : Cell L W) : K :=
  (logs.map fun l => (l.steps.map fun r => if r.cell = c then bedError F D P r else 0).sum).sum

/-- C105: over a routing the bed of each cell grows by what the steps of the parcels left in it less what they
took, the parcels end with what they brought less what they left, and the bed is as the last step left it, up
to rounding. -/
theorem C105_routing {g : Rng K σ} {k : Sed} {P : Params L W m K} (hdx : 0 < P.dx) {S S' : State L W K}
    {s s' : σ} {logs : List (SedLog L W K)} (h : routeParcelsR F D g k P S s = .ok (S', logs, s')) :
    (∀ c, |S'.eta c * cellArea F P - S.eta c * cellArea F P - movedTo logs c| ≤ bedErrorAt F D P logs c) ∧
      (∀ l ∈ logs, |l.left - (P.VpSed - (l.steps.map fun r => r.change).sum)| ≤
        (l.steps.map (parcelError F D)).sum) ∧
      S'.eta = leftBed S.eta logs := by
  obtain ⟨starts, st, -, hp, rfl⟩ := routeParcelsR_ok h
  have := sedParcelsR_induct (F := F) (D := D) (g := g) (k := k) (P := P)
    (fun st logs => (∀ c, |st.S.eta c * cellArea F P - S.eta c * cellArea F P - movedTo logs c| ≤
        bedErrorAt F D P logs c) ∧
      (∀ l ∈ logs, |l.left - (P.VpSed - (l.steps.map fun r => r.change).sum)| ≤
        (l.steps.map (parcelError F D)).sum) ∧ st.S.eta = leftBed S.eta logs) (by
      intro st logs py c' s st' res rs s' ⟨j1, j2, j3⟩ hc' hl
      have heta : (enterStateR F D k P st c').S.eta = st.S.eta := by cases k <;> rfl
      obtain ⟨q1, q2, q3⟩ := sedLoopR_parts hdx _ _ _ _ _ _ _ _ _ _ hl
      rw [heta] at q1 q3
      refine ⟨fun c => ?_, fun l hl' => ?_, ?_⟩
      · have a := j1 c
        have b := q1 c
        unfold movedTo bedErrorAt at a ⊢
        simp only [List.map_append, List.sum_append, List.map_cons, List.map_nil, List.sum_cons, List.sum_nil,
          add_zero]
        set v := (logs.map fun l => (l.steps.map fun r => if r.cell = c then r.change else 0).sum).sum
        set V := (rs.map fun r => if r.cell = c then r.change else 0).sum
        rw [show st'.S.eta c * cellArea F P - S.eta c * cellArea F P - (v + V) =
          (st.S.eta c * cellArea F P - S.eta c * cellArea F P - v) +
          (st'.S.eta c * cellArea F P - st.S.eta c * cellArea F P - V) by ring]
        exact (abs_add_le _ _).trans (add_le_add a b)
      · simp only [List.mem_append, List.mem_singleton] at hl'
        rcases hl' with hl' | rfl
        · exact j2 l hl'
        · exact q2
      · rw [q3, j3]
        unfold leftBed
        simp [List.flatMap_append, List.foldl_append]) _ _ [] _ _ _ _
    ⟨fun c => by simp [movedTo, bedErrorAt], by simp, by simp [leftBed]⟩ hp
  simpa using this

lemma bedError_nonneg {P : Params L W m K} (r : SedRec L W K) : 0 ≤ bedError F D P r := by
  have := F.u_nonneg
  have := D.u_nonneg
  have : 0 ≤ cellArea F P := fl_nonneg F (mul_self_nonneg _)
  unfold bedError
  positivity

lemma sum_bedErrorAt (P : Params L W m K) (p : Cell L W → Prop) [DecidablePred p] (logs : List (SedLog L W K)) :
    ∑ c with p c, bedErrorAt F D P logs c ≤ (logs.map fun l => (l.steps.map (bedError F D P)).sum).sum := by
  unfold bedErrorAt
  induction logs with
  | nil => simp
  | cons l logs ih =>
    simp only [List.map_cons, List.sum_cons, Finset.sum_add_distrib]
    refine add_le_add ?_ ih
    induction l.steps with
    | nil => simp
    | cons r rs ih2 =>
      simp only [List.map_cons, List.sum_cons, Finset.sum_add_distrib]
      refine add_le_add ?_ ih2
      rw [Finset.sum_ite_eq]
      split_ifs
      · exact le_rfl
      · exact bedError_nonneg r

/-- Over a routing the bed outside of the inlet grows by what the parcels brought, less what they carried out and
left in the inlet, up to the rounding errors of the steps. -/
lemma routing_outside {g : Rng K σ} {k : Sed} {P : Params L W m K} (hdx : 0 < P.dx) {S S' : State L W K}
    {s s' : σ} {logs : List (SedLog L W K)} (h : routeParcelsR F D g k P S s = .ok (S', logs, s')) :
    |∑ c : Cell L W with Outside P.inlet c, S'.eta c * cellArea F P -
        ∑ c : Cell L W with Outside P.inlet c, S.eta c * cellArea F P -
        (P.VpSed * logs.length - carriedOut logs - movedToInlet P.inlet logs)| ≤
      (logs.map fun l => (l.steps.map (stepError F D P)).sum).sum := by
  obtain ⟨h1, h2, -⟩ := C105_routing hdx h
  have e1 : |∑ c : Cell L W with Outside P.inlet c, S'.eta c * cellArea F P -
      ∑ c : Cell L W with Outside P.inlet c, S.eta c * cellArea F P -
      ∑ c : Cell L W with Outside P.inlet c, movedTo logs c| ≤
      (logs.map fun l => (l.steps.map (bedError F D P)).sum).sum := by
    rw [← Finset.sum_sub_distrib, ← Finset.sum_sub_distrib]
    refine (Finset.abs_sum_le_sum_abs _ _).trans ((Finset.sum_le_sum fun c _ => h1 c).trans ?_)
    exact sum_bedErrorAt P _ logs
  rw [sum_moved_outside] at e1
  have e2 : |(logs.map fun l => (l.steps.map fun r => r.change).sum).sum -
      (P.VpSed * logs.length - carriedOut logs)| ≤
      (logs.map fun l => (l.steps.map (parcelError F D)).sum).sum := by
    clear e1 h1 h
    induction logs with
    | nil => simp [carriedOut]
    | cons l logs ih =>
      have a := h2 l List.mem_cons_self
      have b := ih (fun l' hl' => h2 l' (List.mem_cons_of_mem _ hl'))
      unfold carriedOut at b ⊢
      simp only [List.map_cons, List.sum_cons, List.length_cons]
      push_cast
      set x := (l.steps.map fun r => r.change).sum
      set X := (logs.map fun l => (l.steps.map fun r => r.change).sum).sum
      rw [show x + X - (P.VpSed * ((logs.length : K) + 1) - (l.left + (logs.map fun l => l.left).sum)) =
        (l.left - (P.VpSed - x)) + (X - (P.VpSed * (logs.length : K) - (logs.map fun l => l.left).sum)) by ring]
      exact (abs_add_le _ _).trans (add_le_add a b)
  have e3 : (logs.map fun l => (l.steps.map (stepError F D P)).sum).sum =
      (logs.map fun l => (l.steps.map (bedError F D P)).sum).sum +
      (logs.map fun l => (l.steps.map (parcelError F D)).sum).sum := by
    clear e1 e2 h2 h1 h
    induction logs with
    | nil => simp
    | cons l logs ih =>
      have : (l.steps.map (stepError F D P)).sum =
          (l.steps.map (bedError F D P)).sum + (l.steps.map (parcelError F D)).sum := by
        induction l.steps with
        | nil => simp
        | cons r rs ih2 => simp only [List.map_cons, List.sum_cons, ih2, stepError_eq]; ring
      simp only [List.map_cons, List.sum_cons, ih, this]
      ring
  rw [e3]
  set A := ∑ c : Cell L W with Outside P.inlet c, S'.eta c * cellArea F P
  set B := ∑ c : Cell L W with Outside P.inlet c, S.eta c * cellArea F P
  set X := (logs.map fun l => (l.steps.map fun r => r.change).sum).sum
  rw [show A - B - (P.VpSed * logs.length - carriedOut logs - movedToInlet P.inlet logs) =
    (A - B - (X - movedToInlet P.inlet logs)) + (X - (P.VpSed * logs.length - carriedOut logs)) by ring]
  exact (abs_add_le _ _).trans (add_le_add e1 e2)

/-! ## Timesteps -/

/-- The area of a cell as the routers of a timestep compute it, from the spacing in their precision. -/
def routerArea (F : Rounding K) (P : Params L W m K) : K := F.fl (F.fl P.dx * F.fl P.dx)

/-- The volume of the bed outside of the inlet, for cells of a given area. -/
def bedOutside (area : K) (inlet : Fin m → Fin W) (S : State L W K) : K :=
  ∑ c : Cell L W with Outside inlet c, S.eta c * area

/-- What a timestep does to the volume of the bed outside of the inlet, as in C83: what its parcels brought, less
what they carried out and left in the inlet, plus what the passes of diffusion gained on the beds that they met,
less subsidence. -/
def stepBudgetR (F D : Rounding K) (P : Params L W m K) (l : StepLog L W K) : K :=
  F.fl P.VpSed * (l.sand.length + l.mud.length) - carriedOut (l.sand ++ l.mud) -
    movedToInlet P.inlet (l.sand ++ l.mud)
    + routerArea F P * ∑ i ∈ Finset.range P.Ncross, passGain P.cellType P.diffMult l.routed.qs
        (topoDiffusionR F D P.cellType P.diffMult l.routed.qs i (leftBed l.start.eta l.sand))
    - routerArea F P * ∑ c : Cell L W with Outside P.inlet c, sinks P l.start.time c

/-- The rounding error of that: of all steps of all parcels, of all passes of diffusion, and of subsidence. -/
def budgetError (F D : Rounding K) (P : Params L W m K) (l : StepLog L W K) : K :=
  ((l.sand ++ l.mud).map fun x => (x.steps.map (stepError F D (routerParams F P))).sum).sum
    + routerArea F P * ∑ i ∈ Finset.range P.Ncross, passError F D P.cellType P.diffMult l.routed.qs
        (topoDiffusionR F D P.cellType P.diffMult l.routed.qs i (leftBed l.start.eta l.sand))
    + routerArea F P * if P.toggleSub = true ∧ P.startSub ≤ l.start.time then
        ∑ c : Cell L W with Outside P.inlet c, (F.u + D.u + F.u * D.u) * |l.routed.eta c - P.sigma c| else 0

lemma routeParcelsR_mudQs {g : Rng K σ} {P : Params L W m K} {S S' : State L W K} {s s' : σ}
    {logs : List (SedLog L W K)} (h : routeParcelsR F D g .mud P S s = .ok (S', logs, s')) : S'.qs = S.qs :=
  routeParcelsR_inv (F := F) (D := D) (g := g) (k := .mud) (P := P) (fun T => T.qs = S.qs) (fun st c hI => hI)
    (fun st px py res s st1 res1 r s1 hI hs => by
      obtain ⟨c0, d, c', cp, w, -, -, -, -, -, -, -, -, -, -, -, -, hb, -, -, ha, h1, -⟩ := sedStepR_ok hs
      rw [recordDepositR_frame, hb] at ha
      rw [h1, ha]
      exact hI) h rfl

/-- C105: the budget of a timestep in rounded arithmetic. -/
theorem C105_update {g : Rng K σ} (hL : 2 ≤ L) (hW : 2 ≤ W) {P : Params L W m K} (hdx : 0 < P.dx)
    {S S' : State L W K} (hS : Stored F S) {s s' : σ} {l : StepLog L W K}
    (h : timestepR F D g P S s = .ok (S', l, s')) :
    |bedOutside (routerArea F P) P.inlet S' - bedOutside (routerArea F P) P.inlet S - stepBudgetR F D P l| ≤
      budgetError F D P l := by
  obtain ⟨r, e⟩ := step_resultR h
  obtain ⟨st1, st2, -⟩ := C101_stored hL hW hS h
  obtain ⟨s1, h1, h2, h3, -⟩ := timestepR_ok h
  obtain ⟨S1, s2, p1, p2⟩ := routeSedimentR_ok h2
  have hq : 0 ≤ routerArea F P := fl_nonneg F (mul_self_nonneg _)
  have hdx' : 0 < (routerParams F P).dx := fl_pos F hdx
  have a1 := routing_outside hdx' p1
  have a2 := routing_outside hdx' p2
  have hq1 := routeParcelsR_mudQs p2
  change l.routed.qs = S1.qs at hq1
  have hbed : l.watered.eta = l.start.eta := by rw [h3]; exact (C100_ground h1).1
  have hleft : S1.eta = leftBed l.start.eta l.sand := by
    rw [(C105_routing hdx' p1).2.2]
    show leftBed l.watered.eta l.sand = _
    rw [hbed]
  have hst : ∀ c, F.fl (S1.eta c) = S1.eta c :=
    (routeParcelsR_stored p1 (show Stored F (initSediment l.watered) from
      ⟨st1.bed, st1.stage, st1.depth, st1.qx, st1.qy, st1.qw, st1.ux, st1.uy, st1.uw⟩)).bed
  have a3 := passes_total (D := D) P.cellType P.diffMult S1.qs P.Ncross hst
  -- diffusion outside of the inlet
  have hin : ∑ c : Cell L W with ¬ Outside P.inlet c, topoDiffusionR F D P.cellType P.diffMult S1.qs P.Ncross
      S1.eta c = ∑ c : Cell L W with ¬ Outside P.inlet c, S1.eta c := by
    apply Finset.sum_congr rfl
    intro c hc
    simp only [Outside, Finset.mem_filter, Finset.mem_univ, true_and, not_not] at hc
    exact topoDiffusionR_held _ _ _ _ (hst c) (.inr hc.1)
  rw [← Finset.sum_filter_add_sum_filter_not Finset.univ (fun c : Cell L W => Outside P.inlet c),
    ← Finset.sum_filter_add_sum_filter_not Finset.univ (fun c : Cell L W => Outside P.inlet c)
      (fun c => S1.eta c), hin] at a3
  -- subsidence
  have a4 : |∑ c : Cell L W with Outside P.inlet c, S'.eta c -
      (∑ c : Cell L W with Outside P.inlet c, l.routed.eta c -
        ∑ c : Cell L W with Outside P.inlet c, sinks P l.start.time c)| ≤
      if P.toggleSub = true ∧ P.startSub ≤ l.start.time then
        ∑ c : Cell L W with Outside P.inlet c, (F.u + D.u + F.u * D.u) * |l.routed.eta c - P.sigma c| else 0 := by
    rw [← Finset.sum_sub_distrib, ← Finset.sum_sub_distrib]
    refine (Finset.abs_sum_le_sum_abs _ _).trans ?_
    split_ifs with hs
    · refine Finset.sum_le_sum fun c hc => ?_
      simp only [Finset.mem_filter, Finset.mem_univ, true_and] at hc
      rw [r.bed c hc, if_pos hs]
      unfold sinks
      rw [if_pos hs]
      exact stored_err _
    · refine le_of_eq (Finset.sum_eq_zero fun c hc => ?_)
      simp only [Finset.mem_filter, Finset.mem_univ, true_and] at hc
      rw [r.bed c hc, if_neg hs]
      unfold sinks
      rw [if_neg hs]
      simp
  rw [hq1.symm, hleft] at a3
  rw [hq1.symm, hleft] at a2
  rw [hleft] at a1
  have eA : cellArea F (routerParams F P) = routerArea F P := rfl
  have eV : (routerParams F P).VpSed = F.fl P.VpSed := rfl
  have eI : (routerParams F P).inlet = P.inlet := rfl
  rw [eA, eV, eI] at a1 a2
  have ew : ∀ c, (initSediment l.watered).eta c = S.eta c := fun c => by
    show l.watered.eta c = _
    rw [hbed, h3]
  simp only [ew] at a1
  simp only [← Finset.sum_mul] at a1 a2
  unfold bedOutside stepBudgetR budgetError
  simp only [← Finset.sum_mul]
  have ca : ∀ a b : List (SedLog L W K), carriedOut (a ++ b) = carriedOut a + carriedOut b := by
    intro a b; unfold carriedOut; rw [List.map_append, List.sum_append]
  have ma : ∀ a b : List (SedLog L W K), movedToInlet P.inlet (a ++ b) =
      movedToInlet P.inlet a + movedToInlet P.inlet b := by
    intro a b; unfold movedToInlet; rw [List.map_append, List.sum_append]
  rw [ca, ma, List.map_append, List.sum_append]
  set q := routerArea F P
  set B0 := ∑ c : Cell L W with Outside P.inlet c, S.eta c
  set B1 := ∑ c : Cell L W with Outside P.inlet c, leftBed l.start.eta l.sand c
  set B2 := ∑ c : Cell L W with Outside P.inlet c, topoDiffusionR F D P.cellType P.diffMult l.routed.qs P.Ncross
      (leftBed l.start.eta l.sand) c
  set B3 := ∑ c : Cell L W with Outside P.inlet c, l.routed.eta c
  set B4 := ∑ c : Cell L W with Outside P.inlet c, S'.eta c
  set G := ∑ i ∈ Finset.range P.Ncross, passGain P.cellType P.diffMult l.routed.qs
        (topoDiffusionR F D P.cellType P.diffMult l.routed.qs i (leftBed l.start.eta l.sand))
  set E := ∑ i ∈ Finset.range P.Ncross, passError F D P.cellType P.diffMult l.routed.qs
        (topoDiffusionR F D P.cellType P.diffMult l.routed.qs i (leftBed l.start.eta l.sand))
  set R := ∑ c : Cell L W with ¬ Outside P.inlet c, leftBed l.start.eta l.sand c
  set N := ∑ c : Cell L W with Outside P.inlet c, sinks P l.start.time c
  have b3 : |(B2 - B1 - G) * q| ≤ q * E := by
    rw [abs_mul, abs_of_nonneg hq, mul_comm]
    refine mul_le_mul_of_nonneg_left ?_ hq
    rwa [show B2 + R - (B1 + R + G) = B2 - B1 - G by ring] at a3
  have b4 := mul_le_mul_of_nonneg_left a4 hq
  rw [← abs_of_nonneg hq, ← abs_mul, abs_of_nonneg hq] at b4
  set V := F.fl P.VpSed
  rw [show B4 * q - B0 * q - (V * ((l.sand.length : K) + l.mud.length) - (carriedOut l.sand + carriedOut l.mud) -
      (movedToInlet P.inlet l.sand + movedToInlet P.inlet l.mud) + q * G - q * N) =
    (B1 * q - B0 * q - (V * (l.sand.length : K) - carriedOut l.sand - movedToInlet P.inlet l.sand)) +
    ((B3 * q - B2 * q - (V * (l.mud.length : K) - carriedOut l.mud - movedToInlet P.inlet l.mud)) +
    ((B2 - B1 - G) * q + q * (B4 - (B3 - N)))) by ring]
  refine (abs_add_le _ _).trans ?_
  have c2 := abs_add_le (B3 * q - B2 * q - (V * (l.mud.length : K) - carriedOut l.mud - movedToInlet P.inlet l.mud))
    ((B2 - B1 - G) * q + q * (B4 - (B3 - N)))
  have c3 := abs_add_le ((B2 - B1 - G) * q) (q * (B4 - (B3 - N)))
  linarith

/-- C105: the budget of a run of any length in rounded arithmetic, whatever settings change between timesteps. -/
theorem C105_run {g : Rng K σ} (hL : 2 ≤ L) (hW : 2 ≤ W) {dx : K} (hdx : 0 < dx) {inlet : Fin m → Fin W} :
    ∀ {Ps : List (Params L W m K)} {S S' : State L W K} {s s' : σ} {ls : List (StepLog L W K)},
      timestepsR F D g Ps S s = .ok (S', ls, s') → (∀ P ∈ Ps, P.dx = dx ∧ P.inlet = inlet) → Stored F S →
      |bedOutside (F.fl (F.fl dx * F.fl dx)) inlet S' - bedOutside (F.fl (F.fl dx * F.fl dx)) inlet S -
          ((Ps.zip ls).map fun x => stepBudgetR F D x.1 x.2).sum| ≤
        ((Ps.zip ls).map fun x => budgetError F D x.1 x.2).sum := by
  intro Ps
  induction Ps with
  | nil =>
    intro S S' s s' ls h _ _
    simp only [timestepsR, Except.ok.injEq, Prod.mk.injEq] at h
    obtain ⟨rfl, rfl, rfl⟩ := h
    simp
  | cons P Ps ih =>
    intro S S' s s' ls h hP hS
    obtain ⟨S1, l, s1, ls1, h1, h2, rfl⟩ := timestepsR_cons h
    obtain ⟨p1, p2⟩ := hP P List.mem_cons_self
    have hu := C105_update hL hW (by rw [p1]; exact hdx) hS h1
    unfold routerArea at hu
    rw [p1, p2] at hu
    have := ih h2 (fun Q hQ => hP Q (List.mem_cons_of_mem _ hQ)) (C101_stored hL hW hS h1).2.2
    simp only [List.zip_cons_cons, List.map_cons, List.sum_cons]
    set A := bedOutside (F.fl (F.fl dx * F.fl dx)) inlet S'
    set B := bedOutside (F.fl (F.fl dx * F.fl dx)) inlet S1
    set C := bedOutside (F.fl (F.fl dx * F.fl dx)) inlet S
    set X := ((Ps.zip ls1).map fun x => stepBudgetR F D x.1 x.2).sum
    rw [show A - C - (stepBudgetR F D P l + X) = (B - C - stepBudgetR F D P l) + (A - B - X) by ring]
    exact (abs_add_le _ _).trans (add_le_add hu this)

/-- With exact arithmetic nothing is lost: the error is zero and the budget is that of C83. -/
theorem C105_exact (P : Params L W m K) (l : StepLog L W K) : budgetError (exact K) (exact K) P l = 0 := by
  have hu : (exact K).u = 0 := rfl
  unfold budgetError passError passCellError passRounds stepError
  simp [hu]

/-- C105: without diffusion and subsidence the volume of the bed outside of the inlet grows in a run of `n`
timesteps by the volume of the parcels, less what they carried out and left in the inlet, up to the rounding
errors of their steps. -/
theorem C105_plain {g : Rng K σ} (hFD : Within F D) (hg : PositiveDraws g) {P : Params L W m K}
    (hws : WaterSetup P) (hsd : SedDomain P) (h0 : 0 ≤ P.h0) (hL : 2 ≤ L) (hW : 2 ≤ W) (hdx : 0 < P.dx)
    (hn : P.Ncross = 0) (hsub : P.toggleSub = false) (n : ℕ) {S S' : State L W K} (hS : Stored F S)
    (hd : ∀ c, 0 ≤ S.depth c) (hcols : 0 < S.ncols) {s s' : σ} {ls : List (StepLog L W K)}
    (h : timestepsR F D g (List.replicate n P) S s = .ok (S', ls, s')) :
    |bedOutside (routerArea F P) P.inlet S' - (bedOutside (routerArea F P) P.inlet S +
        n * ((numStartsR D .sand P + numStartsR D .mud P) * F.fl P.VpSed)
        - (ls.map fun l => carriedOut (l.sand ++ l.mud) + movedToInlet P.inlet (l.sand ++ l.mud)).sum)| ≤
      (ls.map fun l => ((l.sand ++ l.mud).map fun x =>
        (x.steps.map (stepError F D (routerParams F P))).sum).sum).sum := by
  induction n generalizing S s ls with
  | zero =>
    simp only [List.replicate_zero, timestepsR, Except.ok.injEq, Prod.mk.injEq] at h
    obtain ⟨rfl, rfl, rfl⟩ := h
    simp
  | succ n ih =>
    rw [List.replicate_succ] at h
    obtain ⟨S1, l, s1, ls1, a1, a2, rfl⟩ := timestepsR_cons h
    obtain ⟨T, l', t, b1, b2, b3, b4, b5, -⟩ := C101_update hFD hg hws hsd h0 hd hcols s
    rw [a1] at b1
    simp only [Except.ok.injEq, Prod.mk.injEq] at b1
    obtain ⟨rfl, rfl, rfl⟩ := b1
    have hu := C105_update hL hW hdx hS a1
    have hi := ih (C101_stored hL hW hS a1).2.2 b2 b3 a2
    unfold stepBudgetR budgetError sinks at hu
    simp only [hn, hsub, Finset.range_zero, Finset.sum_empty, mul_zero, add_zero, Bool.false_eq_true, false_and,
      if_false, Finset.sum_const_zero, sub_zero, b4, b5] at hu
    simp only [List.map_cons, List.sum_cons]
    push_cast
    set A := bedOutside (routerArea F P) P.inlet S'
    set B := bedOutside (routerArea F P) P.inlet S1
    set C := bedOutside (routerArea F P) P.inlet S
    set V := F.fl P.VpSed
    set X := (ls1.map fun l => carriedOut (l.sand ++ l.mud) + movedToInlet P.inlet (l.sand ++ l.mud)).sum
    set c := carriedOut (l.sand ++ l.mud)
    set i := movedToInlet P.inlet (l.sand ++ l.mud)
    set N : K := (numStartsR D .sand P : K) + (numStartsR D .mud P : K)
    rw [show A - (C + ((n : K) + 1) * (N * V) - (c + i + X)) =
      (B - C - (V * N - c - i)) + (A - (B + (n : K) * (N * V) - X)) by ring]
    exact (abs_add_le _ _).trans (add_le_add hu hi)

/-! ## A non-trivial case -/

-- C105: ten timesteps of the example, with diffusion and subsidence, in the arithmetic of the program
example {g : Rng ℚ σ} (hg : PositiveDraws g) (s : σ) : ∃ S' ls s',
    timestepsR single double g (List.replicate 10 exParams) exDeep s = .ok (S', ls, s') ∧ ls.length = 10 ∧
    |bedOutside (single.fl (single.fl exParams.dx * single.fl exParams.dx)) exParams.inlet S' -
        bedOutside (single.fl (single.fl exParams.dx * single.fl exParams.dx)) exParams.inlet exDeep -
          (((List.replicate 10 exParams).zip ls).map fun x => stepBudgetR single double x.1 x.2).sum| ≤
      (((List.replicate 10 exParams).zip ls).map fun x => budgetError single double x.1 x.2).sum := by
  obtain ⟨S', ls, s', h, hl, -⟩ := C101_example hg s
  refine ⟨S', ls, s', h, hl, C105_run (by norm_num) (by norm_num) (by norm_num [exParams]) h ?_ exDeep_stored⟩
  intro P hP
  rw [List.eq_of_mem_replicate hP]
  exact ⟨rfl, rfl⟩

end Verif.Props
