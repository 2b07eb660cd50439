import Verif.Lemmas.FreeSurface

/-!
# C15 to C18: the water surface
-/

set_option linter.unusedSectionVars false

namespace Verif.Props

open Verif.Model Verif.Lemmas Verif.Spec

variable {K : Type*} [Field K] [LinearOrder K] [IsStrictOrderedRing K] {L W : ℕ}

/-! ## C15 -/

/-- The recorded walks `ps` follow the paths `css`. -/
def Walked (ps : List (List ℤ × Bool)) (css : List (List (Cell L W))) : Prop :=
  List.Forall₂ (fun (p : List ℤ × Bool) cs => IsPath p.1 cs ∧ cs ≠ []) ps css

/-- C15: a cell is counted once for each passage of a contributing parcel before its last cell,
and never for other parcels. -/
theorem C15_visits (E : SfcEnv L W K) {ps : List (List ℤ × Bool)} {css : List (List (Cell L W))}
    (h : Walked ps css) :
    ∃ a, accumulateFreeSurface E ps = .ok a ∧
      ∀ c, a.visit c = ((List.zipWith (fun (p : List ℤ × Bool) cs =>
        if Contributes E cs p.2 then cs.dropLast.count c else 0) ps css).sum : ℕ) := by
  obtain ⟨a, h1, h2, -⟩ := sfcParcels_of_paths E h ⟨fun _ => 0, fun _ => 0⟩
  exact ⟨a, h1, fun c => by rw [h2 c, zero_add]⟩

/-- C15: the number of visits is the number of path cells before the last, of the contributing
parcels. -/
theorem C15_total_visits (E : SfcEnv L W K) {ps : List (List ℤ × Bool)}
    {css : List (List (Cell L W))} (h : Walked ps css) {a : SfcAcc L W K}
    (ha : accumulateFreeSurface E ps = .ok a) :
    ∑ c, a.visit c = ((List.zipWith (fun (p : List ℤ × Bool) cs =>
        if Contributes E cs p.2 then cs.length - 1 else 0) ps css).sum : ℕ) := by
  obtain ⟨a', h1, h2⟩ := C15_visits E h
  rw [ha] at h1
  cases h1
  simp only [h2]
  rw [← Nat.cast_sum]
  congr 1
  clear h2 ha a
  induction h with
  | nil => simp
  | @cons p cs ps css hp _ ih =>
    simp only [List.zipWith_cons_cons, List.sum_cons, Finset.sum_add_distrib]
    rw [ih]
    congr 1
    split_ifs
    · rw [← List.length_dropLast]
      exact sum_count_univ cs.dropLast
    · simp

/-- C15: parcels that were disqualified or did not end at the edge have no influence at all. -/
theorem C15_only_contributors (E : SfcEnv L W K) {ps : List (List ℤ × Bool)}
    {css : List (List (Cell L W))} (h : Walked ps css) :
    ∃ qs dss, Walked qs dss ∧ accumulateFreeSurface E ps = accumulateFreeSurface E qs ∧
      (ps.zip css).filter (fun x : (List ℤ × Bool) × List (Cell L W) =>
        decide (Contributes E x.2 x.1.2)) = qs.zip dss := by
  have key : ∀ a, ∃ qs dss, Walked qs dss ∧ sfcParcels E ps a = sfcParcels E qs a ∧
      (ps.zip css).filter (fun x : (List ℤ × Bool) × List (Cell L W) =>
        decide (Contributes E x.2 x.1.2)) = qs.zip dss := by
    induction h with
    | nil => intro a; exact ⟨[], [], List.Forall₂.nil, rfl, rfl⟩
    | @cons p cs ps css hp hps ih =>
      intro a
      obtain ⟨walk, flag⟩ := p
      obtain ⟨a1, h1, h2, -, -⟩ := sfcParcel_of_path E flag a hp.1 hp.2
      obtain ⟨qs, dss, g1, g2, g3⟩ := ih a1
      by_cases hc : Contributes E cs flag
      · refine ⟨(walk, flag) :: qs, cs :: dss, List.Forall₂.cons hp g1, ?_, ?_⟩
        · simp only [sfcParcels, h1]; exact g2
        · simp only [List.zip_cons_cons, List.filter_cons, hc, decide_true, if_true, g3]
      · have := h2 hc
        subst this
        refine ⟨qs, dss, g1, ?_, ?_⟩
        · simp only [sfcParcels, h1]; exact g2
        · simp only [List.zip_cons_cons, List.filter_cons, hc, decide_false, Bool.false_eq_true,
            if_false, g3]
  exact key _

/-- C15: the summed elevations are those of the profiles of the contributing parcels.
Missing for the full statement: paths on which a parcel is recorded twice in a row in the same
cell (see `C15_repeat_witness`). -/
theorem C15_elevations_partial (E : SfcEnv L W K) {ps : List (List ℤ × Bool)}
    {css : List (List (Cell L W))} (h : Walked ps css) (hm : ∀ cs ∈ css, Moves cs)
    {a : SfcAcc L W K} (ha : accumulateFreeSurface E ps = .ok a) (c : Cell L W) :
    a.sum c = (List.zipWith (fun (p : List ℤ × Bool) cs =>
      if Contributes E cs p.2 then heightAt E cs c else 0) ps css).sum := by
  obtain ⟨a', h1, -, h2⟩ := sfcParcels_of_paths E h ⟨fun _ => 0, fun _ => 0⟩
  unfold accumulateFreeSurface at ha
  rw [ha] at h1
  cases h1
  rw [h2 hm c, zero_add]

/-- C15: the mean elevation found for a visited cell differs from sea level by at most the
reference slope times the length of the longest contributing path. `nrm` is the length of a
vector (or an upper bound of it); the velocity components do not exceed the velocity magnitude (C21).
Missing for the full statement: see `C15_elevations_partial`. -/
theorem C15_bound_partial (E : SfcEnv L W K) {nrm : K → K → K} (hn0 : ∀ x y, 0 ≤ nrm x y)
    (hn : ∀ x y, x * x + y * y ≤ nrm x y * nrm x y) (hS : 0 ≤ E.S0) (hdx : 0 ≤ E.dx)
    (hu : ∀ c, E.ux c * E.ux c + E.uy c * E.uy c ≤ E.uw c * E.uw c)
    {ps : List (List ℤ × Bool)} {css : List (List (Cell L W))} (h : Walked ps css)
    (hm : ∀ cs ∈ css, Moves cs) {a : SfcAcc L W K} (ha : accumulateFreeSurface E ps = .ok a)
    {M : K} (hM : ∀ cs ∈ css, pathLength nrm cs ≤ M) (c : Cell L W) (hc : 0 < a.visit c) :
    |a.sum c / a.visit c - E.HSL| ≤ E.S0 * (M * E.dx) := by
  have hs := C15_elevations_partial E h hm ha c
  obtain ⟨a', h1, h2⟩ := C15_visits E h
  rw [ha] at h1
  cases h1
  have hv := h2 c
  have key : |a.sum c - a.visit c * E.HSL| ≤ a.visit c * (E.S0 * E.dx * M) := by
    rw [hs, hv]
    clear hs hv h2 ha hc
    induction h with
    | nil => simp
    | @cons p cs ps css hp _ ih =>
      have hi := ih (fun x hx => hm x (List.mem_cons_of_mem _ hx))
        (fun x hx => hM x (List.mem_cons_of_mem _ hx))
      simp only [List.zipWith_cons_cons, List.sum_cons]
      by_cases hcon : Contributes E cs p.2
      · simp only [if_pos hcon]
        have hb := heightAt_bound E cs c (E.S0 * E.dx * M) (fun x hx =>
          (profile_mem_bound E hn0 hn hS hdx hu cs x hx).trans
            (mul_le_mul_of_nonneg_left (hM cs (List.mem_cons_self ..)) (mul_nonneg hS hdx)))
        set T : K := (List.zipWith (fun (p : List ℤ × Bool) cs =>
          if Contributes E cs p.2 then heightAt E cs c else 0) ps css).sum
        set N : ℕ := (List.zipWith (fun (p : List ℤ × Bool) cs =>
          if Contributes E cs p.2 then cs.dropLast.count c else 0) ps css).sum
        rw [Nat.cast_add]
        calc |heightAt E cs c + T - ((cs.dropLast.count c : ℕ) + (N : K)) * E.HSL|
            = |(heightAt E cs c - (cs.dropLast.count c : ℕ) * E.HSL) + (T - N * E.HSL)| := by
              ring_nf
          _ ≤ |heightAt E cs c - (cs.dropLast.count c : ℕ) * E.HSL| + |T - N * E.HSL| :=
              abs_add_le _ _
          _ ≤ _ := by rw [add_mul]; exact add_le_add hb hi
      · simpa only [if_neg hcon, zero_add] using hi
  have e : a.sum c / a.visit c - E.HSL = (a.sum c - a.visit c * E.HSL) / a.visit c := by
    field_simp
  rw [e, abs_div, abs_of_pos hc, div_le_iff₀ hc]
  calc |a.sum c - a.visit c * E.HSL| ≤ a.visit c * (E.S0 * E.dx * M) := key
    _ = _ := by ring

/-! ## C16 -/

/-- C16: the surface used before smoothing is the highest of the sea level, the bed and the mean
of the accumulated elevations (the old surface where no parcel passed). -/
theorem C16_value (eta depth : Grid L W K) (a : SfcAcc L W K) (HSL : K) (c : Cell L W) :
    (0 < a.visit c → computeHnew eta depth a HSL c = max (eta c) (max HSL (a.sum c / a.visit c))) ∧
    (¬ 0 < a.visit c → computeHnew eta depth a HSL c = max (eta c) (max HSL (eta c + depth c))) := by
  have key : ∀ h1 : K, (if (if h1 < HSL then HSL else h1) < eta c then eta c
      else if h1 < HSL then HSL else h1) = max (eta c) (max HSL h1) := by
    intro h1
    have e : (if h1 < HSL then HSL else h1) = max HSL h1 := by
      split_ifs with h
      · exact (max_eq_left h.le).symm
      · exact (max_eq_right (not_lt.1 h)).symm
    rw [e]
    split_ifs with h
    · exact (max_eq_left h.le).symm
    · exact (max_eq_right (not_lt.1 h)).symm
  constructor <;> intro h
  · simp only [computeHnew, gt_iff_lt, if_pos h]; exact key _
  · simp only [computeHnew, gt_iff_lt, if_neg h]; exact key _

/-- C16: the surface used before smoothing is never below sea level nor below the bed. -/
theorem C16_above (eta depth : Grid L W K) (a : SfcAcc L W K) (HSL : K) (c : Cell L W) :
    HSL ≤ computeHnew eta depth a HSL c ∧ eta c ≤ computeHnew eta depth a HSL c := by
  obtain ⟨h1, h2⟩ := C16_value eta depth a HSL c
  by_cases h : 0 < a.visit c
  · rw [h1 h]; exact ⟨(le_max_left _ _).trans (le_max_right _ _), le_max_left _ _⟩
  · rw [h2 h]; exact ⟨(le_max_left _ _).trans (le_max_right _ _), le_max_left _ _⟩

/-! ## C17 -/

section smoothing

variable [NeZero L] [NeZero W]

lemma smoothPass_bounds {ct : Grid L W ℤ} {C : K} (h0 : 0 ≤ C) (h1 : C ≤ 1) {H : Grid L W K}
    {lo hi : K} (h : ∀ c, lo ≤ H c ∧ H c ≤ hi) (c : Cell L W) :
    lo ≤ smoothPass ct C H c ∧ smoothPass ct C H c ≤ hi := by
  rcases smoothPass_cases ct C H c with e | ⟨-, S, hS, -, e⟩
  · rw [e]; exact h c
  · rw [e]
    have hcard : (0 : K) < S.card := by exact_mod_cast Finset.card_pos.2 hS
    have hn : ∀ d ∈ S, lo ≤ nbrs H c d ∧ nbrs H c d ≤ hi := fun d _ =>
      nbrs_forall (P := fun x => lo ≤ x ∧ x ≤ hi) h c d
    have m1 : lo ≤ (∑ d ∈ S, nbrs H c d) / (S.card : K) := by
      rw [le_div_iff₀ hcard, mul_comm, ← nsmul_eq_mul]
      exact Finset.card_nsmul_le_sum _ _ _ (fun d hd => (hn d hd).1)
    have m2 : (∑ d ∈ S, nbrs H c d) / (S.card : K) ≤ hi := by
      rw [div_le_iff₀ hcard, mul_comm, ← nsmul_eq_mul]
      exact Finset.sum_le_card_nsmul _ _ _ (fun d hd => (hn d hd).2)
    have h1' : 0 ≤ 1 - C := sub_nonneg.2 h1
    have a1 := mul_le_mul_of_nonneg_left (h c).1 h0
    have a2 := mul_le_mul_of_nonneg_left (h c).2 h0
    have b1 := mul_le_mul_of_nonneg_left m1 h1'
    have b2 := mul_le_mul_of_nonneg_left m2 h1'
    constructor <;> linarith

/-- C17: smoothing keeps every value between any bounds of the input. -/
theorem C17_bounds {ct : Grid L W ℤ} {C : K} (h0 : 0 ≤ C) (h1 : C ≤ 1) (n : ℕ) {H : Grid L W K}
    {lo hi : K} (h : ∀ c, lo ≤ H c ∧ H c ≤ hi) (c : Cell L W) :
    lo ≤ smooth ct C n H c ∧ smooth ct C n H c ≤ hi :=
  smooth_induct (P := fun H => ∀ c, lo ≤ H c ∧ H c ≤ hi)
    (fun _ h => smoothPass_bounds h0 h1 h) n h c

/-- C17: a flat surface stays flat, for every coefficient. -/
theorem C17_flat (ct : Grid L W ℤ) (C : K) (n : ℕ) (z : K) (c : Cell L W) :
    smooth ct C n (fun _ => z) c = z := by
  refine smooth_induct (P := fun H => ∀ c, H c = z) ?_ n (fun _ => rfl) c
  intro H h c
  rcases smoothPass_cases ct C H c with e | ⟨-, S, hS, -, e⟩
  · rw [e]; exact h c
  · have hcard : (0 : K) < S.card := by exact_mod_cast Finset.card_pos.2 hS
    have hn : ∀ d ∈ S, nbrs H c d = z := fun d _ => nbrs_forall (P := fun x => x = z) h c d
    rw [e, Finset.sum_congr rfl hn, h c, Finset.sum_const, nsmul_eq_mul]
    field_simp
    ring

/-- C17: edge cells keep their value. -/
theorem C17_edge_unchanged (ct : Grid L W ℤ) (C : K) (n : ℕ) (H : Grid L W K) (c : Cell L W)
    (hc : ct c = -1) : smooth ct C n H c = H c := by
  refine smooth_induct (P := fun H' => H' c = H c) ?_ n rfl
  intro H' h'
  rcases smoothPass_cases ct C H' c with e | ⟨hct, -⟩
  · rw [e]; exact h'
  · exact absurd hc hct

/-- C17: the value of land cells has no influence on the other cells. -/
theorem C17_land_no_influence (ct : Grid L W ℤ) (C : K) (n : ℕ) (H H' : Grid L W K)
    (h : ∀ c, ct c ≠ -2 → H c = H' c) (c : Cell L W) (hc : ct c ≠ -2) :
    smooth ct C n H c = smooth ct C n H' c := by
  induction n generalizing H H' with
  | zero => exact h c hc
  | succ n ih =>
    apply ih
    intro c hc
    unfold smoothPass
    by_cases h1 : ct c ≠ -1
    · simp only [if_pos h1, h c hc]
      have hs : ∀ d, (if (decide (nbrs ct c d = -2) || decide (d = 4)) = true then 0 else nbrs H c d)
          = (if (decide (nbrs ct c d = -2) || decide (d = 4)) = true then 0 else nbrs H' c d) := by
        intro d
        by_cases hd : nbrs ct c d = -2
        · simp [hd]
        · obtain ⟨m, m1, m2, m3⟩ := C03_neighbourhood ct c d
          obtain ⟨p, p1, p2, p3⟩ := C03_neighbourhood H c d
          obtain ⟨q, q1, q2, q3⟩ := C03_neighbourhood H' c d
          have hpm : p = m := Prod.ext (Fin.ext (by omega)) (Fin.ext (by omega))
          have hqm : q = m := Prod.ext (Fin.ext (by omega)) (Fin.ext (by omega))
          rw [p3, q3, hpm, hqm, h m (by rw [← m3]; exact hd)]
      simp only [hs]
    · simp only [if_neg h1]
      exact h c hc

/-- C17: one pass at an interior cell gives the weighted mean of the old value and the average of
the neighbouring cells that are not land. -/
theorem C17_interior_mean (ct : Grid L W ℤ) (C : K) (H : Grid L W K) (c : Cell L W)
    (hc : ct c ≠ -1) (hi : 0 < c.1.val ∧ c.1.val + 1 < L ∧ 0 < c.2.val ∧ c.2.val + 1 < W)
    (N : Finset (Cell L W)) (hN : ∀ n, n ∈ N ↔ Adjacent c n ∧ ct n ≠ -2) (hne : N.Nonempty) :
    smooth ct C 1 H c = C * H c + (1 - C) * ((∑ n ∈ N, H n) / (N.card : K)) := by
  set f : Fin 9 → Cell L W := fun d =>
    (⟨c.1.val + d.val / 3 - 1, by omega⟩, ⟨c.2.val + d.val % 3 - 1, by omega⟩) with hf
  have hnb : ∀ d, nbrs ct c d = ct (f d) := nbrs_interior ct c hi
  have hnbH : ∀ d, nbrs H c d = H (f d) := nbrs_interior H c hi
  set S : Finset (Fin 9) := Finset.univ.filter (fun d : Fin 9 =>
    (!(decide (nbrs ct c d = -2) || decide (d = 4))) = true) with hS
  have hinj : Set.InjOn f (S : Set (Fin 9)) := by
    intro d _ e _ hde
    simp only [hf, Prod.mk.injEq, Fin.mk.injEq] at hde
    exact Fin.ext (by omega)
  have himg : S.image f = N := by
    ext n
    rw [hN, Finset.mem_image]
    constructor
    · rintro ⟨d, hd, rfl⟩
      simp only [hS, Finset.mem_filter, Finset.mem_univ, true_and, Bool.not_eq_true',
        Bool.or_eq_false_iff, decide_eq_false_iff_not] at hd
      rw [hnb] at hd
      refine ⟨⟨?_, ?_, ?_⟩, hd.1⟩
      · intro hcf
        apply hd.2
        have h1 := congrArg (fun x : Cell L W => x.1.val) hcf
        have h2 := congrArg (fun x : Cell L W => x.2.val) hcf
        simp only [hf] at h1 h2
        apply Fin.ext
        show d.val = 4
        omega
      · rw [abs_le]; simp only [hf]; omega
      · rw [abs_le]; simp only [hf]; omega
    · rintro ⟨⟨h1, h2, h3⟩, h4⟩
      rw [abs_le] at h2 h3
      have hn1 := n.1.isLt
      have hn2 := n.2.isLt
      have hd : 3 * (n.1.val + 1 - c.1.val) + (n.2.val + 1 - c.2.val) < 9 := by omega
      have hfd : f ⟨_, hd⟩ = n := by
        refine Prod.ext (Fin.ext ?_) (Fin.ext ?_) <;> simp only [hf] <;> omega
      refine ⟨⟨_, hd⟩, ?_, hfd⟩
      simp only [hS, Finset.mem_filter, Finset.mem_univ, true_and, Bool.not_eq_true',
        Bool.or_eq_false_iff, decide_eq_false_iff_not]
      rw [hnb, hfd]
      refine ⟨h4, ?_⟩
      intro h4'
      have h5 : 3 * (n.1.val + 1 - c.1.val) + (n.2.val + 1 - c.2.val) = 4 := congrArg Fin.val h4'
      exact h1 (Prod.ext (Fin.ext (by omega)) (Fin.ext (by omega)))
  have hcard : S.card = N.card := by rw [← himg, Finset.card_image_of_injOn hinj]
  have hsum : ∑ d, (if (decide (nbrs ct c d = -2) || decide (d = 4)) = true then 0 else nbrs H c d)
      = ∑ n ∈ N, H n := by
    rw [← himg, Finset.sum_image hinj, hS, Finset.sum_filter]
    apply Finset.sum_congr rfl
    intro d _
    rw [hnbH]
    by_cases hd : (decide (nbrs ct c d = -2) || decide (d = 4)) = true <;> simp [hd]
  show smoothPass ct C H c = _
  unfold smoothPass
  simp only [if_pos hc]
  rw [if_pos (by rw [← hS, hcard]; exact Finset.card_pos.2 hne), hsum, ← hS, hcard]

end smoothing

/-! ## C18 -/

section flooding

variable [NeZero L] [NeZero W] {eta depth stage : Grid L W K} {dry : K}

/-- What the flooding correction does at a cell. -/
lemma flood_cases (hL : 2 ≤ L) (hW : 2 ≤ W) (c : Cell L W) :
    (floodingCorrection eta depth stage dry c = stage c ∧
      (depth c ≤ dry → ∀ n, Adjacent c n → dry < depth n → stage n ≤ eta c)) ∨
    (depth c ≤ dry ∧ (∃ n, Adjacent c n ∧ dry < depth n) ∧
      eta c < floodingCorrection eta depth stage dry c ∧
      (∀ n, Adjacent c n → dry < depth n → stage n ≤ floodingCorrection eta depth stage dry c) ∧
      ((∃ n, Adjacent c n ∧ dry < depth n ∧ floodingCorrection eta depth stage dry c = stage n) ∨
        floodingCorrection eta depth stage dry c = 0)) := by
  by_cases hd : dry < depth c
  · left
    refine ⟨by simp [floodingCorrection, hd], fun h => absurd hd (not_lt.2 h)⟩
  · have hiff := shore_iff hL hW depth dry c hd
    set T : Fin 8 → K := fun k => wetMaskNh depth dry k c * buildWeightArray stage false k c with hT
    have hval : ∀ k, (∃ n, Adjacent c n ∧ dry < depth n ∧ T k = stage n) ∨ T k = 0 := by
      intro k
      rcases flood_term hL hW depth stage dry k c with ⟨n, h1, h2, h3, h4⟩ | ⟨-, h⟩
      · left; exact ⟨n, off8_adjacent h1 h2, h3, h4⟩
      · right; exact h
    have hreach : ∀ n, Adjacent c n → dry < depth n → ∃ k, T k = stage n := by
      intro n hn hw
      obtain ⟨k, h1, h2⟩ := adjacent_off8 hn
      refine ⟨k, ?_⟩
      rcases flood_term hL hW depth stage dry k c with ⟨m, e1, e2, -, e4⟩ | ⟨e, -⟩
      · have hmn : m = n := Prod.ext (Fin.ext (by omega)) (Fin.ext (by omega))
        rw [← hmn]; exact e4
      · exact absurd ⟨n, h1, h2, hw⟩ e
    by_cases hs : 0 < ∑ k, wetMaskNh depth dry k c
    · by_cases hex : ∃ k, T k > eta c
      · right
        have e : floodingCorrection eta depth stage dry c
            = Finset.univ.sup' Finset.univ_nonempty T := by
          simp only [floodingCorrection, gt_iff_lt, if_neg hd, if_pos hs]
          exact if_pos hex
        obtain ⟨k0, hk0⟩ := hex
        refine ⟨not_lt.1 hd, hiff.1 hs, ?_, ?_, ?_⟩
        · rw [e]; exact lt_of_lt_of_le hk0 (Finset.le_sup' T (Finset.mem_univ k0))
        · intro n hn hw
          obtain ⟨k, hk⟩ := hreach n hn hw
          rw [e, ← hk]; exact Finset.le_sup' T (Finset.mem_univ k)
        · obtain ⟨k, -, hk⟩ := Finset.exists_mem_eq_sup' Finset.univ_nonempty T
          rw [e, hk]
          exact hval k
      · left
        refine ⟨?_, ?_⟩
        · simp only [floodingCorrection, gt_iff_lt, if_neg hd, if_pos hs]
          exact if_neg hex
        · intro _ n hn hw
          obtain ⟨k, hk⟩ := hreach n hn hw
          by_contra hcon
          exact hex ⟨k, by rw [hk]; exact not_le.1 hcon⟩
    · left
      refine ⟨?_, ?_⟩
      · simp only [floodingCorrection, gt_iff_lt, if_neg hd, if_neg hs]
      · intro _ n hn hw
        exact absurd (hiff.2 ⟨n, hn, hw⟩) hs

/-- C18: only dry cells with a wet neighbour change, and they end above their bed. -/
theorem C18_only_dry_shore (hL : 2 ≤ L) (hW : 2 ≤ W) (c : Cell L W)
    (h : floodingCorrection eta depth stage dry c ≠ stage c) :
    depth c ≤ dry ∧ (∃ n, Adjacent c n ∧ dry < depth n) ∧
      eta c < floodingCorrection eta depth stage dry c := by
  rcases flood_cases (eta := eta) (depth := depth) (stage := stage) (dry := dry) hL hW c with
    ⟨e, -⟩ | ⟨h1, h2, h3, -⟩
  · exact absurd e h
  · exact ⟨h1, h2, h3⟩

/-- C18: a dry cell with a wet neighbour whose stage is above the bed of the cell gets the highest
stage of its wet neighbours.
Missing for the full statement: beds below elevation zero (see `C18_negative_bed_witness`). -/
theorem C18_flooded_partial (hL : 2 ≤ L) (hW : 2 ≤ W) (c : Cell L W) (he : 0 ≤ eta c)
    (hd : depth c ≤ dry) (h : ∃ n, Adjacent c n ∧ dry < depth n ∧ eta c < stage n) :
    IsGreatest {z | ∃ n, Adjacent c n ∧ dry < depth n ∧ z = stage n}
      (floodingCorrection eta depth stage dry c) := by
  obtain ⟨n, hn, hw, hz⟩ := h
  rcases flood_cases (eta := eta) (depth := depth) (stage := stage) (dry := dry) hL hW c with
    ⟨-, e⟩ | ⟨-, -, h3, h4, h5⟩
  · exact absurd (e hd n hn hw) (not_le.2 hz)
  · refine ⟨?_, ?_⟩
    · rcases h5 with ⟨m, h6, h7, h8⟩ | h6
      · exact ⟨m, h6, h7, h8⟩
      · rw [h6] at h3; exact absurd he (not_le.2 h3)
    · rintro z ⟨m, h6, h7, rfl⟩
      exact h4 m h6 h7

/-- C18: all other cells keep their stage.
Missing for the full statement: beds below elevation zero (see `C18_negative_bed_witness`). -/
theorem C18_unchanged_partial (hL : 2 ≤ L) (hW : 2 ≤ W) (c : Cell L W) (he : 0 ≤ eta c)
    (h : ∀ n, depth c ≤ dry → Adjacent c n → dry < depth n → stage n ≤ eta c) :
    floodingCorrection eta depth stage dry c = stage c := by
  rcases flood_cases (eta := eta) (depth := depth) (stage := stage) (dry := dry) hL hW c with
    ⟨e, -⟩ | ⟨h1, -, h3, -, h5⟩
  · exact e
  · rcases h5 with ⟨m, h6, h7, h8⟩ | h6
    · have := h m h1 h6 h7
      rw [← h8] at this
      exact absurd this (not_le.2 h3)
    · rw [h6] at h3; exact absurd he (not_le.2 h3)

/-- C18, general form: a changed cell gets the stage of a wet neighbour, or elevation zero, and
never less than any wet neighbour. -/
theorem C18_value (hL : 2 ≤ L) (hW : 2 ≤ W) (c : Cell L W)
    (h : floodingCorrection eta depth stage dry c ≠ stage c) :
    (∀ n, Adjacent c n → dry < depth n → stage n ≤ floodingCorrection eta depth stage dry c) ∧
    ((∃ n, Adjacent c n ∧ dry < depth n ∧ floodingCorrection eta depth stage dry c = stage n) ∨
      floodingCorrection eta depth stage dry c = 0) := by
  rcases flood_cases (eta := eta) (depth := depth) (stage := stage) (dry := dry) hL hW c with
    ⟨e, -⟩ | ⟨-, -, -, h4, h5⟩
  · exact absurd e h
  · exact ⟨h4, h5⟩

end flooding

/-! ## Examples -/

/-- Example: a straight channel of five rows; the last row is the edge, water flows down. -/
def exSfc : SfcEnv 5 3 ℚ where
  cellType := fun c => if c.1.val = 4 then -1 else 0
  uw := fun _ => 1
  ux := fun _ => 1
  uy := fun _ => 0
  depth := fun _ => 1
  dx := 2
  u0 := 1
  h0 := 1
  HSL := 0
  S0 := 1 / 10

/-- Example: the cells of a walk down the middle column, and one that stops short. -/
def exPaths : List (List (Cell 5 3)) :=
  [[(0, 1), (1, 1), (2, 1), (3, 1), (4, 1)], [(0, 1), (1, 2)]]

/-- Example: the recorded walks. -/
def exWalks : List (List ℤ × Bool) := [([1, 4, 7, 10, 13, 0, 0], true), ([1, 5, 0, 0, 0, 0, 0], true)]

lemma exWalked : Walked exWalks exPaths := by
  refine List.Forall₂.cons ⟨?_, by simp⟩ (List.Forall₂.cons ⟨?_, by simp⟩ List.Forall₂.nil)
  · unfold IsPath; decide
  · unfold IsPath; decide

lemma exMoves : ∀ cs ∈ exPaths, Moves cs := by
  intro cs h
  simp only [exPaths, List.mem_cons, List.not_mem_nil, or_false] at h
  rcases h with rfl | rfl <;> simp [Moves]

-- the first parcel contributes, the second does not
example : Contributes exSfc [(0, 1), (1, 1), (2, 1), (3, 1), (4, 1)] true ∧
    ¬ Contributes exSfc [(0, 1), (1, 2)] true := by decide +kernel

example : ∃ a, accumulateFreeSurface exSfc exWalks = .ok a ∧ ∑ c, a.visit c = 4 ∧
    a.sum (0, 1) = 6 / 10 := by
  obtain ⟨a, h1, h2⟩ := C15_visits exSfc exWalked
  refine ⟨a, h1, ?_, ?_⟩
  · rw [C15_total_visits exSfc exWalked h1]; decide +kernel
  · rw [C15_elevations_partial exSfc exWalked exMoves h1]; decide +kernel

-- the hypotheses of the bound are met with an upper bound of the length
example {a : SfcAcc 5 3 ℚ} (ha : accumulateFreeSurface exSfc exWalks = .ok a) (c : Cell 5 3)
    (hc : 0 < a.visit c) : |a.sum c / a.visit c - 0| ≤ (1 / 10) * (4 * 2) := by
  refine C15_bound_partial exSfc (nrm := fun x y => |x| + |y|) (fun x y => by positivity)
    (fun x y => ?_) (by norm_num [exSfc]) (by norm_num [exSfc]) (fun c => by simp [exSfc])
    exWalked exMoves ha (M := 4) ?_ c hc
  · have h1 := abs_mul_abs_self x
    have h2 := abs_mul_abs_self y
    nlinarith [mul_nonneg (abs_nonneg x) (abs_nonneg y)]
  · intro cs h
    simp only [exPaths, List.mem_cons, List.not_mem_nil, or_false] at h
    rcases h with rfl | rfl <;> norm_num [pathLength]

/-- C15: when a parcel is recorded several times in a row in one cell (a parcel that is relocated
back to its cell), the code adds the last rise again each time. Here four records in the cell
(1, 1), three steps from the edge, give an elevation above the slope times the path length. -/
theorem C15_repeat_witness :
    (match accumulateFreeSurface exSfc [([4, 4, 4, 4, 7, 10, 13, 0], true)] with
      | .ok a => a.sum (1, 1) / a.visit (1, 1)
      | .error _ => 0) > exSfc.S0 * (3 * exSfc.dx) := by decide +kernel

-- C16: a visited cell, an unvisited one and a cell with high bed
example : computeHnew (fun c : Cell 1 3 => if c.2.val = 2 then (5 : ℚ) else 0) (fun _ => 1)
    ⟨fun c => if c.2.val = 0 then 2 else 0, fun _ => 6⟩ 2 = ![3, 2, 6] ∘ Prod.snd := by
  decide +kernel

-- C17: a bump is lowered and stays inside the bounds
example : smooth (fun _ => 0) (1 / 2) 2 (fun c : Cell 3 3 => if c = (1, 1) then (8 : ℚ) else 0)
    (1, 1) = 9 / 4 := by decide +kernel

/-- C17: with a coefficient above one (which validation accepts) smoothing creates new
extremes. -/
theorem C17_overshoot_witness :
    smooth (fun _ => 0) 2 1 (fun c : Cell 3 3 => if c = (1, 1) then (1 : ℚ) else 0) (1, 1) = 2 := by
  decide +kernel

/-- Example: a dry cell in the corner beside wet cells. -/
def exFloodEta : Grid 3 3 ℚ := fun c => if c = (1, 1) then 1 else -1
/-- Example: stage higher than the dry cell on one side. -/
def exFloodStage : Grid 3 3 ℚ := fun c => if c.1.val = 0 then 3 / 2 else 1 / 2
/-- Example: depth of the example. -/
def exFloodDepth : Grid 3 3 ℚ := fun c => max 0 (exFloodStage c - exFloodEta c)

-- C18: the hypotheses are met and the dry cell is flooded
example : exFloodDepth (1, 1) ≤ 1 / 10 ∧ 0 ≤ exFloodEta (1, 1) ∧
    (∃ n, Adjacent (1, 1) n ∧ 1 / 10 < exFloodDepth n ∧ exFloodEta (1, 1) < exFloodStage n) ∧
    floodingCorrection exFloodEta exFloodDepth exFloodStage (1 / 10) (1, 1) = 3 / 2 := by
  decide +kernel

/-- C18: with a bed below elevation zero, a dry neighbour or the outside of the domain counts as
water at elevation zero: the cell is flooded to a level above all water around it. -/
theorem C18_negative_bed_witness :
    let eta : Grid 3 3 ℚ := fun c => if c.1.val = 2 then -9 else -4
    let stage : Grid 3 3 ℚ := fun c => if c.1.val = 2 then -5 else -4
    let depth : Grid 3 3 ℚ := fun c => stage c - eta c
    (∀ n, stage n ≤ -4) ∧ floodingCorrection eta depth stage (1 / 10) (1, 1) = 0 := by
  decide +kernel

end Verif.Props
