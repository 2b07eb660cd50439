import Verif.Spec.FreeSurface

/-!
# Lemmas on the water surface
-/

set_option linter.unusedSectionVars false
set_option linter.unusedSimpArgs false

namespace Verif.Lemmas

open Verif.Model Verif.Props Verif.Spec

variable {K : Type*} [Field K] [LinearOrder K] [IsStrictOrderedRing K] {L W : ℕ}

lemma position_eq_posOf (c : Cell L W) : position c = posOf c := rfl

lemma unravel_posOf (c : Cell L W) :
    customUnravel (posOf c) ((L : ℤ), (W : ℤ)) = .ok ((c.1.val : ℤ), (c.2.val : ℤ)) := by
  have hW : 0 < W := lt_of_le_of_lt (Nat.zero_le _) c.2.isLt
  have h1 := posOf_lt c
  have hc2 : (c.2.val : ℤ) < W := by exact_mod_cast c.2.isLt
  have hc0 : (0 : ℤ) ≤ c.2.val := by positivity
  unfold customUnravel
  rw [if_neg (by simp only; rw [mul_comm]; omega), if_neg (by simp only; omega)]
  simp only [posOf]
  rw [Int.fdiv_eq_ediv_of_nonneg _ (by omega), Int.fmod_eq_emod_of_nonneg _ (by omega)]
  rw [Int.mul_add_ediv_left _ _ (by omega : (W : ℤ) ≠ 0), Int.ediv_eq_zero_of_lt hc0 hc2,
    Int.mul_add_emod_self_left, Int.emod_eq_of_lt hc0 hc2]
  simp

lemma pyCell_self (c : Cell L W) : pyCell L W (c.1.val : ℤ) (c.2.val : ℤ) = some c := by
  have h1 : (c.1.val : ℤ) < L := by exact_mod_cast c.1.isLt
  have h2 : (c.2.val : ℤ) < W := by exact_mod_cast c.2.isLt
  obtain ⟨c', h, e1, e2⟩ := pyCell_nonneg (L := L) (W := W) (x := (c.1.val : ℤ))
    (y := (c.2.val : ℤ)) (by positivity) h1 (by positivity) h2
  rw [h]
  congr 1
  exact Prod.ext (Fin.ext (by exact_mod_cast e1)) (Fin.ext (by exact_mod_cast e2))

/-- The walk reader returns exactly the recorded cells. -/
lemma walkCells_of_path {walk : List ℤ} {cs : List (Cell L W)} (h : IsPath walk cs) :
    walkCells L W walk = .ok cs := by
  induction walk generalizing cs with
  | nil =>
    cases cs with
    | nil => rfl
    | cons c cs => simp [IsPath] at h
  | cons i is ih =>
    by_cases hi : 0 < i
    · simp only [IsPath, List.filter_cons, hi, decide_true, if_true] at h
      cases cs with
      | nil => simp at h
      | cons c cs =>
        simp only [List.map_cons, List.cons.injEq] at h
        obtain ⟨h1, h2⟩ := h
        subst h1
        have := ih (cs := cs) h2
        rw [position_eq_posOf] at hi ⊢
        simp only [walkCells, gt_iff_lt, hi, if_true, unravel_posOf, pyCell_self, this]
    · have h' : IsPath is cs := by
        simpa [IsPath, List.filter_cons, hi] using h
      simp only [walkCells, gt_iff_lt, hi, if_false]
      exact ih h'

lemma profile_length (E : SfcEnv L W K) (cs : List (Cell L W)) :
    (profile E cs).length = cs.length := by
  induction cs with
  | nil => rfl
  | cons c cs ih =>
    cases cs with
    | nil => rfl
    | cons n rest => simp [profile, ih]

lemma profile_drop (E : SfcEnv L W K) (pre suf : List (Cell L W)) (h : suf ≠ []) :
    (profile E (pre ++ suf)).drop pre.length = profile E suf := by
  induction pre with
  | nil => simp
  | cons c pre ih =>
    have : pre ++ suf ≠ [] := by simp [h]
    obtain ⟨n, rest, hn⟩ := List.exists_cons_of_ne_nil this
    simp only [List.cons_append, hn, profile, List.length_cons, List.drop_succ_cons]
    rw [hn] at ih
    exact ih

lemma moves_append_right {pre suf : List (Cell L W)} (h : Moves (pre ++ suf)) : Moves suf := by
  induction pre with
  | nil => exact h
  | cons c pre ih =>
    apply ih
    rw [List.cons_append] at h
    cases hp : pre ++ suf with
    | nil => trivial
    | cons n rest => rw [hp] at h; exact h.2

/-- Sum of the values paired with `c`. -/
def sumAt (xs : List (Cell L W × K)) (c : Cell L W) : K :=
  ((xs.filter (fun x : Cell L W × K => decide (x.1 = c))).map (fun x : Cell L W × K => x.2)).sum

lemma sumAt_append (xs ys : List (Cell L W × K)) (c : Cell L W) :
    sumAt (xs ++ ys) c = sumAt xs c + sumAt ys c := by simp [sumAt]

lemma sumAt_singleton (d : Cell L W) (h : K) (c : Cell L W) :
    sumAt [(d, h)] c = if d = c then h else 0 := by
  by_cases hd : d = c <;> simp [sumAt, hd]

lemma heightAt_eq (E : SfcEnv L W K) (cs : List (Cell L W)) (c : Cell L W) :
    heightAt E cs c = sumAt (cs.dropLast.zip (profile E cs)) c := rfl

/-- Visits do not depend on the elevations. -/
lemma backWalk_visit (E : SfcEnv L W K) (nx : Cell L W) (rest : List (Cell L W))
    (s : SfcState L W K) (c : Cell L W) :
    (backWalk E nx rest s).acc.visit c = s.acc.visit c + (rest.count c : ℕ) := by
  induction rest generalizing nx s with
  | nil => simp [backWalk]
  | cons d rest ih =>
    rw [backWalk, ih]
    have : (backStep E nx d s).acc.visit c = s.acc.visit c + if d = c then 1 else 0 := by
      have hsym : (c = d) = (d = c) := propext eq_comm
      unfold backStep
      simp only
      split_ifs <;> simp_all [Function.update]
    rw [this, List.count_cons]
    by_cases hd : d = c <;> simp [hd]
    ring

/-- The backward loop computes the profile. `suf` is the part of the path already done. -/
lemma backWalk_sum (E : SfcEnv L W K) (nx : Cell L W) (suf' rest : List (Cell L W))
    (s : SfcState L W K) (hm : Moves (rest.reverse ++ nx :: suf'))
    (hh : s.hnew nx = (profile E (nx :: suf')).headD 0)
    (ho : s.inOcean = true ↔ ¬ ∃ m ∈ (nx :: suf').dropLast, Shore E m)
    (hd : s.inOcean = true → s.dH = 0) (c : Cell L W) :
    (backWalk E nx rest s).acc.sum c
      = s.acc.sum c + sumAt (rest.reverse.zip (profile E (rest.reverse ++ nx :: suf'))) c := by
  induction rest generalizing nx suf' s with
  | nil => simp [backWalk, sumAt]
  | cons d rest ih =>
    rw [backWalk]
    have hm' : Moves (rest.reverse ++ d :: nx :: suf') := by simpa using hm
    have hne : d ≠ nx := (moves_append_right hm').1
    have hne' : d.1 ≠ nx.1 ∨ d.2 ≠ nx.2 := by
      by_contra hcon
      push Not at hcon
      exact hne (Prod.ext hcon.1 hcon.2)
    have hshore : (E.uw d > E.u0 * (1 / 2) ∨ E.depth d < (1 / 10) * E.h0) ↔ Shore E d := by
      unfold Shore
      rw [gt_iff_lt, mul_one_div, one_div_mul_eq_div]
    -- the new elevation
    have hprof : (profile E (d :: nx :: suf')).headD 0
        = s.hnew nx + if ∃ m ∈ (nx :: suf').dropLast, Shore E m then rise E d nx else 0 := by
      rw [hh]; simp only [profile, List.headD_cons]
    have hstep : (backStep E nx d s).hnew d = (profile E (d :: nx :: suf')).headD 0 := by
      rw [hprof]
      unfold backStep
      simp only [if_pos hne']
      by_cases hin : s.inOcean = true
      · have := ho.1 hin
        rw [if_neg this]
        simp only [hin, if_true]
        split_ifs <;> simp [hd hin]
      · have hex : ∃ m ∈ (nx :: suf').dropLast, Shore E m := by
          by_contra hcon; exact hin (ho.2 hcon)
        rw [if_pos hex]
        simp only [hin, Bool.false_eq_true, if_false]
        unfold rise
        split_ifs with h1
        · simp
        · simp only [Function.update_self]
          congr 1
          rw [mul_div_assoc, mul_assoc E.S0, ← mul_div_assoc E.dx]
          congr 2
          ring
    have hsum : ∀ c, (backStep E nx d s).acc.sum c
        = s.acc.sum c + if d = c then (profile E (d :: nx :: suf')).headD 0 else 0 := by
      intro c
      rw [← hstep]
      by_cases hdc : d = c
      · subst hdc
        rw [if_pos rfl]
        unfold backStep
        simp only [if_pos hne']
        split_ifs <;> simp
      · rw [if_neg hdc, add_zero]
        unfold backStep
        simp only [if_pos hne']
        have hdc' : ¬ c = d := fun h => hdc h.symm
        split_ifs <;> simp [Function.update, hdc']
    rw [ih d (nx :: suf') (backStep E nx d s) hm' hstep, hsum c]
    · rw [List.reverse_cons, List.append_assoc, List.singleton_append]
      have hsplit := List.take_append_drop rest.reverse.length
        (profile E (rest.reverse ++ d :: nx :: suf'))
      rw [profile_drop E _ _ (by simp)] at hsplit
      obtain ⟨h, t, ht⟩ := List.exists_cons_of_ne_nil
        (l := profile E (d :: nx :: suf')) (by simp [profile])
      have hlen : (List.take rest.reverse.length
          (profile E (rest.reverse ++ d :: nx :: suf'))).length = rest.reverse.length := by
        rw [List.length_take, profile_length, List.length_append]; omega
      set A := List.take rest.reverse.length (profile E (rest.reverse ++ d :: nx :: suf')) with hA
      have e1 : (rest.reverse ++ [d]).zip (profile E (rest.reverse ++ d :: nx :: suf'))
          = rest.reverse.zip A ++ [(d, h)] := by
        rw [← hsplit, ht, List.zip_append (by rw [hlen])]
        simp
      have e2 : rest.reverse.zip (profile E (rest.reverse ++ d :: nx :: suf'))
          = rest.reverse.zip A := by
        rw [← hsplit]
        have := List.zip_append (l₁ := rest.reverse) (l₂ := A) (r₁ := [])
          (r₂ := profile E (d :: nx :: suf')) (by rw [hlen])
        simpa using this
      rw [e1, e2, sumAt_append, sumAt_singleton, ht]
      simp only [List.headD_cons]
      ring
    · -- inOcean
      have hdl : (d :: nx :: suf').dropLast = d :: (nx :: suf').dropLast := rfl
      rw [hdl]
      unfold backStep
      simp only [if_pos hne']
      by_cases hin : s.inOcean = true
      · have h1 := ho.1 hin
        simp only [hin, if_true]
        by_cases hs : Shore E d
        · rw [if_pos (hshore.2 hs)]
          simp only [List.mem_cons, Bool.false_eq_true, false_iff, not_not]
          exact ⟨d, Or.inl rfl, hs⟩
        · rw [if_neg (fun h => hs (hshore.1 h))]
          simp only [hin, true_iff]
          rintro ⟨m, hm, hms⟩
          rcases List.mem_cons.1 hm with rfl | hm
          · exact hs hms
          · exact h1 ⟨m, hm, hms⟩
      · have hex : ∃ m ∈ (nx :: suf').dropLast, Shore E m := by
          by_contra hcon; exact hin (ho.2 hcon)
        obtain ⟨m, hm, hms⟩ := hex
        simp only [hin, Bool.false_eq_true, if_false]
        split_ifs <;> simp only [hin, Bool.false_eq_true, false_iff, not_not] <;>
          exact ⟨m, List.mem_cons_of_mem _ hm, hms⟩
    · -- dH
      unfold backStep
      simp only [if_pos hne']
      by_cases hin : s.inOcean = true
      · simp only [hin, if_true]
        split_ifs <;> simp [hin, hd hin]
      · simp only [hin, Bool.false_eq_true, if_false]
        split_ifs <;> simp [hin]


lemma path_unique {walk : List ℤ} {cs ds : List (Cell L W)} (h : IsPath walk cs)
    (h' : IsPath walk ds) : cs = ds := by
  have := (walkCells_of_path h).symm.trans (walkCells_of_path h')
  simpa using this

/-- One parcel: nothing if it does not contribute, else one visit per cell before the last and the
profile elevations. -/
lemma sfcParcel_of_path (E : SfcEnv L W K) {walk : List ℤ} {cs : List (Cell L W)} (flag : Bool)
    (a : SfcAcc L W K) (h : IsPath walk cs) (hne : cs ≠ []) :
    ∃ a', sfcParcel E walk flag a = .ok a' ∧
      (¬ Contributes E cs flag → a' = a) ∧
      (Contributes E cs flag → ∀ c, a'.visit c = a.visit c + (cs.dropLast.count c : ℕ)) ∧
      (Contributes E cs flag → Moves cs → ∀ c, a'.sum c = a.sum c + heightAt E cs c) := by
  obtain ⟨last, rest, hr⟩ := List.exists_cons_of_ne_nil (l := cs.reverse) (by simpa using hne)
  have hcs : cs = rest.reverse ++ [last] := by
    have := congrArg List.reverse hr
    simpa using this
  have hlast : cs.getLast? = some last := by rw [hcs]; simp
  have hdrop : cs.dropLast = rest.reverse := by rw [hcs]; simp
  have hcon : Contributes E cs flag ↔ (E.cellType last = -1 ∧ flag = true) := by
    unfold Contributes
    rw [hlast]
    constructor
    · rintro ⟨h1, l, hl, h2⟩
      cases hl
      exact ⟨h2, h1⟩
    · rintro ⟨h1, h2⟩
      exact ⟨h2, last, rfl, h1⟩
  unfold sfcParcel
  rw [walkCells_of_path h]
  simp only [hr]
  by_cases hc : E.cellType last = -1 ∧ flag = true
  · rw [if_pos hc]
    refine ⟨_, rfl, fun hn => absurd (hcon.2 hc) hn, ?_, ?_⟩
    · intro _ c
      rw [backWalk_visit, hdrop, List.count_reverse]
    · intro _ hm c
      rw [backWalk_sum E last [] rest _ (by rw [← hcs]; exact hm) (by simp [profile])
        (by simp) (fun _ => rfl) c, heightAt_eq, hdrop, ← hcs]
  · rw [if_neg hc]
    exact ⟨_, rfl, fun _ => rfl, fun hn => absurd (hcon.1 hn) hc, fun hn => absurd (hcon.1 hn) hc⟩

/-- All parcels. -/
lemma sfcParcels_of_paths (E : SfcEnv L W K) {ps : List (List ℤ × Bool)}
    {css : List (List (Cell L W))}
    (h : List.Forall₂ (fun (p : List ℤ × Bool) cs => IsPath p.1 cs ∧ cs ≠ []) ps css)
    (a : SfcAcc L W K) :
    ∃ a', sfcParcels E ps a = .ok a' ∧
      (∀ c, a'.visit c = a.visit c
        + ((List.zipWith (fun (p : List ℤ × Bool) cs =>
            if Contributes E cs p.2 then cs.dropLast.count c else 0) ps css).sum : ℕ)) ∧
      ((∀ cs ∈ css, Moves cs) → ∀ c, a'.sum c = a.sum c
        + (List.zipWith (fun (p : List ℤ × Bool) cs =>
            if Contributes E cs p.2 then heightAt E cs c else 0) ps css).sum) := by
  induction h generalizing a with
  | nil => exact ⟨a, rfl, by simp, by simp⟩
  | @cons p cs ps css hp _ ih =>
    obtain ⟨walk, flag⟩ := p
    obtain ⟨a1, h1, h2, h3, h4⟩ := sfcParcel_of_path E flag a hp.1 hp.2
    obtain ⟨a2, g1, g2, g3⟩ := ih a1
    refine ⟨a2, ?_, ?_, ?_⟩
    · simp only [sfcParcels]
      rw [h1]
      exact g1
    · intro c
      rw [g2 c]
      by_cases hc : Contributes E cs flag
      · rw [h3 hc c]
        simp [hc]
        ring
      · rw [h2 hc]
        simp [hc]
    · intro hm c
      rw [g3 (fun x hx => hm x (List.mem_cons_of_mem _ hx)) c]
      by_cases hc : Contributes E cs flag
      · rw [h4 hc (hm cs (List.mem_cons_self ..)) c]
        simp [hc]
        ring
      · rw [h2 hc]
        simp [hc]

lemma abs_rise_le (E : SfcEnv L W K) {nrm : K → K → K} (hn0 : ∀ x y, 0 ≤ nrm x y)
    (hn : ∀ x y, x * x + y * y ≤ nrm x y * nrm x y) (hS : 0 ≤ E.S0) (hdx : 0 ≤ E.dx)
    (hu : ∀ c, E.ux c * E.ux c + E.uy c * E.uy c ≤ E.uw c * E.uw c) (c n : Cell L W) :
    |rise E c n| ≤ E.S0 * E.dx * nrm ((n.1.val : K) - c.1.val) ((n.2.val : K) - c.2.val) := by
  unfold rise
  set a := (n.1.val : K) - c.1.val
  set b := (n.2.val : K) - c.2.val
  have hSd : 0 ≤ E.S0 * E.dx := mul_nonneg hS hdx
  split_ifs with h
  · rw [abs_zero]; exact mul_nonneg hSd (hn0 _ _)
  · rw [abs_mul, abs_of_nonneg hSd]
    refine mul_le_mul_of_nonneg_left ?_ hSd
    rw [abs_div, div_le_iff₀ (abs_pos.2 h)]
    apply abs_le_of_sq_le_sq
    · have h1 : (a * a + b * b) * (E.uw c * E.uw c) ≤ (nrm a b * |E.uw c|) ^ 2 := by
        rw [mul_pow, sq_abs, sq, sq]
        exact mul_le_mul_of_nonneg_right (hn a b) (mul_self_nonneg _)
      refine le_trans ?_ h1
      have h2 := mul_le_mul_of_nonneg_left (hu c) (add_nonneg (mul_self_nonneg a) (mul_self_nonneg b))
      nlinarith [sq_nonneg (E.ux c * b - E.uy c * a)]
    · exact mul_nonneg (hn0 _ _) (abs_nonneg _)

lemma pathLength_nonneg {nrm : K → K → K} (hn0 : ∀ x y, 0 ≤ nrm x y) (cs : List (Cell L W)) :
    0 ≤ pathLength nrm cs := by
  induction cs with
  | nil => exact le_refl _
  | cons c cs ih =>
    cases cs with
    | nil => exact le_refl _
    | cons n rest => exact add_nonneg (hn0 _ _) ih

lemma profile_bound (E : SfcEnv L W K) {nrm : K → K → K} (hn0 : ∀ x y, 0 ≤ nrm x y)
    (hn : ∀ x y, x * x + y * y ≤ nrm x y * nrm x y) (hS : 0 ≤ E.S0) (hdx : 0 ≤ E.dx)
    (hu : ∀ c, E.ux c * E.ux c + E.uy c * E.uy c ≤ E.uw c * E.uw c) (cs : List (Cell L W))
    (h : K) (hh : (profile E cs).head? = some h) :
    |h - E.HSL| ≤ E.S0 * E.dx * pathLength nrm cs := by
  induction cs generalizing h with
  | nil => simp [profile] at hh
  | cons c cs ih =>
    cases cs with
    | nil => simp [profile] at hh; subst hh; simp [pathLength]
    | cons n rest =>
      obtain ⟨h1, t, ht⟩ := List.exists_cons_of_ne_nil (l := profile E (n :: rest)) (by
        intro h0
        have := profile_length E (n :: rest)
        rw [h0] at this; simp at this)
      have hi := ih h1 (by rw [ht]; rfl)
      simp only [profile, List.head?_cons, Option.some.injEq, ht, List.headD_cons] at hh
      subst hh
      rw [pathLength, mul_add]
      have hr := abs_rise_le E hn0 hn hS hdx hu c n
      have h0 : 0 ≤ E.S0 * E.dx * nrm ((n.1.val : K) - c.1.val) ((n.2.val : K) - c.2.val) :=
        mul_nonneg (mul_nonneg hS hdx) (hn0 _ _)
      split_ifs
      · calc |h1 + rise E c n - E.HSL| = |rise E c n + (h1 - E.HSL)| := by ring_nf
          _ ≤ |rise E c n| + |h1 - E.HSL| := abs_add_le _ _
          _ ≤ _ := add_le_add hr hi
      · rw [add_zero]; linarith

lemma profile_mem_bound (E : SfcEnv L W K) {nrm : K → K → K} (hn0 : ∀ x y, 0 ≤ nrm x y)
    (hn : ∀ x y, x * x + y * y ≤ nrm x y * nrm x y) (hS : 0 ≤ E.S0) (hdx : 0 ≤ E.dx)
    (hu : ∀ c, E.ux c * E.ux c + E.uy c * E.uy c ≤ E.uw c * E.uw c) (cs : List (Cell L W))
    (h : K) (hh : h ∈ profile E cs) :
    |h - E.HSL| ≤ E.S0 * E.dx * pathLength nrm cs := by
  induction cs with
  | nil => simp [profile] at hh
  | cons c cs ih =>
    cases cs with
    | nil => exact profile_bound E hn0 hn hS hdx hu [c] h (by simp [profile] at hh ⊢; exact hh.symm)
    | cons n rest =>
      have hp : profile E (c :: n :: rest) = ((profile E (n :: rest)).headD 0
        + if ∃ m ∈ (n :: rest).dropLast, Shore E m then rise E c n else 0)
          :: profile E (n :: rest) := rfl
      rw [hp] at hh
      rcases List.mem_cons.1 hh with h1 | h1
      · apply profile_bound E hn0 hn hS hdx hu
        rw [hp, h1]; rfl
      · refine (ih h1).trans ?_
        refine mul_le_mul_of_nonneg_left ?_ (mul_nonneg hS hdx)
        rw [pathLength.eq_3]
        exact le_add_of_nonneg_left (hn0 _ _)

lemma heightAt_bound (E : SfcEnv L W K) (cs : List (Cell L W)) (c : Cell L W) (B : K)
    (h : ∀ x ∈ profile E cs, |x - E.HSL| ≤ B) :
    |heightAt E cs c - (cs.dropLast.count c : ℕ) * E.HSL| ≤ (cs.dropLast.count c : ℕ) * B := by
  have key : ∀ (ds : List (Cell L W)) (hs : List K), ds.length ≤ hs.length →
      (∀ x ∈ hs, |x - E.HSL| ≤ B) →
      |sumAt (ds.zip hs) c - (ds.count c : ℕ) * E.HSL| ≤ (ds.count c : ℕ) * B := by
    intro ds
    induction ds with
    | nil => intro hs _ _; simp [sumAt]
    | cons d ds ih =>
      intro hs hl hb
      cases hs with
      | nil => simp at hl
      | cons x hs =>
        have hi := ih hs (by simpa using hl) (fun y hy => hb y (List.mem_cons_of_mem _ hy))
        have hx := hb x (List.mem_cons_self ..)
        have e : sumAt ((d :: ds).zip (x :: hs)) c
            = (if d = c then x else 0) + sumAt (ds.zip hs) c := by
          by_cases hd : d = c <;> simp [sumAt, hd]
        rw [e]
        by_cases hd : d = c
        · subst hd
          simp only [if_true, List.count_cons_self, Nat.cast_add, Nat.cast_one]
          calc |x + sumAt (ds.zip hs) d - ((List.count d ds : ℕ) + 1) * E.HSL|
              = |(x - E.HSL) + (sumAt (ds.zip hs) d - (List.count d ds : ℕ) * E.HSL)| := by ring_nf
            _ ≤ |x - E.HSL| + |sumAt (ds.zip hs) d - (List.count d ds : ℕ) * E.HSL| :=
                abs_add_le _ _
            _ ≤ _ := by linarith
        · simp only [hd, if_false, zero_add]
          rw [List.count_cons_of_ne (by simpa using hd)]
          exact hi
  rw [heightAt_eq]
  exact key _ _ (by rw [profile_length, List.length_dropLast]; omega) h

lemma sum_count_univ {α : Type*} [Fintype α] [BEq α] [LawfulBEq α] (l : List α) :
    ∑ x, l.count x = l.length := by
  classical
  induction l with
  | nil => simp
  | cons a l ih =>
    simp only [List.count_cons, Finset.sum_add_distrib, ih, List.length_cons]
    simp

/-! ## Smoothing -/

/-- The nine values around an interior cell. -/
lemma nbrs_interior [NeZero L] [NeZero W] {α : Type*} [Zero α] (arr : Grid L W α) (c : Cell L W)
    (hi : 0 < c.1.val ∧ c.1.val + 1 < L ∧ 0 < c.2.val ∧ c.2.val + 1 < W) (d : Fin 9) :
    nbrs arr c d = arr (⟨c.1.val + d.val / 3 - 1, by omega⟩, ⟨c.2.val + d.val % 3 - 1, by omega⟩) := by
  obtain ⟨m, m1, m2, m3⟩ := C03_neighbourhood arr c d
  rw [m3]
  congr 1
  have := d.isLt
  unfold nearest at m1 m2
  refine Prod.ext (Fin.ext ?_) (Fin.ext ?_) <;> simp only <;> omega


lemma smooth_induct [NeZero L] [NeZero W] {ct : Grid L W ℤ} {C : K} (P : Grid L W K → Prop)
    (hP : ∀ H, P H → P (smoothPass ct C H)) (n : ℕ) {H : Grid L W K} (h : P H) :
    P (smooth ct C n H) := by
  induction n generalizing H with
  | zero => exact h
  | succ n ih => exact ih (hP _ h)

/-- One smoothing pass is a weighted mean of the old value and the mean of the valid neighbours. -/
lemma smoothPass_cases [NeZero L] [NeZero W] (ct : Grid L W ℤ) (C : K) (H : Grid L W K)
    (c : Cell L W) :
    smoothPass ct C H c = H c ∨
    (ct c ≠ -1 ∧ ∃ S : Finset (Fin 9), S.Nonempty ∧ (∀ d ∈ S, nbrs ct c d ≠ -2 ∧ d ≠ 4) ∧
      smoothPass ct C H c = C * H c + (1 - C) * ((∑ d ∈ S, nbrs H c d) / (S.card : K))) := by
  unfold smoothPass
  by_cases h1 : ct c ≠ -1
  · simp only [if_pos h1]
    by_cases h2 : (Finset.univ.filter (fun d : Fin 9 =>
        (!(decide (nbrs ct c d = -2) || decide (d = 4))) = true)).card > 0
    · right
      refine ⟨h1, _, Finset.card_pos.1 h2, ?_, ?_⟩
      · intro d hd
        simpa using hd
      · rw [if_pos h2, Finset.sum_filter]
        congr 3
        apply Finset.sum_congr rfl
        intro d _
        by_cases hd : (decide (nbrs ct c d = -2) || decide (d = 4)) = true <;> simp [hd]
    · left; rw [if_neg h2]
  · left; simp only [if_neg h1]


/-! ## Neighbour arrays -/

/-- Without edge fix: the neighbour value, or zero outside of the domain. -/
lemma buildWeightArray_plain [NeZero L] [NeZero W] (arr : Grid L W K) (k : Fin 8)
    (c : Cell L W) :
    (∃ n : Cell L W, (n.1.val : ℤ) = c.1.val + (off8 k).1 ∧ (n.2.val : ℤ) = c.2.val + (off8 k).2 ∧
        buildWeightArray arr false k c = arr n) ∨
    ((¬ ∃ n : Cell L W, (n.1.val : ℤ) = c.1.val + (off8 k).1 ∧
        (n.2.val : ℤ) = c.2.val + (off8 k).2) ∧ buildWeightArray arr false k c = 0) := by
  obtain ⟨⟨i, hi⟩, ⟨j, hj⟩⟩ := c
  have key : ∀ (p : Bool) (x y : ℕ) (r : Fin L) (q : Fin W) (dx dy : ℤ), r = axis L x →
      q = axis W y →
      (p = true → x < L ∧ y < W ∧ (x : ℤ) = i + dx ∧ (y : ℤ) = j + dy) →
      (¬ p = true → (i : ℤ) + dx < 0 ∨ (L : ℤ) ≤ i + dx ∨ (j : ℤ) + dy < 0 ∨ (W : ℤ) ≤ j + dy) →
      (∃ n : Cell L W, (n.1.val : ℤ) = i + dx ∧ (n.2.val : ℤ) = j + dy ∧
        (if p = true then arr (r, q) else 0) = arr n) ∨
      ((¬ ∃ n : Cell L W, (n.1.val : ℤ) = i + dx ∧ (n.2.val : ℤ) = j + dy) ∧
        (if p = true then arr (r, q) else 0) = 0) := by
    intro p x y r q dx dy hr hq h1 h2
    by_cases hp : p = true
    · obtain ⟨hx, hy, ex, ey⟩ := h1 hp
      left
      refine ⟨(r, q), ?_, ?_, by rw [if_pos hp]⟩
      · simp only [hr, axis_val hx]; exact ex
      · simp only [hq, axis_val hy]; exact ey
    · right
      refine ⟨?_, by rw [if_neg hp]⟩
      rintro ⟨⟨a, b⟩, ha, hb⟩
      have h3 := h2 hp
      have := a.isLt
      have := b.isLt
      simp only at ha hb
      omega
  have hai : (⟨i, hi⟩ : Fin L) = axis L i := Fin.ext (axis_val hi).symm
  have haj : (⟨j, hj⟩ : Fin W) = axis W j := Fin.ext (axis_val hj).symm
  fin_cases k
  · exact key (decide (j + 1 < W)) i (j + 1) _ _ 0 1 hai rfl (by simp; omega) (by simp; omega)
  · exact key (decide (1 ≤ i) && decide (j + 1 < W)) (i - 1) (j + 1) _ _ (-1) 1 rfl rfl
      (by simp; omega) (by simp; omega)
  · exact key (decide (1 ≤ i)) (i - 1) j _ _ (-1) 0 rfl haj (by simp; omega) (by simp; omega)
  · exact key (decide (1 ≤ i) && decide (1 ≤ j)) (i - 1) (j - 1) _ _ (-1) (-1) rfl rfl
      (by simp; omega) (by simp; omega)
  · exact key (decide (1 ≤ j)) i (j - 1) _ _ 0 (-1) hai rfl (by simp; omega) (by simp; omega)
  · exact key (decide (i + 1 < L) && decide (1 ≤ j)) (i + 1) (j - 1) _ _ 1 (-1) rfl rfl
      (by simp; omega) (by simp; omega)
  · exact key (decide (i + 1 < L)) (i + 1) j _ _ 1 0 rfl haj (by simp; omega) (by simp; omega)
  · exact key (decide (i + 1 < L) && decide (j + 1 < W)) (i + 1) (j + 1) _ _ 1 1 rfl rfl
      (by simp) (by simp; omega)

/-- With edge fix: the value of the nearest cell of the domain. -/
lemma buildWeightArray_fixed [NeZero L] [NeZero W] (hL : 2 ≤ L) (hW : 2 ≤ W) (arr : Grid L W K)
    (k : Fin 8) (c : Cell L W) :
    IsNearestValue arr ((c.1.val : ℤ) + (off8 k).1) ((c.2.val : ℤ) + (off8 k).2)
      (buildWeightArray arr true k c) := by
  obtain ⟨⟨i, hi⟩, ⟨j, hj⟩⟩ := c
  have key : ∀ (r : Fin L) (q : Fin W) (dx dy : ℤ) (v : K), v = arr (r, q) →
      (r.val : ℤ) = nearest L (i + dx) → (q.val : ℤ) = nearest W (j + dy) →
      IsNearestValue arr ((i : ℤ) + dx) ((j : ℤ) + dy) v := by
    intro r q dx dy v hv hr hq
    exact ⟨(r, q), hr, hq, hv⟩
  have hai : (⟨i, hi⟩ : Fin L) = axis L i := Fin.ext (axis_val hi).symm
  have haj : (⟨j, hj⟩ : Fin W) = axis W j := Fin.ext (axis_val hj).symm
  have rows : ∀ dx : ℤ, ((axis L (nearest L (i + dx)).toNat).val : ℤ) = nearest L (i + dx) := by
    intro dx
    rw [axis_val (by unfold nearest; omega)]; unfold nearest; omega
  have cols : ∀ dy : ℤ, ((axis W (nearest W (j + dy)).toNat).val : ℤ) = nearest W (j + dy) := by
    intro dy
    rw [axis_val (by unfold nearest; omega)]; unfold nearest; omega
  have a1 : (axis L 1).val = 1 := axis_val (by omega)
  have a2 : (axis L (L - 2)).val = L - 2 := axis_val (by omega)
  have b1 : (axis W 1).val = 1 := axis_val (by omega)
  have b2 : (axis W (W - 2)).val = W - 2 := axis_val (by omega)
  have eqL : ∀ (x : Fin L) (y : ℕ), x.val = y → x = axis L y := by
    intro x y h; exact Fin.ext (by rw [axis_val (h ▸ x.isLt)]; exact h)
  refine key (axis L (nearest L (i + (off8 k).1)).toNat) (axis W (nearest W (j + (off8 k).2)).toNat)
    _ _ _ ?_ (rows _) (cols _)
  have fin : ∀ (r r' : Fin L) (q q' : Fin W), r.val = r'.val → q.val = q'.val →
      arr (r, q) = arr (r', q') := by
    intro r r' q q' h1 h2
    rw [Fin.ext h1, Fin.ext h2]
  have aL : ∀ x, x < L → (axis L x).val = x := fun x h => axis_val h
  have aW : ∀ x, x < W → (axis W x).val = x := fun x h => axis_val h
  fin_cases k <;>
    simp only [buildWeightArray, assign, off8, if_true, decide_eq_true_eq, Bool.and_eq_true,
      Matrix.cons_val_zero, Matrix.cons_val_one, Matrix.cons_val, Fin.zero_eta, Fin.mk_one,
      Fin.reduceFinMk, a1, a2, b1, b2] <;>
    split_ifs <;> first
      | omega
      | (apply fin <;> simp only [nearest] <;>
          first
            | omega
            | (rw [aL _ (by omega)]; omega)
            | (rw [aW _ (by omega)]; omega)
            | (rw [aL _ (by omega), aL _ (by omega)]; omega)
            | (rw [aW _ (by omega), aW _ (by omega)]; omega))

/-! ## Flooding -/

lemma off8_adjacent {c n : Cell L W} {k : Fin 8} (h1 : (n.1.val : ℤ) = c.1.val + (off8 k).1)
    (h2 : (n.2.val : ℤ) = c.2.val + (off8 k).2) : Adjacent c n := by
  have hk : |(off8 k).1| ≤ 1 ∧ |(off8 k).2| ≤ 1 ∧ ((off8 k).1 ≠ 0 ∨ (off8 k).2 ≠ 0) := by
    fin_cases k <;> decide
  rw [abs_le, abs_le] at hk
  refine ⟨?_, ?_, ?_⟩
  · rintro rfl; omega
  · rw [abs_le]; omega
  · rw [abs_le]; omega

lemma adjacent_off8 {c n : Cell L W} (h : Adjacent c n) :
    ∃ k, (n.1.val : ℤ) = c.1.val + (off8 k).1 ∧ (n.2.val : ℤ) = c.2.val + (off8 k).2 := by
  obtain ⟨hne, h1, h2⟩ := h
  rw [abs_le] at h1 h2
  have hne' : (n.1.val : ℤ) - c.1.val ≠ 0 ∨ (n.2.val : ℤ) - c.2.val ≠ 0 := by
    by_contra hcon
    push Not at hcon
    exact hne (Prod.ext (Fin.ext (by omega)) (Fin.ext (by omega)))
  have key : ∀ x y : ℤ, -1 ≤ x → x ≤ 1 → -1 ≤ y → y ≤ 1 → (x ≠ 0 ∨ y ≠ 0) →
      ∃ k, (off8 k).1 = x ∧ (off8 k).2 = y := by
    intro x y hx hx' hy hy' hxy
    have : x = -1 ∨ x = 0 ∨ x = 1 := by omega
    have : y = -1 ∨ y = 0 ∨ y = 1 := by omega
    rcases ‹x = -1 ∨ x = 0 ∨ x = 1› with rfl | rfl | rfl <;>
      rcases ‹y = -1 ∨ y = 0 ∨ y = 1› with rfl | rfl | rfl <;>
      first | (exfalso; simp at hxy; done) | exact (by decide)
  obtain ⟨k, hk1, hk2⟩ := key _ _ (by omega) (by omega) (by omega) (by omega) hne'
  exact ⟨k, by omega, by omega⟩

/-- One product `wet * stage` of the flooding correction. -/
lemma flood_term [NeZero L] [NeZero W] (hL : 2 ≤ L) (hW : 2 ≤ W) (depth stage : Grid L W K)
    (dry : K) (k : Fin 8) (c : Cell L W) :
    (∃ n : Cell L W, (n.1.val : ℤ) = c.1.val + (off8 k).1 ∧ (n.2.val : ℤ) = c.2.val + (off8 k).2 ∧
      dry < depth n ∧ wetMaskNh depth dry k c * buildWeightArray stage false k c = stage n) ∨
    ((¬ ∃ n : Cell L W, (n.1.val : ℤ) = c.1.val + (off8 k).1 ∧
        (n.2.val : ℤ) = c.2.val + (off8 k).2 ∧ dry < depth n) ∧
      wetMaskNh depth dry k c * buildWeightArray stage false k c = 0) := by
  rcases buildWeightArray_plain stage k c with ⟨n, h1, h2, h3⟩ | ⟨h1, h2⟩
  · obtain ⟨m, hm1, hm2, hm3⟩ := buildWeightArray_fixed hL hW
      (fun c => if depth c > dry then (1 : K) else 0) k c
    have hnm : m = n := by
      have a1 := n.1.isLt
      have a2 := n.2.isLt
      have b1 : nearest L (c.1.val + (off8 k).1) = c.1.val + (off8 k).1 := by
        unfold nearest; omega
      have b2 : nearest W (c.2.val + (off8 k).2) = c.2.val + (off8 k).2 := by
        unfold nearest; omega
      exact Prod.ext (Fin.ext (by omega)) (Fin.ext (by omega))
    subst hnm
    unfold wetMaskNh
    rw [hm3, h3]
    by_cases hw : depth m > dry
    · left; exact ⟨m, h1, h2, hw, by simp [hw]⟩
    · right
      refine ⟨?_, by simp [hw]⟩
      rintro ⟨n, e1, e2, e3⟩
      have : n = m := Prod.ext (Fin.ext (by omega)) (Fin.ext (by omega))
      rw [this] at e3
      exact hw e3
  · right
    refine ⟨fun ⟨n, e1, e2, _⟩ => h1 ⟨n, e1, e2⟩, by rw [h2, mul_zero]⟩

lemma wetMaskNh_nonneg [NeZero L] [NeZero W] (hL : 2 ≤ L) (hW : 2 ≤ W) (depth : Grid L W K)
    (dry : K) (k : Fin 8) (c : Cell L W) : 0 ≤ wetMaskNh depth dry k c := by
  obtain ⟨m, -, -, h⟩ := buildWeightArray_fixed hL hW
      (fun c => if depth c > dry then (1 : K) else 0) k c
  unfold wetMaskNh
  rw [h]
  simp only
  split_ifs
  · exact zero_le_one
  · exact le_refl _

/-- A dry cell is a shore cell exactly if it has a wet neighbour. -/
lemma shore_iff [NeZero L] [NeZero W] (hL : 2 ≤ L) (hW : 2 ≤ W) (depth : Grid L W K)
    (dry : K) (c : Cell L W) (hc : ¬ dry < depth c) :
    0 < ∑ k, wetMaskNh depth dry k c ↔ ∃ n, Adjacent c n ∧ dry < depth n := by
  constructor
  · intro h
    obtain ⟨k, -, hk⟩ := Finset.exists_lt_of_sum_lt
      (s := Finset.univ) (f := fun _ => (0 : K)) (g := fun k => wetMaskNh depth dry k c)
      (by simpa using h)
    obtain ⟨m, h1, h2, h3⟩ := buildWeightArray_fixed hL hW
      (fun c => if depth c > dry then (1 : K) else 0) k c
    unfold wetMaskNh at hk
    rw [h3] at hk
    have hw : dry < depth m := by
      by_contra hcon
      simp [hcon] at hk
    refine ⟨m, ⟨?_, ?_, ?_⟩, hw⟩
    · rintro rfl; exact hc hw
    all_goals
      have hk' : |(off8 k).1| ≤ 1 ∧ |(off8 k).2| ≤ 1 := by fin_cases k <;> decide
      have := c.1.isLt
      have := c.2.isLt
      rw [abs_le, abs_le] at hk'
      unfold nearest at h1 h2
      rw [abs_le]
      omega
  · rintro ⟨n, hn, hw⟩
    obtain ⟨k, h1, h2⟩ := adjacent_off8 hn
    refine Finset.sum_pos' (fun k _ => wetMaskNh_nonneg hL hW depth dry k c)
      ⟨k, Finset.mem_univ _, ?_⟩
    obtain ⟨m, e1, e2, e3⟩ := buildWeightArray_fixed hL hW
      (fun c => if depth c > dry then (1 : K) else 0) k c
    have a1 := n.1.isLt
    have a2 := n.2.isLt
    have hmn : m = n := by
      unfold nearest at e1 e2
      exact Prod.ext (Fin.ext (by omega)) (Fin.ext (by omega))
    unfold wetMaskNh
    rw [e3, hmn]
    simp [hw]

end Verif.Lemmas
