import Verif.Props.FloatWalk
import Verif.Props.FloatPick

/-!
# C100: what the parcels leave in the discharge field in rounded arithmetic
-/

set_option linter.unusedSectionVars false

namespace Verif.Props

open Verif.Model Verif.Lemmas Verif.Spec

variable {K : Type*} [Field K] [LinearOrder K] [IsStrictOrderedRing K] [FloorRing K] {σ : Type*}
  {F D : Rounding K}

/-- Specification: a share `h` added `n` times to a field that was zero; each sum is rounded to a double
and stored in the field. -/
def sharesAdded (F D : Rounding K) (h : K) (n : ℕ) : K := (fun q => F.fl (D.fl (q + h)))^[n] 0

lemma addFluxesR_qw {L W : ℕ} (E : WEnv L W K) (sel : StepRec → ℤ) (p : StepRec → Bool)
    (rs : List StepRec) (f f' : Flux L W K) (h : addFluxesR F D E sel p rs f = .ok f') (c : Cell L W) :
    f'.qw c = (fun q => F.fl (D.fl (q + halfShareR D E)))^[(movesAt L W sel p c rs).length] (f.qw c) := by
  induction rs generalizing f with
  | nil =>
    simp only [addFluxesR, Except.ok.injEq] at h
    subst h
    simp [movesAt]
  | cons r rs ih =>
    unfold addFluxesR at h
    split at h
    · rename_i hp
      split at h
      · cases h
      · rename_i f1 h1
        have i1 := ih f1 h
        unfold addFluxR at h1
        split at h1
        · rename_i hd
          split at h1
          · cases h1
          · rename_i c' hc'
            simp only [Except.ok.injEq] at h1
            subst h1
            simp only at i1
            by_cases hcc : c' = c
            · subst hcc
              have e : movesAt L W sel p c' (r :: rs) = r :: movesAt L W sel p c' rs := by
                unfold movesAt
                rw [List.filter_cons_of_pos (by simp [hp, hd, hc'])]
              rw [e, i1]
              simp only [Function.update_self, List.length_cons, Function.iterate_succ, Function.comp]
            · have e : movesAt L W sel p c (r :: rs) = movesAt L W sel p c rs := by
                unfold movesAt
                rw [List.filter_cons_of_neg (by simp [hc', hcc])]
              rw [e, i1]
              simp only [Function.update_of_ne (Ne.symm hcc)]
        · rename_i hd
          simp only [Except.ok.injEq] at h1
          subst h1
          have e : movesAt L W sel p c (r :: rs) = movesAt L W sel p c rs := by
            unfold movesAt
            rw [List.filter_cons_of_neg (by simp only [not_not] at hd; simp [hd])]
          rw [e]
          exact i1
    · rename_i hp
      have e : movesAt L W sel p c (r :: rs) = movesAt L W sel p c rs := by
        unfold movesAt
        rw [List.filter_cons_of_neg (by simp [hp])]
      rw [e]
      exact ih f h

lemma waterLoopR_qw {L W : ℕ} (g : Rng K σ) (E : WEnv L W K) (step : ℕ) (st st' : WState L W K)
    (s s' : σ) (log : List (List StepRec)) (n : ℕ)
    (h : waterLoopR F D g E step st s = .ok (st', log, n, s')) (c : Cell L W) :
    st'.flux.qw c = (fun q => F.fl (D.fl (q + halfShareR D E)))^[
      (movesAt L W (·.cur) (fun _ => true) c log.flatten).length +
       (movesAt L W (·.new1) (fun _ => true) c log.flatten).length +
       (movesAt L W (·.new2) (·.bnd) c log.flatten).length] (st.flux.qw c) := by
  induction hfuel : E.stepmax - step generalizing step st s log with
  | zero =>
    unfold waterLoopR at h
    rw [if_neg (by omega)] at h
    simp only [Except.ok.injEq, Prod.mk.injEq] at h
    obtain ⟨rfl, rfl, rfl, rfl⟩ := h
    simp [movesAt]
  | succ m ih =>
    unfold waterLoopR at h
    split at h
    · rename_i hc
      split at h
      · cases h
      · rename_i st1 recs s1 h1
        split at h
        · cases h
        · rename_i st2 log' n' s2 h2
          simp only [Except.ok.injEq, Prod.mk.injEq] at h
          obtain ⟨rfl, rfl, rfl, rfl⟩ := h
          have i1 := ih (step + 1) st1 s1 log' h2 (by omega)
          obtain ⟨-, -, -, f1, f2, hf1, hf2, hf3⟩ := waterStepR_ok g E (step + 1) st st1 recs s s1 h1
          have a1 := addFluxesR_qw E _ _ recs _ _ hf1 c
          have b1 := addFluxesR_qw E _ _ recs _ _ hf2 c
          have c1 := addFluxesR_qw E _ _ recs _ _ hf3 c
          have e : ∀ sel p, movesAt L W sel p c (recs :: log').flatten =
              movesAt L W sel p c recs ++ movesAt L W sel p c log'.flatten := by
            intro sel p; simp [movesAt]
          simp only [e, List.length_append]
          rw [i1, c1, b1, a1]
          simp only [← Function.iterate_add_apply]
          refine congrArg (fun k => (fun q => F.fl (D.fl (q + halfShareR D E)))^[k] (st.flux.qw c)) ?_
          omega
    · rename_i hc
      simp only [Except.ok.injEq, Prod.mk.injEq] at h
      obtain ⟨rfl, rfl, rfl, rfl⟩ := h
      simp [movesAt]

/-- Specification: how often a cell gets a share: once as a start of parcels, and for each departure,
arrival and arrival at the edge. -/
def sharesOf {L W : ℕ} (starts : List ℤ) (log : List (List StepRec)) (c : Cell L W) : ℕ :=
  (if ∃ i ∈ starts, Addresses i c then 1 else 0) +
    ((departures log c).length + (arrivals log c).length + (edgeArrivals log c).length)

/-- C100: after the parcels were routed, the discharge of a cell is the rounded half share of a parcel,
added as often as in exact arithmetic (C14); so it depends on nothing but this number. -/
theorem C100_discharge {L W m : ℕ} {g : Rng K σ} {E : WEnv L W K} {inlet : Fin m → ℤ}
    {np ncols : ℕ} {s : σ} {st : WState L W K} {log : List (List StepRec)} {n : ℕ} {s' : σ}
    (hr : runWaterIterationR F D g E inlet np ncols s = .ok (st, log, n, s')) :
    ∃ starts, getStartIndicesR D inlet (getInletWeights inlet : Fin m → K) (drawN g np s).1 =
      some starts ∧ ∀ c : Cell L W,
      st.flux.qw c = sharesAdded F D (D.fl (D.fl (E.Qp / E.dx) / 2)) (sharesOf starts log c) := by
  obtain ⟨starts, st0, h1, h2, h3⟩ := runWaterR_ok g E inlet np ncols s _ hr
  obtain ⟨-, -, -, -, -, -, -, -, -, hfl⟩ := waterStartR_ok h2
  refine ⟨starts, h1, fun c => ?_⟩
  have a1 := waterLoopR_qw g E 0 st0 st _ s' log n h3 c
  rw [movesAt_departures, movesAt_arrivals, movesAt_edge] at a1
  have hstart : st0.flux.qw c = (fun q => F.fl (D.fl (q + halfShareR D E)))^[
      if ∃ i ∈ starts, Addresses i c then 1 else 0] 0 := by
    rw [hfl]
    simp only [fancyAddR]
    have : (starts.any (fun i => decide (flatCell L W i = some c)) = true) ↔
        ∃ i ∈ starts, Addresses i c := by
      rw [List.any_eq_true]
      simp only [decide_eq_true_eq, flatCell_eq_some_iff]
      rfl
    by_cases hh : ∃ i ∈ starts, Addresses i c
    · rw [if_pos (this.mpr hh), if_pos hh]
      simp only [Function.iterate_one, zero_add, halfShareR, F.idem, D.idem]
    · rw [if_neg (fun h => hh (this.mp h)), if_neg hh]
      rfl
  rw [hstart, ← Function.iterate_add_apply] at a1
  rw [a1]
  unfold sharesAdded sharesOf
  refine congrArg (fun k => (fun q => F.fl (D.fl (q + halfShareR D E)))^[k] 0) ?_
  omega

lemma share_step {h q : K} (hh : 0 ≤ h) (hq : 0 ≤ q) :
    (q + h) * ((1 - F.u) * (1 - D.u)) ≤ F.fl (D.fl (q + h)) ∧
    F.fl (D.fl (q + h)) ≤ (q + h) * ((1 + F.u) * (1 + D.u)) := by
  have h0 : 0 ≤ q + h := by linarith
  have h1 := fl_ge D h0
  have h2 := fl_le D h0
  have h3 := fl_nonneg D h0
  have h4 := fl_ge F h3
  have h5 := fl_le F h3
  have u1 := F.u_nonneg
  have u2 := F.u_half
  constructor
  · calc (q + h) * ((1 - F.u) * (1 - D.u)) = ((q + h) * (1 - D.u)) * (1 - F.u) := by ring
      _ ≤ D.fl (q + h) * (1 - F.u) := mul_le_mul_of_nonneg_right h1 (by linarith)
      _ ≤ _ := h4
  · calc F.fl (D.fl (q + h)) ≤ D.fl (q + h) * (1 + F.u) := h5
      _ ≤ ((q + h) * (1 + D.u)) * (1 + F.u) := mul_le_mul_of_nonneg_right h2 (by linarith)
      _ = _ := by ring

/-- C100: the discharge of a cell is the sum of its shares up to one rounding of each precision for each
share. -/
theorem C100_shares {h : K} (hh : 0 ≤ h) (n : ℕ) :
    h * n * ((1 - F.u) * (1 - D.u)) ^ n ≤ sharesAdded F D h n ∧
    sharesAdded F D h n ≤ h * n * ((1 + F.u) * (1 + D.u)) ^ n := by
  unfold sharesAdded
  have u1 := F.u_nonneg
  have u2 := F.u_half
  have v1 := D.u_nonneg
  have v2 := D.u_half
  set lo := (1 - F.u) * (1 - D.u) with hlo
  set hi := (1 + F.u) * (1 + D.u) with hhi
  have l0 : 0 ≤ lo := mul_nonneg (by linarith) (by linarith)
  have l1 : lo ≤ 1 := by rw [hlo]; nlinarith
  have i1 : 1 ≤ hi := by rw [hhi]; nlinarith
  induction n with
  | zero => simp
  | succ n ih =>
    rw [Function.iterate_succ_apply']
    set q := (fun q => F.fl (D.fl (q + h)))^[n] 0
    have hq : 0 ≤ q := le_trans (by positivity) ih.1
    obtain ⟨a, b⟩ := share_step (F := F) (D := D) hh hq
    rw [← hlo] at a
    rw [← hhi] at b
    constructor
    · refine le_trans ?_ a
      have : h * lo ^ n ≤ h := mul_le_of_le_one_right hh (pow_le_one₀ l0 l1)
      calc h * ((n + 1 : ℕ) : K) * lo ^ (n + 1) = (h * n * lo ^ n + h * lo ^ n) * lo := by
            push_cast; ring
        _ ≤ (q + h) * lo := mul_le_mul_of_nonneg_right (by linarith [ih.1]) l0
    · refine le_trans b ?_
      have : h ≤ h * hi ^ n := le_mul_of_one_le_right hh (one_le_pow₀ i1)
      calc (q + h) * hi ≤ (h * n * hi ^ n + h * hi ^ n) * hi :=
            mul_le_mul_of_nonneg_right (by linarith [ih.2]) (by linarith)
        _ = h * ((n + 1 : ℕ) : K) * hi ^ (n + 1) := by push_cast; ring

/-- C100: the rounded half share is the half share up to two roundings. -/
theorem C100_half_share {Qp dx : K} (hQ : 0 ≤ Qp) (hx : 0 < dx) :
    Qp / dx / 2 * (1 - D.u) ^ 2 ≤ D.fl (D.fl (Qp / dx) / 2) ∧
    D.fl (D.fl (Qp / dx) / 2) ≤ Qp / dx / 2 * (1 + D.u) ^ 2 := by
  have h0 : 0 ≤ Qp / dx := div_nonneg hQ hx.le
  have h1 := fl_ge D h0
  have h2 := fl_le D h0
  have h3 := fl_nonneg D h0
  have h4 := fl_ge D (div_nonneg h3 (by norm_num : (0 : K) ≤ 2))
  have h5 := fl_le D (div_nonneg h3 (by norm_num : (0 : K) ≤ 2))
  have v1 := D.u_nonneg
  have v2 := D.u_half
  constructor
  · refine le_trans ?_ h4
    have := mul_le_mul_of_nonneg_right h1 (by linarith : 0 ≤ 1 - D.u)
    linarith [show Qp / dx / 2 * (1 - D.u) ^ 2 = (Qp / dx * (1 - D.u)) * (1 - D.u) / 2 by ring,
      show D.fl (Qp / dx) / 2 * (1 - D.u) = D.fl (Qp / dx) * (1 - D.u) / 2 by ring]
  · refine le_trans h5 ?_
    have := mul_le_mul_of_nonneg_right h2 (by linarith : 0 ≤ 1 + D.u)
    linarith [show Qp / dx / 2 * (1 + D.u) ^ 2 = (Qp / dx * (1 + D.u)) * (1 + D.u) / 2 by ring,
      show D.fl (Qp / dx) / 2 * (1 + D.u) = D.fl (Qp / dx) * (1 + D.u) / 2 by ring]

/-- C100: more shares never give less discharge, in rounded arithmetic. -/
theorem C100_shares_mono {h : K} (hh : 0 ≤ h) : Monotone (sharesAdded F D h) := by
  apply monotone_nat_of_le_succ
  intro n
  unfold sharesAdded
  have hm : Monotone (fun q => F.fl (D.fl (q + h))) := fun a b hab =>
    F.mono (D.mono (by linarith))
  induction n with
  | zero => exact fl_nonneg F (fl_nonneg D (by simpa using hh))
  | succ n ih =>
    rw [Function.iterate_succ_apply', Function.iterate_succ_apply' (n := n + 1)]
    exact hm ih

/-- C100: a cell has discharge if and only if it got a share. -/
theorem C100_shares_pos {h : K} (hh : 0 < h) (n : ℕ) : 0 < sharesAdded F D h n ↔ 0 < n := by
  constructor
  · intro hp
    by_contra h0
    obtain rfl : n = 0 := by omega
    exact absurd hp (lt_irrefl _)
  · intro hn
    refine lt_of_lt_of_le ?_ (C100_shares_mono hh.le (Nat.one_le_iff_ne_zero.mpr (by omega)))
    exact fl_pos F (fl_pos D (by linarith))

/-- C100: a sum that has grown too large for a share stays as it is, however many shares are added. -/
theorem C100_saturated {h : K} {n : ℕ} (hs : sharesAdded F D h (n + 1) = sharesAdded F D h n) (k : ℕ) :
    sharesAdded F D h (n + k) = sharesAdded F D h n := by
  induction k with
  | zero => rfl
  | succ k ih =>
    unfold sharesAdded at *
    rw [show n + (k + 1) = (n + k) + 1 by ring, Function.iterate_succ_apply', ih,
      ← Function.iterate_succ_apply' (f := fun q => F.fl (D.fl (q + h)))]
    exact hs

/-- Numbers with two binary digits. -/
def exRough : Rounding ℚ := binary ℚ 2 (by norm_num)

/-- A small precision, in which the shares after the fourth are lost. -/
example (k : ℕ) : sharesAdded exRough exRough 1 (4 + k) = 4 := by
  have h1 : sharesAdded exRough exRough 1 (4 + 1) = sharesAdded exRough exRough 1 4 := by decide +kernel
  have h2 : sharesAdded exRough exRough 1 4 = 4 := by decide +kernel
  rw [C100_saturated h1 k, h2]

end Verif.Props
