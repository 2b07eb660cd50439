import Verif.Props.RouteWater
import Verif.Spec.Surface

/-!
# The water surface of a whole iteration (C72) and disqualified parcels (C13)
-/

set_option linter.unusedSectionVars false

namespace Verif.Props

open Verif.Model Verif.Lemmas Verif.Spec

variable {K : Type*} [Field K] [LinearOrder K] [IsStrictOrderedRing K] [FloorRing K] {σ : Type*}
  {L W m : ℕ} [NeZero L] [NeZero W]

/-! ## C13 -/

/-- C13, over a whole water iteration: a parcel is disqualified in a step exactly if, after more than
`L0` steps, it returned to a cell beyond the inlet rows that is already in its path record, and the
stage there differs from sea level by at least 0.1. It may shape the surface at the end exactly if
that never happened. -/
theorem C13_disqualified {g : Rng K σ} (hg : PositiveDraws g) {P : Params L W m K}
    (hP : WaterSetup P) {it : ℕ} {S S' : State L W K} (hd : ∀ c, 0 ≤ S.depth c) (hn : 0 < S.ncols)
    {s s' : σ} (h : waterIteration g P it S s = .ok (S', s')) :
    ∃ (w : Grid L W (Fin 9 → K)) (wst : WState L W K) (log : List (List (StepRec))) (n : ℕ),
      waterWeightArray P S = .ok w ∧
      runWaterIteration g (waterEnv P S w) (fun k => ((P.inlet k).val : ℤ)) P.NpWater S.ncols s =
        .ok (wst, log, n, s') ∧
      (∀ (j : ℕ) (p : WParcel), wst.parcels[j]? = some p → (p.flag = true ↔
        ∀ recs ∈ log, ∀ r, recs[j]? = some r → r.looped = false)) ∧
      ∀ (j k : ℕ) (hk : k < log.length) (r : StepRec), (log[k])[j]? = some r → (r.looped = true ↔
        P.L0 < (k + 1 : ℕ) ∧ ∃ c : Cell L W, r.new1 = position c ∧ P.L0 ≤ c.1.val ∧
          (∃ i ≤ k, pathEntry wst j i = some r.new1) ∧ 1 / 10 ≤ |S.stage c - S.HSL|) := by
  obtain ⟨w, wst, log, n, stage, hw, hrun, -, -⟩ := waterIteration_ok h
  refine ⟨w, wst, log, n, hw, hrun, ?_, ?_⟩
  · intro j p hj
    obtain ⟨starts, st0, h1, h2, h3⟩ := runWater_ok _ _ _ _ _ _ _ hrun
    obtain ⟨-, hnc, hncols, hRect, -, hfl, -⟩ := waterStart_ok h2
    obtain ⟨-, -, -, -, -, -, -, -, hflag⟩ := waterLoop_walk g _ 0 st0 wst _ s' log n hRect
      (by omega) h3
    have hf := hflag j
    have hf0 := hfl j
    rw [hj] at hf
    cases h0 : st0.parcels[j]? with
    | none => rw [h0] at hf; simp at hf
    | some p0 =>
      rw [h0] at hf hf0
      have hp0 : p0.flag = true := by
        cases hs : starts[j]? with
        | none => rw [hs] at hf0; simp at hf0
        | some x => rw [hs] at hf0; simpa using hf0
      simp only [Option.map_some, Option.some.injEq, hp0, Bool.true_and] at hf
      rw [hf, List.all_eq_true]
      constructor
      · intro h recs hrecs r hr
        have := h recs hrecs
        rw [hr] at this
        simpa using this
      · intro h recs hrecs
        cases hr : recs[j]? with
        | none => rfl
        | some r => simpa using h recs hrecs r hr
  · intro j k hk r hrj
    obtain ⟨w', hw', hwc⟩ := weights_total hP hd
    rw [hw] at hw'
    cases hw'
    obtain ⟨st', log', n', s'', hr⟩ := waterRun_of hg hP hd hn s hwc
    have heq := hr.run
    rw [hrun] at heq
    simp only [Except.ok.injEq, Prod.mk.injEq] at heq
    obtain ⟨rfl, rfl, rfl, rfl⟩ := heq
    obtain ⟨starts, st0, h1, h2, h3⟩ := runWater_ok _ _ _ _ _ _ _ hrun
    obtain ⟨-, hnc, hncols, hRect, -, -, hw0, hwz, -⟩ := waterStart_ok h2
    obtain ⟨stk, sk, stk', sk', hstk, hRk, hnk, -, hagree, hzk⟩ := waterLoop_at g _ 0 st0 wst _ s'
      log n hRect (by omega) (fun j i v hi => hwz j i v hi) h3 k hk
    obtain ⟨-, -, hf, -⟩ := waterStep_ok g _ _ stk stk' _ sk sk' hstk
    rcases hf.getElem? j with ⟨-, -, e⟩ | ⟨p, p', r', e1, -, e3, d, -, hd'⟩
    · rw [hrj] at e; cases e
    · rw [hrj] at e3
      cases e3
      obtain ⟨-, -, -, g4, -⟩ := parcelStep_fields hd'
      have hW := hP.hW
      constructor
      · intro hl
        obtain ⟨a1, a2, a3⟩ := C13_only_returning hrun j k hk r hrj (.inr hl)
        obtain ⟨i, hi, hpe⟩ := a3
        have hpos : 0 < r.new1 := by
          have := hP.hL0
          change P.L0 * W ≤ r.new1 at a2
          nlinarith
        obtain ⟨c, hc⟩ := entry_cell hr j i _ hpe hpos
        have hret : Returns (waterEnv P S w) (0 + 1 + k) p.walk c := by
          by_contra hcon
          rw [hc, C13_left_alone _ _ _ _ hcon] at g4
          simp only [Except.ok.injEq, Prod.mk.injEq] at g4
          rw [← g4.2] at hl
          cases hl
        obtain ⟨t, looped, ht, -, -, -, -, hlp⟩ := C13_relocated (waterEnv P S w) hP.hL0 hP.hL hW
          hP.nrm _ _ c hret
        rw [hc, ht] at g4
        simp only [Except.ok.injEq, Prod.mk.injEq] at g4
        exact ⟨a1, c, hc, hret.2.2.2, ⟨i, hi, hpe⟩, hlp.mp (g4.2.trans hl)⟩
      · rintro ⟨a1, c, hc, a3, ⟨i, hi, hpe⟩, a5⟩
        have hmem : position c ∈ p.walk := by
          rw [pathEntry_eq, ← hagree j i (by omega),
            ← checkSize_walkAt (waterEnv P S w).stepmax (0 + 1 + k) stk hRk j i (by omega)] at hpe
          unfold walkAt at hpe
          rw [e1] at hpe
          rw [← hc]
          exact List.mem_of_getElem? hpe
        have hret : Returns (waterEnv P S w) (0 + 1 + k) p.walk c := by
          refine ⟨?_, ?_, hmem, a3⟩
          · change P.L0 < ((0 + 1 + k : ℕ) : ℤ)
            push_cast at a1 ⊢
            omega
          · have := hP.hL0
            unfold position
            have h2 : (2 : ℤ) ≤ c.1.val := by omega
            have h3 : (3 : ℤ) ≤ W := by exact_mod_cast hW
            have h4 : (0 : ℤ) ≤ c.2.val := by positivity
            nlinarith
        obtain ⟨t, looped, ht, -, -, -, -, hlp⟩ := C13_relocated (waterEnv P S w) hP.hL0 hP.hL hW
          hP.nrm _ _ c hret
        rw [hc, ht] at g4
        simp only [Except.ok.injEq, Prod.mk.injEq] at g4
        exact g4.2 ▸ hlp.mpr a5

/-! ## C72 -/

lemma smoothedOnce_pass (ct : Grid L W ℤ) (C : K) (H : Grid L W K) :
    SmoothedOnce ct C H (smoothPass ct C H) := by
  intro c
  constructor
  · intro hc
    unfold smoothPass
    rw [if_neg (by simp [hc])]
  · intro hc f hf N hN
    have hx : ∀ d x, (x.1.val : ℤ) = nearest L (c.1.val + (d.val / 3 : ℕ) - 1) →
        (x.2.val : ℤ) = nearest W (c.2.val + (d.val % 3 : ℕ) - 1) → x = f d := by
      intro d x h1 h2
      obtain ⟨g1, g2⟩ := hf d
      have e1 : (c.1.val : ℤ) + (d.val / 3 : ℕ) - 1 = c.1.val + rowOff d := by
        unfold rowOff; ring
      have e2 : (c.2.val : ℤ) + (d.val % 3 : ℕ) - 1 = c.2.val + colOff d := by
        unfold colOff; ring
      rw [e1, ← g1] at h1
      rw [e2, ← g2] at h2
      exact Prod.ext (Fin.ext (by exact_mod_cast h1)) (Fin.ext (by exact_mod_cast h2))
    have hnz : ∀ d, nbrs ct c d = ct (f d) := by
      intro d
      obtain ⟨x, h1, h2, hv⟩ := C03_neighbourhood ct c d
      rw [hv, hx d x h1 h2]
    have hn : ∀ d, nbrs H c d = H (f d) := by
      intro d
      obtain ⟨x, h1, h2, hv⟩ := C03_neighbourhood H c d
      rw [hv, hx d x h1 h2]
    have hset : Finset.univ.filter (fun d : Fin 9 =>
        (!(decide (nbrs ct c d = -2) || decide (d = 4))) = true) = N := by
      ext d
      simp only [Finset.mem_filter, Finset.mem_univ, true_and, Bool.not_eq_true',
        Bool.or_eq_false_iff, decide_eq_false_iff_not, hN, hnz d]
      exact and_comm
    unfold smoothPass
    simp only [if_pos hc, hset]
    constructor
    · rintro rfl
      simp
    · intro hne
      rw [if_pos (Finset.card_pos.2 (Finset.nonempty_iff_ne_empty.2 hne))]
      congr 3
      rw [← hset, Finset.sum_filter]
      apply Finset.sum_congr rfl
      intro d _
      rw [hn d]
      by_cases h : nbrs ct c d = -2 ∨ d = 4
      · rcases h with h | h <;> simp [h]
      · push Not at h
        simp [h.1, h.2]

lemma smoothed_smooth (ct : Grid L W ℤ) (C : K) : ∀ (n : ℕ) (H : Grid L W K),
    Smoothed ct C n H (smooth ct C n H)
  | 0, H => .zero H
  | n + 1, H => .succ (smoothedOnce_pass ct C H) (smoothed_smooth ct C n _)

/-- The surface that the paths `css` of the parcels `ps` suggest, before smoothing: in a visited
cell the mean of the elevations of the passages of contributing parcels, elsewhere the old
surface; never below the sea nor below the bed. -/
def Suggested (E : SfcEnv L W K) (eta : Grid L W K) (ps : List (List ℤ × Bool))
    (css : List (List (Cell L W))) (T : Grid L W K) : Prop :=
  ∀ c, ∀ visits : ℕ, visits = (List.zipWith (fun (p : List ℤ × Bool) cs =>
        if Contributes E cs p.2 then cs.dropLast.count c else 0) ps css).sum →
    (visits = 0 → T c = max (eta c) (max E.HSL (eta c + E.depth c))) ∧
    (0 < visits → (∀ cs ∈ css, Moves cs) → T c = max (eta c) (max E.HSL
      ((List.zipWith (fun (p : List ℤ × Bool) cs =>
        if Contributes E cs p.2 then heightAt E cs c else 0) ps css).sum / visits)))

/-- C72: a water iteration moves the surface from the old one by the fraction `omegaSfc` towards the
smoothed surface suggested by the parcels (not at all in the first timestep); then dry cells beside
water may be flooded; and the surface is nowhere below the sea. -/
theorem C72_surface {g : Rng K σ} (hg : PositiveDraws g) {P : Params L W m K}
    (hP : WaterSetup P) {it : ℕ} {S S' : State L W K} (hd : ∀ c, 0 ≤ S.depth c) (hn : 0 < S.ncols)
    {s s' : σ} (h : waterIteration g P it S s = .ok (S', s')) :
    ∃ (w : Grid L W (Fin 9 → K)) (wst : WState L W K) (log : List (List (StepRec))) (n : ℕ),
      waterWeightArray P S = .ok w ∧
      runWaterIteration g (waterEnv P S w) (fun k => ((P.inlet k).val : ℤ)) P.NpWater S.ncols s =
        .ok (wst, log, n, s') ∧
    ∃ css T H R, Walked (wst.parcels.map (fun p => (p.walk, p.flag))) css ∧
      Suggested ⟨P.cellType, S.uw, S.ux, S.uy, S.depth, P.dx, P.u0, P.h0, S.HSL, P.S0⟩ S.eta
        (wst.parcels.map (fun p => (p.walk, p.flag))) css T ∧
      Smoothed P.cellType P.Csmooth P.Nsmooth T H ∧
      (S.timeIter = 0 → R = S.stage) ∧
      (0 < S.timeIter → ∀ c, R c = S.stage c + P.omegaSfc * (H c - S.stage c)) ∧
      ∀ c, (S'.stage c = max S.HSL (R c) ∧ (S.depth c ≤ P.dryDepth →
          ∀ n, Adjacent c n → P.dryDepth < S.depth n → R n ≤ S.eta c)) ∨
        (S.depth c ≤ P.dryDepth ∧ S.eta c < S'.stage c ∧
          (∃ n, Adjacent c n ∧ P.dryDepth < S.depth n) ∧
          (∀ n, Adjacent c n → P.dryDepth < S.depth n → R n ≤ S'.stage c) ∧
          ((∃ n, Adjacent c n ∧ P.dryDepth < S.depth n ∧ S'.stage c = max S.HSL (R n)) ∨
            S'.stage c = max S.HSL 0)) := by
  obtain ⟨w, wst, log, n, stage, hw, hrun, hsfc, rfl⟩ := waterIteration_ok h
  refine ⟨w, wst, log, n, hw, hrun, ?_⟩
  obtain ⟨w', hw', hwc⟩ := weights_total hP hd
  rw [hw] at hw'
  cases hw'
  obtain ⟨st', log', n', s'', hr⟩ := waterRun_of hg hP hd hn s hwc
  have heq := hr.run
  rw [hrun] at heq
  simp only [Except.ok.injEq, Prod.mk.injEq] at heq
  obtain ⟨rfl, rfl, rfl, rfl⟩ := heq
  obtain ⟨css, hcss⟩ := C15_routed_walks hr
  obtain ⟨a, ha, hvis⟩ := C15_visits (sfcEnv P S) hcss
  have hst : stage = finalizeFreeSurface P.cellType P.Nsmooth P.Csmooth P.omegaSfc S.timeIter S.eta
      S.depth S.stage (computeHnew S.eta S.depth a S.HSL) P.dryDepth := by
    unfold computeFreeSurface at hsfc
    rw [ha] at hsfc
    simp only [Except.ok.injEq] at hsfc
    exact hsfc.symm
  set T := computeHnew S.eta S.depth a S.HSL with hT
  set H := smooth P.cellType P.Csmooth P.Nsmooth T with hH
  set R : Grid L W K := if S.timeIter > 0 then
    fun c => (1 - P.omegaSfc) * S.stage c + P.omegaSfc * H c else S.stage with hR
  refine ⟨css, T, H, R, hcss, ?_, smoothed_smooth _ _ _ _, ?_, ?_, ?_⟩
  · intro c visits hv
    obtain ⟨c1, c2⟩ := C16_value S.eta S.depth a S.HSL c
    have hva : a.visit c = (visits : K) := by rw [hvis c, hv]; rfl
    constructor
    · intro h0
      exact c2 (by rw [hva, h0]; simp)
    · intro h0 hm
      rw [hT, c1 (by rw [hva]; exact_mod_cast h0), hva,
        C15_elevations_partial (sfcEnv P S) hcss hm ha c]
      rfl
  · intro h0
    rw [hR, if_neg (by omega)]
  · intro h0 c
    rw [hR, if_pos h0]
    ring
  · intro c
    have hS : ({ finalizeWaterIteration P S it stage wst.flux with
        ncols := wst.ncols } : State L W K).stage c =
        max (floodingCorrection S.eta S.depth R P.dryDepth c) S.HSL := by
      rw [hst]; rfl
    rw [hS]
    rcases flood_cases (eta := S.eta) (depth := S.depth) (stage := R) (dry := P.dryDepth)
      (by have := hP.hL; have := hP.hL0; omega) (by have := hP.hW; omega) c with
      ⟨e, e'⟩ | ⟨e1, ⟨n1, e2, e2'⟩, e3, e4, e5⟩
    · left
      rw [e, max_comm]
      exact ⟨rfl, e'⟩
    · right
      refine ⟨e1, lt_of_lt_of_le e3 (le_max_left _ _), ⟨n1, e2, e2'⟩,
        fun n h1 h2 => (e4 n h1 h2).trans (le_max_left _ _), ?_⟩
      rcases e5 with ⟨n, h1, h2, h3⟩ | h3
      · left; exact ⟨n, h1, h2, by rw [h3, max_comm]⟩
      · right; rw [h3, max_comm]

/-- Every cell has nearest neighbours, so `SmoothedOnce` determines the result of a pass. -/
lemma nearestNeighbours_exists (c : Cell L W) : ∃ f, NearestNeighbours c f := by
  have hL : 0 < L := Nat.pos_of_ne_zero (NeZero.ne L)
  have hW : 0 < W := Nat.pos_of_ne_zero (NeZero.ne W)
  have h : ∀ n : ℕ, 0 < n → ∀ x : ℤ, ∃ i : Fin n, (i.val : ℤ) = nearest n x := by
    intro n hn x
    refine ⟨⟨(nearest n x).toNat, ?_⟩, ?_⟩ <;> unfold nearest
    · omega
    · simp only
      omega
  choose f hf using fun d => h L hL (c.1.val + rowOff d)
  choose f' hf' using fun d => h W hW (c.2.val + colOff d)
  exact ⟨fun d => (f d, f' d), fun d => ⟨hf d, hf' d⟩⟩

/-- `SmoothedOnce` has only one result. -/
lemma smoothedOnce_unique (ct : Grid L W ℤ) (C : K) (H H1 H2 : Grid L W K)
    (h1 : SmoothedOnce ct C H H1) (h2 : SmoothedOnce ct C H H2) : H1 = H2 := by
  funext c
  by_cases hc : ct c = -1
  · rw [(h1 c).1 hc, (h2 c).1 hc]
  · obtain ⟨f, hf⟩ := nearestNeighbours_exists c
    obtain ⟨N, hN⟩ : ∃ N : Finset (Fin 9), ∀ d, d ∈ N ↔ d ≠ 4 ∧ ct (f d) ≠ -2 :=
      ⟨Finset.univ.filter (fun d => d ≠ 4 ∧ ct (f d) ≠ -2), fun d => by simp⟩
    obtain ⟨a1, a2⟩ := (h1 c).2 hc f hf N hN
    obtain ⟨b1, b2⟩ := (h2 c).2 hc f hf N hN
    by_cases hne : N = ∅
    · rw [a1 hne, b1 hne]
    · rw [a2 hne, b2 hne]

-- the example domain meets the hypotheses of C13 and C72
example : ∃ S' s', waterIteration constRng exParams 0 { exState with timeIter := 1 } () =
      .ok (S', s') ∧ ∃ (T H R : Grid 4 3 ℚ), Smoothed exType exParams.Csmooth exParams.Nsmooth T H ∧
      ∀ c, R c = exState.stage c + exParams.omegaSfc * (H c - exState.stage c) := by
  have hd : ∀ c, 0 ≤ ({ exState with timeIter := 1 } : State 4 3 ℚ).depth c :=
    fun _ => by norm_num [exState]
  obtain ⟨S', s', h, -⟩ := C71_water_iteration exPositive exSetup 0 hd (by decide) ()
  obtain ⟨_, _, _, _, _, _, css, T, H, R, _, _, h3, _, h5, _⟩ :=
    C72_surface exPositive exSetup hd (by decide) h
  exact ⟨S', s', h, T, H, R, h3, h5 (by decide)⟩

end Verif.Props
