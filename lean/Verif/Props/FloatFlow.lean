import Verif.Props.FloatWalk
import Verif.Props.FloatExchange

/-!
# C100: the fields after a water routing in rounded arithmetic

The routing never aborts, and depth, surface, discharge and speed are consistent up to rounding.
-/

set_option linter.unusedSectionVars false

namespace Verif.Props

open Verif.Model Verif.Lemmas Verif.Spec

variable {K : Type*} [Field K] [LinearOrder K] [IsStrictOrderedRing K] [FloorRing K] {σ : Type*}
  {L W m : ℕ} [NeZero L] [NeZero W] {F D : Rounding K}

/-! ## Weights -/

/-- What the routing needs of the weights of a cell. -/
structure Choice (row0 : Bool) (depthN : Fin 9 → K) (ctN : Fin 9 → ℤ) (dryDepth : K) (w : Fin 9 → K) :
    Prop where
  nonneg : ∀ d, 0 ≤ w d
  some : ctN 4 ≠ -2 → ∃ d, 0 < w d
  land : ∀ d, ctN d = -2 → w d = 0
  dry : (∃ d : Fin 9, d ≠ 4 ∧ dryDepth ≤ depthN d ∧ ctN d ≠ -2 ∧ ¬ (row0 = true ∧ d.val < 3)) →
    w 4 = 0 ∧ ∀ d, depthN d < dryDepth → w d = 0

lemma choice_exact {row0 : Bool} {wSfc wInt depthN modN : Fin 9 → K} {ctN : Fin 9 → ℤ} {dryDepth gamma : K}
    {pw : K → K} (hs : ∀ d, 0 ≤ wSfc d) (hi : ∀ d, 0 ≤ wInt d) (hp : ∀ d, 0 ≤ pw (depthN d * modN d))
    (hg0 : 0 ≤ gamma) (hg1 : gamma ≤ 1) :
    ∃ w, waterWeightAtCell row0 wSfc wInt depthN modN ctN dryDepth gamma pw = .ok w ∧
      Choice row0 depthN ctN dryDepth w := by
  have hnn := rawWater_nonneg (ctN := ctN) (dryDepth := dryDepth) hs hi hp hg0 hg1
  have hres := water_result row0 wSfc wInt depthN modN ctN dryDepth gamma pw
  generalize waterWeightAtCell row0 wSfc wInt depthN modN ctN dryDepth gamma pw = r at hres
  have hposOf : ∀ (p : Fin 9 → Bool), 0 < (Finset.univ.filter (fun d => p d = true)).card →
      ∃ d, 0 < (fun d => if p d then 1 / (((Finset.univ.filter (fun d => p d = true)).card : ℕ) : K)
        else 0) d := by
    intro p hn
    obtain ⟨d, hd⟩ := Finset.card_pos.mp hn
    simp only [Finset.mem_filter, Finset.mem_univ, true_and] at hd
    refine ⟨d, ?_⟩
    simp only [hd, if_true]
    have : (0 : K) < (Finset.univ.filter (fun d => p d = true)).card := by exact_mod_cast hn
    positivity
  have hnnOf : ∀ (p : Fin 9 → Bool) d, (0 : K) ≤ (fun d => if p d then
      1 / (((Finset.univ.filter (fun d => p d = true)).card : ℕ) : K) else 0) d := by
    intro p d
    simp only
    split
    · positivity
    · exact le_refl _
  cases hres with
  | main h =>
    refine ⟨_, rfl, fun d => div_nonneg (hnn d) h.le, fun _ => ?_, fun d hl => ?_, fun _ => ⟨?_, fun d hd => ?_⟩⟩
    · by_contra hcon
      push Not at hcon
      have : ∑ d, rawWater wSfc wInt depthN modN ctN dryDepth gamma pw d ≤ 0 := by
        apply Finset.sum_nonpos
        intro d _
        have := hcon d
        rw [div_le_iff₀ h, zero_mul] at this
        exact this
      linarith
    · rw [rawWater_zero (by tauto), zero_div]
    · rw [rawWater_zero (by tauto), zero_div]
    · rw [rawWater_zero (by tauto), zero_div]
  | land h hl => exact ⟨_, rfl, fun _ => le_refl _, fun h => absurd hl h, fun _ _ => rfl, fun _ => ⟨rfl, fun _ _ => rfl⟩⟩
  | wet h hl p hp hn =>
    refine ⟨_, rfl, hnnOf p, fun _ => hposOf p hn, fun d hd => ?_, fun _ => ⟨?_, fun d hd => ?_⟩⟩
    · have : ¬ p d = true := by rw [hp]; tauto
      simp [this]
    · have : ¬ p 4 = true := by rw [hp]; tauto
      simp [this]
    · have : ¬ p d = true := by
        rw [hp]
        rintro ⟨h1, -⟩
        exact absurd h1 (not_le.mpr hd)
      simp [this]
  | any h hl hnone p hp hn =>
    refine ⟨_, rfl, hnnOf p, fun _ => hposOf p hn, fun d hd => ?_, fun ⟨d, h1, h2, h3, h4⟩ => ?_⟩
    · have : ¬ p d = true := by rw [hp]; tauto
      simp [this]
    · exact absurd ⟨h2, h3, h1, h4⟩ (hnone d)
  | neg h => exact absurd (Finset.sum_nonneg (fun d _ => hnn d)) (not_le.mpr h)

/-- C100: the weights of water at a cell as they are computed: none is negative, one is positive unless the
cell is land, land has none, and while a wet neighbour can be reached a dry neighbour has none. -/
theorem C100_weights {P : Params L W m K} (hP : WaterSetup P) {S : State L W K} (hd : ∀ c, 0 ≤ S.depth c)
    (c : Cell L W) : ∃ w, waterWeightsR F D S.depth S.stage P.modWater P.cellType S.qx S.qy P.s2 P.s05
        P.dryDepth P.gamma P.pwWater c = .ok w ∧
      Choice (decide (c.1.val = 0)) (nbrs S.depth c) (nbrs P.cellType c) P.dryDepth w := by
  have hs : ∀ d, 0 ≤ weightSfcR F (S.stage c) (nbrs S.stage c) (F.fl P.s2) d := fun d => le_max_left _ _
  have hi : ∀ d, 0 ≤ weightIntR F (S.qx c) (S.qy c) (F.fl P.s05) (F.fl P.s2) d := fun d => le_max_left _ _
  have hpw : ∀ x, 0 ≤ x → 0 ≤ P.pwWater (F.fl x) := fun x hx => hP.pw _ (fl_nonneg F hx)
  have hsame := C97_water (R := D) (row0 := decide (c.1.val = 0)) (ctN := nbrs P.cellType c)
    (dryDepth := P.dryDepth) hs hi (nbrs_forall hd c) (nbrs_forall hP.mod c) hP.gamma0 hP.gamma1
    (pw := fun x => P.pwWater (F.fl x)) (pw' := fun x => P.pwWater (F.fl (D.fl x)))
    (fun x hx => ⟨hpw _ (fl_nonneg D hx), hpw _ (fl_nonneg D hx), Iff.rfl⟩)
  obtain ⟨w, hw, hch⟩ := choice_exact (row0 := decide (c.1.val = 0)) (depthN := nbrs S.depth c)
    (modN := nbrs P.modWater c) (ctN := nbrs P.cellType c) (dryDepth := P.dryDepth) hs hi
    (pw := fun x => P.pwWater (F.fl (D.fl x)))
    (fun d => hpw _ (fl_nonneg D (mul_nonneg (nbrs_forall hd c d) (nbrs_forall hP.mod c d))))
    hP.gamma0 hP.gamma1
  unfold waterWeightsR
  rw [hw] at hsame
  generalize waterWeightAtCellR D _ _ _ _ _ _ _ _ _ = r at hsame
  cases hsame with
  | ok w0 _ h =>
    have hz : ∀ d, w d = 0 → w0 d = 0 := by
      intro d h0
      by_contra hne
      have := (h d).2.2.mp (lt_of_le_of_ne (h d).1 (Ne.symm hne))
      rw [h0] at this
      exact lt_irrefl _ this
    refine ⟨w0, rfl, fun d => (h d).1, fun hc => ?_, fun d hl => hz d (hch.land d hl), fun he => ?_⟩
    · obtain ⟨d, hd⟩ := hch.some hc
      exact ⟨d, (h d).2.2.mpr hd⟩
    · exact ⟨hz 4 (hch.dry he).1, fun d hd => hz d ((hch.dry he).2 d hd)⟩

lemma weightsR_total {P : Params L W m K} (hP : WaterSetup P) {S : State L W K}
    (hd : ∀ c, 0 ≤ S.depth c) :
    ∃ w, waterWeightArrayR F D P S = .ok w ∧ ∀ c, waterWeightsR F D S.depth S.stage P.modWater P.cellType
      S.qx S.qy P.s2 P.s05 P.dryDepth P.gamma P.pwWater c = .ok (w c) := by
  have hall := fun c => C100_weights (F := F) (D := D) hP hd c
  have hfe : firstErr (waterWeightsR F D S.depth S.stage P.modWater P.cellType S.qx S.qy P.s2 P.s05
      P.dryDepth P.gamma P.pwWater) (allCells L W) = none := firstErr_none (fun c _ => (hall c).imp fun _ h => h.1)
  refine ⟨_, by unfold waterWeightArrayR; simp only [hfe]; rfl, ?_⟩
  intro c
  obtain ⟨a, ha, -⟩ := hall c
  simp only [ha]

/-! ## Walks -/

lemma runR_total {g : Rng K σ} (hg : PositiveDraws g) {E : WEnv L W K} (hS : SafeLayout E)
    (hstep : 4 ≤ E.stepmax) (hm : 0 < m) (inlet : Fin m → ℤ)
    (hin : ∀ k, ∃ c : Cell L W, inlet k = position c ∧ E.cellType c ≠ -1)
    (np ncols : ℕ) (hn : 0 < ncols) (s : σ) : ∃ res, runWaterIterationR F D g E inlet np ncols s = .ok res := by
  obtain ⟨starts, hst, -, hmem⟩ := startsR_exist (D := D) hg inlet hm np s
  have hpos : ∀ i ∈ starts, ∃ c : Cell L W, i = posOf c ∧ E.cellType c ≠ -1 := by
    intro i hi
    obtain ⟨k, rfl⟩ := hmem i hi
    exact hin k
  have hall : starts.all (fun i => (flatCell L W i).isSome) = true := by
    rw [List.all_eq_true]
    intro i hi
    obtain ⟨c, rfl, -⟩ := hpos i hi
    simp [flatCell_posOf]
  obtain ⟨st, hws⟩ : ∃ st, waterStartR F D E ncols starts = .ok st := by
    unfold waterStartR; rw [if_pos ⟨hall, hn⟩]; exact ⟨_, rfl⟩
  obtain ⟨-, -, h3, -, -, -, -, -, h9, -⟩ := waterStartR_ok hws
  obtain ⟨st', log, n, s', h⟩ := waterLoopR_total (F := F) (D := D) g (fun s => (hg s).2) hS hstep 0 st
    (by omega) (by
      intro p hp
      have : p.ind ∈ starts := by rw [← h9]; exact List.mem_map_of_mem hp
      exact .inr (hpos _ this)) (drawN g np s).2
  refine ⟨(st', log, n, s'), ?_⟩
  unfold runWaterIterationR
  simp only [hst, hws]
  exact h

lemma waterRunR_of {g : Rng K σ} (hg : PositiveDraws g) {P : Params L W m K} (hP : WaterSetup P)
    {S : State L W K} (hd : ∀ c, 0 ≤ S.depth c) (hn : 0 < S.ncols) (s : σ)
    {w : Grid L W (Fin 9 → K)} (hw : ∀ c, waterWeightsR F D S.depth S.stage P.modWater P.cellType
      S.qx S.qy P.s2 P.s05 P.dryDepth P.gamma P.pwWater c = .ok (w c)) :
    ∃ st log n s', WaterRunR F D g (waterEnvR F P S w) (fun k => ((P.inlet k).val : ℤ)) P.NpWater S.ncols s
      st log n s' := by
  have hch : ∀ c, Choice (decide (c.1.val = 0)) (nbrs S.depth c) (nbrs P.cellType c) P.dryDepth (w c) := by
    intro c
    obtain ⟨w', h1, h2⟩ := C100_weights (F := F) (D := D) hP hd c
    rw [hw c] at h1
    cases h1
    exact h2
  have hA : AdmissibleR (waterEnvR F P S w) := by
    intro c hc
    refine ⟨(hch c).nonneg, (hch c).some (by rw [C03_centre]; exact hc.2), fun d n h1 h2 hl => ?_⟩
    apply (hch c).land d
    rw [C03_interior_exact P.cellType c n d (by rw [h1]; unfold rowOff; ring)
      (by rw [h2]; unfold colOff; ring)]
    exact hl
  have hC : ClosedLayout (waterEnvR F P S w) :=
    ⟨hP.hL0, hP.hL, fun c hc => hP.active c hc.1 hc.2, hP.last, hP.land, hP.hW, hP.nrm⟩
  have hLpos : 2 ≤ L := by have := hP.hL; have := hP.hL0; omega
  have hin : ∀ k, ∃ c : Cell L W, (fun k => ((P.inlet k).val : ℤ)) k = position c ∧
      IsActive (waterEnvR F P S w) c := by
    intro k
    exact ⟨(0, P.inlet k), by simp [position], hP.inlet k⟩
  have hS : SafeLayout (waterEnvR F P S w) := ⟨hLpos, by have := hP.hW; omega, hP.hL0, by
      intro c hc
      change P.cellType c ≠ -1 at hc
      have hlast : c.1.val + 1 < L := by
        have h1 := c.1.isLt
        by_contra hcon
        exact hc (hP.last c (by omega))
      refine ⟨hlast, fun h2 => ?_⟩
      by_cases hl : P.cellType c = -2
      · exfalso
        exact hP.land c (by have := hP.hL; omega) hl
      · exact (hP.active c hc hl).2.2, fun c => (hch c).nonneg, hP.nrm⟩
  obtain ⟨⟨st, log, n, s'⟩, h⟩ := runR_total (F := F) (D := D) hg hS hP.steps hP.hm
    (fun k => ((P.inlet k).val : ℤ)) (fun k => (hin k).imp fun _ h => ⟨h.1, h.2.1⟩) P.NpWater S.ncols hn s
  exact ⟨st, log, n, s', h, hg, hC, hA, hP.hm, hin⟩

/-! ## The free surface -/

lemma sfcParcelsR_total (E : SfcEnv L W K) {ps : List (List ℤ × Bool)} {css : List (List (Cell L W))}
    (h : Walked ps css) (a : SfcAcc L W K) : ∃ a', sfcParcelsR D E ps a = .ok a' := by
  induction h generalizing a with
  | nil => exact ⟨a, rfl⟩
  | @cons p cs ps css h1 _ ih =>
    obtain ⟨walk, flag⟩ := p
    obtain ⟨hp, hne⟩ := h1
    unfold sfcParcelsR sfcParcelR
    rw [walkCells_of_path hp]
    obtain ⟨last, rest, hr⟩ : ∃ last rest, cs.reverse = last :: rest := by
      cases hr : cs.reverse with
      | nil => exact absurd (List.reverse_eq_nil_iff.mp hr) hne
      | cons last rest => exact ⟨last, rest, rfl⟩
    simp only [hr]
    by_cases hc : E.cellType last = -1 ∧ flag = true
    · simp only [if_pos hc]; exact ih _
    · simp only [if_neg hc]; exact ih _

/-- C100: on a well laid-out domain with depths that are not negative, a water iteration in rounded
arithmetic never aborts, for all draws in (0, 1]; its parcels take the steps of C10. -/
theorem C100_water_iteration {g : Rng K σ} (hg : PositiveDraws g) {P : Params L W m K}
    (hP : WaterSetup P) (it : ℕ) {S : State L W K} (hd : ∀ c, 0 ≤ S.depth c) (hn : 0 < S.ncols)
    (s : σ) : ∃ S' s', waterIterationR F D g P it S s = .ok (S', s') ∧ (∀ c, 0 ≤ S'.depth c) ∧
      0 < S'.ncols := by
  obtain ⟨w, hw, hwc⟩ := weightsR_total (F := F) (D := D) hP hd
  obtain ⟨st, log, n, s', hr⟩ := waterRunR_of hg hP hd hn s hwc
  obtain ⟨css, hcss⟩ := C100_routed_walks hr
  obtain ⟨a, ha⟩ := sfcParcelsR_total (D := D) (sfcEnv P S) hcss ⟨fun _ => 0, fun _ => 0⟩
  obtain ⟨stage, hstage⟩ : ∃ stage, computeFreeSurfaceR F D P S st.parcels = .ok stage := by
    unfold computeFreeSurfaceR
    rw [ha]
    exact ⟨_, rfl⟩
  have hres : waterIterationR F D g P it S s =
      .ok ({ finalizeWaterIterationR F D P S it stage st.flux with ncols := st.ncols }, s') := by
    unfold waterIterationR
    simp only [hw, hr.run, hstage]
  refine ⟨_, s', hres, fun c => le_max_right _ _, ?_⟩
  have := (C100_record hr.run).2.1
  change 0 < st.ncols
  omega

/-- C100: the water routing of a timestep never aborts in rounded arithmetic. -/
theorem C100_water_routing {g : Rng K σ} (hg : PositiveDraws g) {P : Params L W m K}
    (hP : WaterSetup P) {S : State L W K} (hd : ∀ c, 0 ≤ S.depth c) (hn : 0 < S.ncols)
    (s : σ) : ∃ S' s', routeWaterR F D g P S s = .ok (S', s') ∧ (∀ c, 0 ≤ S'.depth c) ∧
      0 < S'.ncols := by
  suffices key : ∀ n it (S : State L W K) (s : σ), (∀ c, 0 ≤ S.depth c) → 0 < S.ncols →
      ∃ S' s', routeWaterFromR F D g P it n S s = .ok (S', s') ∧ (∀ c, 0 ≤ S'.depth c) ∧
        0 < S'.ncols from key _ _ S s hd hn
  intro n
  induction n with
  | zero => intro it S s hd hn; exact ⟨S, s, rfl, hd, hn⟩
  | succ n ih =>
    intro it S s hd hn
    obtain ⟨S1, s1, h1, hd1, hn1⟩ := C100_water_iteration hg hP it hd hn s
    obtain ⟨S2, s2, h2, hd2, hn2⟩ := ih (it + 1) S1 s1 hd1 hn1
    refine ⟨S2, s2, ?_, hd2, hn2⟩
    unfold routeWaterFromR
    rw [h1]
    exact h2

end Verif.Props
