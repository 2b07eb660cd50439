import Verif.Props.Flow

/-!
# Whole water routings

The walks recorded by the routing are what the free surface computation expects (part of C15), and
water routing never aborts on a well laid-out domain (C71).
-/

set_option linter.unusedSectionVars false

namespace Verif.Props

open Verif.Model Verif.Lemmas Verif.Spec

variable {K : Type*} [Field K] [LinearOrder K] [IsStrictOrderedRing K] [FloorRing K] {σ : Type*}
  {L W m : ℕ} [NeZero L] [NeZero W]

lemma position_pos_of_active {E : WEnv L W K} (hC : ClosedLayout E) {c : Cell L W}
    (hc : IsActive E c) : 0 < position c := by
  have h := (hC.active c hc).2.1
  have : (0 : ℤ) < c.2.val := by exact_mod_cast h
  have h2 : (0 : ℤ) ≤ (W : ℤ) * c.1.val := by positivity
  unfold position
  omega

lemma walk_mem_entry {st : WState L W K} {p : WParcel} (hp : p ∈ st.parcels) {i : ℤ}
    (hi : i ∈ p.walk) : ∃ j k, pathEntry st j k = some i := by
  obtain ⟨j, hj⟩ := List.mem_iff_getElem?.mp hp
  obtain ⟨k, hk⟩ := List.mem_iff_getElem?.mp hi
  exact ⟨j, k, by unfold pathEntry; rw [hj]; exact hk⟩

/-- Positive entries of the record are positions of cells. -/
lemma entry_cell {g : Rng K σ} {E : WEnv L W K} {inlet : Fin m → ℤ} {np ncols : ℕ}
    {s : σ} {st : WState L W K} {log : List (List StepRec)} {n : ℕ} {s' : σ}
    (hr : WaterRun g E inlet np ncols s st log n s') (j i : ℕ) (v : ℤ)
    (hv : pathEntry st j i = some v) (hpos : 0 < v) : ∃ c : Cell L W, v = position c := by
  obtain ⟨-, -, -, ⟨starts, h1, h2⟩, h3, h4⟩ := C12_record hr.run
  obtain ⟨hn, hlen, -⟩ := C11_terminates hr
  cases i with
  | zero =>
    rw [h2] at hv
    obtain ⟨starts', st0, -, -, hmem, -⟩ := starts_of_run hr.draws hr.hm hr.run
    have : Nonempty (Fin m) := ⟨⟨0, hr.hm⟩⟩
    obtain ⟨l, hl, -, hmem⟩ := C05_start_indices hr.hm inlet (getInletWeights inlet : Fin m → K)
      (fun _ => by simp [getInletWeights])
      (by unfold total; simp only [getInletWeights, Finset.sum_const, Finset.card_univ,
            Fintype.card_fin, nsmul_eq_mul, mul_one]; exact_mod_cast hr.hm)
      (drawN g np s).1 (drawN_mem g (fun r => 0 ≤ r ∧ r ≤ 1)
        (fun s => ⟨(hr.draws s).1.le, (hr.draws s).2⟩) np s)
    rw [h1] at hl
    cases hl
    obtain ⟨k, hk⟩ := hmem v (List.mem_of_getElem? hv)
    obtain ⟨c, hc, -⟩ := hr.inlet k
    exact ⟨c, by rw [hk, hc]⟩
  | succ k =>
    by_cases hk : k < log.length
    · rw [h3 k hk j] at hv
      cases hrec : (log[k])[j]? with
      | none => rw [hrec] at hv; simp at hv
      | some r =>
        rw [hrec] at hv
        simp only [Option.map_some, Option.some.injEq] at hv
        split_ifs at hv
        · omega
        · rcases C10_step_kinds hr k hk r (List.mem_of_getElem? hrec) with
            ⟨-, -, -, h, -⟩ | ⟨c, -, -, -, -, -, h, -⟩ | ⟨c, n, -, -, -, -, -, -, h, -⟩ |
            ⟨c, n, t, -, -, -, -, -, -, h, -⟩ | ⟨c, -, -, -, -, -, h, h', -⟩
          · omega
          · omega
          · exact ⟨n, by rw [← hv, h]⟩
          · exact ⟨t, by rw [← hv, h]⟩
          · omega
    · have := h4 j (k + 1) v (by omega) hv
      omega

/-- A list of positions comes from a list of cells. -/
lemma exists_cells : ∀ l : List ℤ, (∀ i ∈ l, ∃ c : Cell L W, i = position c) →
    ∃ cs : List (Cell L W), l = cs.map position
  | [], _ => ⟨[], rfl⟩
  | i :: l, h => by
    obtain ⟨c, hc⟩ := h i List.mem_cons_self
    obtain ⟨cs, hcs⟩ := exists_cells l (fun j hj => h j (List.mem_cons_of_mem _ hj))
    exact ⟨c :: cs, by rw [List.map_cons, ← hcs, ← hc]⟩

lemma forall_exists₂ {α β : Type*} {R : α → β → Prop} : ∀ l : List α, (∀ a ∈ l, ∃ b, R a b) →
    ∃ bs, List.Forall₂ R l bs
  | [], _ => ⟨[], .nil⟩
  | a :: l, h => by
    obtain ⟨b, hb⟩ := h a List.mem_cons_self
    obtain ⟨bs, hbs⟩ := forall_exists₂ l (fun x hx => h x (List.mem_cons_of_mem _ hx))
    exact ⟨b :: bs, .cons hb hbs⟩

/-- C15: what the water routing records are paths, as the free surface computation expects them:
the theorems on visits and elevations apply to every routing. -/
theorem C15_routed_walks {g : Rng K σ} {E : WEnv L W K} {inlet : Fin m → ℤ} {np ncols : ℕ}
    {s : σ} {st : WState L W K} {log : List (List StepRec)} {n : ℕ} {s' : σ}
    (hr : WaterRun g E inlet np ncols s st log n s') :
    ∃ css : List (List (Cell L W)), Walked (st.parcels.map (fun p => (p.walk, p.flag))) css := by
  apply forall_exists₂
  intro a ha
  simp only [List.mem_map] at ha
  obtain ⟨p, hp, rfl⟩ := ha
  obtain ⟨cs, hcs⟩ := exists_cells (L := L) (W := W) (p.walk.filter (fun i => decide (0 < i))) (by
    intro i hi
    simp only [List.mem_filter, decide_eq_true_eq] at hi
    obtain ⟨j, k, hjk⟩ := walk_mem_entry hp hi.1
    exact entry_cell hr j k i hjk hi.2)
  refine ⟨cs, hcs, ?_⟩
  rintro rfl
  -- the first entry is positive
  obtain ⟨-, -, -, ⟨starts, h1, h2⟩, -, -⟩ := C12_record hr.run
  obtain ⟨j, hj⟩ := List.mem_iff_getElem?.mp hp
  have this : Nonempty (Fin m) := ⟨⟨0, hr.hm⟩⟩
  obtain ⟨l, hl, -, hmem⟩ := C05_start_indices hr.hm inlet (getInletWeights inlet : Fin m → K)
    (fun _ => by simp [getInletWeights])
    (by unfold total; simp only [getInletWeights, Finset.sum_const, Finset.card_univ,
          Fintype.card_fin, nsmul_eq_mul, mul_one]; exact_mod_cast hr.hm)
    (drawN g np s).1 (drawN_mem g (fun r => 0 ≤ r ∧ r ≤ 1)
      (fun s => ⟨(hr.draws s).1.le, (hr.draws s).2⟩) np s)
  rw [h1] at hl
  cases hl
  obtain ⟨hlen, hn0, -⟩ := C12_record hr.run
  have hne : 0 < p.walk.length := by rw [hlen p hp]; omega
  have h0 : pathEntry st j 0 = some p.walk[0] := by
    unfold pathEntry; rw [hj]; simp [hne]
  rw [h2 j] at h0
  obtain ⟨k, hk⟩ := hmem _ (List.mem_of_getElem? h0)
  obtain ⟨c, hc, hact⟩ := hr.inlet k
  have hpos := position_pos_of_active hr.layout hact
  have : p.walk[0] ∈ p.walk.filter (fun i => decide (0 < i)) := by
    simp only [List.mem_filter, List.getElem_mem, decide_eq_true_eq, true_and]
    rw [hk, hc]; exact hpos
  rw [hcs] at this
  simp at this

/-! ## C71 -/

/-- The domain and the coefficients the water routing needs: the layout of `create_domain` (C52)
with at least two inlet rows, inlet cells that are neither land nor edge, a partitioning
coefficient in [0, 1], modification factors that are not negative, and room for four steps. -/
structure WaterSetup (P : Params L W m K) : Prop where
  hL0 : 2 ≤ P.L0
  hL : P.L0 + 2 ≤ L
  hW : 3 ≤ W
  active : ∀ c : Cell L W, P.cellType c ≠ -1 → P.cellType c ≠ -2 →
    c.1.val + 1 < L ∧ 0 < c.2.val ∧ c.2.val + 1 < W
  last : ∀ c : Cell L W, c.1.val + 1 = L → P.cellType c = -1
  land : ∀ c : Cell L W, P.L0 ≤ c.1.val → P.cellType c ≠ -2
  nrm : ∀ x y, P.nrm x y = 0 → x = 0 ∧ y = 0
  mod : ∀ c, 0 ≤ P.modWater c
  pw : ∀ x, 0 ≤ x → 0 ≤ P.pwWater x
  gamma0 : 0 ≤ P.gamma
  gamma1 : P.gamma ≤ 1
  steps : 4 ≤ P.stepmax
  hm : 0 < m
  inlet : ∀ k, P.cellType (0, P.inlet k) ≠ -1 ∧ P.cellType (0, P.inlet k) ≠ -2

lemma mem_allCells (c : Cell L W) : c ∈ allCells L W := by
  unfold allCells
  simp only [List.mem_flatMap, List.mem_finRange, List.mem_map, true_and]
  exact ⟨c.1, c.2, rfl⟩

lemma firstErr_none {α : Type*} {f : Cell L W → Except Err α} {l : List (Cell L W)}
    (h : ∀ c ∈ l, ∃ a, f c = .ok a) : firstErr f l = none := by
  induction l with
  | nil => rfl
  | cons c cs ih =>
    obtain ⟨a, ha⟩ := h c List.mem_cons_self
    unfold firstErr
    rw [ha]
    exact ih (fun x hx => h x (List.mem_cons_of_mem _ hx))

lemma weights_total {P : Params L W m K} (hP : WaterSetup P) {S : State L W K}
    (hd : ∀ c, 0 ≤ S.depth c) :
    ∃ w, waterWeightArray P S = .ok w ∧ ∀ c, waterWeights S.depth S.stage P.modWater P.cellType
      S.qx S.qy P.s2 P.s05 P.dryDepth P.gamma P.pwWater c = .ok (w c) := by
  have hall : ∀ c, ∃ a, waterWeights S.depth S.stage P.modWater P.cellType
      S.qx S.qy P.s2 P.s05 P.dryDepth P.gamma P.pwWater c = .ok a := by
    intro c
    by_cases hc : P.cellType c = -2
    · obtain ⟨w, h, -⟩ := C06_land S.depth S.stage P.modWater P.cellType S.qx S.qy P.s2 P.s05
        P.dryDepth P.gamma P.pwWater hd hP.mod hP.pw hP.gamma0 hP.gamma1 c hc
      exact ⟨w, h⟩
    · obtain ⟨w, h, -⟩ := C06_water_distribution S.depth S.stage P.modWater P.cellType S.qx S.qy
        P.s2 P.s05 P.dryDepth P.gamma P.pwWater hd hP.mod hP.pw hP.gamma0 hP.gamma1 c hc
      exact ⟨w, h⟩
  have hfe : firstErr (waterWeights S.depth S.stage P.modWater P.cellType S.qx S.qy P.s2 P.s05
      P.dryDepth P.gamma P.pwWater) (allCells L W) = none := firstErr_none (fun c _ => hall c)
  refine ⟨_, by unfold waterWeightArray; simp only [hfe]; rfl, ?_⟩
  intro c
  obtain ⟨a, ha⟩ := hall c
  simp only [ha]

lemma waterRun_of {g : Rng K σ} (hg : PositiveDraws g) {P : Params L W m K} (hP : WaterSetup P)
    {S : State L W K} (hd : ∀ c, 0 ≤ S.depth c) (hn : 0 < S.ncols) (s : σ)
    {w : Grid L W (Fin 9 → K)} (hw : ∀ c, waterWeights S.depth S.stage P.modWater P.cellType
      S.qx S.qy P.s2 P.s05 P.dryDepth P.gamma P.pwWater c = .ok (w c)) :
    ∃ st log n s', WaterRun g (waterEnv P S w) (fun k => ((P.inlet k).val : ℤ)) P.NpWater S.ncols s
      st log n s' := by
  have hA := C10_weights_admissible S.depth S.stage P.modWater S.qx S.qy P.s2 P.s05 P.dryDepth
    P.gamma P.pwWater (waterEnv P S w) hd hP.mod hP.pw hP.gamma0 hP.gamma1 hw
  have hC : ClosedLayout (waterEnv P S w) :=
    ⟨hP.hL0, hP.hL, fun c hc => hP.active c hc.1 hc.2, hP.last, hP.land, hP.hW, hP.nrm⟩
  have hLpos : 2 ≤ L := by have := hP.hL; have := hP.hL0; omega
  have hin : ∀ k, ∃ c : Cell L W, (fun k => ((P.inlet k).val : ℤ)) k = position c ∧
      IsActive (waterEnv P S w) c := by
    intro k
    exact ⟨(0, P.inlet k), by simp [position], hP.inlet k⟩
  obtain ⟨⟨st, log, n, s'⟩, h⟩ := C10_no_index_error g (fun s => ⟨(hg s).1.le, (hg s).2⟩)
    (waterEnv P S w) hLpos (by have := hP.hW; omega) hP.hL0 hP.steps hA.2 hP.nrm (by
      intro c hc
      change P.cellType c ≠ -1 at hc
      have hlast : c.1.val + 1 < L := by
        have h1 := c.1.isLt
        by_contra hcon
        exact hc (hP.last c (by omega))
      refine ⟨hlast, fun h2 => ?_⟩
      by_cases hl : P.cellType c = -2
      · exfalso
        exact hP.land c (by have := hP.hL; omega) hl
      · exact (hP.active c hc hl).2.2) hP.hm (fun k => ((P.inlet k).val : ℤ))
      (fun k => by
        obtain ⟨c, h1, h2⟩ := hin k
        exact ⟨c, h1, h2.1⟩) P.NpWater S.ncols hn s
  exact ⟨st, log, n, s', h, hg, hC, hA.1, hP.hm, hin⟩

/-- C71: on a well laid-out domain with depths that are not negative, a water iteration never
aborts, for all draws in (0, 1]. -/
theorem C71_water_iteration {g : Rng K σ} (hg : PositiveDraws g) {P : Params L W m K}
    (hP : WaterSetup P) (it : ℕ) {S : State L W K} (hd : ∀ c, 0 ≤ S.depth c) (hn : 0 < S.ncols)
    (s : σ) : ∃ S' s', waterIteration g P it S s = .ok (S', s') ∧ (∀ c, 0 ≤ S'.depth c) ∧
      0 < S'.ncols := by
  obtain ⟨w, hw, hwc⟩ := weights_total hP hd
  obtain ⟨st, log, n, s', hr⟩ := waterRun_of hg hP hd hn s hwc
  obtain ⟨css, hcss⟩ := C15_routed_walks hr
  obtain ⟨a, ha, -⟩ := C15_visits (sfcEnv P S) hcss
  have hok : ∃ stage, computeFreeSurface P S st.parcels = .ok stage := by
    unfold computeFreeSurface
    rw [ha]
    exact ⟨_, rfl⟩
  obtain ⟨stage, hstage⟩ := hok
  have hres : waterIteration g P it S s =
      .ok ({ finalizeWaterIteration P S it stage st.flux with ncols := st.ncols }, s') := by
    unfold waterIteration
    simp only [hw, hr.run, hstage]
  refine ⟨_, s', hres, fun c => le_max_right _ _, ?_⟩
  have := (C12_record hr.run).2.1
  change 0 < st.ncols
  omega

/-- C71: the water routing of a timestep never aborts. -/
theorem C71_water_routing {g : Rng K σ} (hg : PositiveDraws g) {P : Params L W m K}
    (hP : WaterSetup P) {S : State L W K} (hd : ∀ c, 0 ≤ S.depth c) (hn : 0 < S.ncols)
    (s : σ) : ∃ S' s', routeWater g P S s = .ok (S', s') ∧ (∀ c, 0 ≤ S'.depth c) ∧
      0 < S'.ncols := by
  suffices key : ∀ n it (S : State L W K) (s : σ), (∀ c, 0 ≤ S.depth c) → 0 < S.ncols →
      ∃ S' s', routeWaterFrom g P it n S s = .ok (S', s') ∧ (∀ c, 0 ≤ S'.depth c) ∧
        0 < S'.ncols from key _ _ S s hd hn
  intro n
  induction n with
  | zero => intro it S s hd hn; exact ⟨S, s, rfl, hd, hn⟩
  | succ n ih =>
    intro it S s hd hn
    obtain ⟨S1, s1, h1, hd1, hn1⟩ := C71_water_iteration hg hP it hd hn s
    obtain ⟨S2, s2, h2, hd2, hn2⟩ := ih (it + 1) S1 s1 hd1 hn1
    refine ⟨S2, s2, ?_, hd2, hn2⟩
    unfold routeWaterFrom
    rw [h1]
    exact h2

-- the example domain meets the hypotheses, so its water routing runs
lemma exSetup : WaterSetup exParams where
  hL0 := le_refl _
  hL := le_refl _
  hW := le_refl _
  active := by
    intro c h1 h2
    change exType c ≠ -1 at h1
    change exType c ≠ -2 at h2
    revert c; decide
  last := by intro c h; change exType c = -1; revert c; decide
  land := by
    intro c h
    change (2 : ℤ) ≤ c.1.val at h
    change exType c ≠ -2
    revert c; decide
  nrm := exNrm
  mod := fun _ => by norm_num [exParams]
  pw := fun _ h => h
  gamma0 := by norm_num [exParams]
  gamma1 := by norm_num [exParams]
  steps := by decide
  hm := by decide
  inlet := by intro k; change exType (0, 1) ≠ -1 ∧ exType (0, 1) ≠ -2; decide

lemma exPositive : PositiveDraws constRng := fun _ => by norm_num [constRng]

example : ∃ S' s', routeWater constRng exParams exState () = .ok (S', s') ∧ WaterConsistent S' ∧
    DischargeConsistent exParams S' ∧ VelocityConsistent exParams S' := by
  obtain ⟨S', s', h, -⟩ := C71_water_routing exPositive exSetup (S := exState)
    (fun _ => by norm_num [exState]) (by decide) ()
  refine ⟨S', s', h, (C19_route (by decide) h).1, C20_route ?_ (by decide) h,
    C21_route (by norm_num [exParams]) (by norm_num [exParams]) (by decide) h⟩
  change |(1 : ℚ)| + |0| = 1
  norm_num

end Verif.Props
