import Verif.Spec.InletRule
import Verif.Props.PathLaw
import Verif.Props.Budget

/-!
# C115: models that choose the inlet cells by weights of their own
-/

set_option linter.unusedSectionVars false

namespace Verif.Props

open Verif.Model Verif.Lemmas Verif.Spec

universe v

section

variable {K : Type v} [Field K] [LinearOrder K] [IsStrictOrderedRing K] [FloorRing K] {σ : Type v} {m : ℕ}

/-! ## Start cells by weights -/

lemma weighed_pick {w : Fin m → K} (hw : Usable w) {x : K} {k : Fin m} :
    randomPick (fun k => w k / (List.ofFn w).sum) x = some k ↔ (weighed w k).By x := by
  have hsum : (List.ofFn w).sum = ∑ i, w i := List.sum_ofFn
  rw [hsum, pick_chosen (fun i => div_nonneg (hw.1 i) hw.2.le), chosen_scale hw.2]
  rfl

lemma weighed_of {inlet : Fin m → ℤ} {w : Fin m → K} (hw : Usable w) {σ : Type*} (g : Rng K σ) : ∀ (ks : List (Fin m))
    (s s' : σ), Uses g.next s (ks.map fun k => (weighed w k).By) s' →
      getStartIndices inlet w (drawN g ks.length s).1 = some (ks.map inlet) ∧ (drawN g ks.length s).2 = s' := by
  intro ks
  unfold getStartIndices
  simp only
  induction ks with
  | nil =>
    intro s s' h
    rw [List.map_nil, uses_nil] at h
    simp only [List.length_nil, drawN, startLoop, List.map_nil, true_and]
    exact h.symm
  | cons k ks ih =>
    intro s s' h
    simp only [List.length_cons, drawN, startLoop, List.map_cons]
    rw [List.map_cons, uses_cons, ← weighed_pick hw] at h
    obtain ⟨h1, h2⟩ := h
    obtain ⟨h3, h4⟩ := ih _ _ h2
    rw [h1, h3]
    exact ⟨rfl, h4⟩

lemma weighed_to {inlet : Fin m → ℤ} {w : Fin m → K} (hw : Usable w) {σ : Type*} (g : Rng K σ) : ∀ (n : ℕ) (s : σ)
    (starts : List ℤ), getStartIndices inlet w (drawN g n s).1 = some starts →
    ∃ ks : List (Fin m), ks.length = n ∧ starts = ks.map inlet ∧
      Uses g.next s (ks.map fun k => (weighed w k).By) (drawN g n s).2 := by
  intro n
  unfold getStartIndices
  simp only
  induction n with
  | zero =>
    intro s starts h
    simp only [drawN, startLoop, Option.some.injEq] at h
    exact ⟨[], rfl, h.symm, .done s⟩
  | succ n ih =>
    intro s starts h
    simp only [drawN, startLoop] at h ⊢
    split at h
    · rename_i j js hj hjs
      simp only [Option.some.injEq] at h
      subst h
      obtain ⟨ks, h1, rfl, h2⟩ := ih _ _ hjs
      refine ⟨j :: ks, by simp [h1], rfl, ?_⟩
      rw [List.map_cons, uses_cons, ← weighed_pick hw]
      exact ⟨hj, h2⟩
    · cases h

lemma weighed_exist {g : Rng K σ} (hg : PositiveDraws g) (inlet : Fin m → ℤ) (hm : 0 < m) {w : Fin m → K}
    (hw : Usable w) (n : ℕ) (s : σ) : ∃ ks : List (Fin m), ks.length = n ∧
      getStartIndices inlet w (drawN g n s).1 = some (ks.map inlet) ∧
      Uses g.next s (ks.map fun k => (weighed w k).By) (drawN g n s).2 := by
  obtain ⟨l, hl, -, -⟩ := C05_start_indices hm inlet w hw.1 hw.2 (drawN g n s).1
    (drawN_mem g (fun r => 0 ≤ r ∧ r ≤ 1) (fun s => ⟨(hg s).1.le, (hg s).2⟩) n s)
  obtain ⟨ks, h1, rfl, h2⟩ := weighed_to hw g n s l hl
  exact ⟨ks, h1, hl, h2⟩

/-! ## Numbers as sequences -/

/-- The numbers that a generator gives from a state on. -/
def numbersFrom (g : Rng K σ) (hg : PositiveDraws g) (s : σ) : ℕ → {x : K // 0 < x ∧ x ≤ 1} :=
  fun i => ⟨(g.next ((fun s => (g.next s).2)^[i] s)).1, hg _⟩

lemma unitPositive : PositiveDraws (unitStream : Rng K _) := fun s => (s 0).property

lemma numbers_next (g : Rng K σ) (hg : PositiveDraws g) (s : σ) :
    unitStream.next (numbersFrom g hg s) = ((g.next s).1, numbersFrom g hg (g.next s).2) := rfl

lemma uses_numbers {g : Rng K σ} (hg : PositiveDraws g) {ps : List (K → Prop)} : ∀ {s : σ} {t},
    Uses unitStream.next (numbersFrom g hg s) ps t → ∃ s', Uses g.next s ps s' ∧ t = numbersFrom g hg s' := by
  induction ps with
  | nil =>
    intro s t h
    rw [uses_nil] at h
    exact ⟨s, .done _, h⟩
  | cons p ps ih =>
    intro s t h
    rw [uses_cons] at h
    obtain ⟨h1, h2⟩ := h
    obtain ⟨s', h3, rfl⟩ := ih (s := (g.next s).2) h2
    exact ⟨s', uses_cons.2 ⟨h1, h3⟩, rfl⟩

/-- Numbers can be put before a sequence. -/
lemma uses_prefix {ps : List (K → Prop)} (h : ∀ p ∈ ps, ∃ x, 0 < x ∧ x ≤ 1 ∧ p x)
    (t : ℕ → {x : K // 0 < x ∧ x ≤ 1}) : ∃ t0, Uses unitStream.next t0 ps t := by
  induction ps with
  | nil => exact ⟨t, .done t⟩
  | cons p ps ih =>
    obtain ⟨t0, h0⟩ := ih fun q hq => h q (List.mem_cons_of_mem _ hq)
    obtain ⟨x, h1, h2, h3⟩ := h p List.mem_cons_self
    refine ⟨fun i => match i with | 0 => ⟨x, h1, h2⟩ | i + 1 => t0 i, uses_cons.2 ⟨?_, ?_⟩⟩
    · exact h3
    · exact h0

/-- Every number of a generator that was used can be drawn. -/
lemma uses_drawable {g : Rng K σ} (hg : PositiveDraws g) {ps : List (K → Prop)} : ∀ {s s' : σ},
    Uses g.next s ps s' → ∀ p ∈ ps, ∃ x, 0 < x ∧ x ≤ 1 ∧ p x := by
  induction ps with
  | nil => intro s s' _ p hp; cases hp
  | cons q ps ih =>
    intro s s' h p hp
    rw [uses_cons] at h
    rcases List.mem_cons.1 hp with rfl | hp
    · exact ⟨_, (hg s).1, (hg s).2, h.1⟩
    · exact ih h.2 p hp

/-- Every inlet cell can be a start. -/
lemma evenly_drawable (k : Fin m) : ∃ x : K, 0 < x ∧ x ≤ 1 ∧ (evenly K k).By x := by
  have hm : (0 : K) < m := by exact_mod_cast lt_of_le_of_lt (Nat.zero_le _) k.isLt
  have hk : (k.val : K) + 1 ≤ m := by exact_mod_cast k.isLt
  have hk0 : (0 : K) ≤ k.val := Nat.cast_nonneg _
  refine ⟨((k.val : K) + 1) / m, by positivity, (div_le_one hm).2 hk, ?_⟩
  change Chosen (fun _ : Fin m => (1 : K)) _ k
  unfold Chosen
  have e : ∑ _i : Fin m, (1 : K) = m := by simp
  have e1 : (∑ i : Fin m with i < k, (1 : K)) = k.val := by
    rw [Finset.filter_gt_eq_Iio]; simp
  have e2 : (∑ i : Fin m with i ≤ k, (1 : K)) = k.val + 1 := by
    rw [Finset.filter_ge_eq_Iic]; simp
  rw [e, e1, e2, div_mul_cancel₀ _ hm.ne']
  exact ⟨.inr (by linarith), le_refl _⟩

variable {L W : ℕ} [NeZero L] [NeZero W]

/-! ## Water -/

/-- A water iteration with usable weights is run to the end. The same paths come out without own weights when the numbers
make the same starts and the same steps. -/
lemma runWaterC_std {g : Rng K σ} (hg : PositiveDraws g) {P : Params L W m K} (hP : WaterSetup P)
    {S : State L W K} (hd : ∀ c, 0 ≤ S.depth c) (hn : 0 < S.ncols) {w : Grid L W (Fin 9 → K)}
    (hw : waterWeightArray P S = .ok w) {iw : Fin m → K} (hiw : Usable iw) (s : σ) :
    ∃ (ks : List (Fin m)) (decs : List (Decision K)) (wst : WState L W K) (log : List (List StepRec)) (n : ℕ) (s' : σ),
      ks.length = P.NpWater ∧ runWaterIterationC g (waterEnv P S w) (fun k => ((P.inlet k).val : ℤ)) iw P.NpWater
        S.ncols s = .ok (wst, log, n, s') ∧
      (∀ j, pathEntry wst j 0 = (ks.map fun k => ((P.inlet k).val : ℤ))[j]?) ∧
      (∀ r ∈ moves log, ∀ c, Addresses r.cur c → IsDistribution (w c)) ∧
      List.Forall₂ (IsMove w) (moves log) decs ∧
      Uses g.next s ((ks.map (weighed iw) ++ decs).map Decision.By) s' ∧
      (∀ {τ : Type v} (g' : Rng K τ) (t t' : τ), Uses g'.next t ((ks.map (evenly K) ++ decs).map Decision.By) t' →
        runWaterIteration g' (waterEnv P S w) (fun k => ((P.inlet k).val : ℤ)) P.NpWater S.ncols t =
          .ok (wst, log, n, t')) ∧
      (∀ {τ : Type v} (g' : Rng K τ) (t t' : τ), Uses g'.next t ((ks.map (weighed iw) ++ decs).map Decision.By) t' →
        runWaterIterationC g' (waterEnv P S w) (fun k => ((P.inlet k).val : ℤ)) iw P.NpWater S.ncols t =
          .ok (wst, log, n, t')) ∧
      (Function.Injective P.inlet → ∀ {τ : Type v} (g' : Rng K τ) (t t' : τ),
        runWaterIterationC g' (waterEnv P S w) (fun k => ((P.inlet k).val : ℤ)) iw P.NpWater S.ncols t =
          .ok (wst, log, n, t') → Uses g'.next t ((ks.map (weighed iw) ++ decs).map Decision.By) t') := by
  have hA := C10_weights_admissible S.depth S.stage P.modWater S.qx S.qy P.s2 P.s05 P.dryDepth
    P.gamma P.pwWater (waterEnv P S w) hd hP.mod hP.pw hP.gamma0 hP.gamma1 (waterWeightArray_ok hw)
  obtain ⟨ks, k1, k2, k3⟩ := weighed_exist hg (fun k => ((P.inlet k).val : ℤ)) hP.hm hiw P.NpWater s
  -- the same starts without own weights
  obtain ⟨t0, ht0⟩ := uses_prefix (ps := ks.map fun k => (evenly K k).By) (by
    intro p hp
    obtain ⟨k, -, rfl⟩ := List.mem_map.1 hp
    exact evenly_drawable k) (numbersFrom g hg (drawN g P.NpWater s).2)
  obtain ⟨e1, e2⟩ := starts_of (inlet := fun k => ((P.inlet k).val : ℤ)) unitStream ks t0 _ ht0
  obtain ⟨wst, log, n, t', hr⟩ := waterRun_of unitPositive hP hd hn t0 (waterWeightArray_ok hw)
  have hmove := moves_total unitPositive hP hd hn hw hr.run
  obtain ⟨-, -, -, ⟨starts', e4, e5⟩, -, -⟩ := C12_record hr.run
  obtain ⟨starts, st0, h1, h2, h3⟩ := runWater_ok _ _ _ _ _ _ _ hr.run
  rw [e4] at h1
  cases h1
  rw [← k1] at e4 h3
  rw [e1] at e4
  cases e4
  rw [e2] at h3
  obtain ⟨decs, b1, b0, b2⟩ := waterLoop_iff.{v} hA.2 _ _ _ _ _ _ _ _ rfl h3
  obtain ⟨s', c1, rfl⟩ := uses_numbers hg b0
  refine ⟨ks, decs, wst, log, n, s', k1, ?_, e5, hmove, b1, ?_, ?_, ?_, ?_⟩
  · unfold runWaterIterationC
    simp only [k2, h2]
    exact (b2 g _ _).mpr c1
  · rw [List.map_append, List.map_map]
    exact uses_append k3 c1
  · intro τ g' t t' hu
    rw [List.map_append, uses_app, List.map_map] at hu
    obtain ⟨t1, h4, h5⟩ := hu
    obtain ⟨h6, rfl⟩ := starts_of (inlet := fun k => ((P.inlet k).val : ℤ)) g' ks t t1 h4
    rw [k1] at h6 h5
    rw [runWater_of h6 h2]
    exact (b2 _ _ _).mpr h5
  · intro τ g' t t' hu
    rw [List.map_append, uses_app, List.map_map] at hu
    obtain ⟨t1, h4, h5⟩ := hu
    obtain ⟨h6, rfl⟩ := weighed_of (inlet := fun k => ((P.inlet k).val : ℤ)) hiw g' ks t t1 h4
    rw [k1] at h6 h5
    unfold runWaterIterationC
    simp only [h6, h2]
    exact (b2 _ _ _).mpr h5
  · intro hi τ g' t t' h'
    rw [List.map_append, uses_app, List.map_map]
    unfold runWaterIterationC at h'
    simp only at h'
    split at h'
    · cases h'
    · rename_i starts h6
      split at h'
      · cases h'
      · rename_i st1 h7
        obtain ⟨ks', c2, rfl, c3⟩ := weighed_to hiw g' _ t starts h6
        obtain ⟨-, hnc, hncols, hRect, -, -, hw0, hwz, -⟩ := waterStart_ok h7
        obtain ⟨-, -, -, a4, -, -, -⟩ := waterLoop_walk g' _ 0 st1 wst _ t' log n hRect (by omega) h'
        have e6 : (ks'.map fun k => ((P.inlet k).val : ℤ)) = ks.map fun k => ((P.inlet k).val : ℤ) := by
          apply List.ext_getElem?
          intro j
          rw [← e5, pathEntry_eq, a4 j 0 le_rfl, hw0]
        have e7 : ks' = ks := by
          refine List.map_injective_iff.mpr ?_ e6
          intro a b hab
          exact hi (Fin.ext (Int.natCast_inj.1 hab))
        subst e7
        rw [h2] at h7
        cases h7
        exact ⟨_, c3, (b2 _ _ _).mp h'⟩

/-- A water iteration of `route_water`. -/
lemma waterIterationC_std {g : Rng K σ} (hg : PositiveDraws g) {R : InletRule L W m K} (hR : UsableRule R)
    {P : Params L W m K} (hP : WaterSetup P) (it : ℕ)
    {S : State L W K} (hd : ∀ c, 0 ≤ S.depth c) (hn : 0 < S.ncols) (s : σ) :
    ∃ S' s', waterIterationC g R P it S s = .ok (S', s') ∧ (∀ c, 0 ≤ S'.depth c) ∧ 0 < S'.ncols ∧
      ∃ ps : List (K → Prop), (∀ p ∈ ps, ∃ x, 0 < x ∧ x ≤ 1 ∧ p x) ∧
        ∀ {τ : Type v} (g' : Rng K τ) (t t' : τ), Uses g'.next t ps t' → waterIteration g' P it S t = .ok (S', t') := by
  obtain ⟨w, hw, -⟩ := weights_total hP hd
  obtain ⟨ks, decs, wst, log, n, s', h1, h2, -, -, -, h6, h7, -, -⟩ :=
    runWaterC_std hg hP hd hn hw (hR.water P S hd) s
  have hps : ∀ p ∈ (ks.map (evenly K) ++ decs).map Decision.By, ∃ x, 0 < x ∧ x ≤ 1 ∧ p x := by
    intro p hp
    rw [List.map_append, List.mem_append, List.map_map] at hp
    rcases hp with hp | hp
    · obtain ⟨k, -, rfl⟩ := List.mem_map.1 hp
      exact evenly_drawable k
    · refine uses_drawable hg h6 p ?_
      rw [List.map_append, List.mem_append]
      exact .inr hp
  obtain ⟨t0, ht0⟩ := uses_prefix hps (numbersFrom g hg s)
  obtain ⟨S', t1, e1, e2, e3⟩ := C71_water_iteration unitPositive hP it hd hn t0
  obtain ⟨w', wst', log', n', stage, a1, a2, a3, rfl⟩ := waterIteration_ok e1
  rw [hw] at a1
  cases a1
  rw [h7 _ _ _ ht0] at a2
  cases a2
  refine ⟨_, s', ?_, e2, e3, _, hps, ?_⟩
  · unfold waterIterationC
    simp only [hw, h2, a3]
  · intro τ g' t t' hu
    unfold waterIteration
    simp only [hw, h7 g' t t' hu, a3]

lemma routeWaterFromC_std {g : Rng K σ} (hg : PositiveDraws g) {R : InletRule L W m K} (hR : UsableRule R)
    {P : Params L W m K} (hP : WaterSetup P) : ∀ (n it : ℕ)
    {S : State L W K} (_ : ∀ c, 0 ≤ S.depth c) (_ : 0 < S.ncols) (s : σ),
    ∃ S' s', routeWaterFromC g R P it n S s = .ok (S', s') ∧ (∀ c, 0 ≤ S'.depth c) ∧ 0 < S'.ncols ∧
      ∃ ps : List (K → Prop), (∀ p ∈ ps, ∃ x, 0 < x ∧ x ≤ 1 ∧ p x) ∧
        ∀ {τ : Type v} (g' : Rng K τ) (t t' : τ), Uses g'.next t ps t' → routeWaterFrom g' P it n S t = .ok (S', t')
  | 0, it, S, hd, hn, s => by
    refine ⟨S, s, rfl, hd, hn, [], by simp, ?_⟩
    intro τ g' t t' hu
    rw [uses_nil] at hu
    subst hu
    rfl
  | n + 1, it, S, hd, hn, s => by
    obtain ⟨S1, s1, a1, a2, a3, ps, a4, a5⟩ := waterIterationC_std hg hR hP it hd hn s
    obtain ⟨S2, s2, b1, b2, b3, qs, b4, b5⟩ := routeWaterFromC_std hg hR hP n (it + 1) a2 a3 s1
    refine ⟨S2, s2, ?_, b2, b3, ps ++ qs, ?_, ?_⟩
    · unfold routeWaterFromC
      simp only [a1, b1]
    · intro p hp
      rcases List.mem_append.1 hp with hp | hp
      · exact a4 p hp
      · exact b4 p hp
    · intro τ g' t t' hu
      rw [uses_app] at hu
      obtain ⟨t1, u1, u2⟩ := hu
      unfold routeWaterFrom
      rw [a5 g' t t1 u1]
      exact b5 g' t1 t' u2

/-! ## Sediment -/

lemma parcels_start {σ : Type*} (g : Rng K σ) (k : Sed) (P : Params L W m K) : ∀ (ks : List (Fin m)) (st) (s : σ) st' logs s',
    sedParcels g k P (ks.map fun i => ((P.inlet i).val : ℤ)) st s = .ok (st', logs, s') →
      logs.map (·.start) = ks.map P.inlet := by
  intro ks
  induction ks with
  | nil =>
    intro st s st' logs s' h
    simp only [List.map_nil, sedParcels, Except.ok.injEq, Prod.mk.injEq] at h
    obtain ⟨-, rfl, -⟩ := h
    rfl
  | cons i ks ih =>
    intro st s st' logs s' h
    have hc : pyCell L W 0 ((P.inlet i).val : ℤ) = some ((0 : Fin L), P.inlet i) := by
      have := pyCell_self ((0 : Fin L), P.inlet i)
      have h00 : (((0 : Fin L), P.inlet i).1.val : ℤ) = 0 := by simp
      rw [h00] at this
      exact this
    simp only [List.map_cons] at h
    unfold sedParcels at h
    rw [hc] at h
    simp only at h
    split at h
    · cases h
    · split at h
      · cases h
      · rename_i h8
        cases h
        simp [ih _ _ _ _ _ h8]

lemma routeParcelsC_std {g : Rng K σ} (hg : PositiveDraws g) {R : InletRule L W m K} {k : Sed}
    {P : Params L W m K} (hP : SedDomain P) (hs : P.s05 * P.s2 = 1)
    {S : State L W K} (hd : ∀ c, 0 ≤ S.depth c) (hR : Usable (R.sediment k P S)) (s : σ) :
    ∃ (ks : List (Fin m)) (decs : List (Decision K)) (S' : State L W K) (logs : List (SedLog L W K)) (s' : σ),
      routeParcelsC g R k P S s = .ok (S', logs, s') ∧ (∀ c, 0 ≤ S'.depth c) ∧
      logs.map (·.start) = ks.map P.inlet ∧ List.Forall₂ (IsSedMove k P) (logs.flatMap (·.steps)) decs ∧
      Uses g.next s ((ks.map (weighed (R.sediment k P S)) ++ decs).map Decision.By) s' ∧
      (∀ {τ : Type v} (g' : Rng K τ) (t t' : τ), Uses g'.next t ((ks.map (evenly K) ++ decs).map Decision.By) t' →
        routeParcels g' k P S t = .ok (S', logs, t')) ∧
      (Function.Injective P.inlet → ∀ {τ : Type v} (g' : Rng K τ) (t t' : τ), routeParcelsC g' R k P S t =
        .ok (S', logs, t') ↔ Uses g'.next t ((ks.map (weighed (R.sediment k P S)) ++ decs).map Decision.By) t') := by
  obtain ⟨ks, k1, k2, k3⟩ := weighed_exist hg (fun k => ((P.inlet k).val : ℤ)) hP.hm hR (numStarts k P) s
  obtain ⟨t0, ht0⟩ := uses_prefix (ps := ks.map fun k => (evenly K k).By) (by
    intro p hp
    obtain ⟨k, -, rfl⟩ := List.mem_map.1 hp
    exact evenly_drawable k) (numbersFrom g hg (drawN g (numStarts k P) s).2)
  obtain ⟨e1, e2⟩ := starts_of (inlet := fun k => ((P.inlet k).val : ℤ)) unitStream ks t0 _ ht0
  obtain ⟨S', logs, t', h1, h2⟩ := C71_sediment_parcels unitPositive k hP hd t0
  have h3 := h1
  unfold routeParcels at h3
  rw [k1] at e1 e2
  simp only [e1, e2] at h3
  split at h3
  · cases h3
  · rename_i st logs1 s2 h4
    cases h3
    obtain ⟨-, b1, decs, b2, b0, b3⟩ := sedParcels_iff.{v} unitPositive hP hs ks _ _ _ _ _ (padOk_init hd) h4
    obtain ⟨s', c1, rfl⟩ := uses_numbers hg b0
    refine ⟨ks, decs, st.S, logs, s', ?_, h2, b1, b2, ?_, ?_, ?_⟩
    · unfold routeParcelsC
      simp only [k2, (b3 g _ s' st).mpr ⟨c1, rfl⟩]
    · rw [List.map_append, List.map_map]
      exact uses_append k3 c1
    · intro τ g' t t' hu
      rw [List.map_append, uses_app, List.map_map] at hu
      obtain ⟨t1, u1, u2⟩ := hu
      obtain ⟨u3, rfl⟩ := starts_of (inlet := fun i => ((P.inlet i).val : ℤ)) g' ks t t1 u1
      rw [k1] at u2 u3
      unfold routeParcels
      simp only [u3, (b3 g' _ t' st).mpr ⟨u2, rfl⟩]
    · intro hi τ g' t t'
      constructor
      · intro h'
        unfold routeParcelsC at h'
        simp only at h'
        split at h'
        · cases h'
        · rename_i starts' h5
          split at h'
          · cases h'
          · rename_i st5 logs5 t5 h6
            simp only [Except.ok.injEq, Prod.mk.injEq] at h'
            obtain ⟨-, rfl, rfl⟩ := h'
            obtain ⟨ks', c1, rfl, c2⟩ := weighed_to hR g' _ t starts' h5
            have e : ks' = ks := by
              have := parcels_start _ _ _ _ _ _ _ _ _ h6
              rw [b1] at this
              exact (List.map_injective_iff.mpr hi this).symm
            subst e
            rw [List.map_append, uses_app, List.map_map]
            exact ⟨_, c2, ((b3 _ _ _ _).mp h6).1⟩
      · intro hu
        rw [List.map_append, uses_app, List.map_map] at hu
        obtain ⟨t1, u1, u2⟩ := hu
        obtain ⟨u3, rfl⟩ := weighed_of (inlet := fun i => ((P.inlet i).val : ℤ)) hR g' ks t t1 u1
        rw [k1] at u2 u3
        unfold routeParcelsC
        simp only [u3, (b3 g' _ t' st).mpr ⟨u2, rfl⟩]

lemma routeParcelsC_drawable {g : Rng K σ} (hg : PositiveDraws g) {R : InletRule L W m K} (k : Sed)
    {P : Params L W m K} (hP : SedDomain P) (hs : P.s05 * P.s2 = 1)
    {S : State L W K} (hd : ∀ c, 0 ≤ S.depth c) (hR : Usable (R.sediment k P S)) (s : σ) :
    ∃ (S' : State L W K) (logs : List (SedLog L W K)) (s' : σ),
      routeParcelsC g R k P S s = .ok (S', logs, s') ∧ (∀ c, 0 ≤ S'.depth c) ∧
      ∃ ps : List (K → Prop), (∀ p ∈ ps, ∃ x, 0 < x ∧ x ≤ 1 ∧ p x) ∧
        ∀ {τ : Type v} (g' : Rng K τ) (t t' : τ), Uses g'.next t ps t' →
          routeParcels g' k P S t = .ok (S', logs, t') := by
  obtain ⟨ks, decs, S', logs, s', h1, h2, -, -, h6, h7, -⟩ := routeParcelsC_std hg hP hs hd hR s
  refine ⟨S', logs, s', h1, h2, _, ?_, h7⟩
  intro p hp
  rw [List.map_append, List.mem_append, List.map_map] at hp
  rcases hp with hp | hp
  · obtain ⟨k, -, rfl⟩ := List.mem_map.1 hp
    exact evenly_drawable k
  · refine uses_drawable hg h6 p ?_
    rw [List.map_append, List.mem_append]
    exact .inr hp

/-! ## Runs -/

lemma timestepC_std {g : Rng K σ} (hg : PositiveDraws g) {R : InletRule L W m K} (hR : UsableRule R)
    {P : Params L W m K} (hW : WaterSetup P) (hD : SedDomain P) (hs : P.s05 * P.s2 = 1)
    {S : State L W K} (hd : ∀ c, 0 ≤ S.depth c) (hn : 0 < S.ncols) (s : σ) :
    ∃ S' l s', timestepC g R P S s = .ok (S', l, s') ∧
      ∃ ps : List (K → Prop), (∀ p ∈ ps, ∃ x, 0 < x ∧ x ≤ 1 ∧ p x) ∧
        ∀ {τ : Type v} (g' : Rng K τ) (t t' : τ), Uses g'.next t ps t' → timestep g' P S t = .ok (S', l, t') := by
  obtain ⟨S1, s1, a1, a2, a3, ps, a4, a5⟩ := routeWaterFromC_std hg hR hW P.itermax 0 hd hn s
  obtain ⟨S2, sand, s2, b1, b2, qs, b4, b5⟩ := routeParcelsC_drawable hg .sand hD hs (S := initSediment S1) a2
    (hR.sediment _ _ _ a2) s1
  obtain ⟨S3, mud, s3, c1, c2, rs, c4, c5⟩ := routeParcelsC_drawable hg .mud hD hs (S := { S2 with
    eta := topoDiffusion P.cellType P.diffMult S2.qs P.Ncross S2.eta }) b2 (hR.sediment _ _ _ b2) s2
  refine ⟨{ finalizeTimestep P S.eta (applySubsidence P S3) with
      time := (finalizeTimestep P S.eta (applySubsidence P S3)).time + P.dt
      timeIter := (finalizeTimestep P S.eta (applySubsidence P S3)).timeIter + 1 },
    ⟨S, S1, S3, sand, mud⟩, s3, ?_, ps ++ (qs ++ rs), ?_, ?_⟩
  · unfold timestepC
    simp only [a1]
    unfold routeSedimentC
    simp only [b1, c1]
  · intro p hp
    rcases List.mem_append.1 hp with hp | hp
    · exact a4 p hp
    · rcases List.mem_append.1 hp with hp | hp
      · exact b4 p hp
      · exact c4 p hp
  · intro τ g' t t' hu
    rw [uses_app] at hu
    obtain ⟨t1, u1, hu⟩ := hu
    rw [uses_app] at hu
    obtain ⟨t2, u2, u3⟩ := hu
    unfold timestep
    rw [show routeWater g' P S t = .ok (S1, t1) from a5 g' t t1 u1]
    simp only
    unfold routeSediment
    rw [b5 g' t1 t2 u2]
    simp only
    rw [c5 g' t2 t' u3]

lemma timestepsC_std {g : Rng K σ} (hg : PositiveDraws g) {R : InletRule L W m K} (hR : UsableRule R) :
    ∀ {Ps : List (Params L W m K)}
    (_ : ∀ P ∈ Ps, WaterSetup P ∧ SedDomain P ∧ P.s05 * P.s2 = 1 ∧ 0 ≤ P.h0)
    {S : State L W K} (_ : ∀ c, 0 ≤ S.depth c) (_ : 0 < S.ncols) (s : σ),
    ∃ S' ls s', timestepsC g R Ps S s = .ok (S', ls, s') ∧
      ∃ ps : List (K → Prop), (∀ p ∈ ps, ∃ x, 0 < x ∧ x ≤ 1 ∧ p x) ∧
        ∀ {τ : Type v} (g' : Rng K τ) (t t' : τ), Uses g'.next t ps t' → timesteps g' Ps S t = .ok (S', ls, t')
  | [], _, S, hd, hn, s => by
    refine ⟨S, [], s, rfl, [], by simp, ?_⟩
    intro τ g' t t' hu
    rw [uses_nil] at hu
    subst hu
    rfl
  | P :: Ps, hPs, S, hd, hn, s => by
    obtain ⟨hW, hD, hs, h0⟩ := hPs P List.mem_cons_self
    obtain ⟨S1, l, s1, a1, ps, a2, a3⟩ := timestepC_std hg hR hW hD hs hd hn s
    have hinv : (∀ c, 0 ≤ S1.depth c) ∧ 0 < S1.ncols := by
      obtain ⟨t0, ht0⟩ := uses_prefix a2 (numbersFrom g hg s)
      have hx := a3 _ _ _ ht0
      obtain ⟨T, l', s'', e1, e2⟩ := C71_update unitPositive hW hD hd hn t0
      rw [hx] at e1
      cases e1
      exact ⟨fun c => (C36_update h0 hx c).2.1, e2⟩
    obtain ⟨S2, ls, s2, b1, qs, b2, b3⟩ := timestepsC_std hg hR (fun P hP => hPs P (List.mem_cons_of_mem _ hP))
      hinv.1 hinv.2 s1
    refine ⟨S2, l :: ls, s2, ?_, ps ++ qs, ?_, ?_⟩
    · unfold timestepsC
      simp only [a1, b1]
    · intro p hp
      rcases List.mem_append.1 hp with hp | hp
      · exact a2 p hp
      · exact b2 p hp
    · intro τ g' t t' hu
      rw [uses_app] at hu
      obtain ⟨t1, u1, u2⟩ := hu
      unfold timesteps
      rw [a3 g' t t1 u1]
      simp only
      rw [b3 g' t1 t' u2]

/-- C115: with usable weights no run aborts, and what it gives is what a run without own weights gives with other random
numbers. -/
theorem C115_run {g : Rng K σ} (hg : PositiveDraws g) {R : InletRule L W m K} (hR : UsableRule R)
    {Ps : List (Params L W m K)} (hPs : ∀ P ∈ Ps, WaterSetup P ∧ SedDomain P ∧ P.s05 * P.s2 = 1 ∧ 0 ≤ P.h0)
    {S : State L W K} (hd : ∀ c, 0 ≤ S.depth c) (hn : 0 < S.ncols) (s : σ) :
    ∃ S' ls s', timestepsC g R Ps S s = .ok (S', ls, s') ∧
      ∃ t t', timesteps unitStream Ps S t = .ok (S', ls, t') := by
  obtain ⟨S', ls, s', h1, ps, h2, h3⟩ := timestepsC_std hg hR hPs hd hn s
  obtain ⟨t, ht⟩ := uses_prefix h2 (numbersFrom g hg s)
  exact ⟨S', ls, s', h1, t, _, h3 _ _ _ ht⟩

/-- C115: whatever holds at the end of all runs without own weights, for all random numbers, holds with own weights. -/
theorem C115_transfer {g : Rng K σ} (hg : PositiveDraws g) {R : InletRule L W m K} (hR : UsableRule R)
    {Ps : List (Params L W m K)} (hPs : ∀ P ∈ Ps, WaterSetup P ∧ SedDomain P ∧ P.s05 * P.s2 = 1 ∧ 0 ≤ P.h0)
    {S : State L W K} (hd : ∀ c, 0 ≤ S.depth c) (hn : 0 < S.ncols)
    {Q : State L W K → List (StepLog L W K) → Prop}
    (hQ : ∀ t S' ls t', timesteps unitStream Ps S t = .ok (S', ls, t') → Q S' ls)
    {s s' : σ} {S' : State L W K} {ls : List (StepLog L W K)} (h : timestepsC g R Ps S s = .ok (S', ls, s')) : Q S' ls := by
  obtain ⟨S1, ls1, s1, h1, t, t', h2⟩ := C115_run hg hR hPs hd hn s
  rw [h] at h1
  cases h1
  exact hQ _ _ _ _ h2

/-! ## Which cells -/

/-- Decisions that were taken have a positive weight. -/
lemma weighed_positive {g : Rng K σ} (hg : PositiveDraws g) {w : Fin m → K} (hw : Usable w) {ks : List (Fin m)} {s s' : σ}
    (h : Uses g.next s (ks.map fun k => (weighed w k).By) s') : ∀ k ∈ ks, 0 < w k := by
  intro k hk
  have := uses_proper hg (ds := ks.map (weighed w)) (by rw [List.map_map]; exact h) (by
    intro d hd
    obtain ⟨k, -, rfl⟩ := List.mem_map.1 hd
    exact hw) (weighed w k) (List.mem_map_of_mem hk)
  exact this.2

/-- C115: water parcels start only in inlet cells of positive weight. -/
theorem C115_water_starts {g : Rng K σ} (hg : PositiveDraws g) {P : Params L W m K} (hP : WaterSetup P)
    {S : State L W K} (hd : ∀ c, 0 ≤ S.depth c) (hn : 0 < S.ncols) {w : Grid L W (Fin 9 → K)}
    (hw : waterWeightArray P S = .ok w) {iw : Fin m → K} (hiw : Usable iw) {s s' : σ} {wst : WState L W K}
    {log : List (List StepRec)} {n : ℕ} (h : runWaterIterationC g (waterEnv P S w) (fun k => ((P.inlet k).val : ℤ)) iw
      P.NpWater S.ncols s = .ok (wst, log, n, s')) {j : ℕ} {i : ℤ} (hj : pathEntry wst j 0 = some i) :
    ∃ k, i = (P.inlet k).val ∧ 0 < iw k := by
  obtain ⟨ks, decs, wst', log', n', s1, h1, h2, h3, -, -, h6, -⟩ := runWaterC_std hg hP hd hn hw hiw s
  rw [h] at h2
  cases h2
  rw [h3, List.getElem?_map] at hj
  cases hk : ks[j]? with
  | none => rw [hk] at hj; cases hj
  | some k =>
    rw [hk] at hj
    cases hj
    rw [List.map_append, uses_app, List.map_map] at h6
    obtain ⟨s2, h7, -⟩ := h6
    exact ⟨k, rfl, weighed_positive hg hiw h7 k (List.mem_of_getElem? hk)⟩

/-- C115: sand and mud parcels start only in inlet cells of positive weight for their kind. -/
theorem C115_sediment_starts {g : Rng K σ} (hg : PositiveDraws g) {R : InletRule L W m K} {k : Sed}
    {P : Params L W m K} (hP : SedDomain P) (hs : P.s05 * P.s2 = 1)
    {S S' : State L W K} (hd : ∀ c, 0 ≤ S.depth c) (hR : Usable (R.sediment k P S)) {s s' : σ}
    {logs : List (SedLog L W K)} (h : routeParcelsC g R k P S s = .ok (S', logs, s')) :
    ∀ l ∈ logs, ∃ i, l.start = P.inlet i ∧ 0 < R.sediment k P S i := by
  obtain ⟨ks, decs, S1, logs1, s1, h1, -, h3, -, h6, -⟩ := routeParcelsC_std hg hP hs hd hR s
  rw [h] at h1
  cases h1
  intro l hl
  have h4 : l.start ∈ ks.map P.inlet := by
    rw [← h3]
    exact List.mem_map_of_mem hl
  obtain ⟨i, hi, e⟩ := List.mem_map.1 h4
  rw [List.map_append, uses_app, List.map_map] at h6
  obtain ⟨s2, h7, -⟩ := h6
  exact ⟨i, e.symm, weighed_positive hg hR h7 i hi⟩

/-! ## Ones, and the unit of weights -/

/-- The rule of `DeltaModel`. -/
def onesRule (L W m : ℕ) (K : Type*) [One K] : InletRule L W m K := ⟨fun _ _ _ => 1, fun _ _ _ _ => 1⟩

lemma onesUsable (hm : 0 < m) : UsableRule (onesRule L W m K) := by
  have : Usable (fun _ : Fin m => (1 : K)) := evenly_total ⟨0, hm⟩
  exact ⟨fun _ _ _ => this, fun _ _ _ _ => this⟩

/-- Weights in other units. -/
def timesRule (R : InletRule L W m K) (a : Params L W m K → State L W K → K) : InletRule L W m K :=
  ⟨fun P S k => a P S * R.water P S k, fun kd P S k => a P S * R.sediment kd P S k⟩

lemma starts_times (inlet : Fin m → ℤ) (w : Fin m → K) {a : K} (ha : a ≠ 0) (draws : List K) :
    getStartIndices inlet (fun k => a * w k) draws = getStartIndices inlet w draws := by
  unfold getStartIndices
  have e : (List.ofFn fun k => a * w k).sum = a * (List.ofFn w).sum := by
    rw [List.sum_ofFn, List.sum_ofFn, Finset.mul_sum]
  simp only [e]
  congr 1
  funext k
  exact mul_div_mul_left _ _ ha

lemma waterIterationC_ones (g : Rng K σ) (P : Params L W m K) (it : ℕ) (S : State L W K) (s : σ) :
    waterIterationC g (onesRule L W m K) P it S s = waterIteration g P it S s := by
  have e : ∀ w, runWaterIterationC g (waterEnv P S w) (fun k => ((P.inlet k).val : ℤ))
      ((onesRule L W m K).water P S) P.NpWater S.ncols s = runWaterIteration g (waterEnv P S w)
        (fun k => ((P.inlet k).val : ℤ)) P.NpWater S.ncols s := by
    intro w
    unfold runWaterIterationC runWaterIteration
    rw [show (onesRule L W m K).water P S = (getInletWeights (fun k => ((P.inlet k).val : ℤ)) : Fin m → K) from rfl]
    simp only
    cases getStartIndices (fun k => ((P.inlet k).val : ℤ)) (getInletWeights (fun k => ((P.inlet k).val : ℤ)) : Fin m → K)
      (drawN g P.NpWater s).1 with
    | none => rfl
    | some starts => cases h : waterStart (waterEnv P S w) S.ncols starts <;> simp only [h]
  unfold waterIterationC waterIteration
  cases waterWeightArray P S with
  | error e => rfl
  | ok w =>
    simp only [e]
    cases runWaterIteration g (waterEnv P S w) (fun k => ((P.inlet k).val : ℤ)) P.NpWater S.ncols s with
    | error e => rfl
    | ok v => cases h : computeFreeSurface P S v.1.parcels <;> simp only [h]

lemma routeSedimentC_ones (g : Rng K σ) (P : Params L W m K) (S : State L W K) (s : σ) :
    routeSedimentC g (onesRule L W m K) P S s = routeSediment g P S s := by
  have e : ∀ k S s, routeParcelsC g (onesRule L W m K) k P S s = routeParcels g k P S s := by
    intro k S s
    unfold routeParcelsC routeParcels
    rw [show (onesRule L W m K).sediment k P S = (getInletWeights (fun k => ((P.inlet k).val : ℤ)) : Fin m → K) from rfl]
    simp only
    cases getStartIndices (fun k => ((P.inlet k).val : ℤ)) (getInletWeights (fun k => ((P.inlet k).val : ℤ)) : Fin m → K)
      (drawN g (numStarts k P) s).1 with
    | none => rfl
    | some starts =>
      cases h : sedParcels g k P starts ⟨S, customPad S.depth⟩ (drawN g (numStarts k P) s).2 <;> simp only [h]
  unfold routeSedimentC routeSediment
  simp only [e]
  cases routeParcels g .sand P (initSediment S) s with
  | error e => rfl
  | ok v =>
    simp only
    cases routeParcels g .mud P { v.1 with
      eta := topoDiffusion P.cellType P.diffMult v.1.qs P.Ncross v.1.eta } v.2.2 <;> rfl

lemma routeWaterFromC_ones (g : Rng K σ) (P : Params L W m K) : ∀ (n it : ℕ) (S : State L W K) (s : σ),
    routeWaterFromC g (onesRule L W m K) P it n S s = routeWaterFrom g P it n S s
  | 0, _, _, _ => rfl
  | n + 1, it, S, s => by
    unfold routeWaterFromC routeWaterFrom
    rw [waterIterationC_ones]
    cases waterIteration g P it S s with
    | error e => rfl
    | ok v => exact routeWaterFromC_ones g P n (it + 1) _ _

/-- C115: with weights of one every run is that of a model without own weights. -/
theorem C115_ones (g : Rng K σ) : ∀ (Ps : List (Params L W m K)) (S : State L W K) (s : σ),
    timestepsC g (onesRule L W m K) Ps S s = timesteps g Ps S s
  | [], _, _ => rfl
  | P :: Ps, S, s => by
    have e : timestepC g (onesRule L W m K) P S s = timestep g P S s := by
      unfold timestepC timestep
      unfold routeWater
      simp only [routeWaterFromC_ones, routeSedimentC_ones]
      cases routeWaterFrom g P 0 P.itermax S s with
      | error e => rfl
      | ok v =>
        simp only
        cases routeSediment g P v.1 v.2 <;> rfl
    unfold timestepsC timesteps
    rw [e]
    cases timestep g P S s with
    | error e => rfl
    | ok v =>
      simp only
      rw [C115_ones g Ps]
      cases timesteps g Ps v.1 v.2.2 <;> rfl

lemma waterIterationC_times (g : Rng K σ) (R : InletRule L W m K) {a : Params L W m K → State L W K → K}
    (ha : ∀ P S, a P S ≠ 0) (P : Params L W m K) (it : ℕ) (S : State L W K) (s : σ) :
    waterIterationC g (timesRule R a) P it S s = waterIterationC g R P it S s := by
  unfold waterIterationC
  split
  · rfl
  · have e : ∀ w, runWaterIterationC g (waterEnv P S w) (fun k => ((P.inlet k).val : ℤ)) ((timesRule R a).water P S)
        P.NpWater S.ncols s = runWaterIterationC g (waterEnv P S w) (fun k => ((P.inlet k).val : ℤ)) (R.water P S)
        P.NpWater S.ncols s := by
      intro w
      unfold runWaterIterationC
      simp only
      rw [show (timesRule R a).water P S = fun k => a P S * R.water P S k from rfl, starts_times _ _ (ha P S)]
    rw [e]

lemma routeWaterFromC_times (g : Rng K σ) (R : InletRule L W m K) {a : Params L W m K → State L W K → K}
    (ha : ∀ P S, a P S ≠ 0) (P : Params L W m K) : ∀ (n it : ℕ) (S : State L W K) (s : σ),
    routeWaterFromC g (timesRule R a) P it n S s = routeWaterFromC g R P it n S s
  | 0, _, _, _ => rfl
  | n + 1, it, S, s => by
    unfold routeWaterFromC
    rw [waterIterationC_times g R ha]
    split
    · rfl
    · exact routeWaterFromC_times g R ha P n (it + 1) _ _

lemma routeParcelsC_times (g : Rng K σ) (R : InletRule L W m K) {a : Params L W m K → State L W K → K}
    (ha : ∀ P S, a P S ≠ 0) (k : Sed) (P : Params L W m K) (S : State L W K) (s : σ) :
    routeParcelsC g (timesRule R a) k P S s = routeParcelsC g R k P S s := by
  unfold routeParcelsC
  simp only
  rw [show (timesRule R a).sediment k P S = fun i => a P S * R.sediment k P S i from rfl, starts_times _ _ (ha P S)]

/-- C115: the unit of the weights does not matter; it may change with the fields. -/
theorem C115_unit (g : Rng K σ) (R : InletRule L W m K) {a : Params L W m K → State L W K → K}
    (ha : ∀ P S, a P S ≠ 0) : ∀ (Ps : List (Params L W m K)) (S : State L W K) (s : σ),
    timestepsC g (timesRule R a) Ps S s = timestepsC g R Ps S s
  | [], _, _ => rfl
  | P :: Ps, S, s => by
    have e1 : ∀ S s, routeSedimentC g (timesRule R a) P S s = routeSedimentC g R P S s := by
      intro S s
      unfold routeSedimentC
      rw [routeParcelsC_times g R ha]
      split
      · rfl
      · simp only
        rw [routeParcelsC_times g R ha]
    have e : timestepC g (timesRule R a) P S s = timestepC g R P S s := by
      unfold timestepC
      rw [routeWaterFromC_times g R ha]
      simp only [e1]
    unfold timestepsC
    rw [e]
    split
    · rfl
    · rw [C115_unit g R ha Ps]

/-- C115: an iteration of the water depends only on the weights for water of its own fields; whatever the class weighs for
sediment, and for other fields, does not matter. -/
theorem C115_water_only (g : Rng K σ) (R R' : InletRule L W m K) {P : Params L W m K} {S : State L W K}
    (h : R.water P S = R'.water P S) (n : ℕ) (s : σ) :
    waterIterationC g R P n S s = waterIterationC g R' P n S s := by
  unfold waterIterationC
  rw [h]

/-- C115: the parcels of sand depend only on the weights for sand of the fields from which they start, and those of mud
only on the weights for mud. -/
theorem C115_sediment_only (g : Rng K σ) (R R' : InletRule L W m K) {k : Sed} {P : Params L W m K} {S : State L W K}
    (h : R.sediment k P S = R'.sediment k P S) (s : σ) : routeParcelsC g R k P S s = routeParcelsC g R' k P S s := by
  unfold routeParcelsC
  rw [h]

/-- C115: the weights for mud have no influence on water and sand of a timestep. -/
theorem C115_mud_last (g : Rng K σ) (R R' : InletRule L W m K) {P : Params L W m K} (hw : ∀ S, R.water P S = R'.water P S)
    (hs : ∀ S, R.sediment .sand P S = R'.sediment .sand P S) {S S1 S2 : State L W K} {s s1 s2 : σ} {l l' : StepLog L W K}
    (h : timestepC g R P S s = .ok (S1, l, s1)) (h' : timestepC g R' P S s = .ok (S2, l', s2)) :
    l.watered = l'.watered ∧ l.sand = l'.sand := by
  have e : ∀ n i S s, routeWaterFromC g R P i n S s = routeWaterFromC g R' P i n S s := by
    intro n
    induction n with
    | zero => intros; rfl
    | succ n ih =>
      intro i S s
      unfold routeWaterFromC
      rw [C115_water_only g R R' (hw S)]
      split
      · rfl
      · exact ih _ _ _
  unfold timestepC at h h'
  rw [e] at h
  generalize routeWaterFromC g R' P 0 P.itermax S s = v at h h'
  rcases v with _ | ⟨Sw, sw⟩
  · cases h
  simp only at h h'
  unfold routeSedimentC at h h'
  rw [C115_sediment_only g R R' (hs _)] at h
  generalize routeParcelsC g R' .sand P (initSediment Sw) sw = v at h h'
  rcases v with _ | ⟨Sa, la, sa⟩
  · cases h
  simp only at h h'
  generalize routeParcelsC g R .mud P _ sa = v at h
  generalize routeParcelsC g R' .mud P _ sa = v' at h'
  rcases v with _ | ⟨Sb, lb, sb⟩
  · cases h
  rcases v' with _ | ⟨Sc, lc, sc⟩
  · cases h'
  simp only [Except.ok.injEq, Prod.mk.injEq] at h h'
  rw [← h.2.1, ← h'.2.1]
  exact ⟨rfl, rfl⟩

end

/-! ## Probabilities -/

section Space

open MeasureTheory

variable {Ω : Type*} [MeasurableSpace Ω] {μ : Measure Ω} {U : ℕ → Ω → ℝ} {L W m : ℕ} [NeZero L] [NeZero W] {σ : Type}

/-- C115: the probability that all water parcels of an iteration take given paths is the product of the part of the
weight that their inlet cells have, and for each step of the weight of the direction in the cell. -/
theorem C115_water_law (hμ : RandomNumbers μ U) {g : Rng ℝ σ} (hg : PositiveDraws g) {P : Params L W m ℝ}
    (hP : WaterSetup P) (hi : Function.Injective P.inlet) {S : State L W ℝ} (hd : ∀ c, 0 ≤ S.depth c)
    (hn : 0 < S.ncols) {w : Grid L W (Fin 9 → ℝ)} (hw : waterWeightArray P S = .ok w) {iw : Fin m → ℝ}
    (hiw : Usable iw) {s s' : σ} {wst : WState L W ℝ} {log : List (List StepRec)} {n : ℕ}
    (h : runWaterIterationC g (waterEnv P S w) (fun k => ((P.inlet k).val : ℤ)) iw P.NpWater S.ncols s =
        .ok (wst, log, n, s'))
    {chance : StepRec → ℝ} (hc : ∀ r c, Addresses r.cur c → chance r = w c r.dir) :
    ∃ ks : List (Fin m), (∀ j, pathEntry wst j 0 = (ks.map fun k => ((P.inlet k).val : ℤ))[j]?) ∧
      ks.length = P.NpWater ∧
      HasProb μ (fun ω => ∃ t, runWaterIterationC stream (waterEnv P S w) (fun k => ((P.inlet k).val : ℤ)) iw P.NpWater
          S.ncols (fun i => U i ω) = .ok (wst, log, n, t))
        ((ks.map fun k => iw k / ∑ i, iw i).prod * ((moves log).map chance).prod) := by
  obtain ⟨ks, decs, wst', log', n', s1, h1, h2, h3, h4, h5, h6, -, h8, h9⟩ := runWaterC_std hg hP hd hn hw hiw s
  rw [h] at h2
  cases h2
  refine ⟨ks, h3, h1, prob_decisions hμ (uses_proper hg h6 ?_) (E := fun s t => runWaterIterationC stream
    (waterEnv P S w) (fun k => ((P.inlet k).val : ℤ)) iw P.NpWater S.ncols s = .ok (wst, log, n, t))
    (fun s t => ⟨h9 hi _ _ _, h8 _ _ _⟩) ?_⟩
  · intro d hdm
    rw [List.mem_append] at hdm
    rcases hdm with hdm | hdm
    · obtain ⟨k, -, rfl⟩ := List.mem_map.1 hdm
      exact hiw
    · obtain ⟨r, hr, c, hc, rfl⟩ := forall2_mem h5 d hdm
      have := h4 r hr c hc
      exact ⟨this.1, by rw [show ∑ i, (Decision.mk 9 (w c) r.dir).w i = 1 from this.2]; exact one_pos⟩
  · rw [List.map_append, List.prod_append, List.map_map]
    congr 2
    have key : ∀ {rs : List StepRec} {ds : List (Decision ℝ)}, List.Forall₂ (IsMove w) rs ds →
        (∀ r ∈ rs, ∀ c, Addresses r.cur c → IsDistribution (w c)) → ds.map Decision.chance = rs.map chance := by
      intro rs ds hf
      induction hf with
      | nil => intro _; rfl
      | cons h1 _ ih =>
        intro hr
        obtain ⟨c, h2, rfl⟩ := h1
        have h3 := (hr _ List.mem_cons_self c h2).2
        rw [List.map_cons, List.map_cons, ih fun r hm => hr r (List.mem_cons_of_mem _ hm), hc _ c h2]
        congr 1
        change w c _ / ∑ i, w c i = _
        rw [h3, div_one]
    exact key h5 h4

/-- C115: the probability that all sand or all mud parcels of a timestep take given paths is the product of the part of the
weight for their kind that their inlet cells have, and for each step of the weight of the direction, by the rule of C78 in
the fields at the time of the step. -/
theorem C115_sediment_law (hμ : RandomNumbers μ U) {g : Rng ℝ σ} (hg : PositiveDraws g) {R : InletRule L W m ℝ} {k : Sed}
    {P : Params L W m ℝ} (hP : SedDomain P) (hs : P.s05 * P.s2 = 1) (hi : Function.Injective P.inlet)
    {S S' : State L W ℝ} (hd : ∀ c, 0 ≤ S.depth c) (hR : Usable (R.sediment k P S)) {s s' : σ}
    {logs : List (SedLog L W ℝ)} (h : routeParcelsC g R k P S s = .ok (S', logs, s')) :
    ∃ (ks : List (Fin m)) (ws : List (Fin 9 → ℝ)), logs.map (·.start) = ks.map P.inlet ∧
      List.Forall₂ (fun r w => IsDistribution w ∧ SedRule k P r w) (logs.flatMap (·.steps)) ws ∧
      HasProb μ (fun ω => ∃ t, routeParcelsC stream R k P S (fun i => U i ω) = .ok (S', logs, t))
        ((ks.map fun i => R.sediment k P S i / ∑ j, R.sediment k P S j).prod *
          (List.zipWith (fun r w => w r.dir) (logs.flatMap (·.steps)) ws).prod) := by
  obtain ⟨ks, decs, S1, logs1, s1, h1, -, a1, a2, a3, -, a4⟩ := routeParcelsC_std hg hP hs hd hR s
  rw [h] at h1
  cases h1
  have key : ∀ {rs : List (SedRec L W ℝ)} {ds : List (Decision ℝ)}, List.Forall₂ (IsSedMove k P) rs ds →
      ∃ ws : List (Fin 9 → ℝ), List.Forall₂ (fun r w => IsDistribution w ∧ SedRule k P r w) rs ws ∧
        ds.map Decision.chance = List.zipWith (fun r w => w r.dir) rs ws := by
    intro rs ds hf
    induction hf with
    | nil => exact ⟨[], .nil, rfl⟩
    | cons h1 _ ih =>
      obtain ⟨ws, i1, i2⟩ := ih
      obtain ⟨w, h2, -, h4, rfl⟩ := h1
      refine ⟨w :: ws, .cons ⟨h2, h4⟩ i1, ?_⟩
      rw [List.map_cons, List.zipWith_cons_cons, i2]
      congr 1
      change w _ / ∑ i, w i = _
      rw [h2.2, div_one]
  obtain ⟨ws, b1, b2⟩ := key a2
  refine ⟨ks, ws, a1, b1, prob_decisions hμ (uses_proper hg a3 ?_) (E := fun s t => routeParcelsC stream R k P S s =
    .ok (S', logs, t)) (fun s t => a4 hi _ _ _) ?_⟩
  · intro d hdm
    rw [List.mem_append] at hdm
    rcases hdm with hdm | hdm
    · obtain ⟨k, -, rfl⟩ := List.mem_map.1 hdm
      exact hR
    · obtain ⟨r, hr, w, hw1, hw2, -, rfl⟩ := forall2_mem a2 d hdm
      exact ⟨hw1.1, by rw [show ∑ i, (Decision.mk 9 w r.dir).w i = 1 from hw1.2]; exact one_pos⟩
  · rw [List.map_append, List.prod_append, List.map_map, b2]
    rfl

end Space

/-! ## What is known of all runs: the balance of sediment -/

section

variable {K : Type v} [Field K] [LinearOrder K] [IsStrictOrderedRing K] [FloorRing K] {σ : Type v} {L W m : ℕ}
  [NeZero L] [NeZero W]

/-- C115: the balance of sediment (C83) holds whatever the weights of the inlet cells. -/
theorem C115_balance {g : Rng K σ} (hg : PositiveDraws g) {R : InletRule L W m K} (hR : UsableRule R) {dx : K}
    (hdx : dx ≠ 0) {inlet : Fin m → Fin W}
    {Ps : List (Params L W m K)} (hPs : ∀ P ∈ Ps, WaterSetup P ∧ SedDomain P ∧ P.s05 * P.s2 = 1 ∧ 0 ≤ P.h0)
    (hx : ∀ P ∈ Ps, P.dx = dx ∧ P.inlet = inlet)
    {S S' : State L W K} (hd : ∀ c, 0 ≤ S.depth c) (hn : 0 < S.ncols) {s s' : σ} {ls : List (StepLog L W K)}
    (h : timestepsC g R Ps S s = .ok (S', ls, s')) :
    outsideVolume dx inlet S' - outsideVolume dx inlet S = ((Ps.zip ls).map fun x => stepBudget x.1 x.2).sum :=
  C115_transfer hg hR hPs hd hn (Q := fun S' ls => outsideVolume dx inlet S' - outsideVolume dx inlet S =
    ((Ps.zip ls).map fun x => stepBudget x.1 x.2).sum) (fun _ _ _ _ h => C83_run hdx h hx) h

end

/-! ## Non-trivial cases -/

/-- A rule for the example: weights that depend on the fields and on the kind of parcel. -/
def exInletRule : InletRule 4 3 1 ℚ where
  water := fun _ S k => 1 + k.val + S.depth (0, 1)
  sediment := fun k _ S i => match k with
    | .sand => 2 + S.depth (0, 1)
    | .mud => 1 + i.val

lemma exInletUsable : UsableRule exInletRule := by
  have key : ∀ w : Fin 1 → ℚ, 0 < w 0 → Usable w := by
    intro w h
    refine ⟨fun i => ?_, by simpa using h⟩
    rw [Subsingleton.elim i 0]
    exact h.le
  refine ⟨fun P S h => key _ ?_, fun k P S h => ?_⟩
  · have := h (0, 1)
    change 0 < 1 + (((0 : Fin 1).val : ℕ) : ℚ) + S.depth (0, 1)
    positivity
  · have := h (0, 1)
    cases k with
    | sand => exact key _ (show 0 < 2 + S.depth (0, 1) by positivity)
    | mud => exact key _ (show 0 < 1 + (((0 : Fin 1).val : ℕ) : ℚ) by positivity)

example : ∃ S' ls s', timestepsC constRng exInletRule [exRule, exRule] exState () = .ok (S', ls, s') ∧
    ∃ t t', timesteps unitStream [exRule, exRule] exState t = .ok (S', ls, t') :=
  C115_run exPositive exInletUsable (by
    intro P hP
    obtain rfl : P = exRule := by simpa using hP
    exact ⟨exRuleSetup, exRuleDomain, by norm_num [exRule, exParams], by norm_num [exRule, exParams]⟩)
    (fun c => by norm_num [exState]) (by norm_num [exState]) ()

-- an inlet of three columns, the middle one closed: the number 1/2 means the first, and the middle one with weights of one
example : getStartIndices (fun k : Fin 3 => (k.val : ℤ) + 4) (![3, 0, 2] : Fin 3 → ℚ) [1 / 2, 9 / 10] = some [4, 6] ∧
    getStartIndices (fun k : Fin 3 => (k.val : ℤ) + 4) (getInletWeights (fun k : Fin 3 => (k.val : ℤ) + 4) : Fin 3 → ℚ)
      [1 / 2, 9 / 10] = some [5, 6] ∧ Usable (![3, 0, 2] : Fin 3 → ℚ) := by
  refine ⟨by decide +kernel, by decide +kernel, ?_⟩
  unfold Usable
  decide +kernel

end Verif.Props
