import Verif.Props.Paths
import Verif.Props.Chance

/-!
# C114: the probability of paths

With independent and uniformly distributed numbers, the probability that parcels take given paths is the product of the
chances of their decisions.
-/

set_option linter.unusedSectionVars false

namespace Verif.Props

open Verif.Model Verif.Lemmas Verif.Spec MeasureTheory ProbabilityTheory

lemma uses_stream {ps : List (ℝ → Prop)} : ∀ {s t : ℕ → ℝ}, Uses stream.next s ps t ↔
    (∀ i (hi : i < ps.length), ps[i] (s i)) ∧ t = fun i => s (i + ps.length) := by
  induction ps with
  | nil =>
    intro s t
    rw [uses_nil]
    simp
  | cons p ps ih =>
    intro s t
    rw [uses_cons, ih]
    constructor
    · rintro ⟨h1, h2, rfl⟩
      refine ⟨fun i hi => ?_, ?_⟩
      · cases i with
        | zero => exact h1
        | succ i => exact h2 i (by simpa using hi)
      · funext i
        change s (i + ps.length + 1) = _
        simp only [List.length_cons]
        congr 1
    · rintro ⟨h1, rfl⟩
      refine ⟨h1 0 (by simp), fun i hi => h1 (i + 1) (by simpa using hi), ?_⟩
      funext i
      change _ = s (i + ps.length + 1)
      simp only [List.length_cons]
      congr 1

lemma by_measurable (d : Decision ℝ) : MeasurableSet {x | d.By x} := by
  have e : {x | d.By x} = ({x : ℝ | d.k.val = 0} ∪ {x | ∑ i with i < d.k, d.w i < x * ∑ i, d.w i}) ∩
      {x | x * ∑ i, d.w i ≤ ∑ i with i ≤ d.k, d.w i} := rfl
  rw [e]
  refine MeasurableSet.inter (MeasurableSet.union (MeasurableSet.const _) ?_) ?_
  · exact measurableSet_lt measurable_const (measurable_id.mul_const _)
  · exact measurableSet_le (measurable_id.mul_const _) measurable_const

lemma proper_total {d : Decision ℝ} (h : d.Proper) : 0 < ∑ i, d.w i :=
  lt_of_lt_of_le h.2 (Finset.single_le_sum (fun i _ => h.1 i) (Finset.mem_univ d.k))

section Space

variable {Ω : Type*} [MeasurableSpace Ω] {μ : Measure Ω} {U : ℕ → Ω → ℝ}

/-- C114: the probability that random numbers make given decisions is the product of the chances. -/
theorem C114_product (h : RandomNumbers μ U) {ds : List (Decision ℝ)} (hd : ∀ d ∈ ds, d.Proper) :
    HasProb μ (fun ω => ∃ t, Uses stream.next (fun i => U i ω) (ds.map Decision.By) t)
      (ds.map Decision.chance).prod := by
  have hc : ∀ d ∈ ds, 0 ≤ d.chance := fun d hm => div_nonneg ((hd d hm).1 _) (proper_total (hd d hm)).le
  have hind : iIndepFun (fun i : Fin ds.length => U i) μ := h.independent.precomp Fin.val_injective
  have e : {ω | ∃ t, Uses stream.next (fun i => U i ω) (ds.map Decision.By) t} =
      ⋂ i ∈ (Finset.univ : Finset (Fin ds.length)), U i ⁻¹' {x | ds[i].By x} := by
    ext ω
    simp only [Set.mem_iInter, Set.mem_preimage, Finset.mem_univ, true_imp_iff]
    constructor
    · rintro ⟨t, ht⟩ i
      have := (uses_stream.mp ht).1 i (by simp)
      simpa using this
    · intro hω
      refine ⟨_, uses_stream.mpr ⟨fun i hi => ?_, rfl⟩⟩
      have hi' : i < ds.length := by simpa using hi
      have := hω ⟨i, hi'⟩
      simpa using this
  have hm : MeasurableSet (⋂ i ∈ (Finset.univ : Finset (Fin ds.length)), U i ⁻¹' {x | ds[i].By x}) :=
    Finset.measurableSet_biInter _ fun i _ => h.measurable i (by_measurable _)
  refine ⟨List.prod_nonneg (by simpa using hc), ?_, ?_⟩
  · rw [e]; exact hm.nullMeasurableSet
  · rw [e, hind.measure_inter_preimage_eq_mul Finset.univ (fun i _ => by_measurable ds[i])]
    have h1 : ∀ i : Fin ds.length, μ (U i ⁻¹' {x | ds[i].By x}) = ENNReal.ofReal ds[i].chance := by
      intro i
      have hp := hd ds[i] (List.getElem_mem _)
      have := (C111_choice h hp.1 (proper_total hp) i ds[i].k).2.2
      rw [show {ω | randomPick ds[i].w (U i ω) = some ds[i].k} = U i ⁻¹' {x | ds[i].By x} from by
        ext ω
        exact pick_chosen hp.1] at this
      exact this
    rw [Finset.prod_congr rfl (fun i _ => h1 i), ← ENNReal.ofReal_prod_of_nonneg
      (s := Finset.univ) (f := fun i : Fin ds.length => ds[i].chance) (fun i _ => hc _ (List.getElem_mem _)),
      ← List.prod_ofFn]
    congr 2
    apply List.ext_getElem
    · simp
    · intro i h1 h2
      simp

/-- From decisions to an event. -/
lemma prob_decisions (h : RandomNumbers μ U) {ds : List (Decision ℝ)} (hd : ∀ d ∈ ds, d.Proper)
    {E : (ℕ → ℝ) → (ℕ → ℝ) → Prop} (hE : ∀ s t, E s t ↔ Uses stream.next s (ds.map Decision.By) t) {p : ℝ}
    (hp : (ds.map Decision.chance).prod = p) : HasProb μ (fun ω => ∃ t, E (fun i => U i ω) t) p := by
  have e : (fun ω => ∃ t, E (fun i => U i ω) t) =
      fun ω => ∃ t, Uses stream.next (fun i => U i ω) (ds.map Decision.By) t := by
    funext ω
    exact propext (exists_congr fun t => hE _ t)
  rw [e, ← hp]
  exact C114_product h hd

lemma evenly_chance {m : ℕ} (k : Fin m) : (evenly ℝ k).chance = 1 / m := by
  change (1 : ℝ) / ∑ _i : Fin m, (1 : ℝ) = _
  simp

variable {L W m : ℕ} [NeZero L] [NeZero W] {σ : Type*}

/-- C114: in a basin that works, the probability that all water parcels of an iteration take given paths is the product of
`1 / m` for each parcel, for its start in one of the `m` cells of the inlet, and for each step of the weight of the
direction in the cell. The weights are those of C78. -/
theorem C114_water_law (hμ : RandomNumbers μ U) {g : Rng ℝ σ} (hg : PositiveDraws g) {P : Params L W m ℝ}
    (hP : WaterSetup P) (hi : Function.Injective P.inlet) {S : State L W ℝ} (hd : ∀ c, 0 ≤ S.depth c)
    (hn : 0 < S.ncols) {w : Grid L W (Fin 9 → ℝ)} (hw : waterWeightArray P S = .ok w) {s s' : σ}
    {wst : WState L W ℝ} {log : List (List StepRec)} {n : ℕ}
    (h : runWaterIteration g (waterEnv P S w) (fun k => ((P.inlet k).val : ℤ)) P.NpWater S.ncols s =
        .ok (wst, log, n, s'))
    {chance : StepRec → ℝ} (hc : ∀ r c, Addresses r.cur c → chance r = w c r.dir) :
    HasProb μ (fun ω => ∃ t, runWaterIteration stream (waterEnv P S w) (fun k => ((P.inlet k).val : ℤ)) P.NpWater
        S.ncols (fun i => U i ω) = .ok (wst, log, n, t))
      ((1 / m) ^ P.NpWater * ((moves log).map chance).prod) := by
  have hA := C10_weights_admissible S.depth S.stage P.modWater S.qx S.qy P.s2 P.s05 P.dryDepth
    P.gamma P.pwWater (waterEnv P S w) hd hP.mod hP.pw hP.gamma0 hP.gamma1 (waterWeightArray_ok hw)
  have hinj : Function.Injective fun k => ((P.inlet k).val : ℤ) := by
    intro a b hab
    exact hi (Fin.ext (Int.natCast_inj.1 hab))
  obtain ⟨ks, decs, -, a2, a3, a4, a5⟩ := C114_water.{0} (E := waterEnv P S w) hinj hA.2 h
  have hdist := moves_total hg hP hd hn hw h
  refine prob_decisions hμ (uses_proper hg a4 ?_) (E := fun s t => runWaterIteration stream (waterEnv P S w)
    (fun k => ((P.inlet k).val : ℤ)) P.NpWater S.ncols s = .ok (wst, log, n, t)) (fun s t => a5 _ _ _) ?_
  · intro d hdm
    rw [List.mem_append] at hdm
    rcases hdm with hdm | hdm
    · obtain ⟨k, -, rfl⟩ := List.mem_map.1 hdm
      exact evenly_total k
    · obtain ⟨r, hr, c, hc, rfl⟩ := forall2_mem a3 d hdm
      have := hdist r hr c hc
      exact ⟨this.1, by rw [show ∑ i, (Decision.mk 9 ((waterEnv P S w).weights c) r.dir).w i = 1 from this.2]; exact one_pos⟩
  · rw [List.map_append, List.prod_append, List.map_map,
      show (Decision.chance ∘ evenly ℝ : Fin m → ℝ) = fun _ => 1 / (m : ℝ) from funext evenly_chance, List.map_const',
      List.prod_replicate, a2]
    congr 2
    have key : ∀ {rs : List StepRec} {ds : List (Decision ℝ)}, List.Forall₂ (IsMove w) rs ds →
        (∀ r ∈ rs, ∀ c, Addresses r.cur c → IsDistribution (w c)) → ds.map Decision.chance = rs.map chance := by
      intro rs ds hf
      induction hf with
      | nil => intro _; rfl
      | cons h1 _ ih =>
        intro hr
        obtain ⟨c, h2, rfl⟩ := h1
        have h3 := (hr _ List.mem_cons_self c h2).2
        rw [List.map_cons, List.map_cons, ih fun r hm => hr r (List.mem_cons_of_mem _ hm), hc _ c h2]
        congr 1
        change w c _ / ∑ i, w c i = _
        rw [h3, div_one]
    exact key a3 hdist

/-- C114: in a basin that works, the probability that all sand or all mud parcels of a timestep take given paths is the
product of `1 / m` for each parcel, for its start in one of the `m` cells of the inlet, and for each step of the weight
of the direction, by the rule of C78 in the fields at the time of the step. -/
theorem C114_sediment_law (hμ : RandomNumbers μ U) {g : Rng ℝ σ} (hg : PositiveDraws g) {k : Sed}
    {P : Params L W m ℝ} (hP : SedDomain P) (hs : P.s05 * P.s2 = 1) (hi : Function.Injective P.inlet)
    {S S' : State L W ℝ} (hd : ∀ c, 0 ≤ S.depth c) {s s' : σ} {logs : List (SedLog L W ℝ)}
    (h : routeParcels g k P S s = .ok (S', logs, s')) :
    ∃ ws : List (Fin 9 → ℝ),
      List.Forall₂ (fun r w => IsDistribution w ∧ SedRule k P r w) (logs.flatMap (·.steps)) ws ∧
      HasProb μ (fun ω => ∃ t, routeParcels stream k P S (fun i => U i ω) = .ok (S', logs, t))
        ((1 / m) ^ logs.length * (List.zipWith (fun r w => w r.dir) (logs.flatMap (·.steps)) ws).prod) := by
  obtain ⟨ks, decs, a1, a2, a3, a4⟩ := C114_sediment.{0} hg hP hs hi hd h
  have key : ∀ {rs : List (SedRec L W ℝ)} {ds : List (Decision ℝ)}, List.Forall₂ (IsSedMove k P) rs ds →
      ∃ ws : List (Fin 9 → ℝ), List.Forall₂ (fun r w => IsDistribution w ∧ SedRule k P r w) rs ws ∧
        ds.map Decision.chance = List.zipWith (fun r w => w r.dir) rs ws := by
    intro rs ds hf
    induction hf with
    | nil => exact ⟨[], .nil, rfl⟩
    | cons h1 _ ih =>
      obtain ⟨ws, i1, i2⟩ := ih
      obtain ⟨w, h2, -, h4, rfl⟩ := h1
      refine ⟨w :: ws, .cons ⟨h2, h4⟩ i1, ?_⟩
      rw [List.map_cons, List.zipWith_cons_cons, i2]
      congr 1
      change w _ / ∑ i, w i = _
      rw [h2.2, div_one]
  obtain ⟨ws, b1, b2⟩ := key a2
  refine ⟨ws, b1, prob_decisions hμ (uses_proper hg a3 ?_) (E := fun s t => routeParcels stream k P S s =
    .ok (S', logs, t)) (fun s t => a4 _ _ _) ?_⟩
  · intro d hdm
    rw [List.mem_append] at hdm
    rcases hdm with hdm | hdm
    · obtain ⟨k, -, rfl⟩ := List.mem_map.1 hdm
      exact evenly_total k
    · obtain ⟨r, hr, w, hw1, hw2, -, rfl⟩ := forall2_mem a2 d hdm
      exact ⟨hw1.1, by rw [show ∑ i, (Decision.mk 9 w r.dir).w i = 1 from hw1.2]; exact one_pos⟩
  · have hl : ks.length = logs.length := by
      have := congrArg List.length a1
      simpa using this.symm
    rw [List.map_append, List.prod_append, List.map_map,
      show (Decision.chance ∘ evenly ℝ : Fin m → ℝ) = fun _ => 1 / (m : ℝ) from funext evenly_chance, List.map_const',
      List.prod_replicate, hl, b2]

/-- C114: what a run did with the numbers of any generator has, with random numbers, at least the probability that is
the product of the chances of the decisions, which is positive: no run does something of probability 0. -/
theorem C114_possible {g : Rng ℝ σ} (hg : PositiveDraws g) {Ps : List (Params L W m ℝ)}
    (hPs : ∀ P ∈ Ps, WaterSetup P ∧ SedDomain P ∧ P.s05 * P.s2 = 1 ∧ 0 ≤ P.h0) {S S' : State L W ℝ}
    (hd : ∀ c, 0 ≤ S.depth c) (hn : 0 < S.ncols) {s s' : σ} {ls : List (StepLog L W ℝ)}
    (h : timesteps g Ps S s = .ok (S', ls, s')) :
    ∃ ds : List (Decision ℝ), (∀ d ∈ ds, d.Proper) ∧ Uses g.next s (ds.map Decision.By) s' ∧
      0 < (ds.map Decision.chance).prod ∧
      ∀ {Ω : Type*} [MeasurableSpace Ω] (μ : Measure Ω) (U : ℕ → Ω → ℝ), RandomNumbers μ U →
        ENNReal.ofReal (ds.map Decision.chance).prod ≤
          μ {ω | ∃ t, timesteps stream Ps S (fun i => U i ω) = .ok (S', ls, t)} := by
  obtain ⟨ds, h1, h2, h3⟩ := C114_run.{0} hg hPs hd hn h
  refine ⟨ds, h1, h2, ?_, ?_⟩
  · apply List.prod_pos
    intro x hx
    obtain ⟨d, hd, rfl⟩ := List.mem_map.1 hx
    exact div_pos (h1 d hd).2 (proper_total (h1 d hd))
  · intro Ω _ μ U hμ
    rw [← (C114_product hμ h1).2.2]
    refine measure_mono ?_
    rintro ω ⟨t, ht⟩
    exact ⟨t, h3 _ _ _ ht⟩

end Space

/-! ## Created models -/

/-- The columns of the inlet of a created model are different. -/
lemma created_inlet {K : Type*} [Field K] [LinearOrder K] [IsStrictOrderedRing K] [FloorRing K] {O : Oracle K}
    {I : Input K} {M : Built K} (h : create O I = .ok M) : Function.Injective M.P.inlet := by
  obtain ⟨-, D, -, -, e⟩ := create_ok h
  subst e
  exact List.nodup_iff_injective_get.1 ((List.nodup_finRange _).filter _)

/-- C114 for created models over the real numbers: every configuration in the documented ranges gives a model for which
the laws of the paths hold, and what it does in any number of updates with the numbers of any generator has a positive
probability with random numbers. -/
theorem C114_created {σ : Type*} {I : Input ℝ} (hI : Runnable I) {g : Rng ℝ σ} (hg : PositiveDraws g) :
    ∃ (L W m : ℕ) (_ : NeZero L) (_ : NeZero W) (P : Params L W m ℝ) (S : State L W ℝ),
      create realOracle I = .ok ⟨L, W, m, P, S⟩ ∧ Function.Injective P.inlet ∧ WaterSetup P ∧ SedDomain P ∧
      P.s05 * P.s2 = 1 ∧ (∀ c, 0 ≤ S.depth c) ∧ 0 < S.ncols ∧
      ∀ (r : ℕ) (s : σ), ∃ S' ls s', timesteps g (List.replicate r P) S s = .ok (S', ls, s') ∧
        ∃ p, 0 < p ∧ ∀ {Ω : Type*} [MeasurableSpace Ω] (μ : Measure Ω) (U : ℕ → Ω → ℝ), RandomNumbers μ U →
          ENNReal.ofReal p ≤
            μ {ω | ∃ t, timesteps stream (List.replicate r P) S (fun i => U i ω) = .ok (S', ls, t)} := by
  obtain ⟨L, W, m, iL, iW, P, S, hc, hW, hD, -, hR, hd, hn, -⟩ := C74_created realOracleOk hI
  have hs : P.s05 * P.s2 = 1 := by
    obtain ⟨-, D, -, -, e⟩ := create_ok hc
    have e' : P.s05 = realOracle.s05 ∧ P.s2 = realOracle.s2 :=
      ⟨congrArg (fun M : Built ℝ => M.P.s05) e, congrArg (fun M : Built ℝ => M.P.s2) e⟩
    rw [e'.1, e'.2]
    change Real.sqrt (1 / 2) * Real.sqrt 2 = 1
    rw [← Real.sqrt_mul (by norm_num)]
    norm_num
  refine ⟨L, W, m, iL, iW, P, S, hc, created_inlet hc, hW, hD, hs, hd, hn, fun r s => ?_⟩
  have hPs : ∀ P' ∈ List.replicate r P, WaterSetup P' ∧ SedDomain P' ∧ P'.s05 * P'.s2 = 1 ∧ 0 ≤ P'.h0 := by
    intro P' hP'
    obtain rfl := List.eq_of_mem_replicate hP'
    exact ⟨hW, hD, hs, hR.h0⟩
  obtain ⟨S', ls, s', h⟩ := C71_run hg (Ps := List.replicate r P) (fun P' hP' =>
    ⟨(hPs P' hP').1, (hPs P' hP').2.1, (hPs P' hP').2.2.2⟩) hd hn s
  obtain ⟨ds, -, -, h3, h4⟩ := C114_possible hg hPs hd hn h
  exact ⟨S', ls, s', h, _, h3, h4⟩

/-! ## Non-trivial cases -/

/-- A generator over the real numbers. -/
noncomputable def halfRng : Rng ℝ Unit := ⟨fun _ => (1 / 2, ())⟩

lemma halfPositive : PositiveDraws halfRng := fun _ => by norm_num [halfRng]

-- two decisions: a start in the middle of three cells, and a direction of weight a quarter
example : HasProb (Measure.infinitePi fun _ : ℕ => unitLaw) (fun ω => ∃ t, Uses stream.next (fun i => ω i)
    ([evenly ℝ (1 : Fin 3), ⟨3, ![0, 1 / 4, 3 / 4], 1⟩].map Decision.By) t) (1 / 12) := by
  have := C114_product numbers_exist (ds := [evenly ℝ (1 : Fin 3), ⟨3, ![0, 1 / 4, 3 / 4], 1⟩]) (by
    intro d hd
    simp only [List.mem_cons, List.not_mem_nil, or_false] at hd
    rcases hd with rfl | rfl
    · exact ⟨fun _ => zero_le_one, one_pos⟩
    · refine ⟨fun i => ?_, ?_⟩
      · change 0 ≤ (![0, 1 / 4, 3 / 4] : Fin 3 → ℝ) i
        fin_cases i <;> norm_num
      · change 0 < (![0, 1 / 4, 3 / 4] : Fin 3 → ℝ) 1
        norm_num)
  rw [show (1 : ℝ) / 12 = ([evenly ℝ (1 : Fin 3), ⟨3, ![0, 1 / 4, 3 / 4], 1⟩].map Decision.chance).prod from by
    simp only [List.map_cons, List.map_nil, List.prod_cons, List.prod_nil, evenly_chance]
    have : (⟨3, ![0, 1 / 4, 3 / 4], 1⟩ : Decision ℝ).chance = 1 / 4 := by
      change (![0, 1 / 4, 3 / 4] : Fin 3 → ℝ) 1 / ∑ i, (![0, 1 / 4, 3 / 4] : Fin 3 → ℝ) i = 1 / 4
      rw [Fin.sum_univ_three]
      have h2 : (![0, 1 / 4, 3 / 4] : Fin 3 → ℝ) 2 = 3 / 4 := rfl
      rw [h2]
      norm_num
    rw [this]
    norm_num]
  exact this

-- the default configuration: the paths of the first water iteration, of all parcels, have a probability
example : ∃ (L W m : ℕ) (_ : NeZero L) (_ : NeZero W) (P : Params L W m ℝ) (S : State L W ℝ) (w : _)
    (wst : WState L W ℝ) (log : List (List StepRec)) (n : ℕ) (p : ℝ),
    create realOracle realInput = .ok ⟨L, W, m, P, S⟩ ∧ 0 < P.NpWater ∧
      HasProb (Measure.infinitePi fun _ : ℕ => unitLaw) (fun ω => ∃ t, runWaterIteration stream (waterEnv P S w)
        (fun k => ((P.inlet k).val : ℤ)) P.NpWater S.ncols (fun i => ω i) = .ok (wst, log, n, t)) p := by
  obtain ⟨L, W, m, iL, iW, P, S, hc, hi, hW, hD, hs, hd, hn, -⟩ := C114_created.{0, 0} realRunnable halfPositive
  obtain ⟨w, hw, hwc⟩ := weights_total hW hd
  obtain ⟨st, log, n, s', hr⟩ := waterRun_of halfPositive hW hd hn () hwc
  have hp : 0 < P.NpWater := by
    obtain ⟨hA, D, hD, hs', e⟩ := create_ok hc
    have e' : P.NpWater = realInput.NpWater.toNat := congrArg (fun M : Built ℝ => M.P.NpWater) e
    rw [e']
    decide
  classical
  refine ⟨L, W, m, iL, iW, P, S, w, st, log, n, _, hc, hp, C114_water_law numbers_exist halfPositive hW hi hd hn hw
    hr.run (chance := fun r => if h : ∃ c, Addresses r.cur c then w h.choose r.dir else 0) ?_⟩
  intro r c h
  have h' : ∃ c : Cell L W, Addresses r.cur c := ⟨c, h⟩
  simp only [dif_pos h', address_unique h'.choose_spec h]

-- and so have the paths of the sand of a timestep
example : ∃ (L W m : ℕ) (_ : NeZero L) (_ : NeZero W) (P : Params L W m ℝ) (S S' : State L W ℝ)
    (logs : List (SedLog L W ℝ)) (p : ℝ), create realOracle realInput = .ok ⟨L, W, m, P, S⟩ ∧
      HasProb (Measure.infinitePi fun _ : ℕ => unitLaw) (fun ω => ∃ t, routeParcels stream .sand P S (fun i => ω i) =
        .ok (S', logs, t)) p := by
  obtain ⟨L, W, m, iL, iW, P, S, hc, hi, hW, hD, hs, hd, hn, -⟩ := C114_created.{0, 0} realRunnable halfPositive
  obtain ⟨S', logs, s', h, -⟩ := C71_sediment_parcels halfPositive .sand hD hd ()
  obtain ⟨ws, -, h2⟩ := C114_sediment_law numbers_exist halfPositive hD hs hi hd h
  exact ⟨L, W, m, iL, iW, P, S, S', logs, _, hc, h2⟩

end Verif.Props
