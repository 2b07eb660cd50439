import Verif.Props.Bounded
import Verif.Props.Draws
import Verif.Spec.Scour

/-!
# C110: the bed is not scoured without limit
-/

set_option linter.unusedSectionVars false
set_option linter.unusedSimpArgs false

namespace Verif.Props

open Verif.Model Verif.Lemmas Verif.Spec

variable {K : Type*} [Field K] [LinearOrder K] [IsStrictOrderedRing K] {σ : Type*}
  {L W m : ℕ}

/-! ## No cell carries more than all parcels bring -/

section
variable [FloorRing K]

lemma forall3_length {α β γ : Type*} {R : α → β → γ → Prop} {as : List α} {bs : List β} {cs : List γ}
    (h : Forall₃ R as bs cs) : bs.length = as.length ∧ cs.length = as.length := by
  induction h with
  | nil => exact ⟨rfl, rfl⟩
  | cons _ _ ih => simp [ih.1, ih.2]

/-- Every pass has one record for each parcel. -/
lemma records_count {g : Rng K σ} {E : WEnv L W K} {inlet : Fin m → ℤ} {np ncols : ℕ} {s : σ}
    {st : WState L W K} {log : List (List StepRec)} {n : ℕ} {s' : σ}
    (hr : runWaterIteration g E inlet np ncols s = .ok (st, log, n, s')) :
    log.flatten.length ≤ np * E.stepmax := by
  obtain ⟨starts, st0, h1, h2, h3⟩ := runWater_ok g E inlet np ncols s _ hr
  obtain ⟨-, -, -, -, -, -, -, -, hmap, -⟩ := waterStart_ok h2
  have hlen : st0.parcels.length = np := by
    have e := congrArg List.length hmap
    rw [List.length_map] at e
    rw [e]
    exact (uses_starts g inlet np s starts h1).1
  obtain ⟨-, a, b, -, hper⟩ := waterLoop_induct g E (fun _ st => st.parcels.length = np)
    (fun _ recs => recs.length = np)
    (by
      intro step st s st' recs s' hI _ _ hs
      obtain ⟨-, -, hf, -⟩ := waterStep_ok g E _ _ _ _ _ _ hs
      have hc : (checkSize E.stepmax (step + 1) st).parcels.length = st.parcels.length := by
        unfold checkSize; split <;> simp
      obtain ⟨f1, f2⟩ := forall3_length hf
      exact ⟨by rw [f1, hc, hI], by rw [f2, hc, hI]⟩) 0 _ _ _ _ _ _ hlen h3
  have hn : log.length ≤ E.stepmax := by
    have := b (Nat.zero_le _)
    omega
  have hall : ∀ l ∈ log, l.length = np := by
    intro l hl
    obtain ⟨k, hk, rfl⟩ := List.mem_iff_getElem.1 hl
    exact hper k hk
  rw [List.length_flatten]
  have : (log.map List.length).sum = log.length * np := by
    rw [List.map_congr_left hall]
    simp
  rw [this, mul_comm]
  exact Nat.mul_le_mul_left _ hn

/-- The routed discharge of a cell. -/
lemma routed_discharge {g : Rng K σ} {E : WEnv L W K} {inlet : Fin m → ℤ} {np ncols : ℕ} {s : σ}
    {st : WState L W K} {log : List (List StepRec)} {n : ℕ} {s' : σ} (hQ : 0 ≤ E.Qp / E.dx / 2)
    (hr : runWaterIteration g E inlet np ncols s = .ok (st, log, n, s')) (c : Cell L W) :
    0 ≤ st.flux.qw c ∧ st.flux.qw c ≤ E.Qp / E.dx / 2 * (1 + 3 * (np * E.stepmax)) := by
  obtain ⟨starts, -, h⟩ := C14_cell_accounting hr
  rw [(h c).1]
  have hc := records_count hr
  have b1 : (departures log c).length ≤ log.flatten.length := List.length_filter_le _ _
  have b2 : (arrivals log c).length ≤ log.flatten.length := List.length_filter_le _ _
  have b3 : (edgeArrivals log c).length ≤ log.flatten.length := List.length_filter_le _ _
  have b : (departures log c).length + (arrivals log c).length + (edgeArrivals log c).length ≤
      3 * (np * E.stepmax) := by omega
  have b' : (((departures log c).length + (arrivals log c).length + (edgeArrivals log c).length : ℕ) : K) ≤
      3 * (np * E.stepmax) := by exact_mod_cast b
  constructor
  · refine mul_nonneg hQ (add_nonneg ?_ (Nat.cast_nonneg _))
    split_ifs <;> norm_num
  · refine mul_le_mul_of_nonneg_left (add_le_add ?_ b') hQ
    split_ifs <;> norm_num

lemma length_zero {nrm : K → K → K} (h : IsLength nrm) : nrm 0 0 = 0 := by
  have := h.scale 0 0 0 le_rfl
  simpa using this

variable [NeZero L] [NeZero W]

/-- A water iteration leaves no discharge above `mostDischarge`. -/
lemma iteration_discharge {g : Rng K σ} {P : Params L W m K} (hF : RelaxedFlow P) (hdx : 0 ≤ P.dx)
    (hn0 : P.nrm P.qw0 0 = P.qw0) {it : ℕ} (hit : it < P.itermax) {S S' : State L W K} {s s' : σ}
    (hS : 0 < S.timeIter → ∀ c, P.nrm (S.qx c) (S.qy c) ≤ mostDischarge P)
    (h : waterIteration g P it S s = .ok (S', s')) (c : Cell L W) :
    P.nrm (S'.qx c) (S'.qy c) ≤ mostDischarge P := by
  obtain ⟨w, wst, log, n, stage, -, hr, -, rfl⟩ := waterIteration_ok h
  have hQ : 0 ≤ P.QpWater / P.dx / 2 := div_nonneg (div_nonneg hF.parcel hdx) (by norm_num)
  obtain ⟨q0, q1⟩ := routed_discharge (E := waterEnv P S w) hQ hr c
  have q1' : wst.flux.qw c ≤ mostDischarge P := q1.trans (le_max_right _ _)
  simp only [finalizeWaterIteration, updateFlow, assign]
  by_cases hi : isInlet P.inlet c = true
  · simp only [hi, if_true, hn0]
    exact le_max_left _ _
  · simp only [hi, Bool.false_eq_true, if_false]
    have hnew : P.nrm (wst.flux.qx c * qwnDiv P.nrm wst.flux c) (wst.flux.qy c * qwnDiv P.nrm wst.flux c) ≤
        wst.flux.qw c := by
      have hd : 0 ≤ qwnDiv P.nrm wst.flux c := by
        simp only [qwnDiv]
        split_ifs with hp
        · exact div_nonneg q0 (le_of_lt hp)
        · exact zero_le_one
      rw [mul_comm _ (qwnDiv _ _ _), mul_comm _ (qwnDiv _ _ _), hF.len.scale _ _ _ hd]
      simp only [qwnDiv]
      split_ifs with hp
      · rw [div_mul_cancel₀ _ (ne_of_gt hp)]
      · have : P.nrm (wst.flux.qx c) (wst.flux.qy c) = 0 := le_antisymm (not_lt.1 hp) (hF.len.nonneg _ _)
        rw [this, mul_zero]
        exact q0
    by_cases ht : S.timeIter > 0
    · simp only [ht, if_true]
      have hom : ∀ om : K, 0 ≤ om → om ≤ 1 →
          P.nrm (wst.flux.qx c * qwnDiv P.nrm wst.flux c * om + S.qx c * (1 - om))
            (wst.flux.qy c * qwnDiv P.nrm wst.flux c * om + S.qy c * (1 - om)) ≤ mostDischarge P := by
        intro om o0 o1
        refine (hF.len.triangle _ _ _ _).trans ?_
        rw [mul_comm _ om, mul_comm _ om, mul_comm _ (1 - om), mul_comm _ (1 - om),
          hF.len.scale _ _ _ o0, hF.len.scale _ _ _ (sub_nonneg.2 o1)]
        have a1 := mul_le_mul_of_nonneg_left (hnew.trans q1') o0
        have a2 := mul_le_mul_of_nonneg_left (hS ht c) (sub_nonneg.2 o1)
        linarith
      split_ifs with h0
      · exact hom _ hF.first0 hF.first1
      · exact hom _ hF.iter0 (hF.iter1 (by omega))
    · simp only [ht, if_false]
      exact hnew.trans q1'

/-- C110: after the water routing no cell carries more than `mostDischarge`. -/
theorem C110_discharge {g : Rng K σ} {P : Params L W m K} (hF : RelaxedFlow P) (hR : RunSetup P)
    {S S' : State L W K} {s s' : σ}
    (hS : 0 < S.timeIter → ∀ c, P.nrm (S.qx c) (S.qy c) ≤ mostDischarge P)
    (h : routeWater g P S s = .ok (S', s')) (c : Cell L W) :
    S'.qw c ≤ mostDischarge P ∧ P.nrm (S'.qx c) (S'.qy c) ≤ mostDischarge P := by
  have hmag := (C20_route hR.nrm0 hR.itermax h).magnitude c
  have main : ∀ n it T t T' t', it + n = P.itermax → (0 < n ∨ ∀ c, P.nrm (T.qx c) (T.qy c) ≤ mostDischarge P) →
      (0 < T.timeIter → ∀ c, P.nrm (T.qx c) (T.qy c) ≤ mostDischarge P) →
      routeWaterFrom g P it n T t = .ok (T', t') → ∀ c, P.nrm (T'.qx c) (T'.qy c) ≤ mostDischarge P := by
    intro n
    induction n with
    | zero =>
      intro it T t T' t' _ hT _ h
      simp only [routeWaterFrom, Except.ok.injEq, Prod.mk.injEq] at h
      obtain ⟨rfl, -⟩ := h
      exact hT.resolve_left (lt_irrefl _)
    | succ n ih =>
      intro it T t T' t' hn _ hT h
      unfold routeWaterFrom at h
      generalize hr : waterIteration g P it T t = r at h
      cases r with
      | error e => simp at h
      | ok r =>
        obtain ⟨T1, t1⟩ := r
        have h1 := iteration_discharge hF hR.sed.dx.le hR.nrm0 (by omega) hT hr
        exact ih _ _ _ _ _ (by omega) (Or.inr h1) (fun _ => h1) h
  have key := main _ _ _ _ _ _ (Nat.zero_add _) (Or.inl hR.itermax) hS h
  exact ⟨by rw [hmag]; exact key c, key c⟩

/-! ## Erosion ends where the water is deep -/

lemma limit_nonneg {Vp stage eta dx : K} (hV : 0 ≤ Vp) (ero : Bool) : 0 ≤ limitChange Vp stage eta dx ero := by
  unfold limitChange
  simp only
  split_ifs with h1 h2
  · exact le_min hV (mul_nonneg (by positivity) (mul_self_nonneg _))
  · exact le_rfl
  · exact le_min hV (mul_nonneg (div_nonneg (not_lt.1 h1) (by norm_num)) (mul_self_nonneg _))

/-- Only fast flow takes sediment from the bed. -/
lemma erodes_fast (k : Sed) {P : Params L W m K} (hP : SedSetup P) {S : State L W K} {c : Cell L W} {res : K}
    (hu : 0 ≤ S.uw c) (hres : 0 ≤ res) (h : volumeChange k P S c res < 0) :
    slowestErosion P < S.uw c := by
  unfold slowestErosion
  cases k with
  | sand =>
    simp only [volumeChange, sandChange] at h
    split_ifs at h with h1 h2
    · exact absurd h (not_lt.2 (limit_nonneg hres _))
    · exact lt_of_le_of_lt (min_le_left _ _) h2.1
    · exact absurd h (lt_irrefl _)
  | mud =>
    simp only [volumeChange, mudChange] at h
    split_ifs at h with h1 h2
    · exact lt_of_le_of_lt (min_le_right _ _) h1
    · refine absurd h (not_lt.2 (limit_nonneg ?_ _))
      exact div_nonneg (mul_nonneg (mul_nonneg hP.lam0 hres) (sub_nonneg.2 (hP.pwMono _ _ hu h2.le)))
        (hP.pwPos _ hP.depMud).le
    · exact absurd h (lt_irrefl _)

/-- What the routing of parcels keeps: the bed is not below `lo`, and where the flow is fast enough to erode,
the water is not deeper than `X`. -/
def LowerFlow (P : Params L W m K) (Q lo : K) (X stage : Grid L W K) (S : State L W K) : Prop :=
  FlowOk P S ∧ S.stage = stage ∧ (∀ c, S.qw c ≤ Q) ∧
    (∀ c, lo ≤ S.eta c) ∧ ∀ c, slowestErosion P < S.uw c → S.stage c - S.eta c ≤ X c

/-- The routing of parcels keeps the bound. -/
lemma parcels_lower {g : Rng K σ} {k : Sed} {P : Params L W m K} (hP : SedSetup P) {S S' : State L W K}
    {s s' : σ} {logs : List (SedLog L W K)} {Q lo : K} {X stage : Grid L W K}
    (hX : ∀ c, Q / slowestErosion P ≤ X c) (hlo : ∀ c, lo + 5 / 4 * X c ≤ stage c)
    (hS : LowerFlow P Q lo X stage S) (h : routeParcels g k P S s = .ok (S', logs, s')) :
    LowerFlow P Q lo X stage S' := by
  have hU : 0 < slowestErosion P := lt_min hP.eroSand hP.eroMud
  obtain ⟨starts, st, -, hp, rfl⟩ := routeParcels_ok h
  refine sedParcels_induct (g := g) (k := k) (P := P) (fun st _ => LowerFlow P Q lo X stage st.S) ?_ _ _ [] _ _ _ _
    hS hp
  intro st logs py c s st' res rs s' hI _ hl
  have hent : LowerFlow P Q lo X stage (enterState k P st c).S := by cases k <;> exact hI
  refine (sedLoop_induct (fun st res => LowerFlow P Q lo X stage st.S ∧ 0 ≤ res) (fun _ => True) ?_
    _ _ _ _ _ _ _ _ _ _ ⟨hent, hP.vp⟩ hl).1.1
  intro st px py res s st1 res1 r s1 ⟨⟨a1, a2, a3, a4, a5⟩, a6⟩ hs
  obtain ⟨⟨b1, b2⟩, hFb, -, -, b3, -⟩ := step_inv hP ⟨a1, a6⟩ hs
  have he := stepEffect hs
  obtain ⟨hb, h1, -, -, hch⟩ := before_eq hs
  have e1 : r.before.eta = st.S.eta := by rw [hb]
  have e2 : r.before.stage = st.S.stage := by rw [hb]
  have e3 : r.before.qw = st.S.qw := by rw [hb]
  have e4 : r.before.uw = st.S.uw := by rw [hb]
  have hd : 0 < P.dx * P.dx := mul_pos hP.dx hP.dx
  have hQ0 : 0 ≤ Q := (a1 r.cell).2.2.trans (a3 r.cell)
  have hX0 : ∀ c, 0 ≤ X c := fun c => (div_nonneg hQ0 hU.le).trans (hX c)
  have est : st1.S.stage = st.S.stage := by rw [h1, he.stage, e2]
  have eqw : st1.S.qw = st.S.qw := by rw [h1, he.discharge.2.2, e3]
  refine ⟨⟨⟨b1, est.trans a2, fun c => by rw [eqw]; exact a3 c, fun c => ?_, fun c hu => ?_⟩, b2⟩, trivial⟩
  · rw [h1, he.bed]
    by_cases hc : c = r.cell
    · subst hc
      rw [Function.update_self, e1]
      rcases lt_or_ge r.change 0 with h2 | h2
      · have hfast : slowestErosion P < st.S.uw r.cell := by
          rw [← e4]
          exact erodes_fast k hP (hFb r.cell).1 a6 (by rw [← hch]; exact h2)
        have hdeep := a5 _ hfast
        rw [e1, e2, abs_of_neg h2] at b3
        have h3 : -(|st.S.stage r.cell - st.S.eta r.cell| / 4) ≤ r.change / (P.dx * P.dx) := by
          rw [le_div_iff₀ hd]; linarith
        have h4 := hlo r.cell
        rw [← a2] at h4
        rcases le_total 0 (st.S.stage r.cell - st.S.eta r.cell) with h5 | h5
        · rw [abs_of_nonneg h5] at h3
          linarith
        · rw [abs_of_nonpos h5] at h3
          linarith [hX0 r.cell]
      · have := div_nonneg h2 hd.le
        linarith [a4 r.cell]
    · rw [Function.update_of_ne hc, e1]; exact a4 c
  · rw [est]
    rw [h1] at hu ⊢
    by_cases hc : c = r.cell
    · subst hc
      rcases le_or_gt (r.before.stage r.cell) (r.after.eta r.cell) with h2 | h2
      · rw [e2] at h2
        linarith [hX0 r.cell]
      · rw [he.speed.2 h2] at hu
        have h3 := lt_of_lt_of_le hu (min_le_right _ _)
        have h4 : 0 < r.before.stage r.cell - r.after.eta r.cell := sub_pos.2 h2
        rw [lt_div_iff₀ h4, e2, e3] at h3
        refine le_trans ?_ (hX r.cell)
        rw [le_div_iff₀ hU]
        linarith [a3 r.cell]
    · rw [(he.velocity c hc).1, e4] at hu
      rw [he.bed, Function.update_of_ne hc, e1]
      exact a5 c hu

/-! ## Diffusion -/

/-- One pass leaves at least the share `1 - lam` of the height above the lowest bed. -/
lemma diffusion_keeps_one (ct : Grid L W ℤ) {mult lam : K} {qs eta : Grid L W K} {lo : K} (hm : 0 ≤ mult)
    (hq : ∀ n, 0 ≤ qs n) (hl : 0 ≤ lam) (hs : MovesShare lam mult qs around) (h0 : lo ≤ 0)
    (h : ∀ c, lo ≤ eta c) (c : Cell L W) : (1 - lam) * (eta c - lo) ≤ topoDiffusion ct mult qs 1 eta c - lo := by
  rw [C29_cell]
  have hc0 := sub_nonneg.2 (h c)
  split_ifs with hh
  · have := mul_nonneg hl hc0
    linarith
  set M := (8 - ((around c).card : K)) * qs c with hM
  have hM0 : 0 ≤ M := mul_nonneg (by
    have : ((around c).card : K) ≤ 8 := by exact_mod_cast around_le c
    linarith) (hq c)
  have hexp : eta c + (∑ n ∈ around c, exchange mult qs eta c n -
      mult * ((8 - ((around c).card : K)) * (qs c * eta c))) =
      (1 - mult * (∑ n ∈ around c, (qs c + qs n) + M)) * eta c +
        mult * ∑ n ∈ around c, (qs c + qs n) * eta n := by
    have e : ∀ n, exchange mult qs eta c n = mult * ((qs c + qs n) * eta n) -
        mult * eta c * (qs c + qs n) := by intro n; unfold exchange; ring
    simp only [e, Finset.sum_sub_distrib, ← Finset.mul_sum]
    rw [hM]
    ring
  rw [hexp]
  have hlo : (∑ n ∈ around c, (qs c + qs n)) * lo ≤ ∑ n ∈ around c, (qs c + qs n) * eta n := by
    rw [Finset.sum_mul]
    exact Finset.sum_le_sum (fun n _ => mul_le_mul_of_nonneg_left (h n) (add_nonneg (hq c) (hq n)))
  have hsc := hs c
  rw [← hM] at hsc
  set A := ∑ n ∈ around c, (qs c + qs n) with hA
  have a1 := mul_le_mul_of_nonneg_left hlo hm
  have a2 := mul_le_mul_of_nonneg_right hsc hc0
  have a3 := mul_nonpos_of_nonneg_of_nonpos (mul_nonneg hm hM0) h0
  nlinarith

/-- Any number of passes. -/
lemma diffusion_keeps (ct : Grid L W ℤ) {mult lam : K} {qs : Grid L W K} {lo : K} (hm : 0 ≤ mult)
    (hq : ∀ n, 0 ≤ qs n) (hl0 : 0 ≤ lam) (hl1 : lam ≤ 1) (hs : MovesShare lam mult qs around) (h0 : lo ≤ 0) :
    ∀ (k : ℕ) {eta : Grid L W K}, (∀ c, lo ≤ eta c) →
      ∀ c, (1 - lam) ^ k * (eta c - lo) ≤ topoDiffusion ct mult qs k eta c - lo := by
  intro k
  induction k with
  | zero => intro eta _ c; simp [topoDiffusion]
  | succ k ih =>
    intro eta h c
    have h1 := diffusion_keeps_one ct hm hq hl0 hs h0 h
    have hk : 0 ≤ 1 - lam := sub_nonneg.2 hl1
    have h2 : ∀ c, lo ≤ topoDiffusion ct mult qs 1 eta c := fun c => by
      have := mul_nonneg hk (sub_nonneg.2 (h c))
      linarith [h1 c]
    have h3 := ih h2 c
    have h4 := mul_le_mul_of_nonneg_left (h1 c) (pow_nonneg hk k)
    calc (1 - lam) ^ (k + 1) * (eta c - lo) = (1 - lam) ^ k * ((1 - lam) * (eta c - lo)) := by ring
      _ ≤ _ := h4.trans h3

/-! ## One timestep and runs -/

/-- What the bound needs of the settings beyond a working setup: no negative diffusion, and that more than a
fifth of the height of a bed survives the diffusion of a timestep. -/
structure ScourSetup (P : Params L W m K) (lam : K) : Prop where
  run : RunSetup P
  diffusion : 0 ≤ P.diffMult
  share0 : 0 ≤ lam
  share1 : lam ≤ 1
  keep : 1 < 5 * (1 - lam) ^ P.Ncross

/-- C110 for one timestep: a level that is not above the bed, not above elevation zero, and at least the depth
of the inlet and the scour depth below the sea stays below the bed, apart from subsidence. -/
theorem C110_update {g : Rng K σ} {P : Params L W m K} {lam : K} (hP : ScourSetup P lam)
    {S S' : State L W K} {s s' : σ} {l : StepLog L W K} {lo Q : K} (h0 : lo ≤ 0)
    (hin : lo + P.h0 ≤ S.HSL) (hsea : lo + scourDepth Q (slowestErosion P) ((1 - lam) ^ P.Ncross) ≤ S.HSL)
    (hS : NotBelow lo S) (h : timestep g P S s = .ok (S', l, s')) (hQ : ∀ c, l.watered.qw c ≤ Q)
    (hst : MovesShare lam P.diffMult l.routed.qs around) (c : Cell L W) :
    (InletCell P c ∨ ¬ (P.toggleSub = true ∧ P.startSub ≤ S.time) → lo ≤ S'.eta c) ∧
      lo - max 0 (P.sigma c) ≤ S'.eta c := by
  have hR := hP.run
  obtain ⟨r, rfl⟩ := step_result h
  obtain ⟨s1, h1, h2, -, -⟩ := timestep_ok h
  obtain ⟨⟨S1, s1', s2, f1, h3, f2, h4⟩, -⟩ := step_routings hR h
  have hwater := C19_route hR.itermax h1
  have hvel := C21_route hR.sed.uMax hR.dry hR.itermax h1
  have hU : 0 < slowestErosion P := lt_min hR.sed.eroSand hR.sed.eroMud
  have hQ0 : 0 ≤ Q := (f1 c).2.2.trans (hQ c)
  have hD0 : 0 ≤ Q / slowestErosion P := div_nonneg hQ0 hU.le
  set D := Q / slowestErosion P with hD
  set κ := (1 - lam) ^ P.Ncross with hκ
  have hκ1 : κ ≤ 1 := pow_le_one₀ (sub_nonneg.2 hP.share1) (by linarith [hP.share0])
  have hκ5 : 0 < 5 * κ - 1 := sub_pos.2 hP.keep
  have hκ0 : 0 ≤ κ := by linarith
  -- the depth below the sea
  have hdepth : scourDepth Q (slowestErosion P) κ * (5 * κ - 1) = 5 * κ * D := by
    unfold scourDepth
    rw [← hD]
    field_simp
  have hstage : ∀ c, l.start.HSL ≤ l.watered.stage c := fun c => by
    rw [← hwater.2.2]; exact (hwater.1 c).1
  have hgap : ∀ c, 5 * κ * D ≤ (l.watered.stage c - lo) * (5 * κ - 1) := fun c => by
    rw [← hdepth]
    exact mul_le_mul_of_nonneg_right (by linarith [hstage c]) hκ5.le
  have hgap1 : ∀ c, 5 / 4 * D ≤ l.watered.stage c - lo := fun c => by
    have h5 : 5 / 4 * D * (5 * κ - 1) ≤ 5 * κ * D := by nlinarith
    exact le_of_mul_le_mul_right (h5.trans (hgap c)) hκ5
  -- sand
  have st0 : LowerFlow P Q lo (fun _ => D) l.watered.stage (initSediment l.watered) := by
    refine ⟨f1, rfl, hQ, fun c => ?_, fun c hu => ?_⟩
    · change lo ≤ l.watered.eta c
      rw [hwater.2.1]; exact hS c
    · change l.watered.stage c - l.watered.eta c ≤ D
      change slowestErosion P < l.watered.uw c at hu
      have hw := hwater.1 c
      rcases le_total (l.watered.eta c) (l.watered.stage c) with h5 | h5
      · have h6 := hw.2.2.1 h5
        rcases le_or_gt (l.watered.depth c) P.dryDepth with h7 | h7
        · rw [(hvel.dry c h7).1] at hu; linarith
        rcases le_or_gt (l.watered.qw c) 0 with h8 | h8
        · rw [(hvel.still c h8).1] at hu; linarith
        have h9 := (hvel.wet c h7 h8).1
        have h10 : slowestErosion P * l.watered.depth c ≤ l.watered.uw c * l.watered.depth c :=
          mul_le_mul_of_nonneg_right hu.le hw.2.1
        rw [hD, le_div_iff₀ hU]
        have : l.watered.stage c - l.watered.eta c = l.watered.depth c := by linarith
        rw [this]
        linarith [hQ c]
      · linarith
  obtain ⟨-, c2, c3, c4, c5⟩ := parcels_lower hR.sed (fun _ => le_rfl) (fun c => by linarith [hgap1 c]) st0 h3
  -- diffusion
  have hq1 : l.routed.qs = S1.qs := by rw [C31_mud h4]
  have hq0 : ∀ c, 0 ≤ S1.qs c := fun c => C31_nonneg hR.sed f1 h3 c (le_refl _)
  rw [hq1] at hst
  have hdiff := diffusion_keeps P.cellType hP.diffusion hq0 hP.share0 hP.share1 hst h0 P.Ncross c4
  rw [← hκ] at hdiff
  -- mud
  have st1 : LowerFlow P Q lo (fun c => κ * D + (1 - κ) * (l.watered.stage c - lo)) l.watered.stage
      { S1 with eta := topoDiffusion P.cellType P.diffMult S1.qs P.Ncross S1.eta } := by
    refine ⟨f2, c2, c3, fun c => ?_, fun c hu => ?_⟩
    · have := mul_nonneg hκ0 (sub_nonneg.2 (c4 c))
      change lo ≤ topoDiffusion P.cellType P.diffMult S1.qs P.Ncross S1.eta c
      linarith [hdiff c]
    · change S1.stage c - topoDiffusion P.cellType P.diffMult S1.qs P.Ncross S1.eta c ≤ _
      have h5 := c5 c hu
      have h6 := mul_le_mul_of_nonneg_left h5 hκ0
      rw [c2] at h6 ⊢
      simp only
      nlinarith [hdiff c]
  obtain ⟨-, -, -, d4, -⟩ := parcels_lower hR.sed (fun c => by
      have h5 := hgap1 c
      have h6 : (1 - κ) * D ≤ (1 - κ) * (l.watered.stage c - lo) :=
        mul_le_mul_of_nonneg_left (by linarith) (sub_nonneg.2 hκ1)
      linarith) (fun c => by
      have h5 := hgap c
      linarith) st1 h4
  refine ⟨fun hc => ?_, ?_⟩
  · by_cases hi : InletCell P c
    · rw [r.inletBed c hi, r.stage c]
      have := le_max_right (floodingCorrection (applySubsidence P l.routed).eta l.routed.depth
        l.routed.stage P.dryDepth c) l.start.HSL
      linarith
    · rw [r.bed c hi, if_neg (hc.resolve_left hi), sub_zero]
      exact d4 c
  · by_cases hi : InletCell P c
    · rw [r.inletBed c hi, r.stage c]
      have := le_max_right (floodingCorrection (applySubsidence P l.routed).eta l.routed.depth
        l.routed.stage P.dryDepth c) l.start.HSL
      linarith [le_max_left 0 (P.sigma c)]
    · rw [r.bed c hi]
      have := d4 c
      split_ifs
      · linarith [le_max_right 0 (P.sigma c)]
      · linarith [le_max_left 0 (P.sigma c)]

/-- C110: a level that is at the start not above the bed and elevation zero, and in no timestep less than the
scour depth and the depth of the inlet below the sea, stays below the bed in runs of any length, but for the
subsidence of at most `sub` in a timestep. -/
theorem C110_run {g : Rng K σ} {P : Params L W m K} {lam : K} (hP : ScourSetup P lam) {sub : K}
    (hs0 : 0 ≤ sub) (hs1 : ∀ c, P.sigma c ≤ sub) {Q : K} {n : ℕ} {lo : K} {S S' : State L W K} {s s' : σ}
    {ls : List (StepLog L W K)} (h0 : lo ≤ 0) (hin : ∀ k < n, lo + P.h0 ≤ S.HSL + k * (P.SLR * P.dt))
    (hsea : ∀ k < n, lo + scourDepth Q (slowestErosion P) ((1 - lam) ^ P.Ncross) ≤ S.HSL + k * (P.SLR * P.dt))
    (hS : NotBelow lo S) (h : timesteps g (List.replicate n P) S s = .ok (S', ls, s'))
    (hQ : ∀ l ∈ ls, ∀ c, l.watered.qw c ≤ Q)
    (hst : ∀ l ∈ ls, MovesShare lam P.diffMult l.routed.qs around) : NotBelow (lo - n * sub) S' := by
  induction n generalizing S s ls lo with
  | zero =>
    simp only [List.replicate_zero, timesteps, Except.ok.injEq, Prod.mk.injEq] at h
    obtain ⟨rfl, rfl, rfl⟩ := h
    simpa using hS
  | succ n ih =>
    rw [List.replicate_succ] at h
    obtain ⟨S1, l, s1, ls1, h1, h2, rfl⟩ := timesteps_cons h
    have a := C110_update hP h0 (by simpa using hin 0 (Nat.succ_pos _)) (by simpa using hsea 0 (Nat.succ_pos _))
      hS h1 (hQ l (by simp)) (hst l (by simp))
    obtain ⟨r, e⟩ := step_result h1
    have hHSL : S1.HSL = S.HSL + P.SLR * P.dt := by rw [r.sea, e]
    have := ih (lo := lo - sub) (by linarith) (fun k hk => by
        have := hin (k + 1) (by omega)
        push_cast at this
        rw [hHSL]
        linarith) (fun k hk => by
        have := hsea (k + 1) (by omega)
        push_cast at this
        rw [hHSL]
        linarith) (fun c => by
        have h5 : max 0 (P.sigma c) ≤ sub := max_le hs0 (hs1 c)
        linarith [(a c).2]) h2 (fun l hl => hQ l (by simp [hl])) (fun l hl => hst l (by simp [hl]))
    intro c
    have := this c
    push_cast
    linarith

/-- C110: without subsidence and with a sea that does not fall, the bound does not depend on the number of
timesteps. -/
theorem C110_steady {g : Rng K σ} {P : Params L W m K} {lam : K} (hP : ScourSetup P lam)
    (hsub : P.toggleSub = false) (hslr : 0 ≤ P.SLR) {Q : K} {n : ℕ} {lo : K} {S S' : State L W K} {s s' : σ}
    {ls : List (StepLog L W K)} (h0 : lo ≤ 0) (hin : lo + P.h0 ≤ S.HSL)
    (hsea : lo + scourDepth Q (slowestErosion P) ((1 - lam) ^ P.Ncross) ≤ S.HSL)
    (hS : NotBelow lo S) (h : timesteps g (List.replicate n P) S s = .ok (S', ls, s'))
    (hQ : ∀ l ∈ ls, ∀ c, l.watered.qw c ≤ Q)
    (hst : ∀ l ∈ ls, MovesShare lam P.diffMult l.routed.qs around) :
    NotBelow lo S' ∧ ∀ l ∈ ls, NotBelow lo l.start := by
  induction n generalizing S s ls with
  | zero =>
    simp only [List.replicate_zero, timesteps, Except.ok.injEq, Prod.mk.injEq] at h
    obtain ⟨rfl, rfl, rfl⟩ := h
    exact ⟨hS, by simp⟩
  | succ n ih =>
    rw [List.replicate_succ] at h
    obtain ⟨S1, l, s1, ls1, h1, h2, rfl⟩ := timesteps_cons h
    have a := C110_update hP h0 hin hsea hS h1 (hQ l (by simp)) (hst l (by simp))
    obtain ⟨r, e⟩ := step_result h1
    have hHSL : S.HSL ≤ S1.HSL := by
      rw [r.sea, e]
      linarith [mul_nonneg hslr hP.run.sed.dt.le]
    obtain ⟨b1, b2⟩ := ih (hin.trans hHSL) (hsea.trans hHSL)
      (fun c => (a c).1 (Or.inr (by rw [hsub]; simp))) h2 (fun l hl => hQ l (by simp [hl]))
      (fun l hl => hst l (by simp [hl]))
    refine ⟨b1, fun l' hl' => ?_⟩
    rcases List.mem_cons.1 hl' with rfl | hl'
    · rw [e]; exact hS
    · exact b2 l' hl'

/-- C110: the discharge of a run is limited by the parcels alone. -/
theorem C110_flow {g : Rng K σ} {P : Params L W m K} (hF : RelaxedFlow P) (hR : RunSetup P) {n : ℕ}
    {S S' : State L W K} {s s' : σ} {ls : List (StepLog L W K)}
    (hS : 0 < S.timeIter → ∀ c, P.nrm (S.qx c) (S.qy c) ≤ mostDischarge P)
    (h : timesteps g (List.replicate n P) S s = .ok (S', ls, s')) :
    ∀ l ∈ ls, ∀ c, l.watered.qw c ≤ mostDischarge P := by
  induction n generalizing S s ls with
  | zero =>
    simp only [List.replicate_zero, timesteps, Except.ok.injEq, Prod.mk.injEq] at h
    obtain ⟨rfl, rfl, rfl⟩ := h
    simp
  | succ n ih =>
    rw [List.replicate_succ] at h
    obtain ⟨S1, l, s1, ls1, h1, h2, rfl⟩ := timesteps_cons h
    obtain ⟨r, rfl⟩ := step_result h1
    obtain ⟨t1, w1, -, -, -⟩ := timestep_ok h1
    have a := C110_discharge hF hR hS w1
    intro l' hl'
    rcases List.mem_cons.1 hl' with rfl | hl'
    · exact fun c => (a c).1
    · exact ih (fun _ c => by rw [r.flow.1, r.flow.2.1]; exact (a c).2) h2 l' hl'

/-- C110: without diffusion no condition on the flux of sand is needed. -/
theorem C110_undiffused {g : Rng K σ} {P : Params L W m K} (hR : RunSetup P) (hd : P.diffMult = 0) {sub : K}
    (hs0 : 0 ≤ sub) (hs1 : ∀ c, P.sigma c ≤ sub) {Q : K} {n : ℕ} {lo : K} {S S' : State L W K} {s s' : σ}
    {ls : List (StepLog L W K)} (h0 : lo ≤ 0) (hin : ∀ k < n, lo + P.h0 ≤ S.HSL + k * (P.SLR * P.dt))
    (hsea : ∀ k < n, lo + 5 / 4 * (Q / slowestErosion P) ≤ S.HSL + k * (P.SLR * P.dt))
    (hS : NotBelow lo S) (h : timesteps g (List.replicate n P) S s = .ok (S', ls, s'))
    (hQ : ∀ l ∈ ls, ∀ c, l.watered.qw c ≤ Q) : NotBelow (lo - n * sub) S' := by
  have hP : ScourSetup P 0 := ⟨hR, hd.ge, le_refl _, zero_le_one, by rw [sub_zero, one_pow]; norm_num⟩
  refine C110_run hP hs0 hs1 h0 hin (fun k hk => ?_) hS h hQ (fun l _ c => by rw [hd, zero_mul])
  refine le_trans (le_of_eq ?_) (hsea k hk)
  unfold scourDepth
  rw [sub_zero, one_pow]
  norm_num

/-- C110: what a created model has of the conditions. -/
theorem C110_start {O : Oracle K} (hO : OracleOk O) {I : Input K} (hI : Runnable I) (hlen : IsLength O.nrm)
    (hom0 : 0 ≤ I.omegaFlow) (hom1 : I.omegaFlow ≤ 1)
    {P : Params L W m K} {S : State L W K} (h : create O I = .ok ⟨L, W, m, P, S⟩) :
    RunSetup P ∧ RelaxedFlow P ∧ (0 ≤ I.alpha → 0 ≤ P.diffMult) ∧ NotBelow (-deepest I) S ∧ S.timeIter = 0 ∧
      S.HSL = I.HSL ∧ P.SLR = I.SLR ∧ P.h0 = I.h0 ∧ P.toggleSub = I.toggleSub ∧
      ∀ c, 0 ≤ I.subRate → P.sigma c ≤ if I.toggleSub then I.subRate * P.dt else 0 := by
  obtain ⟨L', W', m', iL, iW, P', S', hc, hWa, -, -, hR, hd, -⟩ := C74_created hO hI
  rw [h] at hc
  cases hc
  obtain ⟨-, D, hB, -, e⟩ := create_ok h
  obtain ⟨D', hD', p1, p2, -, -, -, p6, p7, -⟩ := C50_derived_partial hI.accepted hI.flowing
    (cellsAlong I.Length I.dx) (cellsAlong I.Width I.dx)
  rw [hB] at hD'
  cases hD'
  cases e
  have b := bc_ok hB
  have hh0 := hI.flowing.h0
  refine ⟨hR, ⟨hlen, hom0, hom1, p7.le, fun hit => ?_, p2.le⟩, fun hal => ?_, fun c => ?_, rfl, rfl, rfl, rfl,
    rfl, fun c hsr => ?_⟩
  · simp only [initialParams] at hit ⊢
    rw [b.eomega]
    have h2 : (2 : K) ≤ I.itermax := by exact_mod_cast (by omega : 2 ≤ I.itermax)
    rw [div_le_one (by linarith)]
    exact h2
  · simp only [initialParams]
    rw [b.ediff]
    have h1 : (0 : K) ≤ (D.Ncross : K) := by exact_mod_cast (by omega : 0 ≤ D.Ncross)
    exact div_nonneg (mul_nonneg (mul_nonneg (div_nonneg p1.le h1) hal) (by norm_num)) (mul_self_nonneg _)
  · have hb : resolveHb I ≤ deepest I := by
      unfold resolveHb deepest
      cases I.hb with
      | none => exact le_max_left _ _
      | some x =>
        simp only [Option.getD_some]
        split_ifs
        · exact le_max_left _ _
        · exact le_max_right _ _
    have hh : I.h0 ≤ deepest I := le_max_left _ _
    have hst : ∀ i : ℤ, 0 ≤ ((max 0 i : ℤ) : K) * I.dx * I.S0 := fun i =>
      mul_nonneg (mul_nonneg (by exact_mod_cast le_max_left 0 i) hI.accepted.dx.le) hI.slope0
    simp only [initialState]
    have key : ∀ s d : K, 0 ≤ s → d ≤ deepest I → -deepest I ≤ s - d := fun s d h1 h2 => by linarith
    apply key
    · unfold assign
      split_ifs
      · exact le_refl _
      · exact hst _
    · unfold assign
      split_ifs
      · exact hh
      · exact hb
      · exact hh0.le.trans hh
  · simp only [initialParams, initialSigma]
    split_ifs
    · have h3 := mul_nonneg hsr p1.le
      beta_reduce
      rw [mul_assoc]
      have : ∀ x : K, x ≤ 1 → x * (I.subRate * D.dt) ≤ I.subRate * D.dt := fun x hx => by nlinarith
      apply this
      unfold assign
      split_ifs <;> norm_num
    · exact le_refl _

/-- C110 for a created model: as long as no cell carries more than `Q`, no bed lies deeper below the lower
of the sea and elevation zero than the basin and the channel at the start and the scour depth, but for
subsidence and a fall of the sea. -/
theorem C110_created {O : Oracle K} (hO : OracleOk O) {I : Input K} (hI : Runnable I) (hlen : IsLength O.nrm)
    (hom0 : 0 ≤ I.omegaFlow) (hom1 : I.omegaFlow ≤ 1) (hal : 0 ≤ I.alpha) (hsr : 0 ≤ I.subRate)
    {P : Params L W m K} {S : State L W K} (h : create O I = .ok ⟨L, W, m, P, S⟩) {lam : K} (hl0 : 0 ≤ lam)
    (hl1 : lam ≤ 1) (hl5 : 1 < 5 * (1 - lam) ^ P.Ncross) {g : Rng K σ} {n : ℕ}
    {S' : State L W K} {s s' : σ} {ls : List (StepLog L W K)} {Q : K}
    (ht : timesteps g (List.replicate n P) S s = .ok (S', ls, s')) (hQ : ∀ l ∈ ls, ∀ c, l.watered.qw c ≤ Q)
    (hst : ∀ l ∈ ls, MovesShare lam P.diffMult l.routed.qs around) :
    NotBelow (min 0 I.HSL - max (deepest I) (scourDepth Q (slowestErosion P) ((1 - lam) ^ P.Ncross))
      + min 0 (n * (I.SLR * P.dt)) - n * (if I.toggleSub then I.subRate * P.dt else 0)) S' := by
  obtain ⟨hR, -, hdf, hS, -, e1, e2, e3, -, hsig⟩ := C110_start hO hI hlen hom0 hom1 h
  set B := max (deepest I) (scourDepth Q (slowestErosion P) ((1 - lam) ^ P.Ncross)) with hB
  have hB1 : deepest I ≤ B := le_max_left _ _
  have hB2 : scourDepth Q (slowestErosion P) ((1 - lam) ^ P.Ncross) ≤ B := le_max_right _ _
  have hh : I.h0 ≤ deepest I := le_max_left _ _
  have hh0 := hI.flowing.h0
  have m1 : min 0 I.HSL ≤ 0 := min_le_left _ _
  have m2 : min 0 I.HSL ≤ I.HSL := min_le_right _ _
  have m3 : min 0 ((n : K) * (I.SLR * P.dt)) ≤ 0 := min_le_left _ _
  have m4 : ∀ k < n, min 0 ((n : K) * (I.SLR * P.dt)) ≤ (k : K) * (I.SLR * P.dt) := fun k hk => by
    rcases le_total 0 (I.SLR * P.dt) with h4 | h4
    · exact m3.trans (mul_nonneg (Nat.cast_nonneg _) h4)
    · refine (min_le_right _ _).trans (mul_le_mul_of_nonpos_right ?_ h4)
      exact_mod_cast hk.le
  refine C110_run ⟨hR, hdf hal, hl0, hl1, hl5⟩ (sub := if I.toggleSub then I.subRate * P.dt else 0) ?_
    (fun c => hsig c hsr) (by linarith) (fun k hk => ?_) (fun k hk => ?_) (fun c => ?_) ht hQ hst
  · split_ifs
    · exact mul_nonneg hsr hR.sed.dt.le
    · exact le_refl _
  · rw [e1, e2, e3]
    linarith [m4 k hk]
  · rw [e1, e2]
    linarith [m4 k hk]
  · linarith [hS c]

/-- C110 for a created model, with the discharge that the parcels of a timestep can add up to. -/
theorem C110_always {O : Oracle K} (hO : OracleOk O) {I : Input K} (hI : Runnable I) (hlen : IsLength O.nrm)
    (hom0 : 0 ≤ I.omegaFlow) (hom1 : I.omegaFlow ≤ 1) (hal : 0 ≤ I.alpha) (hsr : 0 ≤ I.subRate)
    {P : Params L W m K} {S : State L W K} (h : create O I = .ok ⟨L, W, m, P, S⟩) {lam : K} (hl0 : 0 ≤ lam)
    (hl1 : lam ≤ 1) (hl5 : 1 < 5 * (1 - lam) ^ P.Ncross) {g : Rng K σ} {n : ℕ}
    {S' : State L W K} {s s' : σ} {ls : List (StepLog L W K)}
    (ht : timesteps g (List.replicate n P) S s = .ok (S', ls, s'))
    (hst : ∀ l ∈ ls, MovesShare lam P.diffMult l.routed.qs around) :
    NotBelow (min 0 I.HSL
      - max (deepest I) (scourDepth (mostDischarge P) (slowestErosion P) ((1 - lam) ^ P.Ncross))
      + min 0 (n * (I.SLR * P.dt)) - n * (if I.toggleSub then I.subRate * P.dt else 0)) S' := by
  obtain ⟨hR, hF, -, -, ht0, -⟩ := C110_start hO hI hlen hom0 hom1 h
  exact C110_created hO hI hlen hom0 hom1 hal hsr h hl0 hl1 hl5 ht
    (C110_flow hF hR (fun h0 => by rw [ht0] at h0; exact absurd h0 (lt_irrefl _)) ht) hst

/-- C103 and C110 together, for a created model without subsidence and with a steady sea: all elevations of
the bed lie between two levels that depend on the configuration alone, in runs of any length. -/
theorem C110_between {O : Oracle K} (hO : OracleOk O) {I : Input K} (hI : Runnable I) (hG : GentleInput O I)
    (hlen : IsLength O.nrm) (hom0 : 0 ≤ I.omegaFlow) (hom1 : I.omegaFlow ≤ 1) (hsub : I.toggleSub = false)
    (hslr : I.SLR = 0) {P : Params L W m K} {S : State L W K} (h : create O I = .ok ⟨L, W, m, P, S⟩) {lam : K}
    (hl0 : 0 ≤ lam) (hl1 : lam ≤ 1) (hl5 : 1 < 5 * (1 - lam) ^ P.Ncross) :
    ∃ lo hi, ∀ (g : Rng K σ) n S' s s' ls, timesteps g (List.replicate n P) S s = .ok (S', ls, s') →
      (∀ l ∈ ls, MovesShare lam P.diffMult l.routed.qs around) → ∀ c, lo ≤ S'.eta c ∧ S'.eta c ≤ hi := by
  refine ⟨min 0 I.HSL
      - max (deepest I) (scourDepth (mostDischarge P) (slowestErosion P) ((1 - lam) ^ P.Ncross)),
    max 0 I.HSL + reach P, fun g n S' s s' ls ht hst c => ⟨?_, ?_⟩⟩
  · have := C110_always hO hI hlen hom0 hom1 hG.alpha hG.sinks h hl0 hl1 hl5 ht hst c
    rw [hsub, hslr] at this
    simpa using this
  · have := (C103_created hO hI hG h ht (fun l hl c => (hst l hl c).trans hl1) c).1
    rw [hslr] at this
    simpa using this

end

/-! ## Non-trivial cases -/

lemma exLength : IsLength exOracle.nrm where
  nonneg := fun x y => by simp only [exOracle]; positivity
  scale := fun a x y ha => by
    simp only [exOracle]
    rw [abs_mul, abs_mul, abs_of_nonneg ha]
    ring
  triangle := fun x y x' y' => by
    simp only [exOracle]
    linarith [abs_add_le x x', abs_add_le y y']

/-- The length of vectors of real numbers is one. -/
theorem C110_length : IsLength fun x y : ℝ => Real.sqrt (x ^ 2 + y ^ 2) where
  nonneg := fun _ _ => Real.sqrt_nonneg _
  scale := fun a x y ha => by
    have : (a * x) ^ 2 + (a * y) ^ 2 = a ^ 2 * (x ^ 2 + y ^ 2) := by ring
    rw [this, Real.sqrt_mul (sq_nonneg a), Real.sqrt_sq ha]
  triangle := fun x y x' y' => by
    have e1 := Real.sq_sqrt (show 0 ≤ x ^ 2 + y ^ 2 by positivity)
    have e2 := Real.sq_sqrt (show 0 ≤ x' ^ 2 + y' ^ 2 by positivity)
    have n1 := Real.sqrt_nonneg (x ^ 2 + y ^ 2)
    have n2 := Real.sqrt_nonneg (x' ^ 2 + y' ^ 2)
    have hc : x * x' + y * y' ≤ Real.sqrt (x ^ 2 + y ^ 2) * Real.sqrt (x' ^ 2 + y' ^ 2) := by
      rw [← Real.sqrt_mul (by positivity)]
      refine Real.le_sqrt_of_sq_le ?_
      nlinarith [sq_nonneg (x * y' - y * x')]
    refine Real.sqrt_le_iff.2 ⟨by positivity, ?_⟩
    nlinarith

/-- The default configuration without diffusion: runs of any length happen, and the bed is never deeper than
24 m if no cell carries more than 20 m²/s, which is four times the discharge of the inlet. -/
theorem C110_example {g : Rng ℚ σ} (hg : PositiveDraws g) :
    ∃ (L W m : ℕ) (_ : NeZero L) (_ : NeZero W) (P : Params L W m ℚ) (S : State L W ℚ),
      create exOracle { exInput with alpha := 0 } = .ok ⟨L, W, m, P, S⟩ ∧
      ∀ (n : ℕ) (s : σ), ∃ S' ls s', timesteps g (List.replicate n P) S s = .ok (S', ls, s') ∧
        NotBelow (-26786) S' ∧ ((∀ l ∈ ls, ∀ c, l.watered.qw c ≤ 20) → NotBelow (-24) S') := by
  have hI : Runnable { exInput with alpha := 0 } := by
    have h := exRunnable
    have hA : Accepted { exInput with alpha := 0 } := (C50_validate _).1 (by decide +kernel)
    have hF : Flowing { exInput with alpha := 0 } := by
      have h := exRunnable.flowing
      cases h
      constructor <;> assumption
    cases h
    constructor <;> assumption
  obtain ⟨L, W, m, iL, iW, P, S, hc, -, hrun⟩ := C74_run exOracleOk hI hg
  refine ⟨L, W, m, iL, iW, P, S, hc, fun n s => ?_⟩
  obtain ⟨S', ls, s', h, -⟩ := hrun n s
  refine ⟨S', ls, s', h, ?_⟩
  have hfix : P.diffMult = 0 ∧ mostDischarge P = 22500 + 1 / 160 ∧ slowestErosion P = 21 / 20 := by
    obtain ⟨-, D, hB, -, e⟩ := create_ok hc
    cases e
    have b := bc_ok hB
    refine ⟨?_, ?_, ?_⟩
    · simp only [initialParams]
      rw [b.ediff]
      norm_num
    · unfold mostDischarge
      simp only [initialParams]
      have e3 : D.N0 = 5 := by rw [b.eN0]; decide +kernel
      have e4 : D.QpWater = 5 / 8 := by
        rw [b.eQp, b.eQw0, e3]
        norm_num [exInput]
      have e5 : D.qw0 = 5 := by rw [b.eqw0]; norm_num [exInput]
      have e6 : D.stepmax = 600 := by rw [b.estepNone rfl]; decide +kernel
      have e7 : (Int.toNat 600 : ℕ) = 600 ∧ (Int.toNat 2000 : ℕ) = 2000 := ⟨rfl, rfl⟩
      rw [e4, e5, e6]
      simp only [exInput]
      rw [e7.1, e7.2]
      norm_num
    · simp only [slowestErosion, initialParams]
      norm_num [exInput]
  have key := fun (Q : ℚ) (hQ : ∀ l ∈ ls, ∀ c, l.watered.qw c ≤ Q) =>
    C110_created exOracleOk hI exLength (by norm_num [exInput]) (by norm_num [exInput]) (le_refl _)
      (by norm_num [exInput]) hc (lam := 0) (le_refl _) zero_le_one (by rw [sub_zero, one_pow]; norm_num) h hQ
      (fun l _ c => by rw [hfix.1, zero_mul])
  have key' := C110_always exOracleOk hI exLength (by norm_num [exInput]) (by norm_num [exInput]) (le_refl _)
      (by norm_num [exInput]) hc (lam := 0) (le_refl _) zero_le_one (by rw [sub_zero, one_pow]; norm_num) h
      (fun l _ c => by rw [hfix.1, zero_mul])
  rw [hfix.2.1, hfix.2.2] at key'
  refine ⟨fun c => le_trans ?_ (key' c), fun hQ c => ?_⟩
  · norm_num [exInput, deepest, scourDepth]
  · have := key 20 hQ
    rw [hfix.2.2] at this
    refine le_trans ?_ (this c)
    norm_num [exInput, deepest, scourDepth]

/-- The condition of C110 on the flux of sand holds for a literal flux and coefficient, with a share of a
tenth; a bed keeps enough of its height in the two passes of the default configuration if the share is a
half. -/
example : MovesShare (1 / 10 : ℚ) (1 / 200) exFlux around ∧ 1 < 5 * (1 - 1 / 2 : ℚ) ^ 2 := by
  constructor
  · unfold MovesShare
    decide +kernel
  · norm_num

/-- C110 fails without that condition: diffusion makes a hole of 7 m from a bump in a bed that is nowhere
below elevation zero. -/
theorem C110_unstable_witness : (∀ c, 0 ≤ exBump c) ∧
    topoDiffusion (fun _ => 0) 1 exFlux 1 exBump (2, 2) = -7 := by
  constructor
  · intro c; unfold exBump; split_ifs <;> norm_num
  · decide +kernel

end Verif.Props
