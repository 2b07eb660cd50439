import Verif.Props.FloatFlow
import Verif.Model.FloatTimestep

/-!
# C100: depth, surface, discharge and speed after a water routing in rounded arithmetic
-/

set_option linter.unusedSectionVars false

namespace Verif.Props

open Verif.Model Verif.Lemmas Verif.Spec

variable {K : Type*} [Field K] [LinearOrder K] [IsStrictOrderedRing K] [FloorRing K] {σ : Type*}
  {L W m : ℕ} [NeZero L] [NeZero W] {F D : Rounding K}

lemma waterIterationR_ok {g : Rng K σ} {P : Params L W m K} {it : ℕ} {S S' : State L W K} {s s' : σ}
    (h : waterIterationR F D g P it S s = .ok (S', s')) :
    ∃ w wst log n stage, waterWeightArrayR F D P S = .ok w ∧
      runWaterIterationR F D g (waterEnvR F P S w) (fun k => ((P.inlet k).val : ℤ)) P.NpWater S.ncols s =
        .ok (wst, log, n, s') ∧ computeFreeSurfaceR F D P S wst.parcels = .ok stage ∧
      S' = { finalizeWaterIterationR F D P S it stage wst.flux with ncols := wst.ncols } := by
  unfold waterIterationR at h
  split at h
  · cases h
  · rename_i w hw
    split at h
    · cases h
    · rename_i wst log n s1 hr
      split at h
      · cases h
      · rename_i stage hs
        simp only [Except.ok.injEq, Prod.mk.injEq] at h
        obtain ⟨rfl, rfl⟩ := h
        exact ⟨w, wst, log, n, stage, hw, hr, hs, rfl⟩

lemma routeWaterFromR_post {g : Rng K σ} {P : Params L W m K} (I : State L W K → Prop)
    (hI : ∀ it S s S' s', waterIterationR F D g P it S s = .ok (S', s') → I S') :
    ∀ (n it : ℕ) (S S' : State L W K) (s s' : σ), 0 < n →
      routeWaterFromR F D g P it n S s = .ok (S', s') → I S' := by
  intro n
  induction n with
  | zero => intro it S S' s s' h; omega
  | succ n ih =>
    intro it S S' s s' _ h
    unfold routeWaterFromR at h
    split at h
    · cases h
    · rename_i S1 s1 h1
      rcases Nat.eq_zero_or_pos n with h0 | h0
      · subst h0
        unfold routeWaterFromR at h
        simp only [Except.ok.injEq, Prod.mk.injEq] at h
        obtain ⟨rfl, rfl⟩ := h
        exact hI _ _ _ _ _ h1
      · exact ih (it + 1) S1 S' s1 s' h0 h

lemma routeWaterFromR_invariant {g : Rng K σ} {P : Params L W m K} (I : State L W K → Prop)
    (hI : ∀ it S s S' s', I S → waterIterationR F D g P it S s = .ok (S', s') → I S') :
    ∀ (n it : ℕ) (S S' : State L W K) (s s' : σ), I S →
      routeWaterFromR F D g P it n S s = .ok (S', s') → I S' := by
  intro n
  induction n with
  | zero =>
    intro it S S' s s' h0 h
    unfold routeWaterFromR at h
    simp only [Except.ok.injEq, Prod.mk.injEq] at h
    obtain ⟨rfl, rfl⟩ := h
    exact h0
  | succ n ih =>
    intro it S S' s s' h0 h
    unfold routeWaterFromR at h
    split at h
    · cases h
    · rename_i S1 s1 h1
      exact ih (it + 1) S1 S' s1 s' (hI _ _ _ _ _ h0 h1) h

/-- What the water routing leaves alone. -/
def SameGround (S S' : State L W K) : Prop :=
  S'.eta = S.eta ∧ S'.HSL = S.HSL ∧ S'.time = S.time ∧ S'.timeIter = S.timeIter ∧ S'.qs = S.qs ∧
    S'.depSand = S.depSand ∧ S'.depMud = S.depMud ∧ S'.sandFrac = S.sandFrac ∧
    S'.activeLayer = S.activeLayer

/-- C100: the water routing changes neither bed nor sea level nor clock nor anything of the sediment. -/
theorem C100_ground {g : Rng K σ} {P : Params L W m K} {S S' : State L W K} {s s' : σ}
    (h : routeWaterR F D g P S s = .ok (S', s')) : SameGround S S' := by
  refine routeWaterFromR_invariant (SameGround S) (fun it S1 s S2 s' h0 h => ?_) _ _ _ _ _ _
    ⟨rfl, rfl, rfl, rfl, rfl, rfl, rfl, rfl, rfl⟩ h
  obtain ⟨w, wst, log, n, stage, -, -, -, rfl⟩ := waterIterationR_ok h
  exact h0

/-- The fields as they are after a water iteration in rounded arithmetic. -/
structure WaterFloat (F : Rounding K) (P : Params L W m K) (S : State L W K) : Prop where
  /-- the surface is not below the sea -/
  sea : ∀ c, F.fl S.HSL ≤ S.stage c
  /-- no depth is negative; water stands where the surface is above the bed -/
  depth : ∀ c, 0 ≤ S.depth c ∧ (0 < S.depth c ↔ S.eta c < S.stage c)
  /-- depth is the difference of surface and bed, rounded once -/
  column : ∀ c, S.eta c ≤ S.stage c →
    |S.eta c + S.depth c - S.stage c| ≤ F.u * (S.stage c - S.eta c)
  /-- discharge is the length of its vector, rounded once -/
  magnitude : ∀ c, ¬ InletCell P c →
    |S.qw c - P.nrm (S.qx c) (S.qy c)| ≤ F.u * |P.nrm (S.qx c) (S.qy c)|
  inlet : ∀ c, InletCell P c → S.qx c = F.fl P.qw0 ∧ S.qy c = 0 ∧ S.qw c = F.fl P.qw0
  bounds : ∀ c, 0 ≤ S.uw c ∧ S.uw c ≤ F.fl P.uMax
  dry : ∀ c, S.depth c ≤ F.fl P.dryDepth → S.uw c = 0 ∧ S.ux c = 0 ∧ S.uy c = 0
  still : ∀ c, S.qw c ≤ 0 → S.uw c = 0 ∧ S.ux c = 0 ∧ S.uy c = 0
  /-- speed times depth is discharge up to one rounding, below the limit -/
  wet : ∀ c, F.fl P.dryDepth < S.depth c → 0 < S.qw c →
    S.uw c * S.depth c ≤ S.qw c * (1 + F.u) ∧
    (S.uw c < F.fl P.uMax → |S.uw c * S.depth c - S.qw c| ≤ F.u * S.qw c)
  /-- the velocity is parallel to the discharge up to two roundings -/
  aligned : ∀ c, |S.ux c * S.qw c - S.uw c * S.qx c| ≤ ((1 + F.u) ^ 2 - 1) * |S.uw c * S.qx c| ∧
    |S.uy c * S.qw c - S.uw c * S.qy c| ≤ ((1 + F.u) ^ 2 - 1) * |S.uw c * S.qy c|

lemma aligned_err (R : Rounding K) {a q : K} (hq : 0 < q) :
    |R.fl (R.fl a / q) * q - a| ≤ ((1 + R.u) ^ 2 - 1) * |a| := by
  have h1 := R.err a
  have h2 := R.err (R.fl a / q)
  have hu := R.u_nonneg
  have h3 : |R.fl (R.fl a / q) * q - R.fl a| ≤ R.u * |R.fl a| := by
    have e : R.fl (R.fl a / q) * q - R.fl a = (R.fl (R.fl a / q) - R.fl a / q) * q := by
      rw [sub_mul, div_mul_cancel₀ _ hq.ne']
    rw [e, abs_mul, abs_of_pos hq]
    calc |R.fl (R.fl a / q) - R.fl a / q| * q ≤ R.u * |R.fl a / q| * q :=
          mul_le_mul_of_nonneg_right h2 hq.le
      _ = R.u * |R.fl a| := by rw [abs_div, abs_of_pos hq, mul_assoc, div_mul_cancel₀ _ hq.ne']
  have h4 : |R.fl a| ≤ (1 + R.u) * |a| := by
    have : |R.fl a| ≤ |R.fl a - a| + |a| := by
      have := abs_add_le (R.fl a - a) a
      rwa [sub_add_cancel] at this
    nlinarith
  have h5 : |R.fl (R.fl a / q) * q - a| ≤ |R.fl (R.fl a / q) * q - R.fl a| + |R.fl a - a| := by
    have := abs_add_le (R.fl (R.fl a / q) * q - R.fl a) (R.fl a - a)
    rwa [sub_add_sub_cancel] at this
  have h6 := mul_le_mul_of_nonneg_left h4 hu
  nlinarith

/-- C100: after a water iteration in rounded arithmetic depth, surface, discharge and speed are consistent
up to rounding. -/
theorem C100_iteration_fields {g : Rng K σ} {P : Params L W m K} {it : ℕ} {S S' : State L W K} {s s' : σ}
    (hu : 0 ≤ P.uMax) (hd : 0 ≤ P.dryDepth) (h : waterIterationR F D g P it S s = .ok (S', s')) :
    WaterFloat F P S' := by
  obtain ⟨w, wst, log, n, stage, -, -, -, rfl⟩ := waterIterationR_ok h
  have hdf : 0 ≤ F.fl P.dryDepth := fl_nonneg F hd
  have huf : 0 ≤ F.fl P.uMax := fl_nonneg F hu
  have hqin : ∀ c, InletCell P c → isInlet P.inlet c = true := fun c => (isInlet_iff P c).mpr
  have hqnot : ∀ c, ¬ InletCell P c → ¬ isInlet P.inlet c = true := fun c h hc => h ((isInlet_iff P c).mp hc)
  have hmag : ∀ c, ¬ InletCell P c →
      (updateFlowR F D P.nrm P.omegaFlow P.omegaFlowIter P.qw0 P.inlet S.timeIter it S.qx S.qy wst.flux).qw c =
        F.fl (P.nrm
          ((updateFlowR F D P.nrm P.omegaFlow P.omegaFlowIter P.qw0 P.inlet S.timeIter it S.qx S.qy
            wst.flux).qx c)
          ((updateFlowR F D P.nrm P.omegaFlow P.omegaFlowIter P.qw0 P.inlet S.timeIter it S.qx S.qy
            wst.flux).qy c)) := by
    intro c hc
    simp only [updateFlowR, assign, if_neg (hqnot c hc)]
  have hinl : ∀ c, InletCell P c →
      (updateFlowR F D P.nrm P.omegaFlow P.omegaFlowIter P.qw0 P.inlet S.timeIter it S.qx S.qy
        wst.flux).qx c = F.fl P.qw0 ∧
      (updateFlowR F D P.nrm P.omegaFlow P.omegaFlowIter P.qw0 P.inlet S.timeIter it S.qx S.qy
        wst.flux).qy c = 0 ∧
      (updateFlowR F D P.nrm P.omegaFlow P.omegaFlowIter P.qw0 P.inlet S.timeIter it S.qx S.qy
        wst.flux).qw c = F.fl P.qw0 := by
    intro c hc
    simp only [updateFlowR, assign, if_pos (hqin c hc), and_self]
  simp only [finalizeWaterIterationR]
  generalize updateFlowR F D P.nrm P.omegaFlow P.omegaFlowIter P.qw0 P.inlet S.timeIter it S.qx S.qy
    wst.flux = q at hmag hinl
  have hcol : ∀ c, (0 < max (F.fl (stageAboveSea stage (F.fl S.HSL) c - S.eta c)) 0 ↔
      S.eta c < stageAboveSea stage (F.fl S.HSL) c) ∧
      (S.eta c ≤ stageAboveSea stage (F.fl S.HSL) c →
        |S.eta c + max (F.fl (stageAboveSea stage (F.fl S.HSL) c - S.eta c)) 0 -
          stageAboveSea stage (F.fl S.HSL) c| ≤ F.u * (stageAboveSea stage (F.fl S.HSL) c - S.eta c)) := by
    intro c
    generalize stageAboveSea stage (F.fl S.HSL) c = st
    refine ⟨?_, fun hle => ?_⟩
    · rw [lt_max_iff, fl_pos_iff F]
      simp
    · have h0 : 0 ≤ st - S.eta c := by linarith
      rw [max_eq_left (fl_nonneg F h0)]
      have := F.err (st - S.eta c)
      rw [abs_of_nonneg h0] at this
      rwa [show S.eta c + F.fl (st - S.eta c) - st = F.fl (st - S.eta c) - (st - S.eta c) by ring]
  generalize hdep : (fun c => max (F.fl (stageAboveSea stage (F.fl S.HSL) c - S.eta c)) 0) = dep
  have hdc : ∀ c, max (F.fl (stageAboveSea stage (F.fl S.HSL) c - S.eta c)) 0 = dep c := congrFun hdep
  have hdep0 : ∀ c, 0 ≤ dep c := fun c => by rw [← hdc]; exact le_max_right _ _
  simp only [hdc] at hcol
  constructor
  · exact fun c => le_max_right _ _
  · exact fun c => ⟨hdep0 c, (hcol c).1⟩
  · exact fun c => (hcol c).2
  · intro c hc
    have := F.err (P.nrm (q.qx c) (q.qy c))
    rw [← hmag c hc] at this
    exact this
  · exact hinl
  · intro c
    simp only [updateVelocityR]
    split_ifs with hm
    · simp only [Bool.and_eq_true, decide_eq_true_eq] at hm
      exact ⟨le_min huf (fl_nonneg F (div_nonneg hm.2.le (hdep0 c))), min_le_left _ _⟩
    · exact ⟨le_refl _, huf⟩
  · intro c hc
    have : ¬ dep c > F.fl P.dryDepth := not_lt.mpr hc
    simp [updateVelocityR, this]
  · intro c hc
    have : ¬ q.qw c > 0 := not_lt.mpr hc
    simp [updateVelocityR, this]
  · intro c h1 h2
    have hp : (0 : K) < dep c := lt_of_le_of_lt hdf h1
    have hm : (decide (dep c > F.fl P.dryDepth) && decide (q.qw c > 0)) = true := by
      simp only [Bool.and_eq_true, decide_eq_true_eq]; exact ⟨h1, h2⟩
    simp only [updateVelocityR, hm, if_true]
    have hq : 0 ≤ q.qw c / dep c := div_nonneg h2.le hp.le
    constructor
    · calc min (F.fl P.uMax) (F.fl (q.qw c / dep c)) * dep c ≤ q.qw c / dep c * (1 + F.u) * dep c :=
            mul_le_mul_of_nonneg_right (le_trans (min_le_right _ _) (fl_le F hq)) hp.le
        _ = q.qw c * (1 + F.u) := by rw [mul_right_comm, div_mul_cancel₀ _ hp.ne']
    · intro hlt
      rw [min_eq_right (by
        by_contra hcon
        push Not at hcon
        rw [min_eq_left hcon.le] at hlt
        exact lt_irrefl _ hlt)]
      have := F.err (q.qw c / dep c)
      rw [abs_of_nonneg hq] at this
      have e : F.fl (q.qw c / dep c) * dep c - q.qw c = (F.fl (q.qw c / dep c) - q.qw c / dep c) * dep c := by
        rw [sub_mul, div_mul_cancel₀ _ hp.ne']
      rw [e, abs_mul, abs_of_pos hp]
      calc _ ≤ F.u * (q.qw c / dep c) * dep c := mul_le_mul_of_nonneg_right this hp.le
        _ = F.u * q.qw c := by rw [mul_assoc, div_mul_cancel₀ _ hp.ne']
  · intro c
    simp only [updateVelocityR]
    split_ifs with hm
    · simp only [Bool.and_eq_true, decide_eq_true_eq] at hm
      exact ⟨aligned_err F hm.2, aligned_err F hm.2⟩
    · simp

/-- C100: the same at the end of the water routing of a timestep. -/
theorem C100_fields {g : Rng K σ} {P : Params L W m K} {S S' : State L W K} {s s' : σ}
    (hu : 0 ≤ P.uMax) (hd : 0 ≤ P.dryDepth) (hit : 0 < P.itermax)
    (h : routeWaterR F D g P S s = .ok (S', s')) : WaterFloat F P S' :=
  routeWaterFromR_post _ (fun _ _ _ _ _ h => C100_iteration_fields hu hd h) _ _ _ _ _ _ hit h

/-! ## Stored numbers -/

/-- All flow fields hold numbers of their type. -/
structure Stored (F : Rounding K) (S : State L W K) : Prop where
  bed : ∀ c, F.fl (S.eta c) = S.eta c
  stage : ∀ c, F.fl (S.stage c) = S.stage c
  depth : ∀ c, F.fl (S.depth c) = S.depth c
  qx : ∀ c, F.fl (S.qx c) = S.qx c
  qy : ∀ c, F.fl (S.qy c) = S.qy c
  qw : ∀ c, F.fl (S.qw c) = S.qw c
  ux : ∀ c, F.fl (S.ux c) = S.ux c
  uy : ∀ c, F.fl (S.uy c) = S.uy c
  uw : ∀ c, F.fl (S.uw c) = S.uw c

lemma fl_max {a b : K} (ha : F.fl a = a) (hb : F.fl b = b) : F.fl (max a b) = max a b := by
  rcases max_choice a b with h | h <;> rw [h] <;> assumption

lemma fl_min {a b : K} (ha : F.fl a = a) (hb : F.fl b = b) : F.fl (min a b) = min a b := by
  rcases min_choice a b with h | h <;> rw [h] <;> assumption

/-- Flooding copies numbers: each new surface is an old one, or zero. -/
lemma flooding_stored (hL : 2 ≤ L) (hW : 2 ≤ W) {eta depth stage : Grid L W K} {dry : K}
    (hs : ∀ c, F.fl (stage c) = stage c) (c : Cell L W) :
    F.fl (floodingCorrection eta depth stage dry c) = floodingCorrection eta depth stage dry c := by
  have key : ∀ k, F.fl (wetMaskNh depth dry k c * buildWeightArray stage false k c) =
      wetMaskNh depth dry k c * buildWeightArray stage false k c := by
    intro k
    rcases flood_term hL hW depth stage dry k c with ⟨n, -, -, -, h⟩ | ⟨-, h⟩
    · rw [h, hs]
    · rw [h, fl_zero]
  obtain ⟨k, -, hk⟩ := Finset.exists_mem_eq_sup' (Finset.univ_nonempty (α := Fin 8))
      (fun k => wetMaskNh depth dry k c * buildWeightArray stage false k c)
  simp only [floodingCorrection]
  split_ifs <;> first
    | exact hs c
    | (rw [hk]; exact key k)

/-- C100: the fields hold numbers of their type after an iteration if they did before. -/
theorem C100_iteration_stored {g : Rng K σ} {P : Params L W m K} {it : ℕ} {S S' : State L W K} {s s' : σ}
    (hL : 2 ≤ L) (hW : 2 ≤ W) (hS : Stored F S) (h : waterIterationR F D g P it S s = .ok (S', s')) :
    Stored F S' := by
  obtain ⟨w, wst, log, n, stage, -, -, hst, rfl⟩ := waterIterationR_ok h
  have hstage : ∀ c, F.fl (stage c) = stage c := by
    unfold computeFreeSurfaceR at hst
    split at hst
    · cases hst
    · simp only [Except.ok.injEq] at hst
      subst hst
      unfold finalizeFreeSurfaceR
      apply flooding_stored hL hW
      intro c
      split_ifs
      · exact F.idem _
      · exact hS.stage c
  have hz : F.fl 0 = 0 := fl_zero F
  simp only [finalizeWaterIterationR]
  constructor
  · exact hS.bed
  · exact fun c => fl_max (hstage c) (F.idem _)
  · exact fun c => fl_max (F.idem _) hz
  · intro c
    simp only [updateFlowR, assign]
    split_ifs <;> exact F.idem _
  · intro c
    simp only [updateFlowR, assign]
    split_ifs <;> first | exact F.idem _ | exact hz
  · intro c
    simp only [updateFlowR, assign]
    split_ifs <;> exact F.idem _
  · intro c
    simp only [updateVelocityR]
    split_ifs <;> first | exact F.idem _ | exact hz
  · intro c
    simp only [updateVelocityR]
    split_ifs <;> first | exact F.idem _ | exact hz
  · intro c
    simp only [updateVelocityR]
    split_ifs
    · exact fl_min (F.idem _) (F.idem _)
    · exact hz

/-- C100: the same for the water routing of a timestep. -/
theorem C100_stored {g : Rng K σ} {P : Params L W m K} {S S' : State L W K} {s s' : σ}
    (hL : 2 ≤ L) (hW : 2 ≤ W) (hS : Stored F S) (h : routeWaterR F D g P S s = .ok (S', s')) :
    Stored F S' :=
  routeWaterFromR_invariant (Stored F) (fun _ _ _ _ _ h0 h => C100_iteration_stored hL hW h0 h)
    _ _ _ _ _ _ hS h

/-- C100: the water routing leaves the fields as the sediment routing of C98 needs them. -/
theorem C100_ready {g : Rng K σ} {P : Params L W m K} {S S' : State L W K} {s s' : σ}
    (hL : 2 ≤ L) (hW : 2 ≤ W) (hu : 0 ≤ P.uMax) (hd : 0 ≤ P.dryDepth) (hq : 0 ≤ P.qw0)
    (hn : ∀ x y, 0 ≤ P.nrm x y) (hit : 0 < P.itermax) (hS : Stored F S)
    (h : routeWaterR F D g P S s = .ok (S', s')) :
    FloatFields F (routerParams F P) (initSediment S') ∧
      F.fl (routerParams F P).uMax = (routerParams F P).uMax := by
  have h1 := C100_fields hu hd hit h
  have h2 := C100_stored hL hW hS h
  refine ⟨⟨fun c => ⟨(h1.bounds c).1, (h1.bounds c).2, ?_⟩, h2.bed, h2.stage⟩, F.idem _⟩
  by_cases hc : InletCell P c
  · exact (h1.inlet c hc).2.2.symm ▸ fl_nonneg F hq
  · change 0 ≤ S'.qw c
    by_contra hneg
    push Not at hneg
    have := h1.magnitude c hc
    have h0 := hn (S'.qx c) (S'.qy c)
    rw [abs_of_nonneg h0, abs_le] at this
    have hu2 := F.u_half
    nlinarith

/-! ## Examples -/

/-- A first timestep with water 4.1 deep; all numbers have 32 bits. -/
def exDeep : State 4 3 ℚ := { exState with
  eta := fun _ => -4, stage := fun _ => single.fl (1 / 10), depth := fun _ => single.fl (41 / 10)
  qx := fun _ => 0, qy := fun _ => 0, qw := fun _ => 0, ux := fun _ => 0, uy := fun _ => 0, uw := fun _ => 0
  timeIter := 0 }

lemma exDeep_stored : Stored single exDeep :=
  ⟨fun _ => by change single.fl (-4) = -4; decide +kernel, fun _ => single.idem _, fun _ => single.idem _,
    fun _ => fl_zero single, fun _ => fl_zero single, fun _ => fl_zero single,
    fun _ => fl_zero single, fun _ => fl_zero single, fun _ => fl_zero single⟩

lemma exDeep_level {g : Rng ℚ σ} {s s' : σ} {S' : State 4 3 ℚ}
    (h : routeWaterR single double g exParams exDeep s = .ok (S', s')) (c : Cell 4 3) :
    S'.stage c = single.fl (1 / 10) ∧ S'.eta c = -4 ∧
      (S'.depth c = single.fl (41 / 10) ∨ S'.depth c = single.fl (single.fl (1 / 10) - (-4))) := by
  have n1 : single.fl (1 / 10 : ℚ) = 13421773 / 134217728 := by decide +kernel
  have n2 : single.fl (exParams.dryDepth) < single.fl (single.fl (1 / 10) - (-4)) := by decide +kernel
  have hinv := routeWaterFromR_invariant (F := single) (D := double) (g := g) (P := exParams)
    (fun S => S.timeIter = 0 ∧ S.HSL = 0 ∧ ∀ c, S.eta c = -4 ∧ S.stage c = single.fl (1 / 10) ∧
      single.fl exParams.dryDepth < S.depth c ∧
      (S.depth c = single.fl (41 / 10) ∨ S.depth c = single.fl (single.fl (1 / 10) - (-4))))
    (fun it S s S' s' h0 h => by
      obtain ⟨w, wst, log, n, stage, -, -, hst, rfl⟩ := waterIterationR_ok h
      obtain ⟨ht, hH, h0⟩ := h0
      have hstage : ∀ c, stage c = single.fl (1 / 10) := by
        intro c
        unfold computeFreeSurfaceR at hst
        split at hst
        · cases hst
        · simp only [Except.ok.injEq] at hst
          subst hst
          simp only [finalizeFreeSurfaceR, ht, floodingCorrection, if_pos (h0 c).2.2.1, lt_irrefl, gt_iff_lt,
            if_false, (h0 c).2.1]
      have hst1 : ∀ c, stageAboveSea stage (single.fl S.HSL) c = single.fl (1 / 10) := by
        intro c
        unfold stageAboveSea
        rw [hstage, hH, fl_zero, max_eq_left]
        exact fl_nonneg single (by norm_num)
      refine ⟨ht, hH, fun c => ⟨(h0 c).1, hst1 c, ?_⟩⟩
      have hdep : max (single.fl (stageAboveSea stage (single.fl S.HSL) c - S.eta c)) 0 =
          single.fl (single.fl (1 / 10) - (-4)) := by
        rw [hst1, (h0 c).1, max_eq_left]
        exact fl_nonneg single (by rw [n1]; norm_num)
      simp only [finalizeWaterIterationR, hdep]
      exact ⟨n2, .inr trivial⟩)
    _ _ _ _ _ _ ⟨rfl, rfl, fun c => ⟨rfl, rfl, by
      change single.fl (1 / 10) < single.fl (41 / 10); decide +kernel, .inl rfl⟩⟩ h
  obtain ⟨-, -, h0⟩ := hinv
  exact ⟨(h0 c).2.1, (h0 c).1, (h0 c).2.2.2⟩

/-- C100: in the arithmetic of the program bed plus depth is not the surface: for all draws, in every cell
of this domain it is not, after the water routing. So `column` of `WaterFloat` cannot be an equation. -/
theorem C100_column_inexact {g : Rng ℚ σ} (hg : PositiveDraws g) (s : σ) :
    ∃ S' s', routeWaterR single double g exParams exDeep s = .ok (S', s') ∧ WaterFloat single exParams S' ∧
      Stored single S' ∧ ∀ c, S'.eta c < S'.stage c ∧ S'.eta c + S'.depth c ≠ S'.stage c := by
  have hd : ∀ c, 0 ≤ exDeep.depth c := fun c => fl_nonneg single (by norm_num)
  obtain ⟨S', s', h, -, -⟩ := C100_water_routing (F := single) (D := double) hg exSetup (S := exDeep) hd
    (by decide) s
  refine ⟨S', s', h, C100_fields (by norm_num [exParams]) (by norm_num [exParams]) (by decide) h,
    C100_stored (by norm_num) (by norm_num) exDeep_stored h, fun c => ?_⟩
  have n1 : single.fl (1 / 10 : ℚ) = 13421773 / 134217728 := by decide +kernel
  have n3 : -4 + single.fl (single.fl (1 / 10) - (-4)) ≠ single.fl (1 / 10) := by decide +kernel
  obtain ⟨b, a, e⟩ := exDeep_level h c
  refine ⟨by rw [a, b, n1]; norm_num, ?_⟩
  rw [a, b]
  rcases e with e | e <;> rw [e]
  · decide +kernel
  · exact n3

-- C100: the hypotheses of `C100_ready` hold there
example {g : Rng ℚ σ} (hg : PositiveDraws g) (s : σ) :
    ∃ S' s', routeWaterR single double g exParams exDeep s = .ok (S', s') ∧
      FloatFields single (routerParams single exParams) (initSediment S') := by
  obtain ⟨S', s', h, -⟩ := C100_column_inexact hg s
  exact ⟨S', s', h, (C100_ready (by norm_num) (by norm_num) (by norm_num [exParams])
    (by norm_num [exParams]) (by norm_num [exParams])
    (fun x y => add_nonneg (abs_nonneg x) (abs_nonneg y)) (by decide) exDeep_stored h).1⟩

end Verif.Props
