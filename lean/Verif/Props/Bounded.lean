import Verif.Props.Run
import Verif.Props.Created
import Verif.Spec.Bounded

/-!
# C103: elevations stay bounded
-/

set_option linter.unusedSectionVars false
set_option linter.unusedSimpArgs false

namespace Verif.Props

open Verif.Model Verif.Lemmas Verif.Spec

variable {K : Type*} [Field K] [LinearOrder K] [IsStrictOrderedRing K] {σ : Type*}
  {L W m : ℕ}

/-! ## The surface suggested by parcels -/

lemma coord_diff {n : ℕ} (a b : Fin n) : |(a.val : K) - b.val| ≤ n := by
  have ha : (a.val : K) ≤ n := by exact_mod_cast a.isLt.le
  have hb : (b.val : K) ≤ n := by exact_mod_cast b.isLt.le
  have ha0 : (0 : K) ≤ a.val := Nat.cast_nonneg _
  have hb0 : (0 : K) ≤ b.val := Nat.cast_nonneg _
  rw [abs_le]
  constructor <;> linarith

/-- The rise between two records. -/
lemma rise_bound (E : SfcEnv L W K) (hS : 0 ≤ E.S0) (hdx : 0 ≤ E.dx)
    (hu : ∀ c, |E.ux c| ≤ E.uw c ∧ |E.uy c| ≤ E.uw c) (c n : Cell L W) (h0 : E.uw c ≠ 0) :
    E.S0 * (E.ux c * ((n.1.val : K) - (c.1.val : K)) * E.dx
      + E.uy c * ((n.2.val : K) - (c.2.val : K)) * E.dx) / E.uw c ≤ E.S0 * E.dx * ((L : K) + W) := by
  have hp : 0 < E.uw c := lt_of_le_of_ne ((abs_nonneg _).trans (hu c).1) (Ne.symm h0)
  rw [div_le_iff₀ hp]
  have h1 : E.ux c * ((n.1.val : K) - (c.1.val : K)) ≤ E.uw c * L :=
    (le_abs_self _).trans (by
      rw [abs_mul]
      exact mul_le_mul (hu c).1 (coord_diff _ _) (abs_nonneg _) hp.le)
  have h2 : E.uy c * ((n.2.val : K) - (c.2.val : K)) ≤ E.uw c * W :=
    (le_abs_self _).trans (by
      rw [abs_mul]
      exact mul_le_mul (hu c).2 (coord_diff _ _) (abs_nonneg _) hp.le)
  have h3 := mul_le_mul_of_nonneg_left (add_le_add h1 h2) (mul_nonneg hS hdx)
  calc _ = E.S0 * E.dx * (E.ux c * ((n.1.val : K) - (c.1.val : K)) +
        E.uy c * ((n.2.val : K) - (c.2.val : K))) := by ring
    _ ≤ _ := h3
    _ = _ := by ring

lemma backWalk_upper (E : SfcEnv L W K) {ρ : K} (hρ : 0 ≤ ρ) (hr : ∀ c n : Cell L W, E.uw c ≠ 0 →
      E.S0 * (E.ux c * ((n.1.val : K) - (c.1.val : K)) * E.dx
        + E.uy c * ((n.2.val : K) - (c.2.val : K)) * E.dx) / E.uw c ≤ ρ) :
    ∀ (rest : List (Cell L W)) (nx : Cell L W) (s : SfcState L W K) (z : K), s.hnew nx ≤ z → s.dH ≤ ρ →
      ∀ Z, z + rest.length * ρ ≤ Z → (∀ c, s.acc.sum c ≤ s.acc.visit c * Z) →
      ∀ c, (backWalk E nx rest s).acc.sum c ≤ (backWalk E nx rest s).acc.visit c * Z := by
  intro rest
  induction rest with
  | nil => intro nx s z _ _ Z _ h; exact h
  | cons d rest ih =>
    intro nx s z hz hd Z hZ h
    rw [backWalk]
    have key : (backStep E nx d s).dH ≤ ρ ∧ (backStep E nx d s).hnew d ≤ z + ρ ∧
        (backStep E nx d s).acc = { visit := Function.update s.acc.visit d (s.acc.visit d + 1)
                                    sum := Function.update s.acc.sum d
                                      (s.acc.sum d + (backStep E nx d s).hnew d) } := by
      unfold backStep
      simp only [Function.update_self]
      split_ifs with a1 a2 a3 a4
      · exact ⟨hd, by simp only; linarith, rfl⟩
      · exact ⟨hd, by linarith, rfl⟩
      · exact ⟨hρ, by simp only; linarith, rfl⟩
      · have := hr d nx a4
        exact ⟨this, by simp only; linarith, rfl⟩
      · exact ⟨hd, by linarith, rfl⟩
    obtain ⟨k1, k2, k3⟩ := key
    rw [List.length_cons, Nat.cast_add, Nat.cast_one] at hZ
    have hl : 0 ≤ (rest.length : K) * ρ := mul_nonneg (Nat.cast_nonneg _) hρ
    refine ih d _ (z + ρ) k2 k1 Z (by linarith) (fun c => ?_)
    rw [k3]
    simp only
    by_cases hc : c = d
    · subst hc
      rw [Function.update_self, Function.update_self, add_mul, one_mul]
      have := h c
      linarith
    · rw [Function.update_of_ne hc, Function.update_of_ne hc]
      exact h c

lemma walkCells_length : ∀ {walk : List ℤ} {cs : List (Cell L W)}, walkCells L W walk = .ok cs →
    cs.length = (walk.filter (fun i => decide (i > 0))).length := by
  intro walk
  induction walk with
  | nil =>
    intro cs h
    simp only [walkCells, Except.ok.injEq] at h
    subst h
    rfl
  | cons i is ih =>
    intro cs h
    rw [walkCells] at h
    by_cases hi : i > 0
    · rw [if_pos hi] at h
      generalize customUnravel i ((L : ℤ), (W : ℤ)) = u at h
      cases u with
      | error e => cases h
      | ok v =>
        obtain ⟨x, y⟩ := v
        simp only at h
        generalize pyCell L W x y = p at h
        generalize hw : walkCells L W is = w at h
        cases p with
        | none => cases w <;> cases h
        | some c =>
          cases w with
          | error e => cases h
          | ok ds =>
            simp only [Except.ok.injEq] at h
            subst h
            rw [List.filter_cons_of_pos (by simpa using hi), List.length_cons, List.length_cons, ih hw]
    · rw [if_neg hi] at h
      rw [List.filter_cons_of_neg (by simpa using hi)]
      exact ih h

lemma sfcParcels_upper (E : SfcEnv L W K) {ρ : K} (hρ : 0 ≤ ρ) (hr : ∀ c n : Cell L W, E.uw c ≠ 0 →
      E.S0 * (E.ux c * ((n.1.val : K) - (c.1.val : K)) * E.dx
        + E.uy c * ((n.2.val : K) - (c.2.val : K)) * E.dx) / E.uw c ≤ ρ) {N : ℕ} {Z : K}
    (hZ : E.HSL + N * ρ ≤ Z) : ∀ {ps : List (List ℤ × Bool)} {a a' : SfcAcc L W K},
    (∀ p ∈ ps, (p.1.filter (fun i => decide (i > 0))).length ≤ N + 1) → sfcParcels E ps a = .ok a' →
    (∀ c, a.sum c ≤ a.visit c * Z) → ∀ c, a'.sum c ≤ a'.visit c * Z := by
  intro ps
  induction ps with
  | nil =>
    intro a a' _ h ha
    simp only [sfcParcels, Except.ok.injEq] at h
    subst h
    exact ha
  | cons p ps ih =>
    intro a a' hl h ha
    obtain ⟨walk, flag⟩ := p
    rw [sfcParcels] at h
    generalize hp : sfcParcel E walk flag a = r at h
    cases r with
    | error e => cases h
    | ok a1 =>
      simp only at h
      refine ih (fun q hq => hl q (List.mem_cons_of_mem _ hq)) h ?_
      unfold sfcParcel at hp
      generalize hw : walkCells L W walk = u at hp
      cases u with
      | error e => cases hp
      | ok cs =>
        simp only at hp
        have hlen : cs.length ≤ N + 1 := by
          rw [walkCells_length hw]
          exact hl _ List.mem_cons_self
        generalize hrev : cs.reverse = rv at hp
        cases rv with
        | nil => cases hp
        | cons last rest =>
          simp only at hp
          have hrl : rest.length ≤ N := by
            have := congrArg List.length hrev
            simp only [List.length_reverse, List.length_cons] at this
            omega
          split_ifs at hp
          · simp only [Except.ok.injEq] at hp
            subst hp
            refine backWalk_upper E hρ hr rest last _ E.HSL ?_ hρ Z ?_ ha
            · simp
            · have : (rest.length : K) * ρ ≤ N * ρ :=
                mul_le_mul_of_nonneg_right (by exact_mod_cast hrl) hρ
              linarith
          · simp only [Except.ok.injEq] at hp
            subst hp
            exact ha

section
variable [FloorRing K]

/-- No parcel has more than `stepmax + 1` records. -/
lemma records_bound {g : Rng K σ} {E : WEnv L W K} {inlet : Fin m → ℤ} {np ncols : ℕ} {s : σ}
    {st : WState L W K} {log : List (List StepRec)} {n : ℕ} {s' : σ}
    (hr : runWaterIteration g E inlet np ncols s = .ok (st, log, n, s')) :
    ∀ p ∈ st.parcels, (p.walk.filter (fun i => decide (i > 0))).length ≤ E.stepmax + 1 := by
  obtain ⟨-, -, -, -, -, h0⟩ := C12_record hr
  have hn : n ≤ E.stepmax := by
    obtain ⟨starts, st0, -, -, hl⟩ := runWater_ok g E inlet np ncols s _ hr
    exact (waterLoop_induct g E (fun _ _ => True) (fun _ _ => True)
      (fun _ _ _ _ _ _ _ _ _ _ => ⟨trivial, trivial⟩) 0 _ _ _ _ _ _ trivial hl).2.2.1 (Nat.zero_le _)
  intro p hp
  obtain ⟨j, hj, rfl⟩ := List.mem_iff_getElem.1 hp
  have hz : ∀ i, n < i → ∀ v, (st.parcels[j]).walk[i]? = some v → v = 0 := by
    intro i hi v hv
    refine h0 j i v hi ?_
    unfold pathEntry
    rw [List.getElem?_eq_getElem hj]
    exact hv
  generalize (st.parcels[j]).walk = w at hz
  have : w.filter (fun i => decide (i > 0)) = (w.take (n + 1)).filter (fun i => decide (i > 0)) := by
    conv_lhs => rw [← List.take_append_drop (n + 1) w]
    rw [List.filter_append]
    have hd : (w.drop (n + 1)).filter (fun i => decide (i > 0)) = [] := by
      rw [List.filter_eq_nil_iff]
      intro v hv
      obtain ⟨i, hi, rfl⟩ := List.mem_iff_getElem.1 hv
      have := hz (n + 1 + i) (by omega) _ (by rw [← List.getElem?_drop, List.getElem?_eq_getElem hi])
      simp [this]
    rw [hd, List.append_nil]
  rw [this]
  refine (List.length_filter_le _ _).trans ?_
  rw [List.length_take]
  omega

variable [NeZero L] [NeZero W]

lemma flooding_upper (hL : 2 ≤ L) (hW : 2 ≤ W) {eta depth stage : Grid L W K} {dry hi : K} (h0 : 0 ≤ hi)
    (h : ∀ c, stage c ≤ hi) (c : Cell L W) : floodingCorrection eta depth stage dry c ≤ hi := by
  by_cases hc : floodingCorrection eta depth stage dry c = stage c
  · rw [hc]; exact h c
  · rcases (C18_value hL hW c hc).2 with ⟨n, -, -, e⟩ | e
    · rw [e]; exact h n
    · rw [e]; exact h0

/-- A water iteration keeps the bound. -/
lemma iteration_upper {g : Rng K σ} {P : Params L W m K} (hP : GentleSetup P) (hdx : 0 ≤ P.dx) (hL : 2 ≤ L)
    (hW : 2 ≤ W) {it : ℕ} {S S' : State L W K} {s s' : σ} {hi : K} (h0 : 0 ≤ hi)
    (hsea : S.HSL + reach P ≤ hi) (hS : AtMost hi S) (hv : FlowVector S)
    (h : waterIteration g P it S s = .ok (S', s')) : AtMost hi S' := by
  obtain ⟨w, wst, log, n, stage, -, hr, hf, rfl⟩ := waterIteration_ok h
  have hρ : 0 ≤ P.S0 * P.dx * ((L : K) + W) :=
    mul_nonneg (mul_nonneg hP.slope hdx) (add_nonneg (Nat.cast_nonneg _) (Nat.cast_nonneg _))
  have hHSL : S.HSL ≤ hi := by
    have : 0 ≤ reach P := mul_nonneg (Nat.cast_nonneg _) hρ
    linarith
  have hstage : ∀ c, stage c ≤ hi := by
    unfold computeFreeSurface at hf
    generalize ha : accumulateFreeSurface (sfcEnv P S) (wst.parcels.map (fun p => (p.walk, p.flag))) = x at hf
    cases x with
    | error e => cases hf
    | ok a =>
      simp only [Except.ok.injEq] at hf
      subst hf
      have hsum := sfcParcels_upper (sfcEnv P S) (ρ := P.S0 * P.dx * ((L : K) + W)) hρ
        (fun c n hc => rise_bound (sfcEnv P S) hP.slope hdx hv c n hc) (N := P.stepmax) (Z := hi) hsea
        (by
          intro p hp
          obtain ⟨q, hq, rfl⟩ := List.mem_map.1 hp
          exact records_bound hr q hq) ha (fun c => by simp)
      have hH : ∀ c, computeHnew S.eta S.depth a S.HSL c ≤ hi := by
        intro c
        by_cases hc : 0 < a.visit c
        · rw [(C16_value S.eta S.depth a S.HSL c).1 hc]
          refine max_le (hS c).1 (max_le hHSL ?_)
          rw [div_le_iff₀ hc, mul_comm]
          exact hsum c
        · rw [(C16_value S.eta S.depth a S.HSL c).2 hc]
          exact max_le (hS c).1 (max_le hHSL (hS c).2.2)
      unfold finalizeFreeSurface
      intro c
      refine flooding_upper hL hW h0 (fun c => ?_) c
      split_ifs
      · obtain ⟨lo, hlo⟩ : ∃ lo, ∀ c, lo ≤ computeHnew S.eta S.depth a S.HSL c :=
          ⟨S.HSL, fun c => (C16_above S.eta S.depth a S.HSL c).1⟩
        have h1 := (C17_bounds (ct := P.cellType) hP.smooth0 hP.smooth1 P.Nsmooth
          (fun c => ⟨hlo c, hH c⟩) c).2
        have h2 := mul_le_mul_of_nonneg_left h1 hP.omega0
        have h3 := mul_le_mul_of_nonneg_left (hS c).2.1 (sub_nonneg.2 hP.omega1)
        linarith
      · exact (hS c).2.1
  intro c
  have e1 : stageAboveSea stage S.HSL c ≤ hi := max_le (hstage c) hHSL
  refine ⟨(hS c).1, e1, ?_⟩
  change S.eta c + depthOf (stageAboveSea stage S.HSL) S.eta c ≤ hi
  unfold depthOf
  rcases le_total (stageAboveSea stage S.HSL c - S.eta c) 0 with h1 | h1
  · rw [max_eq_right h1, add_zero]; exact (hS c).1
  · rw [max_eq_left h1]; linarith

lemma vector_of_aligned {qw q uw u : K} (hq : |q| ≤ qw) (hu : 0 ≤ uw) (h : u * qw = uw * q)
    (h0 : qw ≤ 0 → u = 0) : |u| ≤ uw := by
  rcases le_or_gt qw 0 with h1 | h1
  · rw [h0 h1, abs_zero]; exact hu
  · have : |u| * qw ≤ uw * qw := by
      calc |u| * qw = |u * qw| := by rw [abs_mul, abs_of_pos h1]
        _ = uw * |q| := by rw [h, abs_mul, abs_of_nonneg hu]
        _ ≤ uw * qw := mul_le_mul_of_nonneg_left hq hu
    exact le_of_mul_le_mul_right this h1

/-- The water routing keeps the bound. -/
lemma water_upper {g : Rng K σ} {P : Params L W m K} (hR : RunSetup P) (hP : GentleSetup P) (hL : 2 ≤ L)
    (hW : 2 ≤ W) {S S' : State L W K} {s s' : σ} {hi : K} (h0 : 0 ≤ hi) (hsea : S.HSL + reach P ≤ hi)
    (hS : AtMost hi S) (hv : FlowVector S) (h : routeWater g P S s = .ok (S', s')) :
    AtMost hi S' ∧ FlowVector S' ∧ ∀ c, |S'.qx c| ≤ S'.qw c ∧ |S'.qy c| ≤ S'.qw c := by
  have hmain : AtMost hi S' ∧ FlowVector S' := by
    refine (routeWaterFrom_inv (I := fun T => T.HSL = S.HSL ∧ AtMost hi T ∧ FlowVector T) ?_ _ _ _ _ _ _
      ⟨rfl, hS, hv⟩ h).2
    intro it T t T' t' ⟨e, hT, hu⟩ hit
    refine ⟨(waterIteration_frame hit).2.1.trans e, iteration_upper hP hR.sed.dx.le hL hW h0 (by rw [e]; exact hsea) hT hu hit, ?_⟩
    have hd := C20_iteration hR.nrm0 hit
    have hvel := C21_iteration hR.sed.uMax hR.dry hit
    intro c
    exact ⟨vector_of_aligned (by rw [hd.magnitude c]; exact hP.nrmX _ _) (hvel.bounds c).1 (hvel.aligned c).1
        (fun hq => (hvel.still c hq).2.1),
      vector_of_aligned (by rw [hd.magnitude c]; exact hP.nrmY _ _) (hvel.bounds c).1 (hvel.aligned c).2
        (fun hq => (hvel.still c hq).2.2)⟩
  refine ⟨hmain.1, hmain.2, fun c => ?_⟩
  have hd := C20_route hR.nrm0 hR.itermax h
  rw [hd.magnitude c]
  exact ⟨hP.nrmX _ _, hP.nrmY _ _⟩

/-- What the routing of parcels keeps. -/
def UpperFlow (P : Params L W m K) (hi : K) (S : State L W K) : Prop :=
  (∀ c, S.eta c ≤ hi ∧ S.stage c ≤ hi) ∧ FlowOk P S ∧ FlowVector S ∧
    ∀ c, |S.qx c| ≤ S.qw c ∧ |S.qy c| ≤ S.qw c

/-- C30's condition: the coefficient of the diffusion is small against the local flux of sand. -/
def StableSpread (mult : K) (qs : Grid L W K) : Prop :=
  ∀ c, mult * (∑ n ∈ around c, (qs c + qs n) + (8 - ((around c).card : K)) * qs c) ≤ 1

/-- The routing of parcels keeps the bound. -/
lemma parcels_upper {g : Rng K σ} {k : Sed} {P : Params L W m K} (hP : SedSetup P) {S S' : State L W K}
    {s s' : σ} {logs : List (SedLog L W K)} {hi : K} (hS : ∀ c, S.eta c ≤ hi ∧ S.stage c ≤ hi)
    (hF : FlowOk P S) (hv : FlowVector S) (hq : ∀ c, |S.qx c| ≤ S.qw c ∧ |S.qy c| ≤ S.qw c)
    (h : routeParcels g k P S s = .ok (S', logs, s')) :
    (∀ c, S'.eta c ≤ hi ∧ S'.stage c ≤ hi) ∧ FlowOk P S' ∧ FlowVector S' ∧
      ∀ c, |S'.qx c| ≤ S'.qw c ∧ |S'.qy c| ≤ S'.qw c := by
  obtain ⟨starts, st, -, hp, rfl⟩ := routeParcels_ok h
  refine sedParcels_induct (g := g) (k := k) (P := P) (fun st _ => UpperFlow P hi st.S) ?_ _ _ [] _ _ _ _
    ⟨hS, hF, hv, hq⟩ hp
  intro st logs py c s st' res rs s' hI _ hl
  have hent : UpperFlow P hi (enterState k P st c).S := by cases k <;> exact hI
  refine (sedLoop_induct (fun st res => UpperFlow P hi st.S ∧ 0 ≤ res) (fun _ => True) ?_
    _ _ _ _ _ _ _ _ _ _ ⟨hent, hP.vp⟩ hl).1.1
  intro st px py res s st1 res1 r s1 ⟨⟨a1, a2, a3, a4⟩, a5⟩ hs
  obtain ⟨⟨b1, b2⟩, -, -, -, b3, b4⟩ := step_inv hP ⟨a2, a5⟩ hs
  have he := stepEffect hs
  obtain ⟨hb, h1, -, -, -⟩ := before_eq hs
  have e1 : r.before.eta = st.S.eta := by rw [hb]
  have e2 : r.before.stage = st.S.stage := by rw [hb]
  have e3 : r.before.qx = st.S.qx ∧ r.before.qy = st.S.qy ∧ r.before.qw = st.S.qw := by rw [hb]; exact ⟨rfl, rfl, rfl⟩
  have e4 : r.before.ux = st.S.ux ∧ r.before.uy = st.S.uy ∧ r.before.uw = st.S.uw := by rw [hb]; exact ⟨rfl, rfl, rfl⟩
  refine ⟨⟨⟨fun c => ?_, b1, fun c => ?_, ?_⟩, b2⟩, trivial⟩
  · rw [h1, he.stage, e2]
    refine ⟨?_, (a1 c).2⟩
    rw [he.bed]
    by_cases hc : c = r.cell
    · subst hc
      rw [Function.update_self]
      have hd : 0 < P.dx * P.dx := mul_pos hP.dx hP.dx
      rw [e1, e2] at b3 b4
      rw [e1]
      rcases lt_or_ge (st.S.stage r.cell) (st.S.eta r.cell) with h2 | h2
      · have := div_nonpos_of_nonpos_of_nonneg (b4 h2) hd.le
        linarith [(a1 r.cell).1]
      · have h3 : r.change / (P.dx * P.dx) ≤ |st.S.stage r.cell - st.S.eta r.cell| / 4 :=
          (div_le_iff₀ hd).2 ((le_abs_self _).trans b3)
        rw [abs_of_nonneg (sub_nonneg.2 h2)] at h3
        linarith [(a1 r.cell).2]
    · rw [Function.update_of_ne hc, e1]; exact (a1 c).1
  · by_cases hc : c = r.cell
    · subst hc
      have hu : 0 ≤ r.after.uw r.cell := by rw [← h1]; exact (b1 _).1
      rw [h1]
      have hal := he.aligned
      rw [e3.1, e3.2.1, e3.2.2] at hal
      rcases le_or_gt (st.S.qw r.cell) 0 with h2 | h2
      · rw [(hal.2 h2).1, (hal.2 h2).2, abs_zero]; exact ⟨hu, hu⟩
      · exact ⟨vector_of_aligned (a4 _).1 hu (hal.1 h2).1 (fun h => absurd h2 (not_lt.2 h)),
          vector_of_aligned (a4 _).2 hu (hal.1 h2).2 (fun h => absurd h2 (not_lt.2 h))⟩
    · obtain ⟨u1, u2, u3⟩ := he.velocity c hc
      rw [h1, u1, u2, u3, e4.1, e4.2.1, e4.2.2]
      exact a3 c
  · rw [h1, he.discharge.1, he.discharge.2.1, he.discharge.2.2, e3.1, e3.2.1, e3.2.2]
    exact a4

lemma below_all (f : Grid L W K) : ∃ lo, lo ≤ 0 ∧ ∀ c, lo ≤ f c := by
  refine ⟨-∑ c, |f c|, by rw [neg_nonpos]; exact Finset.sum_nonneg (fun c _ => abs_nonneg _), fun c => ?_⟩
  have := Finset.single_le_sum (f := fun c => |f c|) (fun c _ => abs_nonneg _) (Finset.mem_univ c)
  linarith [neg_abs_le (f c)]

lemma diffusion_upper (ct : Grid L W ℤ) {mult : K} {qs eta : Grid L W K} {hi : K} (hm : 0 ≤ mult)
    (hq : ∀ n, 0 ≤ qs n) (hstab : StableSpread mult qs) (h0 : 0 ≤ hi) (k : ℕ) (h : ∀ c, eta c ≤ hi)
    (c : Cell L W) : topoDiffusion ct mult qs k eta c ≤ hi := by
  obtain ⟨lo, h1, h2⟩ := below_all eta
  exact (C30_no_extremes ct hm hq hstab h1 h0 k (fun c => ⟨h2 c, h c⟩) c).2

/-- C103 for one timestep: no bed, no water surface and no top of a water column rises above a level that
is not below elevation zero, not below what there is already, and not below the sea by less than the
reference slope along the longest way of a parcel. -/
theorem C103_update {g : Rng K σ} {P : Params L W m K} (hR : RunSetup P) (hP : GentleSetup P) (hL : 2 ≤ L)
    (hW : 2 ≤ W) {S S' : State L W K} {s s' : σ} {l : StepLog L W K} {hi : K} (h0 : 0 ≤ hi)
    (hsea : S.HSL + reach P ≤ hi) (hS : AtMost hi S) (hv : FlowVector S)
    (h : timestep g P S s = .ok (S', l, s')) (hst : StableSpread P.diffMult l.routed.qs) :
    AtMost hi S' ∧ FlowVector S' := by
  obtain ⟨r, rfl⟩ := step_result h
  obtain ⟨s1, h1, h2, -, -⟩ := timestep_ok h
  obtain ⟨⟨S1, s1', s2, f1, h3, f2, h4⟩, -⟩ := step_routings hR h
  obtain ⟨a1, a2, a3⟩ := water_upper hR hP hL hW h0 hsea hS hv h1
  obtain ⟨b1, -, b2, b3⟩ := parcels_upper hR.sed (hi := hi) (S := initSediment l.watered)
    (fun c => ⟨(a1 c).1, (a1 c).2.1⟩) f1 a2 a3 h3
  have hq1 : l.routed.qs = S1.qs := by rw [C31_mud h4]
  have hq0 : ∀ c, 0 ≤ S1.qs c := fun c => C31_nonneg hR.sed f1 h3 c (le_refl _)
  rw [hq1] at hst
  obtain ⟨c1, -, c2, -⟩ := parcels_upper hR.sed (hi := hi)
    (S := { S1 with eta := topoDiffusion P.cellType P.diffMult S1.qs P.Ncross S1.eta })
    (fun c => ⟨diffusion_upper _ hP.diffusion hq0 hst h0 _ (fun c => (b1 c).1) c, (b1 c).2⟩) f2 b2 b3 h4
  have hρ : 0 ≤ reach P :=
    mul_nonneg (Nat.cast_nonneg _) (mul_nonneg (mul_nonneg hP.slope hR.sed.dx.le)
      (add_nonneg (Nat.cast_nonneg _) (Nat.cast_nonneg _)))
  have hstage : ∀ c, S'.stage c ≤ hi := fun c => by
    rw [r.stage c]
    exact max_le (flooding_upper hL hW h0 (fun c => (c1 c).2) c) (by linarith)
  have heta : ∀ c, S'.eta c ≤ hi := fun c => by
    by_cases hc : InletCell P c
    · rw [r.inletBed c hc]; linarith [hstage c, hR.h0]
    · rw [r.bed c hc]
      have := (c1 c).1
      split_ifs <;> linarith [hP.sinks c]
  refine ⟨fun c => ⟨heta c, hstage c, ?_⟩, fun c => ?_⟩
  · by_cases hc : InletCell P c
    · rw [r.inletBed c hc, r.inletDepth c hc]; linarith [hstage c]
    · rw [r.depth c hc]
      rcases le_total (S'.stage c - S'.eta c) 0 with h5 | h5
      · rw [max_eq_right h5, add_zero]; exact heta c
      · rw [max_eq_left h5]; linarith [hstage c]
  · rw [r.flow.2.2.2.1, r.flow.2.2.2.2.1, r.flow.2.2.2.2.2.1]
    exact c2 c

/-- C103: a level that is not below the beds, surfaces and elevation zero at the start and never below
the sea by less than the reach stays an upper bound, in runs of any length. -/
theorem C103_run {g : Rng K σ} {P : Params L W m K} (hR : RunSetup P) (hP : GentleSetup P) (hL : 2 ≤ L)
    (hW : 2 ≤ W) {hi : K} (h0 : 0 ≤ hi) {n : ℕ} {S S' : State L W K} {s s' : σ} {ls : List (StepLog L W K)}
    (hsea : ∀ k < n, S.HSL + k * (P.SLR * P.dt) + reach P ≤ hi) (hS : AtMost hi S) (hv : FlowVector S)
    (h : timesteps g (List.replicate n P) S s = .ok (S', ls, s'))
    (hst : ∀ l ∈ ls, StableSpread P.diffMult l.routed.qs) :
    AtMost hi S' ∧ FlowVector S' ∧ ∀ l ∈ ls, AtMost hi l.start := by
  induction n generalizing S s ls with
  | zero =>
    simp only [List.replicate_zero, timesteps, Except.ok.injEq, Prod.mk.injEq] at h
    obtain ⟨rfl, rfl, rfl⟩ := h
    exact ⟨hS, hv, by simp⟩
  | succ n ih =>
    rw [List.replicate_succ] at h
    obtain ⟨S1, l, s1, ls1, h1, h2, rfl⟩ := timesteps_cons h
    obtain ⟨a, b⟩ := C103_update hR hP hL hW h0 (by simpa using hsea 0 (Nat.succ_pos _)) hS hv h1
      (hst l (by simp))
    obtain ⟨r, e⟩ := step_result h1
    obtain ⟨c1, c2, c3⟩ := ih (fun k hk => by
      have := hsea (k + 1) (by omega)
      rw [r.sea, e]
      push_cast at this
      linarith) a b h2 (fun l hl => hst l (by simp [hl]))
    refine ⟨c1, c2, fun l' hl' => ?_⟩
    rcases List.mem_cons.1 hl' with rfl | hl'
    · rw [e]; exact hS
    · exact c3 l' hl'

/-- C103: with a sea that does not rise the bound does not depend on the number of timesteps. -/
theorem C103_falling {g : Rng K σ} {P : Params L W m K} (hR : RunSetup P) (hP : GentleSetup P) (hL : 2 ≤ L)
    (hW : 2 ≤ W) (hslr : P.SLR ≤ 0) {hi : K} (h0 : 0 ≤ hi) {n : ℕ} {S S' : State L W K} {s s' : σ}
    {ls : List (StepLog L W K)} (hsea : S.HSL + reach P ≤ hi) (hS : AtMost hi S) (hv : FlowVector S)
    (h : timesteps g (List.replicate n P) S s = .ok (S', ls, s'))
    (hst : ∀ l ∈ ls, StableSpread P.diffMult l.routed.qs) : AtMost hi S' :=
  (C103_run hR hP hL hW h0 (fun k _ => by
    have := mul_nonpos_of_nonneg_of_nonpos (Nat.cast_nonneg (α := K) k)
      (mul_nonpos_of_nonpos_of_nonneg hslr hR.sed.dt.le)
    linarith) hS hv h hst).1

/-- C103: with a rising sea the bound rises with it and no faster. -/
theorem C103_rising {g : Rng K σ} {P : Params L W m K} (hR : RunSetup P) (hP : GentleSetup P) (hL : 2 ≤ L)
    (hW : 2 ≤ W) (hslr : 0 ≤ P.SLR) {hi : K} (h0 : 0 ≤ hi) {n : ℕ} {S S' : State L W K} {s s' : σ}
    {ls : List (StepLog L W K)} (hsea : S.HSL + reach P ≤ hi) (hS : AtMost hi S) (hv : FlowVector S)
    (h : timesteps g (List.replicate n P) S s = .ok (S', ls, s'))
    (hst : ∀ l ∈ ls, StableSpread P.diffMult l.routed.qs) : AtMost (hi + n * (P.SLR * P.dt)) S' := by
  have hr : 0 ≤ P.SLR * P.dt := mul_nonneg hslr hR.sed.dt.le
  have hn : 0 ≤ n * (P.SLR * P.dt) := mul_nonneg (Nat.cast_nonneg _) hr
  refine (C103_run hR hP hL hW (by linarith) (fun k hk => ?_) (fun c => ?_) hv h hst).1
  · have : (k : K) * (P.SLR * P.dt) ≤ n * (P.SLR * P.dt) :=
      mul_le_mul_of_nonneg_right (by exact_mod_cast hk.le) hr
    linarith
  · obtain ⟨a, b, e⟩ := hS c
    exact ⟨by linarith, by linarith, by linarith⟩

/-- C103: without diffusion no condition on the flux of sand is needed. -/
theorem C103_undiffused {g : Rng K σ} {P : Params L W m K} (hR : RunSetup P) (hP : GentleSetup P)
    (hL : 2 ≤ L) (hW : 2 ≤ W) (hd : P.diffMult = 0) {hi : K} (h0 : 0 ≤ hi) {n : ℕ} {S S' : State L W K}
    {s s' : σ} {ls : List (StepLog L W K)} (hsea : ∀ k < n, S.HSL + k * (P.SLR * P.dt) + reach P ≤ hi)
    (hS : AtMost hi S) (hv : FlowVector S) (h : timesteps g (List.replicate n P) S s = .ok (S', ls, s')) :
    AtMost hi S' :=
  (C103_run hR hP hL hW h0 hsea hS hv h (fun l _ c => by rw [hd, zero_mul]; exact zero_le_one)).1

/-- Coefficients of the configuration in their documented ranges, as far as C103 depends on them. -/
structure GentleInput (O : Oracle K) (I : Input K) : Prop where
  nrm : ∀ x y, |x| ≤ O.nrm x y ∧ |y| ≤ O.nrm x y
  omega0 : 0 ≤ I.omegaSfc
  omega1 : I.omegaSfc ≤ 1
  smooth : I.Csmooth ≤ 1
  alpha : 0 ≤ I.alpha
  sinks : 0 ≤ I.subRate

/-- C103: a created model starts below its reach above the higher of the sea and elevation zero. -/
theorem C103_start {O : Oracle K} (hO : OracleOk O) {I : Input K} (hI : Runnable I) (hG : GentleInput O I)
    {P : Params L W m K} {S : State L W K} (h : create O I = .ok ⟨L, W, m, P, S⟩) :
    RunSetup P ∧ GentleSetup P ∧ 2 ≤ L ∧ 2 ≤ W ∧ AtMost (max 0 I.HSL + reach P) S ∧ FlowVector S ∧
      S.HSL = I.HSL ∧ P.SLR = I.SLR := by
  obtain ⟨L', W', m', iL, iW, P', S', hc, hWa, -, -, hR, hd, -⟩ := C74_created hO hI
  rw [h] at hc
  cases hc
  have hinit := fun c => C53_initial_partial h c
  obtain ⟨s1, s2, s3, s4⟩ := create_size h
  have hL8 := hI.L
  have hW5 := hI.W
  obtain ⟨N0, l1, l2, -⟩ := create_layout h (by simp only at *; omega)
  simp only at *
  have hfix : P.omegaSfc = I.omegaSfc ∧ P.Csmooth = I.Csmooth ∧ P.S0 = I.S0 ∧ P.dx = I.dx ∧ P.nrm = O.nrm ∧
      S.HSL = I.HSL ∧ P.SLR = I.SLR ∧ (∀ c, 0 ≤ P.sigma c) ∧ 0 ≤ P.diffMult := by
    obtain ⟨-, D, hB, -, e⟩ := create_ok h
    obtain ⟨D', hD', p1, -, -, -, -, p6, -⟩ := C50_derived_partial hI.accepted hI.flowing
      (cellsAlong I.Length I.dx) (cellsAlong I.Width I.dx)
    rw [hB] at hD'
    cases hD'
    cases e
    have b := bc_ok hB
    refine ⟨rfl, rfl, rfl, rfl, rfl, rfl, rfl, fun c => ?_, ?_⟩
    · simp only [initialParams, initialSigma]
      split_ifs
      · refine mul_nonneg (mul_nonneg ?_ hG.sinks) p1.le
        unfold assign
        split_ifs <;> norm_num
      · exact le_refl _
    · simp only [initialParams]
      rw [b.ediff]
      have h1 : (0 : K) ≤ (D.Ncross : K) := by exact_mod_cast (by omega : 0 ≤ D.Ncross)
      exact div_nonneg (mul_nonneg (mul_nonneg (div_nonneg p1.le h1) hG.alpha) (by norm_num))
        (mul_self_nonneg _)
  obtain ⟨e1, e2, e3, e4, e5, e6, e7, e8, e9⟩ := hfix
  have hdx : 0 < I.dx := hI.accepted.dx
  have hS0 := hI.slope0
  have hgen : GentleSetup P := {
    slope := by rw [e3]; exact hS0
    omega0 := by rw [e1]; exact hG.omega0
    omega1 := by rw [e1]; exact hG.omega1
    smooth0 := by rw [e2]; exact hI.accepted.Csmooth
    smooth1 := by rw [e2]; exact hG.smooth
    nrmX := fun x y => by rw [e5]; exact (hG.nrm x y).1
    nrmY := fun x y => by rw [e5]; exact (hG.nrm x y).2
    sinks := e8
    diffusion := e9 }
  have hslope : 0 ≤ I.dx * I.S0 := mul_nonneg hdx.le hS0
  have hreach : ((P.L0 - 1 : ℤ) : K) * I.dx * I.S0 ≤ reach P := by
    unfold reach
    rw [e3, e4]
    have h1 : ((P.L0 - 1 : ℤ) : K) ≤ (L : K) := by
      have : P.L0 - 1 ≤ (L : ℤ) := by omega
      exact_mod_cast this
    have h2 : (1 : K) ≤ (P.stepmax : K) := by
      have := hWa.steps
      exact_mod_cast (by omega : 1 ≤ P.stepmax)
    have h3 : (0 : K) ≤ W := Nat.cast_nonneg _
    have h4 : (0 : K) ≤ L := Nat.cast_nonneg _
    have h5 : 0 ≤ I.S0 * I.dx * ((L : K) + W) := mul_nonneg (mul_nonneg hS0 hdx.le) (by linarith)
    calc ((P.L0 - 1 : ℤ) : K) * I.dx * I.S0 = ((P.L0 - 1 : ℤ) : K) * (I.dx * I.S0) := by ring
      _ ≤ ((L : K) + W) * (I.dx * I.S0) := mul_le_mul_of_nonneg_right (by linarith) hslope
      _ = 1 * (I.S0 * I.dx * ((L : K) + W)) := by ring
      _ ≤ _ := mul_le_mul_of_nonneg_right h2 h5
  have h0 : 0 ≤ max 0 I.HSL := le_max_left _ _
  have hr0 : 0 ≤ reach P := by
    refine le_trans ?_ hreach
    have : (0 : K) ≤ ((P.L0 - 1 : ℤ) : K) := by exact_mod_cast (by omega : 0 ≤ P.L0 - 1)
    rw [mul_assoc]
    exact mul_nonneg this hslope
  have hstage : ∀ c, S.stage c ≤ max 0 I.HSL + reach P := by
    intro c
    rcases lt_or_ge (c.1.val : ℤ) P.L0 with hc | hc
    · rw [(hinit c).2.2.2.2.1 hc]
      have : ((P.L0 - 1 - c.1.val : ℤ) : K) * I.dx * I.S0 ≤ ((P.L0 - 1 : ℤ) : K) * I.dx * I.S0 := by
        rw [mul_assoc, mul_assoc]
        refine mul_le_mul_of_nonneg_right ?_ hslope
        exact_mod_cast (by omega : P.L0 - 1 - c.1.val ≤ P.L0 - 1)
      linarith
    · rw [((hinit c).2.2.2.1 hc).1]; linarith
  refine ⟨hR, hgen, by omega, by omega, fun c => ?_, fun c => ?_, e6, e7⟩
  · have e := (hinit c).1
    have := hd c
    exact ⟨by rw [e]; linarith [hstage c], hstage c, by rw [e]; linarith [hstage c]⟩
  · obtain ⟨-, -, -, -, -, q1, q2, q3, q4, -⟩ := hinit c
    rcases lt_or_ge 0 (S.depth c) with hdc | hdc
    · obtain ⟨r1, r2, r3⟩ := q3 hdc
      have key : ∀ u q, u * S.depth c = q → |q| ≤ S.qw c → |u| ≤ S.uw c := by
        intro u q hu hq
        refine le_of_mul_le_mul_right ?_ hdc
        calc |u| * S.depth c = |u * S.depth c| := by rw [abs_mul, abs_of_pos hdc]
          _ ≤ S.uw c * S.depth c := by rw [hu, r3]; exact hq
      refine ⟨key _ _ r1 (by rw [q2]; exact (hG.nrm _ _).1), key _ _ r2 ?_⟩
      rw [q1, q2, abs_zero]
      exact hO.nrm _ _
    · obtain ⟨r1, r2, r3⟩ := q4 hdc
      rw [r1, r2, r3, abs_zero]
      exact ⟨le_refl _, le_refl _⟩

/-- C103 for a created model: however long it runs, no bed and no water surface is ever higher above the
higher of the sea and elevation zero than the reference slope along the longest way of a parcel. -/
theorem C103_created {O : Oracle K} (hO : OracleOk O) {I : Input K} (hI : Runnable I) (hG : GentleInput O I)
    {P : Params L W m K} {S : State L W K} (h : create O I = .ok ⟨L, W, m, P, S⟩) {g : Rng K σ} {n : ℕ}
    {S' : State L W K} {s s' : σ} {ls : List (StepLog L W K)}
    (ht : timesteps g (List.replicate n P) S s = .ok (S', ls, s'))
    (hst : ∀ l ∈ ls, StableSpread P.diffMult l.routed.qs) :
    AtMost (max 0 I.HSL + reach P + max 0 (n * (I.SLR * P.dt))) S' := by
  obtain ⟨hR, hP, hL, hW, hS, hv, e1, e2⟩ := C103_start hO hI hG h
  have h0 : 0 ≤ max 0 I.HSL := le_max_left _ _
  have h1 : I.HSL ≤ max 0 I.HSL := le_max_right _ _
  have hr0 : 0 ≤ reach P :=
    mul_nonneg (Nat.cast_nonneg _) (mul_nonneg (mul_nonneg hP.slope hR.sed.dx.le)
      (add_nonneg (Nat.cast_nonneg _) (Nat.cast_nonneg _)))
  have h2 : 0 ≤ max 0 ((n : K) * (I.SLR * P.dt)) := le_max_left _ _
  rcases le_total I.SLR 0 with hs | hs
  · have := C103_falling hR hP hL hW (by rw [e2]; exact hs) (hi := max 0 I.HSL + reach P) (by linarith)
      (by rw [e1]; linarith) hS hv ht hst
    intro c
    obtain ⟨a, b, d⟩ := this c
    exact ⟨by linarith, by linarith, by linarith⟩
  · have := C103_rising hR hP hL hW (by rw [e2]; exact hs) (hi := max 0 I.HSL + reach P) (by linarith)
      (by rw [e1]; linarith) hS hv ht hst
    have h3 : 0 ≤ (n : K) * (I.SLR * P.dt) := mul_nonneg (Nat.cast_nonneg _) (mul_nonneg hs hR.sed.dt.le)
    rw [max_eq_right h3]
    rw [e2] at this
    exact this

end

/-! ## Non-trivial cases -/

lemma exGentleInput : GentleInput exOracle exInput where
  nrm := fun x y => by
    simp only [exOracle]
    exact ⟨by linarith [abs_nonneg y], by linarith [abs_nonneg x]⟩
  omega0 := by norm_num [exInput]
  omega1 := by norm_num [exInput]
  smooth := by norm_num [exInput]
  alpha := by norm_num [exInput]
  sinks := by norm_num [exInput]

/-- The default configuration without diffusion: runs of any length happen, and nothing rises above
1350 m; the sea is at zero and does not rise. -/
theorem C103_example {g : Rng ℚ σ} (hg : PositiveDraws g) :
    ∃ (L W m : ℕ) (_ : NeZero L) (_ : NeZero W) (P : Params L W m ℚ) (S : State L W ℚ),
      create exOracle { exInput with alpha := 0 } = .ok ⟨L, W, m, P, S⟩ ∧
      ∀ (n : ℕ) (s : σ), ∃ S' ls s', timesteps g (List.replicate n P) S s = .ok (S', ls, s') ∧
        AtMost 1350 S' := by
  have hI : Runnable { exInput with alpha := 0 } := by
    have h := exRunnable
    have hA : Accepted { exInput with alpha := 0 } := (C50_validate _).1 (by decide +kernel)
    have hF : Flowing { exInput with alpha := 0 } := by
      have h := exRunnable.flowing
      cases h
      constructor <;> assumption
    cases h
    constructor <;> assumption
  have hG : GentleInput exOracle { exInput with alpha := 0 } := by
    have h := exGentleInput
    cases h
    constructor <;> first | assumption | norm_num
  obtain ⟨L, W, m, iL, iW, P, S, hc, -, hrun⟩ := C74_run exOracleOk hI hg
  refine ⟨L, W, m, iL, iW, P, S, hc, fun n s => ?_⟩
  obtain ⟨S', ls, s', h, -⟩ := hrun n s
  refine ⟨S', ls, s', h, ?_⟩
  have hfix : P.diffMult = 0 ∧ reach P = 1350 := by
    obtain ⟨-, D, hB, -, e⟩ := create_ok hc
    cases e
    have b := bc_ok hB
    have e1 : cellsAlong exInput.Length exInput.dx = 100 := by decide +kernel
    have e2 : cellsAlong exInput.Width exInput.dx = 200 := by decide +kernel
    refine ⟨?_, ?_⟩
    · simp only [initialParams]
      rw [b.ediff]
      norm_num
    · unfold reach
      simp only [initialParams]
      rw [b.estepNone rfl]
      simp only [e1, e2]
      have e3 : (Int.toNat 600 : ℕ) = 600 ∧ (Int.toNat 100 : ℕ) = 100 ∧ (Int.toNat 200 : ℕ) = 200 := ⟨rfl, rfl, rfl⟩
      norm_num [exInput]
      rw [e3.1, e3.2.1, e3.2.2]
      norm_num
  have := C103_created exOracleOk hI hG hc h (fun l _ c => by rw [hfix.1, zero_mul]; exact zero_le_one)
  rw [hfix.2] at this
  norm_num [exInput] at this
  exact this

/-- The condition of C103 on the flux of sand holds for a literal flux and coefficient. -/
example : StableSpread (1 / 20 : ℚ) exFlux :=
  C30_stability (by norm_num) (by norm_num) (Q := 1)
    (fun n => by unfold exFlux; split_ifs <;> norm_num) (by norm_num)

/-- C103 fails without that condition: diffusion makes a hill of 7 m from a hole in a bed that is nowhere
above elevation zero. -/
theorem C103_unstable_witness : (∀ c, -exBump c ≤ 0) ∧
    topoDiffusion (fun _ => 0) 1 exFlux 1 (fun c => -exBump c) (2, 2) = 7 := by
  constructor
  · intro c; unfold exBump; split_ifs <;> norm_num
  · decide +kernel

end Verif.Props
