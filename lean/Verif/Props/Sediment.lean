import Verif.Lemmas.Sediment
import Verif.Spec.Sediment
import Verif.Props.WaterWalk

/-!
# Sediment routing (C22 to C28, C31)

The theorems hold for every generator, start state and number of parcels: they are about any routing
`routeParcels g k P S s` that finishes (C71 shows that it does). The log lists, for each parcel, the
steps it took with the fields before and after.
-/

set_option linter.unusedSectionVars false
set_option linter.unusedSimpArgs false

namespace Verif.Props

open Verif.Model Verif.Lemmas Verif.Spec

variable {K : Type*} [Field K] [LinearOrder K] [IsStrictOrderedRing K] [FloorRing K] {σ : Type*}
  {L W m : ℕ} [NeZero L] [NeZero W]

/-! ## Steps -/

lemma fieldsAt_frame (k : Sed) (P : Params L W m K) (S : State L W K) (c0 c : Cell L W) (d : Fin 9)
    (res : K) :
    fieldsAt k P S c0 c d res = { S with qs := (fieldsAt k P S c0 c d res).qs } := by
  cases k
  · unfold fieldsAt partitionSand; simp only; split_ifs <;> rfl
  · rfl

lemma recordDeposit_frame (k : Sed) (S : State L W K) (c : Cell L W) (v : K) :
    recordDeposit k S c v = { S with depSand := (recordDeposit k S c v).depSand,
                                     depMud := (recordDeposit k S c v).depMud } := by
  unfold recordDeposit
  split_ifs
  · cases k <;> rfl
  · rfl

lemma limit_bounds {Vp stage eta dx : K} (hV : 0 ≤ Vp) (ero : Bool) :
    0 ≤ limitChange Vp stage eta dx ero ∧ limitChange Vp stage eta dx ero ≤ Vp ∧
      limitChange Vp stage eta dx ero ≤ |stage - eta| / 4 * (dx * dx) ∧
      (ero = false → stage < eta → limitChange Vp stage eta dx ero = 0) := by
  have hd : 0 ≤ dx * dx := mul_self_nonneg dx
  have hf : 0 ≤ |stage - eta| / 4 * (dx * dx) :=
    mul_nonneg (div_nonneg (abs_nonneg _) (by norm_num)) hd
  unfold limitChange
  simp only
  split_ifs with h1 h2
  · refine ⟨le_min hV hf, min_le_left _ _, min_le_right _ _, ?_⟩
    intro h; rw [h] at h2; cases h2
  · exact ⟨le_refl _, hV, hf, fun _ _ => rfl⟩
  · have he : |stage - eta| = stage - eta := abs_of_nonneg (not_lt.mp h1)
    rw [he] at hf ⊢
    refine ⟨le_min hV hf, min_le_left _ _, min_le_right _ _, ?_⟩
    intro _ hlt
    exact absurd (by linarith) h1

lemma ero_nonneg {P : Params L W m K} (hP : SedSetup P) {U Ue : K} (hUe : 0 < Ue) (h : Ue < U)
    (c : Cell L W) : 0 ≤ eroVolume P.pwBeta P.VpSed U Ue (P.modErosion c) := by
  unfold eroVolume
  have h1 := hP.pwMono Ue U hUe.le h.le
  exact div_nonneg (mul_nonneg (mul_nonneg (hP.mod c) hP.vp) (by linarith)) (hP.pwPos _ hUe).le

/-- The volume a parcel leaves (or takes) in one step. -/
lemma change_bounds (k : Sed) {P : Params L W m K} (hP : SedSetup P) (S : State L W K)
    (c : Cell L W) (hU : 0 ≤ S.uw c) {res : K} (hres : 0 ≤ res) :
    |volumeChange k P S c res| ≤ |S.stage c - S.eta c| / 4 * (P.dx * P.dx) ∧
      volumeChange k P S c res ≤ res ∧
      (S.stage c < S.eta c → volumeChange k P S c res ≤ 0) := by
  have hz : 0 ≤ |S.stage c - S.eta c| / 4 * (P.dx * P.dx) :=
    mul_nonneg (div_nonneg (abs_nonneg _) (by norm_num)) (mul_self_nonneg _)
  have zero : |(0 : K)| ≤ |S.stage c - S.eta c| / 4 * (P.dx * P.dx) ∧ (0 : K) ≤ res ∧
      (S.stage c < S.eta c → (0 : K) ≤ 0) := by rw [abs_zero]; exact ⟨hz, hres, fun _ => le_refl _⟩
  have ero : ∀ Ue, 0 < Ue → Ue < S.uw c →
      |limitChange (eroVolume P.pwBeta P.VpSed (S.uw c) Ue (P.modErosion c)) (S.stage c) (S.eta c)
        P.dx true * -1| ≤ |S.stage c - S.eta c| / 4 * (P.dx * P.dx) ∧
      limitChange (eroVolume P.pwBeta P.VpSed (S.uw c) Ue (P.modErosion c)) (S.stage c) (S.eta c)
        P.dx true * -1 ≤ res ∧ (S.stage c < S.eta c →
      limitChange (eroVolume P.pwBeta P.VpSed (S.uw c) Ue (P.modErosion c)) (S.stage c) (S.eta c)
        P.dx true * -1 ≤ 0) := by
    intro Ue h1 h2
    obtain ⟨a, -, b, -⟩ := limit_bounds (stage := S.stage c) (eta := S.eta c) (dx := P.dx)
      (ero_nonneg hP h1 h2 c) true
    refine ⟨?_, by linarith, fun _ => by linarith⟩
    rw [mul_neg, mul_one, abs_neg, abs_of_nonneg a]
    exact b
  have dep : ∀ V, 0 ≤ V → V ≤ res →
      |limitChange V (S.stage c) (S.eta c) P.dx false| ≤
        |S.stage c - S.eta c| / 4 * (P.dx * P.dx) ∧
      limitChange V (S.stage c) (S.eta c) P.dx false ≤ res ∧ (S.stage c < S.eta c →
      limitChange V (S.stage c) (S.eta c) P.dx false ≤ 0) := by
    intro V h1 h2
    obtain ⟨a, b, e, f⟩ := limit_bounds (stage := S.stage c) (eta := S.eta c) (dx := P.dx) h1 false
    refine ⟨by rw [abs_of_nonneg a]; exact e, b.trans h2, fun h => (f rfl h).le⟩
  cases k
  · unfold volumeChange sandChange
    simp only
    split_ifs with h1 h2
    · exact dep res hres le_rfl
    · exact ero _ hP.eroSand h2.1
    · exact zero
  · unfold volumeChange mudChange
    simp only
    split_ifs with h1 h2
    · exact ero _ hP.eroMud h1
    · have hd := hP.pwPos _ hP.depMud
      have hm := hP.pwMono (S.uw c) P.UdepMud hU h2.le
      have hn := hP.pwNonneg _ hU
      apply dep
      · exact div_nonneg (mul_nonneg (mul_nonneg hP.lam0 hres) (by linarith)) hd.le
      · rw [div_le_iff₀ hd]
        have hl : P.lam * res ≤ res := by nlinarith [hP.lam1]
        have hl0 : 0 ≤ P.lam * res := mul_nonneg hP.lam0 hres
        calc P.lam * res * (P.pwBeta P.UdepMud - P.pwBeta (S.uw c))
            ≤ P.lam * res * P.pwBeta P.UdepMud :=
              mul_le_mul_of_nonneg_left (by linarith) hl0
          _ ≤ res * P.pwBeta P.UdepMud := mul_le_mul_of_nonneg_right hl hd.le
    · exact zero

/-- What one step does to the fields. -/
structure StepEffect (P : Params L W m K) (r : SedRec L W K) : Prop where
  bed : r.after.eta = Function.update r.before.eta r.cell
    (r.before.eta r.cell + r.change / (P.dx * P.dx))
  depth : r.after.depth = Function.update r.before.depth r.cell
    (max 0 (r.before.stage r.cell - r.after.eta r.cell))
  stage : r.after.stage = r.before.stage
  discharge : r.after.qx = r.before.qx ∧ r.after.qy = r.before.qy ∧ r.after.qw = r.before.qw
  sandFlux : r.after.qs = r.before.qs
  velocity : ∀ c, c ≠ r.cell →
    r.after.uw c = r.before.uw c ∧ r.after.ux c = r.before.ux c ∧ r.after.uy c = r.before.uy c
  speed : (r.before.stage r.cell ≤ r.after.eta r.cell → r.after.uw r.cell = r.before.uw r.cell) ∧
    (r.after.eta r.cell < r.before.stage r.cell → r.after.uw r.cell =
      min P.uMax (r.before.qw r.cell / (r.before.stage r.cell - r.after.eta r.cell)))
  aligned : (0 < r.before.qw r.cell →
      r.after.ux r.cell * r.before.qw r.cell = r.after.uw r.cell * r.before.qx r.cell ∧
      r.after.uy r.cell * r.before.qw r.cell = r.after.uw r.cell * r.before.qy r.cell) ∧
    (r.before.qw r.cell ≤ 0 → r.after.ux r.cell = 0 ∧ r.after.uy r.cell = 0)
  kept : r.after.sandFrac = r.before.sandFrac ∧ r.after.activeLayer = r.before.activeLayer ∧
    r.after.HSL = r.before.HSL ∧ r.after.time = r.before.time ∧
    r.after.timeIter = r.before.timeIter ∧ r.after.ncols = r.before.ncols

lemma stepEffect {g : Rng K σ} {k : Sed} {P : Params L W m K} {st st1 : SedSt L W K} {px py : ℤ}
    {res res1 : K} {s s1 : σ} {r : SedRec L W K}
    (h : sedStep g k P st px py res s = .ok (st1, res1, r, s1)) : StepEffect P r := by
  obtain ⟨c0, d, c, cp, w, -, -, -, -, -, -, -, -, -, -, hc, -, -, -, -, haft, -, -⟩ := sedStep_ok h
  have hf := recordDeposit_frame k r.before c r.change
  rw [← hc] at haft hf
  rw [hf] at haft
  have heta : r.after.eta r.cell = r.before.eta r.cell + r.change / (P.dx * P.dx) := by
    rw [haft]; simp [updateFields]
  constructor
  · rw [haft]; rfl
  · rw [heta, haft]; rfl
  · rw [haft]; rfl
  · rw [haft]; exact ⟨rfl, rfl, rfl⟩
  · rw [haft]; rfl
  · intro c' hc'
    rw [haft]
    simp only [updateFields]
    exact ⟨Function.update_of_ne hc' _ _, Function.update_of_ne hc' _ _,
      Function.update_of_ne hc' _ _⟩
  · rw [heta]
    constructor
    · intro hle
      rw [haft]
      simp only [updateFields, Function.update_self]
      rw [max_eq_left (by linarith), if_neg (lt_irrefl _)]
    · intro hlt
      rw [haft]
      simp only [updateFields, Function.update_self]
      rw [max_eq_right (by linarith), if_pos (by linarith)]
  · constructor
    · intro hq
      rw [haft]
      simp only [updateFields, Function.update_self, if_pos hq]
      exact ⟨div_mul_cancel₀ _ hq.ne', div_mul_cancel₀ _ hq.ne'⟩
    · intro hq
      rw [haft]
      simp only [updateFields, Function.update_self, if_neg (not_lt.mpr hq)]
      trivial
  · rw [haft]; exact ⟨rfl, rfl, rfl, rfl, rfl, rfl⟩

/-- The fields just before the volume is determined are those before the step, except the sand
flux. -/
lemma before_eq {g : Rng K σ} {k : Sed} {P : Params L W m K} {st st1 : SedSt L W K} {px py : ℤ}
    {res res1 : K} {s s1 : σ} {r : SedRec L W K}
    (h : sedStep g k P st px py res s = .ok (st1, res1, r, s1)) :
    r.before = { st.S with qs := r.before.qs } ∧ st1.S = r.after ∧ r.res = res ∧
      res1 = res - r.change ∧ r.change = volumeChange k P r.before r.cell res := by
  obtain ⟨c0, d, c, cp, w, -, -, -, -, -, -, -, -, -, -, hc, hr, hb, hv, h1, -, h2, -⟩ :=
    sedStep_ok h
  refine ⟨?_, h2, hr, h1, by rw [hc]; exact hv⟩
  have := fieldsAt_frame k P st.S c0 c d res
  rw [← hb] at this
  exact this

lemma speed_ok {P : Params L W m K} (hP : SedSetup P) {r : SedRec L W K} (he : StepEffect P r)
    (h : FlowOk P r.before) : FlowOk P r.after := by
  intro c
  rw [he.discharge.2.2]
  by_cases hc : c = r.cell
  · subst hc
    rcases le_or_gt (r.before.stage r.cell) (r.after.eta r.cell) with h1 | h1
    · rw [he.speed.1 h1]; exact h _
    · rw [he.speed.2 h1]
      exact ⟨le_min hP.uMax (div_nonneg (h _).2.2 (by linarith)), min_le_left _ _, (h _).2.2⟩
  · rw [(he.velocity c hc).1]; exact h c

/-- The invariant of a routing: flow fields stay physical and parcels do not run a debt; with what
follows for each step. -/
lemma step_inv {g : Rng K σ} {k : Sed} {P : Params L W m K} (hP : SedSetup P)
    {st st1 : SedSt L W K} {px py : ℤ} {res res1 : K} {s s1 : σ} {r : SedRec L W K}
    (hI : FlowOk P st.S ∧ 0 ≤ res)
    (h : sedStep g k P st px py res s = .ok (st1, res1, r, s1)) :
    (FlowOk P st1.S ∧ 0 ≤ res1) ∧ FlowOk P r.before ∧ 0 ≤ r.res ∧ 0 ≤ r.res - r.change ∧
      |r.change| ≤ |r.before.stage r.cell - r.before.eta r.cell| / 4 * (P.dx * P.dx) ∧
      (r.before.stage r.cell < r.before.eta r.cell → r.change ≤ 0) := by
  have he := stepEffect h
  obtain ⟨hb, h1, h2, h3, h4⟩ := before_eq h
  have hF : FlowOk P r.before := by rw [hb]; exact hI.1
  obtain ⟨a, b, e⟩ := change_bounds k hP r.before r.cell (hF r.cell).1 hI.2
  rw [← h4] at a b e
  exact ⟨⟨by rw [h1]; exact speed_ok hP he hF, by linarith⟩, hF, by rw [h2]; exact hI.2,
    by rw [h2]; linarith, a, e⟩

lemma route_inv {g : Rng K σ} {k : Sed} {P : Params L W m K} (hP : SedSetup P)
    {S S' : State L W K} {s s' : σ} {logs : List (SedLog L W K)} (hS : FlowOk P S)
    (h : routeParcels g k P S s = .ok (S', logs, s')) :
    FlowOk P S' ∧ ∀ l ∈ logs, 0 ≤ l.left ∧ ∀ r ∈ l.steps,
      StepEffect P r ∧ FlowOk P r.before ∧ 0 ≤ r.res ∧ 0 ≤ r.res - r.change ∧
      |r.change| ≤ |r.before.stage r.cell - r.before.eta r.cell| / 4 * (P.dx * P.dx) ∧
      (r.before.stage r.cell < r.before.eta r.cell → r.change ≤ 0) := by
  obtain ⟨starts, st, -, hp, rfl⟩ := routeParcels_ok h
  have := sedParcels_induct (g := g) (k := k) (P := P)
    (fun st logs => FlowOk P st.S ∧ ∀ l ∈ logs, 0 ≤ l.left ∧ ∀ r ∈ l.steps,
      StepEffect P r ∧ FlowOk P r.before ∧ 0 ≤ r.res ∧ 0 ≤ r.res - r.change ∧
      |r.change| ≤ |r.before.stage r.cell - r.before.eta r.cell| / 4 * (P.dx * P.dx) ∧
      (r.before.stage r.cell < r.before.eta r.cell → r.change ≤ 0)) (by
      intro st logs py c s st' res rs s' ⟨hI, hQ⟩ hc hl
      have hent : FlowOk P (enterState k P st c).S := by cases k <;> exact hI
      obtain ⟨a, b⟩ := sedLoop_induct (fun st res => FlowOk P st.S ∧ 0 ≤ res)
        (fun r => StepEffect P r ∧ FlowOk P r.before ∧ 0 ≤ r.res ∧ 0 ≤ r.res - r.change ∧
          |r.change| ≤ |r.before.stage r.cell - r.before.eta r.cell| / 4 * (P.dx * P.dx) ∧
          (r.before.stage r.cell < r.before.eta r.cell → r.change ≤ 0))
        (fun st px py res s st1 res1 r s1 hI h =>
          ⟨(step_inv hP hI h).1, stepEffect h, (step_inv hP hI h).2⟩)
        _ _ _ _ _ _ _ _ _ _ ⟨hent, hP.vp⟩ hl
      refine ⟨a.1, fun l hl' => ?_⟩
      simp only [List.mem_append, List.mem_singleton] at hl'
      rcases hl' with hl' | rfl
      · exact hQ l hl'
      · exact ⟨a.2, b⟩) _ _ [] _ _ _ _ ⟨hS, by simp⟩ hp
  simpa using this

/-! ## C22 -/

/-- C22: in every step of every parcel, the bed of the cell changes by at most a quarter of the
local water depth (its absolute value where the bed is above the water), every other cell keeps
its bed, and nothing is deposited on emergent ground. -/
theorem C22_quarter_depth {g : Rng K σ} {k : Sed} {P : Params L W m K} (hP : SedSetup P)
    {S S' : State L W K} {s s' : σ} {logs : List (SedLog L W K)} (hS : FlowOk P S)
    (h : routeParcels g k P S s = .ok (S', logs, s')) :
    ∀ l ∈ logs, ∀ r ∈ l.steps,
      |r.after.eta r.cell - r.before.eta r.cell| ≤
        |r.before.stage r.cell - r.before.eta r.cell| / 4 ∧
      (∀ c, c ≠ r.cell → r.after.eta c = r.before.eta c) ∧
      (r.before.stage r.cell < r.before.eta r.cell →
        r.after.eta r.cell ≤ r.before.eta r.cell) := by
  intro l hl r hr
  obtain ⟨he, -, -, -, hb, hdry⟩ := ((route_inv hP hS h).2 l hl).2 r hr
  have hd : 0 < P.dx * P.dx := mul_pos hP.dx hP.dx
  have heq : r.after.eta r.cell - r.before.eta r.cell = r.change / (P.dx * P.dx) := by
    rw [he.bed, Function.update_self]; ring
  refine ⟨?_, fun c hc => by rw [he.bed, Function.update_of_ne hc], fun hlt => ?_⟩
  · rw [heq, abs_div, abs_of_pos hd, div_le_iff₀ hd]
    exact hb
  · have := div_nonpos_of_nonpos_of_nonneg (hdry hlt) hd.le
    linarith

/-! ## C23 -/

/-- C23: a parcel never carries a negative volume: it starts with the parcel volume, and in each
step the volume decreases by exactly what is added to the bed and increases by exactly what is taken
from it. -/
theorem C23_carried {g : Rng K σ} {k : Sed} {P : Params L W m K} (hP : SedSetup P)
    {S S' : State L W K} {s s' : σ} {logs : List (SedLog L W K)} (hS : FlowOk P S)
    (h : routeParcels g k P S s = .ok (S', logs, s')) :
    ∀ l ∈ logs, 0 ≤ l.left ∧
      (∀ r, l.steps.head? = some r → r.res = P.VpSed) ∧
      (∀ r, l.steps.getLast? = some r →
        l.left = r.res - (r.after.eta r.cell - r.before.eta r.cell) * (P.dx * P.dx)) ∧
      List.IsChain (fun a b =>
        b.res = a.res - (a.after.eta a.cell - a.before.eta a.cell) * (P.dx * P.dx)) l.steps ∧
      ∀ r ∈ l.steps, 0 ≤ r.res := by
  have hd : P.dx * P.dx ≠ 0 := (mul_pos hP.dx hP.dx).ne'
  have hinv := (route_inv hP hS h).2
  have hch : ∀ r, StepEffect P r →
      (r.after.eta r.cell - r.before.eta r.cell) * (P.dx * P.dx) = r.change := by
    intro r he
    rw [he.bed, Function.update_self, add_sub_cancel_left, div_mul_cancel₀ _ hd]
  have hsh := routeParcels_each (g := g) (k := k) (P := P) (fun l =>
      (∀ r, l.steps.head? = some r → r.res = P.VpSed) ∧
      (∀ r, l.steps.getLast? = some r → l.left = r.res - r.change) ∧
      List.IsChain (fun a b => b.res = a.res - a.change) l.steps) (by
    intro st py c s st' res rs s' hc hl
    obtain ⟨-, -, -, -, a5, a6, a7, -⟩ := sedLoop_shape _ _ _ _ _ _ _ _ _ _ hl
    exact ⟨fun r hr => (a5 r hr).2, fun r hr => (a7 r hr).1, a6.imp (fun _ _ h => h.2.1)⟩) h
  intro l hl
  obtain ⟨h1, h2⟩ := hinv l hl
  obtain ⟨s1, s2, s3⟩ := hsh l hl
  refine ⟨h1, s1, fun r hr => ?_, ?_, fun r hr => (h2 r hr).2.2.1⟩
  · rw [hch r (h2 r (List.mem_of_getLast? hr)).1]; exact s2 r hr
  · have : ∀ (rs : List (SedRec L W K)), (∀ r ∈ rs, StepEffect P r) →
        List.IsChain (fun a b => b.res = a.res - a.change) rs →
        List.IsChain (fun a b =>
          b.res = a.res - (a.after.eta a.cell - a.before.eta a.cell) * (P.dx * P.dx)) rs := by
      intro rs
      induction rs with
      | nil => intro _ _; exact .nil
      | cons a rs ih =>
        intro h1 h2
        cases rs with
        | nil => exact .singleton _
        | cons b rs =>
          rw [List.isChain_cons_cons] at h2 ⊢
          refine ⟨by rw [hch a (h1 a List.mem_cons_self)]; exact h2.1,
            ih (fun r hr => h1 r (List.mem_cons_of_mem _ hr)) h2.2⟩
    exact this l.steps (fun r hr => (h2 r hr).1) s3

/-! ## C24 -/

/-- C24: the change of the bed volume is what the parcels brought in minus what they still carry
when they end. -/
theorem C24_mass {g : Rng K σ} {k : Sed} {P : Params L W m K} (hdx : P.dx ≠ 0)
    {S S' : State L W K} {s s' : σ} {logs : List (SedLog L W K)}
    (h : routeParcels g k P S s = .ok (S', logs, s')) :
    bedVolume P.dx S' - bedVolume P.dx S = (logs.map (fun l => P.VpSed - l.left)).sum := by
  have hd : P.dx * P.dx ≠ 0 := mul_ne_zero hdx hdx
  obtain ⟨st, rfl, h1⟩ := routeParcels_sum (g := g) (k := k) (P := P)
    (fun st => bedVolume P.dx st.S) (fun _ => 0) (fun r => r.change) (by
      intro st py c hc
      cases k <;> simp [enterState, enterSand, bedVolume]) (by
      intro st px py res s st1 res1 r s1 hs
      have he := stepEffect hs
      obtain ⟨hb, ha, -, -, -⟩ := before_eq hs
      have e0 : st.S.eta = r.before.eta := by rw [hb]
      unfold bedVolume
      rw [ha, he.bed, e0, ← Finset.sum_mul, ← Finset.sum_mul, Finset.sum_update_of_mem
        (Finset.mem_univ _), ← Finset.add_sum_erase _ _ (Finset.mem_univ r.cell),
        Finset.sdiff_singleton_eq_erase]
      field_simp
      ring) h
  have hleft := routeParcels_each (g := g) (k := k) (P := P)
    (fun l => l.left = P.VpSed - (l.steps.map (fun r => r.change)).sum) (by
      intro st py c s st' res rs s' hc hl
      have := sedLoop_sum (fun _ res => res) (fun r => - r.change) (by
        intro st px py res s st1 res1 r s1 hs
        obtain ⟨-, -, -, h3, -⟩ := before_eq hs
        rw [h3]; ring) _ _ _ _ _ _ _ _ _ _ hl
      simp only at this ⊢
      rw [this]
      have : ∀ l : List (SedRec L W K), (l.map (fun r => - r.change)).sum =
          - (l.map (fun r => r.change)).sum := by
        intro l; induction l with
        | nil => simp
        | cons a l ih => simp only [List.map_cons, List.sum_cons, ih]; ring
      rw [this]; ring) h
  rw [h1, add_sub_cancel_left]
  congr 1
  apply List.map_congr_left
  intro l hl
  rw [hleft l hl]; ring

/-- C24: there is one log entry for each parcel, and nothing else changes the bed: with no parcels
the bed is the same. -/
theorem C24_parcel_count {g : Rng K σ} (hg : ∀ s, 0 ≤ (g.next s).1 ∧ (g.next s).1 ≤ 1) {k : Sed}
    {P : Params L W m K} (hm : 0 < m) {S S' : State L W K} {s s' : σ} {logs : List (SedLog L W K)}
    (h : routeParcels g k P S s = .ok (S', logs, s')) : logs.length = numStarts k P := by
  obtain ⟨starts, st, h1, h2, -⟩ := routeParcels_ok h
  rw [sedParcels_length _ _ _ _ _ _ h2]
  have : Nonempty (Fin m) := ⟨⟨0, hm⟩⟩
  obtain ⟨l, hl, hlen, -⟩ := C05_start_indices hm (fun i => ((P.inlet i).val : ℤ))
    (getInletWeights (fun i => ((P.inlet i).val : ℤ)) : Fin m → K)
    (fun _ => by simp [getInletWeights])
    (by unfold total; simp only [getInletWeights, Finset.sum_const, Finset.card_univ,
          Fintype.card_fin, nsmul_eq_mul, mul_one]; exact_mod_cast hm)
    (drawN g (numStarts k P) s).1 (drawN_mem g (fun r => 0 ≤ r ∧ r ≤ 1) hg _ s)
  rw [h1] at hl
  cases hl
  rw [hlen, drawN_length]

/-! ## C25 -/

lemma flat_sum (δ : SedRec L W K → K) : ∀ logs : List (SedLog L W K),
    (logs.map (fun l => (0 : K) + (l.steps.map δ).sum)).sum =
      ((logs.flatMap (·.steps)).map δ).sum
  | [] => by simp
  | l :: logs => by
    rw [List.map_cons, List.sum_cons, List.flatMap_cons, List.map_append, List.sum_append,
      flat_sum δ logs, zero_add]

/-- C25: the record of the kind of sediment that is routed grows in each cell by exactly the
volumes deposited there; the record of the other kind does not change. -/
theorem C25_records {g : Rng K σ} {k : Sed} {P : Params L W m K}
    {S S' : State L W K} {s s' : σ} {logs : List (SedLog L W K)}
    (h : routeParcels g k P S s = .ok (S', logs, s')) (c : Cell L W) :
    (k = .sand → S'.depSand c = S.depSand c + deposited logs c ∧ S'.depMud c = S.depMud c) ∧
    (k = .mud → S'.depMud c = S.depMud c + deposited logs c ∧ S'.depSand c = S.depSand c) := by
  have hrec : ∀ {st : SedSt L W K} {px py res s st1 res1 r s1},
      sedStep g k P st px py res s = .ok (st1, res1, r, s1) →
      st1.S.depSand = (recordDeposit k r.before r.cell r.change).depSand ∧
      st1.S.depMud = (recordDeposit k r.before r.cell r.change).depMud ∧
      r.before.depSand = st.S.depSand ∧ r.before.depMud = st.S.depMud := by
    intro st px py res s st1 res1 r s1 hs
    obtain ⟨c0, d, c, cp, w, -, -, -, -, -, -, -, -, -, -, hc, -, -, -, -, ha, h2, -⟩ :=
      sedStep_ok hs
    obtain ⟨hb, -⟩ := before_eq hs
    rw [h2, ha, hc]
    exact ⟨rfl, rfl, by rw [hb], by rw [hb]⟩
  have own : ∀ {v : K} {c' : Cell L W} (f : Grid L W K),
      (if v > 0 then Function.update f c' (f c' + v) else f) c =
        f c + (if c' = c ∧ 0 < v then v else 0) := by
    intro v c' f
    by_cases hv : 0 < v
    · by_cases hc : c' = c
      · subst hc; simp [hv]
      · simp [hv, hc, Function.update_of_ne (Ne.symm hc)]
    · simp [hv]
  constructor
  · rintro rfl
    obtain ⟨st, rfl, h1⟩ := routeParcels_sum (g := g) (k := .sand) (P := P)
      (fun st => st.S.depSand c) (fun _ => 0)
      (fun r => if r.cell = c ∧ 0 < r.change then r.change else 0) (by
        intro st py c hc; simp [enterState, enterSand]) (by
        intro st px py res s st1 res1 r s1 hs
        obtain ⟨e1, -, e3, -⟩ := hrec hs
        rw [e1, ← e3, ← own]
        unfold recordDeposit
        split_ifs <;> rfl) h
    obtain ⟨st', hst', h2⟩ := routeParcels_sum (g := g) (k := .sand) (P := P)
      (fun st => st.S.depMud c) (fun _ => 0) (fun _ => 0) (by
        intro st py c hc; simp [enterState, enterSand]) (by
        intro st px py res s st1 res1 r s1 hs
        obtain ⟨-, e2, -, e4⟩ := hrec hs
        rw [e2, ← e4, add_zero]
        unfold recordDeposit
        split_ifs <;> rfl) h
    refine ⟨by rw [h1, flat_sum]; rfl, ?_⟩
    rw [← hst', h2]
    simp
  · rintro rfl
    obtain ⟨st, rfl, h1⟩ := routeParcels_sum (g := g) (k := .mud) (P := P)
      (fun st => st.S.depMud c) (fun _ => 0)
      (fun r => if r.cell = c ∧ 0 < r.change then r.change else 0) (by
        intro st py c hc; simp [enterState, enterSand]) (by
        intro st px py res s st1 res1 r s1 hs
        obtain ⟨-, e1, -, e3⟩ := hrec hs
        rw [e1, ← e3, ← own]
        unfold recordDeposit
        split_ifs <;> rfl) h
    obtain ⟨st', hst', h2⟩ := routeParcels_sum (g := g) (k := .mud) (P := P)
      (fun st => st.S.depSand c) (fun _ => 0) (fun _ => 0) (by
        intro st py c hc; simp [enterState, enterSand]) (by
        intro st px py res s st1 res1 r s1 hs
        obtain ⟨e2, -, e4, -⟩ := hrec hs
        rw [e2, ← e4, add_zero]
        unfold recordDeposit
        split_ifs <;> rfl) h
    refine ⟨by rw [h1, flat_sum]; rfl, ?_⟩
    rw [← hst', h2]
    simp

lemma deposited_nonneg (logs : List (SedLog L W K)) (c : Cell L W) : 0 ≤ deposited logs c := by
  unfold deposited
  apply List.sum_nonneg
  intro x hx
  simp only [List.mem_map] at hx
  obtain ⟨r, -, rfl⟩ := hx
  split_ifs with h
  · exact h.2.le
  · exact le_refl _

/-- C25: in no step does a record of either kind decrease. -/
theorem C25_monotone {g : Rng K σ} {k : Sed} {P : Params L W m K}
    {S S' : State L W K} {s s' : σ} {logs : List (SedLog L W K)}
    (h : routeParcels g k P S s = .ok (S', logs, s')) :
    ∀ l ∈ logs, ∀ r ∈ l.steps, ∀ c, r.before.depSand c ≤ r.after.depSand c ∧
      r.before.depMud c ≤ r.after.depMud c := by
  have hup : ∀ (f : Grid L W K) (c c' : Cell L W) (v : K), 0 < v →
      f c ≤ Function.update f c' (f c' + v) c := by
    intro f c c' v hv
    by_cases hc : c = c'
    · subst hc; rw [Function.update_self]; linarith
    · rw [Function.update_of_ne hc]
  refine (routeParcels_inv (g := g) (k := k) (P := P) (fun _ => True)
    (fun r => ∀ c, r.before.depSand c ≤ r.after.depSand c ∧
      r.before.depMud c ≤ r.after.depMud c) (fun _ _ _ => trivial) ?_ h trivial).2
  intro st px py res s st1 res1 r s1 _ hs
  refine ⟨trivial, fun c => ?_⟩
  obtain ⟨c0, d, c', cp, w, -, -, -, -, -, -, -, -, -, -, hc, -, -, -, -, ha, -, -⟩ :=
    sedStep_ok hs
  rw [ha]
  change r.before.depSand c ≤ (recordDeposit k r.before c' r.change).depSand c ∧
    r.before.depMud c ≤ (recordDeposit k r.before c' r.change).depMud c
  unfold recordDeposit
  split_ifs with hv
  · cases k
    · exact ⟨hup _ _ _ _ hv, le_refl _⟩
    · exact ⟨le_refl _, hup _ _ _ _ hv⟩
  · exact ⟨le_refl _, le_refl _⟩

/-! ## C26 -/

/-- C26: every step leaves the stage and the discharge as they are, sets the depth of the cell to
the positive part of stage minus bed and leaves the depth of all other cells; a submerged bed stays
submerged; the speed stays in [0, u_max] everywhere. -/
theorem C26_steps {g : Rng K σ} {k : Sed} {P : Params L W m K} (hP : SedSetup P)
    {S S' : State L W K} {s s' : σ} {logs : List (SedLog L W K)} (hS : FlowOk P S)
    (h : routeParcels g k P S s = .ok (S', logs, s')) :
    ∀ l ∈ logs, ∀ r ∈ l.steps,
      r.after.depth r.cell = max 0 (r.after.stage r.cell - r.after.eta r.cell) ∧
      (∀ c, c ≠ r.cell → r.after.depth c = r.before.depth c) ∧
      (r.before.eta r.cell ≤ r.before.stage r.cell → r.after.eta r.cell ≤ r.after.stage r.cell) ∧
      (∀ c, 0 ≤ r.after.uw c ∧ r.after.uw c ≤ P.uMax) ∧
      (0 < r.after.depth r.cell →
        r.after.uw r.cell = min P.uMax (r.after.qw r.cell / r.after.depth r.cell)) ∧
      r.after.stage = r.before.stage ∧ r.after.qw = r.before.qw ∧ r.after.qx = r.before.qx ∧
      r.after.qy = r.before.qy := by
  intro l hl r hr
  obtain ⟨he, hF, -, -, hb, -⟩ := ((route_inv hP hS h).2 l hl).2 r hr
  have hd : 0 < P.dx * P.dx := mul_pos hP.dx hP.dx
  have hdep : r.after.depth r.cell = max 0 (r.after.stage r.cell - r.after.eta r.cell) := by
    rw [he.depth, Function.update_self, he.stage]
  refine ⟨hdep, fun c hc => by rw [he.depth, Function.update_of_ne hc], ?_,
    fun c => ⟨(speed_ok hP he hF c).1, (speed_ok hP he hF c).2.1⟩, ?_, he.stage, he.discharge.2.2,
    he.discharge.1, he.discharge.2.1⟩
  · intro hsub
    rw [he.stage, he.bed, Function.update_self]
    rw [abs_of_nonneg (by linarith : (0 : K) ≤ r.before.stage r.cell - r.before.eta r.cell)] at hb
    have h1 : r.change / (P.dx * P.dx) ≤ (r.before.stage r.cell - r.before.eta r.cell) / 4 := by
      rw [div_le_iff₀ hd]; exact (le_abs_self _).trans hb
    linarith
  · intro hpos
    rw [hdep] at hpos ⊢
    rw [lt_max_iff] at hpos
    have hlt : r.after.eta r.cell < r.before.stage r.cell := by
      rw [he.stage] at hpos
      rcases hpos with h | h
      · exact absurd h (lt_irrefl _)
      · linarith
    rw [he.speed.2 hlt, he.stage, he.discharge.2.2,
      max_eq_right (by linarith : (0 : K) ≤ r.before.stage r.cell - r.after.eta r.cell)]

/-- C26: over the whole routing of one kind: stage and discharge are kept, speeds are in
[0, u_max], depths stay non-negative, and each cell either kept its bed and its depth or has the
depth that belongs to its bed and stage. -/
theorem C26_route {g : Rng K σ} {k : Sed} {P : Params L W m K} (hP : SedSetup P)
    {S S' : State L W K} {s s' : σ} {logs : List (SedLog L W K)} (hS : FlowOk P S)
    (hd : ∀ c, 0 ≤ S.depth c) (h : routeParcels g k P S s = .ok (S', logs, s')) :
    S'.stage = S.stage ∧ S'.qx = S.qx ∧ S'.qy = S.qy ∧ S'.qw = S.qw ∧
    (∀ c, 0 ≤ S'.depth c ∧ 0 ≤ S'.uw c ∧ S'.uw c ≤ P.uMax) ∧
    ∀ c, (S'.eta c = S.eta c ∧ S'.depth c = S.depth c) ∨
      S'.depth c = max 0 (S'.stage c - S'.eta c) := by
  obtain ⟨⟨st, ⟨a1, a2, a3, a4, a5, a6⟩, rfl⟩, -⟩ := routeParcels_inv (g := g) (k := k) (P := P)
    (fun st => st.S.stage = S.stage ∧ st.S.qx = S.qx ∧ st.S.qy = S.qy ∧ st.S.qw = S.qw ∧
      (∀ c, 0 ≤ st.S.depth c) ∧ ∀ c, (st.S.eta c = S.eta c ∧ st.S.depth c = S.depth c) ∨
      st.S.depth c = max 0 (st.S.stage c - st.S.eta c)) (fun _ => True)
    (by intro st c hI; cases k <;> exact hI) (by
      intro st px py res s st1 res1 r s1 ⟨a1, a2, a3, a4, a5, a6⟩ hs
      have he := stepEffect hs
      obtain ⟨hb, ha, -⟩ := before_eq hs
      have e1 : r.before.stage = st.S.stage := by rw [hb]
      have e2 : r.before.qx = st.S.qx := by rw [hb]
      have e3 : r.before.qy = st.S.qy := by rw [hb]
      have e4 : r.before.qw = st.S.qw := by rw [hb]
      have e5 : r.before.depth = st.S.depth := by rw [hb]
      have e6 : r.before.eta = st.S.eta := by rw [hb]
      rw [ha]
      refine ⟨⟨by rw [he.stage, e1, a1], by rw [he.discharge.1, e2, a2],
        by rw [he.discharge.2.1, e3, a3], by rw [he.discharge.2.2, e4, a4], fun c => ?_,
        fun c => ?_⟩, trivial⟩
      · rw [he.depth]
        by_cases hc : c = r.cell
        · rw [hc, Function.update_self]; exact le_max_left _ _
        · rw [Function.update_of_ne hc, e5]; exact a5 c
      · by_cases hc : c = r.cell
        · right
          rw [hc, he.depth, Function.update_self, he.stage]
        · rw [he.depth, he.bed, he.stage, Function.update_of_ne hc, Function.update_of_ne hc, e5,
            e6, e1]
          exact a6 c) h ⟨rfl, rfl, rfl, rfl, hd, fun _ => .inl ⟨rfl, rfl⟩⟩
  have hF := (route_inv hP hS h).1
  exact ⟨a1, a2, a3, a4, fun c => ⟨a5 c, (hF c).1, (hF c).2.1⟩, a6⟩

/-! ## C31 -/

lemma stepDist_pos_iff {s2 : K} (h : 0 < s2) (d : Fin 9) : 0 < stepDist s2 d ↔ d ≠ 4 := by
  fin_cases d <;> simp [stepDist, iwalk, jwalk, h]

/-- The sand flux that a step puts into `c`: half of the volume rate carried at the cell left and
half at the cell entered; nothing if the parcel does not move. -/
def stepFlux (P : Params L W m K) (r : SedRec L W K) (c : Cell L W) : K :=
  if r.dir = 4 then 0 else
    (if r.from_ = c then r.res / (2 * P.dt * P.dx) else 0) +
    (if r.cell = c then r.res / (2 * P.dt * P.dx) else 0)

lemma update_add (f : Grid L W K) (c c' : Cell L W) (v : K) :
    Function.update f c' (f c' + v) c = f c + if c' = c then v else 0 := by
  by_cases hc : c' = c
  · subst hc; simp
  · rw [Function.update_of_ne (Ne.symm hc), if_neg hc, add_zero]

lemma step_flux {g : Rng K σ} {P : Params L W m K} (hs2 : 0 < P.s2) {st st1 : SedSt L W K}
    {px py : ℤ} {res res1 : K} {s s1 : σ} {r : SedRec L W K}
    (h : sedStep g .sand P st px py res s = .ok (st1, res1, r, s1)) (c : Cell L W) :
    st1.S.qs c = st.S.qs c + stepFlux P r c := by
  have he := stepEffect h
  obtain ⟨c0, d, c', cp, w, -, -, -, -, -, -, -, hd, -, hf, hc, hres, hb, -, -, -, h1, -⟩ :=
    sedStep_ok h
  rw [h1, he.sandFlux, hb]
  unfold stepFlux
  rw [hd, hf, hc, hres]
  have e : res / 2 / P.dt / P.dx = res / (2 * P.dt * P.dx) := by
    rw [div_div, div_div, mul_assoc]
  unfold fieldsAt partitionSand
  simp only [e]
  by_cases h4 : d = 4
  · rw [if_neg (by rw [gt_iff_lt, stepDist_pos_iff hs2]; simp [h4]), if_pos h4, add_zero]
  · rw [if_pos (by rw [gt_iff_lt, stepDist_pos_iff hs2]; exact h4), if_neg h4]
    change Function.update _ c' (_ + _) c = _
    rw [update_add, update_add, add_assoc]

/-- C31, cell by cell: the sand flux of a cell grows by half the parcel volume rate for each parcel
entering there, and by half the carried volume rate for each departure and each arrival. -/
theorem C31_cell {g : Rng K σ} {P : Params L W m K} (hs2 : 0 < P.s2)
    {S S' : State L W K} {s s' : σ} {logs : List (SedLog L W K)}
    (h : routeParcels g .sand P S s = .ok (S', logs, s')) (c : Cell L W) :
    S'.qs c = S.qs c + (logs.map (fun l =>
      (if c.1 = 0 ∧ l.start = c.2 then P.VpSed / (2 * P.dt * P.dx) else 0) +
      (l.steps.map (fun r => stepFlux P r c)).sum)).sum := by
  have e : P.VpSed / 2 / P.dt / P.dx = P.VpSed / (2 * P.dt * P.dx) := by
    rw [div_div, div_div, mul_assoc]
  obtain ⟨st, rfl, h1⟩ := routeParcels_sum (g := g) (k := .sand) (P := P)
    (fun st => st.S.qs c)
    (fun j => if c.1 = 0 ∧ j = c.2 then P.VpSed / (2 * P.dt * P.dx) else 0)
    (fun r => stepFlux P r c) (by
      intro st py c' hc'
      have h0 : c'.1 = 0 := by
        unfold pyCell at hc'
        have hL : 0 < L := Nat.pos_of_ne_zero (NeZero.ne L)
        have : pyIdx L 0 = some 0 := by
          unfold pyIdx
          rw [dif_pos ⟨le_refl _, by exact_mod_cast hL⟩]
          congr 1
        rw [this] at hc'
        cases hi : pyIdx W py with
        | none => rw [hi] at hc'; simp at hc'
        | some j => rw [hi] at hc'; simp at hc'; rw [← hc']
      simp only [enterState, enterSand, update_add, e]
      congr 1
      apply if_congr _ rfl rfl
      constructor
      · rintro rfl; exact ⟨h0, rfl⟩
      · rintro ⟨h1, h2⟩; exact Prod.ext (h0.trans h1.symm) h2)
    (fun st px py res s st1 res1 r s1 hs => step_flux hs2 hs c) h
  exact h1

/-- C31, in total: half the parcel volume rate for each entry and the carried volume rate for each
step that moves. -/
theorem C31_total {g : Rng K σ} {P : Params L W m K} (hs2 : 0 < P.s2)
    {S S' : State L W K} {s s' : σ} {logs : List (SedLog L W K)}
    (h : routeParcels g .sand P S s = .ok (S', logs, s')) :
    ∑ c, S'.qs c = ∑ c, S.qs c + (logs.map (fun l => P.VpSed / (2 * P.dt * P.dx) +
      (l.steps.map (fun r => if r.dir = 4 then 0 else r.res / (P.dt * P.dx))).sum)).sum := by
  have hhalf : ∀ x : K, x / (2 * P.dt * P.dx) + x / (2 * P.dt * P.dx) = x / (P.dt * P.dx) := by
    intro x
    rw [← add_div, ← two_mul, mul_assoc, mul_div_mul_left _ _ (by norm_num : (2 : K) ≠ 0)]
  rw [Finset.sum_congr rfl (fun c _ => C31_cell hs2 h c), Finset.sum_add_distrib]
  congr 1
  have swap : ∀ {α : Type _} (l : List α) (f : α → Cell L W → K),
      ∑ c, (l.map (fun a => f a c)).sum = (l.map (fun a => ∑ c, f a c)).sum := by
    intro α l f
    induction l with
    | nil => simp
    | cons a l ih => simp only [List.map_cons, List.sum_cons, Finset.sum_add_distrib, ih]
  rw [swap logs (fun l c => (if c.1 = 0 ∧ l.start = c.2 then P.VpSed / (2 * P.dt * P.dx) else 0) +
      (l.steps.map (fun r => stepFlux P r c)).sum)]
  congr 1
  apply List.map_congr_left
  intro l _
  rw [Finset.sum_add_distrib, swap l.steps (fun r c => stepFlux P r c)]
  congr 1
  · rw [Finset.sum_eq_single ((0 : Fin L), l.start)]
    · simp
    · rintro c - hc
      rw [if_neg]
      rintro ⟨h1, h2⟩
      exact hc (Prod.ext h1 h2.symm)
    · intro h; exact absurd (Finset.mem_univ _) h
  · congr 1
    apply List.map_congr_left
    intro r _
    unfold stepFlux
    by_cases h4 : r.dir = 4
    · simp [h4]
    · simp only [if_neg h4, Finset.sum_add_distrib, Finset.sum_ite_eq, Finset.mem_univ, if_true,
        hhalf]

/-- C31: the sand flux is never negative. -/
theorem C31_nonneg {g : Rng K σ} {P : Params L W m K} (hP : SedSetup P)
    {S S' : State L W K} {s s' : σ} {logs : List (SedLog L W K)} (hS : FlowOk P S)
    (h : routeParcels g .sand P S s = .ok (S', logs, s')) (c : Cell L W) (hq : 0 ≤ S.qs c) :
    0 ≤ S'.qs c := by
  have hden : 0 ≤ 2 * P.dt * P.dx := (mul_pos (mul_pos (by norm_num) hP.dt) hP.dx).le
  rw [C31_cell hP.s2 h c]
  refine add_nonneg hq (List.sum_nonneg ?_)
  intro x hx
  simp only [List.mem_map] at hx
  obtain ⟨l, hl, rfl⟩ := hx
  have hl' := (route_inv hP hS h).2 l hl
  refine add_nonneg ?_ (List.sum_nonneg ?_)
  · split_ifs
    · exact div_nonneg hP.vp hden
    · exact le_refl _
  · intro x hx
    simp only [List.mem_map] at hx
    obtain ⟨r, hr, rfl⟩ := hx
    have hres := (hl'.2 r hr).2.2.1
    unfold stepFlux
    have h0 := div_nonneg hres hden
    split_ifs
    · exact le_refl _
    · exact add_nonneg h0 h0
    · exact add_nonneg h0 (le_refl _)
    · exact add_nonneg (le_refl _) h0
    · exact add_nonneg (le_refl _) (le_refl _)

/-- C31: mud parcels leave the sand flux alone. -/
theorem C31_mud {g : Rng K σ} {P : Params L W m K} {S S' : State L W K} {s s' : σ}
    {logs : List (SedLog L W K)} (h : routeParcels g .mud P S s = .ok (S', logs, s')) :
    S'.qs = S.qs := by
  obtain ⟨⟨st, a, rfl⟩, -⟩ := routeParcels_inv (g := g) (k := .mud) (P := P)
    (fun st => st.S.qs = S.qs) (fun _ => True) (by intro st c hI; exact hI) (by
      intro st px py res s st1 res1 r s1 hI hs
      have he := stepEffect hs
      obtain ⟨c0, d, c', cp, w, -, -, -, -, -, -, -, -, -, -, -, -, hb, -, -, -, h1, -⟩ :=
        sedStep_ok hs
      refine ⟨?_, trivial⟩
      rw [h1, he.sandFlux, hb]
      exact hI) h rfl
  exact a

end Verif.Props
