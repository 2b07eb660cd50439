import Verif.Props.FloatSediment
import Verif.Props.RouteWater
import Verif.Props.Clock

/-!
# C98: exchange of sediment with the bed in rounded arithmetic
-/

set_option linter.unusedSectionVars false
set_option linter.unusedSimpArgs false

namespace Verif.Props

open Verif.Model Verif.Lemmas Verif.Spec

variable {K : Type*} [Field K] [LinearOrder K] [IsStrictOrderedRing K] [FloorRing K] {σ : Type*}
  {L W m : ℕ} [NeZero L] [NeZero W] {F D : Rounding K}

/-- A quarter of the local water volume as it is computed. -/
def quarterR (F D : Rounding K) (stage eta dx : K) : K :=
  D.fl (D.fl (|F.fl (stage - eta)| / 4) * F.fl (dx * dx))

lemma quarterR_nonneg (stage eta dx : K) : 0 ≤ quarterR F D stage eta dx :=
  fl_nonneg D (mul_nonneg (fl_nonneg D (div_nonneg (abs_nonneg _) (by norm_num)))
    (fl_nonneg F (mul_self_nonneg dx)))

lemma fl_neg_iff (R : Rounding K) {x : K} : R.fl x < 0 ↔ x < 0 := by
  have := fl_pos_iff R (x := -x)
  rw [R.neg] at this
  constructor
  · intro h; have := this.1 (by linarith); linarith
  · intro h; have := this.2 (by linarith); linarith

lemma limitR_bounds {Vp stage eta dx : K} (ero : Bool) :
    limitChangeR F D Vp stage eta dx ero ≤ quarterR F D stage eta dx ∧
      (0 ≤ Vp → 0 ≤ limitChangeR F D Vp stage eta dx ero ∧ limitChangeR F D Vp stage eta dx ero ≤ Vp) ∧
      (ero = false → stage < eta → limitChangeR F D Vp stage eta dx ero = 0) := by
  have hq := quarterR_nonneg (F := F) (D := D) stage eta dx
  unfold limitChangeR
  simp only
  split_ifs with h1 h2
  · refine ⟨min_le_right _ _, fun hV => ⟨le_min hV hq, min_le_left _ _⟩, ?_⟩
    intro h; rw [h] at h2; cases h2
  · exact ⟨hq, fun hV => ⟨le_rfl, hV⟩, fun _ _ => rfl⟩
  · have he : |F.fl (stage - eta)| = F.fl (stage - eta) := abs_of_nonneg (not_lt.mp h1)
    unfold quarterR at hq ⊢
    rw [he] at hq ⊢
    refine ⟨min_le_right _ _, fun hV => ⟨le_min hV hq, min_le_left _ _⟩, ?_⟩
    intro _ hlt
    exact absurd ((fl_neg_iff F).2 (by linarith)) h1

lemma eroR_nonneg {P : Params L W m K} (hP : SedSetup P) {U Ue : K} (hUe : 0 < Ue) (h : Ue < U)
    (c : Cell L W) : 0 ≤ eroVolumeR F P.pwBeta P.VpSed U Ue (P.modErosion c) := by
  have h1 := hP.pwMono Ue U hUe.le h.le
  exact fl_nonneg F (div_nonneg (fl_nonneg F (mul_nonneg (fl_nonneg F (mul_nonneg (hP.mod c) hP.vp))
    (fl_nonneg F (by linarith)))) (hP.pwPos _ hUe).le)

/-- The volume a parcel leaves (or takes) in one step, in rounded arithmetic. -/
lemma changeR_bounds (k : Sed) {P : Params L W m K} (hP : SedSetup P) (S : State L W K)
    (c : Cell L W) (hU : 0 ≤ S.uw c) (res : K) :
    volumeChangeR F D k P S c res ≤ quarterR F D (S.stage c) (S.eta c) P.dx ∧
      (S.stage c < S.eta c → volumeChangeR F D k P S c res ≤ 0) ∧
      (0 ≤ res → -quarterR F D (S.stage c) (S.eta c) P.dx ≤ volumeChangeR F D k P S c res ∧
        (k = .sand → volumeChangeR F D k P S c res ≤ res) ∧
        volumeChangeR F D k P S c res ≤ res * (1 + F.u) ^ 4) := by
  have hz := quarterR_nonneg (F := F) (D := D) (S.stage c) (S.eta c) P.dx
  have hu := F.u_nonneg
  have h4 : ∀ {r : K}, 0 ≤ r → r ≤ r * (1 + F.u) ^ 4 := fun hr =>
    le_mul_of_one_le_right hr (one_le_pow₀ (by linarith))
  have zero : (0 : K) ≤ quarterR F D (S.stage c) (S.eta c) P.dx ∧
      (S.stage c < S.eta c → (0 : K) ≤ 0) ∧
      (0 ≤ res → -quarterR F D (S.stage c) (S.eta c) P.dx ≤ 0 ∧ (k = .sand → (0 : K) ≤ res) ∧
        0 ≤ res * (1 + F.u) ^ 4) :=
    ⟨hz, fun _ => le_rfl, fun hr => ⟨by linarith, fun _ => hr, hr.trans (h4 hr)⟩⟩
  have ero : ∀ Ue, 0 < Ue → Ue < S.uw c → ∀ v, v = limitChangeR F D
      (eroVolumeR F P.pwBeta P.VpSed (S.uw c) Ue (P.modErosion c)) (S.stage c) (S.eta c) P.dx true * -1 →
      v ≤ quarterR F D (S.stage c) (S.eta c) P.dx ∧ (S.stage c < S.eta c → v ≤ 0) ∧
      (0 ≤ res → -quarterR F D (S.stage c) (S.eta c) P.dx ≤ v ∧ (k = .sand → v ≤ res) ∧
        v ≤ res * (1 + F.u) ^ 4) := by
    rintro Ue h1 h2 v rfl
    obtain ⟨a, b, -⟩ := limitR_bounds (F := F) (D := D)
      (Vp := eroVolumeR F P.pwBeta P.VpSed (S.uw c) Ue (P.modErosion c)) (stage := S.stage c)
      (eta := S.eta c) (dx := P.dx) true
    obtain ⟨b1, b2⟩ := b (eroR_nonneg hP h1 h2 c)
    refine ⟨by linarith, fun _ => by linarith, fun hr => ⟨by linarith, fun _ => by linarith, ?_⟩⟩
    have := h4 hr
    linarith
  have dep : ∀ V, (0 ≤ res → 0 ≤ V ∧ (k = .sand → V ≤ res) ∧ V ≤ res * (1 + F.u) ^ 4) →
      ∀ v, v = limitChangeR F D V (S.stage c) (S.eta c) P.dx false →
      v ≤ quarterR F D (S.stage c) (S.eta c) P.dx ∧ (S.stage c < S.eta c → v ≤ 0) ∧
      (0 ≤ res → -quarterR F D (S.stage c) (S.eta c) P.dx ≤ v ∧ (k = .sand → v ≤ res) ∧
        v ≤ res * (1 + F.u) ^ 4) := by
    rintro V hV v rfl
    obtain ⟨a, b, e⟩ := limitR_bounds (F := F) (D := D) (Vp := V) (stage := S.stage c) (eta := S.eta c)
      (dx := P.dx) false
    refine ⟨a, fun h => (e rfl h).le, fun hr => ?_⟩
    obtain ⟨v0, v1, v2⟩ := hV hr
    obtain ⟨b1, b2⟩ := b v0
    exact ⟨by linarith, fun hk => b2.trans (v1 hk), b2.trans v2⟩
  generalize hv : volumeChangeR F D k P S c res = v
  cases k
  · unfold volumeChangeR sandChangeR at hv
    simp only at hv
    split_ifs at hv with h1 h2
    · exact dep res (fun hr => ⟨hr, fun _ => le_rfl, h4 hr⟩) _ hv.symm
    · exact ero _ hP.eroSand h2.1 _ hv.symm
    · subst hv; exact zero
  · unfold volumeChangeR mudChangeR at hv
    simp only at hv
    split_ifs at hv with h1 h2
    · exact ero _ hP.eroMud h1 _ hv.symm
    · have hd := hP.pwPos _ hP.depMud
      have hm := hP.pwMono (S.uw c) P.UdepMud hU h2.le
      have hn := hP.pwNonneg _ hU
      refine dep _ (fun hr => ?_) _ hv.symm
      have a0 : 0 ≤ P.lam * res := mul_nonneg hP.lam0 hr
      have b0 : 0 ≤ P.pwBeta P.UdepMud - P.pwBeta (S.uw c) := by linarith
      have ab := mul_nonneg (fl_nonneg F a0) (fl_nonneg F b0)
      refine ⟨fl_nonneg F (div_nonneg (fl_nonneg F ab) hd.le), (fun h => Sed.noConfusion h), ?_⟩
      have hl : P.lam * res ≤ res := mul_le_of_le_one_left hr hP.lam1
      have s1 : F.fl (P.lam * res) ≤ res * (1 + F.u) :=
        (fl_le F a0).trans (mul_le_mul_of_nonneg_right hl (by linarith))
      have s2 : F.fl (P.pwBeta P.UdepMud - P.pwBeta (S.uw c)) ≤ P.pwBeta P.UdepMud * (1 + F.u) :=
        (fl_le F b0).trans (mul_le_mul_of_nonneg_right (by linarith) (by linarith))
      have s3 : F.fl (F.fl (P.lam * res) * F.fl (P.pwBeta P.UdepMud - P.pwBeta (S.uw c))) ≤
          res * (1 + F.u) * (P.pwBeta P.UdepMud * (1 + F.u)) * (1 + F.u) :=
        (fl_le F ab).trans (mul_le_mul_of_nonneg_right
          (mul_le_mul s1 s2 (fl_nonneg F b0) (mul_nonneg hr (by linarith))) (by linarith))
      have s4 : F.fl (F.fl (P.lam * res) * F.fl (P.pwBeta P.UdepMud - P.pwBeta (S.uw c))) /
          P.pwBeta P.UdepMud ≤ res * (1 + F.u) ^ 3 := by
        rw [div_le_iff₀ hd]
        refine s3.trans (le_of_eq ?_)
        ring
      calc _ ≤ _ * (1 + F.u) := fl_le F (div_nonneg (fl_nonneg F ab) hd.le)
        _ ≤ res * (1 + F.u) ^ 3 * (1 + F.u) := mul_le_mul_of_nonneg_right s4 (by linarith)
        _ = _ := by ring
    · subst hv; exact zero

/-- The change of the bed as it is computed. -/
def bedChangeR (F D : Rounding K) (dx v : K) : K := D.fl (v / F.fl (dx * dx))

/-- A change of at most the computed quarter is a quarter of the depth up to rounding. -/
lemma bedChangeR_le {stage eta dx v : K} (hdx : 0 < dx) (h : v ≤ quarterR F D stage eta dx) :
    bedChangeR F D dx v ≤ |stage - eta| / 4 * ((1 + F.u) * (1 + D.u) ^ 3) := by
  have hq : 0 < F.fl (dx * dx) := fl_pos F (mul_pos hdx hdx)
  have hu := F.u_nonneg
  have hv := D.u_nonneg
  have ha : |F.fl (stage - eta)| ≤ |stage - eta| * (1 + F.u) := by
    have h1 := F.err (stage - eta)
    have h2 := abs_sub_abs_le_abs_sub (F.fl (stage - eta)) (stage - eta)
    linarith
  have h4 : 0 ≤ |F.fl (stage - eta)| / 4 := div_nonneg (abs_nonneg _) (by norm_num)
  have h5 : D.fl (|F.fl (stage - eta)| / 4) ≤ |stage - eta| / 4 * ((1 + F.u) * (1 + D.u)) := by
    refine (fl_le D h4).trans ?_
    calc _ ≤ |stage - eta| * (1 + F.u) / 4 * (1 + D.u) :=
          mul_le_mul_of_nonneg_right (div_le_div_of_nonneg_right ha (by norm_num)) (by linarith)
      _ = _ := by ring
  have h6 : v / F.fl (dx * dx) ≤ |stage - eta| / 4 * ((1 + F.u) * (1 + D.u) ^ 2) := by
    rw [div_le_iff₀ hq]
    refine h.trans ((fl_le D (mul_nonneg (fl_nonneg D h4) hq.le)).trans ?_)
    calc _ ≤ |stage - eta| / 4 * ((1 + F.u) * (1 + D.u)) * F.fl (dx * dx) * (1 + D.u) :=
          mul_le_mul_of_nonneg_right (mul_le_mul_of_nonneg_right h5 hq.le) (by linarith)
      _ = _ := by ring
  have h7 : 0 ≤ |stage - eta| / 4 * ((1 + F.u) * (1 + D.u) ^ 2) := by positivity
  refine (D.mono h6).trans ((fl_le D h7).trans (le_of_eq ?_))
  ring

lemma bedChangeR_neg (dx v : K) : bedChangeR F D dx (-v) = -bedChangeR F D dx v := by
  unfold bedChangeR
  rw [neg_div, D.neg]

lemma stored_err (x : K) : |F.fl (D.fl x) - x| ≤ (F.u + D.u + F.u * D.u) * |x| := by
  have h1 := F.err (D.fl x)
  have h2 := D.err x
  have h3 : |D.fl x| ≤ |x| * (1 + D.u) := by
    have := abs_sub_abs_le_abs_sub (D.fl x) x
    linarith
  have h4 : |F.fl (D.fl x) - x| ≤ |F.fl (D.fl x) - D.fl x| + |D.fl x - x| := abs_sub_le _ _ _
  have h5 : F.u * |D.fl x| ≤ F.u * (|x| * (1 + D.u)) := mul_le_mul_of_nonneg_left h3 F.u_nonneg
  linarith

/-- Fields as they are stored: the bed and the surface are numbers of the fields, the flow is as after
the water routing. -/
structure FloatFields (F : Rounding K) (P : Params L W m K) (S : State L W K) : Prop where
  flow : FlowOk P S
  bed : ∀ c, F.fl (S.eta c) = S.eta c
  stage : ∀ c, F.fl (S.stage c) = S.stage c

/-- What is true of a step in rounded arithmetic. -/
structure StepFloat (F D : Rounding K) (P : Params L W m K) (r : SedRec L W K) : Prop where
  /-- other cells keep their bed and depth, all cells their surface -/
  others : (∀ c, c ≠ r.cell → r.after.eta c = r.before.eta c ∧ r.after.depth c = r.before.depth c) ∧
    r.after.stage = r.before.stage
  /-- a submerged bed stays submerged -/
  submerged : r.before.eta r.cell ≤ r.before.stage r.cell → r.after.eta r.cell ≤ r.after.stage r.cell
  /-- the bed is not lowered by a deposit and not raised by erosion -/
  sign : (0 ≤ r.change → r.before.eta r.cell ≤ r.after.eta r.cell) ∧
    (r.change ≤ 0 → r.after.eta r.cell ≤ r.before.eta r.cell)
  /-- nothing is deposited on emergent ground -/
  emergent : r.before.stage r.cell < r.before.eta r.cell → r.change ≤ 0
  /-- depths are not negative, speeds within bounds -/
  depth : 0 ≤ r.after.depth r.cell
  speed : ∀ c, 0 ≤ r.after.uw c ∧ r.after.uw c ≤ P.uMax
  /-- at most a quarter of the depth, up to rounding -/
  quarter : 0 ≤ r.res → |r.after.eta r.cell - r.before.eta r.cell| ≤
    |r.before.stage r.cell - r.before.eta r.cell| / 4 * ((1 + F.u) * (1 + D.u) ^ 3) +
      (F.u + D.u + F.u * D.u) * (|r.before.eta r.cell| +
        |r.before.stage r.cell - r.before.eta r.cell| / 4 * ((1 + F.u) * (1 + D.u) ^ 3))
  /-- sand parcels give no more than they have, mud parcels up to rounding -/
  given : 0 ≤ r.res → r.change ≤ r.res * (1 + F.u) ^ 4
  /-- what the bed gains is what the parcel gives, up to rounding -/
  balance : |(F.fl (D.fl (r.res - r.change)) + r.after.eta r.cell * F.fl (P.dx * P.dx)) -
      (r.res + r.before.eta r.cell * F.fl (P.dx * P.dx))| ≤
    (F.u + D.u + F.u * D.u) * (|r.res - r.change| + F.fl (P.dx * P.dx) *
      |r.before.eta r.cell + bedChangeR F D P.dx r.change|) + D.u * |r.change|

lemma stepFloat {g : Rng K σ} {k : Sed} {P : Params L W m K} (hFD : Within F D) (hF : F.u ≤ 1 / 4)
    (hD : D.u ≤ 1 / 4) (hP : SedSetup P) (hU : F.fl P.uMax = P.uMax) {st st1 : SedSt L W K} {px py : ℤ}
    {res res1 : K} {s s1 : σ} {r : SedRec L W K} (hI : FloatFields F P st.S)
    (h : sedStepR F D g k P st px py res s = .ok (st1, res1, r, s1)) :
    FloatFields F P st1.S ∧ StepFloat F D P r ∧ r.res = res ∧ res1 = F.fl (D.fl (res - r.change)) ∧
      (k = .sand → 0 ≤ res → 0 ≤ res1) ∧ st1.S = r.after ∧ r.before.eta = st.S.eta := by
  obtain ⟨c0, d, c, cp, w, -, -, -, -, -, -, -, -, -, -, hcell, hres, hbef, hch, hres1, haft, hst1, -⟩ :=
    sedStepR_ok h
  subst hcell
  have hfr : r.before.eta = st.S.eta ∧ r.before.stage = st.S.stage ∧ r.before.uw = st.S.uw ∧
      r.before.qw = st.S.qw := by
    rw [hbef, fieldsAtR_frame]; exact ⟨rfl, rfl, rfl, rfl⟩
  obtain ⟨fe, fs, fu, fq⟩ := hfr
  have hB : FloatFields F P r.before :=
    ⟨fun x => by rw [fu, fq]; exact hI.flow x, fun x => by rw [fe]; exact hI.bed x,
      fun x => by rw [fs]; exact hI.stage x⟩
  have hqp : 0 < F.fl (P.dx * P.dx) := fl_pos F (mul_pos hP.dx hP.dx)
  have huF := F.u_nonneg
  have huD := D.u_nonneg
  -- the fields after the step
  rw [recordDepositR_frame] at haft
  set e' : K := D.fl (r.before.eta r.cell + bedChangeR F D P.dx r.change) with he'
  set dep : K := max 0 (D.fl (r.before.stage r.cell - e')) with hdep
  set uw' : K := if dep > 0 then min P.uMax (D.fl (r.before.qw r.cell / dep)) else r.before.uw r.cell with huw
  have aEta : r.after.eta = Function.update r.before.eta r.cell (F.fl e') := by rw [haft]; rfl
  have aDep : r.after.depth = Function.update r.before.depth r.cell (F.fl dep) := by rw [haft]; rfl
  have aUw : r.after.uw = Function.update r.before.uw r.cell (F.fl uw') := by rw [haft]; rfl
  have aSt : r.after.stage = r.before.stage := by rw [haft]; rfl
  have aQw : r.after.qw = r.before.qw := by rw [haft]; rfl
  have hUw : 0 ≤ uw' ∧ uw' ≤ P.uMax := by
    rw [huw]
    split_ifs with hd
    · exact ⟨le_min hP.uMax (fl_nonneg D (div_nonneg (hB.flow r.cell).2.2 hd.le)), min_le_left _ _⟩
    · exact ⟨(hB.flow r.cell).1, (hB.flow r.cell).2.1⟩
  have hspeed : ∀ x, 0 ≤ r.after.uw x ∧ r.after.uw x ≤ P.uMax := by
    intro x
    rw [aUw]
    by_cases hx : x = r.cell
    · rw [hx,Function.update_self]
      exact ⟨fl_nonneg F hUw.1, fl_le_of_le F hU hUw.2⟩
    · rw [Function.update_of_ne hx]
      exact ⟨(hB.flow x).1, (hB.flow x).2.1⟩
  obtain ⟨b1, b2, b3⟩ := changeR_bounds (F := F) (D := D) k hP r.before r.cell (hB.flow r.cell).1 res
  rw [← hch] at b1 b2 b3
  have hbc := bedChangeR_le (F := F) (D := D) hP.dx b1
  have hsmall : (1 + F.u) * (1 + D.u) ^ 3 ≤ 4 := by
    have h1 : (1 + D.u) ^ 3 ≤ (5 / 4 : K) ^ 3 := pow_le_pow_left₀ (by linarith) (by linarith) 3
    have h2 : (1 + F.u) * (1 + D.u) ^ 3 ≤ 5 / 4 * (5 / 4 : K) ^ 3 :=
      mul_le_mul (by linarith) h1 (pow_nonneg (by linarith) _) (by norm_num)
    refine h2.trans (by norm_num)
  have hbedD : D.fl (r.before.eta r.cell) = r.before.eta r.cell := hFD _ (hB.bed r.cell)
  have hstD : D.fl (r.before.stage r.cell) = r.before.stage r.cell := hFD _ (hB.stage r.cell)
  have hfields : FloatFields F P r.after := by
    refine ⟨fun x => ⟨(hspeed x).1, (hspeed x).2, by rw [aQw]; exact (hB.flow x).2.2⟩, fun x => ?_,
      fun x => by rw [aSt]; exact hB.stage x⟩
    rw [aEta]
    by_cases hx : x = r.cell
    · rw [hx, Function.update_self, F.idem]
    · rw [Function.update_of_ne hx]; exact hB.bed x
  have hetac : r.after.eta r.cell = F.fl e' := by rw [aEta, Function.update_self]
  refine ⟨by rw [hst1]; exact hfields, ?_, hres, by rw [hres1], fun hk h0 => ?_, hst1, fe⟩
  · refine ⟨⟨fun x hx => ?_, aSt⟩, fun hs => ?_, ⟨fun hv => ?_, fun hv => ?_⟩, b2, ?_, hspeed, fun hr => ?_,
      fun hr => ?_, ?_⟩
    · rw [aEta, aDep, Function.update_of_ne hx, Function.update_of_ne hx]; exact ⟨rfl, rfl⟩
    · rw [hetac, aSt]
      refine fl_le_of_le F (hB.stage _) (fl_le_of_le D hstD ?_)
      have h0 : 0 ≤ r.before.stage r.cell - r.before.eta r.cell := by linarith
      rw [abs_of_nonneg h0] at hbc
      have : (r.before.stage r.cell - r.before.eta r.cell) / 4 * ((1 + F.u) * (1 + D.u) ^ 3) ≤
          (r.before.stage r.cell - r.before.eta r.cell) / 4 * 4 :=
        mul_le_mul_of_nonneg_left hsmall (by linarith)
      linarith
    · rw [hetac]
      refine le_fl_of_le F (hB.bed _) (le_fl_of_le D hbedD ?_)
      have : 0 ≤ bedChangeR F D P.dx r.change := fl_nonneg D (div_nonneg hv hqp.le)
      linarith
    · rw [hetac]
      refine fl_le_of_le F (hB.bed _) (fl_le_of_le D hbedD ?_)
      have : bedChangeR F D P.dx r.change ≤ 0 := fl_nonpos D (div_nonpos_of_nonpos_of_nonneg hv hqp.le)
      linarith
    · rw [aDep, Function.update_self]
      exact fl_nonneg F (le_max_left _ _)
    · obtain ⟨b4, -⟩ := b3 (hres ▸ hr)
      have hbn := bedChangeR_le (F := F) (D := D) (stage := r.before.stage r.cell)
        (eta := r.before.eta r.cell) (v := -r.change) hP.dx (by linarith)
      rw [bedChangeR_neg] at hbn
      have habs : |bedChangeR F D P.dx r.change| ≤
          |r.before.stage r.cell - r.before.eta r.cell| / 4 * ((1 + F.u) * (1 + D.u) ^ 3) := by
        rw [abs_le]; constructor <;> linarith
      rw [hetac, he']
      set b := bedChangeR F D P.dx r.change
      set B := |r.before.stage r.cell - r.before.eta r.cell| / 4 * ((1 + F.u) * (1 + D.u) ^ 3)
      have h1 := stored_err (F := F) (D := D) (r.before.eta r.cell + b)
      have h2 : |r.before.eta r.cell + b| ≤ |r.before.eta r.cell| + B :=
        (abs_add_le _ _).trans (by linarith)
      have h3 : (F.u + D.u + F.u * D.u) * |r.before.eta r.cell + b| ≤
          (F.u + D.u + F.u * D.u) * (|r.before.eta r.cell| + B) :=
        mul_le_mul_of_nonneg_left h2 (by positivity)
      have h4 : |F.fl (D.fl (r.before.eta r.cell + b)) - r.before.eta r.cell| ≤
          |F.fl (D.fl (r.before.eta r.cell + b)) - (r.before.eta r.cell + b)| + |b| := by
        calc _ = |(F.fl (D.fl (r.before.eta r.cell + b)) - (r.before.eta r.cell + b)) + b| := by
              congr 1; ring
          _ ≤ _ := abs_add_le _ _
      linarith
    · rw [hres]; exact (b3 (hres ▸ hr)).2.2
    · rw [hetac, he']
      set b := bedChangeR F D P.dx r.change with hb
      set q := F.fl (P.dx * P.dx) with hq
      have h1 := stored_err (F := F) (D := D) (r.before.eta r.cell + b)
      have h2 := stored_err (F := F) (D := D) (r.res - r.change)
      have h3 : |b * q - r.change| ≤ D.u * |r.change| := by
        have h4 := D.err (r.change / q)
        have h5 : b * q - r.change = (b - r.change / q) * q := by
          rw [sub_mul, div_mul_cancel₀ _ hqp.ne']
        rw [h5, abs_mul, abs_of_pos hqp]
        calc |b - r.change / q| * q ≤ D.u * |r.change / q| * q := mul_le_mul_of_nonneg_right h4 hqp.le
          _ = D.u * |r.change| := by
            rw [abs_div, abs_of_pos hqp, mul_assoc, div_mul_cancel₀ _ hqp.ne']
      set X := F.fl (D.fl (r.before.eta r.cell + b))
      set Y := F.fl (D.fl (r.res - r.change))
      have h6 : (Y + X * q) - (r.res + r.before.eta r.cell * q) =
          (Y - (r.res - r.change)) + ((X - (r.before.eta r.cell + b)) * q + (b * q - r.change)) := by ring
      rw [h6]
      have h7 : |(X - (r.before.eta r.cell + b)) * q| ≤
          (F.u + D.u + F.u * D.u) * |r.before.eta r.cell + b| * q := by
        rw [abs_mul, abs_of_pos hqp]
        exact mul_le_mul_of_nonneg_right h1 hqp.le
      calc _ ≤ |Y - (r.res - r.change)| + |(X - (r.before.eta r.cell + b)) * q + (b * q - r.change)| :=
            abs_add_le _ _
        _ ≤ |Y - (r.res - r.change)| + (|(X - (r.before.eta r.cell + b)) * q| + |b * q - r.change|) := by
            have := abs_add_le ((X - (r.before.eta r.cell + b)) * q) (b * q - r.change)
            linarith
        _ ≤ (F.u + D.u + F.u * D.u) * |r.res - r.change| +
            ((F.u + D.u + F.u * D.u) * |r.before.eta r.cell + b| * q + D.u * |r.change|) := by linarith
        _ = _ := by ring
  · rw [hres1]
    have := (b3 h0).2.1 hk
    exact fl_nonneg F (fl_nonneg D (by linarith))

/-- C98: in every step of every parcel, in rounded arithmetic: a submerged bed stays submerged, nothing
is deposited on emergent ground, depths are not negative, speeds are within bounds, the bed changes by
at most a quarter of the depth up to rounding, and what the bed gains is what the parcel gives up to
rounding. The fields stay as they are stored. -/
theorem C98_steps {g : Rng K σ} {k : Sed} {P : Params L W m K} (hFD : Within F D) (hF : F.u ≤ 1 / 4)
    (hD : D.u ≤ 1 / 4) (hP : SedSetup P) (hU : F.fl P.uMax = P.uMax) {S S' : State L W K} {s s' : σ}
    {logs : List (SedLog L W K)} (hS : FloatFields F P S)
    (h : routeParcelsR F D g k P S s = .ok (S', logs, s')) :
    FloatFields F P S' ∧ ∀ l ∈ logs, ∀ r ∈ l.steps, StepFloat F D P r := by
  obtain ⟨starts, st, -, hp, rfl⟩ := routeParcelsR_ok h
  have := sedParcelsR_induct (F := F) (D := D) (g := g) (k := k) (P := P)
    (fun st logs => FloatFields F P st.S ∧ ∀ l ∈ logs, ∀ r ∈ l.steps, StepFloat F D P r) (by
      intro st logs py c s st' res rs s' ⟨hI, hQ⟩ hc hl
      have hent : FloatFields F P (enterStateR F D k P st c).S := by
        cases k
        · exact ⟨hI.flow, hI.bed, hI.stage⟩
        · exact hI
      obtain ⟨a, b⟩ := sedLoopR_induct (fun st _ => FloatFields F P st.S) (StepFloat F D P)
        (fun st px py res s st1 res1 r s1 hI h =>
          ⟨(stepFloat hFD hF hD hP hU hI h).1, (stepFloat hFD hF hD hP hU hI h).2.1⟩)
        _ _ _ _ _ _ _ _ _ _ hent hl
      refine ⟨a, fun l hl' => ?_⟩
      simp only [List.mem_append, List.mem_singleton] at hl'
      rcases hl' with hl' | rfl
      · exact hQ l hl'
      · exact b) _ _ [] _ _ _ _ ⟨hS, by simp⟩ hp
  simpa using this

/-- C98: a sand parcel never carries a negative volume, in rounded arithmetic. -/
theorem C98_sand {g : Rng K σ} {P : Params L W m K} (hFD : Within F D) (hF : F.u ≤ 1 / 4)
    (hD : D.u ≤ 1 / 4) (hP : SedSetup P) (hU : F.fl P.uMax = P.uMax) {S S' : State L W K} {s s' : σ}
    {logs : List (SedLog L W K)} (hS : FloatFields F P S)
    (h : routeParcelsR F D g .sand P S s = .ok (S', logs, s')) :
    ∀ l ∈ logs, 0 ≤ l.left ∧ ∀ r ∈ l.steps, 0 ≤ r.res := by
  obtain ⟨starts, st, -, hp, rfl⟩ := routeParcelsR_ok h
  have := sedParcelsR_induct (F := F) (D := D) (g := g) (k := .sand) (P := P)
    (fun st logs => FloatFields F P st.S ∧ ∀ l ∈ logs, 0 ≤ l.left ∧ ∀ r ∈ l.steps, 0 ≤ r.res) (by
      intro st logs py c s st' res rs s' ⟨hI, hQ⟩ hc hl
      have hent : FloatFields F P (enterStateR F D .sand P st c).S := ⟨hI.flow, hI.bed, hI.stage⟩
      obtain ⟨a, b⟩ := sedLoopR_induct (fun st res => FloatFields F P st.S ∧ 0 ≤ res) (fun r => 0 ≤ r.res)
        (fun st px py res s st1 res1 r s1 hI h => by
          obtain ⟨h1, -, h3, -, h5, -⟩ := stepFloat hFD hF hD hP hU hI.1 h
          exact ⟨⟨h1, h5 rfl hI.2⟩, by rw [h3]; exact hI.2⟩)
        _ _ _ _ _ _ _ _ _ _ ⟨hent, hP.vp⟩ hl
      refine ⟨a.1, fun l hl' => ?_⟩
      simp only [List.mem_append, List.mem_singleton] at hl'
      rcases hl' with hl' | rfl
      · exact hQ l hl'
      · exact ⟨a.2, b⟩) _ _ [] _ _ _ _ ⟨hS, by simp⟩ hp
  simp only [List.nil_append] at this
  exact this.2

/-- The rounding error of a step in the balance of volumes. -/
def stepError (F D : Rounding K) (P : Params L W m K) (r : SedRec L W K) : K :=
  (F.u + D.u + F.u * D.u) * (|r.res - r.change| + F.fl (P.dx * P.dx) *
    |r.before.eta r.cell + bedChangeR F D P.dx r.change|) + D.u * |r.change|

/-- C98: over a routing the volume of the bed grows by what the parcels brought minus what they still
carry at their end, up to the rounding errors of the steps. -/
theorem C98_mass {g : Rng K σ} {k : Sed} {P : Params L W m K} (hFD : Within F D) (hF : F.u ≤ 1 / 4)
    (hD : D.u ≤ 1 / 4) (hP : SedSetup P) (hU : F.fl P.uMax = P.uMax) {S S' : State L W K} {s s' : σ}
    {logs : List (SedLog L W K)} (hS : FloatFields F P S)
    (h : routeParcelsR F D g k P S s = .ok (S', logs, s')) :
    |(∑ c, S'.eta c * F.fl (P.dx * P.dx) - ∑ c, S.eta c * F.fl (P.dx * P.dx)) -
        (logs.map (fun l => P.VpSed - l.left)).sum| ≤
      (logs.map (fun l => (l.steps.map (stepError F D P)).sum)).sum := by
  obtain ⟨starts, st, -, hp, rfl⟩ := routeParcelsR_ok h
  set q := F.fl (P.dx * P.dx) with hq
  have hloop : ∀ n st px py res s st' res' rs s', FloatFields F P st.S →
      sedLoopR F D g k P n st px py res s = .ok (st', res', rs, s') →
      |(∑ c, st'.S.eta c * q + res') - (∑ c, st.S.eta c * q + res)| ≤ (rs.map (stepError F D P)).sum := by
    have hone : ∀ st px py res s st1 res1 r s1, FloatFields F P st.S →
        sedStepR F D g k P st px py res s = .ok (st1, res1, r, s1) →
        FloatFields F P st1.S ∧
        |(∑ c, st1.S.eta c * q + res1) - (∑ c, st.S.eta c * q + res)| ≤ stepError F D P r := by
      intro st px py res s st1 res1 r s1 hI h
      obtain ⟨h1, h2, h3, h4, -, h6, h7⟩ := stepFloat hFD hF hD hP hU hI h
      refine ⟨h1, ?_⟩
      have hb := h2.balance
      have hsum : ∑ c, st1.S.eta c * q = ∑ c, st.S.eta c * q + (r.after.eta r.cell - r.before.eta r.cell) * q := by
        have : ∀ c, st1.S.eta c * q = st.S.eta c * q +
            (if c = r.cell then (r.after.eta r.cell - r.before.eta r.cell) * q else 0) := by
          intro c
          by_cases hc : c = r.cell
          · rw [if_pos hc, hc, h6, ← h7]; ring
          · rw [if_neg hc, h6, (h2.others.1 c hc).1, h7, add_zero]
        rw [Finset.sum_congr rfl fun c _ => this c, Finset.sum_add_distrib]
        simp
      rw [hsum, h4, ← h3]
      unfold stepError
      refine le_trans (le_of_eq ?_) hb
      congr 1
      ring
    intro n
    induction n with
    | zero => intro st px py res s st' res' rs s' _ h; simp [sedLoopR] at h
    | succ n ih =>
      intro st px py res s st' res' rs s' hI h
      unfold sedLoopR at h
      generalize hs : sedStepR F D g k P st px py res s = x at h
      cases x with
      | error e => simp at h
      | ok x =>
        obtain ⟨st1, res1, r, s1⟩ := x
        obtain ⟨hI1, h1⟩ := hone _ _ _ _ _ _ _ _ _ hI hs
        simp only at h
        split_ifs at h with hc
        · simp only [Except.ok.injEq, Prod.mk.injEq] at h
          obtain ⟨rfl, rfl, rfl, rfl⟩ := h
          simpa using h1
        · generalize hl : sedLoopR F D g k P n st1 r.new.1 r.new.2 res1 s1 = y at h
          cases y with
          | error e => simp at h
          | ok y =>
            obtain ⟨st2, res2, rs2, s2⟩ := y
            simp only [Except.ok.injEq, Prod.mk.injEq] at h
            obtain ⟨rfl, rfl, rfl, rfl⟩ := h
            have h2 := ih _ _ _ _ _ _ _ _ _ hI1 hl
            rw [List.map_cons, List.sum_cons]
            have := abs_sub_le (∑ c, st2.S.eta c * q + res2) (∑ c, st1.S.eta c * q + res1)
              (∑ c, st.S.eta c * q + res)
            linarith
  have := sedParcelsR_induct (F := F) (D := D) (g := g) (k := k) (P := P)
    (fun st logs => FloatFields F P st.S ∧ |(∑ c, st.S.eta c * q - ∑ c, S.eta c * q) -
        (logs.map (fun l => P.VpSed - l.left)).sum| ≤
      (logs.map (fun l => (l.steps.map (stepError F D P)).sum)).sum) (by
      intro st logs py c s st' res rs s' ⟨hI, hJ⟩ hc hl
      have hent : FloatFields F P (enterStateR F D k P st c).S := by
        cases k
        · exact ⟨hI.flow, hI.bed, hI.stage⟩
        · exact hI
      have heta : (enterStateR F D k P st c).S.eta = st.S.eta := by cases k <;> rfl
      have a := (sedLoopR_induct (fun st _ => FloatFields F P st.S) (fun _ => True)
        (fun st px py res s st1 res1 r s1 hI h => ⟨(stepFloat hFD hF hD hP hU hI h).1, trivial⟩)
        _ _ _ _ _ _ _ _ _ _ hent hl).1
      have b := hloop _ _ _ _ _ _ _ _ _ _ hent hl
      rw [heta] at b
      refine ⟨a, ?_⟩
      simp only [List.map_append, List.sum_append, List.map_cons, List.map_nil, List.sum_cons,
        List.sum_nil, add_zero]
      have e : (∑ c, st'.S.eta c * q - ∑ c, S.eta c * q) -
          ((logs.map (fun l => P.VpSed - l.left)).sum + (P.VpSed - res)) =
          ((∑ c, st.S.eta c * q - ∑ c, S.eta c * q) - (logs.map (fun l => P.VpSed - l.left)).sum) +
          ((∑ c, st'.S.eta c * q + res) - (∑ c, st.S.eta c * q + P.VpSed)) := by ring
      rw [e]
      exact (abs_add_le _ _).trans (add_le_add hJ b)) _ _ [] _ _ _ _ ⟨hS, by simp⟩ hp
  simp only [List.nil_append] at this
  exact this.2

/-! ## Mud -/

/-- A parcel that carries less than nothing takes from the bed. -/
lemma changeR_neg (k : Sed) {P : Params L W m K} (hP : SedSetup P) (S : State L W K)
    (c : Cell L W) (hU : 0 ≤ S.uw c) {res : K} (hr : res ≤ 0) : volumeChangeR F D k P S c res ≤ 0 := by
  have hlim : ∀ V, V ≤ 0 → limitChangeR F D V (S.stage c) (S.eta c) P.dx false ≤ 0 := by
    intro V hV
    unfold limitChangeR
    simp only
    split_ifs with h1 h2
    · cases h2
    · exact le_rfl
    · exact (min_le_left _ _).trans hV
  have hero : ∀ Ue, 0 < Ue → Ue < S.uw c → limitChangeR F D
      (eroVolumeR F P.pwBeta P.VpSed (S.uw c) Ue (P.modErosion c)) (S.stage c) (S.eta c) P.dx true * -1 ≤ 0 := by
    intro Ue h1 h2
    have := ((limitR_bounds (F := F) (D := D) (stage := S.stage c) (eta := S.eta c) (dx := P.dx) true).2.1
      (eroR_nonneg (F := F) hP h1 h2 c)).1
    linarith
  generalize hv : volumeChangeR F D k P S c res = v
  cases k
  · unfold volumeChangeR sandChangeR at hv
    simp only at hv
    split_ifs at hv with h1 h2
    · rw [← hv]; exact hlim _ hr
    · rw [← hv]; exact hero _ hP.eroSand h2.1
    · exact hv.symm.le
  · unfold volumeChangeR mudChangeR at hv
    simp only at hv
    split_ifs at hv with h1 h2
    · rw [← hv]; exact hero _ hP.eroMud h1
    · rw [← hv]
      have hm := hP.pwMono (S.uw c) P.UdepMud hU h2.le
      refine hlim _ (fl_nonpos F (div_nonpos_of_nonpos_of_nonneg (fl_nonpos F
        (mul_nonpos_of_nonpos_of_nonneg (fl_nonpos F (mul_nonpos_of_nonneg_of_nonpos hP.lam0 hr))
          (fl_nonneg F (by linarith)))) (hP.pwPos _ hP.depMud).le))
    · exact hv.symm.le

/-- How far below nothing the volume of a parcel can get, relative to the most that it carried. -/
def slack (F D : Rounding K) : K := ((1 + F.u) ^ 4 - 1) * ((1 + F.u) * (1 + D.u))

/-- C98, partial: the full claim is that no parcel ever carries a negative volume. `C98_mud_negative`
shows that it is false for mud; here: if a parcel never carries more than `B`, its volume never gets
further below zero than a rounding error of `B`. -/
theorem C98_mud_partial {g : Rng K σ} {k : Sed} {P : Params L W m K} (hFD : Within F D) (hF : F.u ≤ 1 / 4)
    (hD : D.u ≤ 1 / 4) (hP : SedSetup P) (hU : F.fl P.uMax = P.uMax) {S S' : State L W K} {s s' : σ}
    {logs : List (SedLog L W K)} (hS : FloatFields F P S)
    (h : routeParcelsR F D g k P S s = .ok (S', logs, s')) :
    ∀ l ∈ logs, ∀ B, 0 ≤ B → (∀ r ∈ l.steps, r.res ≤ B) →
      -(slack F D * B) ≤ l.left ∧ ∀ r ∈ l.steps, -(slack F D * B) ≤ r.res := by
  have huF := F.u_nonneg
  have huD := D.u_nonneg
  have hone : (1 : K) ≤ (1 + F.u) ^ 4 := one_le_pow₀ (by linarith)
  have hsl : 0 ≤ slack F D := mul_nonneg (by linarith) (by positivity)
  have hstep : ∀ st px py res s st1 res1 r s1, FloatFields F P st.S →
      sedStepR F D g k P st px py res s = .ok (st1, res1, r, s1) → ∀ B, 0 ≤ B → res ≤ B →
      (0 ≤ res ∨ F.fl res = res ∧ -(slack F D * B) ≤ res) →
      (0 ≤ res1 ∨ F.fl res1 = res1 ∧ -(slack F D * B) ≤ res1) := by
    intro st px py res s st1 res1 r s1 hI h B hB hrB hr
    obtain ⟨h1, h2, h3, h4, -⟩ := stepFloat hFD hF hD hP hU hI h
    by_cases h0 : 0 ≤ res1
    · exact Or.inl h0
    refine Or.inr ⟨by rw [h4, F.idem], ?_⟩
    rcases lt_or_ge res 0 with hn | hn
    · obtain ⟨hf, hb⟩ : F.fl res = res ∧ -(slack F D * B) ≤ res := by
        rcases hr with hr | hr
        · exact absurd hr (not_le.2 hn)
        · exact hr
      have hc : r.change ≤ 0 := by
        obtain ⟨c0, d, c, cp, w, -, -, -, -, -, -, -, -, -, -, hcell, -, hbef, hch, -⟩ := sedStepR_ok h
        rw [hch]
        refine changeR_neg k hP _ _ ?_ hn.le
        rw [hbef, fieldsAtR_frame]
        exact (hI.flow c).1
      refine hb.trans ?_
      rw [h4]
      exact le_fl_of_le F hf (le_fl_of_le D (hFD _ hf) (by linarith))
    · have hg : r.change ≤ res * (1 + F.u) ^ 4 := by
        have := h2.given (by rw [h3]; exact hn)
        rwa [h3] at this
      have hx : 0 ≤ ((1 + F.u) ^ 4 - 1) * res := mul_nonneg (by linarith) hn
      have hy : -(((1 + F.u) ^ 4 - 1) * res) ≤ res - r.change := by linarith
      have e1 : D.fl (((1 + F.u) ^ 4 - 1) * res) ≤ ((1 + F.u) ^ 4 - 1) * res * (1 + D.u) := fl_le D hx
      have e2 : F.fl (D.fl (((1 + F.u) ^ 4 - 1) * res)) ≤
          ((1 + F.u) ^ 4 - 1) * res * (1 + D.u) * (1 + F.u) :=
        (fl_le F (fl_nonneg D hx)).trans (mul_le_mul_of_nonneg_right e1 (by linarith))
      have e3 := F.mono (D.mono hy)
      rw [D.neg, F.neg, ← h4] at e3
      have e4 : ((1 + F.u) ^ 4 - 1) * res * (1 + D.u) * (1 + F.u) = slack F D * res := by
        unfold slack; ring
      have e5 : slack F D * res ≤ slack F D * B := mul_le_mul_of_nonneg_left hrB hsl
      linarith
  have hloop : ∀ n st px py res s st' res' rs s', FloatFields F P st.S →
      sedLoopR F D g k P n st px py res s = .ok (st', res', rs, s') → ∀ B, 0 ≤ B →
      (∀ r ∈ rs, r.res ≤ B) → (0 ≤ res ∨ F.fl res = res ∧ -(slack F D * B) ≤ res) →
      -(slack F D * B) ≤ res' ∧ ∀ r ∈ rs, -(slack F D * B) ≤ r.res := by
    intro n
    induction n with
    | zero => intro st px py res s st' res' rs s' _ h; simp [sedLoopR] at h
    | succ n ih =>
      intro st px py res s st' res' rs s' hI h B hB hrs hr
      have hz : -(slack F D * B) ≤ 0 := by have := mul_nonneg hsl hB; linarith
      have weak : ∀ {x : K}, (0 ≤ x ∨ F.fl x = x ∧ -(slack F D * B) ≤ x) → -(slack F D * B) ≤ x := by
        rintro x (h | h)
        · exact hz.trans h
        · exact h.2
      unfold sedLoopR at h
      generalize hs : sedStepR F D g k P st px py res s = x at h
      cases x with
      | error e => simp at h
      | ok x =>
        obtain ⟨st1, res1, r, s1⟩ := x
        obtain ⟨hI1, -, h3, -⟩ := stepFloat hFD hF hD hP hU hI hs
        simp only at h
        split_ifs at h with hc
        · simp only [Except.ok.injEq, Prod.mk.injEq] at h
          obtain ⟨rfl, rfl, rfl, rfl⟩ := h
          have h1 := hstep _ _ _ _ _ _ _ _ _ hI hs B hB (by rw [← h3]; exact hrs r (by simp)) hr
          refine ⟨weak h1, fun r' hr' => ?_⟩
          simp only [List.mem_singleton] at hr'
          rw [hr', h3]; exact weak hr
        · generalize hl : sedLoopR F D g k P n st1 r.new.1 r.new.2 res1 s1 = y at h
          cases y with
          | error e => simp at h
          | ok y =>
            obtain ⟨st2, res2, rs2, s2⟩ := y
            simp only [Except.ok.injEq, Prod.mk.injEq] at h
            obtain ⟨rfl, rfl, rfl, rfl⟩ := h
            have h1 := hstep _ _ _ _ _ _ _ _ _ hI hs B hB (by rw [← h3]; exact hrs r (by simp)) hr
            obtain ⟨h4, h5⟩ := ih _ _ _ _ _ _ _ _ _ hI1 hl B hB
              (fun r' hr' => hrs r' (List.mem_cons_of_mem _ hr')) h1
            refine ⟨h4, fun r' hr' => ?_⟩
            rcases List.mem_cons.1 hr' with rfl | hr'
            · rw [h3]; exact weak hr
            · exact h5 r' hr'
  obtain ⟨starts, st, -, hp, rfl⟩ := routeParcelsR_ok h
  have := sedParcelsR_induct (F := F) (D := D) (g := g) (k := k) (P := P)
    (fun st logs => FloatFields F P st.S ∧ ∀ l ∈ logs, ∀ B, 0 ≤ B → (∀ r ∈ l.steps, r.res ≤ B) →
      -(slack F D * B) ≤ l.left ∧ ∀ r ∈ l.steps, -(slack F D * B) ≤ r.res) (by
      intro st logs py c s st' res rs s' ⟨hI, hQ⟩ hc hl
      have hent : FloatFields F P (enterStateR F D k P st c).S := by
        cases k
        · exact ⟨hI.flow, hI.bed, hI.stage⟩
        · exact hI
      have a := (sedLoopR_induct (fun st _ => FloatFields F P st.S) (fun _ => True)
        (fun st px py res s st1 res1 r s1 hI h => ⟨(stepFloat hFD hF hD hP hU hI h).1, trivial⟩)
        _ _ _ _ _ _ _ _ _ _ hent hl).1
      refine ⟨a, fun l hl' => ?_⟩
      simp only [List.mem_append, List.mem_singleton] at hl'
      rcases hl' with hl' | rfl
      · exact hQ l hl'
      · exact fun B hB hrs => hloop _ _ _ _ _ _ _ _ _ _ hent hl B hB hrs (Or.inl hP.vp))
      _ _ [] _ _ _ _ ⟨hS, by simp⟩ hp
  simp only [List.nil_append] at this
  exact this.2

/-! ## Numbers of parcels -/

lemma le_fl (R : Rounding K) {x : K} (h : 0 ≤ x) : x * (1 - R.u) ≤ R.fl x := by
  have := R.err x
  rw [abs_of_nonneg h, abs_le] at this
  linarith [this.1]

/-- C98, partial: the full claim is that the two numbers of parcels add to the configured number.
`C98_missing_parcel` shows that it is false; here: they are at most two short and never over it,
if the configured number is small against the accuracy of the arithmetic. -/
theorem C98_counts_partial {P : Params L W m K} (h0 : 0 ≤ P.fBedload) (h1 : P.fBedload ≤ 1)
    (hN : (P.NpSed : K) * ((1 + D.u) ^ 2 - 1) < 1) :
    numStartsR D .sand P + numStartsR D .mud P ≤ P.NpSed ∧
      P.NpSed ≤ numStartsR D .sand P + numStartsR D .mud P + 2 := by
  have hu := D.u_nonneg
  have hu1 : D.u ≤ 1 / 2 := D.u_half
  have n0 : (0 : K) ≤ P.NpSed := Nat.cast_nonneg _
  have a0 : 0 ≤ (P.NpSed : K) * P.fBedload := mul_nonneg n0 h0
  have g0 : 0 ≤ 1 - P.fBedload := by linarith
  have b0 : 0 ≤ (P.NpSed : K) * D.fl (1 - P.fBedload) := mul_nonneg n0 (fl_nonneg D g0)
  have A0 := fl_nonneg D a0
  have B0 := fl_nonneg D b0
  have key : ∀ x : K, 0 ≤ x → ((truncInt x).toNat : K) ≤ x ∧ x < ((truncInt x).toNat : K) + 1 := by
    intro x hx
    have hf : 0 ≤ ⌊x⌋ := Int.floor_nonneg.2 hx
    have e : (((truncInt x).toNat : ℤ) : K) = (⌊x⌋ : K) := by
      rw [truncInt, if_pos hx, Int.toNat_of_nonneg hf]
    rw [Int.cast_natCast] at e
    rw [e]
    exact ⟨Int.floor_le x, Int.lt_floor_add_one x⟩
  obtain ⟨s1, s2⟩ := key _ A0
  obtain ⟨m1, m2⟩ := key _ B0
  have u1 := fl_le D a0
  have u2 := fl_le D b0
  have u3 := fl_le D g0
  have l1 := le_fl D a0
  have l2 := le_fl D b0
  have l3 := le_fl D g0
  have u4 : (P.NpSed : K) * D.fl (1 - P.fBedload) ≤ P.NpSed * ((1 - P.fBedload) * (1 + D.u)) :=
    mul_le_mul_of_nonneg_left u3 n0
  have l4 : P.NpSed * ((1 - P.fBedload) * (1 - D.u)) ≤ (P.NpSed : K) * D.fl (1 - P.fBedload) :=
    mul_le_mul_of_nonneg_left l3 n0
  have u5 : (P.NpSed : K) * D.fl (1 - P.fBedload) * (1 + D.u) ≤
      P.NpSed * ((1 - P.fBedload) * (1 + D.u)) * (1 + D.u) := mul_le_mul_of_nonneg_right u4 (by linarith)
  have l5 : P.NpSed * ((1 - P.fBedload) * (1 - D.u)) * (1 - D.u) ≤
      (P.NpSed : K) * D.fl (1 - P.fBedload) * (1 - D.u) := mul_le_mul_of_nonneg_right l4 (by linarith)
  have hsum : D.fl ((P.NpSed : K) * P.fBedload) + D.fl ((P.NpSed : K) * D.fl (1 - P.fBedload)) <
      P.NpSed + 1 := by
    have e : (P.NpSed : K) * P.fBedload * (1 + D.u) + P.NpSed * ((1 - P.fBedload) * (1 + D.u)) * (1 + D.u)
        = P.NpSed + P.NpSed * ((1 + D.u) ^ 2 - 1) - P.NpSed * P.fBedload * (D.u + D.u ^ 2) := by ring
    have : 0 ≤ (P.NpSed : K) * P.fBedload * (D.u + D.u ^ 2) := by positivity
    linarith
  have hlow : (P.NpSed : K) - 1 <
      D.fl ((P.NpSed : K) * P.fBedload) + D.fl ((P.NpSed : K) * D.fl (1 - P.fBedload)) := by
    have e : (P.NpSed : K) * P.fBedload * (1 - D.u) + P.NpSed * ((1 - P.fBedload) * (1 - D.u)) * (1 - D.u)
        = P.NpSed - P.NpSed * ((1 + D.u) ^ 2 - 1) + P.NpSed * P.fBedload * (D.u - D.u ^ 2) +
          2 * (P.NpSed * D.u ^ 2) := by ring
    have e2 : 0 ≤ (P.NpSed : K) * P.fBedload * (D.u - D.u ^ 2) := by
      refine mul_nonneg a0 ?_
      have : D.u ^ 2 ≤ D.u * 1 := by rw [sq]; exact mul_le_mul_of_nonneg_left (by linarith) hu
      linarith
    have e3 : 0 ≤ (P.NpSed : K) * D.u ^ 2 := by positivity
    linarith
  unfold numStartsR
  simp only
  constructor
  · have : (((truncInt (D.fl ((P.NpSed : K) * P.fBedload))).toNat +
        (truncInt (D.fl ((P.NpSed : K) * D.fl (1 - P.fBedload)))).toNat : ℕ) : K) < ((P.NpSed + 1 : ℕ) : K) := by
      push_cast; linarith
    exact Nat.lt_succ_iff.1 (Nat.cast_lt.1 this)
  · have : (P.NpSed : K) < (((truncInt (D.fl ((P.NpSed : K) * P.fBedload))).toNat +
        (truncInt (D.fl ((P.NpSed : K) * D.fl (1 - P.fBedload)))).toNat + 3 : ℕ) : K) := by
      push_cast; linarith
    exact Nat.lt_succ_iff.1 (Nat.cast_lt.1 this)


/-! ## Single and double precision -/

/-- A case with still water, cells of 50 m, parcels of 10 cubic metres, and the power of the mud rule in
single precision. -/
def exMud : Params 4 3 1 ℚ :=
  { exParams with
    dx := 50
    VpSed := 10
    stepmax := 4
    NpSed := 2
    UdepMud := single.fl (3 / 10)
    pwBeta := fun x => single.fl (x * x * x) }

/-- Still water, five deep. -/
def exStill : State 4 3 ℚ :=
  { exState with eta := fun _ => -5, depth := fun _ => 5, uw := fun _ => 0, qw := fun _ => 0 }

lemma exMud_setup : SedSetup exMud where
  dx := by norm_num [exMud]
  dt := by norm_num [exMud, exParams]
  vp := by norm_num [exMud]
  mod := fun _ => by norm_num [exMud, exParams]
  lam0 := by norm_num [exMud, exParams]
  lam1 := by norm_num [exMud, exParams]
  pwNonneg := fun x h => fl_nonneg single (mul_nonneg (mul_self_nonneg x) h)
  pwPos := fun x h => fl_pos single (mul_pos (mul_pos h h) h)
  pwMono := fun x y h1 h2 => by
    refine single.mono ?_
    have h3 : x * x ≤ y * y := mul_le_mul h2 h2 h1 (h1.trans h2)
    exact mul_le_mul h3 h2 h1 (mul_self_nonneg y)
  eroSand := by norm_num [exMud, exParams]
  eroMud := by norm_num [exMud, exParams]
  depMud := fl_pos single (x := 3 / 10) (by norm_num)
  uMax := by norm_num [exMud, exParams]
  s2 := by norm_num [exMud, exParams]

lemma single_small : single.u ≤ 1 / 4 ∧ double.u ≤ 1 / 4 := by
  constructor <;> norm_num [binary]

lemma exMud_fields : FloatFields single exMud exStill where
  flow := fun c => ⟨le_rfl, by norm_num [exMud, exParams, exStill], le_rfl⟩
  bed := fun c => by
    change single.fl (-5) = -5
    decide +kernel
  stage := fun c => by
    change single.fl 0 = 0
    decide +kernel

lemma exMud_max : single.fl exMud.uMax = exMud.uMax := by decide +kernel

/-- C98: in the arithmetic of the program a mud parcel can carry a negative volume: the rounded share
that is to be deposited is more than the parcel has. -/
theorem C98_mud_negative : ∃ S' logs s', routeParcelsR single double constRng .mud exMud exStill () =
    .ok (S', logs, s') ∧ ∃ l ∈ logs, ∃ r ∈ l.steps, r.res < 0 := by
  have h : ∃ x, (routeParcelsR single double constRng .mud exMud exStill ()).toOption = some x ∧
      ∃ l ∈ x.2.1, ∃ r ∈ l.steps, r.res < 0 := by
    have hb : ((routeParcelsR single double constRng .mud exMud exStill ()).toOption.map
        (fun x => x.2.1.any fun l => l.steps.any fun r => decide (r.res < 0))) = some true := by
      decide +kernel
    cases hx : (routeParcelsR single double constRng .mud exMud exStill ()).toOption with
    | none => rw [hx] at hb; simp at hb
    | some x =>
      rw [hx] at hb
      simp only [Option.map_some, Option.some.injEq, List.any_eq_true, decide_eq_true_eq] at hb
      exact ⟨x, rfl, hb⟩
  obtain ⟨⟨S', logs, s'⟩, h1, h2⟩ := h
  refine ⟨S', logs, s', ?_, h2⟩
  cases hr : routeParcelsR single double constRng .mud exMud exStill () with
  | error e => rw [hr] at h1; simp [Except.toOption] at h1
  | ok x => rw [hr] at h1; simp only [Except.toOption, Option.some.injEq] at h1; rw [h1]

-- C98: the hypotheses of `C98_steps`, `C98_mass` and `C98_mud_partial` hold there
example : ∃ S' logs s', routeParcelsR single double constRng .mud exMud exStill () = .ok (S', logs, s') ∧
    (∀ l ∈ logs, ∀ r ∈ l.steps, StepFloat single double exMud r) ∧ logs ≠ [] := by
  obtain ⟨S', logs, s', h, l, hl, -⟩ := C98_mud_negative
  exact ⟨S', logs, s', h, (C98_steps (within_binary _ _ (by norm_num)) single_small.1 single_small.2
    exMud_setup exMud_max exMud_fields h).2, List.ne_nil_of_mem hl⟩

/-- A case with small sand parcels. -/
def exSmall : Params 4 3 1 ℚ := { exParams with dx := 50, VpSed := 1 / 2048, stepmax := 2, NpSed := 2 }

/-- A bed five below the surface with much sand moving. -/
def exLoaded : State 4 3 ℚ := { exState with eta := fun _ => -5, depth := fun _ => 5, qs := fun _ => 100 }

/-- C98: in the arithmetic of the program sediment can vanish: a parcel of 1/2048 cubic metres leaves all
it carries on a bed that stays as it was in every cell. -/
theorem C98_vanishing : (routeParcelsR single double constRng .sand exSmall exLoaded ()).toOption.map
      (fun x => (x.2.1.map (·.left), x.2.1.map fun l => (l.steps.map (·.change)).sum,
        decide (∀ c, x.1.eta c = exLoaded.eta c))) =
    some ([0], [1 / 2048], true) := by
  decide +kernel

/-- In exact arithmetic the same parcels raise the bed. -/
example : (routeParcels constRng .sand exSmall exLoaded ()).toOption.map
      (fun x => (x.2.1.map (·.left), decide (∀ c, x.1.eta c = exLoaded.eta c))) =
    some ([0], false) := by
  decide +kernel

/-- C98: of 2000 parcels with a share of 0.8 of sand one is missing. -/
theorem C98_missing_parcel :
    numStartsR double .sand { exParams with NpSed := 2000, fBedload := double.fl (4 / 5) } = 1600 ∧
    numStartsR double .mud { exParams with NpSed := 2000, fBedload := double.fl (4 / 5) } = 399 ∧
    numStarts .mud { exParams with NpSed := 2000, fBedload := 4 / 5 } = 400 := by
  decide +kernel

-- C98: the hypothesis of `C98_counts_partial` for 2000 parcels
example : (2000 : ℚ) * ((1 + double.u) ^ 2 - 1) < 1 := by norm_num [binary]

end Verif.Props
