import Verif.Props.Sediment
import Verif.Props.RouteWater

/-!
# Walks of sediment parcels (C08, C27, C28, C71)
-/

set_option linter.unusedSectionVars false
set_option linter.unusedSimpArgs false

namespace Verif.Props

open Verif.Model Verif.Lemmas Verif.Spec

variable {K : Type*} [Field K] [LinearOrder K] [IsStrictOrderedRing K] [FloorRing K] {σ : Type*}
  {L W m : ℕ} [NeZero L] [NeZero W]

/-- The padded depth of the router agrees with the depth of the model, except in the last row. -/
structure PadOk (st : SedSt L W K) : Prop where
  inner : ∀ (c : Cell L W) (p : Cell (L + 2) (W + 2)), c.1.val + 1 < L → p.1.val = c.1.val + 1 →
    p.2.val = c.2.val + 1 → st.padDepth p = st.S.depth c
  pad : ∀ p, 0 ≤ st.padDepth p
  depth : ∀ c, 0 ≤ st.S.depth c

lemma cellAt_coords (c : Cell L W) : cellAt L W (c.1.val : ℤ) (c.2.val : ℤ) = some c := by
  unfold cellAt
  rw [dif_pos (by have := c.1.isLt; have := c.2.isLt; omega)]
  simp

lemma cellAt_some {px py : ℤ} {c : Cell L W} (h : cellAt L W px py = some c) :
    (px, py) = coords c := by
  unfold cellAt at h
  split_ifs at h with h1
  cases h
  simp [coords, h1.1.1, h1.2.1]

lemma pyIdx_neg_one {n : ℕ} (hn : 0 < n) : ∃ k, pyIdx n (-1) = some k ∧ k.val + 1 = n := by
  unfold pyIdx
  rw [dif_neg (by omega), dif_pos (by omega)]
  refine ⟨_, rfl, ?_⟩
  simp only
  omega

/-- Where a step from an active cell leads. -/
lemma target_cells {P : Params L W m K} (hP : SedDomain P) {c0 : Cell L W} (h0 : ActiveCell P c0)
    (d : Fin 9) :
    ∃ c cp, pyCell L W ((c0.1.val : ℤ) + jwalk d) ((c0.2.val : ℤ) + iwalk d) = some c ∧
      pyCell (L + 2) (W + 2) ((c0.1.val : ℤ) + jwalk d + 1) ((c0.2.val : ℤ) + iwalk d + 1) =
        some cp ∧
      (((c.1.val : ℤ) = c0.1.val + rowOff d ∧ (c.2.val : ℤ) = c0.2.val + colOff d ∧
          cp.1.val = c.1.val + 1 ∧ cp.2.val = c.2.val + 1) ∨
        (c0.1.val = 0 ∧ rowOff d = -1 ∧ c.1.val + 1 = L ∧ cp.1.val = 0)) := by
  obtain ⟨a1, a2, a3⟩ := hP.active c0 h0
  obtain ⟨w1, w2⟩ := walk_offsets d
  have b1 := rowOff_bounds d
  have b2 := colOff_bounds d
  rw [w1, w2]
  by_cases hup : c0.1.val = 0 ∧ rowOff d = -1
  · obtain ⟨i, hi, hi'⟩ := pyIdx_neg_one (n := L) (by omega)
    obtain ⟨j, hj, hj'⟩ := pyIdx_nonneg (n := W) (i := (c0.2.val : ℤ) + colOff d) (by omega)
      (by omega)
    obtain ⟨cp, hcp, e1, -⟩ := pyCell_nonneg (L := L + 2) (W := W + 2)
      (x := (c0.1.val : ℤ) + rowOff d + 1) (y := (c0.2.val : ℤ) + colOff d + 1) (by omega)
      (by push_cast; omega) (by omega) (by push_cast; omega)
    refine ⟨(i, j), cp, ?_, hcp, .inr ⟨hup.1, hup.2, hi', by omega⟩⟩
    have : (c0.1.val : ℤ) + rowOff d = -1 := by omega
    rw [this]
    simp [pyCell, hi, hj]
  · obtain ⟨c, hc, e1, e2⟩ := pyCell_nonneg (L := L) (W := W)
      (x := (c0.1.val : ℤ) + rowOff d) (y := (c0.2.val : ℤ) + colOff d) (by omega)
      (by omega) (by omega) (by omega)
    obtain ⟨cp, hcp, e3, e4⟩ := pyCell_nonneg (L := L + 2) (W := W + 2)
      (x := (c0.1.val : ℤ) + rowOff d + 1) (y := (c0.2.val : ℤ) + colOff d + 1) (by omega)
      (by push_cast; omega) (by omega) (by push_cast; omega)
    exact ⟨c, cp, hc, hcp, .inl ⟨e1, e2, by omega, by omega⟩⟩

lemma pad_nonneg {arr : Grid L W K} (h : ∀ c, 0 ≤ arr c) (p : Cell (L + 2) (W + 2)) :
    0 ≤ customPad arr p := by
  obtain ⟨c, -, -, hv⟩ := C03_pad_edge arr p
  rw [hv]
  exact h c

/-- From an active cell the weights exist and are a distribution. -/
lemma sed_weights (k : Sed) {P : Params L W m K} (hP : SedDomain P) {st : SedSt L W K} (hst : PadOk st)
    {c0 : Cell L W} (h0 : ActiveCell P c0) :
    ∃ w, sedWeights st.padDepth (customPad P.modSed) (customPad P.cellType) st.S.qx st.S.qy P.s2
        P.s05 P.dryDepth (P.pwSed k) c0 = .ok w ∧ IsDistribution w ∧ w 4 = 0 ∧
      ∀ d, padSlice (customPad P.cellType) c0 d = -2 → w d = 0 := by
  generalize hw : sedWeights st.padDepth (customPad P.modSed) (customPad P.cellType) st.S.qx st.S.qy
    P.s2 P.s05 P.dryDepth (P.pwSed k) c0 = x
  cases x with
  | ok w =>
    exact ⟨w, rfl, C08_sediment_distribution _ _ _ _ _ _ _ _ _ hP.s2 (hP.pw k) hst.pad
      (pad_nonneg hP.mod) c0 w hw⟩
  | error e =>
    exfalso
    rw [C08_error_iff _ _ _ _ _ _ _ _ _ hP.s2 (hP.pw k) hst.pad (pad_nonneg hP.mod)] at hw
    have h7 := hw.2 7 (by decide)
    obtain ⟨a1, a2, a3⟩ := hP.active c0 h0
    have := C03_interior_exact P.cellType c0 (⟨c0.1.val + 1, a1⟩, c0.2) 7 (by simp; ring) (by simp)
    unfold nbrs at this
    rw [this] at h7
    exact hP.below c0 (⟨c0.1.val + 1, a1⟩, c0.2) h0 rfl rfl h7

/-- Where a step leads: to a neighbouring cell that is not land, or from the first row upstream out
of the domain; there the index -1 means the last row, which is edge. -/
def SedMove (P : Params L W m K) (r : SedRec L W K) : Prop :=
  ActiveCell P r.from_ ∧ r.old = coords r.from_ ∧
    r.new = (r.old.1 + rowOff r.dir, r.old.2 + colOff r.dir) ∧
    ((r.new = coords r.cell ∧ Adjacent r.from_ r.cell ∧ P.cellType r.cell ≠ -2) ∨
      (r.from_.1.val = 0 ∧ r.new.1 = -1 ∧ r.cell.1.val + 1 = L ∧ P.cellType r.cell = -1))

lemma sedStep_total {g : Rng K σ} (hg : PositiveDraws g) {k : Sed} {P : Params L W m K}
    (hP : SedDomain P) {st : SedSt L W K} (hst : PadOk st) {c0 : Cell L W} (h0 : ActiveCell P c0)
    (res : K) (s : σ) :
    ∃ st1 res1 r s1, sedStep g k P st (c0.1.val : ℤ) (c0.2.val : ℤ) res s =
      .ok (st1, res1, r, s1) := by
  obtain ⟨w, hw, hdist, -, -⟩ := sed_weights k hP hst h0
  obtain ⟨d, hd⟩ := C04_pick_total (by decide) w hdist.1 (g.next s).1 (hg s).2
  obtain ⟨c, cp, hc, hcp, -⟩ := target_cells hP h0 d
  unfold sedStep chooseNext
  rw [cellAt_coords]
  simp only [hw, hd, hc, hcp]
  exact ⟨_, _, _, _, rfl⟩

lemma sedStep_domain {g : Rng K σ} (hg : PositiveDraws g) {k : Sed} {P : Params L W m K}
    (hP : SedDomain P) {st st1 : SedSt L W K} (hst : PadOk st) {c0 : Cell L W}
    (h0 : ActiveCell P c0) {res res1 : K} {s s1 : σ} {r : SedRec L W K}
    (h : sedStep g k P st (c0.1.val : ℤ) (c0.2.val : ℤ) res s = .ok (st1, res1, r, s1)) :
    PadOk st1 ∧ SedMove P r ∧ (P.cellType r.cell ≠ -1 → ActiveCell P r.cell ∧
      r.new = coords r.cell) := by
  obtain ⟨c0', d, c, cp, w', e1, e2, e3, -, e5, e6, e7, e8, e9, e10, e11, e12, e13, e14, e15, e16,
    e17, e18⟩ := sedStep_ok h
  rw [cellAt_coords] at e1
  cases e1
  obtain ⟨w, hw, hdist, hw4, hland⟩ := sed_weights k hP hst h0
  rw [hw] at e2
  cases e2
  have hpos := pick_positive hdist (hg s).1 e3
  obtain ⟨c', cp', f1, f2, f3⟩ := target_cells hP h0 d
  rw [e5] at f1
  rw [e6] at f2
  cases f1
  cases f2
  obtain ⟨w1, w2⟩ := walk_offsets d
  have hdep : ∀ x, r.after.depth x = if x = c then max 0 (st.S.stage c -
      (st.S.eta c + r.change / (P.dx * P.dx))) else st.S.depth x := by
    intro x
    rw [e16, e13, fieldsAt_frame, recordDeposit_frame]
    simp only [updateFields]
    by_cases hx : x = c
    · subst hx; simp
    · simp [hx]
  refine ⟨⟨?_, ?_, ?_⟩, ⟨e10 ▸ h0, by rw [e7, e10]; rfl, by rw [e9, e7, e8, w1, w2], ?_⟩, ?_⟩
  · intro x p hx h1 h2
    rw [e18, e17]
    rcases f3 with ⟨g1, g2, g3, g4⟩ | ⟨g1, g2, g3, g4⟩
    · by_cases hxc : x = c
      · subst hxc
        have : p = cp := Prod.ext (Fin.ext (by omega)) (Fin.ext (by omega))
        rw [this, Function.update_self]
      · have : p ≠ cp := by
          rintro rfl
          exact hxc (Prod.ext (Fin.ext (by omega)) (Fin.ext (by omega)))
        rw [Function.update_of_ne this, hdep, if_neg hxc]
        exact hst.inner x p hx h1 h2
    · have hp : p ≠ cp := by rintro rfl; omega
      have hxc : x ≠ c := by rintro rfl; omega
      rw [Function.update_of_ne hp, hdep, if_neg hxc]
      exact hst.inner x p hx h1 h2
  · intro p
    rw [e18]
    by_cases hp : p = cp
    · subst hp
      rw [Function.update_self, hdep, if_pos rfl]
      exact le_max_left _ _
    · rw [Function.update_of_ne hp]
      exact hst.pad p
  · intro x
    rw [e17, hdep]
    split_ifs
    · exact le_max_left _ _
    · exact hst.depth x
  · rw [e9, e10, e11, w1, w2]
    rcases f3 with ⟨g1, g2, g3, g4⟩ | ⟨g1, g2, g3, g4⟩
    · left
      have hd4 : d ≠ 4 := by rintro rfl; rw [hw4] at hpos; exact lt_irrefl _ hpos
      have hro := rowOff_bounds d
      have hco := colOff_bounds d
      refine ⟨by simp [coords, g1, g2], ⟨?_, ?_, ?_⟩, ?_⟩
      · rintro rfl
        rcases off_ne_zero hd4 with h | h <;> omega
      · rw [abs_le]; constructor <;> omega
      · rw [abs_le]; constructor <;> omega
      · intro hl
        have := C03_interior_exact P.cellType c0 c d
          (by rw [g1]; unfold rowOff; ring) (by rw [g2]; unfold colOff; ring)
        unfold nbrs at this
        rw [hland d (by rw [this, hl])] at hpos
        exact lt_irrefl _ hpos
    · right
      exact ⟨g1, by rw [g1, g2]; simp, g3, hP.last c g3⟩
  · intro hne
    rw [e11] at hne
    rw [e9, e11, w1, w2]
    rcases f3 with ⟨g1, g2, g3, g4⟩ | ⟨g1, g2, g3, g4⟩
    · refine ⟨⟨hne, ?_⟩, by simp [coords, g1, g2]⟩
      intro hl
      have := C03_interior_exact P.cellType c0 c d
        (by rw [g1]; unfold rowOff; ring) (by rw [g2]; unfold colOff; ring)
      unfold nbrs at this
      rw [hland d (by rw [this, hl])] at hpos
      exact lt_irrefl _ hpos
    · exact absurd (hP.last c g3) hne

/-- The state of a parcel that is still being routed. -/
def Routing (P : Params L W m K) (st : SedSt L W K) (px py : ℤ) : Prop :=
  PadOk st ∧ ∃ c0, ActiveCell P c0 ∧ (px, py) = coords c0

lemma enter_pad {k : Sed} {P : Params L W m K} {st : SedSt L W K} (h : PadOk st) (c : Cell L W) :
    PadOk (enterState k P st c) := by
  cases k
  · exact ⟨h.inner, h.pad, h.depth⟩
  · exact h

lemma padOk_init {S : State L W K} (hd : ∀ c, 0 ≤ S.depth c) : PadOk ⟨S, customPad S.depth⟩ := by
  refine ⟨?_, pad_nonneg hd, hd⟩
  intro c p _ h1 h2
  have := C03_centre S.depth c
  unfold nbrs padSlice at this
  have e : p = (⟨c.1.val + (4 : Fin 9).val / 3, by have := c.1.isLt; simp⟩,
      ⟨c.2.val + (4 : Fin 9).val % 3, by have := c.2.isLt; simp⟩) :=
    Prod.ext (Fin.ext (by simp; omega)) (Fin.ext (by simp; omega))
  rw [e]
  exact this

/-- `Q` holds for every step that a parcel takes from an active cell. -/
def EachStep (g : Rng K σ) (k : Sed) (P : Params L W m K) (Q : SedRec L W K → Prop) : Prop :=
  ∀ st (c0 : Cell L W) res s st1 res1 r s1, PadOk st → ActiveCell P c0 →
    sedStep g k P st (c0.1.val : ℤ) (c0.2.val : ℤ) res s = .ok (st1, res1, r, s1) → Q r

lemma sedLoop_domain {g : Rng K σ} (hg : PositiveDraws g) {k : Sed} {P : Params L W m K}
    (hP : SedDomain P) {Q : SedRec L W K → Prop} (hQ : EachStep g k P Q) : ∀ n, 1 ≤ n → ∀ st px py res s, Routing P st px py →
      ∃ st' res' rs s', sedLoop g k P n st px py res s = .ok (st', res', rs, s') ∧ PadOk st' ∧
        ∀ r ∈ rs, Q r := by
  intro n
  induction n with
  | zero => intro h; omega
  | succ n ih =>
    rintro - st px py res s ⟨hst, c0, h0, hc⟩
    simp only [coords, Prod.mk.injEq] at hc
    obtain ⟨rfl, rfl⟩ := hc
    obtain ⟨st1, res1, r, s1, h1⟩ := sedStep_total hg (k := k) hP hst h0 res s
    obtain ⟨g1, -, g3⟩ := sedStep_domain hg hP hst h0 h1
    have g2 := hQ _ _ _ _ _ _ _ _ hst h0 h1
    unfold sedLoop
    rw [h1]
    simp only
    by_cases hstop : P.cellType r.cell = -1 ∨ n = 0
    · rw [if_pos hstop]
      exact ⟨_, _, _, _, rfl, g1, by simpa using g2⟩
    · rw [if_neg hstop]
      push Not at hstop
      obtain ⟨g4, g5⟩ := g3 hstop.1
      obtain ⟨st2, res2, rs, s2, h2, h3, h4⟩ := ih (by omega) st1 r.new.1 r.new.2 res1 s1
        ⟨g1, r.cell, g4, g5⟩
      rw [h2]
      refine ⟨_, _, _, _, rfl, h3, ?_⟩
      intro x hx
      rcases List.mem_cons.1 hx with rfl | hx
      · exact g2
      · exact h4 x hx

lemma sedParcels_domain {g : Rng K σ} (hg : PositiveDraws g) {k : Sed} {P : Params L W m K}
    (hP : SedDomain P) {Q : SedRec L W K → Prop} (hQ : EachStep g k P Q) : ∀ pys : List ℤ, (∀ y ∈ pys, ∃ i, y = ((P.inlet i).val : ℤ)) →
      ∀ st s, PadOk st → ∃ st' logs s', sedParcels g k P pys st s = .ok (st', logs, s') ∧
        PadOk st' ∧ ∀ l ∈ logs, ∀ r ∈ l.steps, Q r := by
  intro pys
  induction pys with
  | nil => intro _ st s hst; exact ⟨st, [], s, rfl, hst, by simp⟩
  | cons py pys ih =>
    intro hin st s hst
    obtain ⟨i, hi⟩ := hin py List.mem_cons_self
    have hc : pyCell L W 0 py = some ((0 : Fin L), P.inlet i) := by
      have := pyCell_self ((0 : Fin L), P.inlet i)
      have h00 : (((0 : Fin L), P.inlet i).1.val : ℤ) = 0 := by simp
      rw [h00] at this
      rw [hi]
      exact this
    obtain ⟨st2, res, rs, s1, h1, h2, h3⟩ := sedLoop_domain hg (k := k) hP hQ P.stepmax hP.steps
      (enterState k P st ((0 : Fin L), P.inlet i)) 0 py P.VpSed s
      ⟨enter_pad hst _, ((0 : Fin L), P.inlet i), hP.inlet i, by simp [coords, hi]⟩
    obtain ⟨st3, logs, s2, h4, h5, h6⟩ := ih (fun y hy => hin y (List.mem_cons_of_mem _ hy)) st2 s1 h2
    unfold sedParcels
    rw [hc]
    simp only [h1, h4]
    refine ⟨_, _, _, rfl, h5, ?_⟩
    intro l hl
    rcases List.mem_cons.1 hl with rfl | hl
    · exact h3
    · exact h6 l hl

lemma starts_exist {g : Rng K σ} (hg : PositiveDraws g) (inlet : Fin m → ℤ) (hm : 0 < m) (n : ℕ)
    (s : σ) : ∃ l, getStartIndices inlet (getInletWeights inlet : Fin m → K) (drawN g n s).1 = some l ∧
      l.length = n ∧ ∀ x ∈ l, ∃ k, x = inlet k := by
  have : Nonempty (Fin m) := ⟨⟨0, hm⟩⟩
  obtain ⟨l, hl, hlen, hmem⟩ := C05_start_indices hm inlet (getInletWeights inlet : Fin m → K)
    (fun _ => by simp [getInletWeights])
    (by unfold total; simp only [getInletWeights, Finset.sum_const, Finset.card_univ,
          Fintype.card_fin, nsmul_eq_mul, mul_one]; exact_mod_cast hm)
    (drawN g n s).1 (drawN_mem g (fun r => 0 ≤ r ∧ r ≤ 1)
      (fun s => ⟨(hg s).1.le, (hg s).2⟩) n s)
  exact ⟨l, hl, by rw [hlen, drawN_length], hmem⟩

lemma routeParcels_domain {g : Rng K σ} (hg : PositiveDraws g) (k : Sed) {P : Params L W m K}
    (hP : SedDomain P) {Q : SedRec L W K → Prop} (hQ : EachStep g k P Q) {S : State L W K} (hd : ∀ c, 0 ≤ S.depth c) (s : σ) :
    ∃ S' logs s', routeParcels g k P S s = .ok (S', logs, s') ∧ (∀ c, 0 ≤ S'.depth c) ∧
      ∀ l ∈ logs, ∀ r ∈ l.steps, Q r := by
  obtain ⟨starts, h1, h2, h3⟩ := starts_exist (g := g) hg (fun i => ((P.inlet i).val : ℤ)) hP.hm
    (numStarts k P) s
  obtain ⟨st, logs, s', h4, h5, h6⟩ := sedParcels_domain hg (k := k) hP hQ starts h3
    ⟨S, customPad S.depth⟩ (drawN g (numStarts k P) s).2 (padOk_init hd)
  unfold routeParcels
  simp only [h1, h4]
  exact ⟨_, _, _, rfl, h5.depth, h6⟩

lemma eachStep_move {g : Rng K σ} (hg : PositiveDraws g) {k : Sed} {P : Params L W m K}
    (hP : SedDomain P) : EachStep g k P (SedMove P) :=
  fun _ _ _ _ _ _ _ _ hst h0 h => (sedStep_domain hg hP hst h0 h).2.1

lemma routeSediment_ok {g : Rng K σ} {P : Params L W m K} {S S' : State L W K} {s s' : σ}
    {sand mud : List (SedLog L W K)} (h : routeSediment g P S s = .ok (S', sand, mud, s')) :
    ∃ S1 s1, routeParcels g .sand P (initSediment S) s = .ok (S1, sand, s1) ∧
      routeParcels g .mud P { S1 with
        eta := topoDiffusion P.cellType P.diffMult S1.qs P.Ncross S1.eta } s1 = .ok (S', mud, s') := by
  unfold routeSediment at h
  generalize h1 : routeParcels g .sand P (initSediment S) s = x at h
  cases x with
  | error e => simp at h
  | ok v =>
    obtain ⟨S1, sand1, s1⟩ := v
    simp only at h
    generalize h2 : routeParcels g .mud P { S1 with
        eta := topoDiffusion P.cellType P.diffMult S1.qs P.Ncross S1.eta } s1 = y at h
    cases y with
    | error e => simp at h
    | ok v =>
      obtain ⟨S3, mud1, s2⟩ := v
      simp only [Except.ok.injEq, Prod.mk.injEq] at h
      obtain ⟨rfl, rfl, rfl, rfl⟩ := h
      exact ⟨S1, s1, rfl, h2⟩

/-! ## C71 -/

/-- C71: the routing of sand or mud parcels never aborts: every parcel always finds a cell to go to and
no index leaves an array. -/
theorem C71_sediment_parcels {g : Rng K σ} (hg : PositiveDraws g) (k : Sed) {P : Params L W m K}
    (hP : SedDomain P) {S : State L W K} (hd : ∀ c, 0 ≤ S.depth c) (s : σ) :
    ∃ S' logs s', routeParcels g k P S s = .ok (S', logs, s') ∧ ∀ c, 0 ≤ S'.depth c := by
  obtain ⟨S', logs, s', h1, h2, -⟩ := routeParcels_domain hg k hP (eachStep_move hg hP) hd s
  exact ⟨S', logs, s', h1, h2⟩

/-- C71: the sediment routing of a timestep never aborts. -/
theorem C71_sediment_routing {g : Rng K σ} (hg : PositiveDraws g) {P : Params L W m K}
    (hP : SedDomain P) {S : State L W K} (hd : ∀ c, 0 ≤ S.depth c) (s : σ) :
    ∃ S' sand mud s', routeSediment g P S s = .ok (S', sand, mud, s') ∧ ∀ c, 0 ≤ S'.depth c := by
  obtain ⟨S1, sand, s1, h1, h2⟩ := C71_sediment_parcels hg .sand hP (S := initSediment S) hd s
  obtain ⟨S3, mud, s3, h3, h4⟩ := C71_sediment_parcels hg .mud hP
    (S := { S1 with eta := topoDiffusion P.cellType P.diffMult S1.qs P.Ncross S1.eta }) h2 s1
  unfold routeSediment
  simp only [h1, h3]
  exact ⟨_, _, _, _, rfl, h4⟩

/-! ## C27 -/

/-- C27: a parcel takes at least one and at most `stepmax` steps, begins in the first row, each step
begins where the last one ended, and it goes on exactly until it enters an edge cell or has taken
`stepmax` steps. -/
theorem C27_terminates {g : Rng K σ} {k : Sed} {P : Params L W m K} {S S' : State L W K} {s s' : σ}
    {logs : List (SedLog L W K)} (h : routeParcels g k P S s = .ok (S', logs, s')) :
    ∀ l ∈ logs, l.steps ≠ [] ∧ l.steps.length ≤ P.stepmax ∧
      (∀ r ∈ l.steps.dropLast, P.cellType r.cell ≠ -1) ∧
      (∀ r, l.steps.getLast? = some r → P.cellType r.cell = -1 ∨ l.steps.length = P.stepmax) ∧
      (∀ r, l.steps.head? = some r → r.old.1 = 0) ∧
      List.IsChain (fun a b => b.old = a.new) l.steps := by
  refine routeParcels_each (fun l => l.steps ≠ [] ∧ l.steps.length ≤ P.stepmax ∧
      (∀ r ∈ l.steps.dropLast, P.cellType r.cell ≠ -1) ∧
      (∀ r, l.steps.getLast? = some r → P.cellType r.cell = -1 ∨ l.steps.length = P.stepmax) ∧
      (∀ r, l.steps.head? = some r → r.old.1 = 0) ∧
      List.IsChain (fun a b => b.old = a.new) l.steps) ?_ h
  intro st py c s st' res rs s' hc hl
  obtain ⟨h1, h2, h3, h4, h5, h6, -⟩ := sedLoop_shape _ _ _ _ _ _ _ _ _ _ hl
  refine ⟨h1, h2, h3, h4, fun r hr => by rw [(h5 r hr).1], ?_⟩
  exact h6.imp (fun _ _ h => h.1)

/-- C27: in a well laid-out domain every step leads from an active cell to one of its neighbours that
is not land, except when a parcel leaves the first row upstream: its row index is then -1, the cell
it deposits in is in the last row (Python's negative index), and it stops there. -/
theorem C27_steps {g : Rng K σ} (hg : PositiveDraws g) {k : Sed} {P : Params L W m K}
    (hP : SedDomain P) {S S' : State L W K} (hd : ∀ c, 0 ≤ S.depth c) {s s' : σ}
    {logs : List (SedLog L W K)} (h : routeParcels g k P S s = .ok (S', logs, s')) :
    ∀ l ∈ logs, ∀ r ∈ l.steps, ActiveCell P r.from_ ∧ r.old = coords r.from_ ∧
      ((r.new = coords r.cell ∧ Adjacent r.from_ r.cell ∧ P.cellType r.cell ≠ -2) ∨
        (r.from_.1.val = 0 ∧ r.new.1 = -1 ∧ r.cell.1.val + 1 = L ∧ P.cellType r.cell = -1)) := by
  obtain ⟨S1, logs1, s1, h1, -, h2⟩ := routeParcels_domain hg k hP (eachStep_move hg hP) hd s
  rw [h] at h1
  cases h1
  intro l hl r hr
  obtain ⟨a, b, -, c⟩ := h2 l hl r hr
  exact ⟨a, b, c⟩

/-- Strict positivity of the quantities in the weights. -/
structure SedPositive (P : Params L W m K) : Prop where
  s05 : 0 < P.s05
  pw : ∀ k x, 0 < x → 0 < P.pwSed k x
  mod : ∀ c, 0 < P.modSed c
  dry : 0 ≤ P.dryDepth

lemma pad_pos {arr : Grid L W K} (h : ∀ c, 0 < arr c) (p : Cell (L + 2) (W + 2)) :
    0 < customPad arr p := by
  obtain ⟨c, -, -, hv⟩ := C03_pad_edge arr p
  rw [hv]
  exact h c

/-- What the choice of a step says about the depths at that time. -/
def WetFirst (P : Params L W m K) (r : SedRec L W K) : Prop :=
  (r.new = coords r.cell → r.cell.1.val + 1 < L → r.before.depth r.cell ≤ P.dryDepth →
    ∀ n, Adjacent r.from_ n → n.1.val + 1 < L → P.cellType n ≠ -2 → P.dryDepth < r.before.depth n →
      r.before.qx r.from_ * ((n.1.val : K) - r.from_.1.val) +
        r.before.qy r.from_ * ((n.2.val : K) - r.from_.2.val) ≤ 0) ∧
  (r.new.1 = -1 → 0 < r.before.qx r.from_ → r.before.qy r.from_ = 0 →
    ∀ n : Cell L W, n.1.val = 1 → n.2 = r.from_.2 → r.before.depth n ≤ P.dryDepth)

/-- The direction from a cell to a neighbour. -/
lemma direction_of {c n : Cell L W} (h : Adjacent c n) : ∃ d : Fin 9, d ≠ 4 ∧
    (n.1.val : ℤ) = c.1.val + rowOff d ∧ (n.2.val : ℤ) = c.2.val + colOff d := by
  obtain ⟨h1, h2, h3⟩ := h
  rw [abs_le] at h2 h3
  have key : ∀ a b : ℤ, -1 ≤ a → a ≤ 1 → -1 ≤ b → b ≤ 1 → ¬ (a = 0 ∧ b = 0) →
      ∃ d : Fin 9, d ≠ 4 ∧ a = rowOff d ∧ b = colOff d := by
    intro a b a1 a2 b1 b2 hne
    have ha : a = -1 ∨ a = 0 ∨ a = 1 := by omega
    have hb : b = -1 ∨ b = 0 ∨ b = 1 := by omega
    rcases ha with rfl | rfl | rfl <;> rcases hb with rfl | rfl | rfl
    · exact ⟨0, by decide⟩
    · exact ⟨1, by decide⟩
    · exact ⟨2, by decide⟩
    · exact ⟨3, by decide⟩
    · simp at hne
    · exact ⟨5, by decide⟩
    · exact ⟨6, by decide⟩
    · exact ⟨7, by decide⟩
    · exact ⟨8, by decide⟩
  obtain ⟨d, hd, e1, e2⟩ := key ((n.1.val : ℤ) - c.1.val) ((n.2.val : ℤ) - c.2.val) (by omega)
    (by omega) (by omega) (by omega) (by
      rintro ⟨e1, e2⟩
      exact h1 (Prod.ext (Fin.ext (by omega)) (Fin.ext (by omega))))
  exact ⟨d, hd, by omega, by omega⟩

lemma sedStep_wet {g : Rng K σ} (hg : PositiveDraws g) {k : Sed} {P : Params L W m K}
    (hP : SedDomain P) (hQ : SedPositive P) {st st1 : SedSt L W K} (hst : PadOk st) {c0 : Cell L W}
    (h0 : ActiveCell P c0) {res res1 : K} {s s1 : σ} {r : SedRec L W K}
    (h : sedStep g k P st (c0.1.val : ℤ) (c0.2.val : ℤ) res s = .ok (st1, res1, r, s1)) :
    WetFirst P r := by
  obtain ⟨c0', d, c, cp, w, e1, hw, e3, -, e5, e6, e7, e8, e9, e10, e11, e12, e13, -⟩ := sedStep_ok h
  rw [cellAt_coords] at e1
  cases e1
  obtain ⟨w', hw', hdist, -, -⟩ := sed_weights k hP hst h0
  rw [hw] at hw'
  cases hw'
  have hpos := pick_positive hdist (hg s).1 e3
  obtain ⟨w1, w2⟩ := walk_offsets d
  have hbd : r.before.depth = st.S.depth := by rw [e13, fieldsAt_frame]
  have hbx : r.before.qx = st.S.qx := by rw [e13, fieldsAt_frame]
  have hby : r.before.qy = st.S.qy := by rw [e13, fieldsAt_frame]
  have hslice : ∀ (n : Cell L W) (e : Fin 9), n.1.val + 1 < L →
      (n.1.val : ℤ) = c0.1.val + rowOff e → (n.2.val : ℤ) = c0.2.val + colOff e →
      padSlice st.padDepth c0 e = st.S.depth n := by
    intro n e hn h1 h2
    unfold padSlice
    apply hst.inner n _ hn
    · simp only; unfold rowOff at h1; omega
    · simp only; unfold colOff at h2; omega
  have htype : ∀ (n : Cell L W) (e : Fin 9),
      (n.1.val : ℤ) = c0.1.val + rowOff e → (n.2.val : ℤ) = c0.2.val + colOff e →
      padSlice (customPad P.cellType) c0 e = P.cellType n := by
    intro n e h1 h2
    exact C03_interior_exact P.cellType c0 n e (by rw [h1]; unfold rowOff; ring)
      (by rw [h2]; unfold colOff; ring)
  constructor
  · intro hnew hlast hdry n hadj hn hl hwet
    rw [hbx, hby]
    rw [hbd] at hdry hwet
    rw [e10] at hadj ⊢
    rw [e11] at hdry hlast hnew
    obtain ⟨e, he4, g1, g2⟩ := direction_of hadj
    rw [e9, w1, w2] at hnew
    simp only [coords, Prod.mk.injEq] at hnew
    have hno := C08_dry_only_without_wet_way st.padDepth (customPad P.modSed) (customPad P.cellType)
      st.S.qx st.S.qy P.s2 P.s05 P.dryDepth (P.pwSed k) hP.s2 hQ.s05 (hQ.pw k) (hP.pw k) hst.pad (pad_pos hQ.mod)
      hQ.dry c0 w hw d (by rw [hslice c d hlast hnew.1.symm hnew.2.symm]; exact hdry) hpos e he4
      (by rw [hslice n e hn g1 g2]; exact hwet) (by rw [htype n e g1 g2]; exact hl)
    unfold FlowTowards at hno
    have g1' : (rowOff e : K) = (n.1.val : K) - c0.1.val := by
      have : (rowOff e : ℤ) = (n.1.val : ℤ) - c0.1.val := by omega
      rw [this]; push_cast; ring
    have g2' : (colOff e : K) = (n.2.val : K) - c0.2.val := by
      have : (colOff e : ℤ) = (n.2.val : ℤ) - c0.2.val := by omega
      rw [this]; push_cast; ring
    rw [g1', g2'] at hno
    exact not_lt.1 hno
  · intro hnew hq hqy n hn hn2
    rw [hbx, e10] at hq
    rw [hby, e10] at hqy
    rw [hbd]
    rw [e10] at hn2
    rw [e9, w1] at hnew
    simp only at hnew
    have hb := rowOff_bounds d
    have hr0 : c0.1.val = 0 := by omega
    have hrd : rowOff d = -1 := by omega
    by_contra hwet
    push Not at hwet
    have e71 : (n.1.val : ℤ) = c0.1.val + rowOff 7 := by
      have : rowOff 7 = 1 := by decide
      rw [this]; omega
    have e72 : (n.2.val : ℤ) = c0.2.val + colOff 7 := by
      have : colOff 7 = 0 := by decide
      rw [this, hn2]; ring
    have hL := hP.hL
    have := C09_sediment_partial st.S.qx st.S.qy P.s2 P.s05 P.dryDepth (P.pwSed k)
      st.padDepth (customPad P.modSed) (customPad P.cellType)
      hP.s2 hQ.s05 (hQ.pw k) (hP.pw k) hst.pad (pad_pos hQ.mod) hQ.dry c0 hq hqy
      (by rw [hslice n 7 (by omega) e71 e72]; exact hwet)
      (by rw [htype n 7 e71 e72]; exact hP.below c0 n h0 (by omega) hn2) w hw d hrd
    rw [this] at hpos
    exact lt_irrefl _ hpos

/-- C08, over whole routings with the depths changing underway: a parcel enters a dry cell only if no
wet cell lies in a direction of the flow. (`C08` in the last row: see C27.) -/
theorem C08_route {g : Rng K σ} (hg : PositiveDraws g) {k : Sed} {P : Params L W m K}
    (hP : SedDomain P) (hQ : SedPositive P) {S S' : State L W K} (hd : ∀ c, 0 ≤ S.depth c) {s s' : σ}
    {logs : List (SedLog L W K)} (h : routeParcels g k P S s = .ok (S', logs, s')) :
    ∀ l ∈ logs, ∀ r ∈ l.steps, WetFirst P r := by
  obtain ⟨S1, logs1, s1, h1, -, h2⟩ := routeParcels_domain hg k hP (Q := WetFirst P)
    (fun _ _ _ _ _ _ _ _ hst h0 h => sedStep_wet hg hP hQ hst h0 h) hd s
  rw [h] at h1
  cases h1
  exact h2

/-- C27, under a condition: if water flows down-domain in the first row and the cell in front is wet
when the step is taken, the step stays in the domain. Missing for the full property: a dry cell in
front, where a parcel may leave upstream (`C27_upstream_witness`), and draws equal to 0. -/
theorem C27_in_domain_partial {g : Rng K σ} (hg : PositiveDraws g) {k : Sed} {P : Params L W m K}
    (hP : SedDomain P) (hQ : SedPositive P) {S S' : State L W K} (hd : ∀ c, 0 ≤ S.depth c)
    (hflow : ∀ c : Cell L W, c.1.val = 0 → ActiveCell P c → 0 < S.qx c ∧ S.qy c = 0) {s s' : σ}
    {logs : List (SedLog L W K)} (h : routeParcels g k P S s = .ok (S', logs, s')) :
    ∀ l ∈ logs, ∀ r ∈ l.steps,
      (∀ n : Cell L W, n.1.val = 1 → n.2 = r.from_.2 → P.dryDepth < r.before.depth n) →
      r.new = coords r.cell ∧ Adjacent r.from_ r.cell ∧ P.cellType r.cell ≠ -2 := by
  intro l hl r hr hwet
  obtain ⟨a, -, b | ⟨b1, b2, -, -⟩⟩ := C27_steps hg hP hd h l hl r hr
  · exact b
  · exfalso
    have hq : r.before.qx = S.qx ∧ r.before.qy = S.qy := by
      refine (routeParcels_inv (g := g) (k := k) (P := P)
        (fun st => st.S.qx = S.qx ∧ st.S.qy = S.qy) (fun r => r.before.qx = S.qx ∧ r.before.qy = S.qy)
        (by intro st c hI; cases k <;> exact hI) ?_ h ⟨rfl, rfl⟩).2 l hl r hr
      intro st px py res s st1 res1 r s1 ⟨i1, i2⟩ hs
      have he := stepEffect hs
      obtain ⟨c0, d, c', cp, w, -, -, -, -, -, -, -, -, -, -, -, -, hb, -, -, -, h1, -⟩ :=
        sedStep_ok hs
      have j1 : r.before.qx = S.qx ∧ r.before.qy = S.qy := by
        rw [hb, fieldsAt_frame]; exact ⟨i1, i2⟩
      refine ⟨?_, j1⟩
      rw [h1, he.discharge.1, he.discharge.2.1]
      exact j1
    obtain ⟨f1, f2⟩ := hflow r.from_ b1 a
    have hL := hP.hL
    have := (C08_route hg hP hQ hd h l hl r hr).2 b2 (by rw [hq.1]; exact f1)
      (by rw [hq.2]; exact f2) (⟨1, by omega⟩, r.from_.2) rfl rfl
    exact absurd (hwet (⟨1, by omega⟩, r.from_.2) rfl rfl) (not_lt.2 this)

/-! ## C28 -/

/-- C28: how many parcels are routed. The counts are rounded down separately: if the number of sand
parcels is not whole, one parcel of the configured number is missing. -/
theorem C28_counts {P : Params L W m K} (h0 : 0 ≤ P.fBedload) (h1 : P.fBedload ≤ 1) :
    ((∃ n : ℕ, (P.NpSed : K) * P.fBedload = n) →
      numStarts .sand P + numStarts .mud P = P.NpSed) ∧
    ((¬ ∃ n : ℕ, (P.NpSed : K) * P.fBedload = n) →
      numStarts .sand P + numStarts .mud P + 1 = P.NpSed) := by
  have hN : (0 : K) ≤ P.NpSed := Nat.cast_nonneg _
  have hx : 0 ≤ (P.NpSed : K) * P.fBedload := mul_nonneg hN h0
  have hy : 0 ≤ (P.NpSed : K) * (1 - P.fBedload) := mul_nonneg hN (by linarith)
  have e : (P.NpSed : K) * (1 - P.fBedload) = ((P.NpSed : ℤ) : K) + -((P.NpSed : K) * P.fBedload) := by
    push_cast; ring
  unfold numStarts
  simp only [truncInt, if_pos hx, if_pos hy]
  have f1 : 0 ≤ ⌊(P.NpSed : K) * P.fBedload⌋ := Int.floor_nonneg.2 hx
  have f2 : 0 ≤ ⌊(P.NpSed : K) * (1 - P.fBedload)⌋ := Int.floor_nonneg.2 hy
  constructor
  · rintro ⟨n, hn⟩
    rw [e, Int.floor_intCast_add] at f2 ⊢
    have : ⌊-((P.NpSed : K) * P.fBedload)⌋ = -(n : ℤ) := by
      rw [hn, Int.floor_eq_iff]; push_cast; constructor <;> linarith
    rw [this] at f2 ⊢
    have : ⌊(P.NpSed : K) * P.fBedload⌋ = (n : ℤ) := by
      rw [hn]; exact Int.floor_natCast n
    rw [this]
    omega
  · intro hn
    rw [e, Int.floor_intCast_add] at f2 ⊢
    have hlt : ((⌊(P.NpSed : K) * P.fBedload⌋ : ℤ) : K) < (P.NpSed : K) * P.fBedload := by
      refine lt_of_le_of_ne (Int.floor_le _) (fun he => hn ⟨⌊(P.NpSed : K) * P.fBedload⌋.toNat, ?_⟩)
      have : ((⌊(P.NpSed : K) * P.fBedload⌋.toNat : ℤ) : K) = (⌊(P.NpSed : K) * P.fBedload⌋ : ℤ) := by
        rw [Int.toNat_of_nonneg f1]
      rw [he] at this
      rw [Int.cast_natCast] at this
      exact this.symm
    have : ⌊-((P.NpSed : K) * P.fBedload)⌋ = -⌊(P.NpSed : K) * P.fBedload⌋ - 1 := by
      rw [Int.floor_eq_iff]
      have := Int.lt_floor_add_one ((P.NpSed : K) * P.fBedload)
      push_cast
      constructor <;> linarith
    rw [this] at f2 ⊢
    omega

/-- C28 for whole sediment routings: the numbers of sand and mud parcels that were routed add up to
the configured number if the bedload fraction of it is whole. Missing for the full statement: all
other fractions (`C28_missing_parcel_witness`). -/
theorem C28_routed_partial {g : Rng K σ} (hg : ∀ s, 0 ≤ (g.next s).1 ∧ (g.next s).1 ≤ 1)
    {P : Params L W m K} (hm : 0 < m) (h0 : 0 ≤ P.fBedload) (h1 : P.fBedload ≤ 1)
    (hw : ∃ n : ℕ, (P.NpSed : K) * P.fBedload = n) {S S' : State L W K} {s s' : σ}
    {sand mud : List (SedLog L W K)} (h : routeSediment g P S s = .ok (S', sand, mud, s')) :
    sand.length + mud.length = P.NpSed ∧ (sand.length : K) = P.NpSed * P.fBedload := by
  obtain ⟨S1, s1, a1, a2⟩ := routeSediment_ok h
  rw [C24_parcel_count hg hm a1, C24_parcel_count hg hm a2]
  refine ⟨(C28_counts h0 h1).1 hw, ?_⟩
  obtain ⟨n, hn⟩ := hw
  have hx : 0 ≤ (P.NpSed : K) * P.fBedload := mul_nonneg (Nat.cast_nonneg _) h0
  unfold numStarts
  simp only [truncInt, if_pos hx]
  rw [hn, Int.floor_natCast]
  simp

/-- C28: with one parcel and half of it bedload, no parcel is routed. -/
theorem C28_missing_parcel_witness :
    numStarts .sand { exParams with NpSed := 1 } + numStarts .mud { exParams with NpSed := 1 } = 0 := by
  decide +kernel

/-! ## Non-trivial cases -/

lemma exSedSetup : SedSetup exParams where
  dx := by norm_num [exParams]
  dt := by norm_num [exParams]
  vp := by norm_num [exParams]
  mod := fun _ => by norm_num [exParams]
  lam0 := by norm_num [exParams]
  lam1 := by norm_num [exParams]
  pwNonneg := fun x h => by change 0 ≤ x * x * x; positivity
  pwPos := fun x h => by change 0 < x * x * x; positivity
  pwMono := fun x y h1 h2 => by
    change x * x * x ≤ y * y * y
    have h3 : x * x ≤ y * y := mul_le_mul h2 h2 h1 (h1.trans h2)
    exact mul_le_mul h3 h2 h1 (mul_self_nonneg y)
  eroSand := by norm_num [exParams]
  eroMud := by norm_num [exParams]
  depMud := by norm_num [exParams]
  uMax := by norm_num [exParams]
  s2 := by norm_num [exParams]

lemma exFlowOk : FlowOk exParams exState := by
  intro c
  change (0 : ℚ) ≤ (if c.2.val = 1 then 1 else 1 / 5) ∧ (if c.2.val = 1 then (1 : ℚ) else 1 / 5) ≤ 2 ∧
    (0 : ℚ) ≤ (if c.2.val = 1 then 1 else 1 / 5)
  split_ifs <;> norm_num

lemma exSedDomain : SedDomain exParams where
  hL := by decide
  active := by
    intro c h
    change exType c ≠ -1 ∧ exType c ≠ -2 at h
    revert c; decide
  last := by intro c h; change exType c = -1; revert c; decide
  below := by
    intro c n h1 h2 h3
    change exType c ≠ -1 ∧ exType c ≠ -2 at h1
    change exType n ≠ -2
    revert c n; decide
  inlet := by intro k; change exType (0, 1) ≠ -1 ∧ exType (0, 1) ≠ -2; decide
  hm := by decide
  steps := by decide
  s2 := by norm_num [exParams]
  pw := fun _ x _ => mul_self_nonneg x
  mod := fun _ => by norm_num [exParams]

lemma exSedPositive : SedPositive exParams where
  s05 := by norm_num [exParams]
  pw := fun _ x h => mul_pos h h
  mod := fun _ => by norm_num [exParams]
  dry := by norm_num [exParams]

-- C22 to C31: the example domain meets the hypotheses, and four parcels are routed
example : ∃ S' sand mud s', routeSediment constRng exParams exState () = .ok (S', sand, mud, s') ∧
    sand.length + mud.length = 4 := by
  obtain ⟨S', sand, mud, s', h, -⟩ := C71_sediment_routing exPositive exSedDomain (S := exState)
    (fun _ => by norm_num [exState]) ()
  exact ⟨S', sand, mud, s', h, (C28_routed_partial (fun s => ⟨(exPositive s).1.le, (exPositive s).2⟩)
    (by decide) (by norm_num [exParams]) (by norm_num [exParams])
    ⟨2, by norm_num [exParams]⟩ h).1⟩

example : ∃ S' logs s', routeParcels constRng .sand exParams exState () = .ok (S', logs, s') ∧
    (∀ l ∈ logs, 0 ≤ l.left) ∧ ∀ l ∈ logs, ∀ r ∈ l.steps, WetFirst exParams r := by
  have hd : ∀ c, 0 ≤ exState.depth c := fun _ => by norm_num [exState]
  obtain ⟨S', logs, s', h, -⟩ := C71_sediment_parcels exPositive .sand exSedDomain hd ()
  exact ⟨S', logs, s', h, fun l hl => (C23_carried exSedSetup exFlowOk h l hl).1,
    C08_route exPositive exSedDomain exSedPositive hd h⟩

-- the flow condition of C27 in the example
example : ∀ c : Cell 4 3, c.1.val = 0 → ActiveCell exParams c → 0 < exState.qx c ∧ exState.qy c = 0 := by
  intro c _ _
  refine ⟨?_, rfl⟩
  change (0 : ℚ) < if c.2.val = 1 then 1 else 1 / 5
  split_ifs <;> norm_num

/-- A generator that always draws 1/10. -/
def tenthRng : Rng ℚ Unit := ⟨fun s => (1 / 10, s)⟩

/-- C27 fails without water in front: a parcel at the inlet leaves upstream, with row index -1, and
acts on the last row of the domain. -/
theorem C27_upstream_witness :
    (sedStep tenthRng .sand exParams
      ⟨{ exState with depth := fun c => if c.1.val = 0 then 1 else 0 },
        customPad (fun c => if c.1.val = 0 then 1 else 0)⟩ 0 1 (1 / 4) ()).map
      (fun x => (x.2.2.1.new, x.2.2.1.cell)) = .ok ((-1, 1), (3, 1)) := by
  decide +kernel

end Verif.Props
