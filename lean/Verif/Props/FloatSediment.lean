import Verif.Lemmas.FloatSediment
import Verif.Props.FloatPick
import Verif.Props.SedWalk

/-!
# C98: sediment routing in rounded arithmetic
-/

set_option linter.unusedSectionVars false
set_option linter.unusedSimpArgs false

namespace Verif.Props

open Verif.Model Verif.Lemmas Verif.Spec

variable {K : Type*} [Field K] [LinearOrder K] [IsStrictOrderedRing K] [FloorRing K] {σ : Type*}
  {L W m : ℕ} [NeZero L] [NeZero W] {F D : Rounding K}

/-! ## Without rounding this is the routing of the exact model -/

lemma startLoopR_exact {n : ℕ} (inlet : Fin n → ℤ) (w : Fin n → K) (rs : List K) :
    startLoopR (exact K) inlet w rs = startLoop inlet w rs := by
  induction rs with
  | nil => rfl
  | cons r rs ih => simp only [startLoopR, startLoop, randomPickR_exact, ih]; rfl

lemma sedStepR_exact (g : Rng K σ) (k : Sed) (P : Params L W m K) (st : SedSt L W K) (px py : ℤ) (res : K)
    (s : σ) : sedStepR (exact K) (exact K) g k P st px py res s = sedStep g k P st px py res s := by
  unfold sedStepR sedStep chooseNextR chooseNext sedWeightsR sedWeights
  simp only [sedWeightAtCellR_exact, randomPickR_exact]
  cases k <;> rfl

lemma sedLoopR_exact (g : Rng K σ) (k : Sed) (P : Params L W m K) : ∀ (n : ℕ) (st : SedSt L W K) (px py : ℤ)
    (res : K) (s : σ), sedLoopR (exact K) (exact K) g k P n st px py res s = sedLoop g k P n st px py res s := by
  intro n
  induction n with
  | zero => intros; rfl
  | succ n ih =>
    intro st px py res s
    simp only [sedLoopR, sedLoop, sedStepR_exact, ih]
    rcases sedStep g k P st px py res s with e | ⟨st1, res1, r, s1⟩
    · rfl
    · simp only
      split_ifs
      · rfl
      · rcases sedLoop g k P n st1 r.new.1 r.new.2 res1 s1 with e | ⟨st2, res2, rs, s2⟩ <;> rfl

lemma sedParcelsR_exact (g : Rng K σ) (k : Sed) (P : Params L W m K) : ∀ (l : List ℤ) (st : SedSt L W K) (s : σ),
    sedParcelsR (exact K) (exact K) g k P l st s = sedParcels g k P l st s := by
  intro l
  induction l with
  | nil => intros; rfl
  | cons y l ih =>
    intro st s
    simp only [sedParcelsR, sedParcels, sedLoopR_exact, ih]
    cases k <;> rfl

theorem routeParcelsR_exact (g : Rng K σ) (k : Sed) (P : Params L W m K) (S : State L W K) (s : σ) :
    routeParcelsR (exact K) (exact K) g k P S s = routeParcels g k P S s := by
  have h : ∀ {n : ℕ} (inlet : Fin n → ℤ) (w : Fin n → K) (l : List K),
      getStartIndicesR (exact K) inlet w l = getStartIndices inlet w l := by
    intro n inlet w l
    unfold getStartIndicesR getStartIndices
    rw [startLoopR_exact, sumR_exact, List.sum_ofFn]
    rfl
  unfold routeParcelsR routeParcels
  simp only [h, sedParcelsR_exact]
  cases k <;> rfl

/-! ## Where parcels go -/

lemma fieldsAtR_frame (k : Sed) (P : Params L W m K) (S : State L W K) (c0 c : Cell L W) (d : Fin 9)
    (res : K) :
    fieldsAtR F D k P S c0 c d res = { S with qs := (fieldsAtR F D k P S c0 c d res).qs } := by
  cases k
  · unfold fieldsAtR partitionSandR; simp only; split_ifs <;> rfl
  · rfl

lemma recordDepositR_frame (k : Sed) (S : State L W K) (c : Cell L W) (v : K) :
    recordDepositR F D k S c v = { S with depSand := (recordDepositR F D k S c v).depSand,
                                          depMud := (recordDepositR F D k S c v).depMud } := by
  unfold recordDepositR
  split_ifs
  · cases k <;> rfl
  · rfl

/-- From an active cell the rounded weights exist; staying and land have weight zero, something has
not. -/
lemma sed_weightsR (k : Sed) {P : Params L W m K} (hP : SedDomain P) {st : SedSt L W K} (hst : PadOk st)
    {c0 : Cell L W} (h0 : ActiveCell P c0) :
    ∃ w, sedWeightsR F st.padDepth (customPad P.modSed) (customPad P.cellType) st.S.qx st.S.qy P.s2
        P.s05 P.dryDepth (P.pwSed k) c0 = .ok w ∧ (∀ d, 0 ≤ w d) ∧ (∃ d, 0 < w d) ∧ w 4 = 0 ∧
      ∀ d, padSlice (customPad P.cellType) c0 d = -2 → w d = 0 := by
  have hi : ∀ d, 0 ≤ weightIntR F (st.S.qx c0) (st.S.qy c0) P.s05 P.s2 d := fun d => le_max_left _ _
  have hres := sed_result (weightIntR F (st.S.qx c0) (st.S.qy c0) P.s05 P.s2) (padSlice st.padDepth c0)
    (padSlice (customPad P.modSed) c0) (padSlice (customPad P.cellType) c0) P.dryDepth
    (fun x => P.pwSed k (F.fl x)) (distances P.s2)
  have hsame := C97_sediment (R := F) (wInt := weightIntR F (st.S.qx c0) (st.S.qy c0) P.s05 P.s2)
    (depthN := padSlice st.padDepth c0) (modN := padSlice (customPad P.modSed) c0) (dist := distances P.s2)
    (ctN := padSlice (customPad P.cellType) c0) (dryDepth := P.dryDepth) (pw := P.pwSed k)
    (pw' := fun x => P.pwSed k (F.fl x)) hi (fun d => hst.pad _) (fun d => pad_nonneg hP.mod _)
    (fun d => (distances_pos hP.s2 d).le)
    (fun x hx => ⟨hP.pw k _ (fl_nonneg F hx), hP.pw k _ (fl_nonneg F hx), Iff.rfl⟩)
  have key : ∀ {w w' : Fin 9 → K}, (∀ d, 0 ≤ w d ∧ 0 ≤ w' d ∧ (0 < w d ↔ 0 < w' d)) → ∀ d, w' d = 0 → w d = 0 := by
    intro w w' h d hd
    refine le_antisymm (not_lt.1 fun hlt => ?_) (h d).1
    have := (h d).2.2.1 hlt
    rw [hd] at this
    exact lt_irrefl _ this
  have some_pos : ∀ {w' : Fin 9 → K}, (∀ d, 0 ≤ w' d) → ∑ d, w' d ≠ 0 → ∃ d, 0 < w' d := by
    intro w' h0 hs
    by_contra hc
    push Not at hc
    exact hs (Finset.sum_eq_zero fun d _ => le_antisymm (hc d) (h0 d))
  unfold sedWeightsR
  generalize sedWeightAtCellR F (weightIntR F (st.S.qx c0) (st.S.qy c0) P.s05 P.s2) (padSlice st.padDepth c0)
    (padSlice (customPad P.modSed) c0) (padSlice (customPad P.cellType) c0) P.dryDepth (P.pwSed k)
    (distances P.s2) = x at hsame
  generalize sedWeightAtCell (weightIntR F (st.S.qx c0) (st.S.qy c0) P.s05 P.s2) (padSlice st.padDepth c0)
    (padSlice (customPad P.modSed) c0) (padSlice (customPad P.cellType) c0) P.dryDepth
    (fun x => P.pwSed k (F.fl x)) (distances P.s2) = y at hsame hres
  cases hsame with
  | error e =>
    exfalso
    cases hres with
    | err hs h2 =>
      rw [fallSed_sum_zero (distances_pos hP.s2)] at h2
      have h7 := h2 7 (by decide)
      obtain ⟨a1, a2, a3⟩ := hP.active c0 h0
      have := C03_interior_exact P.cellType c0 (⟨c0.1.val + 1, a1⟩, c0.2) 7 (by simp; ring) (by simp)
      unfold nbrs at this
      rw [this] at h7
      exact hP.below c0 (⟨c0.1.val + 1, a1⟩, c0.2) h0 rfl rfl h7
  | ok w w' h =>
    refine ⟨w, rfl, fun d => (h d).1, ?_, key h 4 ?_, fun d hl => key h d ?_⟩
    · obtain ⟨d, hd⟩ : ∃ d, 0 < w' d := by
        cases hres with
        | main hs =>
          refine some_pos (fun d => (h d).2.1) ?_
          rw [normalised_sum hs]; exact one_ne_zero
        | fall hs h2 =>
          refine some_pos (fun d => (h d).2.1) ?_
          rw [normalised_sum h2]; exact one_ne_zero
      exact ⟨d, (h d).2.2.2 hd⟩
    · cases hres with
      | main hs => simp [rawSed]
      | fall hs h2 => simp [fallSed]
    · cases hres with
      | main hs => simp [rawSed, hl]
      | fall hs h2 => simp [fallSed, hl]

lemma sedStepR_total {g : Rng K σ} (hFD : Within F D) (hg : PositiveDraws g) {k : Sed} {P : Params L W m K}
    (hP : SedDomain P) {st : SedSt L W K} (hst : PadOk st) {c0 : Cell L W} (h0 : ActiveCell P c0)
    (res : K) (s : σ) :
    ∃ st1 res1 r s1, sedStepR F D g k P st (c0.1.val : ℤ) (c0.2.val : ℤ) res s =
      .ok (st1, res1, r, s1) := by
  obtain ⟨w, hw, hnn, -⟩ := sed_weightsR (F := F) k hP hst h0
  obtain ⟨d, hd⟩ := C97_pick_total hFD (by decide) hnn (hg s).2
  obtain ⟨c, cp, hc, hcp, -⟩ := target_cells hP h0 d
  unfold sedStepR chooseNextR
  rw [cellAt_coords]
  simp only [hw, hd, hc, hcp]
  exact ⟨_, _, _, _, rfl⟩

lemma sedStepR_domain {g : Rng K σ} (hFD : Within F D) (hg : PositiveDraws g) {k : Sed} {P : Params L W m K}
    (hP : SedDomain P) {st st1 : SedSt L W K} (hst : PadOk st) {c0 : Cell L W}
    (h0 : ActiveCell P c0) {res res1 : K} {s s1 : σ} {r : SedRec L W K}
    (h : sedStepR F D g k P st (c0.1.val : ℤ) (c0.2.val : ℤ) res s = .ok (st1, res1, r, s1)) :
    PadOk st1 ∧ SedMove P r ∧ (P.cellType r.cell ≠ -1 → ActiveCell P r.cell ∧
      r.new = coords r.cell) := by
  obtain ⟨c0', d, c, cp, w', e1, e2, e3, -, e5, e6, e7, e8, e9, e10, e11, e12, e13, e14, e15, e16,
    e17, e18⟩ := sedStepR_ok h
  rw [cellAt_coords] at e1
  cases e1
  obtain ⟨w, hw, hnn, hex, hw4, hland⟩ := sed_weightsR (F := F) k hP hst h0
  rw [hw] at e2
  cases e2
  have hpos := C97_positive_partial hFD hnn hex (hg s).1 e3
  obtain ⟨c', cp', f1, f2, f3⟩ := target_cells hP h0 d
  rw [e5] at f1
  rw [e6] at f2
  cases f1
  cases f2
  obtain ⟨w1, w2⟩ := walk_offsets d
  have hdep : ∀ x, r.after.depth x = if x = c then F.fl (max 0 (D.fl (st.S.stage c -
      D.fl (st.S.eta c + D.fl (r.change / F.fl (P.dx * P.dx)))))) else st.S.depth x := by
    intro x
    rw [e16, e13, fieldsAtR_frame, recordDepositR_frame]
    simp only [updateFieldsR]
    by_cases hx : x = c
    · subst hx; simp
    · simp [hx]
  refine ⟨⟨?_, ?_, ?_⟩, ⟨e10 ▸ h0, by rw [e7, e10]; rfl, by rw [e9, e7, e8, w1, w2], ?_⟩, ?_⟩
  · intro x p hx h1 h2
    rw [e18, e17]
    rcases f3 with ⟨g1, g2, g3, g4⟩ | ⟨g1, g2, g3, g4⟩
    · by_cases hxc : x = c
      · subst hxc
        have : p = cp := Prod.ext (Fin.ext (by omega)) (Fin.ext (by omega))
        rw [this, Function.update_self]
      · have : p ≠ cp := by
          rintro rfl
          exact hxc (Prod.ext (Fin.ext (by omega)) (Fin.ext (by omega)))
        rw [Function.update_of_ne this, hdep, if_neg hxc]
        exact hst.inner x p hx h1 h2
    · have hp : p ≠ cp := by rintro rfl; omega
      have hxc : x ≠ c := by rintro rfl; omega
      rw [Function.update_of_ne hp, hdep, if_neg hxc]
      exact hst.inner x p hx h1 h2
  · intro p
    rw [e18]
    by_cases hp : p = cp
    · subst hp
      rw [Function.update_self, hdep, if_pos rfl]
      exact fl_nonneg F (le_max_left _ _)
    · rw [Function.update_of_ne hp]
      exact hst.pad p
  · intro x
    rw [e17, hdep]
    split_ifs
    · exact fl_nonneg F (le_max_left _ _)
    · exact hst.depth x
  · rw [e9, e10, e11, w1, w2]
    rcases f3 with ⟨g1, g2, g3, g4⟩ | ⟨g1, g2, g3, g4⟩
    · left
      have hd4 : d ≠ 4 := by rintro rfl; rw [hw4] at hpos; exact lt_irrefl _ hpos
      have hro := rowOff_bounds d
      have hco := colOff_bounds d
      refine ⟨by simp [coords, g1, g2], ⟨?_, ?_, ?_⟩, ?_⟩
      · rintro rfl
        rcases off_ne_zero hd4 with h | h <;> omega
      · rw [abs_le]; constructor <;> omega
      · rw [abs_le]; constructor <;> omega
      · intro hl
        have := C03_interior_exact P.cellType c0 c d
          (by rw [g1]; unfold rowOff; ring) (by rw [g2]; unfold colOff; ring)
        unfold nbrs at this
        rw [hland d (by rw [this, hl])] at hpos
        exact lt_irrefl _ hpos
    · right
      exact ⟨g1, by rw [g1, g2]; simp, g3, hP.last c g3⟩
  · intro hne
    rw [e11] at hne
    rw [e9, e11, w1, w2]
    rcases f3 with ⟨g1, g2, g3, g4⟩ | ⟨g1, g2, g3, g4⟩
    · refine ⟨⟨hne, ?_⟩, by simp [coords, g1, g2]⟩
      intro hl
      have := C03_interior_exact P.cellType c0 c d
        (by rw [g1]; unfold rowOff; ring) (by rw [g2]; unfold colOff; ring)
      unfold nbrs at this
      rw [hland d (by rw [this, hl])] at hpos
      exact lt_irrefl _ hpos
    · exact absurd (hP.last c g3) hne

lemma enterR_pad {k : Sed} {P : Params L W m K} {st : SedSt L W K} (h : PadOk st) (c : Cell L W) :
    PadOk (enterStateR F D k P st c) := by
  cases k
  · exact ⟨h.inner, h.pad, h.depth⟩
  · exact h

/-- `Q` holds for every step that a parcel takes from an active cell. -/
def EachStepR (F D : Rounding K) (g : Rng K σ) (k : Sed) (P : Params L W m K) (Q : SedRec L W K → Prop) : Prop :=
  ∀ st (c0 : Cell L W) res s st1 res1 r s1, PadOk st → ActiveCell P c0 →
    sedStepR F D g k P st (c0.1.val : ℤ) (c0.2.val : ℤ) res s = .ok (st1, res1, r, s1) → Q r

lemma sedLoopR_domain {g : Rng K σ} (hFD : Within F D) (hg : PositiveDraws g) {k : Sed} {P : Params L W m K}
    (hP : SedDomain P) {Q : SedRec L W K → Prop} (hQ : EachStepR F D g k P Q) : ∀ n, 1 ≤ n → ∀ st px py res s, Routing P st px py →
      ∃ st' res' rs s', sedLoopR F D g k P n st px py res s = .ok (st', res', rs, s') ∧ PadOk st' ∧
        ∀ r ∈ rs, Q r := by
  intro n
  induction n with
  | zero => intro h; omega
  | succ n ih =>
    rintro - st px py res s ⟨hst, c0, h0, hc⟩
    simp only [coords, Prod.mk.injEq] at hc
    obtain ⟨rfl, rfl⟩ := hc
    obtain ⟨st1, res1, r, s1, h1⟩ := sedStepR_total hFD hg (k := k) hP hst h0 res s
    obtain ⟨g1, -, g3⟩ := sedStepR_domain hFD hg hP hst h0 h1
    have g2 := hQ _ _ _ _ _ _ _ _ hst h0 h1
    unfold sedLoopR
    rw [h1]
    simp only
    by_cases hstop : P.cellType r.cell = -1 ∨ n = 0
    · rw [if_pos hstop]
      exact ⟨_, _, _, _, rfl, g1, by simpa using g2⟩
    · rw [if_neg hstop]
      push Not at hstop
      obtain ⟨g4, g5⟩ := g3 hstop.1
      obtain ⟨st2, res2, rs, s2, h2, h3, h4⟩ := ih (by omega) st1 r.new.1 r.new.2 res1 s1
        ⟨g1, r.cell, g4, g5⟩
      rw [h2]
      refine ⟨_, _, _, _, rfl, h3, ?_⟩
      intro x hx
      rcases List.mem_cons.1 hx with rfl | hx
      · exact g2
      · exact h4 x hx

lemma sedParcelsR_domain {g : Rng K σ} (hFD : Within F D) (hg : PositiveDraws g) {k : Sed} {P : Params L W m K}
    (hP : SedDomain P) {Q : SedRec L W K → Prop} (hQ : EachStepR F D g k P Q) : ∀ pys : List ℤ, (∀ y ∈ pys, ∃ i, y = ((P.inlet i).val : ℤ)) →
      ∀ st s, PadOk st → ∃ st' logs s', sedParcelsR F D g k P pys st s = .ok (st', logs, s') ∧
        PadOk st' ∧ ∀ l ∈ logs, ∀ r ∈ l.steps, Q r := by
  intro pys
  induction pys with
  | nil => intro _ st s hst; exact ⟨st, [], s, rfl, hst, by simp⟩
  | cons py pys ih =>
    intro hin st s hst
    obtain ⟨i, hi⟩ := hin py List.mem_cons_self
    have hc : pyCell L W 0 py = some ((0 : Fin L), P.inlet i) := by
      have := pyCell_self ((0 : Fin L), P.inlet i)
      have h00 : (((0 : Fin L), P.inlet i).1.val : ℤ) = 0 := by simp
      rw [h00] at this
      rw [hi]
      exact this
    obtain ⟨st2, res, rs, s1, h1, h2, h3⟩ := sedLoopR_domain hFD hg (k := k) hP hQ P.stepmax hP.steps
      (enterStateR F D k P st ((0 : Fin L), P.inlet i)) 0 py P.VpSed s
      ⟨enterR_pad hst _, ((0 : Fin L), P.inlet i), hP.inlet i, by simp [coords, hi]⟩
    obtain ⟨st3, logs, s2, h4, h5, h6⟩ := ih (fun y hy => hin y (List.mem_cons_of_mem _ hy)) st2 s1 h2
    unfold sedParcelsR
    rw [hc]
    simp only [h1, h4]
    refine ⟨_, _, _, rfl, h5, ?_⟩
    intro l hl
    rcases List.mem_cons.1 hl with rfl | hl
    · exact h3
    · exact h6 l hl

lemma startsR_exist {g : Rng K σ} (hg : PositiveDraws g) (inlet : Fin m → ℤ) (hm : 0 < m) (n : ℕ)
    (s : σ) : ∃ l, getStartIndicesR D inlet (getInletWeights inlet : Fin m → K) (drawN g n s).1 = some l ∧
      l.length = n ∧ ∀ x ∈ l, ∃ k, x = inlet k := by
  have hdr := drawN_mem g (fun r => 0 ≤ r ∧ r ≤ 1) (fun s => ⟨(hg s).1.le, (hg s).2⟩) n s
  have hlen := drawN_length g n s
  have hs : ∀ (l : List K) (a : K), 0 ≤ a → (∀ x ∈ l, 0 ≤ x) → 0 ≤ l.foldl (fun a x => D.fl (a + x)) a := by
    intro l
    induction l with
    | nil => intro a ha _; exact ha
    | cons x xs ih =>
      intro a ha h
      exact ih _ (fl_nonneg D (add_nonneg ha (h x List.mem_cons_self))) fun y hy => h y (List.mem_cons_of_mem _ hy)
  unfold getStartIndicesR
  have hw : ∀ k, 0 ≤ D.fl ((getInletWeights inlet : Fin m → K) k /
      sumR D (List.ofFn (getInletWeights inlet : Fin m → K))) := by
    intro k
    refine fl_nonneg D (div_nonneg (by simp [getInletWeights]) (hs _ _ le_rfl ?_))
    intro x hx
    rw [List.mem_ofFn] at hx
    obtain ⟨i, rfl⟩ := hx
    simp [getInletWeights]
  have hin : ∀ rs : List K, (∀ r ∈ rs, 0 ≤ r ∧ r ≤ 1) → ∃ l, startLoopR D inlet (fun k => D.fl
      ((getInletWeights inlet : Fin m → K) k / sumR D (List.ofFn (getInletWeights inlet : Fin m → K)))) rs = some l ∧
      l.length = rs.length ∧ ∀ x ∈ l, ∃ k, x = inlet k := by
    intro rs
    induction rs with
    | nil => intro _; exact ⟨[], rfl, rfl, by simp⟩
    | cons r rs ih =>
      intro hr
      obtain ⟨l, h1, h2, h3⟩ := ih fun x hx => hr x (List.mem_cons_of_mem _ hx)
      obtain ⟨k, hk⟩ := C97_pick_total (R := D) (D := D) (fun _ h => h) hm hw (hr r List.mem_cons_self).2
      refine ⟨inlet k :: l, by simp [startLoopR, hk, h1], by simp [h2], ?_⟩
      intro x hx
      rcases List.mem_cons.mp hx with rfl | hx
      · exact ⟨k, rfl⟩
      · exact h3 x hx
  obtain ⟨l, h1, h2, h3⟩ := hin _ hdr
  exact ⟨l, h1, by rw [h2, hlen], h3⟩

/-- C98: in rounded arithmetic too the routing of sand or mud parcels never aborts, every step leads
to a neighbouring cell that is not land or from the first row upstream out of the domain, depths stay
non-negative, and there is one parcel for each start. -/
theorem C98_routing {g : Rng K σ} (hFD : Within F D) (hg : PositiveDraws g) (k : Sed) {P : Params L W m K}
    (hP : SedDomain P) {S : State L W K} (hd : ∀ c, 0 ≤ S.depth c) (s : σ) :
    ∃ S' logs s', routeParcelsR F D g k P S s = .ok (S', logs, s') ∧ (∀ c, 0 ≤ S'.depth c) ∧
      logs.length = numStartsR D k P ∧ ∀ l ∈ logs, ∀ r ∈ l.steps, SedMove P r := by
  obtain ⟨starts, h1, h2, h3⟩ := startsR_exist (D := D) hg (fun i => ((P.inlet i).val : ℤ)) hP.hm
    (numStartsR D k P) s
  obtain ⟨st, logs, s', h4, h5, h6⟩ := sedParcelsR_domain hFD hg (k := k) hP (Q := SedMove P)
    (fun _ _ _ _ _ _ _ _ hst h0 h => (sedStepR_domain hFD hg hP hst h0 h).2.1) starts h3
    ⟨S, customPad S.depth⟩ (drawN g (numStartsR D k P) s).2 (padOk_init hd)
  unfold routeParcelsR
  simp only [h1, h4]
  exact ⟨_, _, _, rfl, h5.depth, by rw [sedParcelsR_length _ _ _ _ _ _ h4, h2], h6⟩

end Verif.Props
