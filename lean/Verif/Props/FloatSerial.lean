import Verif.Props.SedSerial
import Verif.Props.FloatSediment
import Verif.Props.FloatPick
import Verif.Props.Clock
import Verif.Spec.FloatSerial

/-!
# C131 in rounded arithmetic
-/

set_option linter.unusedSectionVars false
set_option linter.unusedSimpArgs false

namespace Verif.Props

open Verif.Model Verif.Lemmas Verif.Spec

variable {K : Type*} [Field K] [LinearOrder K] [IsStrictOrderedRing K] [FloorRing K] {σ : Type*} {L W m : ℕ} [NeZero L] [NeZero W]
  {F D : Rounding K}

/-! ## The padded copy of the depth -/

lemma sedWeightR_depth {wInt dN dN' modN : Fin 9 → K} {ctN : Fin 9 → ℤ} {dryDepth : K} {pw : K → K} {dist : Fin 9 → K}
    (h : ∀ d, dN d ≠ dN' d → wInt d = 0) :
    sedWeightAtCellR F wInt dN modN ctN dryDepth pw dist = sedWeightAtCellR F wInt dN' modN ctN dryDepth pw dist := by
  have key : ∀ d : Fin 9, (if (decide (dN d ≤ dryDepth) || decide (ctN d = -2)) = true then (0 : K) else
        if decide (d = 4) = true then 0 else F.fl (pw (F.fl (dN d * modN d)) * (if decide (d = 4) = true then 0 else wInt d))) =
      if (decide (dN' d ≤ dryDepth) || decide (ctN d = -2)) = true then (0 : K) else
        if decide (d = 4) = true then 0 else F.fl (pw (F.fl (dN' d * modN d)) * (if decide (d = 4) = true then 0 else wInt d)) := by
    intro d
    by_cases hd : dN d = dN' d
    · rw [hd]
    · rw [h d hd]
      simp [fl_zero]
  unfold sedWeightAtCellR
  simp only at key ⊢
  simp only [key]

lemma weightIntR_upstream {qx s05 s2 : K} (hq : 0 ≤ qx) (h05 : 0 < s05) (h2 : 0 < s2) {d : Fin 9} (hd : rowOff d = -1) :
    weightIntR F qx 0 s05 s2 d = 0 := by
  have hj : jvec s05 d ≤ 0 := by
    revert hd
    fin_cases d <;> simp [rowOff, jvec] <;> linarith
  have hdist : 0 ≤ distances s2 d := by
    fin_cases d <;> simp [distances] <;> linarith
  unfold weightIntR
  rw [zero_mul, fl_zero, add_zero, F.idem]
  apply max_eq_left
  apply fl_nonpos
  exact div_nonpos_of_nonpos_of_nonneg (fl_nonpos F (mul_nonpos_of_nonneg_of_nonpos hq hj)) hdist

lemma weightsR_fresh {P : Params L W m K} (hP : SedDomain P) (hs05 : 0 < P.s05) {k : Sed} {st st' : SedSt L W K} (hS : st'.S = st.S)
    (hst : PadFresh st) (hst' : PadFresh st') {c0 : Cell L W} (h0 : ActiveCell P c0) (hf : FlowsIn P st.S) :
    sedWeightsR F st'.padDepth (customPad P.modSed) (customPad P.cellType) st'.S.qx st'.S.qy P.s2 P.s05 P.dryDepth (P.pwSed k) c0 =
      sedWeightsR F st.padDepth (customPad P.modSed) (customPad P.cellType) st.S.qx st.S.qy P.s2 P.s05 P.dryDepth (P.pwSed k) c0 := by
  unfold sedWeightsR
  rw [hS]
  refine sedWeightR_depth fun d hd => ?_
  obtain ⟨a1, a2, a3⟩ := hP.active c0 h0
  have b1 := rowOff_bounds d
  have b2 := colOff_bounds d
  by_cases hup : c0.1.val = 0 ∧ rowOff d = -1
  · obtain ⟨f1, f2⟩ := hf c0 hup.1 h0.1 h0.2
    rw [f2]
    exact weightIntR_upstream f1 hs05 hP.s2 hup.2
  · exfalso
    apply hd
    have e1 : ∃ n : Cell L W, n.1.val + 1 = c0.1.val + d.val / 3 ∧ n.2.val + 1 = c0.2.val + d.val % 3 := by
      unfold rowOff at b1 hup
      unfold colOff at b2
      refine ⟨(⟨c0.1.val + d.val / 3 - 1, by omega⟩, ⟨c0.2.val + d.val % 3 - 1, by omega⟩), ?_, ?_⟩
      · simp only; omega
      · simp only; omega
    obtain ⟨n, e1, e2⟩ := e1
    unfold padSlice
    rw [hst n _ (by simp only; omega) (by simp only; omega), hst' n _ (by simp only; omega) (by simp only; omega), hS]

/-! ## One step, one parcel, all parcels -/

lemma sedStepR_fresh {g : Rng K σ} {k : Sed} {P : Params L W m K} (hP : SedDomain P) (hs05 : 0 < P.s05) {st st' st1 : SedSt L W K}
    (hS : st'.S = st.S) (hst : PadFresh st) (hst' : PadFresh st') {c0 : Cell L W} (h0 : ActiveCell P c0) (hf : FlowsIn P st.S)
    {res res1 : K} {s s1 : σ} {r : SedRec L W K}
    (h : sedStepR F D g k P st (c0.1.val : ℤ) (c0.2.val : ℤ) res s = .ok (st1, res1, r, s1)) (hr : r.new = coords r.cell) :
    ∃ st1', sedStepR F D g k P st' (c0.1.val : ℤ) (c0.2.val : ℤ) res s = .ok (st1', res1, r, s1) ∧ st1'.S = st1.S ∧ PadFresh st1 ∧
      PadFresh st1' ∧ FlowsIn P st1.S := by
  obtain ⟨c0', d, c, cp, w, e1, e2, e3, e4, e5, e6, e7, e8, e9, e10, e11, e12, e13, e14, e15, e16, e17, e18⟩ := sedStepR_ok h
  have hc0 := e1
  rw [cellAt_coords] at hc0
  cases hc0
  have hw := weightsR_fresh (F := F) (k := k) hP hs05 hS hst hst' h0 hf
  rw [e2, hS] at hw
  obtain ⟨c', cp', f1, f2, f3⟩ := target_cells hP h0 d
  rw [e5] at f1
  rw [e6] at f2
  cases f1
  cases f2
  have g34 : cp.1.val = c.1.val + 1 ∧ cp.2.val = c.2.val + 1 := by
    rcases f3 with ⟨-, -, g3, g4⟩ | ⟨g1, g2, g3, g4⟩
    · exact ⟨g3, g4⟩
    · exfalso
      obtain ⟨w1, w2⟩ := walk_offsets d
      rw [e9, e11, w1, g1, g2] at hr
      simp only [coords, Prod.mk.injEq] at hr
      have := hr.1
      omega
  have hdep : ∀ x, r.after.depth x = if x = c then r.after.depth c else st.S.depth x := by
    intro x
    split_ifs with hx
    · rw [hx]
    · rw [e16, e13, fieldsAtR_frame, recordDepositR_frame]
      simp only [updateFieldsR]
      rw [Function.update_of_ne hx]
  have fresh : ∀ {T T1 : SedSt L W K}, PadFresh T → T.S = st.S → T1.S = r.after →
      T1.padDepth = Function.update T.padDepth cp (r.after.depth c) → PadFresh T1 := by
    intro T T1 hT hTS h1 h2 x p k1 k2
    rw [h1, h2]
    by_cases hxc : x = c
    · subst hxc
      have : p = cp := Prod.ext (Fin.ext (by omega)) (Fin.ext (by omega))
      rw [this, Function.update_self]
    · have : p ≠ cp := by
        rintro rfl
        exact hxc (Prod.ext (Fin.ext (by omega)) (Fin.ext (by omega)))
      rw [Function.update_of_ne this, hdep, if_neg hxc, hT x p k1 k2, hTS]
  have hst1 := fresh hst rfl e17 e18
  have hfl : FlowsIn P st1.S := by
    intro x x1 x2 x3
    have := hf x x1 x2 x3
    rw [e17, e16, e13, fieldsAtR_frame, recordDepositR_frame]
    exact this
  have hstep : sedStepR F D g k P st' (c0.1.val : ℤ) (c0.2.val : ℤ) res s =
      .ok (⟨st1.S, Function.update st'.padDepth cp (r.after.depth c)⟩, res1, r, s1) := by
    have h' := h
    unfold sedStepR chooseNextR at h' ⊢
    simp only [e1, e2, e3, e5, e6, hw, hS] at h' ⊢
    simp only [Except.ok.injEq, Prod.mk.injEq] at h'
    obtain ⟨i1, i2, i3, i4⟩ := h'
    rw [← i1, ← i2, ← i3, ← i4]
  exact ⟨_, hstep, rfl, hst1, fresh hst' hS e17 rfl, hfl⟩

lemma sedLoopR_fresh {g : Rng K σ} (hFD : Within F D) (hg : PositiveDraws g) {k : Sed} {P : Params L W m K} (hP : SedDomain P) (hs05 : 0 < P.s05) :
    ∀ n st px py res s st' res' rs s', Routing P st px py → PadFresh st → FlowsIn P st.S →
      sedLoopR F D g k P n st px py res s = .ok (st', res', rs, s') → (∀ r ∈ rs, r.new = coords r.cell) →
      freshLoopR F D g k P n st.S px py res s = .ok (st'.S, res', rs, s') ∧ PadOk st' ∧ PadFresh st' ∧ FlowsIn P st'.S := by
  intro n
  induction n with
  | zero => intro st px py res s st' res' rs s' _ _ _ h; simp [sedLoopR] at h
  | succ n ih =>
    rintro st px py res s st' res' rs s' ⟨hst, c0, h0, hc⟩ hp hf h hr
    simp only [coords, Prod.mk.injEq] at hc
    obtain ⟨rfl, rfl⟩ := hc
    unfold sedLoopR at h
    unfold freshLoopR
    generalize h1 : sedStepR F D g k P st (c0.1.val : ℤ) (c0.2.val : ℤ) res s = x at h
    cases x with
    | error e => simp at h
    | ok v =>
      obtain ⟨st1, res1, r, s1⟩ := v
      simp only at h
      obtain ⟨g1, -, g3⟩ := sedStepR_domain hFD hg hP hst h0 h1
      by_cases hstop : P.cellType r.cell = -1 ∨ n = 0
      · rw [if_pos hstop] at h
        simp only [Except.ok.injEq, Prod.mk.injEq] at h
        obtain ⟨rfl, rfl, rfl, rfl⟩ := h
        obtain ⟨st1', k1, k2, k3, -, k5⟩ := sedStepR_fresh (st := st) (st' := ⟨st.S, customPad st.S.depth⟩) hP hs05 rfl hp (padFresh_pad _) h0 hf h1
          (hr r (by simp))
        rw [k1]
        simp only [if_pos hstop, k2]
        exact ⟨trivial, g1, k3, k5⟩
      · rw [if_neg hstop] at h
        generalize h2 : sedLoopR F D g k P n st1 r.new.1 r.new.2 res1 s1 = y at h
        cases y with
        | error e => simp at h
        | ok v =>
          obtain ⟨st2, res2, rs2, s2⟩ := v
          simp only [Except.ok.injEq, Prod.mk.injEq] at h
          obtain ⟨rfl, rfl, rfl, rfl⟩ := h
          obtain ⟨st1', k1, k2, k3, -, k5⟩ := sedStepR_fresh (st := st) (st' := ⟨st.S, customPad st.S.depth⟩) hP hs05 rfl hp (padFresh_pad _) h0 hf h1
            (hr r (by simp))
          obtain ⟨g4, g5⟩ := g3 (fun h => hstop (Or.inl h))
          obtain ⟨i1, i2⟩ := ih st1 r.new.1 r.new.2 res1 s1 _ _ _ _ ⟨g1, r.cell, g4, g5⟩ k3 k5 h2
            (fun x hx => hr x (List.mem_cons_of_mem _ hx))
          rw [k1]
          simp only [if_neg hstop, k2, i1]
          exact ⟨trivial, i2⟩

lemma sedLoopR_two {g : Rng K σ} (hFD : Within F D) (hg : PositiveDraws g) {k : Sed} {P : Params L W m K} (hP : SedDomain P) (hs05 : 0 < P.s05) :
    ∀ n st px py res s st' res' rs s' tt, Routing P st px py → PadFresh st → FlowsIn P st.S → tt.S = st.S → PadFresh tt →
      sedLoopR F D g k P n st px py res s = .ok (st', res', rs, s') → (∀ r ∈ rs, r.new = coords r.cell) →
      ∃ tt', sedLoopR F D g k P n tt px py res s = .ok (tt', res', rs, s') ∧ tt'.S = st'.S ∧ PadFresh tt' := by
  intro n
  induction n with
  | zero => intro st px py res s st' res' rs s' tt _ _ _ _ _ h; simp [sedLoopR] at h
  | succ n ih =>
    rintro st px py res s st' res' rs s' tt ⟨hst, c0, h0, hc⟩ hp hf ht1 ht2 h hr
    simp only [coords, Prod.mk.injEq] at hc
    obtain ⟨rfl, rfl⟩ := hc
    unfold sedLoopR at h ⊢
    generalize h1 : sedStepR F D g k P st (c0.1.val : ℤ) (c0.2.val : ℤ) res s = x at h
    cases x with
    | error e => simp at h
    | ok v =>
      obtain ⟨st1, res1, r, s1⟩ := v
      simp only at h
      obtain ⟨g1, -, g3⟩ := sedStepR_domain hFD hg hP hst h0 h1
      by_cases hstop : P.cellType r.cell = -1 ∨ n = 0
      · rw [if_pos hstop] at h
        simp only [Except.ok.injEq, Prod.mk.injEq] at h
        obtain ⟨rfl, rfl, rfl, rfl⟩ := h
        obtain ⟨st1', k1, k2, k3, k4, k5⟩ := sedStepR_fresh (st := st) (st' := tt) hP hs05 ht1 hp ht2 h0 hf h1 (hr r (by simp))
        rw [k1]
        simp only [if_pos hstop]
        exact ⟨_, rfl, k2, k4⟩
      · rw [if_neg hstop] at h
        generalize h2 : sedLoopR F D g k P n st1 r.new.1 r.new.2 res1 s1 = y at h
        cases y with
        | error e => simp at h
        | ok v =>
          obtain ⟨st2, res2, rs2, s2⟩ := v
          simp only [Except.ok.injEq, Prod.mk.injEq] at h
          obtain ⟨rfl, rfl, rfl, rfl⟩ := h
          obtain ⟨st1', k1, k2, k3, k4, k5⟩ := sedStepR_fresh (st := st) (st' := tt) hP hs05 ht1 hp ht2 h0 hf h1 (hr r (by simp))
          obtain ⟨g4, g5⟩ := g3 (fun h => hstop (Or.inl h))
          obtain ⟨t2, i1, i2⟩ := ih st1 r.new.1 r.new.2 res1 s1 _ _ _ _ st1' ⟨g1, r.cell, g4, g5⟩ k3 k5 k2 k4 h2
            (fun x hx => hr x (List.mem_cons_of_mem _ hx))
          rw [k1]
          simp only [if_neg hstop, i1]
          exact ⟨_, rfl, i2⟩

lemma enterR_flows {k : Sed} {P : Params L W m K} {st : SedSt L W K} (h : FlowsIn P st.S) (c : Cell L W) :
    FlowsIn P (enterStateR F D k P st c).S := by
  cases k <;> exact h

lemma enterR_fresh {k : Sed} {P : Params L W m K} {st : SedSt L W K} (h : PadFresh st) (c : Cell L W) :
    PadFresh (enterStateR F D k P st c) := by
  cases k <;> exact h

lemma enterR_state {k : Sed} {P : Params L W m K} {st st' : SedSt L W K} (h : st'.S = st.S) (c : Cell L W) :
    (enterStateR F D k P st' c).S = (enterStateR F D k P st c).S := by
  cases k
  · simp only [enterStateR, h]
  · exact h

lemma sedParcelsR_fresh {g : Rng K σ} (hFD : Within F D) (hg : PositiveDraws g) {k : Sed} {P : Params L W m K} (hP : SedDomain P) (hs05 : 0 < P.s05) :
    ∀ pys : List ℤ, (∀ y ∈ pys, ∃ i, y = ((P.inlet i).val : ℤ)) → ∀ st s st' logs s', PadOk st → PadFresh st → FlowsIn P st.S →
      sedParcelsR F D g k P pys st s = .ok (st', logs, s') → StaysIn logs →
      freshParcelsR F D g k P pys st.S s = .ok (st'.S, logs, s') ∧ PadOk st' ∧ PadFresh st' ∧ FlowsIn P st'.S := by
  intro pys
  induction pys with
  | nil =>
    intro _ st s st' logs s' h1 h2 h3 h _
    simp only [sedParcelsR, Except.ok.injEq, Prod.mk.injEq] at h
    obtain ⟨rfl, rfl, rfl⟩ := h
    exact ⟨rfl, h1, h2, h3⟩
  | cons py pys ih =>
    intro hin st s st' logs s' h1 h2 h3 h hl
    obtain ⟨i, rfl⟩ := hin py List.mem_cons_self
    unfold sedParcelsR at h
    unfold freshParcelsR
    rw [inlet_cell] at h ⊢
    simp only at h ⊢
    generalize e1 : sedLoopR F D g k P P.stepmax (enterStateR F D k P st ((0 : Fin L), P.inlet i)) 0 ((P.inlet i).val : ℤ) P.VpSed s = x at h
    cases x with
    | error e => simp at h
    | ok v =>
      obtain ⟨st2, res, rs, s1⟩ := v
      simp only at h
      generalize e2 : sedParcelsR F D g k P pys st2 s1 = y at h
      cases y with
      | error e => simp at h
      | ok v =>
        obtain ⟨st3, logs', s2⟩ := v
        simp only [Except.ok.injEq, Prod.mk.injEq] at h
        obtain ⟨rfl, rfl, rfl⟩ := h
        obtain ⟨j1, j2, j3, j4⟩ := sedLoopR_fresh hFD hg hP hs05 _ _ _ _ _ _ _ _ _ _
          ⟨enterR_pad (F := F) (D := D) h1 _, ((0 : Fin L), P.inlet i), hP.inlet i, by simp [coords]⟩ (enterR_fresh h2 _) (enterR_flows h3 _) e1
          (fun r hr => hl _ List.mem_cons_self r hr)
        obtain ⟨k1, k2⟩ := ih (fun y hy => hin y (List.mem_cons_of_mem _ hy)) _ _ _ _ _ j2 j3 j4 e2
          (fun l hl' => hl l (List.mem_cons_of_mem _ hl'))
        rw [enterR_state (st := st) (st' := ⟨st.S, customPad st.S.depth⟩) rfl, j1]
        simp only [k1]
        exact ⟨trivial, k2⟩

lemma sedParcelsR_two {g : Rng K σ} (hFD : Within F D) (hg : PositiveDraws g) {k : Sed} {P : Params L W m K} (hP : SedDomain P) (hs05 : 0 < P.s05) :
    ∀ pys : List ℤ, (∀ y ∈ pys, ∃ i, y = ((P.inlet i).val : ℤ)) → ∀ st s st' logs s' tt, PadOk st → PadFresh st → FlowsIn P st.S →
      tt.S = st.S → PadFresh tt → sedParcelsR F D g k P pys st s = .ok (st', logs, s') → StaysIn logs →
      ∃ tt', sedParcelsR F D g k P pys tt s = .ok (tt', logs, s') ∧ tt'.S = st'.S := by
  intro pys
  induction pys with
  | nil =>
    intro _ st s st' logs s' tt _ _ _ h4 _ h _
    simp only [sedParcelsR, Except.ok.injEq, Prod.mk.injEq] at h
    obtain ⟨rfl, rfl, rfl⟩ := h
    exact ⟨tt, rfl, h4⟩
  | cons py pys ih =>
    intro hin st s st' logs s' tt h1 h2 h3 h4 h5 h hl
    obtain ⟨i, rfl⟩ := hin py List.mem_cons_self
    unfold sedParcelsR at h ⊢
    rw [inlet_cell] at h ⊢
    simp only at h ⊢
    generalize e1 : sedLoopR F D g k P P.stepmax (enterStateR F D k P st ((0 : Fin L), P.inlet i)) 0 ((P.inlet i).val : ℤ) P.VpSed s = x at h
    cases x with
    | error e => simp at h
    | ok v =>
      obtain ⟨st2, res, rs, s1⟩ := v
      simp only at h
      generalize e2 : sedParcelsR F D g k P pys st2 s1 = y at h
      cases y with
      | error e => simp at h
      | ok v =>
        obtain ⟨st3, logs', s2⟩ := v
        simp only [Except.ok.injEq, Prod.mk.injEq] at h
        obtain ⟨rfl, rfl, rfl⟩ := h
        have hro : Routing P (enterStateR F D k P st ((0 : Fin L), P.inlet i)) 0 ((P.inlet i).val : ℤ) :=
          ⟨enterR_pad (F := F) (D := D) h1 _, ((0 : Fin L), P.inlet i), hP.inlet i, by simp [coords]⟩
        have hrs := fun r hr => hl _ List.mem_cons_self r hr
        obtain ⟨-, j2, j3, j4⟩ := sedLoopR_fresh hFD hg hP hs05 _ _ _ _ _ _ _ _ _ _ hro (enterR_fresh h2 _) (enterR_flows h3 _) e1 hrs
        obtain ⟨t2, l1, l2, l3⟩ := sedLoopR_two hFD hg hP hs05 _ _ _ _ _ _ _ _ _ _ (enterStateR F D k P tt ((0 : Fin L), P.inlet i)) hro
          (enterR_fresh h2 _) (enterR_flows h3 _) (enterR_state h4 _) (enterR_fresh h5 _) e1 hrs
        obtain ⟨t3, k1, k2⟩ := ih (fun y hy => hin y (List.mem_cons_of_mem _ hy)) _ _ _ _ _ t2 j2 j3 j4 l2 l3 e2
          (fun l hl' => hl l (List.mem_cons_of_mem _ hl'))
        simp only [l1, k1]
        exact ⟨_, rfl, k2⟩

lemma sedParcelsR_append {g : Rng K σ} {k : Sed} {P : Params L W m K} : ∀ (a b : List ℤ) (st : SedSt L W K) (s : σ),
    sedParcelsR F D g k P (a ++ b) st s = match sedParcelsR F D g k P a st s with
      | .error e => .error e
      | .ok (st1, l1, s1) => match sedParcelsR F D g k P b st1 s1 with
        | .error e => .error e
        | .ok (st2, l2, s2) => .ok (st2, l1 ++ l2, s2) := by
  intro a
  induction a with
  | nil =>
    intro b st s
    simp only [List.nil_append, sedParcelsR]
    cases sedParcelsR F D g k P b st s with
    | error e => rfl
    | ok v => rfl
  | cons y a ih =>
    intro b st s
    simp only [List.cons_append, sedParcelsR]
    cases pyCell L W 0 y with
    | none => rfl
    | some c =>
      simp only
      generalize sedLoopR F D g k P P.stepmax (enterStateR F D k P st c) 0 y P.VpSed s = x
      cases x with
      | error e => rfl
      | ok v =>
        obtain ⟨st1, res, rs, s1⟩ := v
        simp only [ih]
        generalize sedParcelsR F D g k P a st1 s1 = x
        cases x with
        | error e => rfl
        | ok v =>
          obtain ⟨st2, l2, s2⟩ := v
          simp only
          generalize sedParcelsR F D g k P b st2 s2 = x
          cases x with
          | error e => rfl
          | ok v => rfl

/-! ## C131 -/

/-- C131 in rounded arithmetic: sediment parcels go one after another, and each step of each parcel sees the bed as the steps before it left it. The router
changes a padded copy of the depth together with the depth; that copy has no effect of its own, padding the depth anew before each
step gives the same steps, volumes, state and random numbers. In the first row the flow must not be upstream or sideways, and no parcel
may leave upstream. -/
theorem C131_rounded_fresh_partial {g : Rng K σ} (hFD : Within F D) (hg : PositiveDraws g) {k : Sed} {P : Params L W m K} (hP : SedDomain P) (hs05 : 0 < P.s05)
    {S : State L W K} (hd : ∀ c, 0 ≤ S.depth c) (hf : FlowsIn P S) {starts : List ℤ} (hin : ∀ y ∈ starts, ∃ i, y = ((P.inlet i).val : ℤ))
    {s s' : σ} {st : SedSt L W K} {logs : List (SedLog L W K)}
    (h : sedParcelsR F D g k P starts ⟨S, customPad S.depth⟩ s = .ok (st, logs, s')) (hl : StaysIn logs) :
    freshParcelsR F D g k P starts S s = .ok (st.S, logs, s') :=
  (sedParcelsR_fresh hFD hg hP hs05 starts hin _ _ _ _ _ (padOk_init hd) (padFresh_pad S) hf h hl).1

/-- C131 in rounded arithmetic: the parcels may be routed in two groups. Routing the parcels of two lists is routing those of the first, and then those of the
second from the state left, with the depth padded anew: same steps, volumes, state and random numbers. -/
theorem C131_rounded_groups_partial {g : Rng K σ} (hFD : Within F D) (hg : PositiveDraws g) {k : Sed} {P : Params L W m K} (hP : SedDomain P) (hs05 : 0 < P.s05)
    {S : State L W K} (hd : ∀ c, 0 ≤ S.depth c) (hf : FlowsIn P S) {a b : List ℤ} (hin : ∀ y ∈ a ++ b, ∃ i, y = ((P.inlet i).val : ℤ))
    {s s' : σ} {st : SedSt L W K} {logs : List (SedLog L W K)}
    (h : sedParcelsR F D g k P (a ++ b) ⟨S, customPad S.depth⟩ s = .ok (st, logs, s')) (hl : StaysIn logs) :
    ∃ S1 pad1 la s1 pad2 lb, sedParcelsR F D g k P a ⟨S, customPad S.depth⟩ s = .ok (⟨S1, pad1⟩, la, s1) ∧
      sedParcelsR F D g k P b ⟨S1, customPad S1.depth⟩ s1 = .ok (⟨st.S, pad2⟩, lb, s') ∧ logs = la ++ lb := by
  rw [sedParcelsR_append] at h
  generalize e1 : sedParcelsR F D g k P a ⟨S, customPad S.depth⟩ s = x at h
  cases x with
  | error e => simp at h
  | ok v =>
    obtain ⟨st1, la, s1⟩ := v
    simp only at h
    generalize e2 : sedParcelsR F D g k P b st1 s1 = y at h
    cases y with
    | error e => simp at h
    | ok v =>
      obtain ⟨st2, lb, s2⟩ := v
      simp only [Except.ok.injEq, Prod.mk.injEq] at h
      obtain ⟨rfl, rfl, rfl⟩ := h
      obtain ⟨-, j2, j3, j4⟩ := sedParcelsR_fresh hFD hg hP hs05 a (fun y hy => hin y (List.mem_append_left _ hy)) _ _ _ _ _ (padOk_init hd)
        (padFresh_pad S) hf e1 (fun l h => hl l (List.mem_append_left _ h))
      obtain ⟨t2, k1, k2⟩ := sedParcelsR_two hFD hg hP hs05 b (fun y hy => hin y (List.mem_append_right _ hy)) _ _ _ _ _
        ⟨st1.S, customPad st1.S.depth⟩ j2 j3 j4 rfl (padFresh_pad _) e2 (fun l h => hl l (List.mem_append_right _ h))
      exact ⟨st1.S, st1.padDepth, la, s1, t2.padDepth, lb, rfl, by rw [k1, ← k2], rfl⟩

lemma exOneStaysR : (sedParcelsR single double constRng .sand exOneStep [1, 1] ⟨exSandy, customPad exSandy.depth⟩ ()).map
    (fun x => x.2.1.all (fun l => l.steps.all (fun r => decide (r.new = ((r.cell.1.val : ℤ), (r.cell.2.val : ℤ)))))) = .ok true := by
  decide +kernel

-- two sand parcels, of which the second deposits
example : ∃ st logs, sedParcelsR single double constRng .sand exOneStep [1, 1] ⟨exSandy, customPad exSandy.depth⟩ () =
      .ok (st, logs, ()) ∧ freshParcelsR single double constRng .sand exOneStep [1, 1] exSandy () = .ok (st.S, logs, ()) ∧
    ∃ S1 pad1 la s1 pad2 lb,
      sedParcelsR single double constRng .sand exOneStep [1] ⟨exSandy, customPad exSandy.depth⟩ () = .ok (⟨S1, pad1⟩, la, s1) ∧
      sedParcelsR single double constRng .sand exOneStep [1] ⟨S1, customPad S1.depth⟩ s1 = .ok (⟨st.S, pad2⟩, lb, ()) ∧
      logs = la ++ lb := by
  obtain ⟨⟨st, logs, ⟨⟩⟩, e, hc⟩ := ok_of_map exOneStaysR
  have hFD : Within single double := within_binary _ _ (by norm_num)
  have hl : StaysIn logs := by
    intro l hl r hr
    have := List.all_eq_true.1 (List.all_eq_true.1 hc l hl) r hr
    exact of_decide_eq_true this
  have hin : ∀ y ∈ [(1 : ℤ)] ++ [1], ∃ i, y = ((exOneStep.inlet i).val : ℤ) := by
    intro y hy
    refine ⟨0, ?_⟩
    have : y = 1 := by simpa using hy
    rw [this]
    rfl
  have hd : ∀ c, 0 ≤ exSandy.depth c := fun _ => by norm_num [exSandy, exState]
  have hs : 0 < exOneStep.s05 := exSedPositive.s05
  exact ⟨st, logs, e, C131_rounded_fresh_partial hFD exPositive exOneDomain hs hd exFlowsIn hin e hl,
    C131_rounded_groups_partial (a := [1]) (b := [1]) hFD exPositive exOneDomain hs hd exFlowsIn hin e hl⟩

end Verif.Props
