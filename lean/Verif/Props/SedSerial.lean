import Verif.Props.SedWalk
import Verif.Spec.SedSerial

/-!
# C131: sediment parcels one after another
-/

set_option linter.unusedSectionVars false
set_option linter.unusedSimpArgs false

namespace Verif.Props

open Verif.Model Verif.Lemmas Verif.Spec

variable {K : Type*} [Field K] [LinearOrder K] [IsStrictOrderedRing K] [FloorRing K] {σ : Type*} {L W m : ℕ} [NeZero L] [NeZero W]

/-! ## The padded copy of the depth -/

/-- The padded depth is right at all cells. -/
def PadFresh (st : SedSt L W K) : Prop := ∀ (c : Cell L W) (p : Cell (L + 2) (W + 2)), p.1.val = c.1.val + 1 → p.2.val = c.2.val + 1 →
  st.padDepth p = st.S.depth c

lemma padFresh_pad (S : State L W K) : PadFresh ⟨S, customPad S.depth⟩ := by
  intro c p h1 h2
  have := C03_interior_exact S.depth c c 4 (by norm_num) (by norm_num)
  unfold nbrs padSlice at this
  rw [← this]
  show customPad S.depth p = _
  congr 1
  exact Prod.ext (Fin.ext (by rw [h1]; rfl)) (Fin.ext (by rw [h2]; rfl))

/-- Neighbours in directions without flow may have any depth. -/
lemma sedWeight_depth {wInt dN dN' modN : Fin 9 → K} {ctN : Fin 9 → ℤ} {dryDepth : K} {pw : K → K} {dist : Fin 9 → K}
    (h : ∀ d, dN d ≠ dN' d → wInt d = 0) :
    sedWeightAtCell wInt dN modN ctN dryDepth pw dist = sedWeightAtCell wInt dN' modN ctN dryDepth pw dist := by
  have key : (fun d : Fin 9 => if (decide (dN d ≤ dryDepth) || decide (ctN d = -2)) = true then (0 : K) else
        if decide (d = 4) = true then 0 else pw (dN d * modN d) * (if decide (d = 4) = true then 0 else wInt d)) =
      fun d : Fin 9 => if (decide (dN' d ≤ dryDepth) || decide (ctN d = -2)) = true then (0 : K) else
        if decide (d = 4) = true then 0 else pw (dN' d * modN d) * (if decide (d = 4) = true then 0 else wInt d) := by
    funext d
    by_cases hd : dN d = dN' d
    · rw [hd]
    · rw [h d hd]
      simp
  unfold sedWeightAtCell
  have key' := fun d => congrFun key d
  simp only at key' ⊢
  simp only [key']

lemma weights_fresh {P : Params L W m K} (hP : SedDomain P) (hs05 : 0 < P.s05) {k : Sed} {st st' : SedSt L W K} (hS : st'.S = st.S)
    (hst : PadFresh st) (hst' : PadFresh st') {c0 : Cell L W} (h0 : ActiveCell P c0) (hf : FlowsIn P st.S) :
    sedWeights st'.padDepth (customPad P.modSed) (customPad P.cellType) st'.S.qx st'.S.qy P.s2 P.s05 P.dryDepth (P.pwSed k) c0 =
      sedWeights st.padDepth (customPad P.modSed) (customPad P.cellType) st.S.qx st.S.qy P.s2 P.s05 P.dryDepth (P.pwSed k) c0 := by
  unfold sedWeights
  rw [hS]
  refine sedWeight_depth fun d hd => ?_
  obtain ⟨a1, a2, a3⟩ := hP.active c0 h0
  have b1 := rowOff_bounds d
  have b2 := colOff_bounds d
  by_cases hup : c0.1.val = 0 ∧ rowOff d = -1
  · obtain ⟨f1, f2⟩ := hf c0 hup.1 h0.1 h0.2
    rw [f2]
    exact weightInt_upstream f1 hs05 hP.s2 hup.2
  · exfalso
    apply hd
    have e1 : ∃ n : Cell L W, n.1.val + 1 = c0.1.val + d.val / 3 ∧ n.2.val + 1 = c0.2.val + d.val % 3 := by
      unfold rowOff at b1 hup
      unfold colOff at b2
      refine ⟨(⟨c0.1.val + d.val / 3 - 1, by omega⟩, ⟨c0.2.val + d.val % 3 - 1, by omega⟩), ?_, ?_⟩
      · simp only; omega
      · simp only; omega
    obtain ⟨n, e1, e2⟩ := e1
    unfold padSlice
    rw [hst n _ (by simp only; omega) (by simp only; omega), hst' n _ (by simp only; omega) (by simp only; omega), hS]

/-! ## One step, one parcel, all parcels -/

lemma sedStep_fresh {g : Rng K σ} {k : Sed} {P : Params L W m K} (hP : SedDomain P) (hs05 : 0 < P.s05) {st st' st1 : SedSt L W K}
    (hS : st'.S = st.S) (hst : PadFresh st) (hst' : PadFresh st') {c0 : Cell L W} (h0 : ActiveCell P c0) (hf : FlowsIn P st.S)
    {res res1 : K} {s s1 : σ} {r : SedRec L W K}
    (h : sedStep g k P st (c0.1.val : ℤ) (c0.2.val : ℤ) res s = .ok (st1, res1, r, s1)) (hr : r.new = coords r.cell) :
    ∃ st1', sedStep g k P st' (c0.1.val : ℤ) (c0.2.val : ℤ) res s = .ok (st1', res1, r, s1) ∧ st1'.S = st1.S ∧ PadFresh st1 ∧
      PadFresh st1' ∧ FlowsIn P st1.S := by
  have he := stepEffect h
  obtain ⟨c0', d, c, cp, w, e1, e2, e3, e4, e5, e6, e7, e8, e9, e10, e11, e12, e13, e14, e15, e16, e17, e18⟩ := sedStep_ok h
  have hc0 := e1
  rw [cellAt_coords] at hc0
  cases hc0
  have hw := weights_fresh (k := k) hP hs05 hS hst hst' h0 hf
  rw [e2, hS] at hw
  obtain ⟨c', cp', f1, f2, f3⟩ := target_cells hP h0 d
  rw [e5] at f1
  rw [e6] at f2
  cases f1
  cases f2
  have g34 : cp.1.val = c.1.val + 1 ∧ cp.2.val = c.2.val + 1 := by
    rcases f3 with ⟨-, -, g3, g4⟩ | ⟨g1, g2, g3, g4⟩
    · exact ⟨g3, g4⟩
    · exfalso
      obtain ⟨w1, w2⟩ := walk_offsets d
      rw [e9, e11, w1, g1, g2] at hr
      simp only [coords, Prod.mk.injEq] at hr
      have := hr.1
      omega
  have hdep : ∀ x, r.after.depth x = if x = c then r.after.depth c else st.S.depth x := by
    intro x
    split_ifs with hx
    · rw [hx]
    · rw [e16, e13, fieldsAt_frame, recordDeposit_frame]
      simp only [updateFields]
      rw [Function.update_of_ne hx]
  have fresh : ∀ {T T1 : SedSt L W K}, PadFresh T → T.S = st.S → T1.S = r.after →
      T1.padDepth = Function.update T.padDepth cp (r.after.depth c) → PadFresh T1 := by
    intro T T1 hT hTS h1 h2 x p k1 k2
    rw [h1, h2]
    by_cases hxc : x = c
    · subst hxc
      have : p = cp := Prod.ext (Fin.ext (by omega)) (Fin.ext (by omega))
      rw [this, Function.update_self]
    · have : p ≠ cp := by
        rintro rfl
        exact hxc (Prod.ext (Fin.ext (by omega)) (Fin.ext (by omega)))
      rw [Function.update_of_ne this, hdep, if_neg hxc, hT x p k1 k2, hTS]
  have hst1 := fresh hst rfl e17 e18
  have hfl : FlowsIn P st1.S := by
    intro x x1 x2 x3
    have := hf x x1 x2 x3
    rw [e17, he.discharge.1, he.discharge.2.1, e13, fieldsAt_frame]
    exact this
  have hstep : sedStep g k P st' (c0.1.val : ℤ) (c0.2.val : ℤ) res s =
      .ok (⟨st1.S, Function.update st'.padDepth cp (r.after.depth c)⟩, res1, r, s1) := by
    have h' := h
    unfold sedStep chooseNext at h' ⊢
    simp only [e1, e2, e3, e5, e6, hw, hS] at h' ⊢
    simp only [Except.ok.injEq, Prod.mk.injEq] at h'
    obtain ⟨i1, i2, i3, i4⟩ := h'
    rw [← i1, ← i2, ← i3, ← i4]
  exact ⟨_, hstep, rfl, hst1, fresh hst' hS e17 rfl, hfl⟩

lemma sedLoop_fresh {g : Rng K σ} (hg : PositiveDraws g) {k : Sed} {P : Params L W m K} (hP : SedDomain P) (hs05 : 0 < P.s05) :
    ∀ n st px py res s st' res' rs s', Routing P st px py → PadFresh st → FlowsIn P st.S →
      sedLoop g k P n st px py res s = .ok (st', res', rs, s') → (∀ r ∈ rs, r.new = coords r.cell) →
      freshLoop g k P n st.S px py res s = .ok (st'.S, res', rs, s') ∧ PadOk st' ∧ PadFresh st' ∧ FlowsIn P st'.S := by
  intro n
  induction n with
  | zero => intro st px py res s st' res' rs s' _ _ _ h; simp [sedLoop] at h
  | succ n ih =>
    rintro st px py res s st' res' rs s' ⟨hst, c0, h0, hc⟩ hp hf h hr
    simp only [coords, Prod.mk.injEq] at hc
    obtain ⟨rfl, rfl⟩ := hc
    unfold sedLoop at h
    unfold freshLoop
    generalize h1 : sedStep g k P st (c0.1.val : ℤ) (c0.2.val : ℤ) res s = x at h
    cases x with
    | error e => simp at h
    | ok v =>
      obtain ⟨st1, res1, r, s1⟩ := v
      simp only at h
      obtain ⟨g1, -, g3⟩ := sedStep_domain hg hP hst h0 h1
      by_cases hstop : P.cellType r.cell = -1 ∨ n = 0
      · rw [if_pos hstop] at h
        simp only [Except.ok.injEq, Prod.mk.injEq] at h
        obtain ⟨rfl, rfl, rfl, rfl⟩ := h
        obtain ⟨st1', k1, k2, k3, -, k5⟩ := sedStep_fresh (st := st) (st' := ⟨st.S, customPad st.S.depth⟩) hP hs05 rfl hp (padFresh_pad _) h0 hf h1
          (hr r (by simp))
        rw [k1]
        simp only [if_pos hstop, k2]
        exact ⟨trivial, g1, k3, k5⟩
      · rw [if_neg hstop] at h
        generalize h2 : sedLoop g k P n st1 r.new.1 r.new.2 res1 s1 = y at h
        cases y with
        | error e => simp at h
        | ok v =>
          obtain ⟨st2, res2, rs2, s2⟩ := v
          simp only [Except.ok.injEq, Prod.mk.injEq] at h
          obtain ⟨rfl, rfl, rfl, rfl⟩ := h
          obtain ⟨st1', k1, k2, k3, -, k5⟩ := sedStep_fresh (st := st) (st' := ⟨st.S, customPad st.S.depth⟩) hP hs05 rfl hp (padFresh_pad _) h0 hf h1
            (hr r (by simp))
          obtain ⟨g4, g5⟩ := g3 (fun h => hstop (Or.inl h))
          obtain ⟨i1, i2⟩ := ih st1 r.new.1 r.new.2 res1 s1 _ _ _ _ ⟨g1, r.cell, g4, g5⟩ k3 k5 h2
            (fun x hx => hr x (List.mem_cons_of_mem _ hx))
          rw [k1]
          simp only [if_neg hstop, k2, i1]
          exact ⟨trivial, i2⟩

lemma sedLoop_two {g : Rng K σ} (hg : PositiveDraws g) {k : Sed} {P : Params L W m K} (hP : SedDomain P) (hs05 : 0 < P.s05) :
    ∀ n st px py res s st' res' rs s' tt, Routing P st px py → PadFresh st → FlowsIn P st.S → tt.S = st.S → PadFresh tt →
      sedLoop g k P n st px py res s = .ok (st', res', rs, s') → (∀ r ∈ rs, r.new = coords r.cell) →
      ∃ tt', sedLoop g k P n tt px py res s = .ok (tt', res', rs, s') ∧ tt'.S = st'.S ∧ PadFresh tt' := by
  intro n
  induction n with
  | zero => intro st px py res s st' res' rs s' tt _ _ _ _ _ h; simp [sedLoop] at h
  | succ n ih =>
    rintro st px py res s st' res' rs s' tt ⟨hst, c0, h0, hc⟩ hp hf ht1 ht2 h hr
    simp only [coords, Prod.mk.injEq] at hc
    obtain ⟨rfl, rfl⟩ := hc
    unfold sedLoop at h ⊢
    generalize h1 : sedStep g k P st (c0.1.val : ℤ) (c0.2.val : ℤ) res s = x at h
    cases x with
    | error e => simp at h
    | ok v =>
      obtain ⟨st1, res1, r, s1⟩ := v
      simp only at h
      obtain ⟨g1, -, g3⟩ := sedStep_domain hg hP hst h0 h1
      by_cases hstop : P.cellType r.cell = -1 ∨ n = 0
      · rw [if_pos hstop] at h
        simp only [Except.ok.injEq, Prod.mk.injEq] at h
        obtain ⟨rfl, rfl, rfl, rfl⟩ := h
        obtain ⟨st1', k1, k2, k3, k4, k5⟩ := sedStep_fresh (st := st) (st' := tt) hP hs05 ht1 hp ht2 h0 hf h1 (hr r (by simp))
        rw [k1]
        simp only [if_pos hstop]
        exact ⟨_, rfl, k2, k4⟩
      · rw [if_neg hstop] at h
        generalize h2 : sedLoop g k P n st1 r.new.1 r.new.2 res1 s1 = y at h
        cases y with
        | error e => simp at h
        | ok v =>
          obtain ⟨st2, res2, rs2, s2⟩ := v
          simp only [Except.ok.injEq, Prod.mk.injEq] at h
          obtain ⟨rfl, rfl, rfl, rfl⟩ := h
          obtain ⟨st1', k1, k2, k3, k4, k5⟩ := sedStep_fresh (st := st) (st' := tt) hP hs05 ht1 hp ht2 h0 hf h1 (hr r (by simp))
          obtain ⟨g4, g5⟩ := g3 (fun h => hstop (Or.inl h))
          obtain ⟨t2, i1, i2⟩ := ih st1 r.new.1 r.new.2 res1 s1 _ _ _ _ st1' ⟨g1, r.cell, g4, g5⟩ k3 k5 k2 k4 h2
            (fun x hx => hr x (List.mem_cons_of_mem _ hx))
          rw [k1]
          simp only [if_neg hstop, i1]
          exact ⟨_, rfl, i2⟩

lemma enter_flows {k : Sed} {P : Params L W m K} {st : SedSt L W K} (h : FlowsIn P st.S) (c : Cell L W) :
    FlowsIn P (enterState k P st c).S := by
  cases k <;> exact h

lemma enter_fresh {k : Sed} {P : Params L W m K} {st : SedSt L W K} (h : PadFresh st) (c : Cell L W) :
    PadFresh (enterState k P st c) := by
  cases k <;> exact h

lemma enter_state {k : Sed} {P : Params L W m K} {st st' : SedSt L W K} (h : st'.S = st.S) (c : Cell L W) :
    (enterState k P st' c).S = (enterState k P st c).S := by
  cases k
  · simp only [enterState, h]
  · exact h

lemma inlet_cell {P : Params L W m K} (i : Fin m) : pyCell L W 0 ((P.inlet i).val : ℤ) = some ((0 : Fin L), P.inlet i) := by
  have := pyCell_self ((0 : Fin L), P.inlet i)
  have h00 : (((0 : Fin L), P.inlet i).1.val : ℤ) = 0 := by simp
  rw [h00] at this
  exact this

lemma sedParcels_fresh {g : Rng K σ} (hg : PositiveDraws g) {k : Sed} {P : Params L W m K} (hP : SedDomain P) (hs05 : 0 < P.s05) :
    ∀ pys : List ℤ, (∀ y ∈ pys, ∃ i, y = ((P.inlet i).val : ℤ)) → ∀ st s st' logs s', PadOk st → PadFresh st → FlowsIn P st.S →
      sedParcels g k P pys st s = .ok (st', logs, s') → StaysIn logs →
      freshParcels g k P pys st.S s = .ok (st'.S, logs, s') ∧ PadOk st' ∧ PadFresh st' ∧ FlowsIn P st'.S := by
  intro pys
  induction pys with
  | nil =>
    intro _ st s st' logs s' h1 h2 h3 h _
    simp only [sedParcels, Except.ok.injEq, Prod.mk.injEq] at h
    obtain ⟨rfl, rfl, rfl⟩ := h
    exact ⟨rfl, h1, h2, h3⟩
  | cons py pys ih =>
    intro hin st s st' logs s' h1 h2 h3 h hl
    obtain ⟨i, rfl⟩ := hin py List.mem_cons_self
    unfold sedParcels at h
    unfold freshParcels
    rw [inlet_cell] at h ⊢
    simp only at h ⊢
    generalize e1 : sedLoop g k P P.stepmax (enterState k P st ((0 : Fin L), P.inlet i)) 0 ((P.inlet i).val : ℤ) P.VpSed s = x at h
    cases x with
    | error e => simp at h
    | ok v =>
      obtain ⟨st2, res, rs, s1⟩ := v
      simp only at h
      generalize e2 : sedParcels g k P pys st2 s1 = y at h
      cases y with
      | error e => simp at h
      | ok v =>
        obtain ⟨st3, logs', s2⟩ := v
        simp only [Except.ok.injEq, Prod.mk.injEq] at h
        obtain ⟨rfl, rfl, rfl⟩ := h
        obtain ⟨j1, j2, j3, j4⟩ := sedLoop_fresh hg hP hs05 _ _ _ _ _ _ _ _ _ _
          ⟨enter_pad h1 _, ((0 : Fin L), P.inlet i), hP.inlet i, by simp [coords]⟩ (enter_fresh h2 _) (enter_flows h3 _) e1
          (fun r hr => hl _ List.mem_cons_self r hr)
        obtain ⟨k1, k2⟩ := ih (fun y hy => hin y (List.mem_cons_of_mem _ hy)) _ _ _ _ _ j2 j3 j4 e2
          (fun l hl' => hl l (List.mem_cons_of_mem _ hl'))
        rw [enter_state (st := st) (st' := ⟨st.S, customPad st.S.depth⟩) rfl, j1]
        simp only [k1]
        exact ⟨trivial, k2⟩

lemma sedParcels_two {g : Rng K σ} (hg : PositiveDraws g) {k : Sed} {P : Params L W m K} (hP : SedDomain P) (hs05 : 0 < P.s05) :
    ∀ pys : List ℤ, (∀ y ∈ pys, ∃ i, y = ((P.inlet i).val : ℤ)) → ∀ st s st' logs s' tt, PadOk st → PadFresh st → FlowsIn P st.S →
      tt.S = st.S → PadFresh tt → sedParcels g k P pys st s = .ok (st', logs, s') → StaysIn logs →
      ∃ tt', sedParcels g k P pys tt s = .ok (tt', logs, s') ∧ tt'.S = st'.S := by
  intro pys
  induction pys with
  | nil =>
    intro _ st s st' logs s' tt _ _ _ h4 _ h _
    simp only [sedParcels, Except.ok.injEq, Prod.mk.injEq] at h
    obtain ⟨rfl, rfl, rfl⟩ := h
    exact ⟨tt, rfl, h4⟩
  | cons py pys ih =>
    intro hin st s st' logs s' tt h1 h2 h3 h4 h5 h hl
    obtain ⟨i, rfl⟩ := hin py List.mem_cons_self
    unfold sedParcels at h ⊢
    rw [inlet_cell] at h ⊢
    simp only at h ⊢
    generalize e1 : sedLoop g k P P.stepmax (enterState k P st ((0 : Fin L), P.inlet i)) 0 ((P.inlet i).val : ℤ) P.VpSed s = x at h
    cases x with
    | error e => simp at h
    | ok v =>
      obtain ⟨st2, res, rs, s1⟩ := v
      simp only at h
      generalize e2 : sedParcels g k P pys st2 s1 = y at h
      cases y with
      | error e => simp at h
      | ok v =>
        obtain ⟨st3, logs', s2⟩ := v
        simp only [Except.ok.injEq, Prod.mk.injEq] at h
        obtain ⟨rfl, rfl, rfl⟩ := h
        have hro : Routing P (enterState k P st ((0 : Fin L), P.inlet i)) 0 ((P.inlet i).val : ℤ) :=
          ⟨enter_pad h1 _, ((0 : Fin L), P.inlet i), hP.inlet i, by simp [coords]⟩
        have hrs := fun r hr => hl _ List.mem_cons_self r hr
        obtain ⟨-, j2, j3, j4⟩ := sedLoop_fresh hg hP hs05 _ _ _ _ _ _ _ _ _ _ hro (enter_fresh h2 _) (enter_flows h3 _) e1 hrs
        obtain ⟨t2, l1, l2, l3⟩ := sedLoop_two hg hP hs05 _ _ _ _ _ _ _ _ _ _ (enterState k P tt ((0 : Fin L), P.inlet i)) hro
          (enter_fresh h2 _) (enter_flows h3 _) (enter_state h4 _) (enter_fresh h5 _) e1 hrs
        obtain ⟨t3, k1, k2⟩ := ih (fun y hy => hin y (List.mem_cons_of_mem _ hy)) _ _ _ _ _ t2 j2 j3 j4 l2 l3 e2
          (fun l hl' => hl l (List.mem_cons_of_mem _ hl'))
        simp only [l1, k1]
        exact ⟨_, rfl, k2⟩

lemma sedParcels_append {g : Rng K σ} {k : Sed} {P : Params L W m K} : ∀ (a b : List ℤ) (st : SedSt L W K) (s : σ),
    sedParcels g k P (a ++ b) st s = match sedParcels g k P a st s with
      | .error e => .error e
      | .ok (st1, l1, s1) => match sedParcels g k P b st1 s1 with
        | .error e => .error e
        | .ok (st2, l2, s2) => .ok (st2, l1 ++ l2, s2) := by
  intro a
  induction a with
  | nil =>
    intro b st s
    simp only [List.nil_append, sedParcels]
    cases sedParcels g k P b st s with
    | error e => rfl
    | ok v => rfl
  | cons y a ih =>
    intro b st s
    simp only [List.cons_append, sedParcels]
    cases pyCell L W 0 y with
    | none => rfl
    | some c =>
      simp only
      generalize sedLoop g k P P.stepmax (enterState k P st c) 0 y P.VpSed s = x
      cases x with
      | error e => rfl
      | ok v =>
        obtain ⟨st1, res, rs, s1⟩ := v
        simp only [ih]
        generalize sedParcels g k P a st1 s1 = x
        cases x with
        | error e => rfl
        | ok v =>
          obtain ⟨st2, l2, s2⟩ := v
          simp only
          generalize sedParcels g k P b st2 s2 = x
          cases x with
          | error e => rfl
          | ok v => rfl

/-! ## C131 -/

/-- C131: sediment parcels go one after another, and each step of each parcel sees the bed as the steps before it left it. The router
changes a padded copy of the depth together with the depth; that copy has no effect of its own, padding the depth anew before each
step gives the same steps, volumes, state and random numbers. In the first row the flow must not be upstream or sideways, and no parcel
may leave upstream. -/
theorem C131_fresh_partial {g : Rng K σ} (hg : PositiveDraws g) {k : Sed} {P : Params L W m K} (hP : SedDomain P) (hs05 : 0 < P.s05)
    {S : State L W K} (hd : ∀ c, 0 ≤ S.depth c) (hf : FlowsIn P S) {starts : List ℤ} (hin : ∀ y ∈ starts, ∃ i, y = ((P.inlet i).val : ℤ))
    {s s' : σ} {st : SedSt L W K} {logs : List (SedLog L W K)}
    (h : sedParcels g k P starts ⟨S, customPad S.depth⟩ s = .ok (st, logs, s')) (hl : StaysIn logs) :
    freshParcels g k P starts S s = .ok (st.S, logs, s') :=
  (sedParcels_fresh hg hP hs05 starts hin _ _ _ _ _ (padOk_init hd) (padFresh_pad S) hf h hl).1

/-- C131: the parcels may be routed in two groups. Routing the parcels of two lists is routing those of the first, and then those of the
second from the state left, with the depth padded anew: same steps, volumes, state and random numbers. -/
theorem C131_groups_partial {g : Rng K σ} (hg : PositiveDraws g) {k : Sed} {P : Params L W m K} (hP : SedDomain P) (hs05 : 0 < P.s05)
    {S : State L W K} (hd : ∀ c, 0 ≤ S.depth c) (hf : FlowsIn P S) {a b : List ℤ} (hin : ∀ y ∈ a ++ b, ∃ i, y = ((P.inlet i).val : ℤ))
    {s s' : σ} {st : SedSt L W K} {logs : List (SedLog L W K)}
    (h : sedParcels g k P (a ++ b) ⟨S, customPad S.depth⟩ s = .ok (st, logs, s')) (hl : StaysIn logs) :
    ∃ S1 pad1 la s1 pad2 lb, sedParcels g k P a ⟨S, customPad S.depth⟩ s = .ok (⟨S1, pad1⟩, la, s1) ∧
      sedParcels g k P b ⟨S1, customPad S1.depth⟩ s1 = .ok (⟨st.S, pad2⟩, lb, s') ∧ logs = la ++ lb := by
  rw [sedParcels_append] at h
  generalize e1 : sedParcels g k P a ⟨S, customPad S.depth⟩ s = x at h
  cases x with
  | error e => simp at h
  | ok v =>
    obtain ⟨st1, la, s1⟩ := v
    simp only at h
    generalize e2 : sedParcels g k P b st1 s1 = y at h
    cases y with
    | error e => simp at h
    | ok v =>
      obtain ⟨st2, lb, s2⟩ := v
      simp only [Except.ok.injEq, Prod.mk.injEq] at h
      obtain ⟨rfl, rfl, rfl⟩ := h
      obtain ⟨-, j2, j3, j4⟩ := sedParcels_fresh hg hP hs05 a (fun y hy => hin y (List.mem_append_left _ hy)) _ _ _ _ _ (padOk_init hd)
        (padFresh_pad S) hf e1 (fun l h => hl l (List.mem_append_left _ h))
      obtain ⟨t2, k1, k2⟩ := sedParcels_two hg hP hs05 b (fun y hy => hin y (List.mem_append_right _ hy)) _ _ _ _ _
        ⟨st1.S, customPad st1.S.depth⟩ j2 j3 j4 rfl (padFresh_pad _) e2 (fun l h => hl l (List.mem_append_right _ h))
      exact ⟨st1.S, st1.padDepth, la, s1, t2.padDepth, lb, rfl, by rw [k1, ← k2], rfl⟩

lemma routeParcels_fresh {g : Rng K σ} (hg : PositiveDraws g) {k : Sed} {P : Params L W m K} (hP : SedDomain P) (hs05 : 0 < P.s05)
    {S S' : State L W K} (hd : ∀ c, 0 ≤ S.depth c) (hf : FlowsIn P S) {s s' : σ} {logs : List (SedLog L W K)}
    (h : routeParcels g k P S s = .ok (S', logs, s')) (hl : StaysIn logs) :
    freshRoute g k P S s = .ok (S', logs, s') ∧ (∀ c, 0 ≤ S'.depth c) ∧ FlowsIn P S' := by
  obtain ⟨starts, h1, -, h3⟩ := starts_exist (g := g) hg (fun i => ((P.inlet i).val : ℤ)) hP.hm (numStarts k P) s
  have h1' : getStartIndices (fun i => ((P.inlet i).val : ℤ)) (fun _ => (1 : K)) (drawN g (numStarts k P) s).1 = some starts := h1
  unfold routeParcels at h
  unfold freshRoute
  simp only [h1] at h
  simp only [h1']
  generalize e : sedParcels g k P starts ⟨S, customPad S.depth⟩ (drawN g (numStarts k P) s).2 = x at h
  cases x with
  | error e => simp at h
  | ok v =>
    obtain ⟨st, logs1, s1⟩ := v
    simp only [Except.ok.injEq, Prod.mk.injEq] at h
    obtain ⟨rfl, rfl, rfl⟩ := h
    obtain ⟨j1, j2, -, j4⟩ := sedParcels_fresh hg hP hs05 starts h3 _ _ _ _ _ (padOk_init hd) (padFresh_pad S) hf e hl
    exact ⟨j1, j2.depth, j4⟩

/-- C131 for the sediment routing of a timestep, after its water routing: if no parcel leaves upstream, sand and mud routing with the depth
padded anew before each step are the routing of the model. The condition on the flow is met by the inlet: all active cells of the first row
are inlet cells. -/
theorem C131_timestep_partial {g : Rng K σ} (hg : PositiveDraws g) {P : Params L W m K} (hP : SedDomain P) (hs05 : 0 < P.s05)
    (hfront : ∀ c : Cell L W, c.1.val = 0 → ActiveCell P c → ∃ i, P.inlet i = c.2) (hq : 0 ≤ P.qw0) (hn : P.nrm P.qw0 0 = P.qw0)
    (hit : 0 < P.itermax) {S S1 S2 : State L W K} {s s1 s2 : σ} {sand mud : List (SedLog L W K)}
    (hw : routeWater g P S s = .ok (S1, s1)) (h : routeSediment g P S1 s1 = .ok (S2, sand, mud, s2)) (h1 : StaysIn sand)
    (h2 : StaysIn mud) : freshSediment g P S1 s1 = .ok (S2, sand, mud, s2) := by
  have hd : ∀ c, 0 ≤ S1.depth c := fun c => ((C19_route hit hw).1 c).2.1
  have hf : FlowsIn P S1 := by
    intro c c1 c2 c3
    obtain ⟨q1, q2, -⟩ := (C20_route hn hit hw).inlet c ⟨c1, hfront c c1 ⟨c2, c3⟩⟩
    exact ⟨by rw [q1]; exact hq, q2⟩
  obtain ⟨T, t, r1, r2⟩ := routeSediment_ok h
  obtain ⟨f1, f2, f3⟩ := routeParcels_fresh hg hP hs05 (S := initSediment S1) hd hf r1 h1
  obtain ⟨f4, -⟩ := routeParcels_fresh (S := { T with eta := topoDiffusion P.cellType P.diffMult T.qs P.Ncross T.eta }) hg hP hs05 f2 f3 r2 h2
  unfold freshSediment
  have f1' : freshRoute g .sand P { S1 with qs := fun _ => 0, depSand := fun _ => 0, depMud := fun _ => 0 } s1 = .ok (T, sand, t) := f1
  simp only [f1', f4]

/-! ## When no parcel leaves upstream -/

/-- The second row is under water. -/
def SecondRowWet (S : State L W K) : Prop := ∀ n : Cell L W, n.1.val = 1 → S.eta n < S.stage n ∧ 0 < S.depth n

lemma step_wet {P : Params L W m K} (hP : SedSetup P) {r : SedRec L W K} (he : StepEffect P r)
    (hb : |r.change| ≤ |r.before.stage r.cell - r.before.eta r.cell| / 4 * (P.dx * P.dx)) (h : SecondRowWet r.before) :
    SecondRowWet r.after := by
  intro n hn
  obtain ⟨h1, h2⟩ := h n hn
  by_cases hc : n = r.cell
  · subst hc
    have hd : 0 < P.dx * P.dx := mul_pos hP.dx hP.dx
    rw [abs_of_pos (by linarith : (0 : K) < r.before.stage r.cell - r.before.eta r.cell)] at hb
    have hq : r.change / (P.dx * P.dx) ≤ (r.before.stage r.cell - r.before.eta r.cell) / 4 := by
      rw [div_le_iff₀ hd]; exact (le_abs_self _).trans hb
    have hlt : r.after.eta r.cell < r.before.stage r.cell := by
      rw [he.bed, Function.update_self]
      linarith
    rw [he.stage, he.depth, Function.update_self]
    exact ⟨hlt, lt_max_of_lt_right (by linarith)⟩
  · rw [he.stage, he.bed, he.depth, Function.update_of_ne hc, Function.update_of_ne hc]
    exact ⟨h1, h2⟩

lemma route_wet {g : Rng K σ} {k : Sed} {P : Params L W m K} (hP : SedSetup P) {S S' : State L W K} {s s' : σ}
    {logs : List (SedLog L W K)} (hS : FlowOk P S) (hw : SecondRowWet S) (h : routeParcels g k P S s = .ok (S', logs, s')) :
    SecondRowWet S' ∧ ∀ l ∈ logs, ∀ r ∈ l.steps, SecondRowWet r.before := by
  obtain ⟨starts, st, -, hp, rfl⟩ := routeParcels_ok h
  have := sedParcels_induct (g := g) (k := k) (P := P)
    (fun st logs => (FlowOk P st.S ∧ SecondRowWet st.S) ∧ ∀ l ∈ logs, ∀ r ∈ l.steps, SecondRowWet r.before) (by
      intro st logs py c s st' res rs s' ⟨hI, hQ⟩ hc hl
      have hent : FlowOk P (enterState k P st c).S ∧ SecondRowWet (enterState k P st c).S := by cases k <;> exact hI
      obtain ⟨a, b⟩ := sedLoop_induct (fun st res => (FlowOk P st.S ∧ 0 ≤ res) ∧ SecondRowWet st.S) (fun r => SecondRowWet r.before)
        (fun st px py res s st1 res1 r s1 hI h => by
          obtain ⟨i1, -, -, -, i5, -⟩ := step_inv hP hI.1 h
          obtain ⟨b1, b2, -⟩ := before_eq h
          have hb : SecondRowWet r.before := by rw [b1]; exact hI.2
          exact ⟨⟨i1, by rw [b2]; exact step_wet hP (stepEffect h) i5 hb⟩, hb⟩)
        _ _ _ _ _ _ _ _ _ _ ⟨⟨hent.1, hP.vp⟩, hent.2⟩ hl
      refine ⟨⟨a.1.1, a.2⟩, fun l hl' => ?_⟩
      simp only [List.mem_append, List.mem_singleton] at hl'
      rcases hl' with hl' | rfl
      · exact hQ l hl'
      · exact b) _ _ [] _ _ _ _ ⟨⟨hS, hw⟩, by simp⟩ hp
  simp only [List.nil_append] at this
  exact ⟨this.1.2, this.2⟩

/-- C27, under another condition: if cells of no depth only count as dry (`dry_depth` is 0) and the second row is under water when the
routing of a kind of sediment begins, it stays so, because no step fills more than a quarter of the depth, and no parcel leaves upstream.
Missing for the full property: the usual `dry_depth` above 0. -/
theorem C27_no_threshold_partial {g : Rng K σ} (hg : PositiveDraws g) {k : Sed} {P : Params L W m K} (hP : SedDomain P) (hQ : SedPositive P)
    (hs : SedSetup P) (hdry : P.dryDepth = 0) {S S' : State L W K} (hS : FlowOk P S) (hd : ∀ c, 0 ≤ S.depth c)
    (hflow : ∀ c : Cell L W, c.1.val = 0 → ActiveCell P c → 0 < S.qx c ∧ S.qy c = 0) (hw : SecondRowWet S) {s s' : σ}
    {logs : List (SedLog L W K)} (h : routeParcels g k P S s = .ok (S', logs, s')) : SecondRowWet S' ∧ StaysIn logs := by
  obtain ⟨h1, h2⟩ := route_wet hs hS hw h
  refine ⟨h1, fun l hl r hr => (C27_in_domain_partial hg hP hQ hd hflow h l hl r hr ?_).1⟩
  intro n hn _
  rw [hdry]
  exact (h2 l hl r hr n hn).2

/-- The example, where a parcel takes at most one step. -/
def exOneStep : Params 4 3 1 ℚ := { exParams with stepmax := 1 }

/-- The example, with sand under way. -/
def exSandy : State 4 3 ℚ := { exState with qs := fun _ => 1 / 8 }

/-- C131: unlike water parcels (C127), sediment parcels do see each other. Two sand parcels that start in the same cell and draw the same
numbers: the first passes, the second deposits all it has in the second row, because the first has added to the flux of sand there. -/
theorem C131_not_alone : (sedParcels constRng .sand exOneStep [1, 1] ⟨exSandy, customPad exSandy.depth⟩ ()).map
    (fun x => x.2.1.map (fun l => l.steps.map (fun r => (r.new, r.change)))) =
      .ok [[((1, 1), 0)], [((1, 1), 1 / 4)]] := by
  decide +kernel

/-- A bed with a dry second row and still water in the last. -/
def exDryRow : State 4 3 ℚ :=
  { exState with depth := fun c => if c.1.val = 1 then 0 else 1, uw := fun c => if c.1.val = 3 then 0 else 1 }

/-- C131 without the condition on upstream exits: the copy of the depth does not follow. A mud parcel leaves upstream, with row index -1,
and deposits in the last row (Python's negative index); the copy is changed in its first row, above the domain, and in the last row still
has the depth from before. -/
theorem C131_stale_witness : (sedParcels tenthRng .mud exParams [1] ⟨exDryRow, customPad exDryRow.depth⟩ ()).map
    (fun x => (x.2.1.map (fun l => l.steps.map (·.new)), x.1.padDepth (4, 2), decide (x.1.S.depth (3, 1) < 1))) =
      .ok ([[(-1, 1)]], 1, true) := by
  decide +kernel

/-! ## Non-trivial cases -/

lemma exFlowsIn : FlowsIn exParams exState := by
  intro c _ _ _
  refine ⟨?_, rfl⟩
  change (0 : ℚ) ≤ if c.2.val = 1 then 1 else 1 / 5
  split_ifs <;> norm_num

/-- The example without a threshold, with sand only. -/
def exNoDry : Params 4 3 1 ℚ := { exParams with dryDepth := 0, fBedload := 1 }

-- a timestep: four parcels of sand, and none leaves upstream
example : ∃ S1 s1 S2 sand mud s2, routeWater constRng exNoDry exState () = .ok (S1, s1) ∧
    routeSediment constRng exNoDry S1 s1 = .ok (S2, sand, mud, s2) ∧ sand.length = 4 ∧
    freshSediment constRng exNoDry S1 s1 = .ok (S2, sand, mud, s2) := by
  have hW : WaterSetup exNoDry := by
    have h := exSetup
    cases h
    constructor <;> assumption
  have hD : SedDomain exNoDry := by
    have h := exSedDomain
    cases h
    constructor <;> assumption
  have hS : SedSetup exNoDry := by
    have h := exSedSetup
    cases h
    constructor <;> assumption
  have hQ : SedPositive exNoDry :=
    ⟨exSedPositive.s05, exSedPositive.pw, exSedPositive.mod, le_refl _⟩
  have hfront : ∀ c : Cell 4 3, c.1.val = 0 → ActiveCell exNoDry c → ∃ i, exNoDry.inlet i = c.2 := by
    intro c h1 h2
    obtain ⟨-, a2, a3⟩ := hD.active c h2
    exact ⟨0, Fin.ext (by change 1 = c.2.val; omega)⟩
  have hn : exNoDry.nrm exNoDry.qw0 0 = exNoDry.qw0 := by change |(1 : ℚ)| + |0| = 1; norm_num
  have hit : 0 < exNoDry.itermax := by decide
  obtain ⟨S1, s1, h1, h2, -⟩ := C71_water_routing exPositive hW (S := exState) (fun _ => by norm_num [exState]) (by decide) ()
  obtain ⟨c1, c2, c3⟩ := C19_route hit h1
  have hin := (C20_route hn hit h1)
  have hv := C21_route hS.uMax (le_refl _) hit h1
  have hf : FlowOk exNoDry S1 := by
    intro c
    refine ⟨(hv.bounds c).1, (hv.bounds c).2, ?_⟩
    rw [hin.magnitude c]
    change (0 : ℚ) ≤ |S1.qx c| + |S1.qy c|
    positivity
  have hflow : ∀ c : Cell 4 3, c.1.val = 0 → ActiveCell exNoDry c → 0 < S1.qx c ∧ S1.qy c = 0 := by
    intro c k1 k2
    obtain ⟨q1, q2, -⟩ := hin.inlet c ⟨k1, hfront c k1 k2⟩
    refine ⟨?_, q2⟩
    rw [q1]
    change (0 : ℚ) < 1
    norm_num
  have hwet : SecondRowWet S1 := by
    intro n _
    obtain ⟨d1, d2, d3, -⟩ := c1 n
    have e1 : S1.eta n = -1 := by rw [c2]; rfl
    have e2 : S1.HSL = 0 := by rw [c3]; rfl
    have hlt : S1.eta n < S1.stage n := by rw [e1]; rw [e2] at d1; linarith
    exact ⟨hlt, by have := d3 hlt.le; linarith⟩
  obtain ⟨S2, sand, mud, s2, h3, -⟩ := C71_sediment_routing exPositive hD h2 s1
  obtain ⟨T, t, r1, r2⟩ := routeSediment_ok h3
  have hsand := (C27_no_threshold_partial exPositive hD hQ hS rfl (S := initSediment S1) hf h2 hflow hwet r1).2
  have hdraw : ∀ s, 0 ≤ (constRng.next s).1 ∧ (constRng.next s).1 ≤ 1 := fun s => ⟨(exPositive s).1.le, (exPositive s).2⟩
  have hlen := C24_parcel_count hdraw (by decide) r1
  have hmud : mud = [] := by
    have := C24_parcel_count hdraw (by decide) r2
    have hz : numStarts .mud exNoDry = 0 := by decide +kernel
    rw [hz] at this
    exact List.length_eq_zero_iff.1 this
  refine ⟨S1, s1, S2, sand, mud, s2, h1, h3, ?_, ?_⟩
  · rw [hlen]
    decide +kernel
  · exact C131_timestep_partial exPositive hD hQ.s05 hfront (by change (0 : ℚ) ≤ 1; norm_num) hn hit h1 h3 hsand
      (by rw [hmud]; intro l hl; simp at hl)

lemma exOneDomain : SedDomain exOneStep := by
  have h := exSedDomain
  cases h
  constructor <;> assumption

lemma ok_of_map {A B : Type*} {x : Except Err A} {f : A → B} {b : B} (h : x.map f = .ok b) : ∃ a, x = .ok a ∧ f a = b := by
  cases x with
  | error e => simp [Except.map] at h
  | ok a =>
    simp only [Except.map, Except.ok.injEq] at h
    exact ⟨a, rfl, h⟩

lemma exOneStays : (sedParcels constRng .sand exOneStep [1, 1] ⟨exSandy, customPad exSandy.depth⟩ ()).map
    (fun x => x.2.1.all (fun l => l.steps.all (fun r => decide (r.new = ((r.cell.1.val : ℤ), (r.cell.2.val : ℤ)))))) = .ok true := by
  decide +kernel

-- two sand parcels, of which the second deposits
example : ∃ st logs, sedParcels constRng .sand exOneStep [1, 1] ⟨exSandy, customPad exSandy.depth⟩ () = .ok (st, logs, ()) ∧
    freshParcels constRng .sand exOneStep [1, 1] exSandy () = .ok (st.S, logs, ()) ∧
    ∃ S1 pad1 la s1 pad2 lb, sedParcels constRng .sand exOneStep [1] ⟨exSandy, customPad exSandy.depth⟩ () = .ok (⟨S1, pad1⟩, la, s1) ∧
      sedParcels constRng .sand exOneStep [1] ⟨S1, customPad S1.depth⟩ s1 = .ok (⟨st.S, pad2⟩, lb, ()) ∧ logs = la ++ lb := by
  obtain ⟨⟨st, logs, ⟨⟩⟩, e, hc⟩ := ok_of_map exOneStays
  have hl : StaysIn logs := by
    intro l hl r hr
    have := List.all_eq_true.1 (List.all_eq_true.1 hc l hl) r hr
    exact of_decide_eq_true this
  have hin : ∀ y ∈ [(1 : ℤ)] ++ [1], ∃ i, y = ((exOneStep.inlet i).val : ℤ) := by
    intro y hy
    refine ⟨0, ?_⟩
    have : y = 1 := by simpa using hy
    rw [this]
    rfl
  have hd : ∀ c, 0 ≤ exSandy.depth c := fun _ => by norm_num [exSandy, exState]
  have hs : 0 < exOneStep.s05 := exSedPositive.s05
  exact ⟨st, logs, e, C131_fresh_partial exPositive exOneDomain hs hd exFlowsIn hin e hl,
    C131_groups_partial (a := [1]) (b := [1]) exPositive exOneDomain hs hd exFlowsIn hin e hl⟩

end Verif.Props
