import Verif.Model.Sediment
import Verif.Lemmas.WaterWalk

/-!
# Lemmas about sediment routing
-/

set_option linter.unusedSectionVars false
set_option linter.unusedSimpArgs false

namespace Verif.Lemmas

open Verif.Model

variable {K : Type*} [Field K] [LinearOrder K] {σ : Type*} {L W m : ℕ} [NeZero L] [NeZero W]

/-- What a successful step consists of. -/
lemma sedStep_ok {g : Rng K σ} {k : Sed} {P : Params L W m K} {st st1 : SedSt L W K} {px py : ℤ}
    {res res1 : K} {s s1 : σ} {r : SedRec L W K}
    (h : sedStep g k P st px py res s = .ok (st1, res1, r, s1)) :
    ∃ c0 d c cp w, cellAt L W px py = some c0 ∧
      sedWeights st.padDepth (customPad P.modSed) (customPad P.cellType) st.S.qx st.S.qy P.s2
        P.s05 P.dryDepth (P.pwSed k) c0 = .ok w ∧
      randomPick w (g.next s).1 = some d ∧ s1 = (g.next s).2 ∧
      pyCell L W (px + jwalk d) (py + iwalk d) = some c ∧
      pyCell (L + 2) (W + 2) (px + jwalk d + 1) (py + iwalk d + 1) = some cp ∧
      r.old = (px, py) ∧ r.dir = d ∧ r.new = (px + jwalk d, py + iwalk d) ∧ r.from_ = c0 ∧
      r.cell = c ∧ r.res = res ∧ r.before = fieldsAt k P st.S c0 c d res ∧
      r.change = volumeChange k P r.before c res ∧ res1 = res - r.change ∧
      r.after = updateFields P (recordDeposit k r.before c r.change) c r.change ∧
      st1.S = r.after ∧ st1.padDepth = Function.update st.padDepth cp (r.after.depth c) := by
  unfold sedStep chooseNext at h
  cases hc : cellAt L W px py with
  | none => rw [hc] at h; simp at h
  | some c0 =>
    rw [hc] at h
    simp only at h
    cases hw : sedWeights st.padDepth (customPad P.modSed) (customPad P.cellType) st.S.qx st.S.qy
        P.s2 P.s05 P.dryDepth (P.pwSed k) c0 with
    | error e => rw [hw] at h; simp at h
    | ok w =>
      rw [hw] at h
      simp only at h
      cases hp : randomPick w (g.next s).1 with
      | none => rw [hp] at h; simp at h
      | some d =>
        rw [hp] at h
        simp only at h
        cases h1 : pyCell L W (px + jwalk d) (py + iwalk d) with
        | none => rw [h1] at h; simp at h
        | some c =>
          cases h2 : pyCell (L + 2) (W + 2) (px + jwalk d + 1) (py + iwalk d + 1) with
          | none => rw [h1, h2] at h; simp at h
          | some cp =>
            rw [h1, h2] at h
            simp only [Except.ok.injEq, Prod.mk.injEq] at h
            obtain ⟨rfl, rfl, rfl, rfl⟩ := h
            refine ⟨c0, d, c, cp, w, rfl, hw, hp, rfl, h1, h2, rfl, rfl, rfl, rfl, rfl, rfl, ?_⟩
            cases k <;> exact ⟨rfl, rfl, rfl, rfl, rfl, rfl⟩

/-- Invariant of the loop of one parcel. -/
lemma sedLoop_induct {g : Rng K σ} {k : Sed} {P : Params L W m K}
    (I : SedSt L W K → K → Prop) (Q : SedRec L W K → Prop)
    (hstep : ∀ st px py res s st1 res1 r s1, I st res →
      sedStep g k P st px py res s = .ok (st1, res1, r, s1) → I st1 res1 ∧ Q r) :
    ∀ n st px py res s st' res' rs s', I st res →
      sedLoop g k P n st px py res s = .ok (st', res', rs, s') →
      I st' res' ∧ ∀ r ∈ rs, Q r := by
  intro n
  induction n with
  | zero => intro st px py res s st' res' rs s' _ h; simp [sedLoop] at h
  | succ n ih =>
    intro st px py res s st' res' rs s' hI h
    unfold sedLoop at h
    generalize hs : sedStep g k P st px py res s = x at h
    cases x with
    | error e => simp at h
    | ok x =>
      obtain ⟨st1, res1, r, s1⟩ := x
      obtain ⟨hI1, hQ⟩ := hstep _ _ _ _ _ _ _ _ _ hI hs
      simp only at h
      split_ifs at h with hc
      · simp only [Except.ok.injEq, Prod.mk.injEq] at h
        obtain ⟨rfl, rfl, rfl, rfl⟩ := h
        exact ⟨hI1, fun r' hr' => by simp only [List.mem_singleton] at hr'; rw [hr']; exact hQ⟩
      · generalize hl : sedLoop g k P n st1 r.new.1 r.new.2 res1 s1 = y at h
        cases y with
        | error e => simp at h
        | ok y =>
          obtain ⟨st2, res2, rs2, s2⟩ := y
          simp only [Except.ok.injEq, Prod.mk.injEq] at h
          obtain ⟨rfl, rfl, rfl, rfl⟩ := h
          obtain ⟨a, b⟩ := ih _ _ _ _ _ _ _ _ _ hI1 hl
          refine ⟨a, fun r' hr' => ?_⟩
          simp only [List.mem_cons] at hr'
          rcases hr' with rfl | hr'
          · exact hQ
          · exact b r' hr'

/-- Invariant of the loop of one parcel that also follows its position; the position is kept only
while the parcel continues. -/
lemma sedLoop_walk {g : Rng K σ} {k : Sed} {P : Params L W m K}
    (I : SedSt L W K → ℤ → ℤ → K → Prop) (F : SedSt L W K → K → Prop) (Q : SedRec L W K → Prop)
    (hstep : ∀ st px py res s st1 res1 r s1, I st px py res →
      sedStep g k P st px py res s = .ok (st1, res1, r, s1) →
      Q r ∧ F st1 res1 ∧ (P.cellType r.cell ≠ -1 → I st1 r.new.1 r.new.2 res1)) :
    ∀ n st px py res s st' res' rs s', I st px py res →
      sedLoop g k P n st px py res s = .ok (st', res', rs, s') →
      F st' res' ∧ ∀ r ∈ rs, Q r := by
  intro n
  induction n with
  | zero => intro st px py res s st' res' rs s' _ h; simp [sedLoop] at h
  | succ n ih =>
    intro st px py res s st' res' rs s' hI h
    unfold sedLoop at h
    generalize hs : sedStep g k P st px py res s = x at h
    cases x with
    | error e => simp at h
    | ok x =>
      obtain ⟨st1, res1, r, s1⟩ := x
      obtain ⟨hQ, hF, hI1⟩ := hstep _ _ _ _ _ _ _ _ _ hI hs
      simp only at h
      split_ifs at h with hc
      · simp only [Except.ok.injEq, Prod.mk.injEq] at h
        obtain ⟨rfl, rfl, rfl, rfl⟩ := h
        exact ⟨hF, fun r' hr' => by simp only [List.mem_singleton] at hr'; rw [hr']; exact hQ⟩
      · generalize hl : sedLoop g k P n st1 r.new.1 r.new.2 res1 s1 = y at h
        cases y with
        | error e => simp at h
        | ok y =>
          obtain ⟨st2, res2, rs2, s2⟩ := y
          simp only [Except.ok.injEq, Prod.mk.injEq] at h
          obtain ⟨rfl, rfl, rfl, rfl⟩ := h
          obtain ⟨a, b⟩ := ih _ _ _ _ _ _ _ _ _ (hI1 (fun h => hc (.inl h))) hl
          refine ⟨a, fun r' hr' => ?_⟩
          simp only [List.mem_cons] at hr'
          rcases hr' with rfl | hr'
          · exact hQ
          · exact b r' hr'

/-- A quantity that changes by a known amount in each step. -/
lemma sedLoop_sum {g : Rng K σ} {k : Sed} {P : Params L W m K}
    (f : SedSt L W K → K → K) (δ : SedRec L W K → K)
    (hstep : ∀ st px py res s st1 res1 r s1,
      sedStep g k P st px py res s = .ok (st1, res1, r, s1) → f st1 res1 = f st res + δ r) :
    ∀ n st px py res s st' res' rs s',
      sedLoop g k P n st px py res s = .ok (st', res', rs, s') →
      f st' res' = f st res + (rs.map δ).sum := by
  intro n
  induction n with
  | zero => intro st px py res s st' res' rs s' h; simp [sedLoop] at h
  | succ n ih =>
    intro st px py res s st' res' rs s' h
    unfold sedLoop at h
    generalize hs : sedStep g k P st px py res s = x at h
    cases x with
    | error e => simp at h
    | ok x =>
      obtain ⟨st1, res1, r, s1⟩ := x
      have h1 := hstep _ _ _ _ _ _ _ _ _ hs
      simp only at h
      split_ifs at h with hc
      · simp only [Except.ok.injEq, Prod.mk.injEq] at h
        obtain ⟨rfl, rfl, rfl, rfl⟩ := h
        simp [h1]
      · generalize hl : sedLoop g k P n st1 r.new.1 r.new.2 res1 s1 = y at h
        cases y with
        | error e => simp at h
        | ok y =>
          obtain ⟨st2, res2, rs2, s2⟩ := y
          simp only [Except.ok.injEq, Prod.mk.injEq] at h
          obtain ⟨rfl, rfl, rfl, rfl⟩ := h
          rw [ih _ _ _ _ _ _ _ _ _ hl, h1, List.map_cons, List.sum_cons, add_assoc]

/-- The shape of the steps of one parcel: at least one, at most `n`; only the last may be on an edge
cell; the last is on an edge cell unless the steps ran out; each step begins where the one before
ended. -/
lemma sedLoop_shape {g : Rng K σ} {k : Sed} {P : Params L W m K} :
    ∀ n st px py res s st' res' rs s',
      sedLoop g k P n st px py res s = .ok (st', res', rs, s') →
      rs ≠ [] ∧ rs.length ≤ n ∧ (∀ r ∈ rs.dropLast, P.cellType r.cell ≠ -1) ∧
      (∀ r, rs.getLast? = some r → P.cellType r.cell = -1 ∨ rs.length = n) ∧
      (∀ r, rs.head? = some r → r.old = (px, py) ∧ r.res = res) ∧
      List.IsChain (fun a b => b.old = a.new ∧ b.res = a.res - a.change ∧
        b.before.eta = a.after.eta) rs ∧
      (∀ r, rs.getLast? = some r → res' = r.res - r.change ∧ st'.S = r.after) ∧
      (∀ r, rs.head? = some r → r.before.eta = st.S.eta) := by
  intro n
  induction n with
  | zero => intro st px py res s st' res' rs s' h; simp [sedLoop] at h
  | succ n ih =>
    intro st px py res s st' res' rs s' h
    unfold sedLoop at h
    generalize hs : sedStep g k P st px py res s = x at h
    cases x with
    | error e => simp at h
    | ok x =>
      obtain ⟨st1, res1, r, s1⟩ := x
      obtain ⟨c0, d, c, cp, w, -, -, -, -, -, -, hold, -, hnew, -, -, hres, hbef, -, hres1, -, hst1,
        -⟩ := sedStep_ok hs
      have heta : r.before.eta = st.S.eta := by
        rw [hbef]; cases k
        · unfold fieldsAt partitionSand; simp only; split_ifs <;> rfl
        · rfl
      simp only at h
      split_ifs at h with hc
      · simp only [Except.ok.injEq, Prod.mk.injEq] at h
        obtain ⟨rfl, rfl, rfl, rfl⟩ := h
        refine ⟨by simp, by simp, by simp, ?_, ?_, by simp, ?_, ?_⟩
        · intro r' hr'
          simp only [List.getLast?_singleton, Option.some.injEq] at hr'
          subst hr'
          rcases hc with hc | hc
          · exact .inl hc
          · right; simp [hc]
        · intro r' hr'
          simp only [List.head?_cons, Option.some.injEq] at hr'
          subst hr'
          exact ⟨hold, hres⟩
        · intro r' hr'
          simp only [List.getLast?_singleton, Option.some.injEq] at hr'
          subst hr'
          exact ⟨by rw [hres1, hres], hst1⟩
        · intro r' hr'
          simp only [List.head?_cons, Option.some.injEq] at hr'
          subst hr'
          exact heta
      · generalize hl : sedLoop g k P n st1 r.new.1 r.new.2 res1 s1 = y at h
        cases y with
        | error e => simp at h
        | ok y =>
          obtain ⟨st2, res2, rs2, s2⟩ := y
          simp only [Except.ok.injEq, Prod.mk.injEq] at h
          obtain ⟨rfl, rfl, rfl, rfl⟩ := h
          obtain ⟨a1, a2, a3, a4, a5, a6, a7, a8⟩ := ih _ _ _ _ _ _ _ _ _ hl
          obtain ⟨b, bs, rfl⟩ := List.exists_cons_of_ne_nil a1
          push Not at hc
          refine ⟨by simp, by simp at a2 ⊢; omega, ?_, ?_, ?_, ?_, ?_, ?_⟩
          · intro r' hr'
            rw [List.dropLast_cons_of_ne_nil (by simp)] at hr'
            simp only [List.mem_cons] at hr'
            rcases hr' with rfl | hr'
            · exact hc.1
            · exact a3 r' hr'
          · intro r' hr'
            rw [List.getLast?_cons_cons] at hr'
            rcases a4 r' hr' with h | h
            · exact .inl h
            · right; simp at h ⊢; omega
          · intro r' hr'
            simp only [List.head?_cons, Option.some.injEq] at hr'
            subst hr'
            exact ⟨hold, hres⟩
          · rw [List.isChain_cons_cons]
            obtain ⟨e1, e2⟩ := a5 b rfl
            refine ⟨⟨by rw [e1], by rw [e2, hres1, hres], ?_⟩, a6⟩
            rw [a8 b rfl, hst1]
          · intro r' hr'
            rw [List.getLast?_cons_cons] at hr'
            exact a7 r' hr'
          · intro r' hr'
            simp only [List.head?_cons, Option.some.injEq] at hr'
            subst hr'
            exact heta

/-- Invariant of the loop over parcels. -/
lemma sedParcels_induct {g : Rng K σ} {k : Sed} {P : Params L W m K}
    (J : SedSt L W K → List (SedLog L W K) → Prop)
    (hparcel : ∀ st logs py c s st' res rs s', J st logs → pyCell L W 0 py = some c →
      sedLoop g k P P.stepmax (enterState k P st c) 0 py P.VpSed s = .ok (st', res, rs, s') →
      J st' (logs ++ [⟨c.2, rs, res⟩])) :
    ∀ pys st logs0 s st' logs s', J st logs0 →
      sedParcels g k P pys st s = .ok (st', logs, s') → J st' (logs0 ++ logs) := by
  intro pys
  induction pys with
  | nil =>
    intro st logs0 s st' logs s' hJ h
    simp only [sedParcels, Except.ok.injEq, Prod.mk.injEq] at h
    obtain ⟨rfl, rfl, rfl⟩ := h
    simpa using hJ
  | cons py pys ih =>
    intro st logs0 s st' logs s' hJ h
    unfold sedParcels at h
    cases hc : pyCell L W 0 py with
    | none => rw [hc] at h; simp at h
    | some c =>
      rw [hc] at h
      simp only at h
      generalize hl : sedLoop g k P P.stepmax (enterState k P st c) 0 py P.VpSed s = x at h
      cases x with
      | error e => simp at h
      | ok x =>
        obtain ⟨st1, res, rs, s1⟩ := x
        simp only at h
        generalize hp : sedParcels g k P pys st1 s1 = y at h
        cases y with
        | error e => simp at h
        | ok y =>
          obtain ⟨st2, logs2, s2⟩ := y
          simp only [Except.ok.injEq, Prod.mk.injEq] at h
          obtain ⟨rfl, rfl, rfl⟩ := h
          have := ih _ _ _ _ _ _ (hparcel _ _ _ _ _ _ _ _ _ hJ hc hl) hp
          simpa using this

/-- What a successful routing of one kind of parcels consists of. -/
lemma routeParcels_ok [FloorRing K] {g : Rng K σ} {k : Sed} {P : Params L W m K}
    {S S' : State L W K} {s s' : σ} {logs : List (SedLog L W K)}
    (h : routeParcels g k P S s = .ok (S', logs, s')) :
    ∃ starts st, getStartIndices (fun i => ((P.inlet i).val : ℤ))
        (getInletWeights (fun i => ((P.inlet i).val : ℤ)) : Fin m → K)
        (drawN g (numStarts k P) s).1 = some starts ∧
      sedParcels g k P starts ⟨S, customPad S.depth⟩ (drawN g (numStarts k P) s).2 =
        .ok (st, logs, s') ∧ S' = st.S := by
  unfold routeParcels at h
  simp only at h
  generalize hst : getStartIndices (fun i => ((P.inlet i).val : ℤ))
        (getInletWeights (fun i => ((P.inlet i).val : ℤ)) : Fin m → K)
        (drawN g (numStarts k P) s).1 = x at h
  cases x with
  | none => simp at h
  | some starts =>
    simp only at h
    generalize hp : sedParcels g k P starts ⟨S, customPad S.depth⟩
      (drawN g (numStarts k P) s).2 = y at h
    cases y with
    | error e => simp at h
    | ok y =>
      obtain ⟨st, logs', s2⟩ := y
      simp only [Except.ok.injEq, Prod.mk.injEq] at h
      obtain ⟨rfl, rfl, rfl⟩ := h
      exact ⟨starts, st, rfl, hp, rfl⟩

/-- Invariant of a routing of one kind of parcels: `I` for the fields, kept by parcels entering and
by steps. -/
lemma routeParcels_inv [FloorRing K] {g : Rng K σ} {k : Sed} {P : Params L W m K}
    (I : SedSt L W K → Prop) (Q : SedRec L W K → Prop)
    (henter : ∀ st c, I st → I (enterState k P st c))
    (hstep : ∀ st px py res s st1 res1 r s1, I st →
      sedStep g k P st px py res s = .ok (st1, res1, r, s1) → I st1 ∧ Q r)
    {S S' : State L W K} {s s' : σ} {logs : List (SedLog L W K)}
    (h : routeParcels g k P S s = .ok (S', logs, s')) (hI : I ⟨S, customPad S.depth⟩) :
    (∃ st, I st ∧ st.S = S') ∧ ∀ l ∈ logs, ∀ r ∈ l.steps, Q r := by
  obtain ⟨starts, st, -, hp, rfl⟩ := routeParcels_ok h
  have := sedParcels_induct (g := g) (k := k) (P := P)
    (fun st logs => I st ∧ ∀ l ∈ logs, ∀ r ∈ l.steps, Q r) (by
      intro st logs py c s st' res rs s' ⟨hI, hQ⟩ hc hl
      obtain ⟨a, b⟩ := sedLoop_induct (fun st _ => I st) Q
        (fun st px py res s st1 res1 r s1 hI h => hstep st px py res s st1 res1 r s1 hI h)
        _ _ _ _ _ _ _ _ _ _ (henter st c hI) hl
      refine ⟨a, fun l hl' r hr => ?_⟩
      simp only [List.mem_append, List.mem_singleton] at hl'
      rcases hl' with hl' | rfl
      · exact hQ l hl' r hr
      · exact b r hr) _ _ [] _ _ _ _ ⟨hI, by simp⟩ hp
  simp only [List.nil_append] at this
  exact ⟨⟨st, this.1, rfl⟩, this.2⟩

/-- A quantity that changes by a known amount with each entry and each step. -/
lemma routeParcels_sum [FloorRing K] {g : Rng K σ} {k : Sed} {P : Params L W m K}
    (f : SedSt L W K → K) (ε : Fin W → K) (δ : SedRec L W K → K)
    (henter : ∀ st py c, pyCell L W 0 py = some c → f (enterState k P st c) = f st + ε c.2)
    (hstep : ∀ st px py res s st1 res1 r s1,
      sedStep g k P st px py res s = .ok (st1, res1, r, s1) → f st1 = f st + δ r)
    {S S' : State L W K} {s s' : σ} {logs : List (SedLog L W K)}
    (h : routeParcels g k P S s = .ok (S', logs, s')) :
    ∃ st, st.S = S' ∧ f st = f ⟨S, customPad S.depth⟩ +
      (logs.map (fun l => ε l.start + (l.steps.map δ).sum)).sum := by
  obtain ⟨starts, st, -, hp, rfl⟩ := routeParcels_ok h
  have := sedParcels_induct (g := g) (k := k) (P := P)
    (fun st logs => f st = f ⟨S, customPad S.depth⟩ +
      (logs.map (fun l => ε l.start + (l.steps.map δ).sum)).sum) (by
      intro st logs py c s st' res rs s' hJ hc hl
      have h1 := sedLoop_sum (fun st _ => f st) δ
        (fun st px py res s st1 res1 r s1 h => hstep st px py res s st1 res1 r s1 h)
        _ _ _ _ _ _ _ _ _ _ hl
      rw [h1, henter st py c hc, hJ]
      simp only [List.map_append, List.sum_append, List.map_cons, List.map_nil, List.sum_cons,
        List.sum_nil, add_zero]
      ring) _ _ [] _ _ _ _ (by simp) hp
  simp only [List.nil_append] at this
  exact ⟨st, rfl, this⟩

/-- A statement about each parcel that does not depend on the others. -/
lemma routeParcels_each [FloorRing K] {g : Rng K σ} {k : Sed} {P : Params L W m K}
    (R : SedLog L W K → Prop)
    (hR : ∀ st py c s st' res rs s', pyCell L W 0 py = some c →
      sedLoop g k P P.stepmax st 0 py P.VpSed s = .ok (st', res, rs, s') → R ⟨c.2, rs, res⟩)
    {S S' : State L W K} {s s' : σ} {logs : List (SedLog L W K)}
    (h : routeParcels g k P S s = .ok (S', logs, s')) : ∀ l ∈ logs, R l := by
  obtain ⟨starts, st, -, hp, rfl⟩ := routeParcels_ok h
  have := sedParcels_induct (g := g) (k := k) (P := P) (fun st logs => ∀ l ∈ logs, R l) (by
      intro st logs py c s st' res rs s' hJ hc hl l hl'
      simp only [List.mem_append, List.mem_singleton] at hl'
      rcases hl' with hl' | rfl
      · exact hJ l hl'
      · exact hR _ _ _ _ _ _ _ _ hc hl) _ _ [] _ _ _ _ (by simp) hp
  simpa using this

/-- There is one log for each start. -/
lemma sedParcels_length {g : Rng K σ} {k : Sed} {P : Params L W m K} :
    ∀ pys st s st' logs s', sedParcels g k P pys st s = .ok (st', logs, s') →
      logs.length = pys.length := by
  intro pys
  induction pys with
  | nil =>
    intro st s st' logs s' h
    simp only [sedParcels, Except.ok.injEq, Prod.mk.injEq] at h
    obtain ⟨-, rfl, -⟩ := h
    rfl
  | cons py pys ih =>
    intro st s st' logs s' h
    unfold sedParcels at h
    cases hc : pyCell L W 0 py with
    | none => rw [hc] at h; simp at h
    | some c =>
      rw [hc] at h
      simp only at h
      generalize hl : sedLoop g k P P.stepmax (enterState k P st c) 0 py P.VpSed s = x at h
      cases x with
      | error e => simp at h
      | ok x =>
        obtain ⟨st1, res, rs, s1⟩ := x
        simp only at h
        generalize hp : sedParcels g k P pys st1 s1 = y at h
        cases y with
        | error e => simp at h
        | ok y =>
          obtain ⟨st2, logs2, s2⟩ := y
          simp only [Except.ok.injEq, Prod.mk.injEq] at h
          obtain ⟨rfl, rfl, rfl⟩ := h
          simp [ih _ _ _ _ _ hp]

end Verif.Lemmas
