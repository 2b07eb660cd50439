import Verif.Model.FloatSediment
import Verif.Lemmas.Float
import Verif.Lemmas.Sediment

/-!
# Lemmas about sediment routing in rounded arithmetic
-/

set_option linter.unusedSectionVars false
set_option linter.unusedSimpArgs false

namespace Verif.Lemmas

open Verif.Model

variable {K : Type*} [Field K] [LinearOrder K] {σ : Type*} {L W m : ℕ} [NeZero L] [NeZero W]
  {F D : Rounding K}

/-- What a successful step consists of. -/
lemma sedStepR_ok {g : Rng K σ} {k : Sed} {P : Params L W m K} {st st1 : SedSt L W K} {px py : ℤ}
    {res res1 : K} {s s1 : σ} {r : SedRec L W K}
    (h : sedStepR F D g k P st px py res s = .ok (st1, res1, r, s1)) :
    ∃ c0 d c cp w, cellAt L W px py = some c0 ∧
      sedWeightsR F st.padDepth (customPad P.modSed) (customPad P.cellType) st.S.qx st.S.qy P.s2
        P.s05 P.dryDepth (P.pwSed k) c0 = .ok w ∧
      randomPickR F D w (g.next s).1 = some d ∧ s1 = (g.next s).2 ∧
      pyCell L W (px + jwalk d) (py + iwalk d) = some c ∧
      pyCell (L + 2) (W + 2) (px + jwalk d + 1) (py + iwalk d + 1) = some cp ∧
      r.old = (px, py) ∧ r.dir = d ∧ r.new = (px + jwalk d, py + iwalk d) ∧ r.from_ = c0 ∧
      r.cell = c ∧ r.res = res ∧ r.before = fieldsAtR F D k P st.S c0 c d res ∧
      r.change = volumeChangeR F D k P r.before c res ∧ res1 = F.fl (D.fl (res - r.change)) ∧
      r.after = updateFieldsR F D P (recordDepositR F D k r.before c r.change) c r.change ∧
      st1.S = r.after ∧ st1.padDepth = Function.update st.padDepth cp (r.after.depth c) := by
  unfold sedStepR chooseNextR at h
  cases hc : cellAt L W px py with
  | none => rw [hc] at h; simp at h
  | some c0 =>
    rw [hc] at h
    simp only at h
    cases hw : sedWeightsR F st.padDepth (customPad P.modSed) (customPad P.cellType) st.S.qx st.S.qy
        P.s2 P.s05 P.dryDepth (P.pwSed k) c0 with
    | error e => rw [hw] at h; simp at h
    | ok w =>
      rw [hw] at h
      simp only at h
      cases hp : randomPickR F D w (g.next s).1 with
      | none => rw [hp] at h; simp at h
      | some d =>
        rw [hp] at h
        simp only at h
        cases h1 : pyCell L W (px + jwalk d) (py + iwalk d) with
        | none => rw [h1] at h; simp at h
        | some c =>
          cases h2 : pyCell (L + 2) (W + 2) (px + jwalk d + 1) (py + iwalk d + 1) with
          | none => rw [h1, h2] at h; simp at h
          | some cp =>
            rw [h1, h2] at h
            simp only [Except.ok.injEq, Prod.mk.injEq] at h
            obtain ⟨rfl, rfl, rfl, rfl⟩ := h
            refine ⟨c0, d, c, cp, w, rfl, hw, hp, rfl, h1, h2, rfl, rfl, rfl, rfl, rfl, rfl, ?_⟩
            cases k <;> exact ⟨rfl, rfl, rfl, rfl, rfl, rfl⟩

/-- Invariant of the loop of one parcel. -/
lemma sedLoopR_induct {g : Rng K σ} {k : Sed} {P : Params L W m K}
    (I : SedSt L W K → K → Prop) (Q : SedRec L W K → Prop)
    (hstep : ∀ st px py res s st1 res1 r s1, I st res →
      sedStepR F D g k P st px py res s = .ok (st1, res1, r, s1) → I st1 res1 ∧ Q r) :
    ∀ n st px py res s st' res' rs s', I st res →
      sedLoopR F D g k P n st px py res s = .ok (st', res', rs, s') →
      I st' res' ∧ ∀ r ∈ rs, Q r := by
  intro n
  induction n with
  | zero => intro st px py res s st' res' rs s' _ h; simp [sedLoopR] at h
  | succ n ih =>
    intro st px py res s st' res' rs s' hI h
    unfold sedLoopR at h
    generalize hs : sedStepR F D g k P st px py res s = x at h
    cases x with
    | error e => simp at h
    | ok x =>
      obtain ⟨st1, res1, r, s1⟩ := x
      obtain ⟨hI1, hQ⟩ := hstep _ _ _ _ _ _ _ _ _ hI hs
      simp only at h
      split_ifs at h with hc
      · simp only [Except.ok.injEq, Prod.mk.injEq] at h
        obtain ⟨rfl, rfl, rfl, rfl⟩ := h
        exact ⟨hI1, fun r' hr' => by simp only [List.mem_singleton] at hr'; rw [hr']; exact hQ⟩
      · generalize hl : sedLoopR F D g k P n st1 r.new.1 r.new.2 res1 s1 = y at h
        cases y with
        | error e => simp at h
        | ok y =>
          obtain ⟨st2, res2, rs2, s2⟩ := y
          simp only [Except.ok.injEq, Prod.mk.injEq] at h
          obtain ⟨rfl, rfl, rfl, rfl⟩ := h
          obtain ⟨a, b⟩ := ih _ _ _ _ _ _ _ _ _ hI1 hl
          refine ⟨a, fun r' hr' => ?_⟩
          simp only [List.mem_cons] at hr'
          rcases hr' with rfl | hr'
          · exact hQ
          · exact b r' hr'

/-- Invariant of the loop over parcels. -/
lemma sedParcelsR_induct {g : Rng K σ} {k : Sed} {P : Params L W m K}
    (J : SedSt L W K → List (SedLog L W K) → Prop)
    (hparcel : ∀ st logs py c s st' res rs s', J st logs → pyCell L W 0 py = some c →
      sedLoopR F D g k P P.stepmax (enterStateR F D k P st c) 0 py P.VpSed s = .ok (st', res, rs, s') →
      J st' (logs ++ [⟨c.2, rs, res⟩])) :
    ∀ pys st logs0 s st' logs s', J st logs0 →
      sedParcelsR F D g k P pys st s = .ok (st', logs, s') → J st' (logs0 ++ logs) := by
  intro pys
  induction pys with
  | nil =>
    intro st logs0 s st' logs s' hJ h
    simp only [sedParcelsR, Except.ok.injEq, Prod.mk.injEq] at h
    obtain ⟨rfl, rfl, rfl⟩ := h
    simpa using hJ
  | cons py pys ih =>
    intro st logs0 s st' logs s' hJ h
    unfold sedParcelsR at h
    cases hc : pyCell L W 0 py with
    | none => rw [hc] at h; simp at h
    | some c =>
      rw [hc] at h
      simp only at h
      generalize hl : sedLoopR F D g k P P.stepmax (enterStateR F D k P st c) 0 py P.VpSed s = x at h
      cases x with
      | error e => simp at h
      | ok x =>
        obtain ⟨st1, res, rs, s1⟩ := x
        simp only at h
        generalize hp : sedParcelsR F D g k P pys st1 s1 = y at h
        cases y with
        | error e => simp at h
        | ok y =>
          obtain ⟨st2, logs2, s2⟩ := y
          simp only [Except.ok.injEq, Prod.mk.injEq] at h
          obtain ⟨rfl, rfl, rfl⟩ := h
          have := ih _ _ _ _ _ _ (hparcel _ _ _ _ _ _ _ _ _ hJ hc hl) hp
          simpa using this

/-- What a successful routing of one kind of parcels consists of. -/
lemma routeParcelsR_ok [FloorRing K] {g : Rng K σ} {k : Sed} {P : Params L W m K}
    {S S' : State L W K} {s s' : σ} {logs : List (SedLog L W K)}
    (h : routeParcelsR F D g k P S s = .ok (S', logs, s')) :
    ∃ starts st, getStartIndicesR D (fun i => ((P.inlet i).val : ℤ))
        (getInletWeights (fun i => ((P.inlet i).val : ℤ)) : Fin m → K)
        (drawN g (numStartsR D k P) s).1 = some starts ∧
      sedParcelsR F D g k P starts ⟨S, customPad S.depth⟩ (drawN g (numStartsR D k P) s).2 =
        .ok (st, logs, s') ∧ S' = st.S := by
  unfold routeParcelsR at h
  simp only at h
  generalize hst : getStartIndicesR D (fun i => ((P.inlet i).val : ℤ))
        (getInletWeights (fun i => ((P.inlet i).val : ℤ)) : Fin m → K)
        (drawN g (numStartsR D k P) s).1 = x at h
  cases x with
  | none => simp at h
  | some starts =>
    simp only at h
    generalize hp : sedParcelsR F D g k P starts ⟨S, customPad S.depth⟩
      (drawN g (numStartsR D k P) s).2 = y at h
    cases y with
    | error e => simp at h
    | ok y =>
      obtain ⟨st, logs', s2⟩ := y
      simp only [Except.ok.injEq, Prod.mk.injEq] at h
      obtain ⟨rfl, rfl, rfl⟩ := h
      exact ⟨starts, st, rfl, hp, rfl⟩

/-- There is one log for each start. -/
lemma sedParcelsR_length {g : Rng K σ} {k : Sed} {P : Params L W m K} :
    ∀ pys st s st' logs s', sedParcelsR F D g k P pys st s = .ok (st', logs, s') →
      logs.length = pys.length := by
  intro pys
  induction pys with
  | nil =>
    intro st s st' logs s' h
    simp only [sedParcelsR, Except.ok.injEq, Prod.mk.injEq] at h
    obtain ⟨-, rfl, -⟩ := h
    rfl
  | cons py pys ih =>
    intro st s st' logs s' h
    unfold sedParcelsR at h
    cases hc : pyCell L W 0 py with
    | none => rw [hc] at h; simp at h
    | some c =>
      rw [hc] at h
      simp only at h
      generalize hl : sedLoopR F D g k P P.stepmax (enterStateR F D k P st c) 0 py P.VpSed s = x at h
      cases x with
      | error e => simp at h
      | ok x =>
        obtain ⟨st1, res, rs, s1⟩ := x
        simp only at h
        generalize hp : sedParcelsR F D g k P pys st1 s1 = y at h
        cases y with
        | error e => simp at h
        | ok y =>
          obtain ⟨st2, logs2, s2⟩ := y
          simp only [Except.ok.injEq, Prod.mk.injEq] at h
          obtain ⟨rfl, rfl, rfl⟩ := h
          simp [ih _ _ _ _ _ hp]

end Verif.Lemmas
