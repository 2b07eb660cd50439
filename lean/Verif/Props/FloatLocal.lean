import Verif.Spec.FloatLocal
import Verif.Props.Local
import Verif.Props.FloatTimestep

/-!
# C118 in rounded arithmetic: parcels change the bed where they are, to the last digit
-/

set_option linter.unusedSectionVars false
set_option linter.unusedSimpArgs false

namespace Verif.Props

open Verif.Model Verif.Lemmas Verif.Spec

variable {K : Type*} [Field K] [LinearOrder K] [IsStrictOrderedRing K] {σ : Type*} {L W m : ℕ} {F D : Rounding K}

/-- A sum of zeros is zero, however often it is rounded. -/
lemma sumR_zeros (R : Rounding K) {l : List K} (h : ∀ x ∈ l, x = 0) : sumR R l = 0 := by
  unfold sumR
  induction l with
  | nil => rfl
  | cons x xs ih =>
    rw [List.foldl_cons, h x List.mem_cons_self, add_zero, fl_zero]
    exact ih fun y hy => h y (List.mem_cons_of_mem _ hy)

section

variable [NeZero L] [NeZero W]

/-- Diffusion leaves a cell alone, to the last digit, that has no sand flux, nor have its neighbours. -/
lemma diffusionR_quiet (ct : Grid L W ℤ) (mult : K) {qs : Grid L W K} {c : Cell L W}
    (h : ∀ x, Spec.Within 1 c x → qs x = 0) (n : ℕ) {eta : Grid L W K} (he : F.fl (eta c) = eta c) :
    topoDiffusionR F D ct mult qs n eta c = eta c := by
  induction n generalizing eta with
  | zero => rfl
  | succ n ih =>
    have h0 : qs c = 0 := h c ⟨by simp, by simp⟩
    have hat : ∀ (a : Grid L W K), (∀ x, Spec.Within 1 c x → a x = 0) → ∀ d : Fin 9,
        at0 a ((c.1.val : ℤ) - ((d.val / 3 : ℕ) - 1)) ((c.2.val : ℤ) - ((d.val % 3 : ℕ) - 1)) = 0 := by
      intro a ha d
      unfold at0
      split
      · rename_i x hx
        have e := cellAt_some hx
        simp only [coords, Prod.mk.injEq] at e
        obtain ⟨e1, e2⟩ := e
        apply ha
        have h3 : (d.val / 3 : ℕ) ≤ 2 := by omega
        have h4 : (d.val % 3 : ℕ) ≤ 2 := by omega
        constructor <;> rw [abs_le] <;> push_cast <;> omega
      · rfl
    have hconv : ∀ (a : Grid L W K), (∀ x, Spec.Within 1 c x → a x = 0) → convolveR F D kernel2 a c = 0 := by
      intro a ha
      unfold convolveR
      rw [sumR_zeros, fl_zero]
      intro x hx
      obtain ⟨d, rfl⟩ := List.mem_ofFn.1 hx
      rw [hat a ha d, mul_zero, fl_zero]
    have e : F.fl (eta c + diffusionChangeR F D ct mult qs eta c) = eta c := by
      have : diffusionChangeR F D ct mult qs eta c = 0 := by
        simp only [diffusionChangeR, assign]
        rw [hconv qs h, hconv (fun x => F.fl (qs x * eta x)) (fun x hx => by rw [h x hx, zero_mul, fl_zero]), h0]
        simp [fl_zero]
      rw [this, add_zero, he]
    rw [topoDiffusionR, ih (by simp only [e, he])]
    exact e

end

section

variable [FloorRing K] [NeZero L] [NeZero W]

/-- What is the same in a cell. -/
def SameAt (c : Cell L W) (S S' : State L W K) : Prop :=
  S'.eta c = S.eta c ∧ S'.qs c = S.qs c ∧ S'.depSand c = S.depSand c ∧ S'.depMud c = S.depMud c

lemma SameAt.trans {c : Cell L W} {S T U : State L W K} (h : SameAt c S T) (k : SameAt c T U) : SameAt c S U :=
  ⟨k.1.trans h.1, k.2.1.trans h.2.1, k.2.2.1.trans h.2.2.1, k.2.2.2.trans h.2.2.2⟩

lemma sedStepR_same {g : Rng K σ} {k : Sed} {P : Params L W m K} {st st1 : SedSt L W K} {px py : ℤ}
    {res res1 : K} {s s1 : σ} {r : SedRec L W K} {c : Cell L W}
    (h : sedStepR F D g k P st px py res s = .ok (st1, res1, r, s1)) (hc : r.cell ≠ c) (hf : r.from_ ≠ c) :
    SameAt c st.S st1.S := by
  obtain ⟨c0, d, c', cp, w, -, -, -, -, -, -, -, -, -, rfl, rfl, -, hb, -, -, ha, h1, -⟩ := sedStepR_ok h
  have b : SameAt c st.S r.before := by
    rw [hb]
    cases k
    · unfold fieldsAtR partitionSandR
      simp only
      split_ifs
      · refine ⟨rfl, ?_, rfl, rfl⟩
        simp only
        rw [Function.update_of_ne hc.symm, Function.update_of_ne hf.symm]
      · exact ⟨rfl, rfl, rfl, rfl⟩
    · exact ⟨rfl, rfl, rfl, rfl⟩
  have e : SameAt c r.before (recordDepositR F D k r.before r.cell r.change) := by
    unfold recordDepositR
    split_ifs
    · cases k
      · exact ⟨rfl, rfl, Function.update_of_ne hc.symm _ _, rfl⟩
      · exact ⟨rfl, rfl, rfl, Function.update_of_ne hc.symm _ _⟩
    · exact ⟨rfl, rfl, rfl, rfl⟩
  refine b.trans (e.trans ?_)
  rw [h1, ha]
  exact ⟨Function.update_of_ne hc.symm _ _, rfl, rfl, rfl⟩

lemma sedLoopR_same {g : Rng K σ} {k : Sed} {P : Params L W m K} {c : Cell L W} :
    ∀ n st px py res s st' res' rs s', sedLoopR F D g k P n st px py res s = .ok (st', res', rs, s') →
      (∀ r ∈ rs, r.cell ≠ c ∧ r.from_ ≠ c) → SameAt c st.S st'.S := by
  intro n
  induction n with
  | zero => intro st px py res s st' res' rs s' h; simp [sedLoopR] at h
  | succ n ih =>
    intro st px py res s st' res' rs s' h hr
    unfold sedLoopR at h
    generalize hs : sedStepR F D g k P st px py res s = x at h
    cases x with
    | error e => simp at h
    | ok x =>
      obtain ⟨st1, res1, r, s1⟩ := x
      simp only at h
      split_ifs at h with hc
      · simp only [Except.ok.injEq, Prod.mk.injEq] at h
        obtain ⟨rfl, rfl, rfl, rfl⟩ := h
        exact sedStepR_same hs (hr r (by simp)).1 (hr r (by simp)).2
      · generalize hl : sedLoopR F D g k P n st1 r.new.1 r.new.2 res1 s1 = y at h
        cases y with
        | error e => simp at h
        | ok y =>
          obtain ⟨st2, res2, rs2, s2⟩ := y
          simp only [Except.ok.injEq, Prod.mk.injEq] at h
          obtain ⟨rfl, rfl, rfl, rfl⟩ := h
          exact (sedStepR_same hs (hr r List.mem_cons_self).1 (hr r List.mem_cons_self).2).trans
            (ih _ _ _ _ _ _ _ _ _ hl (fun r' h' => hr r' (List.mem_cons_of_mem _ h')))

lemma pyCell_zero {py : ℤ} {c : Cell L W} (h : pyCell L W 0 py = some c) : c.1.val = 0 := by
  unfold pyCell at h
  split at h
  · rename_i i j hi hj
    cases h
    unfold pyIdx at hi
    split_ifs at hi <;> simp_all
  · cases h

/-- Parcels leave a cell alone where they were not. -/
lemma parcelsR_same {g : Rng K σ} {k : Sed} {P : Params L W m K} {S S' : State L W K} {s s' : σ}
    {logs : List (SedLog L W K)} (h : routeParcelsR F D g k P S s = .ok (S', logs, s')) {c : Cell L W}
    (hc : ¬ Visited logs c) : SameAt c S S' := by
  obtain ⟨starts, st, -, hp, rfl⟩ := routeParcelsR_ok h
  have := sedParcelsR_induct (F := F) (D := D) (g := g) (k := k) (P := P)
    (fun st logs => ¬ Visited logs c → SameAt c S st.S) (by
      intro st logs py c' s st' res rs s' hJ hc' hl hall
      have h0 : c'.1.val = 0 := pyCell_zero hc'
      have hne : c ≠ c' := by
        rintro rfl
        exact hall ⟨⟨c.2, rs, res⟩, by simp, .inl ⟨h0, rfl⟩⟩
      refine (hJ fun ⟨l, a, b⟩ => hall ⟨l, by simp [a], b⟩).trans (SameAt.trans ?_
        (sedLoopR_same _ _ _ _ _ _ _ _ _ _ hl (fun r hr =>
          ⟨fun e => hall ⟨⟨c'.2, rs, res⟩, by simp, .inr ⟨r, hr, .inr e⟩⟩,
           fun e => hall ⟨⟨c'.2, rs, res⟩, by simp, .inr ⟨r, hr, .inl e⟩⟩⟩)))
      cases k
      · exact ⟨rfl, Function.update_of_ne hne _ _, rfl, rfl⟩
      · exact ⟨rfl, rfl, rfl, rfl⟩) _ _ [] _ _ _ _ (fun _ => ⟨rfl, rfl, rfl, rfl⟩) hp
  exact this (by simpa using hc)

lemma within_self (c : Cell L W) : Spec.Within 1 c c := ⟨by simp, by simp⟩

/-- C118 in rounded arithmetic: a cell outside of the inlet that the parcels of an update stay away from keeps its bed to
the last digit, but for subsidence, and keeps its active layer; its surface keeps its sand if the bed is not lowered,
and else shows the sand of the active layer, or of the ground below it if it sinks by more than that. -/
theorem C118_rounded_update {g : Rng K σ} {P : Params L W m K} (ht : 0 ≤ P.actThick) {S S' : State L W K}
    {s s' : σ} {l : StepLog L W K} (h : timestepR F D g P S s = .ok (S', l, s')) {c : Cell L W} (hc : Outside P.inlet c)
    (hS : F.fl (S.eta c) = S.eta c) (hu : Untouched l c) :
    S'.eta c = sunk F D P S.time c (S.eta c) ∧ S'.activeLayer c = S.activeLayer c ∧
      (S.eta c ≤ sunk F D P S.time c (S.eta c) → S'.sandFrac c = S.sandFrac c) ∧
      (sunk F D P S.time c (S.eta c) < S.eta c →
        F.fl (S.eta c - F.fl P.actThick) ≤ sunk F D P S.time c (S.eta c) → S'.sandFrac c = S.activeLayer c) ∧
      (sunk F D P S.time c (S.eta c) < F.fl (S.eta c - F.fl P.actThick) → S'.sandFrac c = F.fl P.sandFracBc) := by
  obtain ⟨u1, u2⟩ := hu
  obtain ⟨r, e⟩ := step_resultR h
  obtain ⟨s1, h1, h2, h3, -⟩ := timestepR_ok h
  obtain ⟨S1, s2, e1, e2⟩ := routeSedimentR_ok h2
  have hw : l.watered.eta c = S.eta c := by rw [(C100_ground h1).1]
  have hq : ∀ x, Spec.Within 1 c x → S1.qs x = 0 := by
    intro x hx
    rw [(parcelsR_same e1 (u1 x hx)).2.1]
    rfl
  obtain ⟨a1, a2, a3, a4⟩ := parcelsR_same e1 (u1 c (within_self c))
  obtain ⟨b1, b2, b3, b4⟩ := parcelsR_same e2 u2
  have q1 : S1.eta c = S.eta c := a1.trans hw
  have q2 : l.routed.eta c = S.eta c := by
    rw [b1]
    change topoDiffusionR F D P.cellType P.diffMult S1.qs P.Ncross S1.eta c = _
    rw [diffusionR_quiet _ _ hq _ (by rw [q1, hS]), q1]
  have hb : S'.eta c = sunk F D P S.time c (S.eta c) := by
    rw [r.bed c hc, q2, e]; rfl
  have d1 : S'.depSand c = 0 := by rw [r.flow.2.2.2.2.2.2.2.1, b3]; exact a3
  have d2 : S'.depMud c = 0 := by rw [r.flow.2.2.2.2.2.2.2.2.1, b4]; exact a4
  have hn : ¬ (0 < S'.depSand c ∨ F.fl (1 / 1000000) < S'.depMud c) := by
    rw [d1, d2]
    push Not
    exact ⟨le_rfl, fl_nonneg F (by norm_num)⟩
  obtain ⟨k1, k2, k3, k4⟩ := (C101_composition ht h hS).2 hn
  rw [hb] at k2 k3 k4
  exact ⟨hb, k1, k4, fun x y => k3 y x, k2⟩

/-- C118 for runs in rounded arithmetic: a cell outside of the inlet that the parcels of all updates stay away from ends
with the bed it began with, lowered by subsidence once for each update; with the active layer it began with; and, if it
has no subsidence, with the bed and the surface it began with, to the last digit. -/
theorem C118_rounded_run {g : Rng K σ} {c : Cell L W} (hFD : Within F D) : ∀ {Ps : List (Params L W m K)}
    {S S' : State L W K} {s s' : σ} {ls : List (StepLog L W K)}, timestepsR F D g Ps S s = .ok (S', ls, s') →
    F.fl (S.eta c) = S.eta c → (∀ P ∈ Ps, 0 ≤ P.actThick ∧ Outside P.inlet c) → (∀ l ∈ ls, Untouched l c) →
    S'.eta c = (Ps.zip ls).foldl (fun x y => sunk F D y.1 y.2.start.time c x) (S.eta c) ∧
      S'.activeLayer c = S.activeLayer c ∧
      ((∀ P ∈ Ps, P.toggleSub = false ∨ P.sigma c = 0) → S'.eta c = S.eta c ∧ S'.sandFrac c = S.sandFrac c) := by
  intro Ps
  induction Ps with
  | nil =>
    intro S S' s s' ls h _ _ _
    simp only [timestepsR, Except.ok.injEq, Prod.mk.injEq] at h
    obtain ⟨rfl, rfl, rfl⟩ := h
    simp
  | cons P Ps ih =>
    intro S S' s s' ls h hS hP hu
    obtain ⟨S1, l, s1, ls1, a1, a2, rfl⟩ := timestepsR_cons h
    obtain ⟨p1, p2⟩ := hP P List.mem_cons_self
    obtain ⟨b1, b2, b3, -⟩ := C118_rounded_update p1 a1 p2 hS (hu l List.mem_cons_self)
    have hS1 : F.fl (S1.eta c) = S1.eta c := by
      rw [b1]
      unfold sunk
      split_ifs
      · exact F.idem _
      · exact hS
    obtain ⟨c1, c2, c3⟩ := ih a2 hS1 (fun Q hQ => hP Q (List.mem_cons_of_mem _ hQ))
      (fun l' hl => hu l' (List.mem_cons_of_mem _ hl))
    have e : l.start = S := (step_resultR a1).2
    refine ⟨?_, c2.trans b2, ?_⟩
    · rw [c1, b1, List.zip_cons_cons, List.foldl_cons, e]
    · intro hs
      obtain ⟨k1, k2⟩ := c3 fun Q hQ => hs Q (List.mem_cons_of_mem _ hQ)
      have hk : sunk F D P S.time c (S.eta c) = S.eta c := by
        unfold sunk
        split_ifs with h'
        · rcases hs P List.mem_cons_self with h'' | h''
          · rw [h''] at h'; exact absurd h'.1 (by simp)
          · rw [h'', sub_zero, hFD _ hS, hS]
        · rfl
      rw [k1, k2, b1, hk]
      exact ⟨rfl, b3 hk.ge⟩

/-! ## How far parcels come -/

lemma sedLoopR_path {g : Rng K σ} {k : Sed} {P : Params L W m K} :
    ∀ n st px py res s st' res' rs s', sedLoopR F D g k P n st px py res s = .ok (st', res', rs, s') →
      rs.length ≤ n ∧ (∀ r, rs.head? = some r → r.old = (px, py)) ∧ List.IsChain (fun a b => b.old = a.new) rs := by
  intro n
  induction n with
  | zero => intro st px py res s st' res' rs s' h; simp [sedLoopR] at h
  | succ n ih =>
    intro st px py res s st' res' rs s' h
    unfold sedLoopR at h
    generalize hs : sedStepR F D g k P st px py res s = x at h
    cases x with
    | error e => simp at h
    | ok x =>
      obtain ⟨st1, res1, r, s1⟩ := x
      obtain ⟨c0, d, c', cp, w, -, -, -, -, -, -, ho, -⟩ := sedStepR_ok hs
      simp only at h
      split_ifs at h with hc
      · simp only [Except.ok.injEq, Prod.mk.injEq] at h
        obtain ⟨rfl, rfl, rfl, rfl⟩ := h
        refine ⟨by simp, ?_, by simp⟩
        intro r' hr'
        simp only [List.head?_cons, Option.some.injEq] at hr'
        rw [← hr', ho]
      · generalize hl : sedLoopR F D g k P n st1 r.new.1 r.new.2 res1 s1 = y at h
        cases y with
        | error e => simp at h
        | ok y =>
          obtain ⟨st2, res2, rs2, s2⟩ := y
          simp only [Except.ok.injEq, Prod.mk.injEq] at h
          obtain ⟨rfl, rfl, rfl, rfl⟩ := h
          obtain ⟨a1, a2, a3⟩ := ih _ _ _ _ _ _ _ _ _ hl
          refine ⟨by simp; omega, ?_, ?_⟩
          · intro r' hr'
            simp only [List.head?_cons, Option.some.injEq] at hr'
            rw [← hr', ho]
          · cases rs2 with
            | nil => simp
            | cons q qs => exact List.isChain_cons_cons.2 ⟨a2 q rfl, a3⟩

lemma sedParcelsR_paths {g : Rng K σ} {k : Sed} {P : Params L W m K} : ∀ (pys : List ℤ) {st st' : SedSt L W K}
    {s s' : σ} {logs : List (SedLog L W K)}, sedParcelsR F D g k P pys st s = .ok (st', logs, s') →
    ∀ l ∈ logs, ∃ py ∈ pys, ∃ c, pyCell L W 0 py = some c ∧ l.start = c.2 ∧ l.steps.length ≤ P.stepmax ∧
      (∀ r, l.steps.head? = some r → r.old = (0, py)) ∧ List.IsChain (fun a b => b.old = a.new) l.steps := by
  intro pys
  induction pys with
  | nil =>
    intro st st' s s' logs h l hl
    simp only [sedParcelsR, Except.ok.injEq, Prod.mk.injEq] at h
    obtain ⟨-, rfl, -⟩ := h
    cases hl
  | cons py pys ih =>
    intro st st' s s' logs h l hl
    unfold sedParcelsR at h
    split at h
    · cases h
    · rename_i c hc
      split at h
      · cases h
      · rename_i st2 res rs s1 h1
        split at h
        · cases h
        · rename_i st3 logs1 s2 h2
          cases h
          rcases List.mem_cons.1 hl with rfl | hl
          · exact ⟨py, List.mem_cons_self, c, hc, rfl, sedLoopR_path _ _ _ _ _ _ _ _ _ _ h1⟩
          · obtain ⟨py', a1, a2⟩ := ih h2 l hl
            exact ⟨py', List.mem_cons_of_mem _ a1, a2⟩

lemma parcelsR_within {g : Rng K σ} (hFD : Within F D) (hg : PositiveDraws g) {k : Sed} {P : Params L W m K}
    (hP : SedDomain P) {S S' : State L W K} (hd : ∀ c, 0 ≤ S.depth c) {s s' : σ}
    {logs : List (SedLog L W K)} (h : routeParcelsR F D g k P S s = .ok (S', logs, s')) {c : Cell L W}
    (hc : Visited logs c) : (∃ i, Spec.Within P.stepmax (0, P.inlet i) c) ∨ c.1.val + 1 = L := by
  obtain ⟨l, hl, hv⟩ := hc
  obtain ⟨starts, st, q1, q2, -⟩ := routeParcelsR_ok h
  obtain ⟨starts', q3, -, q4⟩ := startsR_exist (D := D) hg (fun i => ((P.inlet i).val : ℤ)) hP.hm (numStartsR D k P) s
  rw [q1] at q3
  cases q3
  obtain ⟨S2, logs2, s2, m1, -, -, m2⟩ := C98_routing hFD hg k hP hd s
  rw [h] at m1
  cases m1
  obtain ⟨py, b1, c0, b2, b3, t2, b4, t6⟩ := sedParcelsR_paths _ q2 l hl
  obtain ⟨i, rfl⟩ := q4 py b1
  have hc0 : c0 = ((0 : Fin L), P.inlet i) := by
    have := pyCell_self ((0 : Fin L), P.inlet i)
    have h00 : (((0 : Fin L), P.inlet i).1.val : ℤ) = 0 := by simp
    rw [h00, b2] at this
    cases this
    rfl
  subst hc0
  have hw0 : Spec.Within 0 ((0 : Fin L), P.inlet i) (0, P.inlet i) := ⟨by simp, by simp⟩
  rcases hv with ⟨v1, v2⟩ | ⟨r, hr, v⟩
  · refine .inl ⟨i, within_mono (Nat.zero_le _) ?_⟩
    have : c = ((0 : Fin L), P.inlet i) := Prod.ext (Fin.ext (by simp [v1])) (by rw [← v2, b3])
    rw [this]; exact hw0
  · obtain ⟨w1, w2⟩ := walk_within l.steps (0, P.inlet i) (0, P.inlet i) 0 hw0
      (fun r hr => by rw [b4 r hr]; simp [coords]) t6 (fun r hr => by
        obtain ⟨-, d2, -, ⟨d3, d4, -⟩ | ⟨-, d4, d5, -⟩⟩ := m2 l hl r hr
        · exact ⟨d2, .inl ⟨d3, d4⟩⟩
        · exact ⟨d2, .inr ⟨d4, d5⟩⟩) r hr
    have hle : 0 + l.steps.length ≤ P.stepmax := by omega
    rcases v with rfl | rfl
    · exact .inl ⟨i, within_mono hle w1⟩
    · rcases w2 with w2 | w2
      · exact .inl ⟨i, within_mono hle w2⟩
      · exact .inr w2

/-- C118 in rounded arithmetic: parcels stay away from the cells that are farther from the inlet than they take steps;
except for the last two rows, where those come that leave at the inlet. -/
theorem C118_rounded_reach {g : Rng K σ} (hFD : Within F D) (hg : PositiveDraws g) {P : Params L W m K}
    (hW : WaterSetup P) (hP : SedDomain P) {S S' : State L W K} (hd : ∀ c, 0 ≤ S.depth c) (hn : 0 < S.ncols) {s s' : σ}
    {l : StepLog L W K} (h : timestepR F D g P S s = .ok (S', l, s')) {c : Cell L W} (hc : Beyond P.stepmax P.inlet c)
    (hl : c.1.val + 2 < L) : Untouched l c := by
  obtain ⟨s1, h1, h2, -, -⟩ := timestepR_ok h
  obtain ⟨T, t, w1, hd1, -⟩ := C100_water_routing (F := F) (D := D) hg hW hd hn s
  rw [h1] at w1
  cases w1
  obtain ⟨S1, s2, h3, h4⟩ := routeSedimentR_ok h2
  have hR := routerParams_domain (F := F) hP
  obtain ⟨S2, lo, s3, h5, h6, -⟩ := C98_routing hFD hg .sand hR (S := initSediment l.watered) hd1 s1
  rw [h3] at h5
  cases h5
  have far : ∀ x : Cell L W, Spec.Within 1 c x → ∀ i, ¬ Spec.Within P.stepmax (0, P.inlet i) x := by
    intro x ⟨x1, x2⟩ i ⟨y1, y2⟩
    rw [abs_le] at x1 x2 y1 y2
    simp only [Fin.val_zero, Nat.cast_zero, Nat.cast_one] at x1 x2 y1 y2
    rcases hc i with hh | hh
    · obtain ⟨x3, x4⟩ := x1
      obtain ⟨y3, y4⟩ := y1
      simp at y3 y4
      omega
    · rcases lt_abs.1 hh with hh | hh <;> omega
  constructor
  · intro x hx hv
    rcases parcelsR_within hFD hg hR (S := initSediment l.watered) hd1 h3 hv with ⟨i, hi⟩ | hi
    · exact far x hx i hi
    · have := hx.1
      rw [abs_le] at this
      push_cast at this
      omega
  · intro hv
    rcases parcelsR_within hFD hg hR (S := { S1 with
        eta := topoDiffusionR F D P.cellType P.diffMult S1.qs P.Ncross S1.eta }) h6 h4 hv with ⟨i, hi⟩ | hi
    · exact far c ⟨by simp, by simp⟩ i hi
    · omega

/-- C118 in runs of any length in rounded arithmetic: a run does not abort, and the bed of a cell out of reach of the
inlet only ever subsides; where it has no subsidence it stays the same to the last digit, as does the sand of its
surface. -/
theorem C118_rounded_out_of_reach {g : Rng K σ} (hFD : Within F D) (hg : PositiveDraws g) {c : Cell L W}
    (hl : c.1.val + 2 < L) {Ps : List (Params L W m K)}
    (hPs : ∀ P ∈ Ps, WaterSetup P ∧ SedDomain P ∧ 0 ≤ P.h0 ∧ 0 ≤ P.actThick ∧ Beyond P.stepmax P.inlet c)
    {S : State L W K} (hd : ∀ c, 0 ≤ S.depth c) (hn : 0 < S.ncols) (hS : F.fl (S.eta c) = S.eta c) (s : σ) :
    ∃ S' ls s', timestepsR F D g Ps S s = .ok (S', ls, s') ∧ ls.length = Ps.length ∧
      S'.eta c = (Ps.zip ls).foldl (fun x y => sunk F D y.1 y.2.start.time c x) (S.eta c) ∧
      S'.activeLayer c = S.activeLayer c ∧
      ((∀ P ∈ Ps, P.toggleSub = false ∨ P.sigma c = 0) → S'.eta c = S.eta c ∧ S'.sandFrac c = S.sandFrac c) := by
  obtain ⟨S', ls, s', h, hlen⟩ := C101_run hFD hg
    (fun P hP => ⟨(hPs P hP).1, (hPs P hP).2.1, (hPs P hP).2.2.1⟩) hd hn s
  have hu := (timestepsR_inv (g := g) (A := fun P => WaterSetup P ∧ SedDomain P ∧ 0 ≤ P.h0 ∧ 0 ≤ P.actThick ∧
      Beyond P.stepmax P.inlet c)
    (I := fun T => (∀ c, 0 ≤ T.depth c) ∧ 0 < T.ncols) (J := fun l => Untouched l c) (by
      intro P T s T' l s' ⟨a1, a2, a3, _, a4⟩ ⟨hd, hn⟩ ht
      obtain ⟨T1, l1, s1, ht1, hd1, hn1, -⟩ := C101_update hFD hg a1 a2 a3 hd hn s
      rw [ht] at ht1
      cases ht1
      exact ⟨⟨hd1, hn1⟩, C118_rounded_reach hFD hg a1 a2 hd hn ht a4 hl⟩) h hPs ⟨hd, hn⟩).2
  refine ⟨S', ls, s', h, hlen, C118_rounded_run hFD h hS (fun P hP => ?_) hu⟩
  obtain ⟨-, -, -, a3, a4⟩ := hPs P hP
  refine ⟨a3, ?_⟩
  rintro ⟨o1, i, o2⟩
  rcases a4 i with hh | hh
  · omega
  · rw [o2] at hh; simp at hh; omega

end

/-! ## Non-trivial cases -/

-- C118 in the arithmetic of the program: in runs of any length in the long channel, without subsidence, the seventh row
-- keeps its bed to the last digit
example (n : ℕ) (j : Fin 3) : ∃ S' ls s', timestepsR single double constRng
    (List.replicate n { exLong with toggleSub := false }) longState () = .ok (S', ls, s') ∧ S'.eta (6, j) = -1 := by
  obtain ⟨S', ls, s', h1, -, -, -, h2⟩ := C118_rounded_out_of_reach (F := single) (D := double)
    (within_binary _ _ (by norm_num)) exPositive (c := ((6 : Fin 9), j)) (by change 6 + 2 < 9; norm_num)
    (Ps := List.replicate n { exLong with toggleSub := false }) (fun P hP => by
      rw [List.eq_of_mem_replicate hP]
      exact ⟨{ exLongWater with }, { exLongDomain with }, by norm_num [exLong, exParams], by norm_num [exLong, exParams],
        longBeyond j⟩)
    (S := longState) (fun c => by norm_num [longState]) (by norm_num [longState, exState]) (by
      change single.fl (-1 : ℚ) = -1
      decide +kernel) ()
  exact ⟨S', ls, s', h1, (h2 (fun P hP => by rw [List.eq_of_mem_replicate hP]; exact .inl rfl)).1⟩

-- C118: where the seventh row subsides by a hundredth, a timestep lowers its bed to the number of the field next to
-- -1.01, which is not -1.01
example : sunk single double { exLong with toggleSub := true, startSub := 0 } 0 ((6 : Fin 9), 0) (-1 : ℚ) =
    -8472494 / 8388608 ∧ (-8472494 / 8388608 : ℚ) ≠ -1 - 1 / 100 := by decide +kernel

end Verif.Props
