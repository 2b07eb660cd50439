import Verif.Props.Parcels
import Verif.Props.FloatDischarge

/-!
# C127 in rounded arithmetic

As `Props/Parcels`; of the fluxes only the discharge does not depend on the numbering.
-/

set_option linter.unusedSectionVars false

namespace Verif.Props

open Verif.Model Verif.Lemmas Verif.Spec

variable {K : Type*} [Field K] [LinearOrder K] [IsStrictOrderedRing K] [FloorRing K] {σ σ' : Type*}
  {L W m : ℕ} {F D : Rounding K}

/-! ## One parcel by itself -/

/-- A parcel moved along the given directions in rounded arithmetic; its walk holds only the entries made so far. -/
def loneR (D : Rounding K) (E : WEnv L W K) : ℕ → WParcel → List (Fin 9) → Option (WParcel × List StepRec)
  | _, p, [] => some (p, [])
  | step, p, d :: ds =>
    match parcelStepR D E (step + 1) { p with walk := p.walk ++ [0] } d with
    | .error _ => none
    | .ok (p1, r) =>
      match loneR D E (step + 1) p1 ds with
      | none => none
      | some (p2, rs) => some (p2, r :: rs)

lemma checkLoopR_padded (E : WEnv L W K) (step : ℕ) (u : List ℤ) (y z : ℕ) (i : ℤ) :
    checkLoopR D E step (u ++ List.replicate y 0) i = checkLoopR D E step (u ++ List.replicate z 0) i := by
  unfold checkLoopR
  have h : ∀ n, (u ++ List.replicate n (0 : ℤ)).filter (fun i => decide (i > 0)) =
      u.filter (fun i => decide (i > 0)) := by
    intro n; simp
  simp only [h]

lemma parcelStepR_padded {E : WEnv L W K} {step nc : ℕ} {p q p' : WParcel} {d : Fin 9} {r : StepRec}
    (hp : Padded nc p q) (hl : q.walk.length = step + 1) (hs : step + 1 < nc)
    (h : parcelStepR D E (step + 1) p d = .ok (p', r)) :
    ∃ q', parcelStepR D E (step + 1) { q with walk := q.walk ++ [0] } d = .ok (q', r) ∧
      Padded nc p' q' ∧ q'.walk.length = step + 2 := by
  obtain ⟨h1, h2, z, h3, h4⟩ := hp
  obtain ⟨a1, a2, a3, a4, a5, a6, a7, a8⟩ := parcelStepR_fields h
  have hz : z = (z - 1) + 1 := by omega
  have hcl : checkLoopR D E (step + 1) (q.walk ++ [0]) (calcNewInd W q.ind d) = .ok (r.new2, r.looped) := by
    have := checkLoopR_padded (D := D) E (step + 1) q.walk 1 z (calcNewInd W q.ind d)
    simp only [List.replicate_one] at this
    rw [this, ← h3, ← h1, ← a3]; exact a4
  refine ⟨⟨after r, q.flag && !r.looped, (q.walk ++ [0]).set (step + 1) (recorded r)⟩, ?_,
    ⟨a6, by rw [a7, h2], z - 1, ?_, ?_⟩, ?_⟩
  · unfold parcelStepR
    simp only [hcl, a5]
    have e : r = ⟨q.ind, d, calcNewInd W q.ind d, r.new2, r.looped, r.bnd⟩ := by
      obtain ⟨r1, r2, r3, r4, r5, r6⟩ := r
      simp only at a1 a2 a3
      subst a1 a2 a3
      rw [h1]
    have e2 : (if r.bnd = true then 0 else if (r.looped && r.bnd) = true then (0 : ℤ) else r.new2) = after r := by
      unfold after; cases r.bnd <;> simp
    rw [e2]
    congr 2
    rw [← e]
  · rw [a8, h3, hz, List.replicate_succ]
    simp only [Nat.add_sub_cancel]
    rw [List.set_append_right _ _ (by omega), List.set_append_right _ _ (by omega)]
    simp [hl]
  · simp; omega
  · simp [hl]

lemma loneR_walk {E : WEnv L W K} {step : ℕ} {p q : WParcel} {ds : List (Fin 9)} {rs : List StepRec}
    (h : loneR D E step p ds = some (q, rs)) (hl : p.walk.length = step + 1) : p.walk <+: q.walk := by
  induction ds generalizing step p rs with
  | nil =>
    simp only [loneR, Option.some.injEq, Prod.mk.injEq] at h
    rw [← h.1]
  | cons d ds ih =>
    unfold loneR at h
    split at h
    · cases h
    · rename_i p1 r h1
      split at h
      · cases h
      · rename_i q1 rs1 h2
        simp only [Option.some.injEq, Prod.mk.injEq] at h
        obtain ⟨rfl, rfl⟩ := h
        have hw := (parcelStepR_fields h1).2.2.2.2.2.2.2
        simp only at hw
        rw [List.set_append_right _ _ (by omega)] at hw
        refine List.IsPrefix.trans ?_ (ih h2 (by rw [hw]; simp [hl]))
        rw [hw]
        exact List.prefix_append _ _

/-- In a loop every parcel does what it would do by itself with the same directions. -/
lemma waterLoopR_lone {g : Rng K σ} {E : WEnv L W K} (step : ℕ) (st st' : WState L W K) (s s' : σ)
    (log : List (List StepRec)) (n : ℕ) (h : waterLoopR F D g E step st s = .ok (st', log, n, s'))
    (j : ℕ) (p q : WParcel) (hj : st.parcels[j]? = some p) (hp : Padded st.ncols p q)
    (hl : q.walk.length = step + 1) :
    ∃ p' q', st'.parcels[j]? = some p' ∧ Padded st'.ncols p' q' ∧ q'.walk.length = n + 1 ∧
      (ownSteps log j).length = log.length ∧
      loneR D E step q (turns log j) = some (q', ownSteps log j) := by
  induction hfuel : E.stepmax - step generalizing step st s log p q with
  | zero =>
    unfold waterLoopR at h
    rw [if_neg (by omega)] at h
    simp only [Except.ok.injEq, Prod.mk.injEq] at h
    obtain ⟨rfl, rfl, rfl, rfl⟩ := h
    exact ⟨p, q, hj, hp, hl, rfl, rfl⟩
  | succ k ih =>
    unfold waterLoopR at h
    split at h
    · rename_i hc
      split at h
      · cases h
      · rename_i st1 recs s1 h1
        split at h
        · cases h
        · rename_i st2 log' n' s2 h2
          simp only [Except.ok.injEq, Prod.mk.injEq] at h
          obtain ⟨rfl, rfl, rfl, rfl⟩ := h
          obtain ⟨b1, b2, b3, -⟩ := waterStepR_ok g E _ st st1 recs s s1 h1
          obtain ⟨p1, c1, c2⟩ := checkSize_padded E.stepmax (step + 1) st j p q hj hp
          rcases b3.getElem? j with ⟨e, -⟩ | ⟨a, p1', r, e1, e2, e3, d, -, hd⟩
          · rw [c1] at e; cases e
          · rw [c1, Option.some.injEq] at e1
            subst e1
            obtain ⟨q1, d1, d2, d3⟩ := parcelStepR_padded c2 hl b1 hd
            rw [← b2] at d2
            obtain ⟨p', q', f1, f2, f3, f4, f5⟩ := ih (step + 1) st1 s1 log' h2 p1' q1 e2 d2 d3 (by omega)
            have hr : ownSteps (recs :: log') j = r :: ownSteps log' j := by
              simp [ownSteps, e3]
            have hdir : r.dir = d := (parcelStepR_fields hd).2.1
            refine ⟨p', q', f1, f2, f3, by rw [hr]; simp [f4], ?_⟩
            unfold turns at f5 ⊢
            rw [hr, List.map_cons, hdir]
            simp only [loneR, d1]
            rw [f5]
    · simp only [Except.ok.injEq, Prod.mk.injEq] at h
      obtain ⟨rfl, rfl, rfl, rfl⟩ := h
      exact ⟨p, q, hj, hp, hl, rfl, rfl⟩

lemma startLoopR_length {inlet : Fin m → ℤ} {w : Fin m → K} {draws : List K} {l : List ℤ}
    (h : startLoopR D inlet w draws = some l) : l.length = draws.length := by
  induction draws generalizing l with
  | nil => simp only [startLoopR, Option.some.injEq] at h; subst h; rfl
  | cons r rs ih =>
    unfold startLoopR at h
    split at h
    · rename_i h1 h2
      simp only [Option.some.injEq] at h
      subst h
      simp [ih h2]
    · cases h

/-- Every parcel of an iteration does what it would do by itself. -/
lemma runR_lone {g : Rng K σ} {E : WEnv L W K} {inlet : Fin m → ℤ} {np ncols : ℕ} {s s' : σ}
    {st : WState L W K} {log : List (List StepRec)} {n : ℕ}
    (hr : runWaterIterationR F D g E inlet np ncols s = .ok (st, log, n, s')) {j : ℕ} (hj : j < np) :
    ∃ i p q, pathEntry st j 0 = some i ∧ st.parcels[j]? = some p ∧ Padded st.ncols p q ∧
      q.walk.length = n + 1 ∧ (ownSteps log j).length = n ∧
      loneR D E 0 ⟨i, true, [i]⟩ (turns log j) = some (q, ownSteps log j) := by
  obtain ⟨starts, st0, h1, h2, h3⟩ := runWaterR_ok g E inlet np ncols s _ hr
  have hlen : starts.length = np := by
    rw [startLoopR_length h1, drawN_length]
  obtain ⟨b1, b2, b3, b4, b5, b6, b7, b8, b9, b10⟩ := waterStartR_ok h2
  have hn : n = 0 + log.length :=
    (waterLoopR_induct g E (fun _ _ => True) (fun _ _ => True) (fun _ _ _ _ _ _ _ _ _ _ => ⟨trivial, trivial⟩)
      0 st0 st _ _ log n trivial h3).2.1
  have hs : ∃ p, st0.parcels[j]? = some p ∧ Padded st0.ncols p ⟨starts[j], true, [starts[j]]⟩ := by
    unfold waterStartR at h2
    split at h2
    · rename_i hc
      simp only [Except.ok.injEq] at h2
      subst h2
      refine ⟨⟨starts[j], true, (List.replicate ncols 0).set 0 starts[j]⟩,
        by simp only [List.getElem?_map, List.getElem?_eq_getElem (hlen ▸ hj)]; rfl, rfl, rfl,
        ncols - 1, ?_, by simp only [List.length_singleton]; omega⟩
      have hk : List.replicate ncols (0 : ℤ) = 0 :: List.replicate (ncols - 1) 0 := by
        rw [← List.replicate_succ]; congr 1; omega
      simp only [hk]; rfl
    · cases h2
  obtain ⟨p, hp, hpad⟩ := hs
  obtain ⟨p', q', f1, f2, f3, f4, f5⟩ := waterLoopR_lone 0 st0 st _ _ log n h3 j p _ hp hpad rfl
  refine ⟨starts[j], p', q', ?_, f1, f2, f3, by omega, f5⟩
  have hw := loneR_walk f5 rfl
  obtain ⟨z, e1, e2⟩ := f2.2.2
  obtain ⟨t, ht⟩ := hw
  rw [pathEntry_eq]
  unfold walkAt
  rw [f1]
  simp only [Option.bind_some, e1, ← ht]
  rfl

lemma loneR_take {E : WEnv L W K} {step : ℕ} {p q : WParcel} {ds : List (Fin 9)} {rs : List StepRec}
    (h : loneR D E step p ds = some (q, rs)) (hl : p.walk.length = step + 1) (k : ℕ) :
    ∃ qk, loneR D E step p (ds.take k) = some (qk, rs.take k) ∧ qk.walk <+: q.walk ∧
      qk.walk.length = step + 1 + min k ds.length := by
  induction k generalizing step p ds rs with
  | zero => exact ⟨p, by simp [loneR], loneR_walk h hl, by simp [hl]⟩
  | succ k ih =>
    cases ds with
    | nil =>
      simp only [loneR, Option.some.injEq, Prod.mk.injEq] at h
      obtain ⟨rfl, rfl⟩ := h
      exact ⟨p, by simp [loneR], List.prefix_rfl, by simp [hl]⟩
    | cons d ds =>
      unfold loneR at h
      split at h
      · cases h
      · rename_i p1 r h1
        split at h
        · cases h
        · rename_i q1 rs1 h2
          simp only [Option.some.injEq, Prod.mk.injEq] at h
          obtain ⟨rfl, rfl⟩ := h
          have hw := (parcelStepR_fields h1).2.2.2.2.2.2.2
          simp only at hw
          obtain ⟨qk, e1, e2, e3⟩ := ih h2 (by rw [hw]; simp [hl])
          refine ⟨qk, ?_, e2, by rw [e3]; simp only [List.length_cons]; omega⟩
          rw [List.take_succ_cons, List.take_succ_cons]
          simp only [loneR, h1, e1]

/-- C127 in rounded arithmetic: water parcels do not see each other. Take two water iterations over the same fields, with
any inlets, numbers of parcels, record sizes and generators. If a parcel of one and a parcel of the
other start in the same cell and take the same directions in their first `k` steps, then everything
recorded about these steps is the same (positions, loop handling, ends), their paths are the same
so far, and if `k` covers both iterations, both or neither count for the water surface. -/
theorem C127_rounded_alone {m' : ℕ} {g : Rng K σ} {g' : Rng K σ'} {E : WEnv L W K} {inlet : Fin m → ℤ}
    {inlet' : Fin m' → ℤ} {np np' ncols ncols' : ℕ} {s s1 : σ} {s' s1' : σ'} {st st' : WState L W K}
    {log log' : List (List StepRec)} {n n' : ℕ}
    (hr : runWaterIterationR F D g E inlet np ncols s = .ok (st, log, n, s1))
    (hr' : runWaterIterationR F D g' E inlet' np' ncols' s' = .ok (st', log', n', s1'))
    {j j' : ℕ} (hj : j < np) (hj' : j' < np') (h0 : pathEntry st j 0 = pathEntry st' j' 0)
    {k : ℕ} (hk : (turns log j).take k = (turns log' j').take k) :
    (ownSteps log j).take k = (ownSteps log' j').take k ∧
    (∀ i, i ≤ k → i ≤ n → i ≤ n' ∧ pathEntry st j i = pathEntry st' j' i) ∧
    (n ≤ k → n' ≤ k → n = n' ∧ (st.parcels[j]?).map (·.flag) = (st'.parcels[j']?).map (·.flag)) := by
  obtain ⟨a, p, q, b1, b2, b3, b4, b5, b6⟩ := runR_lone hr hj
  obtain ⟨a', p', q', c1, c2, c3, c4, c5, c6⟩ := runR_lone hr' hj'
  rw [b1, c1, Option.some.injEq] at h0
  subst h0
  obtain ⟨qk, d1, d2, d3⟩ := loneR_take b6 rfl k
  obtain ⟨qk', e1, e2, e3⟩ := loneR_take c6 rfl k
  rw [hk, e1, Option.some.injEq, Prod.mk.injEq] at d1
  obtain ⟨rfl, hrs⟩ := d1
  have hn : (turns log j).length = n := by simp [turns, b5]
  have hn' : (turns log' j').length = n' := by simp [turns, c5]
  rw [hn] at d3
  rw [hn'] at e3
  refine ⟨hrs.symm, ?_, ?_⟩
  · intro i hik hin
    refine ⟨by omega, ?_⟩
    have hi : i < qk'.walk.length := by omega
    obtain ⟨u, hu⟩ := d2
    obtain ⟨u', hu'⟩ := e2
    obtain ⟨-, -, z, hz, -⟩ := b3
    obtain ⟨-, -, z', hz', -⟩ := c3
    rw [pathEntry_eq, pathEntry_eq]
    unfold walkAt
    rw [b2, c2]
    simp only [Option.bind_some, hz, hz', ← hu, ← hu', List.append_assoc]
    rw [List.getElem?_append_left hi, List.getElem?_append_left hi]
  · intro h1 h2
    refine ⟨by omega, ?_⟩
    have t1 : (turns log j).take k = turns log j := List.take_of_length_le (by omega)
    have t2 : (turns log' j').take k = turns log' j' := List.take_of_length_le (by omega)
    rw [t1, t2] at hk
    rw [hk, c6, Option.some.injEq, Prod.mk.injEq] at b6
    rw [b2, c2, Option.map_some, Option.map_some, b3.2.1, c3.2.1, b6.1]

/-! ## The numbering -/

lemma runR_rows {g : Rng K σ} {E : WEnv L W K} {inlet : Fin m → ℤ} {np ncols : ℕ} {s s' : σ}
    {st : WState L W K} {log : List (List StepRec)} {n : ℕ}
    (hr : runWaterIterationR F D g E inlet np ncols s = .ok (st, log, n, s')) :
    st.parcels.length = np ∧ (∀ row ∈ log, row.length = np) ∧ n = log.length ∧
    (np = 0 → n = 0) ∧ ∃ starts, getStartIndicesR D inlet (getInletWeights inlet : Fin m → K)
      (drawN g np s).1 = some starts ∧ starts.length = np ∧
      ∀ j : ℕ, starts[j]? = pathEntry st j 0 := by
  obtain ⟨starts, st0, h1, h2, h3⟩ := runWaterR_ok g E inlet np ncols s _ hr
  have hlen : starts.length = np := by rw [startLoopR_length h1, drawN_length]
  obtain ⟨b1, b2, b3, b4, b5, b6, b7, b8, b9, b10⟩ := waterStartR_ok h2
  have hp0 : st0.parcels.length = np := by rw [← hlen, ← b9, List.length_map]
  obtain ⟨c1, c2, c3, c4, c5⟩ := waterLoopR_induct g E (fun _ st => st.parcels.length = np)
    (fun _ row => row.length = np) (fun step t s t' recs s' hI _ _ hs => by
      obtain ⟨-, -, d, -⟩ := waterStepR_ok g E _ t t' recs s s' hs
      have e : (checkSize E.stepmax (step + 1) t).parcels.length = t.parcels.length := by
        unfold checkSize; split <;> simp
      exact ⟨by rw [← d.length₁₂, e, hI], by rw [← d.length₁₃, e, hI]⟩)
    0 st0 st _ _ log n hp0 h3
  refine ⟨c1, ?_, by omega, ?_, starts, h1, hlen, ?_⟩
  · intro row hrow
    obtain ⟨k, hk, rfl⟩ := List.getElem_of_mem hrow
    exact c5 k hk
  · intro h0
    subst h0
    have : st0.parcels = [] := List.length_eq_zero_iff.1 hp0
    unfold waterLoopR at h3
    rw [if_neg (by simp [this])] at h3
    simp only [Except.ok.injEq, Prod.mk.injEq] at h3
    exact h3.2.2.1.symm
  · intro j
    rw [pathEntry_eq, (waterLoopR_walk g E 0 st0 st _ _ log n b4 (by omega) h3).2.2.2.1 j 0 le_rfl, b7]

lemma waterLoopR_size {g : Rng K σ} {E : WEnv L W K} (step : ℕ) (st st' : WState L W K) (s s' : σ)
    (log : List (List StepRec)) (n : ℕ) (h : waterLoopR F D g E step st s = .ok (st', log, n, s')) :
    st'.ncols = sizeAfter E.stepmax step st.ncols log.length := by
  induction hfuel : E.stepmax - step generalizing step st s log with
  | zero =>
    unfold waterLoopR at h
    rw [if_neg (by omega)] at h
    simp only [Except.ok.injEq, Prod.mk.injEq] at h
    obtain ⟨rfl, rfl, rfl, rfl⟩ := h
    rfl
  | succ k ih =>
    unfold waterLoopR at h
    split at h
    · rename_i hc
      split at h
      · cases h
      · rename_i st1 recs s1 h1
        split at h
        · cases h
        · rename_i st2 log' n' s2 h2
          simp only [Except.ok.injEq, Prod.mk.injEq] at h
          obtain ⟨rfl, rfl, rfl, rfl⟩ := h
          rw [ih (step + 1) st1 s1 log' h2 (by omega)]
          rw [(waterStepR_ok g E _ st st1 recs s s1 h1).2.1]
          simp only [List.length_cons, sizeAfter]
          congr 1
          unfold checkSize
          split <;> rfl
    · simp only [Except.ok.injEq, Prod.mk.injEq] at h
      obtain ⟨rfl, rfl, rfl, rfl⟩ := h
      rfl

lemma runR_size {g : Rng K σ} {E : WEnv L W K} {inlet : Fin m → ℤ} {np ncols : ℕ} {s s' : σ}
    {st : WState L W K} {log : List (List StepRec)} {n : ℕ}
    (hr : runWaterIterationR F D g E inlet np ncols s = .ok (st, log, n, s')) :
    st.ncols = sizeAfter E.stepmax 0 ncols log.length := by
  obtain ⟨starts, st0, h1, h2, h3⟩ := runWaterR_ok g E inlet np ncols s _ hr
  rw [waterLoopR_size 0 st0 st _ _ log n h3, (waterStartR_ok h2).2.2.1]

/-- C127 in rounded arithmetic: if the parcels of a second iteration are those of the first under
other numbers, then it takes as many steps, leaves the same discharge in every cell to the last digit,
a path record of the same size and the same parcels under their new numbers. The direction of the flow
and the heights of the surface may differ, see `C127_rounded_direction_witness`. -/
theorem C127_rounded_order {g : Rng K σ} {g' : Rng K σ'} {E : WEnv L W K} {inlet : Fin m → ℤ}
    {np ncols : ℕ} {s s1 : σ} {s' s1' : σ'} {st st' : WState L W K}
    {log log' : List (List StepRec)} {n n' : ℕ}
    (hr : runWaterIterationR F D g E inlet np ncols s = .ok (st, log, n, s1))
    (hr' : runWaterIterationR F D g' E inlet np ncols s' = .ok (st', log', n', s1'))
    {π : Equiv.Perm (Fin np)} (h : Renumbered np π st st' log log') :
    n' = n ∧ st'.flux.qw = st.flux.qw ∧ st'.ncols = st.ncols ∧
      (∀ j : Fin np, st'.parcels[j.val]? = st.parcels[(π j).val]?) ∧ st'.parcels.Perm st.parcels := by
  obtain ⟨a1, a2, a3, a4, starts, a5, a6, a7⟩ := runR_rows hr
  obtain ⟨b1, b2, b3, b4, starts', b5, b6, b7⟩ := runR_rows hr'
  have hn : n' = n := by
    rcases Nat.eq_zero_or_pos np with h0 | h0
    · rw [a4 h0, b4 h0]
    · obtain ⟨i, p, q, -, -, -, -, c5, -⟩ := runR_lone hr' (j := (⟨0, h0⟩ : Fin np).val) h0
      obtain ⟨i', p', q', -, -, -, -, d5, -⟩ := runR_lone hr (j := (π ⟨0, h0⟩).val) (π ⟨0, h0⟩).isLt
      have := congrArg List.length (h.turns ⟨0, h0⟩)
      simp only [turns, List.length_map] at this
      simp only at c5
      omega
  have hnc : st'.ncols = st.ncols := by
    rw [runR_size hr, runR_size hr', ← a3, ← b3, hn]
  have key : ∀ j : Fin np, ownSteps log' j.val = ownSteps log (π j).val ∧
      st'.parcels[j.val]? = st.parcels[(π j).val]? := by
    intro j
    obtain ⟨i, p, q, c1, c2, c3, c4, c5, c6⟩ := runR_lone hr' j.isLt
    obtain ⟨i', p', q', d1, d2, d3, d4, d5, d6⟩ := runR_lone hr (π j).isLt
    have h0 := h.first j
    rw [c1, d1, Option.some.injEq] at h0
    subst h0
    rw [h.turns j, d6, Option.some.injEq, Prod.mk.injEq] at c6
    obtain ⟨rfl, c6⟩ := c6
    refine ⟨c6.symm, ?_⟩
    rw [c2, d2]
    obtain ⟨e1, e2, z, e3, e4⟩ := c3
    obtain ⟨f1, f2, y, f3, f4⟩ := d3
    have hz : z = y := by omega
    subst hz
    congr 1
    obtain ⟨p1, p2, p3⟩ := p
    obtain ⟨q1, q2, q3⟩ := p'
    simp only at e1 e2 e3 f1 f2 f3
    subst e1 e2 e3 f1 f2 f3
    rfl
  have hperm : log'.flatten.Perm log.flatten := flatten_renumbered a2 b2 π (fun j => (key j).1)
  have hstarts : starts'.Perm starts := perm_of_renumbered a6 b6 π (fun j => by rw [a7, b7]; exact h.first j)
  refine ⟨hn, ?_, hnc, fun j => (key j).2, perm_of_renumbered a1 b1 π (fun j => (key j).2)⟩
  obtain ⟨S, hS, hc⟩ := C100_discharge hr
  obtain ⟨S', hS', hc'⟩ := C100_discharge hr'
  rw [a5, Option.some.injEq] at hS
  rw [b5, Option.some.injEq] at hS'
  subst hS hS'
  funext c
  rw [hc c, hc' c]
  have q1 : (departures log' c).length = (departures log c).length := (hperm.filter _).length_eq
  have q2 : (arrivals log' c).length = (arrivals log c).length := (hperm.filter _).length_eq
  have q3 : (edgeArrivals log' c).length = (edgeArrivals log c).length := (hperm.filter _).length_eq
  have q4 : (∃ i ∈ starts', Addresses i c) ↔ ∃ i ∈ starts, Addresses i c := by
    constructor <;> rintro ⟨i, hi, hc⟩
    · exact ⟨i, hstarts.mem_iff.1 hi, hc⟩
    · exact ⟨i, hstarts.mem_iff.2 hi, hc⟩
  unfold sharesOf
  rw [q1, q2, q3]
  simp only [q4]

/-! ## Every numbering is possible -/

lemma startLoopR_mem {inlet : Fin m → ℤ} {w : Fin m → K} {draws : List K} {l : List ℤ}
    (h : startLoopR D inlet w draws = some l) : ∀ i ∈ l, ∃ r k, randomPickR D D w r = some k ∧ inlet k = i := by
  induction draws generalizing l with
  | nil => simp only [startLoopR, Option.some.injEq] at h; subst h; simp
  | cons r rs ih =>
    unfold startLoopR at h
    split at h
    · rename_i k ks h1 h2
      simp only [Option.some.injEq] at h
      subst h
      intro i hi
      rcases List.mem_cons.1 hi with rfl | hi
      · exact ⟨r, k, h1, rfl⟩
      · exact ih h2 i hi
    · cases h

lemma startLoopR_queue {inlet : Fin m → ℤ} {w : Fin m → K} (l : List ℤ)
    (h : ∀ i ∈ l, ∃ r k, randomPickR D D w r = some k ∧ inlet k = i) :
    ∃ t : List K, t.length = l.length ∧ startLoopR D inlet w t = some l := by
  induction l with
  | nil => exact ⟨[], rfl, rfl⟩
  | cons i l ih =>
    obtain ⟨t, h1, h2⟩ := ih (fun i hi => h i (List.mem_cons_of_mem _ hi))
    obtain ⟨r, k, h3, h4⟩ := h i List.mem_cons_self
    refine ⟨r :: t, by simp [h1], ?_⟩
    simp only [startLoopR, h3, h2, h4]

lemma chooseDirsR_queue {g : Rng K σ} {E : WEnv L W K} {inds : List ℤ} {ds : List (Fin 9)}
    (h : List.Forall₂ (ChoiceOKR D g E) inds ds) :
    ∃ t, ∀ rest, chooseDirsR D queueRng E.weights inds (t ++ rest) = .ok (ds, rest) := by
  induction h with
  | nil => exact ⟨[], fun rest => rfl⟩
  | cons h1 _ ih =>
    obtain ⟨t, ht⟩ := ih
    rcases h1 with ⟨rfl, rfl⟩ | ⟨h1, c, s, h2, h3⟩
    · refine ⟨t, fun rest => ?_⟩
      simp only [chooseDirsR, ne_eq, not_true_eq_false, if_false, ht]
    · refine ⟨(g.next s).1 :: t, fun rest => ?_⟩
      have : (queueRng : Rng K (List K)).next ((g.next s).1 :: t ++ rest) = ((g.next s).1, t ++ rest) := rfl
      unfold chooseDirsR
      rw [if_pos h1, h2]
      simp only [this, h3, ht]

lemma parcelStepsR_of {E : WEnv L W K} {step : ℕ} {ps ps' : List WParcel} {rs : List StepRec}
    (h : Forall₃ (fun p p' r => parcelStepR D E step p r.dir = .ok (p', r)) ps ps' rs) :
    parcelStepsR D E step ps (rs.map (·.dir)) = .ok (ps', rs) := by
  induction h with
  | nil => rfl
  | cons h1 _ ih => simp only [List.map_cons, parcelStepsR, h1, ih]

lemma choicesR_of {g : Rng K σ} {E : WEnv L W K} {step : ℕ} {ps ps' : List WParcel} {rs : List StepRec}
    (h : Forall₃ (StepOfR D g E step) ps ps' rs) :
    List.Forall₂ (ChoiceOKR D g E) (ps.map (·.ind)) (rs.map (·.dir)) := by
  induction h with
  | nil => exact .nil
  | cons h1 _ ih =>
    obtain ⟨d, a, b⟩ := h1
    rw [List.map_cons, List.map_cons, (parcelStepR_fields b).2.1]
    exact .cons a ih

lemma addFluxesR_valid {E : WEnv L W K} {sel : StepRec → ℤ} {p : StepRec → Bool} {rs : List StepRec}
    {f f' : Flux L W K} (h : addFluxesR F D E sel p rs f = .ok f') :
    ∀ r ∈ rs, p r = true → r.dir ≠ 4 → ∃ c, flatCell L W (sel r) = some c := by
  induction rs generalizing f with
  | nil => simp
  | cons a rs ih =>
    intro r hr h1 h2
    unfold addFluxesR at h
    split at h
    · split at h
      · cases h
      · rename_i f1 hf1
        rcases List.mem_cons.1 hr with rfl | hr
        · unfold addFluxR at hf1
          rw [if_pos h2] at hf1
          cases hc : flatCell L W (sel r) with
          | none => rw [hc] at hf1; cases hf1
          | some c => exact ⟨c, rfl⟩
        · exact ih h r hr h1 h2
    · rename_i hp
      rcases List.mem_cons.1 hr with rfl | hr
      · exact absurd h1 hp
      · exact ih h r hr h1 h2

lemma addFluxesR_some {E : WEnv L W K} {sel : StepRec → ℤ} {p : StepRec → Bool} (rs : List StepRec)
    (h : ∀ r ∈ rs, p r = true → r.dir ≠ 4 → ∃ c, flatCell L W (sel r) = some c) (f : Flux L W K) :
    ∃ f', addFluxesR F D E sel p rs f = .ok f' := by
  induction rs generalizing f with
  | nil => exact ⟨f, rfl⟩
  | cons r rs ih =>
    have ih' := ih (fun r hr => h r (List.mem_cons_of_mem _ hr))
    unfold addFluxesR
    split
    · rename_i hp
      unfold addFluxR
      by_cases h4 : r.dir ≠ 4
      · obtain ⟨c, hc⟩ := h r List.mem_cons_self hp h4
        rw [if_pos h4, hc]; exact ih' _
      · rw [if_neg h4]; exact ih' _
    · exact ih' _

/-- One step of the renumbered parcels. -/
lemma waterStepR_renumbered {g : Rng K σ} {E : WEnv L W K} {step np : ℕ} {st st1 st' : WState L W K}
    {recs : List StepRec} {s s1 : σ} (h : waterStepR F D g E step st s = .ok (st1, recs, s1))
    (π : Equiv.Perm (Fin np)) (hl : st.parcels.length = np) (hl' : st'.parcels.length = np)
    (hp : ∀ j : Fin np, st'.parcels[j.val]? = st.parcels[(π j).val]?) (hn : st'.ncols = st.ncols) :
    ∃ t st1' recs', (∀ rest, waterStepR F D queueRng E step st' (t ++ rest) = .ok (st1', recs', rest)) ∧
      st1.parcels.length = np ∧ st1'.parcels.length = np ∧
      (∀ j : Fin np, st1'.parcels[j.val]? = st1.parcels[(π j).val]?) ∧ st1'.ncols = st1.ncols ∧
      recs.length = np ∧ recs'.length = np ∧ (∀ j : Fin np, recs'[j.val]? = recs[(π j).val]?) := by
  obtain ⟨b1, b2, b3, f1, f2, b4, b5, b6⟩ := waterStepR_ok g E step st st1 recs s s1 h
  have e1 : (checkSize E.stepmax step st).parcels.length = np := by
    unfold checkSize; split <;> simp [hl]
  have e2 : (checkSize E.stepmax step st').parcels.length = np := by
    unfold checkSize; split <;> simp [hl']
  have e3 : ∀ j : Fin np, (checkSize E.stepmax step st').parcels[j.val]? =
      (checkSize E.stepmax step st).parcels[(π j).val]? := by
    intro j
    unfold checkSize
    rw [hn]
    split
    · simp only [List.getElem?_map, hp]
    · exact hp j
  have e4 : (checkSize E.stepmax step st').ncols = (checkSize E.stepmax step st).ncols := by
    unfold checkSize
    rw [hn]
    split <;> simp [hn]
  have l1 : st1.parcels.length = np := by rw [← b3.length₁₂, e1]
  have l2 : recs.length = np := by rw [← b3.length₁₃, e1]
  obtain ⟨ps', c1, c2⟩ := exists_renumbered π st1.parcels l1
  obtain ⟨recs', c3, c4⟩ := exists_renumbered π recs l2
  have hF : Forall₃ (StepOfR D g E step) (checkSize E.stepmax step st').parcels ps' recs' := by
    refine Forall₃_of (by rw [c1, e2]) (by rw [c3, e2]) ?_
    intro j a b c h1 h2 h3
    have hj : j < np := by
      rw [← e2]
      exact (List.getElem?_eq_some_iff.1 h1).1
    have k1 := e3 ⟨j, hj⟩
    have k2 := c2 ⟨j, hj⟩
    have k3 := c4 ⟨j, hj⟩
    simp only at k1 k2 k3
    rcases b3.getElem? (π ⟨j, hj⟩).val with ⟨e, -⟩ | ⟨a', b', c', q1, q2, q3, q4⟩
    · rw [k1, e] at h1; cases h1
    · rw [k1, q1] at h1; rw [k2, q2] at h2; rw [k3, q3] at h3
      cases h1; cases h2; cases h3
      exact q4
  have hmem : ∀ r ∈ recs', r ∈ recs := fun r hr => (perm_of_renumbered l2 c3 π c4).mem_iff.1 hr
  have hx : ∀ (sel : StepRec → ℤ) (p : StepRec → Bool) (f f' : Flux L W K),
      addFluxesR F D E sel p recs f = .ok f' → ∀ r ∈ recs', p r = true → r.dir ≠ 4 →
        ∃ c, flatCell L W (sel r) = some c := by
    intro sel p f f' hf r hr h1 h2
    exact addFluxesR_valid hf r (hmem r hr) h1 h2
  obtain ⟨g1, d1⟩ := addFluxesR_some (F := F) (D := D) (E := E) recs' (hx _ _ _ _ b4) st'.flux
  obtain ⟨g2, d2⟩ := addFluxesR_some (F := F) (D := D) (E := E) recs' (hx _ _ _ _ b5) g1
  obtain ⟨g3, d3⟩ := addFluxesR_some (F := F) (D := D) (E := E) recs' (hx _ _ _ _ b6) g2
  obtain ⟨t, ht⟩ := chooseDirsR_queue (choicesR_of hF)
  have hsteps := parcelStepsR_of (hF.imp (fun p p' r ⟨d, _, hd⟩ => by
    rw [(parcelStepR_fields hd).2.1]; exact hd))
  have hfl : (checkSize E.stepmax step st').flux = st'.flux := by unfold checkSize; split <;> rfl
  refine ⟨t, ⟨g3, ps', st1.ncols⟩, recs', ?_, l1, c1, c2, rfl, l2, c3, c4⟩
  intro rest
  unfold waterStepR
  simp only
  rw [if_pos (by rw [e4]; exact b1), ht]
  simp only [hsteps, hfl, d1, d2, d3]
  rw [e4, b2]

/-- The loop over the renumbered parcels. -/
lemma waterLoopR_renumbered {g : Rng K σ} {E : WEnv L W K} {np : ℕ} (π : Equiv.Perm (Fin np)) (step : ℕ)
    (st st2 st' : WState L W K) (s s2 : σ) (log : List (List StepRec)) (n : ℕ)
    (h : waterLoopR F D g E step st s = .ok (st2, log, n, s2)) (hl : st.parcels.length = np)
    (hl' : st'.parcels.length = np)
    (hp : ∀ j : Fin np, st'.parcels[j.val]? = st.parcels[(π j).val]?) (hn : st'.ncols = st.ncols) :
    ∃ t st2' log', (∀ rest, waterLoopR F D queueRng E step st' (t ++ rest) = .ok (st2', log', n, rest)) ∧
      ∀ j : Fin np, ownSteps log' j.val = ownSteps log (π j).val := by
  have hcond : ∀ st st' : WState L W K, st.parcels.length = np → st'.parcels.length = np →
      (∀ j : Fin np, st'.parcels[j.val]? = st.parcels[(π j).val]?) →
      (st'.parcels.map (·.ind)).sum = (st.parcels.map (·.ind)).sum := by
    intro a b h1 h2 h3
    exact ((perm_of_renumbered h1 h2 π h3).map _).sum_eq
  induction hfuel : E.stepmax - step generalizing step st st' s log with
  | zero =>
    unfold waterLoopR at h
    rw [if_neg (by omega)] at h
    simp only [Except.ok.injEq, Prod.mk.injEq] at h
    obtain ⟨rfl, rfl, rfl, rfl⟩ := h
    refine ⟨[], st', [], fun rest => ?_, fun j => rfl⟩
    unfold waterLoopR
    rw [if_neg (by omega)]
    rfl
  | succ k ih =>
    unfold waterLoopR at h
    split at h
    · rename_i hc
      split at h
      · cases h
      · rename_i st1 recs s1 h1
        split at h
        · cases h
        · rename_i st3 log1 n1 s3 h2
          simp only [Except.ok.injEq, Prod.mk.injEq] at h
          obtain ⟨rfl, rfl, rfl, rfl⟩ := h
          obtain ⟨t, st1', recs', a1, a2, a3, a4, a5, a6, a7, a8⟩ := waterStepR_renumbered h1 π hl hl' hp hn
          obtain ⟨t2, st2', log', b1, b2⟩ := ih (step + 1) st1 st1' s1 log1 h2 a2 a3 a4 a5 (by omega)
          refine ⟨t ++ t2, st2', recs' :: log', fun rest => ?_, fun j => ?_⟩
          · unfold waterLoopR
            rw [if_pos ⟨by rw [hcond st st' hl hl' hp]; exact hc.1, hc.2⟩, List.append_assoc, a1]
            simp only [b1]
          · unfold ownSteps
            rw [List.filterMap_cons, List.filterMap_cons, a8 j]
            have := b2 j
            unfold ownSteps at this
            rw [this]
    · rename_i hc
      simp only [Except.ok.injEq, Prod.mk.injEq] at h
      obtain ⟨rfl, rfl, rfl, rfl⟩ := h
      refine ⟨[], st', [], fun rest => ?_, fun j => rfl⟩
      unfold waterLoopR
      rw [if_neg (by rw [hcond st st' hl hl' hp]; exact hc)]
      rfl

/-- C127 in rounded arithmetic: every numbering is possible. For every water iteration and every renumbering of its
parcels there are random numbers with which the renumbered parcels are routed. -/
theorem C127_rounded_exists {g : Rng K σ} {E : WEnv L W K} {inlet : Fin m → ℤ} {np ncols : ℕ} {s s1 : σ}
    {st : WState L W K} {log : List (List StepRec)} {n : ℕ}
    (hr : runWaterIterationR F D g E inlet np ncols s = .ok (st, log, n, s1)) (π : Equiv.Perm (Fin np)) :
    ∃ (g' : Rng K (List K)) (t : List K) (st' : WState L W K) (log' : List (List StepRec)),
      runWaterIterationR F D g' E inlet np ncols t = .ok (st', log', n, []) ∧
      Renumbered np π st st' log log' := by
  obtain ⟨starts, st0, h1, h2, h3⟩ := runWaterR_ok g E inlet np ncols s _ hr
  have hlen : starts.length = np := by rw [startLoopR_length h1, drawN_length]
  obtain ⟨starts', c1, c2⟩ := exists_renumbered π starts hlen
  have hperm := perm_of_renumbered hlen c1 π c2
  obtain ⟨t0, d1, d2⟩ := startLoopR_queue starts'
    (fun i hi => startLoopR_mem h1 i (hperm.mem_iff.1 hi))
  have hst : ∃ st0', waterStartR F D E ncols starts' = .ok st0' ∧
      st0.parcels = starts.map (fun i => ⟨i, true, (List.replicate ncols 0).set 0 i⟩) ∧
      st0'.parcels = starts'.map (fun i => ⟨i, true, (List.replicate ncols 0).set 0 i⟩) ∧
      st0'.ncols = st0.ncols := by
    unfold waterStartR at h2 ⊢
    split at h2
    · rename_i hc
      simp only [Except.ok.injEq] at h2
      subst h2
      refine ⟨_, if_pos ⟨?_, hc.2⟩, rfl, rfl, rfl⟩
      rw [List.all_eq_true] at hc ⊢
      exact fun i hi => hc.1 i (hperm.mem_iff.1 hi)
    · cases h2
  obtain ⟨st0', e1, e2, e3, e4⟩ := hst
  obtain ⟨t, st', log', f1, f2⟩ := waterLoopR_renumbered π 0 st0 st st0' _ _ log n h3
    (by rw [e2]; simp [hlen]) (by rw [e3]; simp [c1])
    (fun j => by rw [e2, e3]; simp only [List.getElem?_map, c2]) e4
  have hd : drawN queueRng np (t0 ++ t) = (t0, t) := by
    have := drawN_queue t0 t
    rwa [d1, c1] at this
  have hrun : runWaterIterationR F D queueRng E inlet np ncols (t0 ++ t) = .ok (st', log', n, []) := by
    unfold runWaterIterationR
    rw [hd]
    simp only
    have : getStartIndicesR D inlet (getInletWeights inlet : Fin m → K) t0 = some starts' := d2
    rw [this]
    simp only [e1]
    have := f1 []
    rwa [List.append_nil] at this
  refine ⟨queueRng, t0 ++ t, st', log', hrun, ?_, fun j => by unfold turns; rw [f2 j]⟩
  intro j
  obtain ⟨-, -, -, -, S, g1, g2, g3⟩ := runR_rows hr
  obtain ⟨-, -, -, -, S', g1', g2', g3'⟩ := runR_rows hrun
  rw [hd] at g1'
  have g4 : S' = starts' := by
    have : getStartIndicesR D inlet (getInletWeights inlet : Fin m → K) t0 = some starts' := d2
    rw [this] at g1'; cases g1'; rfl
  have g5 : S = starts := by rw [h1] at g1; cases g1; rfl
  rw [← g3, ← g3', g4, g5]
  exact c2 j


/-! ## What the numbering does change -/

/-- Everything flows down the middle to the cell (2, 1), from there sideways or obliquely. -/
def exFork : Grid 4 3 (Fin 9 → ℚ) := fun c d =>
  if c = (2, 1) then (if d = 5 ∨ d = 8 then 1 / 2 else 0) else if d = 7 then 1 else 0

/-- The third step of three parcels is decided by `a`. -/
def exThree (a : List ℚ) : Except Err (WState 4 3 ℚ × List (List StepRec) × ℕ × List ℚ) :=
  runWaterIterationR exRough exRough listRng (exEnv exFork 8) (fun _ : Fin 1 => 1) 3 4
    ([1/2, 1/2, 1/2, 1/2, 1/2, 1/2, 1/2, 1/2, 1/2] ++ a)

lemma exThree_ok (a : List ℚ) (x : List (List (Fin 9)) × List (Option ℤ) × ℚ)
    (h : (exThree a).map (fun r => ([turns r.2.1 0, turns r.2.1 1, turns r.2.1 2],
      [pathEntry r.1 0 0, pathEntry r.1 1 0, pathEntry r.1 2 0], r.1.flux.qy (2, 1))) = .ok x) :
    ∃ st log n s, exThree a = .ok (st, log, n, s) ∧ [turns log 0, turns log 1, turns log 2] = x.1 ∧
      [pathEntry st 0 0, pathEntry st 1 0, pathEntry st 2 0] = x.2.1 ∧ st.flux.qy (2, 1) = x.2.2 := by
  cases hr : exThree a with
  | error e => rw [hr] at h; cases h
  | ok r =>
    rw [hr] at h
    simp only [Except.map, Except.ok.injEq] at h
    subst h
    exact ⟨r.1, r.2.1, r.2.2.1, r.2.2.2, rfl, rfl, rfl, rfl⟩

/-- C127 in rounded arithmetic: the direction of the flow does depend on the numbering of the parcels,
as sums depend on their order. Two iterations with the same parcels under other numbers, in numbers
with two binary digits. -/
theorem C127_rounded_direction_witness :
    ∃ (s s' s1 s1' : List ℚ) (st st' : WState 4 3 ℚ) (log log' : List (List StepRec)) (n n' : ℕ),
      runWaterIterationR exRough exRough listRng (exEnv exFork 8) (fun _ : Fin 1 => 1) 3 4 s =
        .ok (st, log, n, s1) ∧
      runWaterIterationR exRough exRough listRng (exEnv exFork 8) (fun _ : Fin 1 => 1) 3 4 s' =
        .ok (st', log', n', s1') ∧
      Renumbered 3 (Equiv.swap 0 2) st st' log log' ∧ st'.flux.qy (2, 1) ≠ st.flux.qy (2, 1) := by
  obtain ⟨st, log, n, s, h1, h2, h3, h4⟩ := exThree_ok [1/4, 3/4, 3/4]
    ([[7, 7, 5], [7, 7, 8], [7, 7, 8]], [some 1, some 1, some 1], 3) (by decide +kernel)
  obtain ⟨st', log', n', s', h1', h2', h3', h4'⟩ := exThree_ok [3/4, 3/4, 1/4]
    ([[7, 7, 8], [7, 7, 8], [7, 7, 5]], [some 1, some 1, some 1], 2) (by decide +kernel)
  simp only [List.cons.injEq, and_true] at h2 h3 h2' h3'
  obtain ⟨a1, a2, a3⟩ := h2
  obtain ⟨b1, b2, b3⟩ := h3
  obtain ⟨a1', a2', a3'⟩ := h2'
  obtain ⟨b1', b2', b3'⟩ := h3'
  refine ⟨_, _, s, s', st, st', log, log', n, n', h1, h1', ⟨?_, ?_⟩, by rw [h4, h4']; norm_num⟩
  · intro j
    fin_cases j
    · exact b1'.trans b3.symm
    · exact b2'.trans b2.symm
    · exact b3'.trans b1.symm
  · intro j
    fin_cases j
    · exact a1'.trans a3.symm
    · exact a2'.trans a2.symm
    · exact a3'.trans a1.symm

end Verif.Props
