import Verif.Spec.Parcels
import Mathlib.Tactic.Ring

/-!
# C127: water parcels do not see each other, and their numbering does not matter
-/

set_option linter.unusedSectionVars false

namespace Verif.Props

open Verif.Model Verif.Lemmas Verif.Spec

variable {K : Type*} [Field K] [LinearOrder K] [IsStrictOrderedRing K] [FloorRing K] {σ σ' : Type*}
  {L W m : ℕ}

/-! ## One parcel by itself -/

/-- A parcel moved along the given directions; its walk holds only the entries made so far. -/
def lone (E : WEnv L W K) : ℕ → WParcel → List (Fin 9) → Option (WParcel × List StepRec)
  | _, p, [] => some (p, [])
  | step, p, d :: ds =>
    match parcelStep E (step + 1) { p with walk := p.walk ++ [0] } d with
    | .error _ => none
    | .ok (p1, r) =>
      match lone E (step + 1) p1 ds with
      | none => none
      | some (p2, rs) => some (p2, r :: rs)

/-- `p` is `q` with its walk filled up with zeros to `nc` entries. -/
def Padded (nc : ℕ) (p q : WParcel) : Prop :=
  p.ind = q.ind ∧ p.flag = q.flag ∧ ∃ z, p.walk = q.walk ++ List.replicate z 0 ∧
    q.walk.length + z = nc

lemma checkLoop_padded (E : WEnv L W K) (step : ℕ) (u : List ℤ) (y z : ℕ) (i : ℤ) :
    checkLoop E step (u ++ List.replicate y 0) i = checkLoop E step (u ++ List.replicate z 0) i := by
  unfold checkLoop
  have h : ∀ n, (u ++ List.replicate n (0 : ℤ)).filter (fun i => decide (i > 0)) =
      u.filter (fun i => decide (i > 0)) := by
    intro n; simp
  simp only [h]

lemma parcelStep_padded {E : WEnv L W K} {step nc : ℕ} {p q p' : WParcel} {d : Fin 9} {r : StepRec}
    (hp : Padded nc p q) (hl : q.walk.length = step + 1) (hs : step + 1 < nc)
    (h : parcelStep E (step + 1) p d = .ok (p', r)) :
    ∃ q', parcelStep E (step + 1) { q with walk := q.walk ++ [0] } d = .ok (q', r) ∧
      Padded nc p' q' ∧ q'.walk.length = step + 2 := by
  obtain ⟨h1, h2, z, h3, h4⟩ := hp
  obtain ⟨a1, a2, a3, a4, a5, a6, a7, a8⟩ := parcelStep_fields h
  have hz : z = (z - 1) + 1 := by omega
  have hcl : checkLoop E (step + 1) (q.walk ++ [0]) (calcNewInd W q.ind d) = .ok (r.new2, r.looped) := by
    have := checkLoop_padded E (step + 1) q.walk 1 z (calcNewInd W q.ind d)
    simp only [List.replicate_one] at this
    rw [this, ← h3, ← h1, ← a3]; exact a4
  refine ⟨⟨after r, q.flag && !r.looped, (q.walk ++ [0]).set (step + 1) (recorded r)⟩, ?_,
    ⟨a6, by rw [a7, h2], z - 1, ?_, ?_⟩, ?_⟩
  · unfold parcelStep
    simp only [hcl, a5]
    have e : r = ⟨q.ind, d, calcNewInd W q.ind d, r.new2, r.looped, r.bnd⟩ := by
      obtain ⟨r1, r2, r3, r4, r5, r6⟩ := r
      simp only at a1 a2 a3
      subst a1 a2 a3
      rw [h1]
    have e2 : (if r.bnd = true then 0 else if (r.looped && r.bnd) = true then (0 : ℤ) else r.new2) = after r := by
      unfold after; cases r.bnd <;> simp
    rw [e2]
    congr 2
    rw [← e]
  · rw [a8, h3, hz, List.replicate_succ]
    simp only [Nat.add_sub_cancel]
    rw [List.set_append_right _ _ (by omega), List.set_append_right _ _ (by omega)]
    simp [hl]
  · simp; omega
  · simp [hl]

lemma checkSize_padded (stepmax step : ℕ) (st : WState L W K) (j : ℕ) (p q : WParcel)
    (hj : st.parcels[j]? = some p) (hp : Padded st.ncols p q) :
    ∃ p1, (checkSize stepmax step st).parcels[j]? = some p1 ∧
      Padded (checkSize stepmax step st).ncols p1 q := by
  unfold checkSize
  split
  · refine ⟨_, by simp only [List.getElem?_map, hj]; rfl, ?_⟩
    obtain ⟨h1, h2, z, h3, h4⟩ := hp
    refine ⟨h1, h2, z + stepmax / 4, ?_, by simp only; omega⟩
    simp only [h3, List.append_assoc, List.replicate_append_replicate]
  · exact ⟨p, hj, hp⟩

lemma lone_walk {E : WEnv L W K} {step : ℕ} {p q : WParcel} {ds : List (Fin 9)} {rs : List StepRec}
    (h : lone E step p ds = some (q, rs)) (hl : p.walk.length = step + 1) : p.walk <+: q.walk := by
  induction ds generalizing step p rs with
  | nil =>
    simp only [lone, Option.some.injEq, Prod.mk.injEq] at h
    rw [← h.1]
  | cons d ds ih =>
    unfold lone at h
    split at h
    · cases h
    · rename_i p1 r h1
      split at h
      · cases h
      · rename_i q1 rs1 h2
        simp only [Option.some.injEq, Prod.mk.injEq] at h
        obtain ⟨rfl, rfl⟩ := h
        have hw := (parcelStep_fields h1).2.2.2.2.2.2.2
        simp only at hw
        rw [List.set_append_right _ _ (by omega)] at hw
        refine List.IsPrefix.trans ?_ (ih h2 (by rw [hw]; simp [hl]))
        rw [hw]
        exact List.prefix_append _ _

/-- In a loop every parcel does what it would do by itself with the same directions. -/
lemma waterLoop_lone {g : Rng K σ} {E : WEnv L W K} (step : ℕ) (st st' : WState L W K) (s s' : σ)
    (log : List (List StepRec)) (n : ℕ) (h : waterLoop g E step st s = .ok (st', log, n, s'))
    (j : ℕ) (p q : WParcel) (hj : st.parcels[j]? = some p) (hp : Padded st.ncols p q)
    (hl : q.walk.length = step + 1) :
    ∃ p' q', st'.parcels[j]? = some p' ∧ Padded st'.ncols p' q' ∧ q'.walk.length = n + 1 ∧
      (ownSteps log j).length = log.length ∧
      lone E step q (turns log j) = some (q', ownSteps log j) := by
  induction hfuel : E.stepmax - step generalizing step st s log p q with
  | zero =>
    unfold waterLoop at h
    rw [if_neg (by omega)] at h
    simp only [Except.ok.injEq, Prod.mk.injEq] at h
    obtain ⟨rfl, rfl, rfl, rfl⟩ := h
    exact ⟨p, q, hj, hp, hl, rfl, rfl⟩
  | succ k ih =>
    unfold waterLoop at h
    split at h
    · rename_i hc
      split at h
      · cases h
      · rename_i st1 recs s1 h1
        split at h
        · cases h
        · rename_i st2 log' n' s2 h2
          simp only [Except.ok.injEq, Prod.mk.injEq] at h
          obtain ⟨rfl, rfl, rfl, rfl⟩ := h
          obtain ⟨b1, b2, b3, -⟩ := waterStep_ok g E _ st st1 recs s s1 h1
          obtain ⟨p1, c1, c2⟩ := checkSize_padded E.stepmax (step + 1) st j p q hj hp
          rcases b3.getElem? j with ⟨e, -⟩ | ⟨a, p1', r, e1, e2, e3, d, -, hd⟩
          · rw [c1] at e; cases e
          · rw [c1, Option.some.injEq] at e1
            subst e1
            obtain ⟨q1, d1, d2, d3⟩ := parcelStep_padded c2 hl b1 hd
            rw [← b2] at d2
            obtain ⟨p', q', f1, f2, f3, f4, f5⟩ := ih (step + 1) st1 s1 log' h2 p1' q1 e2 d2 d3 (by omega)
            have hr : ownSteps (recs :: log') j = r :: ownSteps log' j := by
              simp [ownSteps, e3]
            have hdir : r.dir = d := (parcelStep_fields hd).2.1
            refine ⟨p', q', f1, f2, f3, by rw [hr]; simp [f4], ?_⟩
            unfold turns at f5 ⊢
            rw [hr, List.map_cons, hdir]
            simp only [lone, d1]
            rw [f5]
    · simp only [Except.ok.injEq, Prod.mk.injEq] at h
      obtain ⟨rfl, rfl, rfl, rfl⟩ := h
      exact ⟨p, q, hj, hp, hl, rfl, rfl⟩

lemma startLoop_length {inlet : Fin m → ℤ} {w : Fin m → K} {draws : List K} {l : List ℤ}
    (h : startLoop inlet w draws = some l) : l.length = draws.length := by
  induction draws generalizing l with
  | nil => simp only [startLoop, Option.some.injEq] at h; subst h; rfl
  | cons r rs ih =>
    unfold startLoop at h
    split at h
    · rename_i h1 h2
      simp only [Option.some.injEq] at h
      subst h
      simp [ih h2]
    · cases h

/-- Every parcel of an iteration does what it would do by itself. -/
lemma run_lone {g : Rng K σ} {E : WEnv L W K} {inlet : Fin m → ℤ} {np ncols : ℕ} {s s' : σ}
    {st : WState L W K} {log : List (List StepRec)} {n : ℕ}
    (hr : runWaterIteration g E inlet np ncols s = .ok (st, log, n, s')) {j : ℕ} (hj : j < np) :
    ∃ i p q, pathEntry st j 0 = some i ∧ st.parcels[j]? = some p ∧ Padded st.ncols p q ∧
      q.walk.length = n + 1 ∧ (ownSteps log j).length = n ∧
      lone E 0 ⟨i, true, [i]⟩ (turns log j) = some (q, ownSteps log j) := by
  obtain ⟨starts, st0, h1, h2, h3⟩ := runWater_ok g E inlet np ncols s _ hr
  have hlen : starts.length = np := by
    rw [startLoop_length h1, drawN_length]
  obtain ⟨b1, b2, b3, b4, b5, b6, b7, b8, b9, b10⟩ := waterStart_ok h2
  have hn : n = 0 + log.length :=
    (waterLoop_induct g E (fun _ _ => True) (fun _ _ => True) (fun _ _ _ _ _ _ _ _ _ _ => ⟨trivial, trivial⟩)
      0 st0 st _ _ log n trivial h3).2.1
  have hs : ∃ p, st0.parcels[j]? = some p ∧ Padded st0.ncols p ⟨starts[j], true, [starts[j]]⟩ := by
    unfold waterStart at h2
    split at h2
    · rename_i hc
      simp only [Except.ok.injEq] at h2
      subst h2
      refine ⟨⟨starts[j], true, (List.replicate ncols 0).set 0 starts[j]⟩,
        by simp only [List.getElem?_map, List.getElem?_eq_getElem (hlen ▸ hj)]; rfl, rfl, rfl,
        ncols - 1, ?_, by simp only [List.length_singleton]; omega⟩
      have hk : List.replicate ncols (0 : ℤ) = 0 :: List.replicate (ncols - 1) 0 := by
        rw [← List.replicate_succ]; congr 1; omega
      simp only [hk]; rfl
    · cases h2
  obtain ⟨p, hp, hpad⟩ := hs
  obtain ⟨p', q', f1, f2, f3, f4, f5⟩ := waterLoop_lone 0 st0 st _ _ log n h3 j p _ hp hpad rfl
  refine ⟨starts[j], p', q', ?_, f1, f2, f3, by omega, f5⟩
  have hw := lone_walk f5 rfl
  obtain ⟨z, e1, e2⟩ := f2.2.2
  obtain ⟨t, ht⟩ := hw
  rw [pathEntry_eq]
  unfold walkAt
  rw [f1]
  simp only [Option.bind_some, e1, ← ht]
  rfl

lemma lone_take {E : WEnv L W K} {step : ℕ} {p q : WParcel} {ds : List (Fin 9)} {rs : List StepRec}
    (h : lone E step p ds = some (q, rs)) (hl : p.walk.length = step + 1) (k : ℕ) :
    ∃ qk, lone E step p (ds.take k) = some (qk, rs.take k) ∧ qk.walk <+: q.walk ∧
      qk.walk.length = step + 1 + min k ds.length := by
  induction k generalizing step p ds rs with
  | zero => exact ⟨p, by simp [lone], lone_walk h hl, by simp [hl]⟩
  | succ k ih =>
    cases ds with
    | nil =>
      simp only [lone, Option.some.injEq, Prod.mk.injEq] at h
      obtain ⟨rfl, rfl⟩ := h
      exact ⟨p, by simp [lone], List.prefix_rfl, by simp [hl]⟩
    | cons d ds =>
      unfold lone at h
      split at h
      · cases h
      · rename_i p1 r h1
        split at h
        · cases h
        · rename_i q1 rs1 h2
          simp only [Option.some.injEq, Prod.mk.injEq] at h
          obtain ⟨rfl, rfl⟩ := h
          have hw := (parcelStep_fields h1).2.2.2.2.2.2.2
          simp only at hw
          obtain ⟨qk, e1, e2, e3⟩ := ih h2 (by rw [hw]; simp [hl])
          refine ⟨qk, ?_, e2, by rw [e3]; simp only [List.length_cons]; omega⟩
          rw [List.take_succ_cons, List.take_succ_cons]
          simp only [lone, h1, e1]

/-- C127: water parcels do not see each other. Take two water iterations over the same fields, with
any inlets, numbers of parcels, record sizes and generators. If a parcel of one and a parcel of the
other start in the same cell and take the same directions in their first `k` steps, then everything
recorded about these steps is the same (positions, loop handling, ends), their paths are the same
so far, and if `k` covers both iterations, both or neither count for the water surface. -/
theorem C127_alone {m' : ℕ} {g : Rng K σ} {g' : Rng K σ'} {E : WEnv L W K} {inlet : Fin m → ℤ}
    {inlet' : Fin m' → ℤ} {np np' ncols ncols' : ℕ} {s s1 : σ} {s' s1' : σ'} {st st' : WState L W K}
    {log log' : List (List StepRec)} {n n' : ℕ}
    (hr : runWaterIteration g E inlet np ncols s = .ok (st, log, n, s1))
    (hr' : runWaterIteration g' E inlet' np' ncols' s' = .ok (st', log', n', s1'))
    {j j' : ℕ} (hj : j < np) (hj' : j' < np') (h0 : pathEntry st j 0 = pathEntry st' j' 0)
    {k : ℕ} (hk : (turns log j).take k = (turns log' j').take k) :
    (ownSteps log j).take k = (ownSteps log' j').take k ∧
    (∀ i, i ≤ k → i ≤ n → i ≤ n' ∧ pathEntry st j i = pathEntry st' j' i) ∧
    (n ≤ k → n' ≤ k → n = n' ∧ (st.parcels[j]?).map (·.flag) = (st'.parcels[j']?).map (·.flag)) := by
  obtain ⟨a, p, q, b1, b2, b3, b4, b5, b6⟩ := run_lone hr hj
  obtain ⟨a', p', q', c1, c2, c3, c4, c5, c6⟩ := run_lone hr' hj'
  rw [b1, c1, Option.some.injEq] at h0
  subst h0
  obtain ⟨qk, d1, d2, d3⟩ := lone_take b6 rfl k
  obtain ⟨qk', e1, e2, e3⟩ := lone_take c6 rfl k
  rw [hk, e1, Option.some.injEq, Prod.mk.injEq] at d1
  obtain ⟨rfl, hrs⟩ := d1
  have hn : (turns log j).length = n := by simp [turns, b5]
  have hn' : (turns log' j').length = n' := by simp [turns, c5]
  rw [hn] at d3
  rw [hn'] at e3
  refine ⟨hrs.symm, ?_, ?_⟩
  · intro i hik hin
    refine ⟨by omega, ?_⟩
    have hi : i < qk'.walk.length := by omega
    obtain ⟨u, hu⟩ := d2
    obtain ⟨u', hu'⟩ := e2
    obtain ⟨-, -, z, hz, -⟩ := b3
    obtain ⟨-, -, z', hz', -⟩ := c3
    rw [pathEntry_eq, pathEntry_eq]
    unfold walkAt
    rw [b2, c2]
    simp only [Option.bind_some, hz, hz', ← hu, ← hu', List.append_assoc]
    rw [List.getElem?_append_left hi, List.getElem?_append_left hi]
  · intro h1 h2
    refine ⟨by omega, ?_⟩
    have t1 : (turns log j).take k = turns log j := List.take_of_length_le (by omega)
    have t2 : (turns log' j').take k = turns log' j' := List.take_of_length_le (by omega)
    rw [t1, t2] at hk
    rw [hk, c6, Option.some.injEq, Prod.mk.injEq] at b6
    rw [b2, c2, Option.map_some, Option.map_some, b3.2.1, c3.2.1, b6.1]

/-! ## The numbering -/

lemma row_flatMap {α : Type*} {np : ℕ} (row : List α) (h : row.length = np) :
    (List.finRange np).flatMap (fun j => (row[j.val]?).toList) = row := by
  subst h
  have : ∀ j : Fin row.length, (row[j.val]?).toList = [row.get j] := by
    intro j; simp
  simp only [this]
  rw [← List.map_eq_flatMap]
  exact List.map_get_finRange row

/-- All steps of a rectangular log, parcel by parcel. -/
lemma flatten_perm {np : ℕ} (log : List (List StepRec)) (h : ∀ row ∈ log, row.length = np) :
    log.flatten.Perm ((List.finRange np).flatMap (fun j => ownSteps log j.val)) := by
  induction log with
  | nil => simp [ownSteps]
  | cons row log ih =>
    have e : (fun j : Fin np => ownSteps (row :: log) j.val) =
        fun j : Fin np => (row[j.val]?).toList ++ ownSteps log j.val := by
      funext j
      unfold ownSteps
      rw [List.filterMap_cons]
      cases row[j.val]? <;> rfl
    rw [e, List.flatten_cons]
    refine List.Perm.trans ?_ (List.flatMap_append_perm _ _ _)
    rw [row_flatMap row (h row (by simp))]
    exact List.Perm.append_left _ (ih (fun r hr => h r (by simp [hr])))

lemma flatten_renumbered {np : ℕ} {log log' : List (List StepRec)} (h : ∀ row ∈ log, row.length = np)
    (h' : ∀ row ∈ log', row.length = np) (π : Equiv.Perm (Fin np))
    (hs : ∀ j : Fin np, ownSteps log' j.val = ownSteps log (π j).val) :
    log'.flatten.Perm log.flatten := by
  refine (flatten_perm log' h').trans (List.Perm.trans ?_ (flatten_perm log h).symm)
  have e : (List.finRange np).flatMap (fun j => ownSteps log' j.val) =
      ((List.finRange np).map π).flatMap (fun j => ownSteps log j.val) := by
    rw [List.flatMap_map]
    congr 1
    funext j
    exact hs j
  rw [e]
  exact (Equiv.Perm.map_finRange_perm π).flatMap_right _

lemma perm_of_renumbered {α : Type*} {np : ℕ} {l l' : List α} (h : l.length = np) (h' : l'.length = np)
    (π : Equiv.Perm (Fin np)) (hs : ∀ j : Fin np, l'[j.val]? = l[(π j).val]?) : l'.Perm l := by
  rw [← row_flatMap l h, ← row_flatMap l' h']
  have e : (List.finRange np).flatMap (fun j => (l'[j.val]?).toList) =
      ((List.finRange np).map π).flatMap (fun j => (l[j.val]?).toList) := by
    rw [List.flatMap_map]
    congr 1
    funext j
    simp only [hs]
  rw [e]
  exact (Equiv.Perm.map_finRange_perm π).flatMap_right _

lemma run_rows {g : Rng K σ} {E : WEnv L W K} {inlet : Fin m → ℤ} {np ncols : ℕ} {s s' : σ}
    {st : WState L W K} {log : List (List StepRec)} {n : ℕ}
    (hr : runWaterIteration g E inlet np ncols s = .ok (st, log, n, s')) :
    st.parcels.length = np ∧ (∀ row ∈ log, row.length = np) ∧ n = log.length ∧
    (np = 0 → n = 0) ∧ ∃ starts, getStartIndices inlet (getInletWeights inlet : Fin m → K)
      (drawN g np s).1 = some starts ∧ starts.length = np ∧
      ∀ j : ℕ, starts[j]? = pathEntry st j 0 := by
  obtain ⟨starts, st0, h1, h2, h3⟩ := runWater_ok g E inlet np ncols s _ hr
  have hlen : starts.length = np := by rw [startLoop_length h1, drawN_length]
  obtain ⟨b1, b2, b3, b4, b5, b6, b7, b8, b9, b10⟩ := waterStart_ok h2
  have hp0 : st0.parcels.length = np := by rw [← hlen, ← b9, List.length_map]
  obtain ⟨c1, c2, c3, c4, c5⟩ := waterLoop_induct g E (fun _ st => st.parcels.length = np)
    (fun _ row => row.length = np) (fun step t s t' recs s' hI _ _ hs => by
      obtain ⟨-, -, d, -⟩ := waterStep_ok g E _ t t' recs s s' hs
      have e : (checkSize E.stepmax (step + 1) t).parcels.length = t.parcels.length := by
        unfold checkSize; split <;> simp
      exact ⟨by rw [← d.length₁₂, e, hI], by rw [← d.length₁₃, e, hI]⟩)
    0 st0 st _ _ log n hp0 h3
  refine ⟨c1, ?_, by omega, ?_, starts, h1, hlen, ?_⟩
  · intro row hrow
    obtain ⟨k, hk, rfl⟩ := List.getElem_of_mem hrow
    exact c5 k hk
  · intro h0
    subst h0
    have : st0.parcels = [] := List.length_eq_zero_iff.1 hp0
    unfold waterLoop at h3
    rw [if_neg (by simp [this])] at h3
    simp only [Except.ok.injEq, Prod.mk.injEq] at h3
    exact h3.2.2.1.symm
  · intro j
    rw [pathEntry_eq, (waterLoop_walk g E 0 st0 st _ _ log n b4 (by omega) h3).2.2.2.1 j 0 le_rfl, b7]

/-- The size of the path record after `k` more steps. -/
def sizeAfter (stepmax : ℕ) : ℕ → ℕ → ℕ → ℕ
  | _, nc, 0 => nc
  | step, nc, k + 1 =>
    sizeAfter stepmax (step + 1) (if step + 1 ≥ nc then nc + stepmax / 4 else nc) k

lemma waterLoop_size {g : Rng K σ} {E : WEnv L W K} (step : ℕ) (st st' : WState L W K) (s s' : σ)
    (log : List (List StepRec)) (n : ℕ) (h : waterLoop g E step st s = .ok (st', log, n, s')) :
    st'.ncols = sizeAfter E.stepmax step st.ncols log.length := by
  induction hfuel : E.stepmax - step generalizing step st s log with
  | zero =>
    unfold waterLoop at h
    rw [if_neg (by omega)] at h
    simp only [Except.ok.injEq, Prod.mk.injEq] at h
    obtain ⟨rfl, rfl, rfl, rfl⟩ := h
    rfl
  | succ k ih =>
    unfold waterLoop at h
    split at h
    · rename_i hc
      split at h
      · cases h
      · rename_i st1 recs s1 h1
        split at h
        · cases h
        · rename_i st2 log' n' s2 h2
          simp only [Except.ok.injEq, Prod.mk.injEq] at h
          obtain ⟨rfl, rfl, rfl, rfl⟩ := h
          rw [ih (step + 1) st1 s1 log' h2 (by omega)]
          rw [(waterStep_ok g E _ st st1 recs s s1 h1).2.1]
          simp only [List.length_cons, sizeAfter]
          congr 1
          unfold checkSize
          split <;> rfl
    · simp only [Except.ok.injEq, Prod.mk.injEq] at h
      obtain ⟨rfl, rfl, rfl, rfl⟩ := h
      rfl

lemma run_size {g : Rng K σ} {E : WEnv L W K} {inlet : Fin m → ℤ} {np ncols : ℕ} {s s' : σ}
    {st : WState L W K} {log : List (List StepRec)} {n : ℕ}
    (hr : runWaterIteration g E inlet np ncols s = .ok (st, log, n, s')) :
    st.ncols = sizeAfter E.stepmax 0 ncols log.length := by
  obtain ⟨starts, st0, h1, h2, h3⟩ := runWater_ok g E inlet np ncols s _ hr
  rw [waterLoop_size 0 st0 st _ _ log n h3, (waterStart_ok h2).2.2.1]

lemma sum_map_perm {α : Type*} {l l' : List α} (h : l.Perm l') (f : α → K) :
    (l.map f).sum = (l'.map f).sum := (h.map f).sum_eq

/-- C127: the numbering of the parcels does not matter. If the parcels of a second iteration are
those of the first under other numbers (same first cells, same directions), then it takes as many
steps, adds the same fluxes to every cell, leaves a path record of the same size and the same
parcels under their new numbers. For any generators. -/
theorem C127_order {g : Rng K σ} {g' : Rng K σ'} {E : WEnv L W K} {inlet : Fin m → ℤ}
    {np ncols : ℕ} {s s1 : σ} {s' s1' : σ'} {st st' : WState L W K}
    {log log' : List (List StepRec)} {n n' : ℕ}
    (hr : runWaterIteration g E inlet np ncols s = .ok (st, log, n, s1))
    (hr' : runWaterIteration g' E inlet np ncols s' = .ok (st', log', n', s1'))
    {π : Equiv.Perm (Fin np)} (h : Renumbered np π st st' log log') :
    n' = n ∧ st'.flux = st.flux ∧ st'.ncols = st.ncols ∧
      (∀ j : Fin np, st'.parcels[j.val]? = st.parcels[(π j).val]?) ∧ st'.parcels.Perm st.parcels := by
  obtain ⟨a1, a2, a3, a4, starts, a5, a6, a7⟩ := run_rows hr
  obtain ⟨b1, b2, b3, b4, starts', b5, b6, b7⟩ := run_rows hr'
  have hn : n' = n := by
    rcases Nat.eq_zero_or_pos np with h0 | h0
    · rw [a4 h0, b4 h0]
    · obtain ⟨i, p, q, -, -, -, -, c5, -⟩ := run_lone hr' (j := (⟨0, h0⟩ : Fin np).val) h0
      obtain ⟨i', p', q', -, -, -, -, d5, -⟩ := run_lone hr (j := (π ⟨0, h0⟩).val) (π ⟨0, h0⟩).isLt
      have := congrArg List.length (h.turns ⟨0, h0⟩)
      simp only [turns, List.length_map] at this
      simp only at c5
      omega
  have hnc : st'.ncols = st.ncols := by
    rw [run_size hr, run_size hr', ← a3, ← b3, hn]
  have key : ∀ j : Fin np, ownSteps log' j.val = ownSteps log (π j).val ∧
      st'.parcels[j.val]? = st.parcels[(π j).val]? := by
    intro j
    obtain ⟨i, p, q, c1, c2, c3, c4, c5, c6⟩ := run_lone hr' j.isLt
    obtain ⟨i', p', q', d1, d2, d3, d4, d5, d6⟩ := run_lone hr (π j).isLt
    have h0 := h.first j
    rw [c1, d1, Option.some.injEq] at h0
    subst h0
    rw [h.turns j, d6, Option.some.injEq, Prod.mk.injEq] at c6
    obtain ⟨rfl, c6⟩ := c6
    refine ⟨c6.symm, ?_⟩
    rw [c2, d2]
    obtain ⟨e1, e2, z, e3, e4⟩ := c3
    obtain ⟨f1, f2, y, f3, f4⟩ := d3
    have hz : z = y := by omega
    subst hz
    congr 1
    obtain ⟨p1, p2, p3⟩ := p
    obtain ⟨q1, q2, q3⟩ := p'
    simp only at e1 e2 e3 f1 f2 f3
    subst e1 e2 e3 f1 f2 f3
    rfl
  have hperm : log'.flatten.Perm log.flatten := flatten_renumbered a2 b2 π (fun j => (key j).1)
  have hstarts : starts'.Perm starts := perm_of_renumbered a6 b6 π (fun j => by rw [a7, b7]; exact h.first j)
  refine ⟨hn, ?_, hnc, fun j => (key j).2, perm_of_renumbered a1 b1 π (fun j => (key j).2)⟩
  obtain ⟨S, hS, hc⟩ := C14_cell_accounting hr
  obtain ⟨S', hS', hc'⟩ := C14_cell_accounting hr'
  rw [a5, Option.some.injEq] at hS
  rw [b5, Option.some.injEq] at hS'
  subst hS hS'
  have q1 : ∀ c : Cell L W, (departures log' c).Perm (departures log c) := fun c => hperm.filter _
  have q2 : ∀ c : Cell L W, (arrivals log' c).Perm (arrivals log c) := fun c => hperm.filter _
  have q3 : ∀ c : Cell L W, (edgeArrivals log' c).Perm (edgeArrivals log c) := fun c => hperm.filter _
  have q4 : ∀ c : Cell L W, (∃ i ∈ starts', Addresses i c) ↔ ∃ i ∈ starts, Addresses i c := by
    intro c
    constructor <;> rintro ⟨i, hi, hc⟩
    · exact ⟨i, hstarts.mem_iff.1 hi, hc⟩
    · exact ⟨i, hstarts.mem_iff.2 hi, hc⟩
  have q5 : ∀ c : Cell L W, (departures log' c ++ arrivals log' c ++ edgeArrivals log' c).Perm
      (departures log c ++ arrivals log c ++ edgeArrivals log c) := fun c =>
    ((q1 c).append (q2 c)).append (q3 c)
  have g1 : st'.flux.qx = st.flux.qx := by
    funext c
    rw [(hc c).2.1, (hc' c).2.1, sum_map_perm (q5 c)]
    simp only [q4 c]
  have g2 : st'.flux.qy = st.flux.qy := by
    funext c
    rw [(hc c).2.2, (hc' c).2.2, sum_map_perm (q5 c)]
  have g3 : st'.flux.qw = st.flux.qw := by
    funext c
    rw [(hc c).1, (hc' c).1, (q1 c).length_eq, (q2 c).length_eq, (q3 c).length_eq]
    simp only [q4 c]
  cases hf : st.flux with
  | mk x y z =>
    cases hf' : st'.flux with
    | mk x' y' z' =>
      rw [hf, hf'] at g1 g2 g3
      simp only at g1 g2 g3
      rw [g1, g2, g3]

/-! ## Every numbering is possible -/

/-- A generator that gives the numbers of a list. -/
def queueRng : Rng K (List K) where
  next := fun l => (l.headD 0, l.tail)

lemma drawN_queue (t rest : List K) : drawN queueRng t.length (t ++ rest) = (t, rest) := by
  induction t with
  | nil => rfl
  | cons r t ih =>
    rw [List.length_cons]
    show ((r :: (drawN queueRng t.length (t ++ rest)).1), (drawN queueRng t.length (t ++ rest)).2) = _
    rw [ih]

lemma startLoop_mem {inlet : Fin m → ℤ} {w : Fin m → K} {draws : List K} {l : List ℤ}
    (h : startLoop inlet w draws = some l) : ∀ i ∈ l, ∃ r k, randomPick w r = some k ∧ inlet k = i := by
  induction draws generalizing l with
  | nil => simp only [startLoop, Option.some.injEq] at h; subst h; simp
  | cons r rs ih =>
    unfold startLoop at h
    split at h
    · rename_i k ks h1 h2
      simp only [Option.some.injEq] at h
      subst h
      intro i hi
      rcases List.mem_cons.1 hi with rfl | hi
      · exact ⟨r, k, h1, rfl⟩
      · exact ih h2 i hi
    · cases h

lemma startLoop_queue {inlet : Fin m → ℤ} {w : Fin m → K} (l : List ℤ)
    (h : ∀ i ∈ l, ∃ r k, randomPick w r = some k ∧ inlet k = i) :
    ∃ t : List K, t.length = l.length ∧ startLoop inlet w t = some l := by
  induction l with
  | nil => exact ⟨[], rfl, rfl⟩
  | cons i l ih =>
    obtain ⟨t, h1, h2⟩ := ih (fun i hi => h i (List.mem_cons_of_mem _ hi))
    obtain ⟨r, k, h3, h4⟩ := h i List.mem_cons_self
    refine ⟨r :: t, by simp [h1], ?_⟩
    simp only [startLoop, h3, h2, h4]

lemma chooseDirs_queue {g : Rng K σ} {E : WEnv L W K} {inds : List ℤ} {ds : List (Fin 9)}
    (h : List.Forall₂ (ChoiceOK g E) inds ds) :
    ∃ t, ∀ rest, chooseDirs queueRng E.weights inds (t ++ rest) = .ok (ds, rest) := by
  induction h with
  | nil => exact ⟨[], fun rest => rfl⟩
  | cons h1 _ ih =>
    obtain ⟨t, ht⟩ := ih
    rcases h1 with ⟨rfl, rfl⟩ | ⟨h1, c, s, h2, h3⟩
    · refine ⟨t, fun rest => ?_⟩
      simp only [chooseDirs, ne_eq, not_true_eq_false, if_false, ht]
    · refine ⟨(g.next s).1 :: t, fun rest => ?_⟩
      have : (queueRng : Rng K (List K)).next ((g.next s).1 :: t ++ rest) = ((g.next s).1, t ++ rest) := rfl
      unfold chooseDirs
      rw [if_pos h1, h2]
      simp only [this, h3, ht]

lemma Forall₃_of {α β γ : Type*} {R : α → β → γ → Prop} {as : List α} {bs : List β} {cs : List γ}
    (h1 : bs.length = as.length) (h2 : cs.length = as.length)
    (h : ∀ (j : ℕ) a b c, as[j]? = some a → bs[j]? = some b → cs[j]? = some c → R a b c) :
    Forall₃ R as bs cs := by
  induction as generalizing bs cs with
  | nil =>
    obtain rfl := List.length_eq_zero_iff.1 h1
    obtain rfl := List.length_eq_zero_iff.1 h2
    exact .nil
  | cons a as ih =>
    cases bs with
    | nil => simp at h1
    | cons b bs =>
      cases cs with
      | nil => simp at h2
      | cons c cs =>
        refine .cons (h 0 a b c rfl rfl rfl) (ih (by simpa using h1) (by simpa using h2) ?_)
        intro j a' b' c' e1 e2 e3
        exact h (j + 1) a' b' c' (by simpa using e1) (by simpa using e2) (by simpa using e3)

lemma parcelSteps_of {E : WEnv L W K} {step : ℕ} {ps ps' : List WParcel} {rs : List StepRec}
    (h : Forall₃ (fun p p' r => parcelStep E step p r.dir = .ok (p', r)) ps ps' rs) :
    parcelSteps E step ps (rs.map (·.dir)) = .ok (ps', rs) := by
  induction h with
  | nil => rfl
  | cons h1 _ ih => simp only [List.map_cons, parcelSteps, h1, ih]

lemma choices_of {g : Rng K σ} {E : WEnv L W K} {step : ℕ} {ps ps' : List WParcel} {rs : List StepRec}
    (h : Forall₃ (StepOf g E step) ps ps' rs) :
    List.Forall₂ (ChoiceOK g E) (ps.map (·.ind)) (rs.map (·.dir)) := by
  induction h with
  | nil => exact .nil
  | cons h1 _ ih =>
    obtain ⟨d, a, b⟩ := h1
    rw [List.map_cons, List.map_cons, (parcelStep_fields b).2.1]
    exact .cons a ih

lemma addFluxes_some {E : WEnv L W K} {sel : StepRec → ℤ} {p : StepRec → Bool} (rs : List StepRec)
    (h : ∀ r ∈ rs, p r = true → r.dir ≠ 4 → ∃ c, flatCell L W (sel r) = some c) (f : Flux L W K) :
    ∃ f', addFluxes E sel p rs f = .ok f' := by
  induction rs generalizing f with
  | nil => exact ⟨f, rfl⟩
  | cons r rs ih =>
    have ih' := ih (fun r hr => h r (List.mem_cons_of_mem _ hr))
    unfold addFluxes
    split
    · rename_i hp
      unfold addFlux
      by_cases h4 : r.dir ≠ 4
      · obtain ⟨c, hc⟩ := h r List.mem_cons_self hp h4
        rw [if_pos h4, hc]; exact ih' _
      · rw [if_neg h4]; exact ih' _
    · exact ih' _

lemma exists_renumbered {α : Type*} {np : ℕ} (π : Equiv.Perm (Fin np)) (l : List α) (h : l.length = np) :
    ∃ l' : List α, l'.length = np ∧ ∀ j : Fin np, l'[j.val]? = l[(π j).val]? := by
  refine ⟨List.ofFn (fun j : Fin np => l[(π j).val]'(h ▸ (π j).isLt)), by simp, ?_⟩
  intro j
  simp [h]

/-- One step of the renumbered parcels. -/
lemma waterStep_renumbered {g : Rng K σ} {E : WEnv L W K} {step np : ℕ} {st st1 st' : WState L W K}
    {recs : List StepRec} {s s1 : σ} (h : waterStep g E step st s = .ok (st1, recs, s1))
    (π : Equiv.Perm (Fin np)) (hl : st.parcels.length = np) (hl' : st'.parcels.length = np)
    (hp : ∀ j : Fin np, st'.parcels[j.val]? = st.parcels[(π j).val]?) (hn : st'.ncols = st.ncols) :
    ∃ t st1' recs', (∀ rest, waterStep queueRng E step st' (t ++ rest) = .ok (st1', recs', rest)) ∧
      st1.parcels.length = np ∧ st1'.parcels.length = np ∧
      (∀ j : Fin np, st1'.parcels[j.val]? = st1.parcels[(π j).val]?) ∧ st1'.ncols = st1.ncols ∧
      recs.length = np ∧ recs'.length = np ∧ (∀ j : Fin np, recs'[j.val]? = recs[(π j).val]?) := by
  obtain ⟨b1, b2, b3, f1, f2, b4, b5, b6⟩ := waterStep_ok g E step st st1 recs s s1 h
  have e1 : (checkSize E.stepmax step st).parcels.length = np := by
    unfold checkSize; split <;> simp [hl]
  have e2 : (checkSize E.stepmax step st').parcels.length = np := by
    unfold checkSize; split <;> simp [hl']
  have e3 : ∀ j : Fin np, (checkSize E.stepmax step st').parcels[j.val]? =
      (checkSize E.stepmax step st).parcels[(π j).val]? := by
    intro j
    unfold checkSize
    rw [hn]
    split
    · simp only [List.getElem?_map, hp]
    · exact hp j
  have e4 : (checkSize E.stepmax step st').ncols = (checkSize E.stepmax step st).ncols := by
    unfold checkSize
    rw [hn]
    split <;> simp [hn]
  have l1 : st1.parcels.length = np := by rw [← b3.length₁₂, e1]
  have l2 : recs.length = np := by rw [← b3.length₁₃, e1]
  obtain ⟨ps', c1, c2⟩ := exists_renumbered π st1.parcels l1
  obtain ⟨recs', c3, c4⟩ := exists_renumbered π recs l2
  have hF : Forall₃ (StepOf g E step) (checkSize E.stepmax step st').parcels ps' recs' := by
    refine Forall₃_of (by rw [c1, e2]) (by rw [c3, e2]) ?_
    intro j a b c h1 h2 h3
    have hj : j < np := by
      rw [← e2]
      exact (List.getElem?_eq_some_iff.1 h1).1
    have k1 := e3 ⟨j, hj⟩
    have k2 := c2 ⟨j, hj⟩
    have k3 := c4 ⟨j, hj⟩
    simp only at k1 k2 k3
    rcases b3.getElem? (π ⟨j, hj⟩).val with ⟨e, -⟩ | ⟨a', b', c', q1, q2, q3, q4⟩
    · rw [k1, e] at h1; cases h1
    · rw [k1, q1] at h1; rw [k2, q2] at h2; rw [k3, q3] at h3
      cases h1; cases h2; cases h3
      exact q4
  have hmem : ∀ r ∈ recs', r ∈ recs := fun r hr => (perm_of_renumbered l2 c3 π c4).mem_iff.1 hr
  have hx : ∀ (sel : StepRec → ℤ) (p : StepRec → Bool) (f f' : Flux L W K),
      addFluxes E sel p recs f = .ok f' → ∀ r ∈ recs', p r = true → r.dir ≠ 4 →
        ∃ c, flatCell L W (sel r) = some c := by
    intro sel p f f' hf r hr h1 h2
    by_cases hne : Nonempty (Cell L W)
    · obtain ⟨c⟩ := hne
      exact (addFluxes_ok E sel p recs f f' hf c).2.2.2 r (hmem r hr) h1 h2
    · exfalso
      obtain ⟨p', -, q', -, d, -, hd⟩ := hF.mem₃ r hr
      have := (parcelStep_fields hd).2.2.2.2.1
      unfold isBoundary at this
      split at this
      · cases this
      · rename_i c _
        exact hne ⟨c⟩
  obtain ⟨g1, d1⟩ := addFluxes_some (E := E) recs' (hx _ _ _ _ b4) st'.flux
  obtain ⟨g2, d2⟩ := addFluxes_some (E := E) recs' (hx _ _ _ _ b5) g1
  obtain ⟨g3, d3⟩ := addFluxes_some (E := E) recs' (hx _ _ _ _ b6) g2
  obtain ⟨t, ht⟩ := chooseDirs_queue (choices_of hF)
  have hsteps := parcelSteps_of (hF.imp (fun p p' r ⟨d, _, hd⟩ => by
    rw [(parcelStep_fields hd).2.1]; exact hd))
  have hfl : (checkSize E.stepmax step st').flux = st'.flux := by unfold checkSize; split <;> rfl
  refine ⟨t, ⟨g3, ps', st1.ncols⟩, recs', ?_, l1, c1, c2, rfl, l2, c3, c4⟩
  intro rest
  unfold waterStep
  simp only
  rw [if_pos (by rw [e4]; exact b1), ht]
  simp only [hsteps, hfl, d1, d2, d3]
  rw [e4, b2]

/-- The loop over the renumbered parcels. -/
lemma waterLoop_renumbered {g : Rng K σ} {E : WEnv L W K} {np : ℕ} (π : Equiv.Perm (Fin np)) (step : ℕ)
    (st st2 st' : WState L W K) (s s2 : σ) (log : List (List StepRec)) (n : ℕ)
    (h : waterLoop g E step st s = .ok (st2, log, n, s2)) (hl : st.parcels.length = np)
    (hl' : st'.parcels.length = np)
    (hp : ∀ j : Fin np, st'.parcels[j.val]? = st.parcels[(π j).val]?) (hn : st'.ncols = st.ncols) :
    ∃ t st2' log', (∀ rest, waterLoop queueRng E step st' (t ++ rest) = .ok (st2', log', n, rest)) ∧
      ∀ j : Fin np, ownSteps log' j.val = ownSteps log (π j).val := by
  have hcond : ∀ st st' : WState L W K, st.parcels.length = np → st'.parcels.length = np →
      (∀ j : Fin np, st'.parcels[j.val]? = st.parcels[(π j).val]?) →
      (st'.parcels.map (·.ind)).sum = (st.parcels.map (·.ind)).sum := by
    intro a b h1 h2 h3
    exact ((perm_of_renumbered h1 h2 π h3).map _).sum_eq
  induction hfuel : E.stepmax - step generalizing step st st' s log with
  | zero =>
    unfold waterLoop at h
    rw [if_neg (by omega)] at h
    simp only [Except.ok.injEq, Prod.mk.injEq] at h
    obtain ⟨rfl, rfl, rfl, rfl⟩ := h
    refine ⟨[], st', [], fun rest => ?_, fun j => rfl⟩
    unfold waterLoop
    rw [if_neg (by omega)]
    rfl
  | succ k ih =>
    unfold waterLoop at h
    split at h
    · rename_i hc
      split at h
      · cases h
      · rename_i st1 recs s1 h1
        split at h
        · cases h
        · rename_i st3 log1 n1 s3 h2
          simp only [Except.ok.injEq, Prod.mk.injEq] at h
          obtain ⟨rfl, rfl, rfl, rfl⟩ := h
          obtain ⟨t, st1', recs', a1, a2, a3, a4, a5, a6, a7, a8⟩ := waterStep_renumbered h1 π hl hl' hp hn
          obtain ⟨t2, st2', log', b1, b2⟩ := ih (step + 1) st1 st1' s1 log1 h2 a2 a3 a4 a5 (by omega)
          refine ⟨t ++ t2, st2', recs' :: log', fun rest => ?_, fun j => ?_⟩
          · unfold waterLoop
            rw [if_pos ⟨by rw [hcond st st' hl hl' hp]; exact hc.1, hc.2⟩, List.append_assoc, a1]
            simp only [b1]
          · unfold ownSteps
            rw [List.filterMap_cons, List.filterMap_cons, a8 j]
            have := b2 j
            unfold ownSteps at this
            rw [this]
    · rename_i hc
      simp only [Except.ok.injEq, Prod.mk.injEq] at h
      obtain ⟨rfl, rfl, rfl, rfl⟩ := h
      refine ⟨[], st', [], fun rest => ?_, fun j => rfl⟩
      unfold waterLoop
      rw [if_neg (by rw [hcond st st' hl hl' hp]; exact hc)]
      rfl

/-- C127: every numbering is possible. For every water iteration and every renumbering of its
parcels there are random numbers with which the renumbered parcels are routed. -/
theorem C127_exists {g : Rng K σ} {E : WEnv L W K} {inlet : Fin m → ℤ} {np ncols : ℕ} {s s1 : σ}
    {st : WState L W K} {log : List (List StepRec)} {n : ℕ}
    (hr : runWaterIteration g E inlet np ncols s = .ok (st, log, n, s1)) (π : Equiv.Perm (Fin np)) :
    ∃ (g' : Rng K (List K)) (t : List K) (st' : WState L W K) (log' : List (List StepRec)),
      runWaterIteration g' E inlet np ncols t = .ok (st', log', n, []) ∧
      Renumbered np π st st' log log' := by
  obtain ⟨starts, st0, h1, h2, h3⟩ := runWater_ok g E inlet np ncols s _ hr
  have hlen : starts.length = np := by rw [startLoop_length h1, drawN_length]
  obtain ⟨starts', c1, c2⟩ := exists_renumbered π starts hlen
  have hperm := perm_of_renumbered hlen c1 π c2
  obtain ⟨t0, d1, d2⟩ := startLoop_queue starts'
    (fun i hi => startLoop_mem h1 i (hperm.mem_iff.1 hi))
  have hst : ∃ st0', waterStart E ncols starts' = .ok st0' ∧
      st0.parcels = starts.map (fun i => ⟨i, true, (List.replicate ncols 0).set 0 i⟩) ∧
      st0'.parcels = starts'.map (fun i => ⟨i, true, (List.replicate ncols 0).set 0 i⟩) ∧
      st0'.ncols = st0.ncols := by
    unfold waterStart at h2 ⊢
    split at h2
    · rename_i hc
      simp only [Except.ok.injEq] at h2
      subst h2
      refine ⟨_, if_pos ⟨?_, hc.2⟩, rfl, rfl, rfl⟩
      rw [List.all_eq_true] at hc ⊢
      exact fun i hi => hc.1 i (hperm.mem_iff.1 hi)
    · cases h2
  obtain ⟨st0', e1, e2, e3, e4⟩ := hst
  obtain ⟨t, st', log', f1, f2⟩ := waterLoop_renumbered π 0 st0 st st0' _ _ log n h3
    (by rw [e2]; simp [hlen]) (by rw [e3]; simp [c1])
    (fun j => by rw [e2, e3]; simp only [List.getElem?_map, c2]) e4
  have hd : drawN queueRng np (t0 ++ t) = (t0, t) := by
    have := drawN_queue t0 t
    rwa [d1, c1] at this
  have hrun : runWaterIteration queueRng E inlet np ncols (t0 ++ t) = .ok (st', log', n, []) := by
    unfold runWaterIteration
    rw [hd]
    simp only
    have : getStartIndices inlet (getInletWeights inlet : Fin m → K) t0 = some starts' := d2
    rw [this]
    simp only [e1]
    have := f1 []
    rwa [List.append_nil] at this
  refine ⟨queueRng, t0 ++ t, st', log', hrun, ?_, fun j => by unfold turns; rw [f2 j]⟩
  intro j
  obtain ⟨-, -, -, -, S, g1, g2, g3⟩ := run_rows hr
  obtain ⟨-, -, -, -, S', g1', g2', g3'⟩ := run_rows hrun
  rw [hd] at g1'
  have g4 : S' = starts' := by
    have : getStartIndices inlet (getInletWeights inlet : Fin m → K) t0 = some starts' := d2
    rw [this] at g1'; cases g1'; rfl
  have g5 : S = starts := by rw [h1] at g1; cases g1; rfl
  rw [← g3, ← g3', g4, g5]
  exact c2 j

/-! ## The water surface -/

/-- Sums of two accumulators. -/
def accAdd (a b : SfcAcc L W K) : SfcAcc L W K :=
  ⟨fun c => a.visit c + b.visit c, fun c => a.sum c + b.sum c⟩

lemma accAdd_right_comm (a b c : SfcAcc L W K) : accAdd (accAdd a b) c = accAdd (accAdd a c) b := by
  unfold accAdd
  congr 1 <;> · funext x; ring

lemma backStep_add (E : SfcEnv L W K) (nx c : Cell L W) (s : SfcState L W K) (a : SfcAcc L W K) :
    backStep E nx c { s with acc := accAdd a s.acc } =
      { backStep E nx c s with acc := accAdd a (backStep E nx c s).acc } := by
  unfold backStep accAdd
  simp only
  split_ifs <;>
  · simp only [SfcState.mk.injEq, SfcAcc.mk.injEq, true_and]
    refine ⟨?_, ?_⟩ <;>
    · funext x
      by_cases hx : x = c
      · subst hx; simp only [Function.update_self]; ring
      · simp only [Function.update_of_ne hx]

lemma backWalk_add (E : SfcEnv L W K) (a : SfcAcc L W K) : ∀ (cs : List (Cell L W)) (nx : Cell L W)
    (s : SfcState L W K), backWalk E nx cs { s with acc := accAdd a s.acc } =
      { backWalk E nx cs s with acc := accAdd a (backWalk E nx cs s).acc }
  | [], _, _ => rfl
  | c :: cs, nx, s => by
    unfold backWalk
    rw [backStep_add, backWalk_add E a cs c]

/-- What one parcel adds does not depend on what was added before. -/
lemma sfcParcel_add (E : SfcEnv L W K) (walk : List ℤ) (flag : Bool) (a : SfcAcc L W K) :
    sfcParcel E walk flag a = (sfcParcel E walk flag ⟨fun _ => 0, fun _ => 0⟩).map (accAdd a) := by
  have h0 : accAdd a ⟨fun _ => 0, fun _ => 0⟩ = a := by unfold accAdd; simp
  unfold sfcParcel
  cases walkCells L W walk with
  | error e => rfl
  | ok cs =>
    simp only
    cases cs.reverse with
    | nil => rfl
    | cons last rest =>
      simp only
      split_ifs with hc
      · have := backWalk_add E a rest last ⟨Function.update (fun _ => 0) last E.HSL, true, 0,
          ⟨fun _ => 0, fun _ => 0⟩⟩
        simp only [h0] at this
        rw [this]
        rfl
      · simp only [Except.map, h0]

lemma walkCells_error {walk : List ℤ} {e : Err} (h : walkCells L W walk = .error e) : e = .index := by
  induction walk with
  | nil => cases h
  | cons i is ih =>
    unfold walkCells at h
    split at h
    · split at h
      · cases h; rfl
      · split at h
        · cases h
        · cases h; rfl
    · exact ih h

lemma sfcParcel_error {E : SfcEnv L W K} {walk : List ℤ} {flag : Bool} {a : SfcAcc L W K} {e : Err}
    (h : sfcParcel E walk flag a = .error e) : e = .index := by
  unfold sfcParcel at h
  split at h
  · rename_i e' he
    cases h
    exact walkCells_error he
  · split at h
    · cases h; rfl
    · split_ifs at h

lemma sfcParcels_perm (E : SfcEnv L W K) {ps qs : List (List ℤ × Bool)} (h : ps.Perm qs)
    (a : SfcAcc L W K) : sfcParcels E ps a = sfcParcels E qs a := by
  induction h generalizing a with
  | nil => rfl
  | cons x _ ih =>
    unfold sfcParcels
    cases sfcParcel E x.1 x.2 a with
    | error e => rfl
    | ok a1 => exact ih a1
  | swap x y l =>
    obtain ⟨w, f⟩ := x
    obtain ⟨w', f'⟩ := y
    simp only [sfcParcels]
    rw [sfcParcel_add E w f a, sfcParcel_add E w' f' a]
    cases hx : sfcParcel E w f ⟨fun _ => 0, fun _ => 0⟩ with
    | error e =>
      have he := sfcParcel_error hx
      subst he
      cases hy : sfcParcel E w' f' ⟨fun _ => 0, fun _ => 0⟩ with
      | error e' => rw [sfcParcel_error hy]; rfl
      | ok b =>
        simp only [Except.map]
        rw [sfcParcel_add, hx]
        rfl
    | ok b =>
      cases hy : sfcParcel E w' f' ⟨fun _ => 0, fun _ => 0⟩ with
      | error e' =>
        simp only [Except.map]
        rw [sfcParcel_add, hy]
        rfl
      | ok b' =>
        simp only [Except.map]
        rw [sfcParcel_add E w f, sfcParcel_add E w' f', hx, hy]
        simp only [Except.map]
        rw [accAdd_right_comm]
  | trans _ _ ih1 ih2 => exact (ih1 a).trans (ih2 a)

variable [NeZero L] [NeZero W]

/-- C127: the water surface found from the parcels does not depend on their numbering. -/
theorem C127_surface (P : Params L W m K) (S : State L W K) {ps qs : List WParcel}
    (h : ps.Perm qs) : computeFreeSurface P S ps = computeFreeSurface P S qs := by
  unfold computeFreeSurface accumulateFreeSurface
  rw [sfcParcels_perm _ (h.map _)]

/-- C127: the whole water iteration has the same result when the parcels have other numbers. -/
theorem C127_iteration {g : Rng K σ} {g' : Rng K σ'} {P : Params L W m K} {S : State L W K}
    {it : ℕ} {w : Grid L W (Fin 9 → K)} {s s1 : σ} {s' s1' : σ'} {st st' : WState L W K}
    {log log' : List (List StepRec)} {n n' : ℕ} (hw : waterWeightArray P S = .ok w)
    (hr : runWaterIteration g (waterEnv P S w) (fun k => ((P.inlet k).val : ℤ)) P.NpWater S.ncols s =
      .ok (st, log, n, s1))
    (hr' : runWaterIteration g' (waterEnv P S w) (fun k => ((P.inlet k).val : ℤ)) P.NpWater S.ncols s' =
      .ok (st', log', n', s1'))
    {π : Equiv.Perm (Fin P.NpWater)} (h : Renumbered P.NpWater π st st' log log') :
    (waterIteration g' P it S s').map Prod.fst = (waterIteration g P it S s).map Prod.fst := by
  obtain ⟨-, h2, h3, -, h5⟩ := C127_order hr hr' h
  unfold waterIteration
  simp only [hw, hr, hr']
  rw [C127_surface P S h5, h2, h3]
  cases computeFreeSurface P S st.parcels <;> rfl

-- two parcels that part in the second step, and the same parcels under exchanged numbers: the draws
-- of the second run are those of the first with the parcels exchanged
example : (runWaterIteration listRng (exEnv exWetWeights 8) (fun _ : Fin 1 => 1) 2 4
    [1/2, 1/2, 1/2, 1/2, 1/10, 9/10]).map (fun r => (r.2.2.1, (turns r.2.1 0, turns r.2.1 1),
      pathEntry r.1 0 0, pathEntry r.1 1 0, r.1.flux.qw (2, 0))) =
    .ok (2, ([7, 6], [7, 8]), some 1, some 1, 4) := by
  decide +kernel

example : (runWaterIteration listRng (exEnv exWetWeights 8) (fun _ : Fin 1 => 1) 2 4
    [1/2, 1/2, 1/2, 1/2, 9/10, 1/10]).map (fun r => (r.2.2.1, (turns r.2.1 0, turns r.2.1 1),
      pathEntry r.1 0 0, pathEntry r.1 1 0, r.1.flux.qw (2, 0))) =
    .ok (2, ([7, 8], [7, 6]), some 1, some 1, 4) := by
  decide +kernel

end Verif.Props
