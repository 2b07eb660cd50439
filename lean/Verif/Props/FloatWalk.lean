import Verif.Props.FloatWater

/-!
# C100: where water parcels go in rounded arithmetic

The same steps as in exact arithmetic (C10, C11, C12), for all rounding functions.
-/

set_option linter.unusedSectionVars false

namespace Verif.Props

open Verif.Model Verif.Lemmas Verif.Spec

variable {K : Type*} [Field K] [LinearOrder K] [IsStrictOrderedRing K] [FloorRing K] {σ : Type*}
  {F D : Rounding K}

/-- What is true of the weights as they are computed: none is negative, at active cells one is positive,
and land has none. They need not add up to 1. -/
def AdmissibleR {L W : ℕ} (E : WEnv L W K) : Prop :=
  ∀ c, IsActive E c → (∀ d, 0 ≤ E.weights c d) ∧ (∃ d, 0 < E.weights c d) ∧
    ∀ d (n : Cell L W), (n.1.val : ℤ) = c.1.val + rowOff d → (n.2.val : ℤ) = c.2.val + colOff d →
      E.cellType n = -2 → E.weights c d = 0

lemma stepKindR_of {L W : ℕ} {g : Rng K σ} (hg : PositiveDraws g) {E : WEnv L W K}
    (hC : ClosedLayout E) (hA : AdmissibleR E) {step : ℕ} {p p' : WParcel} {r : StepRec}
    (hp : p.ind = 0 ∨ ∃ c : Cell L W, p.ind = position c ∧ IsActive E c)
    (h : StepOfR D g E step p p' r) :
    StepKind E r ∧ (p'.ind = 0 ∨ ∃ c : Cell L W, p'.ind = position c ∧ IsActive E c) := by
  have hW := hC.hW
  have hL0 := hC.hL0
  have hL := hC.hL
  obtain ⟨d, hch, hst⟩ := h
  obtain ⟨h1, h2, h3, h4, h5, h6, -, -⟩ := parcelStepR_fields hst
  have hzero : ∀ n : ℤ, n ≤ 0 → r.new1 = n → r.new2 = n ∧ r.looped = false := by
    intro n hn hr
    rw [hr, checkLoopR_not E step p.walk n (by rintro ⟨-, hh, -⟩; omega)] at h4
    simp only [Except.ok.injEq, Prod.mk.injEq] at h4
    exact ⟨h4.1.symm, h4.2.symm⟩
  have hafter0 : r.new2 = 0 → p'.ind = 0 := by
    intro hh; rw [h6]; unfold after; split <;> [rfl; exact hh]
  have hcase0 : d = 4 → r.new1 = 0 := by intro hd; rw [h3, hd]; simp [calcNewInd]
  rcases hch with ⟨h0, hd⟩ | ⟨h0, c, s, hc, hpick⟩
  · have e1 := hcase0 hd
    obtain ⟨e2, e3⟩ := hzero 0 le_rfl e1
    exact ⟨.finished (by rw [h1, h0]) (by rw [h2, hd]) e1 e2 e3, .inl (hafter0 e2)⟩
  · obtain ⟨c', hc', hact⟩ : ∃ c : Cell L W, p.ind = position c ∧ IsActive E c := by
      rcases hp with h | h
      · exact absurd h h0
      · exact h
    have hcc : c' = c := by
      have := flatCell_posOf c'
      rw [show posOf c' = p.ind from hc'.symm, hc] at this
      exact (Option.some.inj this).symm
    subst hcc
    obtain ⟨hnn, hex, hland⟩ := hA c' hact
    have hwpos := C97_positive_partial (R := D) (D := D) (fun _ h => h) hnn hex (hg s).1 hpick
    obtain ⟨ha1, ha2, ha3⟩ := hC.active c' hact
    by_cases hd : d = 4
    · have e1 := hcase0 hd
      obtain ⟨e2, e3⟩ := hzero 0 le_rfl e1
      exact ⟨.stay c' (by rw [h1, hc']) hact (hd ▸ hwpos) (by rw [h2, hd]) e1 e2 e3, .inl (hafter0 e2)⟩
    have hnew : r.new1 = position c' + (rowOff d * W + colOff d) := by
      rw [h3, calcNewInd, if_pos hd, hc']
      unfold ravelWalk
      rw [(walk_offsets d).1, (walk_offsets d).2]
    have hro := rowOff_bounds d
    have hco := colOff_bounds d
    by_cases hup : c'.1.val = 0 ∧ rowOff d = -1
    · -- upstream exit
      have hneg : r.new1 = (c'.2.val : ℤ) + colOff d - W := by
        rw [hnew, hup.2]; unfold position; rw [hup.1]; push_cast; ring
      have hlt : r.new1 < 0 := by omega
      obtain ⟨e2, e3⟩ := hzero r.new1 hlt.le rfl
      have hcell : ∃ t : Cell L W, flatCell L W r.new1 = some t ∧ t.1.val + 1 = L := by
        have hLW : (L : ℤ) * W = (L - 1) * W + W := by ring
        obtain ⟨t, ht, hpos⟩ := flatCell_neg (L := L) (W := W) hlt (by
          have : (0 : ℤ) ≤ (L - 1) * W := by
            have h' : (0 : ℤ) ≤ (L : ℤ) - 1 := by omega
            positivity
          omega)
        refine ⟨t, ht, ?_⟩
        have ht2 := t.2.isLt
        have ht1 := t.1.isLt
        by_contra hne
        have : (t.1.val : ℤ) ≤ L - 2 := by omega
        have : (W : ℤ) * t.1.val ≤ W * (L - 2) := by
          apply mul_le_mul_of_nonneg_left this; positivity
        have e : (W : ℤ) * (L - 2) = L * W - 2 * W := by ring
        omega
      obtain ⟨t, ht, htL⟩ := hcell
      have hb : r.bnd = true := by
        rw [e2] at h5
        unfold isBoundary at h5
        rw [ht] at h5
        simp only [Except.ok.injEq] at h5
        rw [← h5]; simp [hC.last t htL]
      refine ⟨.exit c' (by rw [h1, hc']) hact hup.1 (by rw [h2]; exact hup.2)
        (by rw [h2]; exact hwpos) hlt e2 e3 hb, .inl ?_⟩
      rw [h6]; simp [after, hb]
    · -- a move inside the domain
      have hrow : 0 ≤ (c'.1.val : ℤ) + rowOff d := by
        by_contra hcon
        exact hup ⟨by omega, by omega⟩
      obtain ⟨n, -, hn1, hn2⟩ := pyCell_nonneg (L := L) (W := W) (x := c'.1.val + rowOff d)
        (y := c'.2.val + colOff d) hrow (by omega) (by omega) (by omega)
      have hadj : Adjacent c' n := by
        refine ⟨?_, by rw [abs_le]; omega, by rw [abs_le]; omega⟩
        intro e
        subst e
        have := off_ne_zero hd
        omega
      have hnl : E.cellType n ≠ -2 := by
        intro hl
        rw [hland d n hn1 hn2 hl] at hwpos
        exact lt_irrefl _ hwpos
      have hpn : r.new1 = position n := by
        rw [hnew]; unfold position; rw [hn1, hn2]; ring
      have hpn' : r.new1 = posOf n := hpn
      have hbcell : ∀ t : Cell L W, r.new2 = posOf t → (r.bnd = true ↔ E.cellType t = -1) := by
        intro t ht
        rw [ht] at h5
        unfold isBoundary at h5
        rw [flatCell_posOf] at h5
        simp only [Except.ok.injEq] at h5
        rw [← h5]; simp
      have hnext : ∀ t : Cell L W, r.new2 = posOf t → E.cellType t ≠ -2 →
          (p'.ind = 0 ∨ ∃ c : Cell L W, p'.ind = position c ∧ IsActive E c) := by
        intro t ht htl
        by_cases hb : r.bnd = true
        · left; rw [h6]; simp [after, hb]
        · right
          refine ⟨t, ?_, ?_, htl⟩
          · rw [h6]; simp only [after, hb]; exact ht
          · intro hh; exact hb ((hbcell t ht).mpr hh)
      by_cases hrep : Repeats E step p.walk r.new1
      · obtain ⟨m, lp, hcl, hm⟩ := checkLoopR_safe (D := D) (E := E) (by omega : 2 ≤ L) (by omega : 2 ≤ W)
          hL0 hC.nrm step p.walk (n := r.new1)
          (by have := posOf_nonneg n; omega) (by rw [hpn']; exact posOf_lt n)
        -- the relocated cell
        have hcl2 : ∃ t : Cell L W, r.new2 = posOf t ∧ min ((L : ℤ) - 2) E.L0 ≤ t.1.val ∧
            t.1.val + 1 < L ∧ 0 < t.2.val ∧ t.2.val + 1 < W := by
          rw [hpn', checkLoopR_repeats E step p.walk n (hpn' ▸ hrep) (by omega)] at h4
          split at h4
          · simp only [Except.ok.injEq, Prod.mk.injEq] at h4
            obtain ⟨h4a, -⟩ := h4
            revert h4a
            generalize roundHalfEven (D.fl (D.fl (((n.1.val : K) - 1) /
              D.fl (E.nrm ((n.1.val : K) - 1) ((n.2.val : K) - (E.CTR : K)))) * 5)) = a
            generalize roundHalfEven (D.fl (D.fl (((n.2.val : K) - (E.CTR : K)) /
              D.fl (E.nrm ((n.1.val : K) - 1) ((n.2.val : K) - (E.CTR : K)))) * 5)) = b
            intro h4a
            obtain ⟨t, -, ht1, ht2⟩ := pyCell_nonneg (L := L) (W := W)
              (x := min ((L : ℤ) - 2) (max (n.1.val + a) E.L0))
              (y := min ((W : ℤ) - 2) (max 1 (n.2.val + b)))
              (by omega) (by omega) (by omega) (by omega)
            refine ⟨t, ?_, by omega, by omega, by omega, by omega⟩
            rw [← h4a]; unfold posOf; rw [ht1, ht2]
          · cases h4
        obtain ⟨t, ht, ht1, ht2, ht3, ht4⟩ := hcl2
        have htl : E.cellType t ≠ -2 := hC.land t (by omega)
        exact ⟨.relocate c' n t (by rw [h1, hc']) hact hadj hnl (by rw [h2]; exact hd) hpn ht
          (by omega) ht2 ht3 ht4 htl (hbcell t ht), hnext t ht htl⟩
      · rw [checkLoopR_not E step p.walk r.new1 hrep] at h4
        simp only [Except.ok.injEq, Prod.mk.injEq] at h4
        have e2 : r.new2 = posOf n := by rw [← h4.1]; exact hpn'
        exact ⟨.move c' n (by rw [h1, hc']) hact hadj hnl (by rw [h2]; exact hd) hpn e2 h4.2.symm
          (hbcell n e2), hnext n e2 hnl⟩

/-- The setting of the walk theorems: an iteration that was run. -/
structure WaterRunR {L W m : ℕ} (F D : Rounding K) (g : Rng K σ) (E : WEnv L W K) (inlet : Fin m → ℤ) (np ncols : ℕ)
    (s : σ) (st : WState L W K) (log : List (List StepRec)) (n : ℕ) (s' : σ) : Prop where
  run : runWaterIterationR F D g E inlet np ncols s = .ok (st, log, n, s')
  draws : PositiveDraws g
  layout : ClosedLayout E
  weights : AdmissibleR E
  hm : 0 < m
  inlet : ∀ k, ∃ c : Cell L W, inlet k = position c ∧ IsActive E c

lemma startsR_of_run {L W m : ℕ} {g : Rng K σ} (hg : PositiveDraws g) {E : WEnv L W K}
    {inlet : Fin m → ℤ} {np ncols : ℕ} {s : σ} {res} (hm : 0 < m)
    (h : runWaterIterationR F D g E inlet np ncols s = .ok res) :
    ∃ starts st, waterStartR F D E ncols starts = .ok st ∧ starts.length = np ∧
      (∀ i ∈ starts, ∃ k, i = inlet k) ∧ waterLoopR F D g E 0 st (drawN g np s).2 = .ok res := by
  obtain ⟨starts, st, h1, h2, h3⟩ := runWaterR_ok g E inlet np ncols s res h
  obtain ⟨l, hl, hlen, hmem⟩ := startsR_exist (D := D) hg inlet hm np s
  rw [h1] at hl
  cases hl
  exact ⟨starts, st, h2, hlen, hmem, h3⟩

lemma runR_kinds {L W m : ℕ} {g : Rng K σ} {E : WEnv L W K} {inlet : Fin m → ℤ} {np ncols : ℕ}
    {s : σ} {st : WState L W K} {log : List (List StepRec)} {n : ℕ} {s' : σ}
    (hr : WaterRunR F D g E inlet np ncols s st log n s') :
    (∀ k (hk : k < log.length), ∀ r ∈ log[k], StepKind E r) ∧
    (∀ p ∈ st.parcels, p.ind = 0 ∨ ∃ c : Cell L W, p.ind = position c ∧ IsActive E c) := by
  obtain ⟨starts, st0, h2, -, hmem, h3⟩ := startsR_of_run hr.draws hr.hm hr.run
  have hI0 : ∀ p ∈ st0.parcels, p.ind = 0 ∨ ∃ c : Cell L W, p.ind = position c ∧ IsActive E c := by
    intro p hp
    obtain ⟨-, -, -, -, -, -, -, -, hmap, -⟩ := waterStartR_ok h2
    have : p.ind ∈ starts := by rw [← hmap]; exact List.mem_map_of_mem hp
    obtain ⟨k, hk⟩ := hmem _ this
    rw [hk]; exact .inr (hr.inlet k)
  obtain ⟨a, -, -, -, b⟩ := waterLoopR_induct g E
    (fun _ st => ∀ p ∈ st.parcels, p.ind = 0 ∨ ∃ c : Cell L W, p.ind = position c ∧ IsActive E c)
    (fun _ recs => ∀ r ∈ recs, StepKind E r) (by
      intro step st s st' recs s' hI _ _ hst
      obtain ⟨-, -, hf, -⟩ := waterStepR_ok g E (step + 1) st st' recs s s' hst
      have hI' := checkSize_parcels E.stepmax (step + 1) st
        (fun i => i = 0 ∨ ∃ c : Cell L W, i = position c ∧ IsActive E c) hI
      constructor
      · intro p' hp'
        obtain ⟨p, hp, r, -, hso⟩ := hf.mem₂ p' hp'
        exact (stepKindR_of hr.draws hr.layout hr.weights (hI' p hp) hso).2
      · intro r hrm
        obtain ⟨p, hp, p', -, hso⟩ := hf.mem₃ r hrm
        exact (stepKindR_of hr.draws hr.layout hr.weights (hI' p hp) hso).1) 0 st0 st _ s' log n hI0 h3
  exact ⟨fun k hk => b k hk, a⟩

/-- C100: every step of every parcel is one of five kinds: finished, staying (which ends the
routing), a move to a neighbouring domain cell that is not land, such a move followed by a
relocation inside the domain, or an exit upstream from the first row (which ends the routing).
For all draws, weights that are distributions avoiding land, and numbers of steps. -/
theorem C100_step_kinds {L W m : ℕ} {g : Rng K σ} {E : WEnv L W K} {inlet : Fin m → ℤ}
    {np ncols : ℕ} {s : σ} {st : WState L W K} {log : List (List StepRec)} {n : ℕ} {s' : σ}
    (hr : WaterRunR F D g E inlet np ncols s st log n s') (k : ℕ) (hk : k < log.length) :
    ∀ r ∈ log[k], StepKind E r :=
  (runR_kinds hr).1 k hk

/-- C100: an iteration takes at most `stepmax` steps, one log entry per step, and it ends because
`stepmax` is reached or because no parcel is active. Every step taken had an active parcel. -/
theorem C100_terminates {L W m : ℕ} {g : Rng K σ} {E : WEnv L W K} {inlet : Fin m → ℤ}
    {np ncols : ℕ} {s : σ} {st : WState L W K} {log : List (List StepRec)} {n : ℕ} {s' : σ}
    (hr : WaterRunR F D g E inlet np ncols s st log n s') :
    n ≤ E.stepmax ∧ log.length = n ∧ (n = E.stepmax ∨ ∀ p ∈ st.parcels, p.ind = 0) ∧
      ∀ k (hk : k < log.length), ∃ r ∈ log[k], 0 < r.cur := by
  obtain ⟨starts, st0, h2, -, hmem, h3⟩ := startsR_of_run hr.draws hr.hm hr.run
  obtain ⟨-, hnc, hncols, hRect, hpind, hpflag, hw0, hwz, hmap, -⟩ := waterStartR_ok h2
  obtain ⟨-, a, b, c, -⟩ := waterLoopR_induct g E (fun _ _ => True) (fun _ _ => True)
    (fun _ _ _ _ _ _ _ _ _ _ => ⟨trivial, trivial⟩) 0 st0 st _ s' log n trivial h3
  have hle := b (Nat.zero_le _)
  refine ⟨hle, by omega, ?_, ?_⟩
  · rcases Nat.lt_or_ge n E.stepmax with hlt | hge
    · right
      have hsum : ¬ (st.parcels.map (·.ind)).sum > 0 := fun h => c ⟨h, hlt⟩
      have hnn : ∀ p ∈ st.parcels, 0 ≤ p.ind := by
        intro p hp
        rcases (runR_kinds hr).2 p hp with h | ⟨c, h, -⟩
        · rw [h]
        · rw [h]; unfold position; positivity
      intro p hp
      by_contra hne
      apply hsum
      have h1 : p.ind ≤ (st.parcels.map (·.ind)).sum :=
        List.single_le_sum (by
          intro x hx
          obtain ⟨q, hq, rfl⟩ := List.mem_map.mp hx
          exact hnn q hq) _ (List.mem_map_of_mem hp)
      have := hnn p hp
      omega
    · left; omega
  · intro k hk
    obtain ⟨stk, sk, stk', sk', hstk, hRk, -, hsum, -, -⟩ := waterLoopR_at g E 0 st0 st _ s' log
      n hRect (by omega) (fun j i v hi => hwz j i v hi) h3 k hk
    obtain ⟨-, -, -, -, -, -, hcur, -, -⟩ := waterStepR_walk g E _ stk stk' _ sk sk' hRk hstk
    have hex : ∃ p ∈ stk.parcels, 0 < p.ind := by
      by_contra hcon
      push Not at hcon
      have hle : ∀ l : List WParcel, (∀ p ∈ l, p.ind ≤ 0) → (l.map (·.ind)).sum ≤ 0 := by
        intro l
        induction l with
        | nil => intro _; simp
        | cons q l ih =>
          intro hq
          have h1 := hq q List.mem_cons_self
          have h2 := ih (fun p hp => hq p (List.mem_cons_of_mem _ hp))
          simp only [List.map_cons, List.sum_cons]; omega
      have := hle _ hcon
      omega
    obtain ⟨p, hp, hpos⟩ := hex
    obtain ⟨j, hj, rfl⟩ := List.mem_iff_getElem.mp hp
    have := hcur j
    rw [List.getElem?_eq_getElem hj] at this
    cases hq : (log[k])[j]? with
    | none => rw [hq] at this; simp at this
    | some r =>
      rw [hq] at this
      simp only [Option.map_some, Option.some.injEq] at this
      exact ⟨r, List.mem_of_getElem? hq, by rw [this]; exact hpos⟩

/-- C100: a parcel that reached an edge cell, chose to stay, or left upstream is never moved again:
in all later steps it has no direction and its records are 0. For all draws, weights and domains:
no hypothesis beyond the run itself. -/
theorem C100_finished_stays {L W m : ℕ} {g : Rng K σ} {E : WEnv L W K} {inlet : Fin m → ℤ}
    {np ncols : ℕ} {s : σ} {st : WState L W K} {log : List (List StepRec)} {n : ℕ} {s' : σ}
    (hr : runWaterIterationR F D g E inlet np ncols s = .ok (st, log, n, s'))
    (j k : ℕ) (hk : k < log.length) (r : StepRec) (hrj : (log[k])[j]? = some r)
    (hfin : r.bnd = true ∨ r.new2 = 0) (k' : ℕ) (hk' : k' < log.length) (hlt : k < k') :
    ∃ r', (log[k'])[j]? = some r' ∧ r'.cur = 0 ∧ r'.dir = 4 ∧ r'.new1 = 0 ∧ r'.new2 = 0 ∧
      r'.looped = false ∧ pathEntry st j (k' + 1) = some 0 := by
  obtain ⟨starts, st0, h1, h2, h3⟩ := runWaterR_ok g E inlet np ncols s _ hr
  obtain ⟨-, hnc, hncols, hRect, -⟩ := waterStartR_ok h2
  obtain ⟨-, -, -, -, hrec, -, hchain, -, -⟩ :=
    waterLoopR_walk g E 0 st0 st _ s' log n hRect (by omega) h3
  obtain ⟨-, -, -, -, hper⟩ := waterLoopR_induct g E (fun _ _ => True)
    (fun _ recs => ∀ r ∈ recs, r.cur = 0 → r.dir = 4 ∧ r.new1 = 0 ∧ r.new2 = 0 ∧ r.looped = false)
    (by
      intro step st s st' recs s' _ _ _ hst
      refine ⟨trivial, fun r hrm hcur => ?_⟩
      obtain ⟨-, -, hf, -⟩ := waterStepR_ok g E (step + 1) st st' recs s s' hst
      obtain ⟨p, hp, p', -, d, hch, hd⟩ := hf.mem₃ r hrm
      obtain ⟨e1, e2, e3, e4, -⟩ := parcelStepR_fields hd
      have hd4 : d = 4 := hch.zero (by rw [← e1]; exact hcur)
      have hn1 : r.new1 = 0 := by rw [e3, hd4]; simp [calcNewInd]
      rw [hn1, checkLoopR_not E (step + 1) p.walk 0 (by rintro ⟨-, hh, -⟩; omega)] at e4
      simp only [Except.ok.injEq, Prod.mk.injEq] at e4
      exact ⟨by rw [e2, hd4], hn1, e4.1.symm, e4.2.symm⟩) 0 st0 st _ s' log n trivial h3
  have key : ∀ d, ∀ hkd : k + 1 + d < log.length, ∃ r', (log[k + 1 + d])[j]? = some r' ∧ r'.cur = 0 := by
    intro d
    induction d with
    | zero =>
      intro hkd
      have := hchain (k + 1) hkd j
      rw [if_neg (by omega)] at this
      simp only [Nat.add_sub_cancel, List.getElem?_eq_getElem hk, Option.bind_some, hrj,
        Option.map_some] at this
      cases hq : (log[k + 1 + 0])[j]? with
      | none => rw [hq] at this; simp at this
      | some r' =>
        rw [hq] at this
        simp only [Option.map_some, Option.some.injEq] at this
        refine ⟨r', rfl, ?_⟩
        rw [this]
        unfold after
        split
        · rfl
        · rename_i hb
          rcases hfin with h | h
          · exact absurd h hb
          · exact h
    | succ d ih =>
      intro hkd
      obtain ⟨r1, hr1, hc1⟩ := ih (by omega)
      have := hchain (k + 1 + (d + 1)) hkd j
      rw [if_neg (by omega), show k + 1 + (d + 1) - 1 = k + 1 + d by omega,
        List.getElem?_eq_getElem (show k + 1 + d < log.length by omega)] at this
      simp only [Option.bind_some, hr1, Option.map_some] at this
      cases hq : (log[k + 1 + (d + 1)])[j]? with
      | none => rw [hq] at this; simp at this
      | some r' =>
        rw [hq] at this
        simp only [Option.map_some, Option.some.injEq] at this
        refine ⟨r', rfl, ?_⟩
        rw [this]
        have h0 := (hper (k + 1 + d) (by omega) r1 (List.mem_of_getElem? hr1) hc1).2.2.1
        unfold after
        split
        · rfl
        · exact h0
  obtain ⟨d, rfl⟩ : ∃ d, k' = k + 1 + d := ⟨k' - (k + 1), by omega⟩
  obtain ⟨r', hr', hc'⟩ := key d hk'
  obtain ⟨p1, p2, p3, p4⟩ := hper _ hk' r' (List.mem_of_getElem? hr') hc'
  refine ⟨r', hr', hc', p1, p2, p3, p4, ?_⟩
  have := hrec (k + 1 + d) hk' j
  rw [show 0 + 1 + (k + 1 + d) = k + 1 + d + 1 by omega, hr'] at this
  rw [pathEntry_eq, this]
  simp [recorded, p3]

/-- C100: with `stepmax` at least 4 the record has room for every step, whatever its initial
width (kept from the iterations before); the entry of each step is what the log says, the start
is kept, and all entries after the last step are 0. -/
theorem C100_record {L W m : ℕ} {g : Rng K σ} {E : WEnv L W K} {inlet : Fin m → ℤ}
    {np ncols : ℕ} {s : σ} {st : WState L W K} {log : List (List StepRec)} {n : ℕ} {s' : σ}
    (hr : runWaterIterationR F D g E inlet np ncols s = .ok (st, log, n, s')) :
    (∀ p ∈ st.parcels, p.walk.length = st.ncols) ∧ n < st.ncols ∧ ncols ≤ st.ncols ∧
    (∃ starts, getStartIndicesR D inlet (getInletWeights inlet : Fin m → K) (drawN g np s).1 =
      some starts ∧ ∀ j, pathEntry st j 0 = starts[j]?) ∧
    (∀ k (hk : k < log.length) (j : ℕ), pathEntry st j (k + 1) =
      ((log[k])[j]?).map (fun r => if r.looped = true ∧ r.bnd = true then 0 else r.new2)) ∧
    (∀ j i v, n < i → pathEntry st j i = some v → v = 0) := by
  obtain ⟨starts, st0, h1, h2, h3⟩ := runWaterR_ok g E inlet np ncols s _ hr
  obtain ⟨-, hnc, hncols, hRect, -, -, hw0, hwz, -⟩ := waterStartR_ok h2
  obtain ⟨a1, a2, a3, a4, a5, a6, -⟩ := waterLoopR_walk g E 0 st0 st _ s' log n hRect (by omega) h3
  refine ⟨a1, a2, by omega, ⟨starts, h1, fun j => ?_⟩, fun k hk j => ?_, fun j i v hi hv => ?_⟩
  · rw [pathEntry_eq, a4 j 0 le_rfl, hw0]
  · rw [pathEntry_eq, show k + 1 = 0 + 1 + k by omega, a5 k hk j]
    cases (log[k])[j]? with
    | none => rfl
    | some r => simp [recorded]
  · rw [pathEntry_eq] at hv
    exact a6 (fun j i v hi => hwz j i v hi) j i v hi hv

/-- Positive entries of the record are positions of cells. -/
lemma entryR_cell {L W m : ℕ} [NeZero L] [NeZero W] {g : Rng K σ} {E : WEnv L W K} {inlet : Fin m → ℤ} {np ncols : ℕ}
    {s : σ} {st : WState L W K} {log : List (List StepRec)} {n : ℕ} {s' : σ}
    (hr : WaterRunR F D g E inlet np ncols s st log n s') (j i : ℕ) (v : ℤ)
    (hv : pathEntry st j i = some v) (hpos : 0 < v) : ∃ c : Cell L W, v = position c := by
  obtain ⟨-, -, -, ⟨starts, h1, h2⟩, h3, h4⟩ := C100_record hr.run
  obtain ⟨hn, hlen, -⟩ := C100_terminates hr
  cases i with
  | zero =>
    rw [h2] at hv
    obtain ⟨starts', st0, -, -, hmem, -⟩ := startsR_of_run hr.draws hr.hm hr.run
    obtain ⟨l, hl, -, hmem⟩ := startsR_exist (D := D) hr.draws inlet hr.hm np s
    rw [h1] at hl
    cases hl
    obtain ⟨k, hk⟩ := hmem v (List.mem_of_getElem? hv)
    obtain ⟨c, hc, -⟩ := hr.inlet k
    exact ⟨c, by rw [hk, hc]⟩
  | succ k =>
    by_cases hk : k < log.length
    · rw [h3 k hk j] at hv
      cases hrec : (log[k])[j]? with
      | none => rw [hrec] at hv; simp at hv
      | some r =>
        rw [hrec] at hv
        simp only [Option.map_some, Option.some.injEq] at hv
        split_ifs at hv
        · omega
        · rcases C100_step_kinds hr k hk r (List.mem_of_getElem? hrec) with
            ⟨-, -, -, h, -⟩ | ⟨c, -, -, -, -, -, h, -⟩ | ⟨c, n, -, -, -, -, -, -, h, -⟩ |
            ⟨c, n, t, -, -, -, -, -, -, h, -⟩ | ⟨c, -, -, -, -, -, h, h', -⟩
          · omega
          · omega
          · exact ⟨n, by rw [← hv, h]⟩
          · exact ⟨t, by rw [← hv, h]⟩
          · omega
    · have := h4 j (k + 1) v (by omega) hv
      omega

/-- C100: what the water routing records are paths, as the free surface computation expects them:
the theorems on visits and elevations apply to every routing. -/
theorem C100_routed_walks {L W m : ℕ} [NeZero L] [NeZero W] {g : Rng K σ} {E : WEnv L W K} {inlet : Fin m → ℤ} {np ncols : ℕ}
    {s : σ} {st : WState L W K} {log : List (List StepRec)} {n : ℕ} {s' : σ}
    (hr : WaterRunR F D g E inlet np ncols s st log n s') :
    ∃ css : List (List (Cell L W)), Walked (st.parcels.map (fun p => (p.walk, p.flag))) css := by
  apply forall_exists₂
  intro a ha
  simp only [List.mem_map] at ha
  obtain ⟨p, hp, rfl⟩ := ha
  obtain ⟨cs, hcs⟩ := exists_cells (L := L) (W := W) (p.walk.filter (fun i => decide (0 < i))) (by
    intro i hi
    simp only [List.mem_filter, decide_eq_true_eq] at hi
    obtain ⟨j, k, hjk⟩ := walk_mem_entry hp hi.1
    exact entryR_cell hr j k i hjk hi.2)
  refine ⟨cs, hcs, ?_⟩
  rintro rfl
  -- the first entry is positive
  obtain ⟨-, -, -, ⟨starts, h1, h2⟩, -, -⟩ := C100_record hr.run
  obtain ⟨j, hj⟩ := List.mem_iff_getElem?.mp hp
  obtain ⟨l, hl, -, hmem⟩ := startsR_exist (D := D) hr.draws inlet hr.hm np s
  rw [h1] at hl
  cases hl
  obtain ⟨hlen, hn0, -⟩ := C100_record hr.run
  have hne : 0 < p.walk.length := by rw [hlen p hp]; omega
  have h0 : pathEntry st j 0 = some p.walk[0] := by
    unfold pathEntry; rw [hj]; simp [hne]
  rw [h2 j] at h0
  obtain ⟨k, hk⟩ := hmem _ (List.mem_of_getElem? h0)
  obtain ⟨c, hc, hact⟩ := hr.inlet k
  have hpos := position_pos_of_active hr.layout hact
  have : p.walk[0] ∈ p.walk.filter (fun i => decide (0 < i)) := by
    simp only [List.mem_filter, List.getElem_mem, decide_eq_true_eq, true_and]
    rw [hk, hc]; exact hpos
  rw [hcs] at this
  simp at this

end Verif.Props
