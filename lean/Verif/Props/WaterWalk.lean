import Verif.Lemmas.WaterWalk
import Verif.Props.Pick
import Verif.Props.Weights

/-!
# C10 to C14: the walks of water parcels

Specification vocabulary of this file: a cell `c` has the flat position `W * row + column`;
`pathEntry st j i` is what the path record of parcel `j` holds for step `i` (0 is the start);
the log lists, for every step, what each parcel did.
-/

set_option linter.unusedSectionVars false

namespace Verif.Props

open Verif.Model Verif.Lemmas

variable {K : Type*} [Field K] [LinearOrder K] [IsStrictOrderedRing K] [FloorRing K] {σ : Type*}

/-- Specification: flat position of a cell. -/
def position {L W : ℕ} (c : Cell L W) : ℤ := (W : ℤ) * c.1.val + c.2.val

/-- Specification: neighbouring cells (the eight around a cell). -/
def Adjacent {L W : ℕ} (a b : Cell L W) : Prop :=
  a ≠ b ∧ |(a.1.val : ℤ) - b.1.val| ≤ 1 ∧ |(a.2.val : ℤ) - b.2.val| ≤ 1

instance {L W : ℕ} (a b : Cell L W) : Decidable (Adjacent a b) := by
  unfold Adjacent; infer_instance

/-- Specification: entry of the path record. -/
def pathEntry {L W : ℕ} (st : WState L W K) (j i : ℕ) : Option ℤ :=
  match st.parcels[j]? with
  | none => none
  | some p => p.walk[i]?

lemma pathEntry_eq {L W : ℕ} (st : WState L W K) (j i : ℕ) : pathEntry st j i = walkAt st j i := by
  unfold pathEntry walkAt
  cases st.parcels[j]? <;> rfl

/-- A cell that a parcel can be on while it is being routed. -/
def IsActive {L W : ℕ} (E : WEnv L W K) (c : Cell L W) : Prop :=
  E.cellType c ≠ -1 ∧ E.cellType c ≠ -2

/-- The domain as `create_domain` lays it out (see C52): the cells that are neither edge nor land
keep away from the last row and from the side columns, the last row is edge, and there is no land
beyond the inlet rows. -/
structure ClosedLayout {L W : ℕ} (E : WEnv L W K) : Prop where
  hL0 : 2 ≤ E.L0
  hL : E.L0 + 2 ≤ L
  active : ∀ c, IsActive E c → c.1.val + 1 < L ∧ 0 < c.2.val ∧ c.2.val + 1 < W
  last : ∀ c : Cell L W, c.1.val + 1 = L → E.cellType c = -1
  land : ∀ c : Cell L W, E.L0 ≤ c.1.val → E.cellType c ≠ -2
  hW : 3 ≤ W
  nrm : ∀ x y, E.nrm x y = 0 → x = 0 ∧ y = 0

/-- What C06 and C07 say about the weights: distributions at active cells, with no chance of
stepping onto land. -/
def AdmissibleWeights {L W : ℕ} (E : WEnv L W K) : Prop :=
  ∀ c, IsActive E c → IsDistribution (E.weights c) ∧
    ∀ d (n : Cell L W), (n.1.val : ℤ) = c.1.val + rowOff d → (n.2.val : ℤ) = c.2.val + colOff d →
      E.cellType n = -2 → E.weights c d = 0

/-- Draws of the generator are in (0, 1]. -/
def PositiveDraws (g : Rng K σ) : Prop := ∀ s, 0 < (g.next s).1 ∧ (g.next s).1 ≤ 1

/-! ## C10 -/

/-- C10: no index ever leaves the arrays. For all weights that are not negative and all draws in
[0, 1], one water iteration finishes without an error. -/
theorem C10_no_index_error {L W m : ℕ} (g : Rng K σ) (hg : ∀ s, 0 ≤ (g.next s).1 ∧ (g.next s).1 ≤ 1)
    (E : WEnv L W K) (hL : 2 ≤ L) (hW : 2 ≤ W) (hL0 : 2 ≤ E.L0) (hstep : 4 ≤ E.stepmax)
    (hweights : ∀ c d, 0 ≤ E.weights c d) (hnrm : ∀ x y, E.nrm x y = 0 → x = 0 ∧ y = 0)
    (hedge : ∀ c : Cell L W, E.cellType c ≠ -1 →
      c.1.val + 1 < L ∧ (c.1.val + 2 = L → c.2.val + 1 < W))
    (hm : 0 < m) (inlet : Fin m → ℤ)
    (hin : ∀ k, ∃ c : Cell L W, inlet k = position c ∧ E.cellType c ≠ -1)
    (np ncols : ℕ) (hn : 0 < ncols) (s : σ) :
    ∃ res, runWaterIteration g E inlet np ncols s = .ok res := by
  have hS : SafeLayout E := ⟨hL, hW, hL0, hedge, hweights, hnrm⟩
  have hdraw : ∀ n s, ∀ r ∈ (drawN g n s).1, 0 ≤ r ∧ r ≤ 1 := by
    intro n
    induction n with
    | zero => intro s r hr; simp [drawN] at hr
    | succ n ih =>
      intro s r hr
      simp only [drawN, List.mem_cons] at hr
      rcases hr with rfl | hr
      · exact hg s
      · exact ih _ r hr
  have : Nonempty (Fin m) := ⟨⟨0, hm⟩⟩
  obtain ⟨starts, hst, -, hmem⟩ := C05_start_indices hm inlet (getInletWeights inlet : Fin m → K)
    (fun _ => by simp [getInletWeights])
    (by unfold total; simp only [getInletWeights, Finset.sum_const, Finset.card_univ,
          Fintype.card_fin, nsmul_eq_mul, mul_one]; exact_mod_cast hm)
    (drawN g np s).1 (hdraw np s)
  have hpos : ∀ i ∈ starts, ∃ c : Cell L W, i = posOf c ∧ E.cellType c ≠ -1 := by
    intro i hi
    obtain ⟨k, rfl⟩ := hmem i hi
    exact hin k
  have hall : starts.all (fun i => (flatCell L W i).isSome) = true := by
    rw [List.all_eq_true]
    intro i hi
    obtain ⟨c, rfl, -⟩ := hpos i hi
    simp [flatCell_posOf]
  unfold runWaterIteration
  simp only [hst]
  have hws : waterStart E ncols starts = .ok {
      flux := {
        qx := fancyAdd (fun _ => 0) starts 1
        qy := fancyAdd (fun _ => 0) starts 0
        qw := fancyAdd (fun _ => 0) starts (E.Qp / E.dx / 2) }
      parcels := starts.map (fun i => ⟨i, true, (List.replicate ncols 0).set 0 i⟩)
      ncols := ncols } := by
    unfold waterStart; rw [if_pos ⟨hall, hn⟩]
  rw [hws]
  obtain ⟨st', log, n, s', h⟩ := waterLoop_total g (fun s => (hg s).2) hS hstep 0 {
      flux := {
        qx := fancyAdd (fun _ => 0) starts 1
        qy := fancyAdd (fun _ => 0) starts 0
        qw := fancyAdd (fun _ => 0) starts (E.Qp / E.dx / 2) }
      parcels := starts.map (fun i => ⟨i, true, (List.replicate ncols 0).set 0 i⟩)
      ncols := ncols } hn (by
        intro p hp
        simp only [List.mem_map] at hp
        obtain ⟨i, hi, rfl⟩ := hp
        exact .inr (hpos i hi)) (drawN g np s).2
  exact ⟨_, h⟩

/-- What a single step may do (used by the theorems below). -/
inductive StepKind {L W : ℕ} (E : WEnv L W K) (r : StepRec) : Prop
  /-- the parcel had finished before and stays finished -/
  | finished : r.cur = 0 → r.dir = 4 → r.new1 = 0 → r.new2 = 0 → r.looped = false → StepKind E r
  /-- the parcel chose to stay, which ends its routing -/
  | stay (c : Cell L W) : r.cur = position c → IsActive E c → 0 < E.weights c 4 → r.dir = 4 →
      r.new1 = 0 → r.new2 = 0 → r.looped = false → StepKind E r
  /-- the parcel moved to a neighbouring cell that is not land, and was left there -/
  | move (c n : Cell L W) : r.cur = position c → IsActive E c → Adjacent c n →
      E.cellType n ≠ -2 → r.dir ≠ 4 → r.new1 = position n → r.new2 = position n →
      r.looped = false → (r.bnd = true ↔ E.cellType n = -1) → StepKind E r
  /-- the parcel moved to a neighbouring cell and was relocated beyond the inlet rows -/
  | relocate (c n t : Cell L W) : r.cur = position c → IsActive E c → Adjacent c n →
      E.cellType n ≠ -2 → r.dir ≠ 4 → r.new1 = position n → r.new2 = position t →
      E.L0 ≤ t.1.val → t.1.val + 1 < L → 0 < t.2.val → t.2.val + 1 < W → E.cellType t ≠ -2 →
      (r.bnd = true ↔ E.cellType t = -1) → StepKind E r
  /-- the parcel left the domain upstream, which ends its routing -/
  | exit (c : Cell L W) : r.cur = position c → IsActive E c → c.1.val = 0 → rowOff r.dir = -1 →
      0 < E.weights c r.dir → r.new1 < 0 → r.new2 = r.new1 → r.looped = false → r.bnd = true →
      StepKind E r

lemma walk_offsets (d : Fin 9) : jwalk d = rowOff d ∧ iwalk d = colOff d := by
  fin_cases d <;> decide

lemma rowOff_bounds (d : Fin 9) : -1 ≤ rowOff d ∧ rowOff d ≤ 1 := by fin_cases d <;> decide
lemma colOff_bounds (d : Fin 9) : -1 ≤ colOff d ∧ colOff d ≤ 1 := by fin_cases d <;> decide
lemma off_ne_zero {d : Fin 9} (h : d ≠ 4) : rowOff d ≠ 0 ∨ colOff d ≠ 0 := by
  revert h; fin_cases d <;> decide

lemma pick_positive {w : Fin 9 → K} (hw : IsDistribution w) {r : K} (hr : 0 < r) {d : Fin 9}
    (h : randomPick w r = some d) : 0 < w d := by
  apply C04_positive_weight_partial w hw.1 _ r hr d h
  unfold total; rw [hw.2]; exact one_pos

lemma stepKind_of {L W : ℕ} {g : Rng K σ} (hg : PositiveDraws g) {E : WEnv L W K}
    (hC : ClosedLayout E) (hA : AdmissibleWeights E) {step : ℕ} {p p' : WParcel} {r : StepRec}
    (hp : p.ind = 0 ∨ ∃ c : Cell L W, p.ind = position c ∧ IsActive E c)
    (h : StepOf g E step p p' r) :
    StepKind E r ∧ (p'.ind = 0 ∨ ∃ c : Cell L W, p'.ind = position c ∧ IsActive E c) := by
  have hW := hC.hW
  have hL0 := hC.hL0
  have hL := hC.hL
  obtain ⟨d, hch, hst⟩ := h
  obtain ⟨h1, h2, h3, h4, h5, h6, -, -⟩ := parcelStep_fields hst
  have hzero : ∀ n : ℤ, n ≤ 0 → r.new1 = n → r.new2 = n ∧ r.looped = false := by
    intro n hn hr
    rw [hr, checkLoop_not E step p.walk n (by rintro ⟨-, hh, -⟩; omega)] at h4
    simp only [Except.ok.injEq, Prod.mk.injEq] at h4
    exact ⟨h4.1.symm, h4.2.symm⟩
  have hafter0 : r.new2 = 0 → p'.ind = 0 := by
    intro hh; rw [h6]; unfold after; split <;> [rfl; exact hh]
  have hcase0 : d = 4 → r.new1 = 0 := by intro hd; rw [h3, hd]; simp [calcNewInd]
  rcases hch with ⟨h0, hd⟩ | ⟨h0, c, s, hc, hpick⟩
  · have e1 := hcase0 hd
    obtain ⟨e2, e3⟩ := hzero 0 le_rfl e1
    exact ⟨.finished (by rw [h1, h0]) (by rw [h2, hd]) e1 e2 e3, .inl (hafter0 e2)⟩
  · obtain ⟨c', hc', hact⟩ : ∃ c : Cell L W, p.ind = position c ∧ IsActive E c := by
      rcases hp with h | h
      · exact absurd h h0
      · exact h
    have hcc : c' = c := by
      have := flatCell_posOf c'
      rw [show posOf c' = p.ind from hc'.symm, hc] at this
      exact (Option.some.inj this).symm
    subst hcc
    obtain ⟨hdist, hland⟩ := hA c' hact
    have hwpos := pick_positive hdist (hg s).1 hpick
    obtain ⟨ha1, ha2, ha3⟩ := hC.active c' hact
    by_cases hd : d = 4
    · have e1 := hcase0 hd
      obtain ⟨e2, e3⟩ := hzero 0 le_rfl e1
      exact ⟨.stay c' (by rw [h1, hc']) hact (hd ▸ hwpos) (by rw [h2, hd]) e1 e2 e3, .inl (hafter0 e2)⟩
    have hnew : r.new1 = position c' + (rowOff d * W + colOff d) := by
      rw [h3, calcNewInd, if_pos hd, hc']
      unfold ravelWalk
      rw [(walk_offsets d).1, (walk_offsets d).2]
    have hro := rowOff_bounds d
    have hco := colOff_bounds d
    by_cases hup : c'.1.val = 0 ∧ rowOff d = -1
    · -- upstream exit
      have hneg : r.new1 = (c'.2.val : ℤ) + colOff d - W := by
        rw [hnew, hup.2]; unfold position; rw [hup.1]; push_cast; ring
      have hlt : r.new1 < 0 := by omega
      obtain ⟨e2, e3⟩ := hzero r.new1 hlt.le rfl
      have hcell : ∃ t : Cell L W, flatCell L W r.new1 = some t ∧ t.1.val + 1 = L := by
        have hLW : (L : ℤ) * W = (L - 1) * W + W := by ring
        obtain ⟨t, ht, hpos⟩ := flatCell_neg (L := L) (W := W) hlt (by
          have : (0 : ℤ) ≤ (L - 1) * W := by
            have h' : (0 : ℤ) ≤ (L : ℤ) - 1 := by omega
            positivity
          omega)
        refine ⟨t, ht, ?_⟩
        have ht2 := t.2.isLt
        have ht1 := t.1.isLt
        by_contra hne
        have : (t.1.val : ℤ) ≤ L - 2 := by omega
        have : (W : ℤ) * t.1.val ≤ W * (L - 2) := by
          apply mul_le_mul_of_nonneg_left this; positivity
        have e : (W : ℤ) * (L - 2) = L * W - 2 * W := by ring
        omega
      obtain ⟨t, ht, htL⟩ := hcell
      have hb : r.bnd = true := by
        rw [e2] at h5
        unfold isBoundary at h5
        rw [ht] at h5
        simp only [Except.ok.injEq] at h5
        rw [← h5]; simp [hC.last t htL]
      refine ⟨.exit c' (by rw [h1, hc']) hact hup.1 (by rw [h2]; exact hup.2)
        (by rw [h2]; exact hwpos) hlt e2 e3 hb, .inl ?_⟩
      rw [h6]; simp [after, hb]
    · -- a move inside the domain
      have hrow : 0 ≤ (c'.1.val : ℤ) + rowOff d := by
        by_contra hcon
        exact hup ⟨by omega, by omega⟩
      obtain ⟨n, -, hn1, hn2⟩ := pyCell_nonneg (L := L) (W := W) (x := c'.1.val + rowOff d)
        (y := c'.2.val + colOff d) hrow (by omega) (by omega) (by omega)
      have hadj : Adjacent c' n := by
        refine ⟨?_, by rw [abs_le]; omega, by rw [abs_le]; omega⟩
        intro e
        subst e
        have := off_ne_zero hd
        omega
      have hnl : E.cellType n ≠ -2 := by
        intro hl
        rw [hland d n hn1 hn2 hl] at hwpos
        exact lt_irrefl _ hwpos
      have hpn : r.new1 = position n := by
        rw [hnew]; unfold position; rw [hn1, hn2]; ring
      have hpn' : r.new1 = posOf n := hpn
      have hbcell : ∀ t : Cell L W, r.new2 = posOf t → (r.bnd = true ↔ E.cellType t = -1) := by
        intro t ht
        rw [ht] at h5
        unfold isBoundary at h5
        rw [flatCell_posOf] at h5
        simp only [Except.ok.injEq] at h5
        rw [← h5]; simp
      have hnext : ∀ t : Cell L W, r.new2 = posOf t → E.cellType t ≠ -2 →
          (p'.ind = 0 ∨ ∃ c : Cell L W, p'.ind = position c ∧ IsActive E c) := by
        intro t ht htl
        by_cases hb : r.bnd = true
        · left; rw [h6]; simp [after, hb]
        · right
          refine ⟨t, ?_, ?_, htl⟩
          · rw [h6]; simp only [after, hb]; exact ht
          · intro hh; exact hb ((hbcell t ht).mpr hh)
      by_cases hrep : Repeats E step p.walk r.new1
      · obtain ⟨m, lp, hcl, hm⟩ := checkLoop_safe (E := E) (by omega : 2 ≤ L) (by omega : 2 ≤ W)
          hL0 hC.nrm step p.walk (n := r.new1)
          (by have := posOf_nonneg n; omega) (by rw [hpn']; exact posOf_lt n)
        -- the relocated cell
        have hcl2 : ∃ t : Cell L W, r.new2 = posOf t ∧ min ((L : ℤ) - 2) E.L0 ≤ t.1.val ∧
            t.1.val + 1 < L ∧ 0 < t.2.val ∧ t.2.val + 1 < W := by
          rw [hpn', checkLoop_repeats E step p.walk n (hpn' ▸ hrep) (by omega)] at h4
          split at h4
          · simp only [Except.ok.injEq, Prod.mk.injEq] at h4
            obtain ⟨h4a, -⟩ := h4
            revert h4a
            generalize roundHalfEven (((n.1.val : K) - 1) /
              E.nrm ((n.1.val : K) - 1) ((n.2.val : K) - (E.CTR : K)) * 5) = a
            generalize roundHalfEven (((n.2.val : K) - (E.CTR : K)) /
              E.nrm ((n.1.val : K) - 1) ((n.2.val : K) - (E.CTR : K)) * 5) = b
            intro h4a
            obtain ⟨t, -, ht1, ht2⟩ := pyCell_nonneg (L := L) (W := W)
              (x := min ((L : ℤ) - 2) (max (n.1.val + a) E.L0))
              (y := min ((W : ℤ) - 2) (max 1 (n.2.val + b)))
              (by omega) (by omega) (by omega) (by omega)
            refine ⟨t, ?_, by omega, by omega, by omega, by omega⟩
            rw [← h4a]; unfold posOf; rw [ht1, ht2]
          · cases h4
        obtain ⟨t, ht, ht1, ht2, ht3, ht4⟩ := hcl2
        have htl : E.cellType t ≠ -2 := hC.land t (by omega)
        exact ⟨.relocate c' n t (by rw [h1, hc']) hact hadj hnl (by rw [h2]; exact hd) hpn ht
          (by omega) ht2 ht3 ht4 htl (hbcell t ht), hnext t ht htl⟩
      · rw [checkLoop_not E step p.walk r.new1 hrep] at h4
        simp only [Except.ok.injEq, Prod.mk.injEq] at h4
        have e2 : r.new2 = posOf n := by rw [← h4.1]; exact hpn'
        exact ⟨.move c' n (by rw [h1, hc']) hact hadj hnl (by rw [h2]; exact hd) hpn e2 h4.2.symm
          (hbcell n e2), hnext n e2 hnl⟩

/-- The setting of the walk theorems: an iteration that was run. -/
structure WaterRun {L W m : ℕ} (g : Rng K σ) (E : WEnv L W K) (inlet : Fin m → ℤ) (np ncols : ℕ)
    (s : σ) (st : WState L W K) (log : List (List StepRec)) (n : ℕ) (s' : σ) : Prop where
  run : runWaterIteration g E inlet np ncols s = .ok (st, log, n, s')
  draws : PositiveDraws g
  layout : ClosedLayout E
  weights : AdmissibleWeights E
  hm : 0 < m
  inlet : ∀ k, ∃ c : Cell L W, inlet k = position c ∧ IsActive E c

lemma drawN_mem (g : Rng K σ) (P : K → Prop) (h : ∀ s, P (g.next s).1) (n : ℕ) (s : σ) :
    ∀ r ∈ (drawN g n s).1, P r := by
  induction n generalizing s with
  | zero => intro r hr; simp [drawN] at hr
  | succ n ih =>
    intro r hr
    simp only [drawN, List.mem_cons] at hr
    rcases hr with rfl | hr
    · exact h s
    · exact ih _ r hr

lemma drawN_length (g : Rng K σ) (n : ℕ) (s : σ) : (drawN g n s).1.length = n := by
  induction n generalizing s with
  | zero => rfl
  | succ n ih => simp [drawN, ih]

lemma starts_of_run {L W m : ℕ} {g : Rng K σ} (hg : PositiveDraws g) {E : WEnv L W K}
    {inlet : Fin m → ℤ} {np ncols : ℕ} {s : σ} {res} (hm : 0 < m)
    (h : runWaterIteration g E inlet np ncols s = .ok res) :
    ∃ starts st, waterStart E ncols starts = .ok st ∧ starts.length = np ∧
      (∀ i ∈ starts, ∃ k, i = inlet k) ∧ waterLoop g E 0 st (drawN g np s).2 = .ok res := by
  obtain ⟨starts, st, h1, h2, h3⟩ := runWater_ok g E inlet np ncols s res h
  have : Nonempty (Fin m) := ⟨⟨0, hm⟩⟩
  obtain ⟨l, hl, hlen, hmem⟩ := C05_start_indices hm inlet (getInletWeights inlet : Fin m → K)
    (fun _ => by simp [getInletWeights])
    (by unfold total; simp only [getInletWeights, Finset.sum_const, Finset.card_univ,
          Fintype.card_fin, nsmul_eq_mul, mul_one]; exact_mod_cast hm)
    (drawN g np s).1 (drawN_mem g (fun r => 0 ≤ r ∧ r ≤ 1)
      (fun s => ⟨(hg s).1.le, (hg s).2⟩) np s)
  rw [h1] at hl
  cases hl
  exact ⟨starts, st, h2, by rw [hlen, drawN_length], hmem, h3⟩

lemma run_kinds {L W m : ℕ} {g : Rng K σ} {E : WEnv L W K} {inlet : Fin m → ℤ} {np ncols : ℕ}
    {s : σ} {st : WState L W K} {log : List (List StepRec)} {n : ℕ} {s' : σ}
    (hr : WaterRun g E inlet np ncols s st log n s') :
    (∀ k (hk : k < log.length), ∀ r ∈ log[k], StepKind E r) ∧
    (∀ p ∈ st.parcels, p.ind = 0 ∨ ∃ c : Cell L W, p.ind = position c ∧ IsActive E c) := by
  obtain ⟨starts, st0, h2, -, hmem, h3⟩ := starts_of_run hr.draws hr.hm hr.run
  have hI0 : ∀ p ∈ st0.parcels, p.ind = 0 ∨ ∃ c : Cell L W, p.ind = position c ∧ IsActive E c := by
    intro p hp
    obtain ⟨-, -, -, -, -, -, -, -, hmap, -⟩ := waterStart_ok h2
    have : p.ind ∈ starts := by rw [← hmap]; exact List.mem_map_of_mem hp
    obtain ⟨k, hk⟩ := hmem _ this
    rw [hk]; exact .inr (hr.inlet k)
  obtain ⟨a, -, -, -, b⟩ := waterLoop_induct g E
    (fun _ st => ∀ p ∈ st.parcels, p.ind = 0 ∨ ∃ c : Cell L W, p.ind = position c ∧ IsActive E c)
    (fun _ recs => ∀ r ∈ recs, StepKind E r) (by
      intro step st s st' recs s' hI _ _ hst
      obtain ⟨-, -, hf, -⟩ := waterStep_ok g E (step + 1) st st' recs s s' hst
      have hI' := checkSize_parcels E.stepmax (step + 1) st
        (fun i => i = 0 ∨ ∃ c : Cell L W, i = position c ∧ IsActive E c) hI
      constructor
      · intro p' hp'
        obtain ⟨p, hp, r, -, hso⟩ := hf.mem₂ p' hp'
        exact (stepKind_of hr.draws hr.layout hr.weights (hI' p hp) hso).2
      · intro r hrm
        obtain ⟨p, hp, p', -, hso⟩ := hf.mem₃ r hrm
        exact (stepKind_of hr.draws hr.layout hr.weights (hI' p hp) hso).1) 0 st0 st _ s' log n hI0 h3
  exact ⟨fun k hk => b k hk, a⟩

/-- C10: every step of every parcel is one of five kinds: finished, staying (which ends the
routing), a move to a neighbouring domain cell that is not land, such a move followed by a
relocation inside the domain, or an exit upstream from the first row (which ends the routing).
For all draws, weights that are distributions avoiding land, and numbers of steps. -/
theorem C10_step_kinds {L W m : ℕ} {g : Rng K σ} {E : WEnv L W K} {inlet : Fin m → ℤ}
    {np ncols : ℕ} {s : σ} {st : WState L W K} {log : List (List StepRec)} {n : ℕ} {s' : σ}
    (hr : WaterRun g E inlet np ncols s st log n s') (k : ℕ) (hk : k < log.length) :
    ∀ r ∈ log[k], StepKind E r :=
  (run_kinds hr).1 k hk

/-- C10, under a condition: if no weight leads upstream out of the first row (C09), every entry of
the path record is the position of a domain cell, and of two consecutive entries of a parcel that
is still being routed the second is a neighbour of the first, unless the parcel revisited a cell
and was relocated. Missing for the full property: parcels leaving upstream, whose record then is
negative (`C10_negative_record_witness`), and draws equal to 0. -/
theorem C10_positions_partial {L W m : ℕ} {g : Rng K σ} {E : WEnv L W K} {inlet : Fin m → ℤ}
    {np ncols : ℕ} {s : σ} {st : WState L W K} {log : List (List StepRec)} {n : ℕ} {s' : σ}
    (hr : WaterRun g E inlet np ncols s st log n s')
    (hup : ∀ c : Cell L W, IsActive E c → c.1.val = 0 → ∀ d, rowOff d = -1 → E.weights c d = 0)
    (j i : ℕ) (v : ℤ) (hv : pathEntry st j i = some v) :
    (∃ c : Cell L W, v = position c) ∧
    ∀ w, pathEntry st j (i + 1) = some w → w ≠ 0 →
      ∃ a b : Cell L W, v = position a ∧ w = position b ∧
        (Adjacent a b ∨ ∃ b' : Cell L W, Adjacent a b' ∧ ∃ i' ≤ i, pathEntry st j i' =
          some (position b')) := by
  obtain ⟨starts, st0, h2, -, hmem, h3⟩ := starts_of_run hr.draws hr.hm hr.run
  obtain ⟨-, hnc, hncols, hRect, hpind, hpflag, hw0, hwz, -, -⟩ := waterStart_ok h2
  have hloop := waterLoop_walk g E 0 st0 st _ s' log n hRect (by omega) h3
  obtain ⟨-, hn', -, hold, hrec, hzero, hchain, -, -⟩ := hloop
  have hind := waterLoop_induct g E (fun _ _ => True) (fun _ _ => True)
    (fun _ _ _ _ _ _ _ _ _ _ => ⟨trivial, trivial⟩) 0 st0 st _ s' log n trivial h3
  have hlen : n = log.length := by have := hind.2.1; omega
  have hzero' := hzero (fun j i v hi => hwz j i v hi)
  -- every entry: start, recorded, or zero
  have hkind := (run_kinds hr).1
  have hcell0 : ∃ c : Cell L W, (0 : ℤ) = position c := by
    have h1 := hr.layout.hL
    have h2 := hr.layout.hL0
    have h3 := hr.layout.hW
    exact ⟨(⟨0, by omega⟩, ⟨0, by omega⟩), by simp [position]⟩
  have hstartcell : ∀ x ∈ starts, ∃ c : Cell L W, x = position c ∧ IsActive E c := by
    intro x hx; obtain ⟨k, rfl⟩ := hmem x hx; exact hr.inlet k
  have hnoexit : ∀ k (hk : k < log.length), ∀ r ∈ log[k],
      (r.new2 = 0 ∧ r.new1 = 0) ∨ (∃ c nb t : Cell L W, r.cur = position c ∧ Adjacent c nb ∧
        r.new1 = position nb ∧ r.new2 = position t) := by
    intro k hk r hrm
    cases hkind k hk r hrm with
    | finished _ _ h1 h2 _ => exact .inl ⟨h2, h1⟩
    | stay c _ _ _ _ h1 h2 _ => exact .inl ⟨h2, h1⟩
    | move c nb h1 _ h2 _ _ h3 h4 _ _ => exact .inr ⟨c, nb, nb, h1, h2, h3, h4⟩
    | relocate c nb t h1 _ h2 _ _ h3 h4 _ _ _ _ _ _ => exact .inr ⟨c, nb, t, h1, h2, h3, h4⟩
    | exit c h1 ha h2 h3 h4 _ _ _ _ =>
      rw [hup c ha h2 _ h3] at h4; exact absurd h4 (lt_irrefl _)
  have hreccell : ∀ k (hk : k < log.length), ∀ r ∈ log[k], ∃ c : Cell L W, recorded r = position c := by
    intro k hk r hrm
    unfold recorded
    split
    · exact hcell0
    · rcases hnoexit k hk r hrm with ⟨h, -⟩ | ⟨c, nb, t, -, -, -, h⟩
      · rw [h]; exact hcell0
      · exact ⟨t, h⟩
  have hentry : ∀ i v, pathEntry st j i = some v → ∃ c : Cell L W, v = position c := by
    intro i v hv
    rw [pathEntry_eq] at hv
    rcases Nat.eq_zero_or_pos i with rfl | hi
    · rw [hold j 0 le_rfl, hw0] at hv
      obtain ⟨c, hc, -⟩ := hstartcell v (List.mem_of_getElem? hv)
      exact ⟨c, hc⟩
    · by_cases hin : i ≤ n
      · have hk : i - 1 < log.length := by omega
        have := hrec (i - 1) hk j
        rw [show 0 + 1 + (i - 1) = i by omega, hv] at this
        cases hq : (log[i - 1])[j]? with
        | none => rw [hq] at this; simp at this
        | some r =>
          rw [hq] at this
          simp only [Option.map_some, Option.some.injEq] at this
          rw [this]
          exact hreccell (i - 1) hk r (List.mem_of_getElem? hq)
      · have := hzero' j i v (by omega) hv
        rw [this]; exact hcell0
  refine ⟨hentry i v hv, ?_⟩
  intro w hw hwne
  rw [pathEntry_eq] at hv hw
  have hin : i + 1 ≤ n := by
    by_contra hcon
    exact hwne (hzero' j (i + 1) w (by omega) hw)
  have hk : i < log.length := by omega
  have hri := hrec i hk j
  rw [show 0 + 1 + i = i + 1 by omega, hw] at hri
  cases hq : (log[i])[j]? with
  | none => rw [hq] at hri; simp at hri
  | some r =>
    rw [hq] at hri
    simp only [Option.map_some, Option.some.injEq] at hri
    have hrm := List.mem_of_getElem? hq
    -- the parcel came from the entry before
    have hcurv : r.cur ≠ 0 → r.cur = v := by
      intro hne
      have hc := hchain i hk j
      rw [hq] at hc
      rcases Nat.eq_zero_or_pos i with rfl | hi
      · rw [if_pos rfl, hpind] at hc
        rw [hold j 0 le_rfl, hw0] at hv
        rw [hv] at hc
        simpa using hc
      · rw [if_neg (by omega)] at hc
        have hk' : i - 1 < log.length := by omega
        have hr' := hrec (i - 1) hk' j
        rw [show 0 + 1 + (i - 1) = i by omega, hv] at hr'
        rw [List.getElem?_eq_getElem hk'] at hc
        simp only [Option.bind_some, Option.map_some] at hc
        cases hq' : (log[i - 1])[j]? with
        | none => rw [hq'] at hc; simp at hc
        | some r' =>
          rw [hq'] at hc hr'
          simp only [Option.map_some, Option.some.injEq] at hc hr'
          rw [hc, hr']
          rw [hc] at hne
          unfold after at hne ⊢
          unfold recorded
          by_cases hb : r'.bnd = true
          · rw [if_pos hb] at hne; exact absurd rfl hne
          · simp [hb]
    have hw2 : r.new2 = w := by
      rw [hri]
      unfold recorded
      split
      · rename_i hb
        exfalso
        apply hwne
        rw [hri]; unfold recorded; rw [if_pos hb]
      · rfl
    -- the walk at the time of the step
    obtain ⟨stk, sk, stk', sk', hstk, hRk, hnk, -, hagree, hzk⟩ := waterLoop_at g E 0 st0 st _ s' log
      n hRect (by omega) (fun j i v hi => hwz j i v hi) h3 i hk
    rcases hnoexit i hk r hrm with ⟨h, -⟩ | ⟨c, nb, t, h1, h2, h3, h4⟩
    · rw [hw2] at h; exact absurd h hwne
    · refine ⟨c, t, ?_, ?_, ?_⟩
      · rw [← h1]
        by_cases hc0 : r.cur = 0
        · -- position 0 is finished, so it cannot have moved
          exfalso
          cases hkind i hk r hrm with
          | finished _ _ _ h2 _ => exact hwne (by rw [← hw2, h2])
          | stay c _ _ _ _ _ h2 _ => exact hwne (by rw [← hw2, h2])
          | move c nb h1 ha _ _ _ _ _ _ _ =>
            have := (hr.layout.active c ha).2.1
            rw [hc0] at h1; unfold position at h1
            have : (0 : ℤ) ≤ W * c.1.val := by positivity
            omega
          | relocate c nb t h1 ha _ _ _ _ _ _ _ _ _ _ _ =>
            have := (hr.layout.active c ha).2.1
            rw [hc0] at h1; unfold position at h1
            have : (0 : ℤ) ≤ W * c.1.val := by positivity
            omega
          | exit c _ _ _ _ _ _ h' _ hb =>
            have : w = recorded r := hri
            have hlt : r.new1 < 0 := by assumption
            rw [h3] at hlt
            have : (0 : ℤ) ≤ position nb := by unfold position; positivity
            omega
        · exact (hcurv hc0).symm
      · rw [← hw2, h4]
      · -- moved or relocated
        obtain ⟨-, -, hf, -⟩ := waterStep_ok g E _ stk stk' _ sk sk' hstk
        rcases hf.getElem? j with ⟨-, -, e⟩ | ⟨p, p', r', e1, -, e3, d, -, hd⟩
        · rw [hq] at e; cases e
        · rw [hq] at e3
          cases e3
          obtain ⟨-, -, -, g4, -⟩ := parcelStep_fields hd
          by_cases hrep : Repeats E (0 + 1 + i) p.walk r.new1
          · right
            refine ⟨nb, h2, ?_⟩
            obtain ⟨i', hi', hget⟩ := List.mem_iff_getElem.mp hrep.2.2.1
            have hsome : p.walk[i']? = some r.new1 := by rw [List.getElem?_eq_getElem hi', hget]
            have hck : walkAt (checkSize E.stepmax (0 + 1 + i) stk) j i' = some r.new1 := by
              unfold walkAt; rw [e1]; exact hsome
            have hle : i' ≤ i := by
              by_contra hcon
              have : r.new1 = 0 := by
                by_cases hlt : i' < stk.ncols
                · rw [checkSize_walkAt _ _ stk hRk j i' hlt] at hck
                  exact hzk j i' _ (by omega) hck
                · exact checkSize_walkAt_new _ _ stk hRk j i' (by omega) _ hck
              have := hrep.2.1
              omega
            refine ⟨i', hle, ?_⟩
            rw [pathEntry_eq, ← hagree j i' (by omega), ← h3]
            rw [checkSize_walkAt _ _ stk hRk j i' (by omega)] at hck
            exact hck
          · left
            rw [checkLoop_not E _ p.walk r.new1 hrep] at g4
            simp only [Except.ok.injEq, Prod.mk.injEq] at g4
            have : posOf t = posOf nb := by
              have : position t = position nb := by rw [← h4, ← g4.1, h3]
              exact this
            rw [posOf_injective this]
            exact h2

section weights

variable {L W : ℕ} [NeZero L] [NeZero W] (depth stage modW : Grid L W K)
  (qx qy : Grid L W K) (s2 s05 dryDepth gamma : K) (pw : K → K)

/-- C10: the weights that the model computes are admissible, so the walk theorems apply to them:
with depth, modification factors not negative and partitioning coefficient in [0, 1]. -/
theorem C10_weights_admissible (E : WEnv L W K) (hd : ∀ c, 0 ≤ depth c) (hm : ∀ c, 0 ≤ modW c)
    (hpw : ∀ x, 0 ≤ x → 0 ≤ pw x) (hg0 : 0 ≤ gamma) (hg1 : gamma ≤ 1)
    (hw : ∀ c, waterWeights depth stage modW E.cellType qx qy s2 s05 dryDepth gamma pw c =
      .ok (E.weights c)) :
    AdmissibleWeights E ∧ ∀ c d, 0 ≤ E.weights c d := by
  have hdist : ∀ c, E.cellType c ≠ -2 → IsDistribution (E.weights c) := by
    intro c hc
    obtain ⟨w, h1, h2⟩ := C06_water_distribution depth stage modW E.cellType qx qy s2 s05 dryDepth
      gamma pw hd hm hpw hg0 hg1 c hc
    rw [hw c] at h1
    cases h1
    exact h2
  refine ⟨fun c hc => ⟨hdist c hc.2, fun d n h1 h2 hl => ?_⟩, fun c d => ?_⟩
  · apply C07_never_land_cell depth stage modW E.cellType qx qy s2 s05 dryDepth gamma pw c n
      (E.weights c) (hw c) d _ _ hl
    · rw [h1]; unfold rowOff; ring
    · rw [h2]; unfold colOff; ring
  · by_cases hc : E.cellType c = -2
    · obtain ⟨w, h1, h2⟩ := C06_land depth stage modW E.cellType qx qy s2 s05 dryDepth
        gamma pw hd hm hpw hg0 hg1 c hc
      rw [hw c] at h1
      cases h1
      rcases h2 with h2 | h2
      · exact h2.1 d
      · rw [h2 d]
    · exact (hdist c hc).1 d

end weights

/-- A small domain: two inlet rows with a channel in the middle, one row of water, edge cells
around it. -/
def exType : Grid 4 3 ℤ := fun c =>
  if c.1.val < 2 then (if c.2.val = 1 then 1 else -2) else if c = (2, 1) then 0 else -1

/-- Weights as computed by the model when everything is dry. -/
def exDryWeights : Grid 4 3 (Fin 9 → ℚ) := fun c =>
  match waterWeights (fun _ : Cell 4 3 => (0 : ℚ)) (fun _ => 0) (fun _ => 1) exType (fun _ => 0)
    (fun _ => 0) (7/5) (7/10) (1/10) (1/2) (fun x => x) c with
  | .ok w => w
  | .error _ => fun _ => 0

/-- Weights as computed by the model with water everywhere. -/
def exWetWeights : Grid 4 3 (Fin 9 → ℚ) := fun c =>
  match waterWeights (fun _ : Cell 4 3 => (1 : ℚ)) (fun c => 3 - c.1.val) (fun _ => 1) exType
    (fun _ => 1) (fun _ => 0) (7/5) (7/10) (1/10) (1/2) (fun x => x) c with
  | .ok w => w
  | .error _ => fun _ => 0

/-- The loop environment of the examples. -/
def exEnv (w : Grid 4 3 (Fin 9 → ℚ)) (stepmax : ℕ) : WEnv 4 3 ℚ where
  weights := w
  cellType := exType
  stageAboveSL := fun _ => 0
  L0 := 2
  CTR := 1
  stepmax := stepmax
  Qp := 4
  dx := 1
  s2 := 7/5
  nrm := fun x y => |x| + |y|

/-- A generator whose outputs follow the given list, then 1/2. -/
def listRng : Rng ℚ (List ℚ) where
  next := fun l => (l.headD (1/2), l.tail)

/-- C10 fails: with the weights the model computes on a dry domain, a parcel leaves upstream and a
negative index is recorded. -/
theorem C10_negative_record_witness :
    (runWaterIteration listRng (exEnv exDryWeights 8) (fun _ : Fin 1 => 1) 1 4 [1/2, 1/4]).map
      (fun r => pathEntry r.1 0 1) = .ok (some (-2)) := by decide +kernel

/-- A generator that always gives 1/2. -/
def constRng : Rng ℚ Unit where
  next := fun _ => (1/2, ())

lemma exWet_ok : ∀ c, waterWeights (fun _ : Cell 4 3 => (1 : ℚ)) (fun c => 3 - c.1.val)
    (fun _ => 1) exType (fun _ => 1) (fun _ => 0) (7/5) (7/10) (1/10) (1/2) (fun x => x) c =
    .ok (exWetWeights c) := by
  intro c
  have h : ∃ w, waterWeights (fun _ : Cell 4 3 => (1 : ℚ)) (fun c => 3 - c.1.val)
      (fun _ => 1) exType (fun _ => 1) (fun _ => 0) (7/5) (7/10) (1/10) (1/2) (fun x => x) c =
      .ok w := by
    by_cases hc : exType c = -2
    · obtain ⟨w, h, -⟩ := C06_land (fun _ : Cell 4 3 => (1 : ℚ)) (fun c => 3 - c.1.val)
        (fun _ => 1) exType (fun _ => 1) (fun _ => 0) (7/5) (7/10) (1/10) (1/2) (fun x => x)
        (by simp) (by simp) (fun _ h => h) (by norm_num) (by norm_num) c hc
      exact ⟨w, h⟩
    · obtain ⟨w, h, -⟩ := C06_water_distribution (fun _ : Cell 4 3 => (1 : ℚ))
        (fun c => 3 - c.1.val) (fun _ => 1) exType (fun _ => 1) (fun _ => 0) (7/5) (7/10) (1/10)
        (1/2) (fun x => x) (by simp) (by simp) (fun _ h => h) (by norm_num) (by norm_num) c hc
      exact ⟨w, h⟩
  obtain ⟨w, h⟩ := h
  unfold exWetWeights
  rw [h]

lemma exNrm (x y : ℚ) (h : |x| + |y| = 0) : x = 0 ∧ y = 0 := by
  have h1 := abs_nonneg x
  have h2 := abs_nonneg y
  exact ⟨abs_eq_zero.mp (by linarith), abs_eq_zero.mp (by linarith)⟩

lemma exClosed (w : Grid 4 3 (Fin 9 → ℚ)) (n : ℕ) : ClosedLayout (exEnv w n) where
  hL0 := le_refl _
  hL := le_refl _
  active := by
    intro c ⟨h1, h2⟩
    change exType c ≠ -1 at h1
    change exType c ≠ -2 at h2
    revert c; decide
  last := by intro c h; change exType c = -1; revert c; decide
  land := by
    intro c h
    change (2 : ℤ) ≤ c.1.val at h
    change exType c ≠ -2
    revert c; decide
  hW := le_refl _
  nrm := exNrm

-- the hypotheses of the walk theorems are met by a concrete run
example : ∃ st log n s', WaterRun constRng (exEnv exWetWeights 8) (fun _ : Fin 1 => 1) 3 4 ()
    st log n s' := by
  have hA := C10_weights_admissible (fun _ : Cell 4 3 => (1 : ℚ)) (fun c => 3 - c.1.val)
    (fun _ => 1) (fun _ => 1) (fun _ => 0) (7/5) (7/10) (1/10) (1/2) (fun x => x)
    (exEnv exWetWeights 8) (by simp) (by simp) (fun _ h => h) (by norm_num) (by norm_num) exWet_ok
  have hin : ∀ k : Fin 1, ∃ c : Cell 4 3, (fun _ : Fin 1 => (1 : ℤ)) k = position c ∧
      IsActive (exEnv exWetWeights 8) c :=
    fun _ => ⟨(0, 1), by simp [position], by constructor <;> (change exType (0, 1) ≠ _; decide)⟩
  obtain ⟨⟨st, log, n, s'⟩, h⟩ := C10_no_index_error constRng (fun _ => by norm_num [constRng])
    (exEnv exWetWeights 8) (by norm_num) (by norm_num) (le_refl _) (by decide) hA.2
    (exClosed _ _).nrm (by intro c hc; change exType c ≠ -1 at hc; revert c; decide) (by norm_num)
    (fun _ : Fin 1 => 1) (fun k => by
      obtain ⟨c, h1, h2⟩ := hin k; exact ⟨c, h1, h2.1⟩) 3 4 (by norm_num) ()
  exact ⟨st, log, n, s', h, fun _ => by norm_num [constRng], exClosed _ _, hA.1, by norm_num, hin⟩
-- and this is what it does: straight down the channel to the edge
example : (runWaterIteration constRng (exEnv exWetWeights 8) (fun _ : Fin 1 => 1) 1 4 ()).map
    (fun r => [pathEntry r.1 0 0, pathEntry r.1 0 1, pathEntry r.1 0 2, pathEntry r.1 0 3]) =
    .ok [some 1, some 4, some 7, some 10] := by decide +kernel

/-! ## C11 -/

/-- C11: an iteration takes at most `stepmax` steps, one log entry per step, and it ends because
`stepmax` is reached or because no parcel is active. Every step taken had an active parcel. -/
theorem C11_terminates {L W m : ℕ} {g : Rng K σ} {E : WEnv L W K} {inlet : Fin m → ℤ}
    {np ncols : ℕ} {s : σ} {st : WState L W K} {log : List (List StepRec)} {n : ℕ} {s' : σ}
    (hr : WaterRun g E inlet np ncols s st log n s') :
    n ≤ E.stepmax ∧ log.length = n ∧ (n = E.stepmax ∨ ∀ p ∈ st.parcels, p.ind = 0) ∧
      ∀ k (hk : k < log.length), ∃ r ∈ log[k], 0 < r.cur := by
  obtain ⟨starts, st0, h2, -, hmem, h3⟩ := starts_of_run hr.draws hr.hm hr.run
  obtain ⟨-, hnc, hncols, hRect, hpind, hpflag, hw0, hwz, hmap, -⟩ := waterStart_ok h2
  obtain ⟨-, a, b, c, -⟩ := waterLoop_induct g E (fun _ _ => True) (fun _ _ => True)
    (fun _ _ _ _ _ _ _ _ _ _ => ⟨trivial, trivial⟩) 0 st0 st _ s' log n trivial h3
  have hle := b (Nat.zero_le _)
  refine ⟨hle, by omega, ?_, ?_⟩
  · rcases Nat.lt_or_ge n E.stepmax with hlt | hge
    · right
      have hsum : ¬ (st.parcels.map (·.ind)).sum > 0 := fun h => c ⟨h, hlt⟩
      have hnn : ∀ p ∈ st.parcels, 0 ≤ p.ind := by
        intro p hp
        rcases (run_kinds hr).2 p hp with h | ⟨c, h, -⟩
        · rw [h]
        · rw [h]; unfold position; positivity
      intro p hp
      by_contra hne
      apply hsum
      have h1 : p.ind ≤ (st.parcels.map (·.ind)).sum :=
        List.single_le_sum (by
          intro x hx
          obtain ⟨q, hq, rfl⟩ := List.mem_map.mp hx
          exact hnn q hq) _ (List.mem_map_of_mem hp)
      have := hnn p hp
      omega
    · left; omega
  · intro k hk
    obtain ⟨stk, sk, stk', sk', hstk, hRk, -, hsum, -, -⟩ := waterLoop_at g E 0 st0 st _ s' log
      n hRect (by omega) (fun j i v hi => hwz j i v hi) h3 k hk
    obtain ⟨-, -, -, -, -, -, hcur, -, -⟩ := waterStep_walk g E _ stk stk' _ sk sk' hRk hstk
    have hex : ∃ p ∈ stk.parcels, 0 < p.ind := by
      by_contra hcon
      push Not at hcon
      have hle : ∀ l : List WParcel, (∀ p ∈ l, p.ind ≤ 0) → (l.map (·.ind)).sum ≤ 0 := by
        intro l
        induction l with
        | nil => intro _; simp
        | cons q l ih =>
          intro hq
          have h1 := hq q List.mem_cons_self
          have h2 := ih (fun p hp => hq p (List.mem_cons_of_mem _ hp))
          simp only [List.map_cons, List.sum_cons]; omega
      have := hle _ hcon
      omega
    obtain ⟨p, hp, hpos⟩ := hex
    obtain ⟨j, hj, rfl⟩ := List.mem_iff_getElem.mp hp
    have := hcur j
    rw [List.getElem?_eq_getElem hj] at this
    cases hq : (log[k])[j]? with
    | none => rw [hq] at this; simp at this
    | some r =>
      rw [hq] at this
      simp only [Option.map_some, Option.some.injEq] at this
      exact ⟨r, List.mem_of_getElem? hq, by rw [this]; exact hpos⟩

/-- C11: a parcel that reached an edge cell, chose to stay, or left upstream is never moved again:
in all later steps it has no direction and its records are 0. For all draws, weights and domains:
no hypothesis beyond the run itself. -/
theorem C11_finished_stays {L W m : ℕ} {g : Rng K σ} {E : WEnv L W K} {inlet : Fin m → ℤ}
    {np ncols : ℕ} {s : σ} {st : WState L W K} {log : List (List StepRec)} {n : ℕ} {s' : σ}
    (hr : runWaterIteration g E inlet np ncols s = .ok (st, log, n, s'))
    (j k : ℕ) (hk : k < log.length) (r : StepRec) (hrj : (log[k])[j]? = some r)
    (hfin : r.bnd = true ∨ r.new2 = 0) (k' : ℕ) (hk' : k' < log.length) (hlt : k < k') :
    ∃ r', (log[k'])[j]? = some r' ∧ r'.cur = 0 ∧ r'.dir = 4 ∧ r'.new1 = 0 ∧ r'.new2 = 0 ∧
      r'.looped = false ∧ pathEntry st j (k' + 1) = some 0 := by
  obtain ⟨starts, st0, h1, h2, h3⟩ := runWater_ok g E inlet np ncols s _ hr
  obtain ⟨-, hnc, hncols, hRect, -⟩ := waterStart_ok h2
  obtain ⟨-, -, -, -, hrec, -, hchain, -, -⟩ :=
    waterLoop_walk g E 0 st0 st _ s' log n hRect (by omega) h3
  obtain ⟨-, -, -, -, hper⟩ := waterLoop_induct g E (fun _ _ => True)
    (fun _ recs => ∀ r ∈ recs, r.cur = 0 → r.dir = 4 ∧ r.new1 = 0 ∧ r.new2 = 0 ∧ r.looped = false)
    (by
      intro step st s st' recs s' _ _ _ hst
      refine ⟨trivial, fun r hrm hcur => ?_⟩
      obtain ⟨-, -, hf, -⟩ := waterStep_ok g E (step + 1) st st' recs s s' hst
      obtain ⟨p, hp, p', -, d, hch, hd⟩ := hf.mem₃ r hrm
      obtain ⟨e1, e2, e3, e4, -⟩ := parcelStep_fields hd
      have hd4 : d = 4 := hch.zero (by rw [← e1]; exact hcur)
      have hn1 : r.new1 = 0 := by rw [e3, hd4]; simp [calcNewInd]
      rw [hn1, checkLoop_not E (step + 1) p.walk 0 (by rintro ⟨-, hh, -⟩; omega)] at e4
      simp only [Except.ok.injEq, Prod.mk.injEq] at e4
      exact ⟨by rw [e2, hd4], hn1, e4.1.symm, e4.2.symm⟩) 0 st0 st _ s' log n trivial h3
  have key : ∀ d, ∀ hkd : k + 1 + d < log.length, ∃ r', (log[k + 1 + d])[j]? = some r' ∧ r'.cur = 0 := by
    intro d
    induction d with
    | zero =>
      intro hkd
      have := hchain (k + 1) hkd j
      rw [if_neg (by omega)] at this
      simp only [Nat.add_sub_cancel, List.getElem?_eq_getElem hk, Option.bind_some, hrj,
        Option.map_some] at this
      cases hq : (log[k + 1 + 0])[j]? with
      | none => rw [hq] at this; simp at this
      | some r' =>
        rw [hq] at this
        simp only [Option.map_some, Option.some.injEq] at this
        refine ⟨r', rfl, ?_⟩
        rw [this]
        unfold after
        split
        · rfl
        · rename_i hb
          rcases hfin with h | h
          · exact absurd h hb
          · exact h
    | succ d ih =>
      intro hkd
      obtain ⟨r1, hr1, hc1⟩ := ih (by omega)
      have := hchain (k + 1 + (d + 1)) hkd j
      rw [if_neg (by omega), show k + 1 + (d + 1) - 1 = k + 1 + d by omega,
        List.getElem?_eq_getElem (show k + 1 + d < log.length by omega)] at this
      simp only [Option.bind_some, hr1, Option.map_some] at this
      cases hq : (log[k + 1 + (d + 1)])[j]? with
      | none => rw [hq] at this; simp at this
      | some r' =>
        rw [hq] at this
        simp only [Option.map_some, Option.some.injEq] at this
        refine ⟨r', rfl, ?_⟩
        rw [this]
        have h0 := (hper (k + 1 + d) (by omega) r1 (List.mem_of_getElem? hr1) hc1).2.2.1
        unfold after
        split
        · rfl
        · exact h0
  obtain ⟨d, rfl⟩ : ∃ d, k' = k + 1 + d := ⟨k' - (k + 1), by omega⟩
  obtain ⟨r', hr', hc'⟩ := key d hk'
  obtain ⟨p1, p2, p3, p4⟩ := hper _ hk' r' (List.mem_of_getElem? hr') hc'
  refine ⟨r', hr', hc', p1, p2, p3, p4, ?_⟩
  have := hrec (k + 1 + d) hk' j
  rw [show 0 + 1 + (k + 1 + d) = k + 1 + d + 1 by omega, hr'] at this
  rw [pathEntry_eq, this]
  simp [recorded, p3]

-- two parcels, one finishing before the other: the first stays finished in the last step
example : (runWaterIteration listRng (exEnv exWetWeights 8) (fun _ : Fin 1 => 1) 2 4
    [1/2, 1/2, 1/2, 1/2, 1/2, 1/2, 1/2, 1/2]).map
    (fun r => (r.2.2.1, r.2.1.map (·.map (·.cur)))) = .ok (3, [[1, 1], [4, 4], [7, 7]]) := by
  decide +kernel

/-! ## C12 -/

/-- C12: with `stepmax` at least 4 the record has room for every step, whatever its initial
width (kept from the iterations before); the entry of each step is what the log says, the start
is kept, and all entries after the last step are 0. -/
theorem C12_record {L W m : ℕ} {g : Rng K σ} {E : WEnv L W K} {inlet : Fin m → ℤ}
    {np ncols : ℕ} {s : σ} {st : WState L W K} {log : List (List StepRec)} {n : ℕ} {s' : σ}
    (hr : runWaterIteration g E inlet np ncols s = .ok (st, log, n, s')) :
    (∀ p ∈ st.parcels, p.walk.length = st.ncols) ∧ n < st.ncols ∧ ncols ≤ st.ncols ∧
    (∃ starts, getStartIndices inlet (getInletWeights inlet : Fin m → K) (drawN g np s).1 =
      some starts ∧ ∀ j, pathEntry st j 0 = starts[j]?) ∧
    (∀ k (hk : k < log.length) (j : ℕ), pathEntry st j (k + 1) =
      ((log[k])[j]?).map (fun r => if r.looped = true ∧ r.bnd = true then 0 else r.new2)) ∧
    (∀ j i v, n < i → pathEntry st j i = some v → v = 0) := by
  obtain ⟨starts, st0, h1, h2, h3⟩ := runWater_ok g E inlet np ncols s _ hr
  obtain ⟨-, hnc, hncols, hRect, -, -, hw0, hwz, -⟩ := waterStart_ok h2
  obtain ⟨a1, a2, a3, a4, a5, a6, -⟩ := waterLoop_walk g E 0 st0 st _ s' log n hRect (by omega) h3
  refine ⟨a1, a2, by omega, ⟨starts, h1, fun j => ?_⟩, fun k hk j => ?_, fun j i v hi hv => ?_⟩
  · rw [pathEntry_eq, a4 j 0 le_rfl, hw0]
  · rw [pathEntry_eq, show k + 1 = 0 + 1 + k by omega, a5 k hk j]
    cases (log[k])[j]? with
    | none => rfl
    | some r => simp [recorded]
  · rw [pathEntry_eq] at hv
    exact a6 (fun j i v hi => hwz j i v hi) j i v hi hv

/-- C12: a write is never outside the storage: with `stepmax` at least 4 no step number exceeds
the storage after the enlargement check, for every step number reached and every storage width. -/
theorem C12_no_overflow {L W : ℕ} (stepmax it : ℕ) (hs : 4 ≤ stepmax) (st : WState L W K)
    (h : it ≤ st.ncols) : it < (checkSize stepmax it st).ncols :=
  checkSize_ncols stepmax it hs st h

/-- C12 fails for `stepmax < 4`: the enlargement adds nothing and the write is out of range. -/
theorem C12_small_stepmax_witness :
    (runWaterIteration constRng (exEnv exWetWeights 3) (fun _ : Fin 1 => 1) 1 1 ()).map
      (fun r => r.2.2.1) = .error .index := by decide +kernel

-- storage of two columns is enlarged while four steps are taken
example : (runWaterIteration constRng (exEnv exWetWeights 8) (fun _ : Fin 1 => 1) 1 1 ()).map
    (fun r => (r.2.2.1, r.1.ncols, pathEntry r.1 0 0, pathEntry r.1 0 3)) =
    .ok (3, 5, some 1, some 10) := by decide +kernel

/-! ## C13 -/

/-- Specification: the parcel returns to a cell it visited before, beyond the inlet rows, after
more than `L0` steps. `walk` is its path record. -/
def Returns {L W : ℕ} (E : WEnv L W K) (step : ℕ) (walk : List ℤ) (c : Cell L W) : Prop :=
  E.L0 < step ∧ 0 < position c ∧ position c ∈ walk ∧ E.L0 ≤ c.1.val

/-- C13: a parcel that does not return to a visited cell is left alone and not disqualified. -/
theorem C13_left_alone {L W : ℕ} (E : WEnv L W K) (step : ℕ) (walk : List ℤ) (c : Cell L W)
    (h : ¬ Returns E step walk c) :
    checkLoop E step walk (position c) = .ok (position c, false) := by
  apply checkLoop_not
  rintro ⟨h1, h2, h3, h4⟩
  apply h
  refine ⟨h1, h2, h3, ?_⟩
  by_contra hcon
  have hc2 := c.2.isLt
  have : (c.1.val : ℤ) + 1 ≤ E.L0 := by omega
  have hW : (0 : ℤ) ≤ W := by positivity
  have : ((c.1.val : ℤ) + 1) * W ≤ E.L0 * W := mul_le_mul_of_nonneg_right this hW
  unfold position at h4
  have e : ((c.1.val : ℤ) + 1) * W = W * c.1.val + W := by ring
  omega

/-- C13: a parcel that returns is relocated to a cell beyond the inlet rows, at least one cell
away from the last row and from both side columns, and it is disqualified exactly if the stage at
the cell it returned to differs from sea level by at least 0.1. -/
theorem C13_relocated {L W : ℕ} (E : WEnv L W K) (hL0 : 2 ≤ E.L0) (hL : E.L0 + 2 ≤ L) (hW : 3 ≤ W)
    (hnrm : ∀ x y, E.nrm x y = 0 → x = 0 ∧ y = 0) (step : ℕ) (walk : List ℤ) (c : Cell L W)
    (h : Returns E step walk c) :
    ∃ t : Cell L W, ∃ looped, checkLoop E step walk (position c) = .ok (position t, looped) ∧
      E.L0 ≤ t.1.val ∧ t.1.val + 1 < L ∧ 0 < t.2.val ∧ t.2.val + 1 < W ∧
      (looped = true ↔ 1 / 10 ≤ |E.stageAboveSL c|) := by
  obtain ⟨h1, h2, h3, h4⟩ := h
  have hrep : Repeats E step walk (posOf c) := by
    refine ⟨h1, h2, h3, ?_⟩
    have hW0 : (0 : ℤ) ≤ W := by positivity
    have := mul_le_mul_of_nonneg_right h4 hW0
    unfold posOf
    have e : (c.1.val : ℤ) * W = W * c.1.val := by ring
    omega
  change ∃ t : Cell L W, ∃ looped, checkLoop E step walk (posOf c) = _ ∧ _
  rw [checkLoop_repeats E step walk c hrep (by omega)]
  have hne : E.nrm ((c.1.val : K) - 1) ((c.2.val : K) - (E.CTR : K)) ≠ 0 := by
    intro h
    obtain ⟨hx, -⟩ := hnrm _ _ h
    have hx' : c.1.val = 1 := by
      have : (c.1.val : K) = 1 := by linarith
      exact_mod_cast this
    omega
  rw [if_pos hne]
  generalize roundHalfEven (((c.1.val : K) - 1) /
    E.nrm ((c.1.val : K) - 1) ((c.2.val : K) - (E.CTR : K)) * 5) = a
  generalize roundHalfEven (((c.2.val : K) - (E.CTR : K)) /
    E.nrm ((c.1.val : K) - 1) ((c.2.val : K) - (E.CTR : K)) * 5) = b
  obtain ⟨t, -, ht1, ht2⟩ := pyCell_nonneg (L := L) (W := W)
    (x := min ((L : ℤ) - 2) (max (c.1.val + a) E.L0))
    (y := min ((W : ℤ) - 2) (max 1 (c.2.val + b)))
    (by omega) (by omega) (by omega) (by omega)
  refine ⟨t, !decide (|E.stageAboveSL c| < 1 / 10), ?_, by omega, by omega, by omega, by omega, ?_⟩
  · rw [← ht1, ← ht2]; rfl
  · simp

/-- C13: over a whole iteration, a parcel is moved away from its new cell or disqualified only in
a step after the first `L0` ones, when its new cell lies beyond the inlet rows and occurs earlier
in its path record. For all draws, weights and domains. -/
theorem C13_only_returning {L W m : ℕ} {g : Rng K σ} {E : WEnv L W K} {inlet : Fin m → ℤ}
    {np ncols : ℕ} {s : σ} {st : WState L W K} {log : List (List StepRec)} {n : ℕ} {s' : σ}
    (hr : runWaterIteration g E inlet np ncols s = .ok (st, log, n, s'))
    (j k : ℕ) (hk : k < log.length) (r : StepRec) (hrj : (log[k])[j]? = some r)
    (hmoved : r.new2 ≠ r.new1 ∨ r.looped = true) :
    E.L0 < (k + 1 : ℕ) ∧ E.L0 * W ≤ r.new1 ∧ ∃ i ≤ k, pathEntry st j i = some r.new1 := by
  obtain ⟨starts, st0, h1, h2, h3⟩ := runWater_ok g E inlet np ncols s _ hr
  obtain ⟨-, hnc, hncols, hRect, -, -, hw0, hwz, -⟩ := waterStart_ok h2
  obtain ⟨stk, sk, stk', sk', hstk, hRk, hnk, -, hagree, hzk⟩ := waterLoop_at g E 0 st0 st _ s' log
    n hRect (by omega) (fun j i v hi => hwz j i v hi) h3 k hk
  obtain ⟨-, -, hf, -⟩ := waterStep_ok g E _ stk stk' _ sk sk' hstk
  rcases hf.getElem? j with ⟨-, -, e⟩ | ⟨p, p', r', e1, -, e3, d, -, hd⟩
  · rw [hrj] at e; cases e
  · rw [hrj] at e3
    cases e3
    obtain ⟨-, -, -, g4, -⟩ := parcelStep_fields hd
    have hrep : Repeats E (0 + 1 + k) p.walk r.new1 := by
      by_contra hcon
      rw [checkLoop_not E _ p.walk r.new1 hcon] at g4
      simp only [Except.ok.injEq, Prod.mk.injEq] at g4
      rcases hmoved with h | h
      · exact h g4.1.symm
      · rw [← g4.2] at h; cases h
    refine ⟨?_, hrep.2.2.2, ?_⟩
    · have := hrep.1
      rw [show 0 + 1 + k = k + 1 by omega] at this
      exact this
    · obtain ⟨i', hi', hget⟩ := List.mem_iff_getElem.mp hrep.2.2.1
      have hsome : p.walk[i']? = some r.new1 := by rw [List.getElem?_eq_getElem hi', hget]
      have hck : walkAt (checkSize E.stepmax (0 + 1 + k) stk) j i' = some r.new1 := by
        unfold walkAt; rw [e1]; exact hsome
      have hle : i' ≤ k := by
        by_contra hcon
        have : r.new1 = 0 := by
          by_cases hlt : i' < stk.ncols
          · rw [checkSize_walkAt _ _ stk hRk j i' hlt] at hck
            exact hzk j i' _ (by omega) hck
          · exact checkSize_walkAt_new _ _ stk hRk j i' (by omega) _ hck
        have := hrep.2.1
        omega
      refine ⟨i', hle, ?_⟩
      rw [pathEntry_eq, ← hagree j i' (by omega)]
      rw [checkSize_walkAt _ _ stk hRk j i' (by omega)] at hck
      exact hck

/-- C13: with a single inlet row a parcel that returns to the cell right below the inlet centre
has no direction to be relocated to; the code then reads an unassigned variable. -/
theorem C13_unbound_witness :
    checkLoop { exEnv exWetWeights 8 with L0 := 1 } 3 [1, 4, 7, 0] 4 = .error .unbound := by
  decide +kernel

-- a returning parcel, relocated; disqualified because the stage is high
example : Returns (exEnv exWetWeights 8) 3 [1, 4, 7, 0] (2, 1) ∧
    checkLoop { exEnv exWetWeights 8 with stageAboveSL := fun _ => 1 } 3 [1, 4, 7, 0] 7 =
      .ok (7, true) ∧
    checkLoop (exEnv exWetWeights 8) 3 [1, 4, 7, 0] 7 = .ok (7, false) := by
  refine ⟨?_, by decide +kernel, by decide +kernel⟩
  unfold Returns; exact ⟨by decide, by decide, by decide, by decide⟩

/-! ## C14 -/

/-- Specification: array index `i` means cell `c` (Python counts negative indices from the end). -/
def Addresses {L W : ℕ} (i : ℤ) (c : Cell L W) : Prop := i = position c ∨ i + L * W = position c

instance {L W : ℕ} (i : ℤ) (c : Cell L W) : Decidable (Addresses i c) := by
  unfold Addresses; infer_instance

/-- Specification: the moves out of `c`. -/
def departures {L W : ℕ} (log : List (List StepRec)) (c : Cell L W) : List StepRec :=
  log.flatten.filter (fun r => decide (r.dir ≠ 4 ∧ Addresses r.cur c))

/-- Specification: the moves into `c`. -/
def arrivals {L W : ℕ} (log : List (List StepRec)) (c : Cell L W) : List StepRec :=
  log.flatten.filter (fun r => decide (r.dir ≠ 4 ∧ Addresses r.new1 c))

/-- Specification: the moves ending the routing at the edge cell `c`. -/
def edgeArrivals {L W : ℕ} (log : List (List StepRec)) (c : Cell L W) : List StepRec :=
  log.flatten.filter (fun r => decide (r.dir ≠ 4 ∧ r.bnd = true ∧ Addresses r.new2 c))

lemma movesAt_spec {L W : ℕ} (sel : StepRec → ℤ) (p : StepRec → Bool) (c : Cell L W)
    (rs : List StepRec) : movesAt L W sel p c rs =
      rs.filter (fun r => decide (r.dir ≠ 4 ∧ p r = true ∧ Addresses (sel r) c)) := by
  unfold movesAt
  congr 1
  funext r
  have : decide (flatCell L W (sel r) = some c) = decide (Addresses (sel r) c) := by
    rw [decide_eq_decide, flatCell_eq_some_iff]; rfl
  rw [this, Bool.eq_iff_iff]
  simp only [Bool.and_eq_true, decide_eq_true_eq]
  tauto

lemma movesAt_departures {L W : ℕ} (log : List (List StepRec)) (c : Cell L W) :
    movesAt L W (·.cur) (fun _ => true) c log.flatten = departures log c := by
  rw [movesAt_spec]; simp [departures]

lemma movesAt_arrivals {L W : ℕ} (log : List (List StepRec)) (c : Cell L W) :
    movesAt L W (·.new1) (fun _ => true) c log.flatten = arrivals log c := by
  rw [movesAt_spec]; simp [arrivals]

lemma movesAt_edge {L W : ℕ} (log : List (List StepRec)) (c : Cell L W) :
    movesAt L W (·.new2) (·.bnd) c log.flatten = edgeArrivals log c := by
  rw [movesAt_spec]; rfl

/-- Specification: length of a step, with `s2` for the square root of two. -/
def stepLength (s2 : K) (d : Fin 9) : K := if rowOff d ≠ 0 ∧ colOff d ≠ 0 then s2 else 1

lemma stepDist_spec (s2 : K) {d : Fin 9} (h : d ≠ 4) : stepDist s2 d = stepLength s2 d := by
  unfold stepDist stepLength
  rw [(walk_offsets d).1, (walk_offsets d).2]
  have := off_ne_zero h
  by_cases h1 : rowOff d = 0 <;> by_cases h2 : colOff d = 0 <;> simp_all

/-- C14, cell by cell: after routing, the magnitude increments of a cell are half a parcel's unit
discharge for every departure, every arrival, every arrival at the edge, and once if the cell is a
start cell; the direction increments are the sums of the unit vectors of these moves, plus one
downstream unit at start cells. For all draws, weights and domains. -/
theorem C14_cell_accounting {L W m : ℕ} {g : Rng K σ} {E : WEnv L W K} {inlet : Fin m → ℤ}
    {np ncols : ℕ} {s : σ} {st : WState L W K} {log : List (List StepRec)} {n : ℕ} {s' : σ}
    (hr : runWaterIteration g E inlet np ncols s = .ok (st, log, n, s')) :
    ∃ starts, getStartIndices inlet (getInletWeights inlet : Fin m → K) (drawN g np s).1 =
      some starts ∧ ∀ c : Cell L W,
      st.flux.qw c = E.Qp / E.dx / 2 * ((if ∃ i ∈ starts, Addresses i c then 1 else 0) +
        ((departures log c).length + (arrivals log c).length + (edgeArrivals log c).length : ℕ)) ∧
      st.flux.qx c = (if ∃ i ∈ starts, Addresses i c then 1 else 0) +
        ((departures log c ++ arrivals log c ++ edgeArrivals log c).map
          (fun r => (rowOff r.dir : K) / stepLength E.s2 r.dir)).sum ∧
      st.flux.qy c = ((departures log c ++ arrivals log c ++ edgeArrivals log c).map
          (fun r => (colOff r.dir : K) / stepLength E.s2 r.dir)).sum := by
  obtain ⟨starts, st0, h1, h2, h3⟩ := runWater_ok g E inlet np ncols s _ hr
  obtain ⟨-, -, -, -, -, -, -, -, -, hfl⟩ := waterStart_ok h2
  refine ⟨starts, h1, fun c => ?_⟩
  obtain ⟨a1, a2, a3, -⟩ := waterLoop_flux g E 0 st0 st _ s' log n h3 c
  rw [movesAt_departures, movesAt_arrivals, movesAt_edge] at a1 a2 a3
  have hd : ∀ l : List StepRec, (∀ r ∈ l, r.dir ≠ 4) →
      (l.map (fun r => (jwalk r.dir : K) / stepDist E.s2 r.dir)).sum =
        (l.map (fun r => (rowOff r.dir : K) / stepLength E.s2 r.dir)).sum ∧
      (l.map (fun r => (iwalk r.dir : K) / stepDist E.s2 r.dir)).sum =
        (l.map (fun r => (colOff r.dir : K) / stepLength E.s2 r.dir)).sum := by
    intro l hl
    constructor
    · congr 1
      apply List.map_congr_left
      intro r hr
      rw [stepDist_spec _ (hl r hr), (walk_offsets r.dir).1]
    · congr 1
      apply List.map_congr_left
      intro r hr
      rw [stepDist_spec _ (hl r hr), (walk_offsets r.dir).2]
  have m1 : ∀ r ∈ departures log c, r.dir ≠ 4 := by
    intro r hr; have := (List.mem_filter.mp hr).2; simp only [decide_eq_true_eq] at this; exact this.1
  have m2 : ∀ r ∈ arrivals log c, r.dir ≠ 4 := by
    intro r hr; have := (List.mem_filter.mp hr).2; simp only [decide_eq_true_eq] at this; exact this.1
  have m3 : ∀ r ∈ edgeArrivals log c, r.dir ≠ 4 := by
    intro r hr; have := (List.mem_filter.mp hr).2; simp only [decide_eq_true_eq] at this; exact this.1
  rw [(hd _ m1).1, (hd _ m2).1, (hd _ m3).1] at a2
  rw [(hd _ m1).2, (hd _ m2).2, (hd _ m3).2] at a3
  have hstart : ∀ v : K, fancyAdd (fun _ => 0) starts v c =
      if ∃ i ∈ starts, Addresses i c then v else 0 := by
    intro v
    unfold fancyAdd
    have : (starts.any (fun i => decide (flatCell L W i = some c)) = true) ↔
        ∃ i ∈ starts, Addresses i c := by
      rw [List.any_eq_true]
      simp only [decide_eq_true_eq, flatCell_eq_some_iff]
      rfl
    by_cases hh : ∃ i ∈ starts, Addresses i c
    · rw [if_pos (this.mpr hh), if_pos hh, zero_add]
    · rw [if_neg (fun h => hh (this.mp h)), if_neg hh]
  rw [hfl] at a1 a2 a3
  simp only [hstart] at a1 a2 a3
  simp only [List.map_append, List.sum_append]
  refine ⟨?_, a2, ?_⟩
  · rw [a1, mul_add]
    congr 1
    split <;> simp
  · rw [a3]
    split <;> simp

/-- C14, total: the magnitude increments of all cells add up to half a parcel's unit discharge
for every departure and every arrival (both equal the number of moves), for every arrival at the
edge, and for every distinct start cell. -/
theorem C14_total {L W m : ℕ} {g : Rng K σ} {E : WEnv L W K} {inlet : Fin m → ℤ}
    {np ncols : ℕ} {s : σ} {st : WState L W K} {log : List (List StepRec)} {n : ℕ} {s' : σ}
    (hr : runWaterIteration g E inlet np ncols s = .ok (st, log, n, s')) :
    ∃ starts, getStartIndices inlet (getInletWeights inlet : Fin m → K) (drawN g np s).1 =
      some starts ∧ ∑ c : Cell L W, st.flux.qw c =
        E.Qp / E.dx / 2 * ((Finset.univ.filter
            (fun c : Cell L W => ∃ i ∈ starts, Addresses i c)).card +
          (2 * (log.flatten.filter (fun r => decide (r.dir ≠ 4))).length +
          (log.flatten.filter (fun r => decide (r.dir ≠ 4 ∧ r.bnd = true))).length : ℕ)) := by
  obtain ⟨starts, h1, hcell⟩ := C14_cell_accounting hr
  refine ⟨starts, h1, ?_⟩
  obtain ⟨starts', st0, h1', h2, h3⟩ := runWater_ok g E inlet np ncols s _ hr
  have hvalid : ∀ r ∈ log.flatten, r.dir ≠ 4 → (∃ c', flatCell L W r.cur = some c') ∧
      (∃ c', flatCell L W r.new1 = some c') ∧
      (r.bnd = true → ∃ c', flatCell L W r.new2 = some c') := by
    intro r hrm hd
    have hex : Nonempty (Cell L W) := by
      by_contra hcon
      obtain ⟨-, -, -, -, -, -, -, -, hmap, -⟩ := waterStart_ok h2
      obtain ⟨hv, -⟩ := waterStart_ok h2
      rw [not_nonempty_iff] at hcon
      -- no cells: no parcels, hence no records
      have hnil : starts' = [] := by
        rcases starts' with _ | ⟨x, xs⟩
        · rfl
        · obtain ⟨c, -⟩ := hv x List.mem_cons_self
          exact (hcon.false c).elim
      have : log = [] := by
        unfold waterLoop at h3
        rw [if_neg] at h3
        · simp only [Except.ok.injEq, Prod.mk.injEq] at h3
          exact h3.2.1.symm
        · rw [hmap, hnil]; simp
      rw [this] at hrm
      simp at hrm
    obtain ⟨c⟩ := hex
    exact (waterLoop_flux g E 0 st0 st _ s' log n h3 c).2.2.2 r hrm hd
  rw [Finset.sum_congr rfl (fun c _ => (hcell c).1), ← Finset.mul_sum, Finset.sum_add_distrib]
  congr 1
  have e1 : ∑ c : Cell L W, (departures log c).length =
      (log.flatten.filter (fun r => decide (r.dir ≠ 4))).length := by
    have := movesAt_total L W (·.cur) (fun _ => true) log.flatten
      (fun r hr _ hd => (hvalid r hr hd).1)
    simp only [movesAt_departures] at this
    rw [this]; simp
  have e2 : ∑ c : Cell L W, (arrivals log c).length =
      (log.flatten.filter (fun r => decide (r.dir ≠ 4))).length := by
    have := movesAt_total L W (·.new1) (fun _ => true) log.flatten
      (fun r hr _ hd => (hvalid r hr hd).2.1)
    simp only [movesAt_arrivals] at this
    rw [this]; simp
  have e3 : ∑ c : Cell L W, (edgeArrivals log c).length =
      (log.flatten.filter (fun r => decide (r.dir ≠ 4 ∧ r.bnd = true))).length := by
    have := movesAt_total L W (·.new2) (·.bnd) log.flatten
      (fun r hr hb hd => (hvalid r hr hd).2.2 hb)
    simp only [movesAt_edge] at this
    rw [this]
    congr 2
    funext r
    rw [Bool.eq_iff_iff]
    simp only [Bool.and_eq_true, decide_eq_true_eq]
    tauto
  congr 1
  · rw [Finset.sum_boole]
  · rw [← Nat.cast_sum, Finset.sum_add_distrib, Finset.sum_add_distrib, e1, e2, e3]
    congr 1; ring

/-- C14: the start flux is counted once per start cell, not once per parcel: two parcels from the
same inlet cell give that cell the increments of one start (2), two departures (2 + 2). -/
theorem C14_start_duplicates_witness :
    (runWaterIteration constRng (exEnv exWetWeights 8) (fun _ : Fin 1 => 1) 2 4 ()).map
      (fun r => (r.1.flux.qw (0, 1), r.1.flux.qw (1, 1), r.1.flux.qw (3, 1))) =
      .ok (6, 8, 8) := by decide +kernel

-- one parcel straight down: three moves, one of them to the edge, one start cell
example : (runWaterIteration constRng (exEnv exWetWeights 8) (fun _ : Fin 1 => 1) 1 4 ()).map
    (fun r => (∑ c, r.1.flux.qw c, (departures r.2.1 ((1, 1) : Cell 4 3)).length,
      (arrivals r.2.1 ((1, 1) : Cell 4 3)).length, (edgeArrivals r.2.1 ((3, 1) : Cell 4 3)).length))
    = .ok (16, 1, 1, 1) := by decide +kernel

/-! ## C69: water entering at the inlet -/

/-- C69, under a condition: if the parcels start in different cells, the start flux of the whole
iteration is half a parcel's unit discharge per parcel. Missing: parcels sharing a start cell,
for which it is false (`C69_fewer_starts`). -/
theorem C69_start_flux_partial {L W : ℕ} {E : WEnv L W K} {ncols : ℕ} {starts : List ℤ}
    {st : WState L W K} (h : waterStart E ncols starts = .ok st) (hd : starts.Nodup)
    (hnn : ∀ i ∈ starts, 0 ≤ i) :
    ∑ c : Cell L W, st.flux.qw c = E.Qp / E.dx / 2 * starts.length := by
  obtain ⟨hv, -, -, -, -, -, -, -, -, hfl⟩ := waterStart_ok h
  rw [hfl]
  simp only
  clear hfl h
  have hcount : (Finset.univ.filter (fun c : Cell L W =>
      starts.any (fun i => decide (flatCell L W i = some c)) = true)).card = starts.length := by
    induction starts with
    | nil => simp
    | cons i is ih =>
      obtain ⟨c0, hc0⟩ := hv i List.mem_cons_self
      have ih' := ih (List.nodup_cons.mp hd).2 (fun j hj => hnn j (List.mem_cons_of_mem _ hj))
        (fun j hj => hv j (List.mem_cons_of_mem _ hj))
      have hnot : c0 ∉ Finset.univ.filter (fun c : Cell L W =>
          is.any (fun i => decide (flatCell L W i = some c)) = true) := by
        intro hm
        simp only [Finset.mem_filter, Finset.mem_univ, true_and, List.any_eq_true,
          decide_eq_true_eq] at hm
        obtain ⟨j, hj, hjc⟩ := hm
        have e1 := flatCell_some_nonneg (hnn j (List.mem_cons_of_mem _ hj)) hjc
        have e2 := flatCell_some_nonneg (hnn i List.mem_cons_self) hc0
        apply (List.nodup_cons.mp hd).1
        rw [e2, ← e1]; exact hj
      have hset : Finset.univ.filter (fun c : Cell L W =>
          (i :: is).any (fun i => decide (flatCell L W i = some c)) = true) =
          insert c0 (Finset.univ.filter (fun c : Cell L W =>
          is.any (fun i => decide (flatCell L W i = some c)) = true)) := by
        ext c
        simp only [Finset.mem_filter, Finset.mem_univ, true_and, List.any_cons, Bool.or_eq_true,
          decide_eq_true_eq, Finset.mem_insert, hc0, Option.some.injEq]
        constructor
        · rintro (h | h)
          · exact .inl h.symm
          · exact .inr h
        · rintro (h | h)
          · exact .inl h.symm
          · exact .inr h
      rw [hset, Finset.card_insert_of_notMem hnot, ih', List.length_cons]
  unfold fancyAdd
  simp only [zero_add]
  rw [← hcount, Finset.sum_ite, Finset.sum_const, Finset.sum_const_zero, add_zero, nsmul_eq_mul,
    mul_comm]

/-- C69 fails whenever there are more parcels than inlet cells: the start flux of the iteration
is at most that of one parcel per inlet cell. -/
theorem C69_fewer_starts {L W m : ℕ} {E : WEnv L W K} {ncols : ℕ} {starts : List ℤ}
    {st : WState L W K} (h : waterStart E ncols starts = .ok st) (inlet : Fin m → ℤ)
    (hin : ∀ i ∈ starts, ∃ k, i = inlet k) (hm : m < starts.length) (hQ : 0 < E.Qp) (hdx : 0 < E.dx) :
    ∑ c : Cell L W, st.flux.qw c ≤ E.Qp / E.dx / 2 * m ∧
    ∑ c : Cell L W, st.flux.qw c < E.Qp / E.dx / 2 * starts.length := by
  have key : ∑ c : Cell L W, st.flux.qw c ≤ E.Qp / E.dx / 2 * m := by
    obtain ⟨hv, -, -, -, -, -, -, -, -, hfl⟩ := waterStart_ok h
    rw [hfl]
    simp only
    unfold fancyAdd
    simp only [zero_add]
    rw [Finset.sum_ite, Finset.sum_const, Finset.sum_const_zero, add_zero, nsmul_eq_mul, mul_comm]
    apply mul_le_mul_of_nonneg_left _ (by positivity)
    have hcard : (Finset.univ.filter (fun c : Cell L W =>
        starts.any (fun i => decide (flatCell L W i = some c)) = true)).card ≤ m := by
      have hsub : (Finset.univ.filter (fun c : Cell L W =>
          starts.any (fun i => decide (flatCell L W i = some c)) = true)).image some ⊆
          (Finset.univ : Finset (Fin m)).image (fun k => flatCell L W (inlet k)) := by
        intro o ho
        simp only [Finset.mem_image, Finset.mem_filter, Finset.mem_univ, true_and, List.any_eq_true,
          decide_eq_true_eq] at ho ⊢
        obtain ⟨c, ⟨i, hi, hc⟩, rfl⟩ := ho
        obtain ⟨k, rfl⟩ := hin i hi
        exact ⟨k, hc⟩
      calc _ = _ := (Finset.card_image_of_injective _ (Option.some_injective _)).symm
        _ ≤ _ := Finset.card_le_card hsub
        _ ≤ _ := Finset.card_image_le
        _ = m := by simp
    exact_mod_cast hcard
  refine ⟨key, lt_of_le_of_lt key ?_⟩
  apply mul_lt_mul_of_pos_left _ (by positivity)
  exact_mod_cast hm

-- two parcels in two cells; two parcels in one cell
example : (waterStart (exEnv exWetWeights 8) 4 [1, 4]).map (fun st => ∑ c, st.flux.qw c) = .ok 4 ∧
    (waterStart (exEnv exWetWeights 8) 4 [1, 1]).map (fun st => ∑ c, st.flux.qw c) = .ok 2 := by
  constructor <;> decide +kernel

/-! ## C70: where water parcels end -/

/-- C70, under a condition: if no active cell gives a parcel a chance to stay in place (by C07 this
holds wherever an admissible wet neighbour exists), every step of an active parcel either goes on
from a domain cell or ends the routing at an edge cell or upstream. Missing: cells without wet
neighbours, where the parcel can vanish inside the domain (`C70_vanish_witness`). -/
theorem C70_end_partial {L W m : ℕ} {g : Rng K σ} {E : WEnv L W K} {inlet : Fin m → ℤ}
    {np ncols : ℕ} {s : σ} {st : WState L W K} {log : List (List StepRec)} {n : ℕ} {s' : σ}
    (hr : WaterRun g E inlet np ncols s st log n s')
    (hstay : ∀ c : Cell L W, IsActive E c → E.weights c 4 = 0)
    (k : ℕ) (hk : k < log.length) (r : StepRec) (hrm : r ∈ log[k]) (hcur : r.cur ≠ 0) :
    (r.bnd = false ∧ ∃ c : Cell L W, r.new2 = position c ∧ IsActive E c) ∨
    (r.bnd = true ∧ ∃ c : Cell L W, r.new2 = position c ∧ E.cellType c = -1) ∨
    (r.bnd = true ∧ r.new2 < 0 ∧ ∃ c : Cell L W, r.cur = position c ∧ c.1.val = 0) := by
  cases (run_kinds hr).1 k hk r hrm with
  | finished h _ _ _ _ => exact absurd h hcur
  | stay c _ ha hw _ _ _ _ => rw [hstay c ha] at hw; exact absurd hw (lt_irrefl _)
  | move c nb h1 ha _ hl _ _ h4 _ hb =>
    by_cases hbb : r.bnd = true
    · exact .inr (.inl ⟨hbb, nb, h4, hb.mp hbb⟩)
    · exact .inl ⟨by simpa using hbb, nb, h4, fun h => hbb (hb.mpr h), hl⟩
  | relocate c nb t h1 ha _ _ _ _ h4 _ _ _ _ hl hb =>
    by_cases hbb : r.bnd = true
    · exact .inr (.inl ⟨hbb, t, h4, hb.mp hbb⟩)
    · exact .inl ⟨by simpa using hbb, t, h4, fun h => hbb (hb.mpr h), hl⟩
  | exit c h1 _ h2 _ _ h3 h4 _ hb => exact .inr (.inr ⟨hb, by rw [h4]; exact h3, c, h1, h2⟩)

/-- C70 fails: with the weights computed on a dry domain a parcel chooses to stay, and its routing
ends in the middle of the domain. -/
theorem C70_vanish_witness :
    (runWaterIteration listRng (exEnv exDryWeights 8) (fun _ : Fin 1 => 1) 1 4 [1/2, 1/2]).map
      (fun r => (r.2.1.map (·.map (·.cur)), r.2.1.map (·.map (·.new2)), r.2.1.map (·.map (·.bnd)))) =
      .ok ([[1]], [[0]], [[false]]) := by decide +kernel

-- the condition holds for the wet example
example : ∀ c : Cell 4 3, IsActive (exEnv exWetWeights 8) c → exWetWeights c 4 = 0 := by
  intro c hc
  have h1 : exType c ≠ -1 := hc.1
  have h2 : exType c ≠ -2 := hc.2
  clear hc
  revert c
  decide +kernel

end Verif.Props
