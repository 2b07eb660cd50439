import Verif.Spec.Blobs
import Verif.Props.DocClasses
import Mathlib.Analysis.Real.Pi.Bounds

/-!
# C122: the class of the documentation that adds blobs to the bed
-/

set_option linter.unusedSectionVars false
set_option linter.unusedSimpArgs false

namespace Verif.Props

open Verif.Model Verif.Lemmas Verif.Spec

variable {K : Type*} [Field K] [LinearOrder K] [IsStrictOrderedRing K] [FloorRing K] {σ : Type*} {L W m : ℕ}
  [NeZero L] [NeZero W]

/-- What is left as it is. -/
def BedOnly (c c' : Custom L W m K (Noise K) σ) : Prop :=
  c' = { c with S := { c.S with eta := c'.S.eta, stage := c'.S.stage, depth := c'.S.depth, sandFrac := c'.S.sandFrac, activeLayer := c'.S.activeLayer, HSL := c'.S.HSL, time := c'.S.time, timeIter := c'.S.timeIter }, rng := c'.rng }

lemma BedOnly.trans {c d e : Custom L W m K (Noise K) σ} (h : BedOnly c d) (h' : BedOnly d e) : BedOnly c e := by
  unfold BedOnly at *
  rw [h']
  rw [h]

lemma begins_of {u : K} (h0 : 0 ≤ u) {n p : ℕ} (hp : p ≤ n) :
    ∃ r : ℕ, ⌊u * ((n : K) - p)⌋ = (r : ℤ) ∧ Begins u n p r := by
  have hnp : (0 : K) ≤ (n : K) - p := by
    have : (p : K) ≤ n := by exact_mod_cast hp
    linarith
  have h : 0 ≤ ⌊u * ((n : K) - p)⌋ := Int.floor_nonneg.2 (mul_nonneg h0 hnp)
  obtain ⟨r, hr⟩ := Int.eq_ofNat_of_zero_le h
  refine ⟨r, hr, ?_, ?_⟩
  · have := Int.floor_le (u * ((n : K) - p))
    rw [hr] at this
    exact_mod_cast this
  · have := Int.lt_floor_add_one (u * ((n : K) - p))
    rw [hr] at this
    exact_mod_cast this

/-- A patch is inside the domain. -/
lemma begins_fits {u : K} (h1 : u < 1) {n p r : ℕ} (hp : p ≤ n) (h : Begins u n p r) : r + p ≤ n := by
  have hnp : (0 : K) ≤ (n : K) - p := by
    have : (p : K) ≤ n := by exact_mod_cast hp
    linarith
  have h2 : u * ((n : K) - p) ≤ (n : K) - p := by nlinarith
  have h3 : (r : K) + p ≤ n := by linarith [h.1]
  exact_mod_cast h3

/-- A patch smaller than the domain does not reach its end. -/
lemma begins_short {u : K} (h1 : u < 1) {n p r : ℕ} (hp : p < n) (h : Begins u n p r) : r + p < n := by
  have hnp : (0 : K) < (n : K) - p := by
    have : (p : K) < n := by exact_mod_cast hp
    linarith
  have h2 : u * ((n : K) - p) < (n : K) - p := by nlinarith
  have h3 : (r : K) + p < n := by linarith [h.1]
  exact_mod_cast h3

lemma begins_unique {u : K} {n p r r' : ℕ} (h : Begins u n p r) (h' : Begins u n p r') : r = r' := by
  have a : (r : K) < r' + 1 := lt_of_le_of_lt h.1 h'.2
  have b : (r' : K) < r + 1 := lt_of_le_of_lt h'.1 h.2
  have a' : r < r' + 1 := by exact_mod_cast a
  have b' : r' < r + 1 := by exact_mod_cast b
  omega

/-- One update. -/
lemma blob_step {ex : K → K} {pi : K} {g : Rng K σ} (hg : UnitDraws g) {c : Custom L W m K (Noise K) σ} (hL : c.extra.patch ≤ L)
    (hW : c.extra.patch ≤ W) :
    ∃ c', customStep (blobClass ex pi g) g c = .ok c' ∧ BedOnly c c' ∧ c'.rng = (fun s => (g.next s).2)^[3] c.rng ∧
      c'.S.time = c.S.time + c.P.dt ∧ c'.S.timeIter = c.S.timeIter + 1 ∧ c'.S.HSL = c.S.HSL + c.P.SLR * c.P.dt ∧
      ∃ r q, Begins (numberAt g c.rng 0) L c.extra.patch r ∧ Begins (numberAt g c.rng 1) W c.extra.patch q ∧
        (∀ a, isInlet c.P.inlet a = false → c'.S.eta a = c.S.eta a + heapAt (c.extra.blob ex pi) c.extra.patch r q a -
          if c.P.toggleSub = true ∧ c.P.startSub ≤ c.S.time then c.P.sigma a else 0) ∧
        (∀ a, isInlet c.P.inlet a = true → c'.S.eta a = c'.S.stage a - c.P.h0 ∧ c'.S.depth a = c.P.h0) ∧
        (∀ a, c.S.HSL ≤ c'.S.stage a) ∧
        ∃ S1, c'.S.sandFrac = (computeSandFrac c.P c.eta0 S1).sandFrac ∧
          c'.S.activeLayer = (computeSandFrac c.P c.eta0 S1).activeLayer ∧ S1.eta = c'.S.eta ∧
          S1.sandFrac = c.S.sandFrac ∧ S1.activeLayer = c.S.activeLayer ∧ S1.depSand = c.S.depSand ∧
          S1.depMud = c.S.depMud := by
  obtain ⟨r, hr, hr'⟩ := begins_of (hg c.rng).1 hL
  obtain ⟨q, hq, hq'⟩ := begins_of (hg (g.next c.rng).2).1 hW
  have hn : ¬ (L < c.extra.patch ∨ W < c.extra.patch) := by omega
  have hb : ∀ e, blobAct ex pi g c = e → e = .ok { c with S := { c.S with eta := fun a => c.S.eta a + heapAt (c.extra.blob ex pi) c.extra.patch r q a }, rng := (g.next (g.next (g.next c.rng).2).2).2 } := by
    intro e he
    rw [← he]
    simp only [blobAct, if_neg hn, hr, hq]
    congr 3
    funext a
    unfold heapAt
    by_cases h : InPatch c.extra.patch r q a
    · have h2 : ((r : ℤ) ≤ a.1.val ∧ (a.1.val : ℤ) < r + c.extra.patch) ∧ (q : ℤ) ≤ a.2.val ∧ (a.2.val : ℤ) < q + c.extra.patch := by
        unfold InPatch at h
        omega
      rw [if_pos h2, if_pos h]
      unfold InPatch at h
      have e1 : ((a.1.val : ℤ) - r).toNat = a.1.val - r := by omega
      have e2 : ((a.2.val : ℤ) - q).toNat = a.2.val - q := by omega
      rw [e1, e2]
    · have h2 : ¬ (((r : ℤ) ≤ a.1.val ∧ (a.1.val : ℤ) < r + c.extra.patch) ∧ (q : ℤ) ≤ a.2.val ∧ (a.2.val : ℤ) < q + c.extra.patch) := by
        unfold InPatch at h
        omega
      rw [if_neg h2, if_neg h, add_zero]
  have hb' := hb _ rfl
  have hs : customStep (blobClass ex pi g) g c = Doing.andThen (blobAct ex pi g) (Doing.andThen subsidenceAct
      (Doing.andThen settleAct (Doing.andThen sandFracAct (Doing.andThen seaLevelAct clockAct)))) c := by
    simp only [customStep, invoke, blobClass, plainClass, Doing.andThen, Option.getD, finalizeAct]
    rfl
  rw [hs, Doing.andThen, hb']
  have hsub : applySubsidence c.P { c.S with eta := fun a => c.S.eta a + heapAt (c.extra.blob ex pi) c.extra.patch r q a } =
      { c.S with eta := fun a => c.S.eta a + heapAt (c.extra.blob ex pi) c.extra.patch r q a - if c.P.toggleSub = true ∧ c.P.startSub ≤ c.S.time then c.P.sigma a else 0 } := by
    unfold applySubsidence
    by_cases h1 : c.P.toggleSub = true
    · by_cases h2 : c.P.startSub ≤ c.S.time
      · simp [h1, h2]
      · simp [h1, h2]
    · simp [h1]
  simp only [Doing.andThen, subsidenceAct, hsub]
  refine ⟨_, rfl, rfl, rfl, rfl, rfl, rfl, r, q, hr', hq', ?_, ?_, ?_, ?_⟩
  · intro a ha
    simp only [computeSandFrac, assign, ha, Bool.false_eq_true, if_false]
  · intro a ha
    simp only [computeSandFrac, assign, ha, if_true, and_self]
  · intro a
    exact le_max_right _ _
  · exact ⟨_, rfl, rfl, rfl, rfl, rfl, rfl, rfl⟩

lemma number_later (g : Rng K σ) (s : σ) (i j : ℕ) : numberAt g ((fun s => (g.next s).2)^[i] s) j = numberAt g s (i + j) := by
  unfold numberAt
  rw [Nat.add_comm, Function.iterate_add_apply]

lemma lateSteps_succ (start t dt : K) (n : ℕ) :
    lateSteps start t dt (n + 1) = lateSteps start t dt n + if start ≤ t + n * dt then 1 else 0 := by
  unfold lateSteps
  rw [Finset.range_add_one, Finset.filter_insert]
  split_ifs with h
  · rw [Finset.card_insert_of_notMem (by simp)]
  · simp

/-- C122: updates of such a model never fail if the patch fits into the domain. Each update uses three random numbers; the first
two give the place of the patch, which is inside the domain, and the third is not used. After any number of updates the bed of
every cell outside the inlet is what it was, plus the blobs of all patches that covered the cell, minus the subsidence of the updates
that began when it had set in. The clock and the sea level go on, and the flow of water and sediment stay what they
were. -/
theorem C122_run {ex : K → K} {pi : K} {g : Rng K σ} (hg : UnitDraws g) {c : Custom L W m K (Noise K) σ} (hL : c.extra.patch ≤ L)
    (hW : c.extra.patch ≤ W) (n : ℕ) :
    ∃ c', customRun (blobClass ex pi g) g n c = .ok c' ∧ BedOnly c c' ∧ c'.rng = (fun s => (g.next s).2)^[3 * n] c.rng ∧
      c'.S.time = c.S.time + n * c.P.dt ∧ c'.S.timeIter = c.S.timeIter + n ∧ c'.S.HSL = c.S.HSL + n * (c.P.SLR * c.P.dt) ∧
      ∃ rows cols : ℕ → ℕ,
        (∀ k < n, Begins (numberAt g c.rng (3 * k)) L c.extra.patch (rows k) ∧ rows k + c.extra.patch ≤ L ∧
          Begins (numberAt g c.rng (3 * k + 1)) W c.extra.patch (cols k) ∧ cols k + c.extra.patch ≤ W) ∧
        ∀ a, isInlet c.P.inlet a = false → c'.S.eta a = c.S.eta a +
          ∑ k ∈ Finset.range n, heapAt (c.extra.blob ex pi) c.extra.patch (rows k) (cols k) a -
          if c.P.toggleSub = true then lateSteps c.P.startSub c.S.time c.P.dt n * c.P.sigma a else 0 := by
  induction n with
  | zero =>
    refine ⟨c, rfl, rfl, rfl, by simp, rfl, by simp, fun _ => 0, fun _ => 0, fun k hk => by omega, fun a _ => ?_⟩
    simp [lateSteps]
  | succ n ih =>
    obtain ⟨d, e1, e2, e3, e4, e5, e6, rows, cols, e7, e8⟩ := ih
    have hP : d.P = c.P := by rw [e2]
    have hx : d.extra = c.extra := by rw [e2]
    obtain ⟨c', f1, f2, f3, f4, f5, f6, r, q, f7, f8, f9, -⟩ := blob_step (ex := ex) (pi := pi) hg (c := d) (by rw [hx]; exact hL)
      (by rw [hx]; exact hW)
    rw [hP, hx] at *
    have n0 : numberAt g d.rng 0 = numberAt g c.rng (3 * n) := by
      rw [e3, number_later]
      rfl
    have n1 : numberAt g d.rng 1 = numberAt g c.rng (3 * n + 1) := by
      rw [e3, number_later]
    rw [n0] at f7
    rw [n1] at f8
    refine ⟨c', ?_, e2.trans f2, ?_, ?_, ?_, ?_, fun k => if k < n then rows k else r, fun k => if k < n then cols k else q, ?_, ?_⟩
    · rw [run_last]
      simp only [Doing.andThen, e1, f1]
    · rw [f3, e3, ← Function.iterate_add_apply]
      congr 1
      omega
    · rw [f4, e4]
      push_cast
      ring
    · rw [f5, e5]
      rfl
    · rw [f6, e6]
      push_cast
      ring
    · intro k hk
      by_cases h : k < n
      · simp only [if_pos h]
        exact e7 k h
      · obtain rfl : k = n := by omega
        simp only [if_neg h]
        exact ⟨f7, begins_fits (hg _).2 hL f7, f8, begins_fits (hg _).2 hW f8⟩
    · intro a ha
      rw [f9 a ha, e8 a ha, Finset.sum_range_succ, lateSteps_succ, e4]
      have hsum : ∑ k ∈ Finset.range n, heapAt (c.extra.blob ex pi) c.extra.patch (if k < n then rows k else r) (if k < n then cols k else q) a =
          ∑ k ∈ Finset.range n, heapAt (c.extra.blob ex pi) c.extra.patch (rows k) (cols k) a := by
        refine Finset.sum_congr rfl fun k hk => ?_
        simp only [if_pos (Finset.mem_range.1 hk)]
      rw [hsum]
      simp only [lt_irrefl, if_false]
      by_cases h1 : c.P.toggleSub = true
      · by_cases h2 : c.P.startSub ≤ c.S.time + n * c.P.dt
        · simp only [h1, h2, and_self, if_true]
          push_cast
          ring
        · simp only [h1, h2, and_false, if_true, if_false]
          push_cast
          ring
      · rw [if_neg h1, if_neg (fun h : _ ∧ _ => h1 h.1), if_neg h1]
        ring

/-- C122: in a domain with fewer rows or columns than the patch, the first update fails. -/
theorem C122_small {ex : K → K} {pi : K} {g : Rng K σ} {c : Custom L W m K (Noise K) σ} (h : L < c.extra.patch ∨ W < c.extra.patch)
    (n : ℕ) : ∃ e, customRun (blobClass ex pi g) g (n + 1) c = .error e := by
  refine ⟨.index, ?_⟩
  have hb : blobAct (L := L) (W := W) (m := m) ex pi g c = .error .index := by
    simp only [blobAct, if_pos h]
  change Doing.andThen (customStep (blobClass ex pi g) g) (customRun (blobClass ex pi g) g n) c = _
  have hs : customStep (blobClass ex pi g) g c = .error .index := by
    change Doing.andThen (Doing.andThen .ok (blobAct ex pi g)) _ c = _
    simp only [Doing.andThen, hb]
  simp only [Doing.andThen, hs]

/-- C122: "rescale to fit inside domain": in a domain with more rows than the patch, no blob ever reaches the last row, and likewise
the last column; their bed changes by subsidence alone. -/
theorem C122_last {ex : K → K} {pi : K} {g : Rng K σ} (hg : UnitDraws g) {c c' : Custom L W m K (Noise K) σ} (hL : c.extra.patch ≤ L)
    (hW : c.extra.patch ≤ W) {n : ℕ} (h : customRun (blobClass ex pi g) g n c = .ok c') {a : Cell L W}
    (ha : isInlet c.P.inlet a = false)
    (he : (a.1.val + 1 = L ∧ c.extra.patch < L) ∨ (a.2.val + 1 = W ∧ c.extra.patch < W)) :
    c'.S.eta a = c.S.eta a -
      if c.P.toggleSub = true then lateSteps c.P.startSub c.S.time c.P.dt n * c.P.sigma a else 0 := by
  obtain ⟨d, e1, -, -, -, -, -, rows, cols, e7, e8⟩ := C122_run (ex := ex) (pi := pi) hg hL hW n
  rw [h] at e1
  cases e1
  rw [e8 a ha]
  have : ∑ k ∈ Finset.range n, heapAt (c.extra.blob ex pi) c.extra.patch (rows k) (cols k) a = 0 := by
    refine Finset.sum_eq_zero fun k hk => ?_
    obtain ⟨b1, -, b2, -⟩ := e7 k (Finset.mem_range.1 hk)
    unfold heapAt
    rw [if_neg]
    rintro ⟨h1, h2, h3, h4⟩
    rcases he with ⟨h5, h6⟩ | ⟨h5, h6⟩
    · have := begins_short (hg _).2 h6 b1
      omega
    · have := begins_short (hg _).2 h6 b2
      omega
  rw [this, add_zero]

/-- C122: the heights of the blobs are positive. -/
lemma blob_pos {ex : K → K} (hex : ∀ x, 0 < ex x) {pi : K} (hpi : 0 < pi) {N : Noise K} (hs : 0 < N.size) (hz : 0 < N.scale)
    (i j : ℕ) : 0 < N.blob ex pi i j := by
  unfold Noise.blob
  have := hex (-(N.coord j ^ 2 / (2 * N.size ^ 2) + N.coord i ^ 2 / (2 * N.size ^ 2)))
  positivity

/-- C122: without subsidence the bed never falls outside the inlet, and it has risen after any number of updates exactly
where a blob has been. -/
theorem C122_rises {ex : K → K} (hex : ∀ x, 0 < ex x) {pi : K} (hpi : 0 < pi) {g : Rng K σ} (hg : UnitDraws g)
    {c c' : Custom L W m K (Noise K) σ} (hs : 0 < c.extra.size) (hz : 0 < c.extra.scale) (hL : c.extra.patch ≤ L)
    (hW : c.extra.patch ≤ W) (ht : c.P.toggleSub = false) {n : ℕ} (h : customRun (blobClass ex pi g) g n c = .ok c') {a : Cell L W}
    (ha : isInlet c.P.inlet a = false) :
    c.S.eta a ≤ c'.S.eta a ∧ (c.S.eta a < c'.S.eta a ↔ ∃ k < n, ∃ r q, Begins (numberAt g c.rng (3 * k)) L c.extra.patch r ∧
      Begins (numberAt g c.rng (3 * k + 1)) W c.extra.patch q ∧ InPatch c.extra.patch r q a) := by
  obtain ⟨d, e1, -, -, -, -, -, rows, cols, e7, e8⟩ := C122_run (ex := ex) (pi := pi) hg hL hW n
  rw [h] at e1
  cases e1
  rw [e8 a ha, ht]
  simp only [Bool.false_eq_true, if_false, sub_zero]
  have hn : ∀ k ∈ Finset.range n, 0 ≤ heapAt (c.extra.blob ex pi) c.extra.patch (rows k) (cols k) a := by
    intro k _
    unfold heapAt
    split_ifs
    · exact (blob_pos hex hpi hs hz _ _).le
    · exact le_refl _
  refine ⟨by linarith [Finset.sum_nonneg hn], ?_⟩
  rw [lt_add_iff_pos_right, Finset.sum_pos_iff_of_nonneg hn]
  constructor
  · rintro ⟨k, hk, hp⟩
    refine ⟨k, Finset.mem_range.1 hk, rows k, cols k, (e7 k (Finset.mem_range.1 hk)).1, (e7 k (Finset.mem_range.1 hk)).2.2.1, ?_⟩
    by_contra hc
    unfold heapAt at hp
    rw [if_neg hc] at hp
    exact lt_irrefl _ hp
  · rintro ⟨k, hk, r, q, b1, b2, b3⟩
    refine ⟨k, Finset.mem_range.2 hk, ?_⟩
    rw [begins_unique (e7 k hk).1 b1, begins_unique (e7 k hk).2.2.1 b2]
    unfold heapAt
    rw [if_pos b3]
    exact blob_pos hex hpi hs hz _ _

/-- C122: "use get_random_uniform for reproducibility": two such models of the same size and with the same attributes whose
generators give the same numbers raise the bed by the same amounts, whatever else is different, if neither subsides. -/
theorem C122_same {τ : Type*} {ex : K → K} {pi : K} {g : Rng K σ} (hg : UnitDraws g) {g' : Rng K τ} (hg' : UnitDraws g')
    {c d : Custom L W m K (Noise K) σ} {c' d' : Custom L W m K (Noise K) τ} (hL : c.extra.patch ≤ L) (hW : c.extra.patch ≤ W)
    (hx : c'.extra = c.extra) (ht : c.P.toggleSub = false) (ht' : c'.P.toggleSub = false)
    (hs : ∀ i, numberAt g c.rng i = numberAt g' c'.rng i) {n : ℕ}
    (h : customRun (blobClass ex pi g) g n c = .ok d) (h' : customRun (blobClass ex pi g') g' n c' = .ok d') {a : Cell L W}
    (ha : isInlet c.P.inlet a = false) (ha' : isInlet c'.P.inlet a = false) :
    d.S.eta a - c.S.eta a = d'.S.eta a - c'.S.eta a := by
  obtain ⟨e, e1, -, -, -, -, -, rows, cols, e7, e8⟩ := C122_run (ex := ex) (pi := pi) hg hL hW n
  rw [h] at e1
  cases e1
  obtain ⟨e, f1, -, -, -, -, -, rows', cols', f7, f8⟩ := C122_run (ex := ex) (pi := pi) hg' (c := c') (by rw [hx]; exact hL)
    (by rw [hx]; exact hW) n
  rw [h'] at f1
  cases f1
  rw [e8 a ha, f8 a ha', ht, ht', hx] at *
  simp only [Bool.false_eq_true, if_false, sub_zero, add_sub_cancel_left]
  refine Finset.sum_congr rfl fun k hk => ?_
  have hk := Finset.mem_range.1 hk
  have b := e7 k hk
  have b' := f7 k hk
  rw [hs, hs] at b
  rw [begins_unique b.1 b'.1, begins_unique b.2.2.1 b'.2.2.1]

/-- C122: the sand fraction. The class does not keep the bed of the beginning of a timestep, so that the bed is compared with the
bed of the creation of the model. If that is not higher than the bed, no sediment was deposited before, and there is no subsidence, the sand
fractions outside the inlet never change. -/
theorem C122_sand {ex : K → K} (hex : ∀ x, 0 < ex x) {pi : K} (hpi : 0 < pi) {g : Rng K σ} (hg : UnitDraws g)
    {c c' : Custom L W m K (Noise K) σ} (hs : 0 < c.extra.size) (hz : 0 < c.extra.scale) (hL : c.extra.patch ≤ L)
    (hW : c.extra.patch ≤ W) (ht : c.P.toggleSub = false) (h0 : ∀ a, c.eta0 a ≤ c.S.eta a) (hd : ∀ a, c.S.depSand a = 0)
    (hm : ∀ a, c.S.depMud a = 0) (hact : 0 ≤ c.P.actThick) {n : ℕ} (h : customRun (blobClass ex pi g) g n c = .ok c') {a : Cell L W}
    (ha : isInlet c.P.inlet a = false) :
    c'.S.sandFrac a = c.S.sandFrac a ∧ c'.S.activeLayer a = c.S.activeLayer a := by
  induction n generalizing c' with
  | zero =>
    cases h
    exact ⟨rfl, rfl⟩
  | succ n ih =>
    rw [run_last] at h
    obtain ⟨d, h1, h2⟩ := andThen_ok h
    obtain ⟨i1, i2⟩ := ih h1
    obtain ⟨d', e1, e2, -⟩ := C122_run (ex := ex) (pi := pi) hg hL hW n
    rw [h1] at e1
    cases e1
    have hP : d.P = c.P := by rw [e2]
    have hx : d.extra = c.extra := by rw [e2]
    obtain ⟨c2, f1, f2, f3, f4, f5, f6, r, q, f7, f8, f9, f10, f11, S1, f12, f13, f14, f15, f16, f17, f18⟩ :=
      blob_step (ex := ex) (pi := pi) hg (c := d) (by rw [hx]; exact hL) (by rw [hx]; exact hW)
    rw [h2] at f1
    cases f1
    have hn : customRun (blobClass ex pi g) g (n + 1) c = .ok c' := by
      rw [run_last]
      simp only [Doing.andThen, h1, h2]
    have hr := (C122_rises hex hpi hg hs hz hL hW ht hn ha).1
    have h00 : d.eta0 = c.eta0 := by rw [e2]
    have hge : c.eta0 a ≤ S1.eta a := by
      rw [f14]
      exact le_trans (h0 a) hr
    have hds : d.S.depSand = c.S.depSand := by rw [e2]
    have hdm : d.S.depMud = c.S.depMud := by rw [e2]
    have hagg : anyCell (fun b => decide (S1.depSand b > 0) || decide (S1.depMud b > 1 / 1000000)) = false := by
      rw [f17, f18, hds, hdm]
      simp only [anyCell, List.any_eq_false, hd, hm]
      intro b _
      have : ¬ ((0 : K) > 1 / 1000000) := by
        have : (0 : K) < 1 / 1000000 := by positivity
        exact not_lt.2 this.le
      simp [this]
    have hs1 : (computeSandFrac c.P c.eta0 S1).sandFrac a = S1.sandFrac a := by
      simp only [computeSandFrac, hagg, Bool.false_eq_true, if_false]
      split_ifs
      · have g1 : ¬ (S1.eta a - c.eta0 a < 0) := by linarith
        have g2 : ¬ (S1.eta a < c.eta0 a - c.P.actThick) := by linarith
        simp only [assign, g1, g2, decide_false, Bool.false_and, Bool.false_eq_true, if_false]
      · rfl
    have hs2 : (computeSandFrac c.P c.eta0 S1).activeLayer a = S1.activeLayer a := by
      simp only [computeSandFrac, hagg, Bool.false_eq_true, if_false]
    rw [f12, f13, hP, h00, hs1, hs2, f15, f16]
    exact ⟨i1, i2⟩

lemma sum_window {r p n : ℕ} (h : r + p ≤ n) (f : ℕ → K) :
    ∑ i ∈ Finset.range n, (if r ≤ i ∧ i < r + p then f (i - r) else 0) = ∑ i ∈ Finset.range p, f i := by
  rw [← Finset.sum_filter]
  have : (Finset.range n).filter (fun i => r ≤ i ∧ i < r + p) = Finset.Ico r (r + p) := by
    ext i
    simp only [Finset.mem_filter, Finset.mem_range, Finset.mem_Ico]
    omega
  rw [this, Finset.sum_Ico_eq_sum_range]
  simp

lemma sum_heap {p r q : ℕ} (hr : r + p ≤ L) (hq : q + p ≤ W) (b : ℕ → ℕ → K) :
    ∑ a : Cell L W, heapAt b p r q a = ∑ i ∈ Finset.range p, ∑ j ∈ Finset.range p, b i j := by
  have h1 : ∑ a : Cell L W, heapAt b p r q a = ∑ i ∈ Finset.range L, if r ≤ i ∧ i < r + p then
      (∑ j ∈ Finset.range p, b (i - r) j) else 0 := by
    rw [Fintype.sum_prod_type, ← Fin.sum_univ_eq_sum_range (fun i => if r ≤ i ∧ i < r + p then
      (∑ j ∈ Finset.range p, b (i - r) j) else 0)]
    refine Finset.sum_congr rfl fun i _ => ?_
    split_ifs with h
    · rw [← sum_window hq, ← Fin.sum_univ_eq_sum_range (fun j => if q ≤ j ∧ j < q + p then b (i - r) (j - q) else 0)]
      refine Finset.sum_congr rfl fun j _ => ?_
      unfold heapAt
      refine if_congr ?_ rfl rfl
      exact ⟨fun h' => h'.2.2, fun h' => ⟨h.1, h.2, h'⟩⟩
    · refine Finset.sum_eq_zero fun j _ => ?_
      unfold heapAt
      rw [if_neg]
      intro h'
      exact h ⟨h'.1, h'.2.1⟩
  rw [h1, sum_window hr (fun i => ∑ j ∈ Finset.range p, b i j)]

/-- C122: how much the bed rises. Without subsidence, and if no patch begins in the first row, the sum of the rises of all cells outside the
inlet after `n` updates is `n` times the sum of the heights of a blob. -/
theorem C122_volume {ex : K → K} {pi : K} {g : Rng K σ} (hg : UnitDraws g) {c c' : Custom L W m K (Noise K) σ}
    (hL : c.extra.patch ≤ L) (hW : c.extra.patch ≤ W) (ht : c.P.toggleSub = false) {n : ℕ}
    (hn : ∀ k < n, 1 ≤ numberAt g c.rng (3 * k) * ((L : K) - c.extra.patch)) (h : customRun (blobClass ex pi g) g n c = .ok c') :
    ∑ a with isInlet c.P.inlet a = false, (c'.S.eta a - c.S.eta a) =
      n * ∑ i ∈ Finset.range c.extra.patch, ∑ j ∈ Finset.range c.extra.patch, c.extra.blob ex pi i j := by
  obtain ⟨d, e1, -, -, -, -, -, rows, cols, e7, e8⟩ := C122_run (ex := ex) (pi := pi) hg hL hW n
  rw [h] at e1
  cases e1
  have h1 : ∑ a with isInlet c.P.inlet a = false, (c'.S.eta a - c.S.eta a) =
      ∑ a with isInlet c.P.inlet a = false, ∑ k ∈ Finset.range n,
        heapAt (L := L) (W := W) (c.extra.blob ex pi) c.extra.patch (rows k) (cols k) a := by
    refine Finset.sum_congr rfl fun a ha => ?_
    rw [e8 a (Finset.mem_filter.1 ha).2, ht]
    simp
  rw [h1, Finset.sum_comm]
  have h2 : ∀ k ∈ Finset.range n, ∑ a with isInlet c.P.inlet a = false,
      heapAt (L := L) (W := W) (c.extra.blob ex pi) c.extra.patch (rows k) (cols k) a =
      ∑ i ∈ Finset.range c.extra.patch, ∑ j ∈ Finset.range c.extra.patch, c.extra.blob ex pi i j := by
    intro k hk
    have hk := Finset.mem_range.1 hk
    obtain ⟨b1, b2, b3, b4⟩ := e7 k hk
    rw [← sum_heap b2 b4, Finset.sum_filter]
    refine Finset.sum_congr rfl fun a _ => ?_
    split_ifs with hi
    · rfl
    · unfold heapAt
      rw [if_neg]
      intro hp
      have hr : 1 ≤ rows k := by
        have := lt_of_le_of_lt (hn k hk) b1.2
        have h3 : (0 : K) < rows k := by linarith
        have h4 : 0 < rows k := by exact_mod_cast h3
        omega
      have h0 : a.1.val = 0 := by
        simp only [isInlet, Bool.not_eq_false, Bool.and_eq_true, decide_eq_true_eq] at hi
        exact hi.1
      have := hp.1
      omega
  rw [Finset.sum_congr rfl h2, Finset.sum_const, Finset.card_range, nsmul_eq_mul]

/-! ## Examples -/

lemma constRng_unit : UnitDraws constRng := fun _ => by norm_num [constRng]

-- blobs of three by three cells in the example of C112: every update adds the same blob, with its first cell at (0, 0)
example : ∃ c', customRun (blobClass (fun x => 1 / (1 + x ^ 2)) 3 constRng) constRng 7 (exCustom _ (⟨3, 1, 1⟩ : Noise ℚ)) = .ok c' := by
  obtain ⟨c', h, -⟩ := C122_run (ex := fun x => 1 / (1 + x ^ 2)) (pi := 3) constRng_unit
    (c := exCustom _ (⟨3, 1, 1⟩ : Noise ℚ)) (by decide) (by decide) 7
  exact ⟨c', h⟩

-- the values of the documentation, in a domain of the default size, with the real exponential function: the bed of a cell outside
-- the inlet never falls
example {c c' : Custom 100 200 m ℝ (Noise ℝ) σ} (hx : c.extra = docNoise) {g : Rng ℝ σ} (hg : UnitDraws g)
    (ht : c.P.toggleSub = false) {n : ℕ} (h : customRun (blobClass Real.exp Real.pi g) g n c = .ok c') {a : Cell 100 200}
    (ha : isInlet c.P.inlet a = false) : c.S.eta a ≤ c'.S.eta a :=
  (C122_rises Real.exp_pos Real.pi_pos hg (by rw [hx]; norm_num [docNoise]) (by rw [hx]; norm_num [docNoise])
    (by rw [hx]; norm_num [docNoise]) (by rw [hx]; norm_num [docNoise]) ht h ha).1

end Verif.Props
