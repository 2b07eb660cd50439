import Verif.Spec.Draws
import Verif.Props.WeightRules
import Verif.Props.SedWalk

/-!
# C79: every random decision takes its own number

The start cells and the directions of the parcels are chosen by consecutive numbers of the generator,
each by the rule of `Verif.Spec.Chosen`, and no other numbers are drawn.
-/

set_option linter.unusedSectionVars false
set_option linter.unusedSimpArgs false

namespace Verif.Props

open Verif.Model Verif.Lemmas Verif.Spec

variable {K : Type*} [Field K] [LinearOrder K] [IsStrictOrderedRing K] {σ : Type*}

lemma uses_append {next : σ → K × σ} {s s1 s2 : σ} {ps qs : List (K → Prop)}
    (h1 : Uses next s ps s1) (h2 : Uses next s1 qs s2) : Uses next s (ps ++ qs) s2 := by
  induction h1 with
  | done s => exact h2
  | step h _ ih => exact .step h (ih h2)

lemma uses_length {next : σ → K × σ} {s s1 : σ} {ps : List (K → Prop)} (h : Uses next s ps s1) :
    s1 = (fun s => (next s).2)^[ps.length] s := by
  induction h with
  | done s => rfl
  | step h _ ih => rw [ih]; rfl

lemma uses_mono {α : Type*} {next : σ → K × σ} {P Q : α → K → Prop} (h : ∀ a x, P a x → Q a x) :
    ∀ {l : List α} {s s' : σ}, Uses next s (l.map P) s' → Uses next s (l.map Q) s' := by
  intro l
  induction l with
  | nil => intro s s' hu; cases hu; exact .done _
  | cons a l ih =>
    intro s s' hu
    cases hu with
    | step h1 h2 => exact .step (h a _ h1) (ih h2)

/-- A pick is what the specification calls a choice. -/
lemma pick_chosen {n : ℕ} {w : Fin n → K} (hw : ∀ i, 0 ≤ w i) {x : K} {k : Fin n} :
    randomPick w x = some k ↔ Chosen w x k := by
  rw [C04_pick_interval w hw]
  have e1 : before w k.val = ∑ i with i < k, w i := by
    unfold before
    rw [Finset.sum_filter]
    rfl
  have e2 : before w k.val + w k = ∑ i with i ≤ k, w i := by
    rw [← before_succ]
    unfold before
    rw [Finset.sum_filter]
    refine Finset.sum_congr rfl (fun i _ => ?_)
    by_cases h : i ≤ k
    · rw [if_pos h, if_pos (Nat.lt_succ_of_le h)]
    · rw [if_neg h, if_neg (fun h' => h (Nat.le_of_lt_succ h'))]
  rw [e2, e1]
  rfl

lemma chosen_scale {n : ℕ} {w : Fin n → K} {a : K} (ha : 0 < a) {x : K} {k : Fin n} :
    Chosen (fun i => w i / a) x k ↔ Chosen w x k := by
  unfold Chosen
  simp only [← Finset.sum_div]
  rw [← mul_div_assoc, div_lt_div_iff_of_pos_right ha, div_le_div_iff_of_pos_right ha]

/-- The start cells of parcels: each inlet cell has the same chance. -/
def StartAt {m : ℕ} (inlet : Fin m → ℤ) (i : ℤ) (x : K) : Prop :=
  ∃ k, i = inlet k ∧ Chosen (fun _ : Fin m => (1 : K)) x k

lemma uses_starts {m : ℕ} (g : Rng K σ) (inlet : Fin m → ℤ) : ∀ (n : ℕ) (s : σ) (starts : List ℤ),
    getStartIndices inlet (getInletWeights inlet : Fin m → K) (drawN g n s).1 = some starts →
    starts.length = n ∧ Uses g.next s (starts.map (StartAt inlet)) (drawN g n s).2 := by
  intro n
  unfold getStartIndices
  simp only
  induction n with
  | zero =>
    intro s starts h
    simp only [drawN, startLoop, Option.some.injEq] at h
    subst h
    exact ⟨rfl, .done s⟩
  | succ n ih =>
    intro s starts h
    simp only [drawN, startLoop] at h
    split at h
    · rename_i k ks hk hks
      simp only [Option.some.injEq] at h
      subst h
      obtain ⟨h1, h2⟩ := ih _ ks hks
      have hm : 0 < m := lt_of_le_of_lt (Nat.zero_le _) k.isLt
      have hsum : (List.ofFn (getInletWeights inlet : Fin m → K)).sum = m := by
        rw [List.sum_ofFn]; simp [getInletWeights]
      have hmK : (0 : K) < m := by exact_mod_cast hm
      rw [hsum] at hk
      rw [pick_chosen (fun i => by simp [getInletWeights]), chosen_scale hmK] at hk
      exact ⟨by simp [h1], .step ⟨k, rfl, hk⟩ h2⟩
    · simp at h

/-! ## Water -/

/-- The direction of a water parcel is chosen by the weights of the cell it is in. -/
def DirAt {L W : ℕ} (weights : Grid L W (Fin 9 → K)) (r : StepRec) (x : K) : Prop :=
  ∃ c : Cell L W, Addresses r.cur c ∧ Chosen (weights c) x r.dir

lemma flatCell_addresses {L W : ℕ} {i : ℤ} {c : Cell L W} (h : flatCell L W i = some c) :
    Addresses i c := by
  obtain ⟨h1, h2⟩ := flatCell_isSome_iff.mp ⟨c, h⟩
  unfold Addresses position
  rcases le_or_gt 0 i with h0 | h0
  · obtain ⟨d, hd, he⟩ := flatCell_nonneg h0 h2
    rw [hd] at h; cases h
    exact .inl he
  · obtain ⟨d, hd, he⟩ := flatCell_neg h0 (by omega : 0 ≤ i + (L : ℤ) * W)
    rw [hd] at h; cases h
    exact .inr he

lemma parcelStep_rec {L W : ℕ} [FloorRing K] {E : WEnv L W K} {step : ℕ} {p p' : WParcel} {d : Fin 9}
    {r : StepRec} (h : parcelStep E step p d = .ok (p', r)) : r.cur = p.ind ∧ r.dir = d := by
  unfold parcelStep at h
  simp only at h
  split at h
  · cases h
  · split at h
    · cases h
    · cases h; exact ⟨rfl, rfl⟩

lemma uses_dirs {L W : ℕ} [FloorRing K] {g : Rng K σ} {E : WEnv L W K} (hw : ∀ c d, 0 ≤ E.weights c d)
    (step : ℕ) : ∀ (ps ps' : List WParcel) (ds : List (Fin 9)) (rs : List StepRec) (s s' : σ),
    chooseDirs g E.weights (ps.map (·.ind)) s = .ok (ds, s') →
    parcelSteps E step ps ds = .ok (ps', rs) →
    (∀ r ∈ rs, r.cur = 0 → r.dir = 4) ∧
    Uses g.next s ((rs.filter fun r => decide (r.cur ≠ 0)).map (DirAt E.weights)) s' := by
  intro ps
  induction ps with
  | nil =>
    intro ps' ds rs s s' h1 h2
    simp only [List.map_nil, chooseDirs, Except.ok.injEq, Prod.mk.injEq] at h1
    obtain ⟨rfl, rfl⟩ := h1
    simp only [parcelSteps, Except.ok.injEq, Prod.mk.injEq] at h2
    obtain ⟨-, rfl⟩ := h2
    exact ⟨by simp, .done _⟩
  | cons p ps ih =>
    intro ps' ds rs s s' h1 h2
    have key : ∀ d ds1 rs', parcelSteps E step (p :: ps) (d :: ds1) = .ok (ps', rs') →
        ∃ r p1 ps1 rs1, rs' = r :: rs1 ∧ parcelStep E step p d = .ok (p1, r) ∧
          parcelSteps E step ps ds1 = .ok (ps1, rs1) := by
      intro d ds1 rs' h
      unfold parcelSteps at h
      split at h
      · cases h
      · rename_i p1 r1 hp
        split at h
        · cases h
        · rename_i ps1 rs1 hps
          cases h
          exact ⟨r1, p1, ps1, rs1, rfl, hp, hps⟩
    simp only [List.map_cons] at h1
    unfold chooseDirs at h1
    split at h1
    · rename_i hi
      split at h1
      · cases h1
      · rename_i c hc
        simp only at h1
        split at h1
        · cases h1
        · rename_i d hd
          split at h1
          · cases h1
          · rename_i ds1 s1 hrec
            cases h1
            obtain ⟨r, p1, ps1, rs1, rfl, hp, hps⟩ := key _ _ _ h2
            obtain ⟨i1, i2⟩ := ih _ _ _ _ _ hrec hps
            obtain ⟨e1, e2⟩ := parcelStep_rec hp
            have hne : r.cur ≠ 0 := by rw [e1]; exact hi
            refine ⟨?_, ?_⟩
            · intro x hx h0
              rcases List.mem_cons.1 hx with rfl | hx
              · exact absurd h0 hne
              · exact i1 x hx h0
            · rw [List.filter_cons_of_pos (by simpa using hne)]
              refine .step ⟨c, ?_, ?_⟩ i2
              · rw [e1]; exact flatCell_addresses hc
              · rw [e2]; exact (pick_chosen (hw c)).1 hd
    · rename_i hi
      push Not at hi
      split at h1
      · cases h1
      · rename_i ds1 s1 hrec
        cases h1
        obtain ⟨r, p1, ps1, rs1, rfl, hp, hps⟩ := key _ _ _ h2
        obtain ⟨i1, i2⟩ := ih _ _ _ _ _ hrec hps
        obtain ⟨e1, e2⟩ := parcelStep_rec hp
        refine ⟨?_, ?_⟩
        · intro x hx h0
          rcases List.mem_cons.1 hx with rfl | hx
          · exact e2
          · exact i1 x hx h0
        · rw [List.filter_cons_of_neg (by simp [e1, hi])]
          exact i2

lemma uses_waterStep {L W : ℕ} [FloorRing K] {g : Rng K σ} {E : WEnv L W K}
    (hw : ∀ c d, 0 ≤ E.weights c d) {step : ℕ} {st st' : WState L W K} {recs : List StepRec} {s s' : σ}
    (h : waterStep g E step st s = .ok (st', recs, s')) :
    (∀ r ∈ recs, r.cur = 0 → r.dir = 4) ∧
    Uses g.next s ((recs.filter fun r => decide (r.cur ≠ 0)).map (DirAt E.weights)) s' := by
  unfold waterStep at h
  simp only at h
  split at h
  · split at h
    · cases h
    · rename_i ds s1 hds
      split at h
      · cases h
      · rename_i ps rs hps
        have := uses_dirs hw step _ _ _ _ _ _ hds hps
        split at h
        · cases h
        · split at h
          · cases h
          · split at h
            · cases h
            · cases h; exact this
  · cases h

lemma uses_waterLoop {L W : ℕ} [FloorRing K] {g : Rng K σ} {E : WEnv L W K}
    (hw : ∀ c d, 0 ≤ E.weights c d) (step : ℕ) (st st' : WState L W K) (log : List (List StepRec))
    (n : ℕ) (s s' : σ) (h : waterLoop g E step st s = .ok (st', log, n, s')) :
    (∀ r ∈ log.flatten, r.cur = 0 → r.dir = 4) ∧
    Uses g.next s ((log.flatten.filter fun r => decide (r.cur ≠ 0)).map (DirAt E.weights)) s' := by
  induction hfuel : E.stepmax - step generalizing step st s log with
  | zero =>
    unfold waterLoop at h
    rw [if_neg (by omega)] at h
    cases h
    exact ⟨by simp, .done _⟩
  | succ f ih =>
    unfold waterLoop at h
    split at h
    · split at h
      · cases h
      · rename_i st1 recs s1 h1
        split at h
        · cases h
        · rename_i st2 log1 n1 s2 h2
          cases h
          obtain ⟨i1, i2⟩ := ih _ _ _ _ h2 (by omega)
          obtain ⟨j1, j2⟩ := uses_waterStep hw h1
          refine ⟨?_, ?_⟩
          · intro r hr
            rw [List.flatten_cons, List.mem_append] at hr
            rcases hr with hr | hr
            · exact j1 r hr
            · exact i1 r hr
          · rw [List.flatten_cons, List.filter_append, List.map_append]
            exact uses_append j2 i2
    · cases h
      exact ⟨by simp, .done _⟩

/-- C79: one water iteration draws one number for the start cell of each parcel, then, step by step and
in each step parcel by parcel, one for the direction of every parcel that is not finished. The start is
chosen evenly among the inlet cells, the direction by the weights of the cell. A finished parcel does
not move. No number is used twice or left out. -/
theorem C79_water {L W m : ℕ} [FloorRing K] {g : Rng K σ} {E : WEnv L W K} {inlet : Fin m → ℤ}
    (hw : ∀ c d, 0 ≤ E.weights c d) {np ncols : ℕ} {s : σ} {st : WState L W K}
    {log : List (List StepRec)} {n : ℕ} {s' : σ}
    (h : runWaterIteration g E inlet np ncols s = .ok (st, log, n, s')) :
    ∃ starts : List ℤ, starts.length = np ∧ (∀ j, pathEntry st j 0 = starts[j]?) ∧
      (∀ r ∈ log.flatten, r.cur = 0 → r.dir = 4) ∧
      Uses g.next s (starts.map (StartAt inlet) ++
        (log.flatten.filter fun r => decide (r.cur ≠ 0)).map (DirAt E.weights)) s' := by
  obtain ⟨-, -, -, ⟨starts, e1, e2⟩, -, -⟩ := C12_record h
  obtain ⟨starts', st0, h1, h2, h3⟩ := runWater_ok g E inlet np ncols s _ h
  rw [e1] at h1
  cases h1
  obtain ⟨a1, a2⟩ := uses_starts g inlet np s starts e1
  obtain ⟨b1, b2⟩ := uses_waterLoop hw _ _ _ _ _ _ _ h3
  exact ⟨starts, a1, e2, b1, uses_append a2 b2⟩

/-- C79: the number of draws of a water iteration. -/
theorem C79_water_count {L W m : ℕ} [FloorRing K] {g : Rng K σ} {E : WEnv L W K} {inlet : Fin m → ℤ}
    (hw : ∀ c d, 0 ≤ E.weights c d) {np ncols : ℕ} {s : σ} {st : WState L W K}
    {log : List (List StepRec)} {n : ℕ} {s' : σ}
    (h : runWaterIteration g E inlet np ncols s = .ok (st, log, n, s')) :
    s' = (fun s => (g.next s).2)^[np + (log.flatten.filter fun r => decide (r.cur ≠ 0)).length] s := by
  obtain ⟨starts, h1, -, -, h2⟩ := C79_water hw h
  have := uses_length h2
  rw [List.length_append, List.length_map, List.length_map, h1] at this
  exact this

/-! ## Sediment -/

variable {L W m : ℕ} [NeZero L] [NeZero W]

/-- The rule by which a sediment parcel goes on (C78), in the fields at the time of the step: for depths
`view` seen around the cell, which are those of the model (the last row, where parcels that left
upstream deposit, is not covered), and weights `w` in proportion to the attraction. -/
def SedChoice (k : Sed) (P : Params L W m K) (r : SedRec L W K) (x : K) : Prop :=
  ∃ view w : Fin 9 → K,
    (∀ (d : Fin 9) (n : Cell L W), n.1.val + 1 < L → (n.1.val : ℤ) = r.from_.1.val + stepRow d →
      (n.2.val : ℤ) = r.from_.2.val + stepCol d → view d = r.before.depth n) ∧
    (∀ d, 0 ≤ view d) ∧
    (let a := attractSed view P.modSed P.cellType r.before.qx r.before.qy P.s2 P.dryDepth (P.pwSed k)
        r.from_;
      (∑ d, a d ≠ 0 → Proportional w a) ∧
      (∑ d, a d = 0 → Proportional w fun d =>
        if d ≠ 4 ∧ P.cellType (seen r.from_ d) ≠ -2 then 1 / stepLen P.s2 d else 0)) ∧
    Chosen w x r.dir

lemma sedStep_choice [FloorRing K] {g : Rng K σ} {k : Sed} {P : Params L W m K}
    (hP : SedDomain P) (hs : P.s05 * P.s2 = 1) {st st1 : SedSt L W K} (hst : PadOk st) {c0 : Cell L W}
    (h0 : ActiveCell P c0) {res res1 : K} {s s1 : σ} {r : SedRec L W K}
    (h : sedStep g k P st (c0.1.val : ℤ) (c0.2.val : ℤ) res s = .ok (st1, res1, r, s1)) :
    SedChoice k P r (g.next s).1 ∧ s1 = (g.next s).2 := by
  obtain ⟨c0', d, c, cp, w, e1, hw, e3, e4, e5, e6, e7, e8, e9, e10, e11, e12, e13, -⟩ := sedStep_ok h
  rw [cellAt_coords] at e1
  cases e1
  obtain ⟨w', hw', hdist, -, -⟩ := sed_weights k hP hst h0
  rw [hw] at hw'
  cases hw'
  have hbd : r.before.depth = st.S.depth := by rw [e13, fieldsAt_frame]
  have hbx : r.before.qx = st.S.qx := by rw [e13, fieldsAt_frame]
  have hby : r.before.qy = st.S.qy := by rw [e13, fieldsAt_frame]
  refine ⟨⟨padSlice st.padDepth c0, w, ?_, fun d => hst.pad _, ?_, ?_⟩, e4⟩
  · intro e n hn h1 h2
    rw [hbd]
    rw [e10] at h1 h2
    unfold padSlice
    apply hst.inner n _ hn
    · simp only; unfold stepRow at h1; omega
    · simp only; unfold stepCol at h2; omega
  · rw [hbx, hby, e10]
    exact C78_sediment P.modSed P.cellType st.S.qx st.S.qy P.s2 P.s05 P.dryDepth (P.pwSed k) hs
      st.padDepth c0 w hw
  · rw [e8]
    exact (pick_chosen hdist.1).1 e3

variable [FloorRing K]

lemma uses_sedLoop {g : Rng K σ} (hg : PositiveDraws g) {k : Sed} {P : Params L W m K}
    (hP : SedDomain P) (hs : P.s05 * P.s2 = 1) : ∀ n st px py res s st' res' rs s',
      Routing P st px py → sedLoop g k P n st px py res s = .ok (st', res', rs, s') →
      PadOk st' ∧ Uses g.next s (rs.map (SedChoice k P)) s' := by
  intro n
  induction n with
  | zero => intro st px py res s st' res' rs s' _ h; simp [sedLoop] at h
  | succ n ih =>
    rintro st px py res s st' res' rs s' ⟨hst, c0, h0, hc⟩ h
    simp only [coords, Prod.mk.injEq] at hc
    obtain ⟨rfl, rfl⟩ := hc
    obtain ⟨st1, res1, r, s1, h1⟩ := sedStep_total hg (k := k) hP hst h0 res s
    obtain ⟨g1, -, g3⟩ := sedStep_domain hg hP hst h0 h1
    obtain ⟨g2, rfl⟩ := sedStep_choice hP hs hst h0 h1
    unfold sedLoop at h
    rw [h1] at h
    simp only at h
    by_cases hstop : P.cellType r.cell = -1 ∨ n = 0
    · rw [if_pos hstop] at h
      cases h
      exact ⟨g1, .step g2 (.done _)⟩
    · rw [if_neg hstop] at h
      push Not at hstop
      obtain ⟨g4, g5⟩ := g3 hstop.1
      split at h
      · cases h
      · rename_i st2 res2 rs2 s2 h2
        cases h
        obtain ⟨i1, i2⟩ := ih _ _ _ _ _ _ _ _ _ ⟨g1, r.cell, g4, g5⟩ h2
        exact ⟨i1, .step g2 i2⟩

lemma uses_sedParcels {g : Rng K σ} (hg : PositiveDraws g) {k : Sed} {P : Params L W m K}
    (hP : SedDomain P) (hs : P.s05 * P.s2 = 1) : ∀ pys : List ℤ,
      (∀ y ∈ pys, ∃ i, y = ((P.inlet i).val : ℤ)) → ∀ st s st' logs s', PadOk st →
      sedParcels g k P pys st s = .ok (st', logs, s') →
      logs.map (fun l => (l.start.val : ℤ)) = pys ∧
      Uses g.next s ((logs.flatMap (·.steps)).map (SedChoice k P)) s' := by
  intro pys
  induction pys with
  | nil =>
    intro _ st s st' logs s' _ h
    simp only [sedParcels, Except.ok.injEq, Prod.mk.injEq] at h
    obtain ⟨-, rfl, rfl⟩ := h
    exact ⟨rfl, .done _⟩
  | cons py pys ih =>
    intro hin st s st' logs s' hst h
    obtain ⟨i, hi⟩ := hin py List.mem_cons_self
    have hc : pyCell L W 0 py = some ((0 : Fin L), P.inlet i) := by
      have := pyCell_self ((0 : Fin L), P.inlet i)
      have h00 : (((0 : Fin L), P.inlet i).1.val : ℤ) = 0 := by simp
      rw [h00] at this
      rw [hi]
      exact this
    unfold sedParcels at h
    rw [hc] at h
    simp only at h
    split at h
    · cases h
    · rename_i st2 res rs s1 h1
      split at h
      · cases h
      · rename_i st3 logs1 s2 h2
        cases h
        obtain ⟨i1, i2⟩ := uses_sedLoop hg hP hs _ _ _ _ _ _ _ _ _ _
          ⟨enter_pad hst _, ((0 : Fin L), P.inlet i), hP.inlet i, by simp [coords, hi]⟩ h1
        obtain ⟨j1, j2⟩ := ih (fun y hy => hin y (List.mem_cons_of_mem _ hy)) _ _ _ _ _ i1 h2
        refine ⟨by simp [hi, j1], ?_⟩
        simp only [List.flatMap_cons, List.map_append]
        exact uses_append i2 j2

/-- C79 and C78 for sediment: the routing of sand or mud draws one number for the start cell of each
parcel, chosen evenly among the inlet cells, then, parcel by parcel, one for each step. Each step is
chosen by the rule of C78 in the fields at that time. No number is used twice or left out. -/
theorem C79_sediment {g : Rng K σ} (hg : PositiveDraws g) {k : Sed} {P : Params L W m K}
    (hP : SedDomain P) (hs : P.s05 * P.s2 = 1) {S S' : State L W K} (hd : ∀ c, 0 ≤ S.depth c) {s s' : σ}
    {logs : List (SedLog L W K)} (h : routeParcels g k P S s = .ok (S', logs, s')) :
    Uses g.next s
      (logs.map (fun l x => StartAt (fun i => ((P.inlet i).val : ℤ)) (l.start.val : ℤ) x) ++
        (logs.flatMap (·.steps)).map (SedChoice k P)) s' := by
  obtain ⟨starts, h1, h2, h3⟩ := starts_exist (g := g) hg (fun i => ((P.inlet i).val : ℤ)) hP.hm
    (numStarts k P) s
  unfold routeParcels at h
  simp only [h1] at h
  split at h
  · cases h
  · rename_i st logs1 s2 h4
    cases h
    obtain ⟨a1, a2⟩ := uses_sedParcels hg hP hs starts h3 _ _ _ _ _ (padOk_init hd) h4
    obtain ⟨b1, b2⟩ := uses_starts g (fun i => ((P.inlet i).val : ℤ)) _ _ _ h1
    rw [← a1, List.map_map] at b2
    exact uses_append b2 a2

/-- C79: the number of draws of a sediment routing. -/
theorem C79_sediment_count {g : Rng K σ} (hg : PositiveDraws g) {k : Sed} {P : Params L W m K}
    (hP : SedDomain P) (hs : P.s05 * P.s2 = 1) {S S' : State L W K} (hd : ∀ c, 0 ≤ S.depth c) {s s' : σ}
    {logs : List (SedLog L W K)} (h : routeParcels g k P S s = .ok (S', logs, s')) :
    s' = (fun s => (g.next s).2)^[logs.length + (logs.map (·.steps.length)).sum] s := by
  have := uses_length (C79_sediment hg hP hs hd h)
  simpa [List.length_flatMap] using this

/-- C79 for the water part of a model with a working set-up: the weights by which the numbers choose are
those of C78. -/
theorem C79_water_model {g : Rng K σ} {P : Params L W m K} (hP : WaterSetup P) {it : ℕ}
    {S S' : State L W K} (hd : ∀ c, 0 ≤ S.depth c) {s s' : σ}
    (h : waterIteration g P it S s = .ok (S', s')) :
    ∃ (w : Grid L W (Fin 9 → K)) (starts : List ℤ) (log : List (List StepRec)),
      waterWeightArray P S = .ok w ∧ starts.length = P.NpWater ∧
      Uses g.next s (starts.map (StartAt fun k => ((P.inlet k).val : ℤ)) ++
        (log.flatten.filter fun r => decide (r.cur ≠ 0)).map (DirAt w)) s' := by
  obtain ⟨w, wst, log, n, stage, h1, h2, -, -⟩ := waterIteration_ok h
  have hA := C10_weights_admissible S.depth S.stage P.modWater S.qx S.qy P.s2 P.s05 P.dryDepth
    P.gamma P.pwWater (waterEnv P S w) hd hP.mod hP.pw hP.gamma0 hP.gamma1 (waterWeightArray_ok h1)
  obtain ⟨starts, a1, -, -, a2⟩ := C79_water (E := waterEnv P S w) hA.2 h2
  exact ⟨w, starts, log, h1, a1, a2⟩

/-- C79: the sediment routing of a timestep first draws for all sand parcels, then for all mud
parcels. -/
theorem C79_sand_then_mud {g : Rng K σ} (hg : PositiveDraws g) {P : Params L W m K}
    (hP : SedDomain P) (hs : P.s05 * P.s2 = 1) {S S' : State L W K} (hd : ∀ c, 0 ≤ S.depth c) {s s' : σ}
    {sand mud : List (SedLog L W K)} (h : routeSediment g P S s = .ok (S', sand, mud, s')) :
    let draws := fun k (logs : List (SedLog L W K)) =>
      logs.map (fun l x => StartAt (fun i => ((P.inlet i).val : ℤ)) (l.start.val : ℤ) x) ++
        (logs.flatMap (·.steps)).map (SedChoice k P)
    Uses g.next s (draws .sand sand ++ draws .mud mud) s' := by
  obtain ⟨S1, s1, h1, h2⟩ := routeSediment_ok h
  obtain ⟨S1', logs, s1', h3, h4⟩ := C71_sediment_parcels hg .sand hP (S := initSediment S) hd s
  rw [h1] at h3
  cases h3
  exact uses_append (C79_sediment hg hP hs (S := initSediment S) hd h1)
    (C79_sediment hg hP hs (S := { S1 with
      eta := topoDiffusion P.cellType P.diffMult S1.qs P.Ncross S1.eta }) h4 h2)

/-! ## Non-trivial cases -/

/-- The example parameters with the exact inverse of the diagonal. -/
def exRule : Params 4 3 1 ℚ := { exParams with s05 := 5 / 7 }

lemma exRuleDomain : SedDomain exRule :=
  ⟨exSedDomain.hL, exSedDomain.active, exSedDomain.last, exSedDomain.below, exSedDomain.inlet,
    exSedDomain.hm, exSedDomain.steps, exSedDomain.s2, exSedDomain.pw, exSedDomain.mod⟩

lemma exRuleSetup : WaterSetup exRule :=
  ⟨exSetup.hL0, exSetup.hL, exSetup.hW, exSetup.active, exSetup.last, exSetup.land, exSetup.nrm,
    exSetup.mod, exSetup.pw, exSetup.gamma0, exSetup.gamma1, exSetup.steps, exSetup.hm, exSetup.inlet⟩

example : exRule.s05 * exRule.s2 = 1 ∧
    ∃ S' sand mud s', routeSediment constRng exRule exState () = .ok (S', sand, mud, s') := by
  refine ⟨by norm_num [exRule, exParams], ?_⟩
  obtain ⟨S', sand, mud, s', h, -⟩ := C71_sediment_routing exPositive exRuleDomain (S := exState)
    (fun _ => by norm_num [exState]) ()
  exact ⟨S', sand, mud, s', h⟩

example : ∃ w, waterWeightArray exRule exState = .ok w ∧ exRule.cellType (1, 1) ≠ -2 := by
  obtain ⟨w, h, -⟩ := weights_total exRuleSetup (S := exState) (fun _ => by norm_num [exState])
  refine ⟨w, h, ?_⟩
  change exType (1, 1) ≠ -2
  decide

-- three numbers of a list: two start cells and a direction
example : Uses listRng.next [1 / 10, 9 / 10, 1 / 2, 1 / 3]
    [fun x => Chosen (fun _ : Fin 2 => (1 : ℚ)) x 0, fun x => Chosen (fun _ : Fin 2 => (1 : ℚ)) x 1,
      fun x => Chosen (![0, 1 / 4, 3 / 4] : Fin 3 → ℚ) x 2] [1 / 3] := by
  refine .step ?_ (.step ?_ (.step ?_ (.done _))) <;> unfold Chosen <;> decide +kernel

end Verif.Props
