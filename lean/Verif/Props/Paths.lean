import Verif.Spec.Paths
import Verif.Props.DrawsRun

/-!
# C114: decisions make the paths

The numbers of the generator act only through the decisions they make: whatever the generator, numbers that make the
same decisions lead to the same result.
-/

set_option linter.unusedSectionVars false
set_option linter.unusedSimpArgs false

namespace Verif.Props

open Verif.Model Verif.Lemmas Verif.Spec

universe v

variable {K : Type*} [Field K] [LinearOrder K] [IsStrictOrderedRing K] {σ : Type*}

lemma uses_split {next : σ → K × σ} {ps qs : List (K → Prop)} : ∀ {s s2 : σ},
    Uses next s (ps ++ qs) s2 → ∃ s1, Uses next s ps s1 ∧ Uses next s1 qs s2 := by
  induction ps with
  | nil => intro s s2 h; exact ⟨s, .done s, h⟩
  | cons p ps ih =>
    intro s s2 h
    cases h with
    | step h1 h2 =>
      obtain ⟨s1, a, b⟩ := ih h2
      exact ⟨s1, .step h1 a, b⟩

lemma uses_nil {next : σ → K × σ} {s s' : σ} : Uses next s [] s' ↔ s' = s := by
  constructor
  · intro h; cases h; rfl
  · rintro rfl; exact .done _

lemma uses_cons {next : σ → K × σ} {s s' : σ} {p : K → Prop} {ps : List (K → Prop)} :
    Uses next s (p :: ps) s' ↔ p (next s).1 ∧ Uses next (next s).2 ps s' := by
  constructor
  · intro h; cases h with | step h1 h2 => exact ⟨h1, h2⟩
  · rintro ⟨h1, h2⟩; exact .step h1 h2

lemma uses_app {next : σ → K × σ} {ps qs : List (K → Prop)} {s s2 : σ} :
    Uses next s (ps ++ qs) s2 ↔ ∃ s1, Uses next s ps s1 ∧ Uses next s1 qs s2 :=
  ⟨uses_split, fun ⟨_, a, b⟩ => uses_append a b⟩

lemma even_pick {m : ℕ} (inlet : Fin m → ℤ) {x : K} {k : Fin m} :
    randomPick (fun k => (getInletWeights inlet : Fin m → K) k /
      (List.ofFn (getInletWeights inlet : Fin m → K)).sum) x = some k ↔ (evenly K k).By x := by
  have hm : 0 < m := lt_of_le_of_lt (Nat.zero_le _) k.isLt
  have hsum : (List.ofFn (getInletWeights inlet : Fin m → K)).sum = m := by
    rw [List.sum_ofFn]; simp [getInletWeights]
  have hmK : (0 : K) < m := by exact_mod_cast hm
  rw [hsum, pick_chosen (fun i => by simp [getInletWeights]), chosen_scale hmK]
  rfl

/-- The start cells are what their decisions say. -/
lemma starts_iff {m : ℕ} {inlet : Fin m → ℤ} (hi : Function.Injective inlet) (g : Rng K σ) : ∀ (ks : List (Fin m))
    (s s' : σ), (getStartIndices inlet (getInletWeights inlet : Fin m → K) (drawN g ks.length s).1 =
      some (ks.map inlet) ∧ (drawN g ks.length s).2 = s') ↔
      Uses g.next s (ks.map fun k => (evenly K k).By) s' := by
  intro ks
  unfold getStartIndices
  simp only
  induction ks with
  | nil =>
    intro s s'
    simp only [List.length_nil, drawN, startLoop, List.map_nil, true_and]
    rw [uses_nil, eq_comm]
  | cons k ks ih =>
    intro s s'
    simp only [List.length_cons, drawN, startLoop, List.map_cons]
    rw [uses_cons, ← ih, ← even_pick inlet]
    constructor
    · rintro ⟨h, rfl⟩
      split at h
      · rename_i j js hj hjs
        simp only [Option.some.injEq, List.cons.injEq] at h
        obtain ⟨h1, rfl⟩ := h
        exact ⟨by rw [hj, hi h1], hjs, rfl⟩
      · cases h
    · rintro ⟨h1, h2, rfl⟩
      rw [h1, h2]
      exact ⟨rfl, rfl⟩

/-- Decisions on start cells lead to these start cells. -/
lemma starts_of {m : ℕ} {inlet : Fin m → ℤ} (g : Rng K σ) : ∀ (ks : List (Fin m))
    (s s' : σ), Uses g.next s (ks.map fun k => (evenly K k).By) s' →
      getStartIndices inlet (getInletWeights inlet : Fin m → K) (drawN g ks.length s).1 =
      some (ks.map inlet) ∧ (drawN g ks.length s).2 = s' := by
  intro ks
  unfold getStartIndices
  simp only
  induction ks with
  | nil =>
    intro s s' h
    rw [List.map_nil, uses_nil] at h
    simp only [List.length_nil, drawN, startLoop, List.map_nil, true_and]
    exact h.symm
  | cons k ks ih =>
    intro s s' h
    simp only [List.length_cons, drawN, startLoop, List.map_cons]
    rw [List.map_cons, uses_cons, ← even_pick inlet] at h
    obtain ⟨h1, h2⟩ := h
    obtain ⟨h3, h4⟩ := ih _ _ h2
    rw [h1, h3]
    exact ⟨rfl, h4⟩

/-- Every list of start cells comes from decisions. -/
lemma starts_to {m : ℕ} {inlet : Fin m → ℤ} (g : Rng K σ) : ∀ (n : ℕ) (s : σ) (starts : List ℤ),
    getStartIndices inlet (getInletWeights inlet : Fin m → K) (drawN g n s).1 = some starts →
    ∃ ks : List (Fin m), ks.length = n ∧ starts = ks.map inlet ∧
      Uses g.next s (ks.map fun k => (evenly K k).By) (drawN g n s).2 := by
  intro n
  unfold getStartIndices
  simp only
  induction n with
  | zero =>
    intro s starts h
    simp only [drawN, startLoop, Option.some.injEq] at h
    exact ⟨[], rfl, h.symm, .done s⟩
  | succ n ih =>
    intro s starts h
    simp only [drawN, startLoop] at h
    split at h
    · rename_i k ks hk hks
      simp only [Option.some.injEq] at h
      obtain ⟨js, a1, a2, a3⟩ := ih _ ks hks
      exact ⟨k :: js, by simp [a1], by simp [← h, a2], .step ((even_pick inlet).mp hk) a3⟩
    · cases h

/-! ## Water -/

/-- The decision of a step of a water parcel, by the weights of the cell in which the parcel was. -/
def IsMove {L W : ℕ} (weights : Grid L W (Fin 9 → K)) (r : StepRec) (d : Decision K) : Prop :=
  ∃ c : Cell L W, Addresses r.cur c ∧ d = ⟨9, weights c, r.dir⟩

/-- The steps of parcels that were not finished. -/
def moves (log : List (List StepRec)) : List StepRec := log.flatten.filter fun r => decide (r.cur ≠ 0)

variable {L W : ℕ} [FloorRing K]

lemma parcelSteps_cons {E : WEnv L W K} {step : ℕ} {p : WParcel} {ps ps' : List WParcel} {d : Fin 9}
    {ds : List (Fin 9)} {rs : List StepRec} (h : parcelSteps E step (p :: ps) (d :: ds) = .ok (ps', rs)) :
    ∃ p1 r ps1 rs1, rs = r :: rs1 ∧ parcelStep E step p d = .ok (p1, r) ∧
      parcelSteps E step ps ds = .ok (ps1, rs1) := by
  unfold parcelSteps at h
  split at h
  · cases h
  · rename_i p1 r1 hp
    split at h
    · cases h
    · rename_i ps1 rs1 hps
      cases h
      exact ⟨p1, r1, ps1, rs1, rfl, hp, hps⟩

/-- The directions are in the records. -/
lemma parcelSteps_dirs {E : WEnv L W K} {step : ℕ} : ∀ {ps ps' : List WParcel} {ds : List (Fin 9)}
    {rs : List StepRec}, parcelSteps E step ps ds = .ok (ps', rs) → ds = rs.map (·.dir) := by
  intro ps
  induction ps with
  | nil =>
    intro ps' ds rs h
    cases ds with
    | nil => simp only [parcelSteps, Except.ok.injEq, Prod.mk.injEq] at h; rw [← h.2]; rfl
    | cons d ds => simp [parcelSteps] at h
  | cons p ps ih =>
    intro ps' ds rs h
    cases ds with
    | nil => simp [parcelSteps] at h
    | cons d ds =>
      obtain ⟨p1, r, ps1, rs1, rfl, h1, h2⟩ := parcelSteps_cons h
      rw [List.map_cons, ← ih h2, (parcelStep_rec h1).2]

lemma dirs_iff {g : Rng K σ} {E : WEnv L W K} (hw : ∀ c d, 0 ≤ E.weights c d) (step : ℕ) :
    ∀ (ps ps' : List WParcel) (ds : List (Fin 9)) (rs : List StepRec) (s s' : σ),
    chooseDirs g E.weights (ps.map (·.ind)) s = .ok (ds, s') →
    parcelSteps E step ps ds = .ok (ps', rs) →
    ∃ decs : List (Decision K),
      List.Forall₂ (IsMove E.weights) (rs.filter fun r => decide (r.cur ≠ 0)) decs ∧
      Uses g.next s (decs.map Decision.By) s' ∧
      ∀ {τ : Type v} (g' : Rng K τ) (t t' : τ), chooseDirs g' E.weights (ps.map (·.ind)) t = .ok (ds, t') ↔
        Uses g'.next t (decs.map Decision.By) t' := by
  intro ps
  induction ps with
  | nil =>
    intro ps' ds rs s s' h1 h2
    simp only [List.map_nil, chooseDirs, Except.ok.injEq, Prod.mk.injEq] at h1
    obtain ⟨rfl, rfl⟩ := h1
    simp only [parcelSteps, Except.ok.injEq, Prod.mk.injEq] at h2
    obtain ⟨-, rfl⟩ := h2
    refine ⟨[], .nil, .done _, ?_⟩
    intro τ g' t t'
    simp only [List.map_nil, chooseDirs, Except.ok.injEq, Prod.mk.injEq, true_and]
    rw [uses_nil, eq_comm]
  | cons p ps ih =>
    intro ps' ds rs s s' h1 h2
    simp only [List.map_cons] at h1 ⊢
    unfold chooseDirs at h1 ⊢
    split at h1
    · rename_i hi
      split at h1
      · cases h1
      · rename_i c hc
        simp only at h1
        split at h1
        · cases h1
        · rename_i d hd
          split at h1
          · cases h1
          · rename_i ds1 s1 hrec
            cases h1
            obtain ⟨p1, r, ps1, rs1, rfl, hp, hps⟩ := parcelSteps_cons h2
            obtain ⟨decs, i1, i0, i2⟩ := ih _ _ _ _ _ hrec hps
            obtain ⟨e1, e2⟩ := parcelStep_rec hp
            have hne : r.cur ≠ 0 := by rw [e1]; exact hi
            refine ⟨⟨9, E.weights c, d⟩ :: decs, ?_, ?_, ?_⟩
            · rw [List.filter_cons_of_pos (by simpa using hne)]
              exact .cons ⟨c, by rw [e1]; exact flatCell_addresses hc, by rw [e2]⟩ i1
            · exact .step ((pick_chosen (hw c)).1 hd) i0
            · intro τ g' t t'
              rw [if_pos hi, List.map_cons, uses_cons, ← i2]
              simp only [hc]
              have hb : (⟨9, E.weights c, d⟩ : Decision K).By (g'.next t).1 ↔
                  randomPick (E.weights c) (g'.next t).1 = some d := (pick_chosen (hw c)).symm
              rw [hb]
              constructor
              · intro h
                split at h
                · cases h
                · rename_i d' hd'
                  split at h
                  · cases h
                  · rename_i ds2 t2 h2'
                    simp only [Except.ok.injEq, Prod.mk.injEq, List.cons.injEq] at h
                    obtain ⟨⟨rfl, rfl⟩, rfl⟩ := h
                    exact ⟨hd', h2'⟩
              · rintro ⟨h3, h4⟩
                rw [h3]
                simp only [h4]
    · rename_i hi
      split at h1
      · cases h1
      · rename_i ds1 s1 hrec
        cases h1
        obtain ⟨p1, r, ps1, rs1, rfl, hp, hps⟩ := parcelSteps_cons h2
        obtain ⟨decs, i1, i0, i2⟩ := ih _ _ _ _ _ hrec hps
        obtain ⟨e1, e2⟩ := parcelStep_rec hp
        push Not at hi
        refine ⟨decs, ?_, i0, ?_⟩
        · rw [List.filter_cons_of_neg (by simp [e1, hi])]
          exact i1
        · intro τ g' t t'
          rw [if_neg (by simp [hi]), ← i2]
          constructor
          · intro h
            split at h
            · cases h
            · rename_i ds2 t2 h2'
              simp only [Except.ok.injEq, Prod.mk.injEq, List.cons.injEq, true_and] at h
              obtain ⟨rfl, rfl⟩ := h
              exact h2'
          · intro h
            simp only [h]

lemma waterStep_iff {g : Rng K σ} {E : WEnv L W K}
    (hw : ∀ c d, 0 ≤ E.weights c d) {step : ℕ} {st st' : WState L W K} {recs : List StepRec} {s s' : σ}
    (h : waterStep g E step st s = .ok (st', recs, s')) :
    ∃ decs : List (Decision K),
      List.Forall₂ (IsMove E.weights) (recs.filter fun r => decide (r.cur ≠ 0)) decs ∧
      Uses g.next s (decs.map Decision.By) s' ∧
      ∀ {τ : Type v} (g' : Rng K τ) (t t' : τ), waterStep g' E step st t = .ok (st', recs, t') ↔
        Uses g'.next t (decs.map Decision.By) t' := by
  unfold waterStep at h ⊢
  simp only at h ⊢
  split at h
  · rename_i hlt
    split at h
    · cases h
    · rename_i ds s1 hds
      split at h
      · cases h
      · rename_i ps rs hps
        obtain ⟨decs, i1, i0, i2⟩ := dirs_iff hw step _ _ _ _ _ _ hds hps
        split at h
        · cases h
        · rename_i f1 hf1
          split at h
          · cases h
          · rename_i f2 hf2
            split at h
            · cases h
            · rename_i f3 hf3
              cases h
              refine ⟨decs, i1, i0, ?_⟩
              intro τ g' t t'
              rw [if_pos hlt, ← i2]
              constructor
              · intro h
                split at h
                · cases h
                · rename_i ds2 t2 hds2
                  split at h
                  · cases h
                  · rename_i ps2 rs2 hps2
                    have hr : rs2 = recs ∧ t2 = t' := by
                      split at h
                      · cases h
                      · split at h
                        · cases h
                        · split at h
                          · cases h
                          · simp only [Except.ok.injEq, Prod.mk.injEq] at h
                            exact h.2
                    obtain ⟨rfl, rfl⟩ := hr
                    rw [parcelSteps_dirs hps2] at hds2
                    rw [parcelSteps_dirs hps]
                    exact hds2
              · intro h
                simp only [h, hps, hf1, hf2, hf3]
  · cases h

lemma waterStep_parts {g : Rng K σ} {E : WEnv L W K} {step : ℕ} {st st2 : WState L W K} {recs : List StepRec}
    {s s' : σ} (h : waterStep g E step st s = .ok (st2, recs, s')) : ∃ ps f1 f2 f3,
      parcelSteps E step (checkSize E.stepmax step st).parcels (recs.map (·.dir)) = .ok (ps, recs) ∧
      addFluxes E (·.cur) (fun _ => true) recs (checkSize E.stepmax step st).flux = .ok f1 ∧
      addFluxes E (·.new1) (fun _ => true) recs f1 = .ok f2 ∧ addFluxes E (·.new2) (·.bnd) recs f2 = .ok f3 ∧
      st2 = ⟨f3, ps, (checkSize E.stepmax step st).ncols⟩ := by
  unfold waterStep at h
  simp only at h
  split at h
  · split at h
    · cases h
    · rename_i ds t2 hds
      split at h
      · cases h
      · rename_i ps rs hps
        split at h
        · cases h
        · rename_i f1 hf1
          split at h
          · cases h
          · rename_i f2 hf2
            split at h
            · cases h
            · rename_i f3 hf3
              cases h
              have := parcelSteps_dirs hps
              exact ⟨ps, f1, f2, f3, this ▸ hps, hf1, hf2, hf3, rfl⟩
  · cases h

/-- The records of a step determine the state after it. -/
lemma waterStep_det {g : Rng K σ} {E : WEnv L W K} {step : ℕ} {st st1 st2 : WState L W K} {recs : List StepRec}
    {s s' : σ} (h : waterStep g E step st s = .ok (st1, recs, s')) {τ : Type v} {g' : Rng K τ} {t t' : τ}
    (h' : waterStep g' E step st t = .ok (st2, recs, t')) : st1 = st2 := by
  obtain ⟨ps, f1, f2, f3, a1, a2, a3, a4, rfl⟩ := waterStep_parts h
  obtain ⟨ps', f1', f2', f3', b1, b2, b3, b4, rfl⟩ := waterStep_parts h'
  rw [a1] at b1; cases b1
  rw [a2] at b2; cases b2
  rw [a3] at b3; cases b3
  rw [a4] at b4; cases b4
  rfl

lemma waterLoop_iff {g : Rng K σ} {E : WEnv L W K} (hw : ∀ c d, 0 ≤ E.weights c d) :
    ∀ (f step : ℕ) (st st' : WState L W K) (log : List (List StepRec)) (n : ℕ) (s s' : σ), E.stepmax - step = f →
    waterLoop g E step st s = .ok (st', log, n, s') →
    ∃ decs : List (Decision K), List.Forall₂ (IsMove E.weights) (moves log) decs ∧
      Uses g.next s (decs.map Decision.By) s' ∧
      ∀ {τ : Type v} (g' : Rng K τ) (t t' : τ), waterLoop g' E step st t = .ok (st', log, n, t') ↔
        Uses g'.next t (decs.map Decision.By) t' := by
  intro f
  induction f with
  | zero =>
    intro step st st' log n s s' hf h
    unfold waterLoop at h
    rw [if_neg (by omega)] at h
    cases h
    refine ⟨[], .nil, .done _, ?_⟩
    intro τ g' t t'
    unfold waterLoop
    rw [if_neg (by omega), List.map_nil, uses_nil]
    simp only [Except.ok.injEq, Prod.mk.injEq, true_and]
    exact eq_comm
  | succ f ih =>
    intro step st st' log n s s' hf h
    unfold waterLoop at h
    split at h
    · rename_i hc
      split at h
      · cases h
      · rename_i st1 recs s1 h1
        split at h
        · cases h
        · rename_i st2 log1 n1 s2 h2
          cases h
          obtain ⟨d1, a1, a0, a2⟩ := waterStep_iff hw h1
          obtain ⟨d2, b1, b0, b2⟩ := ih _ _ _ _ _ _ _ (by omega) h2
          refine ⟨d1 ++ d2, ?_, by rw [List.map_append]; exact uses_append a0 b0, ?_⟩
          · unfold moves
            rw [List.flatten_cons, List.filter_append]
            exact List.rel_append a1 b1
          · intro τ g' t t'
            unfold waterLoop
            rw [if_pos hc, List.map_append, uses_app]
            constructor
            · intro h
              split at h
              · cases h
              · rename_i st3 recs3 t3 h3
                split at h
                · cases h
                · rename_i st4 log4 n4 t4 h4
                  simp only [Except.ok.injEq, Prod.mk.injEq, List.cons.injEq] at h
                  obtain ⟨rfl, ⟨rfl, rfl⟩, rfl, rfl⟩ := h
                  have h5 := waterStep_det h1 h3
                  subst h5
                  exact ⟨t3, (a2 _ _ _).mp h3, (b2 _ _ _).mp h4⟩
            · rintro ⟨t1, h3, h4⟩
              rw [(a2 _ _ _).mpr h3]
              simp only [(b2 _ _ _).mpr h4]
    · rename_i hc
      cases h
      refine ⟨[], .nil, .done _, ?_⟩
      intro τ g' t t'
      unfold waterLoop
      rw [if_neg hc, List.map_nil, uses_nil]
      simp only [Except.ok.injEq, Prod.mk.injEq, true_and]
      exact eq_comm

lemma runWater_of {m : ℕ} {g : Rng K σ} {E : WEnv L W K} {inlet : Fin m → ℤ} {np ncols : ℕ} {s : σ}
    {starts : List ℤ} {st0 : WState L W K}
    (h1 : getStartIndices inlet (getInletWeights inlet : Fin m → K) (drawN g np s).1 = some starts)
    (h2 : waterStart E ncols starts = .ok st0) :
    runWaterIteration g E inlet np ncols s = waterLoop g E 0 st0 (drawN g np s).2 := by
  unfold runWaterIteration
  simp only [h1, h2]

lemma runWater_decisions {m : ℕ} {g : Rng K σ} {E : WEnv L W K} {inlet : Fin m → ℤ}
    (hw : ∀ c d, 0 ≤ E.weights c d) {np ncols : ℕ} {s : σ} {st : WState L W K}
    {log : List (List StepRec)} {n : ℕ} {s' : σ}
    (h : runWaterIteration g E inlet np ncols s = .ok (st, log, n, s')) :
    ∃ (ks : List (Fin m)) (decs : List (Decision K)), (∀ j, pathEntry st j 0 = (ks.map inlet)[j]?) ∧ ks.length = np ∧
      List.Forall₂ (IsMove E.weights) (moves log) decs ∧
      Uses g.next s ((ks.map (evenly K) ++ decs).map Decision.By) s' ∧
      (∀ {τ : Type v} (g' : Rng K τ) (t t' : τ), Uses g'.next t ((ks.map (evenly K) ++ decs).map Decision.By) t' →
        runWaterIteration g' E inlet np ncols t = .ok (st, log, n, t')) ∧
      (Function.Injective inlet → ∀ {τ : Type v} (g' : Rng K τ) (t t' : τ),
        runWaterIteration g' E inlet np ncols t = .ok (st, log, n, t') →
          Uses g'.next t ((ks.map (evenly K) ++ decs).map Decision.By) t') := by
  obtain ⟨-, -, -, ⟨starts, e1, e2⟩, -, -⟩ := C12_record h
  obtain ⟨starts', st0, h1, h2, h3⟩ := runWater_ok g E inlet np ncols s _ h
  rw [e1] at h1
  cases h1
  obtain ⟨ks, a1, rfl, a2⟩ := starts_to g np s starts e1
  obtain ⟨decs, b1, b0, b2⟩ := waterLoop_iff hw _ _ _ _ _ _ _ _ rfl h3
  subst a1
  refine ⟨ks, decs, e2, rfl, b1, by rw [List.map_append, List.map_map]; exact uses_append a2 b0, ?_, ?_⟩
  · intro τ g' t t' hu
    rw [List.map_append, uses_app, List.map_map] at hu
    obtain ⟨t1, h4, h5⟩ := hu
    obtain ⟨h6, rfl⟩ := starts_of (inlet := inlet) g' ks t t1 h4
    rw [runWater_of h6 h2]
    exact (b2 _ _ _).mpr h5
  · intro hi τ g' t t' h'
    rw [List.map_append, uses_app, List.map_map]
    obtain ⟨-, -, -, ⟨starts, e1', e2'⟩, -, -⟩ := C12_record h'
    have : starts = ks.map inlet := by
      apply List.ext_getElem?
      intro j
      rw [← e2', e2]
    subst this
    refine ⟨_, (starts_iff hi g' ks t _).mp ⟨e1', rfl⟩, (b2 _ _ _).mp ?_⟩
    rw [runWater_of e1' h2] at h'
    exact h'

/-- C114: the paths of the water parcels are made by decisions, one for the start cell of each parcel, with the same
chance for each cell of the inlet, and one for each step of a parcel that is not finished, by the weights of its cell.
Whatever the generator, the parcels take these paths if and only if the numbers make these decisions. -/
theorem C114_water {m : ℕ} {g : Rng K σ} {E : WEnv L W K} {inlet : Fin m → ℤ} (hi : Function.Injective inlet)
    (hw : ∀ c d, 0 ≤ E.weights c d) {np ncols : ℕ} {s : σ} {st : WState L W K}
    {log : List (List StepRec)} {n : ℕ} {s' : σ}
    (h : runWaterIteration g E inlet np ncols s = .ok (st, log, n, s')) :
    ∃ (ks : List (Fin m)) (decs : List (Decision K)), (∀ j, pathEntry st j 0 = (ks.map inlet)[j]?) ∧ ks.length = np ∧
      List.Forall₂ (IsMove E.weights) (moves log) decs ∧
      Uses g.next s ((ks.map (evenly K) ++ decs).map Decision.By) s' ∧
      ∀ {τ : Type v} (g' : Rng K τ) (t t' : τ), runWaterIteration g' E inlet np ncols t = .ok (st, log, n, t') ↔
        Uses g'.next t ((ks.map (evenly K) ++ decs).map Decision.By) t' := by
  obtain ⟨ks, decs, h1, h2, h3, h4, h5, h6⟩ := runWater_decisions hw h
  exact ⟨ks, decs, h1, h2, h3, h4, fun g' t t' => ⟨h6 hi g' t t', h5 g' t t'⟩⟩

/-! ## Sediment -/

variable {m : ℕ} [NeZero L] [NeZero W]

/-- The rule for the weights of a step of a sediment parcel (C78), in the fields at the time of the step. The depths
`view` around the cell are those of the model; the last row, where parcels that left upstream deposit, is not covered. -/
def SedRule (k : Sed) (P : Params L W m K) (r : SedRec L W K) (w : Fin 9 → K) : Prop :=
  ∃ view : Fin 9 → K,
    (∀ (d : Fin 9) (n : Cell L W), n.1.val + 1 < L → (n.1.val : ℤ) = r.from_.1.val + stepRow d →
      (n.2.val : ℤ) = r.from_.2.val + stepCol d → view d = r.before.depth n) ∧
    (∀ d, 0 ≤ view d) ∧
    (let a := attractSed view P.modSed P.cellType r.before.qx r.before.qy P.s2 P.dryDepth (P.pwSed k)
        r.from_;
      (∑ d, a d ≠ 0 → Proportional w a) ∧
      (∑ d, a d = 0 → Proportional w fun d =>
        if d ≠ 4 ∧ P.cellType (seen r.from_ d) ≠ -2 then 1 / stepLen P.s2 d else 0))

/-- The decision of a step of a sediment parcel. -/
def IsSedMove (k : Sed) (P : Params L W m K) (r : SedRec L W K) (d : Decision K) : Prop :=
  ∃ w, IsDistribution w ∧ 0 < w r.dir ∧ SedRule k P r w ∧ d = ⟨9, w, r.dir⟩

lemma sedStep_iff {g : Rng K σ} (hg : PositiveDraws g) {k : Sed} {P : Params L W m K}
    (hP : SedDomain P) (hs : P.s05 * P.s2 = 1) {st st1 : SedSt L W K} (hst : PadOk st) {c0 : Cell L W}
    (h0 : ActiveCell P c0) {res res1 : K} {s s1 : σ} {r : SedRec L W K}
    (h : sedStep g k P st (c0.1.val : ℤ) (c0.2.val : ℤ) res s = .ok (st1, res1, r, s1)) :
    ∃ d : Decision K, IsSedMove k P r d ∧ d.By (g.next s).1 ∧ s1 = (g.next s).2 ∧
      ∀ {τ : Type v} (g' : Rng K τ) (t t' : τ) (st2 : SedSt L W K) (res2 : K),
      sedStep g' k P st (c0.1.val : ℤ) (c0.2.val : ℤ) res t = .ok (st2, res2, r, t') ↔
        d.By (g'.next t).1 ∧ t' = (g'.next t).2 ∧ st2 = st1 ∧ res2 = res1 := by
  obtain ⟨c0', d, c, cp, w, e1, hw, e3, e4, e5, e6, e7, e8, e9, e10, e11, e12, e13, e14, e15, e16, e17, e18⟩ :=
    sedStep_ok h
  rw [cellAt_coords] at e1
  cases e1
  obtain ⟨w', hw', hdist, -, -⟩ := sed_weights k hP hst h0
  rw [hw] at hw'
  cases hw'
  have hbd : r.before.depth = st.S.depth := by rw [e13, fieldsAt_frame]
  have hbx : r.before.qx = st.S.qx := by rw [e13, fieldsAt_frame]
  have hby : r.before.qy = st.S.qy := by rw [e13, fieldsAt_frame]
  have hpos := pick_positive hdist (hg s).1 e3
  refine ⟨⟨9, w, r.dir⟩, ⟨w, hdist, by rw [e8]; exact hpos, ⟨padSlice st.padDepth c0, ?_, fun d => hst.pad _, ?_⟩, rfl⟩, ?_, e4, ?_⟩
  · intro e n hn h1 h2
    rw [hbd]
    rw [e10] at h1 h2
    unfold padSlice
    apply hst.inner n _ hn
    · simp only; unfold stepRow at h1; omega
    · simp only; unfold stepCol at h2; omega
  · rw [hbx, hby, e10]
    exact C78_sediment P.modSed P.cellType st.S.qx st.S.qy P.s2 P.s05 P.dryDepth (P.pwSed k) hs
      st.padDepth c0 w hw
  · rw [← e8] at e3
    exact (pick_chosen hdist.1).1 e3
  · intro τ g' t t' st2 res2
    have hb : (⟨9, w, r.dir⟩ : Decision K).By (g'.next t).1 ↔ randomPick w (g'.next t).1 = some r.dir :=
      (pick_chosen hdist.1).symm
    rw [hb]
    constructor
    · intro h'
      obtain ⟨c1, d', c', cp', w', f1, fw, f3, f4, f5, f6, f7, f8, f9, f10, f11, f12, f13, f14, f15, f16, f17, f18⟩ :=
        sedStep_ok h'
      rw [cellAt_coords] at f1
      cases f1
      rw [hw] at fw
      cases fw
      rw [← f8] at f3 f5 f6
      rw [← e8] at e5 e6
      rw [e6] at f6
      cases f6
      rw [e5] at f5
      cases f5
      refine ⟨f3, f4, ?_, by rw [e15, f15]⟩
      cases st2; cases st1
      simp only at e17 e18 f17 f18
      rw [e17, e18, f17, f18]
    · rintro ⟨h1, rfl, rfl, rfl⟩
      rw [e8] at h1
      unfold sedStep chooseNext at h ⊢
      rw [cellAt_coords] at h ⊢
      simp only [hw, e3, h1, e5, e6, Except.ok.injEq, Prod.mk.injEq] at h ⊢
      obtain ⟨h2, h3, h4, -⟩ := h
      exact ⟨h2, h3, h4, trivial⟩

lemma sedLoop_iff {g : Rng K σ} (hg : PositiveDraws g) {k : Sed} {P : Params L W m K}
    (hP : SedDomain P) (hs : P.s05 * P.s2 = 1) : ∀ n st px py res s st' res' rs s',
      Routing P st px py → sedLoop g k P n st px py res s = .ok (st', res', rs, s') →
      PadOk st' ∧ ∃ decs : List (Decision K), List.Forall₂ (IsSedMove k P) rs decs ∧
        Uses g.next s (decs.map Decision.By) s' ∧
        ∀ {τ : Type v} (g' : Rng K τ) (t t' : τ) (st2 : SedSt L W K) (res2 : K),
          sedLoop g' k P n st px py res t = .ok (st2, res2, rs, t') ↔
            Uses g'.next t (decs.map Decision.By) t' ∧ st2 = st' ∧ res2 = res' := by
  intro n
  induction n with
  | zero => intro st px py res s st' res' rs s' _ h; simp [sedLoop] at h
  | succ n ih =>
    rintro st px py res s st' res' rs s' ⟨hst, c0, h0, hc⟩ h
    simp only [coords, Prod.mk.injEq] at hc
    obtain ⟨rfl, rfl⟩ := hc
    obtain ⟨st1, res1, r, s1, h1⟩ := sedStep_total hg (k := k) hP hst h0 res s
    obtain ⟨g1, -, g3⟩ := sedStep_domain hg hP hst h0 h1
    obtain ⟨d, d1, d0, rfl, d2⟩ := sedStep_iff hg hP hs hst h0 h1
    unfold sedLoop at h
    rw [h1] at h
    simp only at h
    by_cases hstop : P.cellType r.cell = -1 ∨ n = 0
    · rw [if_pos hstop] at h
      cases h
      refine ⟨g1, [d], .cons d1 .nil, .step d0 (.done _), ?_⟩
      intro τ g' t t' st2 res2
      unfold sedLoop
      rw [List.map_cons, uses_cons, List.map_nil, uses_nil, and_assoc, ← d2]
      constructor
      · intro h'
        split at h'
        · cases h'
        · rename_i st3 res3 r3 t3 h3
          split at h'
          · simp only [Except.ok.injEq, Prod.mk.injEq, List.cons.injEq, and_true] at h'
            obtain ⟨rfl, rfl, rfl, rfl⟩ := h'
            exact h3
          · rename_i hns
            split at h'
            · cases h'
            · simp only [Except.ok.injEq, Prod.mk.injEq, List.cons.injEq] at h'
              obtain ⟨-, -, ⟨rfl, -⟩, -⟩ := h'
              exact absurd hstop hns
      · intro h'
        simp only [h', if_pos hstop]
    · rw [if_neg hstop] at h
      push Not at hstop
      obtain ⟨g4, g5⟩ := g3 hstop.1
      split at h
      · cases h
      · rename_i st2 res2 rs2 s2 h2
        cases h
        obtain ⟨i1, decs, i2, i0, i3⟩ := ih _ _ _ _ _ _ _ _ _ ⟨g1, r.cell, g4, g5⟩ h2
        refine ⟨i1, d :: decs, .cons d1 i2, .step d0 i0, ?_⟩
        intro τ g' t t' st3 res3
        unfold sedLoop
        rw [List.map_cons, uses_cons, and_assoc, ← i3]
        constructor
        · intro h'
          split at h'
          · cases h'
          · rename_i st4 res4 r4 t4 h4
            split at h'
            · rename_i hstop'
              simp only [Except.ok.injEq, Prod.mk.injEq, List.cons.injEq] at h'
              obtain ⟨rfl, rfl, ⟨rfl, -⟩, rfl⟩ := h'
              rcases hstop' with h5 | h5
              · exact absurd h5 hstop.1
              · exact absurd h5 hstop.2
            · split at h'
              · cases h'
              · rename_i st5 res5 rs5 t5 h5
                simp only [Except.ok.injEq, Prod.mk.injEq, List.cons.injEq] at h'
                obtain ⟨rfl, rfl, ⟨rfl, rfl⟩, rfl⟩ := h'
                obtain ⟨j1, rfl, rfl, rfl⟩ := (d2 _ _ _ _ _).mp h4
                exact ⟨j1, h5⟩
        · rintro ⟨j1, j2⟩
          rw [(d2 g' t _ st1 res1).mpr ⟨j1, rfl, rfl, rfl⟩]
          simp only
          rw [if_neg (by push Not; exact hstop)]
          simp only [j2]

lemma sedParcels_iff {g : Rng K σ} (hg : PositiveDraws g) {k : Sed} {P : Params L W m K}
    (hP : SedDomain P) (hs : P.s05 * P.s2 = 1) : ∀ ks : List (Fin m), ∀ st s st' logs s', PadOk st →
      sedParcels g k P (ks.map fun i => ((P.inlet i).val : ℤ)) st s = .ok (st', logs, s') →
      PadOk st' ∧ logs.map (·.start) = ks.map P.inlet ∧
      ∃ decs : List (Decision K), List.Forall₂ (IsSedMove k P) (logs.flatMap (·.steps)) decs ∧
        Uses g.next s (decs.map Decision.By) s' ∧
        ∀ {τ : Type v} (g' : Rng K τ) (t t' : τ) (st2 : SedSt L W K),
          sedParcels g' k P (ks.map fun i => ((P.inlet i).val : ℤ)) st t = .ok (st2, logs, t') ↔
            Uses g'.next t (decs.map Decision.By) t' ∧ st2 = st' := by
  intro ks
  induction ks with
  | nil =>
    intro st s st' logs s' hst h
    simp only [List.map_nil, sedParcels, Except.ok.injEq, Prod.mk.injEq] at h
    obtain ⟨rfl, rfl, rfl⟩ := h
    refine ⟨hst, rfl, [], .nil, .done _, ?_⟩
    intro τ g' t t' st2
    simp only [List.map_nil, sedParcels, Except.ok.injEq, Prod.mk.injEq, true_and]
    rw [uses_nil, eq_comm (a := t'), and_comm, eq_comm (a := st2)]
  | cons i ks ih =>
    intro st s st' logs s' hst h
    have hc : pyCell L W 0 ((P.inlet i).val : ℤ) = some ((0 : Fin L), P.inlet i) := by
      have := pyCell_self ((0 : Fin L), P.inlet i)
      have h00 : (((0 : Fin L), P.inlet i).1.val : ℤ) = 0 := by simp
      rw [h00] at this
      exact this
    simp only [List.map_cons] at h ⊢
    unfold sedParcels at h
    rw [hc] at h
    simp only at h
    split at h
    · cases h
    · rename_i st2 res rs s1 h1
      split at h
      · cases h
      · rename_i st3 logs1 s2 h2
        cases h
        obtain ⟨i1, d1, i2, i0, i3⟩ := sedLoop_iff hg hP hs _ _ _ _ _ _ _ _ _ _
          ⟨enter_pad hst _, ((0 : Fin L), P.inlet i), hP.inlet i, by simp [coords]⟩ h1
        obtain ⟨j1, j2, d2, j3, j0, j4⟩ := ih _ _ _ _ _ i1 h2
        refine ⟨j1, by simp [j2], d1 ++ d2, ?_, by rw [List.map_append]; exact uses_append i0 j0, ?_⟩
        · simp only [List.flatMap_cons]
          exact List.rel_append i2 j3
        · intro τ g' t t' st4
          unfold sedParcels
          rw [hc, List.map_append, uses_app]
          simp only
          constructor
          · intro h'
            split at h'
            · cases h'
            · rename_i st5 res5 rs5 t5 h5
              split at h'
              · cases h'
              · rename_i st6 logs6 t6 h6
                simp only [Except.ok.injEq, Prod.mk.injEq, List.cons.injEq, SedLog.mk.injEq, true_and] at h'
                obtain ⟨rfl, ⟨⟨rfl, rfl⟩, rfl⟩, rfl⟩ := h'
                obtain ⟨l1, rfl, -⟩ := (i3 _ _ _ _ _).mp h5
                obtain ⟨l2, rfl⟩ := (j4 _ _ _ _).mp h6
                exact ⟨⟨_, l1, l2⟩, rfl⟩
          · rintro ⟨⟨t1, l1, l2⟩, rfl⟩
            rw [(i3 g' t t1 st2 res).mpr ⟨l1, rfl, rfl⟩]
            simp only [(j4 g' t1 t' st4).mpr ⟨l2, rfl⟩]

lemma routeParcels_decisions {g : Rng K σ} (hg : PositiveDraws g) {k : Sed} {P : Params L W m K}
    (hP : SedDomain P) (hs : P.s05 * P.s2 = 1) {S S' : State L W K} (hd : ∀ c, 0 ≤ S.depth c) {s s' : σ}
    {logs : List (SedLog L W K)} (h : routeParcels g k P S s = .ok (S', logs, s')) :
    ∃ (ks : List (Fin m)) (decs : List (Decision K)), logs.map (·.start) = ks.map P.inlet ∧
      List.Forall₂ (IsSedMove k P) (logs.flatMap (·.steps)) decs ∧
      Uses g.next s ((ks.map (evenly K) ++ decs).map Decision.By) s' ∧
      (∀ {τ : Type v} (g' : Rng K τ) (t t' : τ), Uses g'.next t ((ks.map (evenly K) ++ decs).map Decision.By) t' →
        routeParcels g' k P S t = .ok (S', logs, t')) ∧
      (Function.Injective P.inlet → ∀ {τ : Type v} (g' : Rng K τ) (t t' : τ) (S2 : State L W K),
        routeParcels g' k P S t = .ok (S2, logs, t') →
          Uses g'.next t ((ks.map (evenly K) ++ decs).map Decision.By) t') := by
  obtain ⟨starts, h1, -, -⟩ := starts_exist (g := g) hg (fun i => ((P.inlet i).val : ℤ)) hP.hm
    (numStarts k P) s
  obtain ⟨ks, a1, rfl, a2⟩ := starts_to g _ s starts h1
  unfold routeParcels at h
  simp only [h1] at h
  split at h
  · cases h
  · rename_i st logs1 s2 h4
    cases h
    obtain ⟨-, b1, decs, b2, b0, b3⟩ := sedParcels_iff hg hP hs ks _ _ _ _ _ (padOk_init hd) h4
    refine ⟨ks, decs, b1, b2, ?_, ?_, ?_⟩
    · rw [List.map_append, uses_app, List.map_map]
      exact ⟨_, a2, b0⟩
    · intro τ g' t t' hu
      rw [List.map_append, uses_app, List.map_map] at hu
      obtain ⟨t1, u1, u2⟩ := hu
      obtain ⟨u3, rfl⟩ := starts_of (inlet := fun i => ((P.inlet i).val : ℤ)) g' ks t t1 u1
      rw [a1] at u2 u3
      unfold routeParcels
      simp only [u3, (b3 g' _ t' st).mpr ⟨u2, rfl⟩]
    · intro hi τ g' t t' S2 h'
      unfold routeParcels at h'
      simp only at h'
      split at h'
      · cases h'
      · rename_i starts' h5
        split at h'
        · cases h'
        · rename_i st5 logs5 t5 h6
          simp only [Except.ok.injEq, Prod.mk.injEq] at h'
          obtain ⟨-, rfl, rfl⟩ := h'
          obtain ⟨ks', c1, rfl, c2⟩ := starts_to g' _ t starts' h5
          have e : ks' = ks := by
            have h7 : ∀ (ks : List (Fin m)) st s st' logs s', sedParcels g' k P (ks.map fun i => ((P.inlet i).val : ℤ)) st s =
                .ok (st', logs, s') → logs.map (·.start) = ks.map P.inlet := by
              intro ks
              induction ks with
              | nil =>
                intro st s st' logs s' h
                simp only [List.map_nil, sedParcels, Except.ok.injEq, Prod.mk.injEq] at h
                obtain ⟨-, rfl, -⟩ := h
                rfl
              | cons i ks ih =>
                intro st s st' logs s' h
                have hc : pyCell L W 0 ((P.inlet i).val : ℤ) = some ((0 : Fin L), P.inlet i) := by
                  have := pyCell_self ((0 : Fin L), P.inlet i)
                  have h00 : (((0 : Fin L), P.inlet i).1.val : ℤ) = 0 := by simp
                  rw [h00] at this
                  exact this
                simp only [List.map_cons] at h
                unfold sedParcels at h
                rw [hc] at h
                simp only at h
                split at h
                · cases h
                · split at h
                  · cases h
                  · rename_i h8
                    cases h
                    simp [ih _ _ _ _ _ h8]
            have := h7 _ _ _ _ _ _ h6
            rw [b1] at this
            exact (List.map_injective_iff.mpr hi this).symm
          subst e
          rw [List.map_append, uses_app, List.map_map]
          exact ⟨_, c2, ((b3 _ _ _ _).mp h6).1⟩

/-- C114: the paths of sand or mud parcels are made by decisions, one for the start cell of each parcel, with the same
chance for each cell of the inlet, and one for each step, by the rule of C78 in the fields at that time. Whatever the
generator, the parcels take these paths if and only if the numbers make these decisions. -/
theorem C114_sediment {g : Rng K σ} (hg : PositiveDraws g) {k : Sed} {P : Params L W m K}
    (hP : SedDomain P) (hs : P.s05 * P.s2 = 1) (hi : Function.Injective P.inlet) {S S' : State L W K}
    (hd : ∀ c, 0 ≤ S.depth c) {s s' : σ} {logs : List (SedLog L W K)}
    (h : routeParcels g k P S s = .ok (S', logs, s')) :
    ∃ (ks : List (Fin m)) (decs : List (Decision K)), logs.map (·.start) = ks.map P.inlet ∧
      List.Forall₂ (IsSedMove k P) (logs.flatMap (·.steps)) decs ∧
      Uses g.next s ((ks.map (evenly K) ++ decs).map Decision.By) s' ∧
      ∀ {τ : Type v} (g' : Rng K τ) (t t' : τ), routeParcels g' k P S t = .ok (S', logs, t') ↔
        Uses g'.next t ((ks.map (evenly K) ++ decs).map Decision.By) t' := by
  obtain ⟨ks, decs, h1, h2, h3, h4, h5⟩ := routeParcels_decisions hg hP hs hd h
  exact ⟨ks, decs, h1, h2, h3, fun g' t t' => ⟨h5 hi g' t t' S', h4 g' t t'⟩⟩

/-! ## Runs -/

lemma address_unique {i : ℤ} {c c' : Cell L W} (h : Addresses i c) (h' : Addresses i c') : c = c' := by
  have key : ∀ c : Cell L W, 0 ≤ position c ∧ position c < (L : ℤ) * W := by
    intro c
    unfold position
    have h1 := c.1.isLt
    have h2 := c.2.isLt
    constructor
    · positivity
    · have : (c.1.val : ℤ) + 1 ≤ L := by exact_mod_cast h1
      have h3 : (c.2.val : ℤ) < W := by exact_mod_cast h2
      nlinarith [mul_le_mul_of_nonneg_left this (Int.natCast_nonneg W)]
  have hp : position c = position c' := by
    have h1 := key c
    have h2 := key c'
    unfold Addresses at h h'
    omega
  unfold position at hp
  have h2 : (c.2.val : ℤ) < W := by exact_mod_cast c.2.isLt
  have h3 : (c'.2.val : ℤ) < W := by exact_mod_cast c'.2.isLt
  have hW : (0 : ℤ) < W := by have := c.2.isLt; omega
  have e1 : (c.2.val : ℤ) = c'.2.val := by
    have := congrArg (· % (W : ℤ)) hp
    simp only [Int.mul_add_emod_self_left] at this
    rwa [Int.emod_eq_of_lt (by omega) h2, Int.emod_eq_of_lt (by omega) h3] at this
  have e2 : (W : ℤ) * c.1.val = W * c'.1.val := by omega
  have e3 := mul_left_cancel₀ hW.ne' e2
  exact Prod.ext (Fin.ext (by exact_mod_cast e3)) (Fin.ext (by exact_mod_cast e1))

lemma uses_proper {g : Rng K σ} (hg : PositiveDraws g) : ∀ {ds : List (Decision K)} {s s' : σ},
    Uses g.next s (ds.map Decision.By) s' → (∀ d ∈ ds, (∀ i, 0 ≤ d.w i) ∧ 0 < ∑ i, d.w i) → ∀ d ∈ ds, d.Proper := by
  intro ds
  induction ds with
  | nil => intro s s' _ _ d hd; cases hd
  | cons d ds ih =>
    intro s s' hu hw e he
    rw [List.map_cons, uses_cons] at hu
    rcases List.mem_cons.1 he with rfl | he
    · obtain ⟨h1, h2⟩ := hw e List.mem_cons_self
      exact ⟨h1, C04_positive_weight_partial e.w h1 h2 _ (hg s).1 e.k ((pick_chosen h1).mpr hu.1)⟩
    · exact ih hu.2 (fun d hd => hw d (List.mem_cons_of_mem _ hd)) e he

lemma forall2_mem {α β : Type*} {R : α → β → Prop} : ∀ {as : List α} {bs : List β}, List.Forall₂ R as bs →
    ∀ b ∈ bs, ∃ a ∈ as, R a b := by
  intro as bs h
  induction h with
  | nil => intro b hb; cases hb
  | cons h1 _ ih =>
    intro b hb
    rcases List.mem_cons.1 hb with rfl | hb
    · exact ⟨_, List.mem_cons_self, h1⟩
    · obtain ⟨a, ha, hr⟩ := ih b hb
      exact ⟨a, List.mem_cons_of_mem _ ha, hr⟩

lemma evenly_total {m : ℕ} (k : Fin m) : (∀ i, 0 ≤ (evenly K k).w i) ∧ 0 < ∑ i, (evenly K k).w i := by
  have hm : 0 < m := lt_of_le_of_lt (Nat.zero_le _) k.isLt
  refine ⟨fun i => zero_le_one, ?_⟩
  change 0 < ∑ _i : Fin m, (1 : K)
  simp only [Finset.sum_const, Finset.card_univ, Fintype.card_fin, nsmul_eq_mul, mul_one]
  exact_mod_cast hm

/-- In a basin that works, the steps of water parcels are made by weights with the total 1. -/
lemma moves_total {g : Rng K σ} (hg : PositiveDraws g) {P : Params L W m K} (hP : WaterSetup P)
    {S : State L W K} (hd : ∀ c, 0 ≤ S.depth c) (hn : 0 < S.ncols) {w : Grid L W (Fin 9 → K)}
    (hw : waterWeightArray P S = .ok w) {s s' : σ} {wst : WState L W K} {log : List (List StepRec)} {n : ℕ}
    (h : runWaterIteration g (waterEnv P S w) (fun k => ((P.inlet k).val : ℤ)) P.NpWater S.ncols s =
        .ok (wst, log, n, s')) : ∀ r ∈ moves log, ∀ c, Addresses r.cur c → IsDistribution (w c) := by
  obtain ⟨st1, log1, n1, s1, hr⟩ := waterRun_of hg hP hd hn s (waterWeightArray_ok hw)
  have hrun := hr.run
  rw [h] at hrun
  cases hrun
  intro r hrm c hc
  unfold moves at hrm
  rw [List.mem_filter, List.mem_flatten] at hrm
  obtain ⟨⟨recs, h1, h2⟩, h3⟩ := hrm
  obtain ⟨k, hk, rfl⟩ := List.getElem_of_mem h1
  have hne : r.cur ≠ 0 := by simpa using h3
  have key : ∃ c : Cell L W, r.cur = position c ∧ IsActive (waterEnv P S w) c := by
    cases (run_kinds hr).1 k hk r h2 with
    | finished h => exact absurd h hne
    | stay c h1 h2 => exact ⟨c, h1, h2⟩
    | move c n h1 h2 => exact ⟨c, h1, h2⟩
    | relocate c n t h1 h2 => exact ⟨c, h1, h2⟩
    | exit c h1 h2 => exact ⟨c, h1, h2⟩
  obtain ⟨c1, a1, a2⟩ := key
  have := address_unique hc (.inl a1)
  subst this
  exact (hr.weights c a2).1

lemma waterIteration_replay {g : Rng K σ} (hg : PositiveDraws g) {P : Params L W m K} (hP : WaterSetup P) {it : ℕ}
    {S S' : State L W K} (hd : ∀ c, 0 ≤ S.depth c) (hn : 0 < S.ncols) {s s' : σ}
    (h : waterIteration g P it S s = .ok (S', s')) :
    (∀ c, 0 ≤ S'.depth c) ∧ 0 < S'.ncols ∧ ∃ ds : List (Decision K), (∀ d ∈ ds, d.Proper) ∧
      Uses g.next s (ds.map Decision.By) s' ∧
      ∀ {τ : Type v} (g' : Rng K τ) (t t' : τ), Uses g'.next t (ds.map Decision.By) t' →
        waterIteration g' P it S t = .ok (S', t') := by
  obtain ⟨S1, s1, e1, e2, e3⟩ := C71_water_iteration hg hP it hd hn s
  rw [h] at e1
  cases e1
  obtain ⟨w, wst, log, n, stage, h1, h2, h3, rfl⟩ := waterIteration_ok h
  have hA := C10_weights_admissible S.depth S.stage P.modWater S.qx S.qy P.s2 P.s05 P.dryDepth
    P.gamma P.pwWater (waterEnv P S w) hd hP.mod hP.pw hP.gamma0 hP.gamma1 (waterWeightArray_ok h1)
  obtain ⟨ks, decs, a1, a2, a3, a4, a5, -⟩ := runWater_decisions.{v} (E := waterEnv P S w) hA.2 h2
  refine ⟨e2, e3, _, uses_proper hg a4 ?_, a4, ?_⟩
  · intro d hdm
    rw [List.mem_append] at hdm
    rcases hdm with hdm | hdm
    · obtain ⟨k, -, rfl⟩ := List.mem_map.1 hdm
      exact evenly_total k
    · obtain ⟨r, hr, c, hc, rfl⟩ := forall2_mem a3 d hdm
      have := moves_total hg hP hd hn h1 h2 r hr c hc
      exact ⟨this.1, by rw [show ∑ i, (Decision.mk 9 ((waterEnv P S w).weights c) r.dir).w i = 1 from this.2]; exact one_pos⟩
  · intro τ g' t t' hu
    unfold waterIteration
    simp only [h1, a5 g' t t' hu, h3]

lemma routeWaterFrom_replay {g : Rng K σ} (hg : PositiveDraws g) {P : Params L W m K} (hP : WaterSetup P) :
    ∀ (n it : ℕ) {S S' : State L W K} (_ : ∀ c, 0 ≤ S.depth c) (_ : 0 < S.ncols) {s s' : σ}
    (_ : routeWaterFrom g P it n S s = .ok (S', s')),
    (∀ c, 0 ≤ S'.depth c) ∧ 0 < S'.ncols ∧ ∃ ds : List (Decision K), (∀ d ∈ ds, d.Proper) ∧
      Uses g.next s (ds.map Decision.By) s' ∧
      ∀ {τ : Type v} (g' : Rng K τ) (t t' : τ), Uses g'.next t (ds.map Decision.By) t' →
        routeWaterFrom g' P it n S t = .ok (S', t')
  | 0, it, S, S', hd, hn, s, s', h => by
    simp only [routeWaterFrom, Except.ok.injEq, Prod.mk.injEq] at h
    obtain ⟨rfl, rfl⟩ := h
    refine ⟨hd, hn, [], by simp, .done _, ?_⟩
    intro τ g' t t' hu
    rw [List.map_nil, uses_nil] at hu
    subst hu
    rfl
  | n + 1, it, S, S', hd, hn, s, s', h => by
    unfold routeWaterFrom at h
    generalize hx : waterIteration g P it S s = x at h
    match x, h with
    | .ok (S1, s1), h =>
      simp only at h
      obtain ⟨h1, h2, d1, a1, a2, a3⟩ := waterIteration_replay.{v} hg hP hd hn hx
      obtain ⟨h3, h4, d2, b1, b2, b3⟩ := routeWaterFrom_replay hg hP n (it + 1) h1 h2 h
      refine ⟨h3, h4, d1 ++ d2, ?_, by rw [List.map_append]; exact uses_append a2 b2, ?_⟩
      · intro d hd
        rcases List.mem_append.1 hd with hd | hd
        · exact a1 d hd
        · exact b1 d hd
      · intro τ g' t t' hu
        rw [List.map_append, uses_app] at hu
        obtain ⟨t1, u1, u2⟩ := hu
        unfold routeWaterFrom
        rw [a3 g' t t1 u1]
        exact b3 g' t1 t' u2

lemma routeParcels_replay {g : Rng K σ} (hg : PositiveDraws g) {k : Sed} {P : Params L W m K}
    (hP : SedDomain P) (hs : P.s05 * P.s2 = 1) {S S' : State L W K} (hd : ∀ c, 0 ≤ S.depth c) {s s' : σ}
    {logs : List (SedLog L W K)} (h : routeParcels g k P S s = .ok (S', logs, s')) :
    (∀ c, 0 ≤ S'.depth c) ∧ ∃ ds : List (Decision K), (∀ d ∈ ds, d.Proper) ∧
      Uses g.next s (ds.map Decision.By) s' ∧
      ∀ {τ : Type v} (g' : Rng K τ) (t t' : τ), Uses g'.next t (ds.map Decision.By) t' →
        routeParcels g' k P S t = .ok (S', logs, t') := by
  obtain ⟨S1, l1, s1, e1, e2⟩ := C71_sediment_parcels hg k hP hd s
  rw [h] at e1
  cases e1
  obtain ⟨ks, decs, h1, h2, h3, h4, -⟩ := routeParcels_decisions.{v} hg hP hs hd h
  refine ⟨e2, _, uses_proper hg h3 ?_, h3, h4⟩
  intro d hdm
  rw [List.mem_append] at hdm
  rcases hdm with hdm | hdm
  · obtain ⟨k, -, rfl⟩ := List.mem_map.1 hdm
    exact evenly_total k
  · obtain ⟨r, hr, w, hw1, hw2, -, rfl⟩ := forall2_mem h2 d hdm
    exact ⟨hw1.1, by rw [show ∑ i, (Decision.mk 9 w r.dir).w i = 1 from hw1.2]; exact one_pos⟩

/-- C114 for a timestep. -/
lemma timestep_replay {g : Rng K σ} (hg : PositiveDraws g) {P : Params L W m K} (hW : WaterSetup P)
    (hD : SedDomain P) (hs : P.s05 * P.s2 = 1) {S S' : State L W K} (hd : ∀ c, 0 ≤ S.depth c) (hn : 0 < S.ncols)
    {s s' : σ} {l : StepLog L W K} (h : timestep g P S s = .ok (S', l, s')) :
    ∃ ds : List (Decision K), (∀ d ∈ ds, d.Proper) ∧ Uses g.next s (ds.map Decision.By) s' ∧
      ∀ {τ : Type v} (g' : Rng K τ) (t t' : τ), Uses g'.next t (ds.map Decision.By) t' →
        timestep g' P S t = .ok (S', l, t') := by
  unfold timestep at h
  generalize hx : routeWater g P S s = x at h
  match x, h with
  | .ok (S1, s1), h =>
    simp only at h
    generalize hy : routeSediment g P S1 s1 = y at h
    match y, h with
    | .ok (S2, sand, mud, s2), h =>
      simp only [Except.ok.injEq, Prod.mk.injEq] at h
      obtain ⟨rfl, rfl, rfl⟩ := h
      obtain ⟨h1, h2, d1, a1, a2, a3⟩ := routeWaterFrom_replay.{v} hg hW _ _ hd hn hx
      obtain ⟨S3, s3, y1, y2⟩ := routeSediment_ok hy
      obtain ⟨h3, d2, b1, b2, b3⟩ := routeParcels_replay.{v} hg hD hs (S := initSediment S1) h1 y1
      obtain ⟨-, d3, c1, c2, c3⟩ := routeParcels_replay.{v} hg hD hs (S := { S3 with
        eta := topoDiffusion P.cellType P.diffMult S3.qs P.Ncross S3.eta }) h3 y2
      refine ⟨d1 ++ (d2 ++ d3), ?_, ?_, ?_⟩
      · intro d hd
        rcases List.mem_append.1 hd with hd | hd
        · exact a1 d hd
        · rcases List.mem_append.1 hd with hd | hd
          · exact b1 d hd
          · exact c1 d hd
      · rw [List.map_append, List.map_append]
        exact uses_append a2 (uses_append b2 c2)
      · intro τ g' t t' hu
        rw [List.map_append, List.map_append, uses_app] at hu
        obtain ⟨t1, u1, hu⟩ := hu
        rw [uses_app] at hu
        obtain ⟨t2, u2, u3⟩ := hu
        unfold timestep
        rw [show routeWater g' P S t = .ok (S1, t1) from a3 g' t t1 u1]
        simp only
        unfold routeSediment
        rw [b3 g' t1 t2 u2]
        simp only
        rw [c3 g' t2 t' u3]

/-- C114 for a run of any length, with settings that may change between the timesteps: there is a list of decisions,
each with a chance, that the numbers of the generator made. Whatever the generator, numbers that make the same decisions
lead to the same fields and the same paths of the sediment parcels. -/
theorem C114_run {g : Rng K σ} (hg : PositiveDraws g) : ∀ {Ps : List (Params L W m K)}
    (_ : ∀ P ∈ Ps, WaterSetup P ∧ SedDomain P ∧ P.s05 * P.s2 = 1 ∧ 0 ≤ P.h0) {S S' : State L W K}
    (_ : ∀ c, 0 ≤ S.depth c) (_ : 0 < S.ncols) {s s' : σ} {ls : List (StepLog L W K)}
    (_ : timesteps g Ps S s = .ok (S', ls, s')),
    ∃ ds : List (Decision K), (∀ d ∈ ds, d.Proper) ∧ Uses g.next s (ds.map Decision.By) s' ∧
      ∀ {τ : Type v} (g' : Rng K τ) (t t' : τ), Uses g'.next t (ds.map Decision.By) t' →
        timesteps g' Ps S t = .ok (S', ls, t')
  | [], _, S, S', hd, hn, s, s', ls, h => by
    simp only [timesteps, Except.ok.injEq, Prod.mk.injEq] at h
    obtain ⟨rfl, rfl, rfl⟩ := h
    refine ⟨[], by simp, .done _, ?_⟩
    intro τ g' t t' hu
    rw [List.map_nil, uses_nil] at hu
    subst hu
    rfl
  | P :: Ps, hPs, S, S', hd, hn, s, s', ls, h => by
    obtain ⟨hW, hD, hs, h0⟩ := hPs P List.mem_cons_self
    unfold timesteps at h
    generalize hx : timestep g P S s = x at h
    match x, h with
    | .ok (S1, l, s1), h =>
      simp only at h
      generalize hy : timesteps g Ps S1 s1 = y at h
      match y, h with
      | .ok (S2, ls2, s2), h =>
        simp only [Except.ok.injEq, Prod.mk.injEq] at h
        obtain ⟨rfl, rfl, rfl⟩ := h
        obtain ⟨d1, a1, a2, a3⟩ := timestep_replay.{v} hg hW hD hs hd hn hx
        have hinv : (∀ c, 0 ≤ S1.depth c) ∧ 0 < S1.ncols := by
          obtain ⟨T, l', s'', e1, e2⟩ := C71_update hg hW hD hd hn s
          rw [hx] at e1
          cases e1
          exact ⟨fun c => (C36_update h0 hx c).2.1, e2⟩
        obtain ⟨d2, b1, b2, b3⟩ := C114_run hg (fun P hP => hPs P (List.mem_cons_of_mem _ hP)) hinv.1 hinv.2 hy
        refine ⟨d1 ++ d2, ?_, by rw [List.map_append]; exact uses_append a2 b2, ?_⟩
        · intro d hd
          rcases List.mem_append.1 hd with hd | hd
          · exact a1 d hd
          · exact b1 d hd
        · intro τ g' t t' hu
          rw [List.map_append, uses_app] at hu
          obtain ⟨t1, u1, u2⟩ := hu
          unfold timesteps
          rw [a3 g' t t1 u1]
          simp only
          rw [b3 g' t1 t' u2]

/-! ## Non-trivial cases -/

/-- Two timesteps of the example, whose decisions fix them. -/
example : ∃ S' ls s', timesteps constRng [exRule, exRule] exState () = .ok (S', ls, s') ∧
    ∃ ds : List (Decision ℚ), (∀ d ∈ ds, d.Proper) ∧ Uses constRng.next () (ds.map Decision.By) s' ∧
      ∀ {τ : Type} (g' : Rng ℚ τ) (t t' : τ), Uses g'.next t (ds.map Decision.By) t' →
        timesteps g' [exRule, exRule] exState t = .ok (S', ls, t') := by
  obtain ⟨S', ls, s', h⟩ := C71_run exPositive (Ps := [exRule, exRule]) (by
    intro P hP
    obtain rfl : P = exRule := by simpa using hP
    exact ⟨exRuleSetup, exRuleDomain, by norm_num [exRule, exParams]⟩) (S := exState)
    (fun c => by norm_num [exState]) (by norm_num [exState]) ()
  refine ⟨S', ls, s', h, C114_run exPositive (by
    intro P hP
    obtain rfl : P = exRule := by simpa using hP
    exact ⟨exRuleSetup, exRuleDomain, by norm_num [exRule, exParams], by norm_num [exRule, exParams]⟩)
    (fun c => by norm_num [exState]) (by norm_num [exState]) h⟩

-- the weights of a step: of three cells, the numbers from a quarter to a half choose the second
example : (⟨3, ![1, 1, 2], 1⟩ : Decision ℚ).By (3 / 8) ∧ ¬ (⟨3, ![1, 1, 2], 1⟩ : Decision ℚ).By (5 / 8) ∧
    (⟨3, ![1, 1, 2], 1⟩ : Decision ℚ).Proper ∧ (⟨3, ![1, 1, 2], 1⟩ : Decision ℚ).chance = 1 / 4 := by
  unfold Decision.By Decision.Proper Decision.chance Chosen
  decide +kernel

end Verif.Props
