import Verif.Model.FloatWaterParts
import Verif.Props.WaterParts
import Verif.Props.FloatParcels
import Verif.Props.FloatFlow

/-!
# C130 in rounded arithmetic: the parts of a water iteration, called one by one
-/

set_option linter.unusedSectionVars false
set_option linter.unusedSimpArgs false

namespace Verif.Props

open Verif.Model Verif.Lemmas Verif.Spec

variable {K : Type*} [Field K] [LinearOrder K] [IsStrictOrderedRing K] [FloorRing K] {σ : Type*} {L W m : ℕ}
  [NeZero L] [NeZero W] {F D : Rounding K}

/-- After the record has been cleared, the routing starts as in the model. -/
lemma startR_cleared (E : WEnv L W K) {P : Params L W m K} {h : WaterHold L W K} (hs : Shaped P h) (starts : List ℤ)
    (hl : starts.length = P.NpWater) :
    startWaterPartR F D E h.S.ncols (initWaterPart h).flux (initWaterPart h).rows starts = waterStartR F D E h.S.ncols starts := by
  unfold startWaterPartR waterStartR initWaterPart
  simp only [List.length_map, hl, hs.rows, and_true]
  rw [zip_cleared h.S.ncols starts h.rows (by rw [hl, hs.rows]) hs.cols]

/-- C130 in rounded arithmetic: the parts in their order are the water iteration of the model, whatever was left from earlier calls: the same fields, the same
random numbers, the same error. -/
theorem C130_rounded_iteration (g : Rng K σ) {P : Params L W m K} {h : WaterHold L W K} (hs : Shaped P h) (i : ℕ) (s : σ) :
    (callPartsR F D g P [.init, .run, .surface, .finalize i] h s).map (fun x => (x.1.S, x.2)) = waterIterationR F D g P i h.S s := by
  have hS : (initWaterPart h).S = h.S := rfl
  simp only [callPartsR, callPartR, waterIterationR, runWaterPartR, runWaterIterationR, hS]
  cases hw : waterWeightArrayR F D P h.S with
  | error e => rfl
  | ok w =>
    simp only
    cases hst : getStartIndicesR D (fun k => ((P.inlet k).val : ℤ)) (getInletWeights fun k => ((P.inlet k).val : ℤ) : Fin m → K)
        (drawN g P.NpWater s).1 with
    | none => rfl
    | some starts =>
      simp only
      have hl : starts.length = P.NpWater := by
        rw [startLoopR_length hst, drawN_length]
      rw [startR_cleared _ hs starts hl]
      cases waterStartR F D (waterEnvR F P h.S w) h.S.ncols starts with
      | error e => rfl
      | ok st0 =>
        simp only
        cases waterLoopR F D g (waterEnvR F P h.S w) 0 st0 (drawN g P.NpWater s).2 with
        | error e => rfl
        | ok x =>
          obtain ⟨st, log, n, s2⟩ := x
          simp only [surfacePartR]
          have hc : computeFreeSurfaceR F D P { h.S with ncols := st.ncols } st.parcels = computeFreeSurfaceR F D P h.S st.parcels := rfl
          rw [hc]
          cases computeFreeSurfaceR F D P h.S st.parcels with
          | error e => rfl
          | ok stage => rfl

/-! ## What a routing leaves -/

lemma stepR_inside {g : Rng K σ} {E : WEnv L W K} {step : ℕ} {st st' : WState L W K} {s s' : σ} {recs : List StepRec}
    (hI : Inside L W st.parcels) (h : waterStepR F D g E step st s = .ok (st', recs, s')) :
    Inside L W st'.parcels ∧ st'.parcels.length = st.parcels.length := by
  obtain ⟨-, -, h3, -⟩ := waterStepR_ok (F := F) (D := D) g E step st st' recs s s' h
  have hpos : (0 : ℤ) < L * W := by
    have h1 : 0 < L := Nat.pos_of_ne_zero (NeZero.ne L)
    have h2 : 0 < W := Nat.pos_of_ne_zero (NeZero.ne W)
    exact_mod_cast Nat.mul_pos h1 h2
  constructor
  · intro p' hp' v hv
    obtain ⟨p, hp, r, -, d, -, hd⟩ := h3.mem₂ p' hp'
    obtain ⟨-, -, -, -, hb, -, -, hw⟩ := parcelStepR_fields hd
    have hp2 : ∀ u ∈ p.walk, u < (L * W : ℤ) := by
      intro u hu
      unfold checkSize at hp
      split at hp
      · simp only [List.mem_map] at hp
        obtain ⟨q, hq, rfl⟩ := hp
        rcases List.mem_append.mp hu with hu | hu
        · exact hI q hq u hu
        · rw [List.eq_of_mem_replicate hu]; exact hpos
      · exact hI p hp u hu
    rw [hw] at hv
    rcases List.mem_or_eq_of_mem_set hv with hv | rfl
    · exact hp2 v hv
    · unfold recorded
      split
      · exact hpos
      · unfold isBoundary at hb
        split at hb
        · cases hb
        · rename_i c hc
          exact (flatCell_isSome_iff.mp ⟨c, hc⟩).2
  · rw [← h3.length₁₂]
    unfold checkSize
    split <;> simp

lemma loopR_inside {g : Rng K σ} {E : WEnv L W K} {step : ℕ} {st st' : WState L W K} {s s' : σ} {log : List (List StepRec)} {n : ℕ}
    (hI : Inside L W st.parcels) (h : waterLoopR F D g E step st s = .ok (st', log, n, s')) :
    Inside L W st'.parcels ∧ st'.parcels.length = st.parcels.length := by
  have := (waterLoopR_induct (F := F) (D := D) g E (fun _ x => Inside L W x.parcels ∧ x.parcels.length = st.parcels.length) (fun _ _ => True)
    (fun _ x _ x' _ _ hx _ _ he => ⟨⟨(stepR_inside hx.1 he).1, (stepR_inside hx.1 he).2.trans hx.2⟩, trivial⟩)
    step st st' s s' log n ⟨hI, rfl⟩ h).1
  exact this

lemma startR_rows {E : WEnv L W K} {nc : ℕ} {f : Flux L W K} {rows : List WParcel} {starts : List ℤ} {st : WState L W K}
    (h : startWaterPartR F D E nc f rows starts = .ok st) (hc : ∀ p ∈ rows, p.walk.length = nc) :
    st.ncols = nc ∧ 0 < nc ∧ st.parcels.length = rows.length ∧ Rect st ∧
      (∀ p ∈ st.parcels, p.ind ∈ starts ∧ p.walk[0]? = some p.ind) ∧
      (Inside L W rows → Inside L W st.parcels) := by
  unfold startWaterPartR at h
  split at h
  · rename_i hk
    simp only [Except.ok.injEq] at h
    subst h
    have hmem : ∀ p ∈ List.zipWith (fun i (p : WParcel) => (⟨i, p.flag, p.walk.set 0 i⟩ : WParcel)) starts rows,
        ∃ i ∈ starts, ∃ q ∈ rows, p = ⟨i, q.flag, q.walk.set 0 i⟩ := by
      intro p hp
      rw [List.zipWith_eq_zipWith_take_min, ← List.map_uncurry_zip_eq_zipWith] at hp
      obtain ⟨⟨i, q⟩, hiq, rfl⟩ := List.mem_map.mp hp
      exact ⟨i, List.mem_of_mem_take (List.of_mem_zip hiq).1, q, List.mem_of_mem_take (List.of_mem_zip hiq).2, rfl⟩
    refine ⟨rfl, hk.2.1, by simp [hk.2.2], ?_, ?_, ?_⟩
    · intro p hp
      obtain ⟨i, -, q, hq, rfl⟩ := hmem p hp
      simp [hc q hq]
    · intro p hp
      obtain ⟨i, hi, q, hq, rfl⟩ := hmem p hp
      refine ⟨hi, ?_⟩
      have hlen := hc q hq
      rw [List.getElem?_set_self (by omega)]
    · intro hI p hp v hv
      obtain ⟨i, hi, q, hq, rfl⟩ := hmem p hp
      rcases List.mem_or_eq_of_mem_set hv with hv | rfl
      · exact hI q hq v hv
      · have := List.all_eq_true.mp hk.1 _ hi
        obtain ⟨c, hcc⟩ := Option.isSome_iff_exists.mp this
        exact (flatCell_isSome_iff.mp ⟨c, hcc⟩).2
  · cases h

/-- What a routing was. -/
lemma runPartR_ok {g : Rng K σ} {P : Params L W m K} {h h' : WaterHold L W K} {s s' : σ}
    (hr : runWaterPartR F D g P h s = .ok (h', s')) :
    ∃ w starts st0 st log n, getStartIndicesR D (fun k => ((P.inlet k).val : ℤ))
        (getInletWeights fun k => ((P.inlet k).val : ℤ) : Fin m → K) (drawN g P.NpWater s).1 = some starts ∧
      startWaterPartR F D (waterEnvR F P h.S w) h.S.ncols h.flux h.rows starts = .ok st0 ∧
      waterLoopR F D g (waterEnvR F P h.S w) 0 st0 (drawN g P.NpWater s).2 = .ok (st, log, n, s') ∧
      h' = ⟨{ h.S with ncols := st.ncols }, st.flux, st.parcels⟩ := by
  unfold runWaterPartR at hr
  split at hr
  · cases hr
  · rename_i w hw
    simp only at hr
    split at hr
    · cases hr
    · rename_i starts hst
      split at hr
      · cases hr
      · rename_i st0 h0
        split at hr
        · cases hr
        · rename_i st log n s2 hl
          simp only [Except.ok.injEq, Prod.mk.injEq] at hr
          obtain ⟨rfl, rfl⟩ := hr
          exact ⟨w, starts, st0, st, log, n, hst, h0, hl, rfl⟩

lemma runR_shaped {g : Rng K σ} {P : Params L W m K} {h h' : WaterHold L W K} {s s' : σ} (hs : Shaped P h)
    (hr : runWaterPartR F D g P h s = .ok (h', s')) : Shaped P h' := by
  obtain ⟨w, starts, st0, st, log, n, -, h0, hl, rfl⟩ := runPartR_ok hr
  obtain ⟨a1, a2, a3, a4, -, -⟩ := startR_rows h0 hs.cols
  have hlen : st.parcels.length = st0.parcels.length :=
    (waterLoopR_induct (F := F) (D := D) g _ (fun _ x => x.parcels.length = st0.parcels.length) (fun _ _ => True)
      (fun _ x _ x' recs _ hx _ _ he => by
        refine ⟨?_, trivial⟩
        obtain ⟨-, -, h3, -⟩ := waterStepR_ok (F := F) (D := D) g _ _ _ _ _ _ _ he
        rw [← h3.length₁₂, ← hx]
        unfold checkSize
        split <;> simp)
      0 st0 st _ s' log n rfl hl).1
  exact ⟨by rw [hlen, a3, hs.rows], (waterLoopR_walk (F := F) (D := D) g _ 0 st0 st _ s' log n a4 (by omega) hl).1⟩

lemma partR_shaped {g : Rng K σ} {P : Params L W m K} (a : WaterCall) {h h' : WaterHold L W K} {s s' : σ} (hs : Shaped P h)
    (hr : callPartR F D g P a h s = .ok (h', s')) : Shaped P h' := by
  cases a with
  | init =>
    simp only [callPartR, Except.ok.injEq, Prod.mk.injEq] at hr
    obtain ⟨rfl, -⟩ := hr
    refine ⟨by simp [initWaterPart, hs.rows], ?_⟩
    intro p hp
    obtain ⟨q, hq, rfl⟩ := List.mem_map.mp hp
    simpa [initWaterPart] using hs.cols q hq
  | run => exact runR_shaped hs hr
  | surface =>
    simp only [callPartR, surfacePartR] at hr
    cases hc : computeFreeSurfaceR F D P h.S h.rows with
    | error e => rw [hc] at hr; cases hr
    | ok stage =>
      rw [hc] at hr
      simp only [Except.ok.injEq, Prod.mk.injEq] at hr
      obtain ⟨rfl, -⟩ := hr
      exact ⟨hs.rows, hs.cols⟩
  | finalize i =>
    simp only [callPartR, Except.ok.injEq, Prod.mk.injEq] at hr
    obtain ⟨rfl, -⟩ := hr
    exact ⟨hs.rows, hs.cols⟩

/-- The shape of the record is kept by all calls. -/
theorem C130_rounded_shape {g : Rng K σ} {P : Params L W m K} (l : List WaterCall) {h h' : WaterHold L W K} {s s' : σ} (hs : Shaped P h)
    (hr : callPartsR F D g P l h s = .ok (h', s')) : Shaped P h' := by
  induction l generalizing h s with
  | nil =>
    simp only [callPartsR, Except.ok.injEq, Prod.mk.injEq] at hr
    obtain ⟨rfl, -⟩ := hr
    exact hs
  | cons a l ih =>
    unfold callPartsR at hr
    split at hr
    · cases hr
    · rename_i h1 s1 h1e
      exact ih (partR_shaped a hs h1e) hr

lemma callPartsR_append (g : Rng K σ) (P : Params L W m K) (l l' : List WaterCall) (h : WaterHold L W K) (s : σ) :
    callPartsR F D g P (l ++ l') h s =
      match callPartsR F D g P l h s with
      | .error e => .error e
      | .ok (h1, s1) => callPartsR F D g P l' h1 s1 := by
  induction l generalizing h s with
  | nil => rfl
  | cons a l ih =>
    simp only [List.cons_append, callPartsR]
    cases callPartR F D g P a h s with
    | error e => rfl
    | ok x => exact ih x.1 x.2

/-- C130 in rounded arithmetic: as many iterations by hand as the model makes are the water routing of a timestep. -/
theorem C130_rounded_route (g : Rng K σ) {P : Params L W m K} {h : WaterHold L W K} (hs : Shaped P h) (s : σ) :
    (callPartsR F D g P (iterations 0 P.itermax) h s).map (fun x => (x.1.S, x.2)) = routeWaterR F D g P h.S s := by
  have key : ∀ (n i : ℕ) (h : WaterHold L W K) (s : σ), Shaped P h →
      (callPartsR F D g P (iterations i n) h s).map (fun x => (x.1.S, x.2)) = routeWaterFromR F D g P i n h.S s := by
    intro n
    induction n with
    | zero => intro i h s _; rfl
    | succ n ih =>
      intro i h s hs
      have e : iterations i (n + 1) = [.init, .run, .surface, .finalize i] ++ iterations (i + 1) n := rfl
      rw [e, callPartsR_append, routeWaterFromR, ← C130_rounded_iteration g hs i s]
      cases hc : callPartsR F D g P [.init, .run, .surface, .finalize i] h s with
      | error e => rfl
      | ok x => exact ih (i + 1) x.1 x.2 (C130_rounded_shape _ hs hc)
  exact key _ 0 h s hs

/-! ## Any order -/

/-- The routing of parcels never fails, whatever is in the record and in the discharge. -/
lemma runPartR_total {g : Rng K σ} (hg : PositiveDraws g) {P : Params L W m K} (hP : WaterSetup P) {h : WaterHold L W K}
    (hr : ReadyWater P h) (s : σ) : ∃ h' s', runWaterPartR F D g P h s = .ok (h', s') ∧ ReadyWater P h' ∧ Begun h'.rows := by
  obtain ⟨w, hw, hwc⟩ := weightsR_total (F := F) (D := D) hP hr.depth
  have hA : ∀ c d, 0 ≤ w c d := by
    intro c
    obtain ⟨w', h1, h2⟩ := C100_weights (F := F) (D := D) hP hr.depth c
    rw [hwc c] at h1
    cases h1
    exact h2.nonneg
  have hS : SafeLayout (waterEnvR F P h.S w) := by
    refine ⟨by have := hP.hL; have := hP.hL0; omega, by have := hP.hW; omega, hP.hL0, ?_, hA, hP.nrm⟩
    intro c hc
    change P.cellType c ≠ -1 at hc
    have hlast : c.1.val + 1 < L := by
      have h1 := c.1.isLt
      by_contra hcon
      exact hc (hP.last c (by omega))
    refine ⟨hlast, fun h2 => ?_⟩
    by_cases hl : P.cellType c = -2
    · exfalso
      exact hP.land c (by have := hP.hL; omega) hl
    · exact (hP.active c hc hl).2.2
  obtain ⟨starts, hst, hlen, hmem⟩ := startsR_exist (D := D) hg (fun k => ((P.inlet k).val : ℤ)) hP.hm P.NpWater s
  have hpos : ∀ i ∈ starts, ∃ c : Cell L W, i = posOf c ∧ P.cellType c ≠ -1 ∧ 0 < i := by
    intro i hi
    obtain ⟨k, rfl⟩ := hmem i hi
    refine ⟨(0, P.inlet k), by simp [posOf], (hP.inlet k).1, ?_⟩
    have := (hP.active (0, P.inlet k) (hP.inlet k).1 (hP.inlet k).2).2.1
    exact_mod_cast this
  have hall : starts.all (fun i => (flatCell L W i).isSome) = true := by
    rw [List.all_eq_true]
    intro i hi
    obtain ⟨c, rfl, -⟩ := hpos i hi
    simp [flatCell_posOf]
  obtain ⟨st0, h0⟩ : ∃ st0, startWaterPartR F D (waterEnvR F P h.S w) h.S.ncols h.flux h.rows starts = .ok st0 := by
    unfold startWaterPartR
    rw [if_pos ⟨hall, hr.ncols, by rw [hlen, hr.shaped.rows]⟩]
    exact ⟨_, rfl⟩
  obtain ⟨a1, a2, a3, a4, a5, a6⟩ := startR_rows h0 hr.shaped.cols
  obtain ⟨st, log, n, s', hl⟩ := waterLoopR_total (F := F) (D := D) g (fun s => (hg s).2) hS hP.steps 0 st0 (by omega)
    (fun p hp => by
      obtain ⟨c, hc1, hc2, -⟩ := hpos _ (a5 p hp).1
      exact .inr ⟨c, hc1, hc2⟩) (drawN g P.NpWater s).2
  have hrun : runWaterPartR F D g P h s = .ok (⟨{ h.S with ncols := st.ncols }, st.flux, st.parcels⟩, s') := by
    unfold runWaterPartR
    simp only [hw, hst, h0, hl]
  obtain ⟨b1, b2, b3, b4, -⟩ := waterLoopR_walk (F := F) (D := D) g _ 0 st0 st _ s' log n a4 (by omega) hl
  have hins := loopR_inside (a6 hr.inside) hl
  refine ⟨_, s', hrun, ⟨runR_shaped hr.shaped hrun, by change 0 < st.ncols; omega, hr.depth, hins.1⟩, ?_⟩
  intro p hp
  obtain ⟨j, hj⟩ := List.mem_iff_getElem?.mp hp
  have hjl : j < st0.parcels.length := by
    rw [← hins.2]
    exact (List.getElem?_eq_some_iff.mp hj).1
  have h00 := b4 j 0 le_rfl
  unfold walkAt at h00
  rw [hj, List.getElem?_eq_getElem hjl] at h00
  simp only [Option.bind_some] at h00
  obtain ⟨hm1, hm2⟩ := a5 _ (List.getElem_mem hjl)
  obtain ⟨c, -, -, hp0⟩ := hpos _ hm1
  exact ⟨_, h00.trans hm2, hp0⟩

lemma surfaceR_total {P : Params L W m K} {h : WaterHold L W K} (hr : ReadyWater P h) (hB : Begun h.rows) :
    ∃ h', surfacePartR F D P h = .ok h' ∧ ReadyWater P h' ∧ Begun h'.rows := by
  obtain ⟨css, hcss⟩ := inside_cells hr.inside hB
  obtain ⟨a, ha⟩ := sfcParcelsR_total (D := D) (sfcEnv P h.S) hcss ⟨fun _ => 0, fun _ => 0⟩
  have hok : ∃ stage, computeFreeSurfaceR F D P h.S h.rows = .ok stage := by
    unfold computeFreeSurfaceR
    rw [ha]
    exact ⟨_, rfl⟩
  obtain ⟨stage, hstage⟩ := hok
  refine ⟨{ h with S := { h.S with stage := stage } }, ?_, ⟨⟨hr.shaped.rows, hr.shaped.cols⟩, hr.ncols, hr.depth, hr.inside⟩, hB⟩
  unfold surfacePartR
  rw [hstage]

/-- C130 in rounded arithmetic: the parts can be called in any order and any number of times, also a routing without clearing the record and the discharge
before it: no call fails, as long as the surface is computed only after a routing since the record was last cleared. -/
theorem C130_rounded_safe {g : Rng K σ} (hg : PositiveDraws g) {P : Params L W m K} (hP : WaterSetup P) {l : List WaterCall}
    (hl : RoutedFirst false l) {h : WaterHold L W K} (hr : ReadyWater P h) (s : σ) :
    ∃ h' s', callPartsR F D g P l h s = .ok (h', s') ∧ ReadyWater P h' := by
  have key : ∀ (l : List WaterCall) (b : Bool), RoutedFirst b l → ∀ (h : WaterHold L W K) (s : σ), ReadyWater P h →
      (b = true → Begun h.rows) → ∃ h' s', callPartsR F D g P l h s = .ok (h', s') ∧ ReadyWater P h' := by
    intro l
    induction l with
    | nil => intro b _ h s hr _; exact ⟨h, s, rfl, hr⟩
    | cons a l ih =>
      intro b hl h s hr hB
      cases a with
      | init =>
        have hs : ReadyWater P (initWaterPart h) := by
          refine ⟨partR_shaped (F := F) (D := D) (g := g) (s := s) (s' := s) .init hr.shaped rfl, hr.ncols, hr.depth, ?_⟩
          intro p hp v hv
          obtain ⟨q, hq, rfl⟩ := List.mem_map.mp hp
          obtain ⟨u, -, rfl⟩ := List.mem_map.mp hv
          have h1 : 0 < L := Nat.pos_of_ne_zero (NeZero.ne L)
          have h2 : 0 < W := Nat.pos_of_ne_zero (NeZero.ne W)
          exact_mod_cast Nat.mul_pos h1 h2
        exact ih false hl (initWaterPart h) s hs (by simp)
      | run =>
        obtain ⟨h1, s1, e, hr1, hB1⟩ := runPartR_total (F := F) (D := D) hg hP hr s
        obtain ⟨h2, s2, e2, hr2⟩ := ih true hl h1 s1 hr1 (fun _ => hB1)
        exact ⟨h2, s2, by simp only [callPartsR, callPartR, e, e2], hr2⟩
      | surface =>
        obtain ⟨h1, e, hr1, hB1⟩ := surfaceR_total (F := F) (D := D) hr (hB hl.1)
        obtain ⟨h2, s2, e2, hr2⟩ := ih b hl.2 h1 s hr1 (fun _ => hB1)
        exact ⟨h2, s2, by simp only [callPartsR, callPartR, e, e2], hr2⟩
      | finalize i =>
        have hs : ReadyWater P (finalizePartR F D P i h) :=
          ⟨⟨hr.shaped.rows, hr.shaped.cols⟩, hr.ncols, fun _ => le_max_right _ _, hr.inside⟩
        exact ih b hl (finalizePartR F D P i h) s hs hB
  exact key l false hl h s hr (by simp)

/-- Rows without a cell. -/
lemma surfaceR_blank {P : Params L W m K} {h : WaterHold L W K} (hne : h.rows ≠ []) (hz : ∀ p ∈ h.rows, ∀ v ∈ p.walk, v = 0) :
    surfacePartR F D P h = .error .index := by
  unfold surfacePartR computeFreeSurfaceR
  cases hrows : h.rows with
  | nil => exact absurd hrows hne
  | cons p ps =>
    have hw : ∀ l : List ℤ, (∀ v ∈ l, v = 0) → walkCells L W l = .ok [] := by
      intro l
      induction l with
      | nil => intro _; rfl
      | cons a l ih =>
        intro hl
        have ha := hl a List.mem_cons_self
        subst ha
        unfold walkCells
        rw [if_neg (lt_irrefl _)]
        exact ih (fun v hv => hl v (List.mem_cons_of_mem _ hv))
    have hp := hw p.walk (hz p (by rw [hrows]; exact List.mem_cons_self))
    simp only [List.map_cons, sfcParcelsR, sfcParcelR, hp, List.reverse_nil]

/-- C130 in rounded arithmetic: computed in a new model, or after the record was cleared and before a routing, the surface reads outside of an empty array, in
every model with parcels. -/
theorem C130_rounded_early (g : Rng K σ) {P : Params L W m K} (hn : 0 < P.NpWater) (l : List WaterCall) (s : σ) :
    (∀ S, callPartsR F D g P (.surface :: l) (newWaterHold P S) s = .error .index) ∧
    ∀ h : WaterHold L W K, Shaped P h → callPartsR F D g P (.init :: .surface :: l) h s = .error .index := by
  constructor
  · intro S
    have e : surfacePartR F D P (newWaterHold P S) = .error .index := by
      refine surfaceR_blank ?_ ?_
      · intro h
        have := congrArg List.length h
        simp only [newWaterHold, List.length_replicate, List.length_nil] at this
        omega
      · intro p hp v hv
        rw [List.eq_of_mem_replicate hp] at hv
        exact List.eq_of_mem_replicate hv
    simp only [callPartsR, callPartR, e]
  · intro h hs
    have e : surfacePartR F D P (initWaterPart h) = .error .index := by
      refine surfaceR_blank ?_ ?_
      · intro hh
        have := congrArg List.length hh
        simp only [initWaterPart, List.length_map, List.length_nil, hs.rows] at this
        omega
      · intro p hp v hv
        obtain ⟨q, -, rfl⟩ := List.mem_map.mp hp
        obtain ⟨u, -, rfl⟩ := List.mem_map.mp hv
        rfl
    simp only [callPartsR, callPartR, e]

/-- C130 in rounded arithmetic: what the record says about a parcel after a routing depends on earlier routings: a parcel that was disqualified stays so until
the record is cleared, however it walks. -/
theorem C130_rounded_disqualified {g : Rng K σ} {P : Params L W m K} {h h' : WaterHold L W K} {s s' : σ} (hs : Shaped P h)
    (hr : runWaterPartR F D g P h s = .ok (h', s')) {j : ℕ} {p p' : WParcel} (hp : h.rows[j]? = some p) (hp' : h'.rows[j]? = some p')
    (hf : p.flag = false) : p'.flag = false := by
  obtain ⟨w, starts, st0, st, log, n, -, h0, hl, rfl⟩ := runPartR_ok hr
  obtain ⟨a1, a2, a3, a4, -, -⟩ := startR_rows h0 hs.cols
  have hflag := (waterLoopR_walk (F := F) (D := D) g _ 0 st0 st _ s' log n a4 (by omega) hl).2.2.2.2.2.2.2.2 j
  change st.parcels[j]? = some p' at hp'
  have hst : st0.parcels[j]?.map (·.flag) = some false := by
    unfold startWaterPartR at h0
    split at h0
    · rename_i hk
      simp only [Except.ok.injEq] at h0
      subst h0
      have hj : j < starts.length := by
        rw [hk.2.2]
        exact (List.getElem?_eq_some_iff.mp hp).1
      simp only [List.getElem?_zipWith, hp, List.getElem?_eq_getElem hj, Option.map_some, hf]
    · cases h0
  rw [hp'] at hflag
  cases hq : st0.parcels[j]? with
  | none => rw [hq] at hst; simp at hst
  | some q =>
    rw [hq] at hst hflag
    simp only [Option.map_some, Option.some.injEq] at hst hflag
    rw [hflag, hst]
    rfl

lemma partR_flags {g : Rng K σ} {P : Params L W m K} {a : WaterCall} (ha : a ≠ .init) {h h' : WaterHold L W K} {s s' : σ}
    (hs : Shaped P h) (hr : callPartR F D g P a h s = .ok (h', s')) (hf : ∀ p ∈ h.rows, p.flag = false) : ∀ p ∈ h'.rows, p.flag = false := by
  cases a with
  | init => exact absurd rfl ha
  | run =>
    intro p' hp'
    have hl : h'.rows.length = h.rows.length := by rw [(runR_shaped hs hr).rows, hs.rows]
    obtain ⟨j, hj⟩ := List.mem_iff_getElem?.mp hp'
    have hjl : j < h.rows.length := by
      rw [← hl]
      exact (List.getElem?_eq_some_iff.mp hj).1
    exact C130_rounded_disqualified hs hr (List.getElem?_eq_getElem hjl) hj (hf _ (List.getElem_mem hjl))
  | surface =>
    simp only [callPartR, surfacePartR] at hr
    cases hc : computeFreeSurfaceR F D P h.S h.rows with
    | error e => rw [hc] at hr; cases hr
    | ok stage =>
      rw [hc] at hr
      simp only [Except.ok.injEq, Prod.mk.injEq] at hr
      obtain ⟨rfl, -⟩ := hr
      exact hf
  | finalize i =>
    simp only [callPartR, Except.ok.injEq, Prod.mk.injEq] at hr
    obtain ⟨rfl, -⟩ := hr
    exact hf

lemma sfcParcelsR_disqualified (E : SfcEnv L W K) : ∀ (ps : List (List ℤ × Bool)) (a a' : SfcAcc L W K), (∀ p ∈ ps, p.2 = false) →
    sfcParcelsR D E ps a = .ok a' → a' = a
  | [], a, a', _, h => by
    simp only [sfcParcelsR, Except.ok.injEq] at h
    exact h.symm
  | p :: ps, a, a', hp, h => by
    obtain ⟨w, b⟩ := p
    have hb : b = false := hp _ List.mem_cons_self
    subst hb
    unfold sfcParcelsR at h
    split at h
    · cases h
    · rename_i a1 h1
      have e : a1 = a := by
        unfold sfcParcelR at h1
        split at h1
        · cases h1
        · split at h1
          · cases h1
          · simp only [Bool.false_eq_true, and_false, if_false, Except.ok.injEq] at h1
            exact h1.symm
      subst e
      exact sfcParcelsR_disqualified E ps a1 a' (fun q hq => hp q (List.mem_cons_of_mem _ hq)) h

/-- C130 in rounded arithmetic: in a new model no parcel shapes the water surface before the first clearing, however many routings are made. -/
theorem C130_rounded_uncleared {g : Rng K σ} {P : Params L W m K} {S : State L W K} {l : List WaterCall} (hl : .init ∉ l) {h' : WaterHold L W K}
    {s s' : σ} (hr : callPartsR F D g P l (newWaterHold P S) s = .ok (h', s')) {a : SfcAcc L W K}
    (ha : sfcParcelsR D (sfcEnv P h'.S) (h'.rows.map fun p => (p.walk, p.flag)) ⟨fun _ => 0, fun _ => 0⟩ = .ok a) (c : Cell L W) :
    a.visit c = 0 ∧ a.sum c = 0 := by
  have key : ∀ (l : List WaterCall) (h : WaterHold L W K) (s : σ), .init ∉ l → Shaped P h → (∀ p ∈ h.rows, p.flag = false) →
      callPartsR F D g P l h s = .ok (h', s') → ∀ p ∈ h'.rows, p.flag = false := by
    intro l
    induction l with
    | nil =>
      intro h s _ _ hf hr
      simp only [callPartsR, Except.ok.injEq, Prod.mk.injEq] at hr
      obtain ⟨rfl, -⟩ := hr
      exact hf
    | cons b l ih =>
      intro h s hl hs hf hr
      rw [List.mem_cons, not_or] at hl
      unfold callPartsR at hr
      split at hr
      · cases hr
      · rename_i h1 s1 h1e
        exact ih h1 s1 hl.2 (partR_shaped b hs h1e) (partR_flags (fun e => hl.1 e.symm) hs h1e hf) hr
  have hs : Shaped P (newWaterHold P S) := by
    refine ⟨List.length_replicate, fun p hp => ?_⟩
    rw [List.eq_of_mem_replicate hp]
    exact List.length_replicate
  have hf := key l _ s hl hs (fun p hp => by rw [List.eq_of_mem_replicate hp]) hr
  have e := sfcParcelsR_disqualified (sfcEnv P h'.S) _ _ a (fun q hq => by
    obtain ⟨p, hp, rfl⟩ := List.mem_map.mp hq
    exact hf p hp) ha
  rw [e]
  exact ⟨rfl, rfl⟩

/-! ## Discharge that is there already -/

lemma addFluxR_alike (E : WEnv L W K) (x y : Flux L W K) (i : ℤ) (d : Fin 9) :
    (addFluxR F D E x i d).map (fun _ => ()) = (addFluxR F D E y i d).map (fun _ => ()) := by
  unfold addFluxR
  split
  · cases flatCell L W i <;> rfl
  · rfl

lemma addFluxesR_alike (E : WEnv L W K) (sel : StepRec → ℤ) (p : StepRec → Bool) :
    ∀ (rs : List StepRec) (x y : Flux L W K),
      (addFluxesR F D E sel p rs x).map (fun _ => ()) = (addFluxesR F D E sel p rs y).map (fun _ => ())
  | [], x, y => rfl
  | r :: rs, x, y => by
    unfold addFluxesR
    split
    · have h := addFluxR_alike (F := F) (D := D) E x y (sel r) r.dir
      cases hx : addFluxR F D E x (sel r) r.dir <;> cases hy : addFluxR F D E y (sel r) r.dir <;> rw [hx, hy] at h <;>
        simp only [Except.map, Except.error.injEq, reduceCtorEq] at h
      · subst h; rfl
      · exact addFluxesR_alike E sel p rs _ _
    · exact addFluxesR_alike E sel p rs x y

/-- All but the discharge. -/
def withoutFlux (st : WState L W K) : List WParcel × ℕ := (st.parcels, st.ncols)

lemma waterStepR_alike (g : Rng K σ) (E : WEnv L W K) (step : ℕ) {x y : WState L W K} (h : withoutFlux x = withoutFlux y) (s : σ) :
    (waterStepR F D g E step x s).map (fun r => (withoutFlux r.1, r.2)) =
      (waterStepR F D g E step y s).map (fun r => (withoutFlux r.1, r.2)) := by
  have hc : withoutFlux (checkSize E.stepmax step x) = withoutFlux (checkSize E.stepmax step y) := by
    obtain ⟨f, ps, n⟩ := x
    obtain ⟨f', ps', n'⟩ := y
    simp only [withoutFlux, Prod.mk.injEq] at h
    obtain ⟨rfl, rfl⟩ := h
    unfold checkSize withoutFlux
    simp only
    split <;> rfl
  unfold waterStepR
  simp only
  revert hc
  generalize checkSize E.stepmax step x = x1
  generalize checkSize E.stepmax step y = y1
  intro hc
  obtain ⟨f, ps, n⟩ := x1
  obtain ⟨f', ps', n'⟩ := y1
  simp only [withoutFlux, Prod.mk.injEq] at hc
  obtain ⟨rfl, rfl⟩ := hc
  simp only
  split
  · cases chooseDirsR D g E.weights (ps.map (·.ind)) s with
    | error e => rfl
    | ok x =>
      simp only
      cases parcelStepsR D E step ps x.1 with
      | error e => rfl
      | ok y =>
        simp only
        have h1 := addFluxesR_alike (F := F) (D := D) E (·.cur) (fun _ => true) y.2 f f'
        revert h1
        generalize addFluxesR F D E (·.cur) (fun _ => true) y.2 f = a
        generalize addFluxesR F D E (·.cur) (fun _ => true) y.2 f' = b
        intro h1
        cases a <;> cases b <;> simp only [Except.map, Except.error.injEq, reduceCtorEq] at h1
        · subst h1; rfl
        rename_i f1 f1'
        simp only
        have h2 := addFluxesR_alike (F := F) (D := D) E (·.new1) (fun _ => true) y.2 f1 f1'
        revert h2
        generalize addFluxesR F D E (·.new1) (fun _ => true) y.2 f1 = a
        generalize addFluxesR F D E (·.new1) (fun _ => true) y.2 f1' = b
        intro h2
        cases a <;> cases b <;> simp only [Except.map, Except.error.injEq, reduceCtorEq] at h2
        · subst h2; rfl
        rename_i f2 f2'
        simp only
        have h3 := addFluxesR_alike (F := F) (D := D) E (·.new2) (·.bnd) y.2 f2 f2'
        revert h3
        generalize addFluxesR F D E (·.new2) (·.bnd) y.2 f2 = a
        generalize addFluxesR F D E (·.new2) (·.bnd) y.2 f2' = b
        intro h3
        cases a <;> cases b <;> simp only [Except.map, Except.error.injEq, reduceCtorEq] at h3
        · subst h3; rfl
        rfl
  · rfl

lemma waterLoopR_alike (g : Rng K σ) (E : WEnv L W K) (step : ℕ) {x y : WState L W K} (h : withoutFlux x = withoutFlux y) (s : σ) :
    (waterLoopR F D g E step x s).map (fun r => (withoutFlux r.1, r.2)) =
      (waterLoopR F D g E step y s).map (fun r => (withoutFlux r.1, r.2)) := by
  induction hfuel : E.stepmax - step generalizing step x y s with
  | zero =>
    unfold waterLoopR
    rw [if_neg (by omega), if_neg (by omega)]
    simp only [Except.map, h]
  | succ k ih =>
    have hp : x.parcels = y.parcels := congrArg Prod.fst h
    unfold waterLoopR
    rw [hp]
    split
    · have h1 := waterStepR_alike (F := F) (D := D) g E (step + 1) h s
      revert h1
      generalize waterStepR F D g E (step + 1) x s = a
      generalize waterStepR F D g E (step + 1) y s = b
      intro h1
      cases a <;> cases b <;> simp only [Except.map, Except.error.injEq, Except.ok.injEq, reduceCtorEq] at h1
      · subst h1; rfl
      rename_i a b
      obtain ⟨x1, recs, s1⟩ := a
      obtain ⟨y1, recs', s1'⟩ := b
      simp only [Prod.mk.injEq] at h1
      obtain ⟨h1, rfl, rfl⟩ := h1
      simp only
      have h2 := ih (step + 1) h1 s1 (by omega)
      revert h2
      generalize waterLoopR F D g E (step + 1) x1 s1 = a
      generalize waterLoopR F D g E (step + 1) y1 s1 = b
      intro h2
      cases a <;> cases b <;> simp only [Except.map, Except.error.injEq, Except.ok.injEq, reduceCtorEq] at h2
      · subst h2; rfl
      rename_i a b
      obtain ⟨x2, log, n, s2⟩ := a
      obtain ⟨y2, log', n', s2'⟩ := b
      simp only [Prod.mk.injEq] at h2
      obtain ⟨h2, rfl, rfl, rfl⟩ := h2
      simp only [Except.map, h2]
    · simp only [Except.map, h]

/-- C130 in rounded arithmetic: a routing makes the same walks, uses the same random numbers and gives the same errors, whatever discharge
is in hand. -/
theorem C130_rounded_adds (g : Rng K σ) (P : Params L W m K) (f : Flux L W K) (h : WaterHold L W K) (s : σ) :
    (runWaterPartR F D g P { h with flux := f } s).map (fun x => (x.1.S, x.1.rows, x.2)) =
      (runWaterPartR F D g P h s).map (fun x => (x.1.S, x.1.rows, x.2)) := by
  unfold runWaterPartR
  simp only
  cases waterWeightArrayR F D P h.S with
  | error e => rfl
  | ok w =>
    simp only
    cases getStartIndicesR D (fun k => ((P.inlet k).val : ℤ)) (getInletWeights fun k => ((P.inlet k).val : ℤ) : Fin m → K)
        (drawN g P.NpWater s).1 with
    | none => rfl
    | some starts =>
      simp only [startWaterPartR]
      by_cases hc : starts.all (fun i => (flatCell L W i).isSome) ∧ 0 < h.S.ncols ∧ starts.length = h.rows.length
      · simp only [if_pos hc]
        have h2 := waterLoopR_alike (F := F) (D := D) g (waterEnvR F P h.S w) 0
          (x := ⟨⟨fancyAddR F f.qx starts 1, fancyAddR F f.qy starts 0, fancyAddR F f.qw starts (halfShareR D (waterEnvR F P h.S w))⟩,
            List.zipWith (fun i p => ⟨i, p.flag, p.walk.set 0 i⟩) starts h.rows, h.S.ncols⟩)
          (y := ⟨⟨fancyAddR F h.flux.qx starts 1, fancyAddR F h.flux.qy starts 0,
              fancyAddR F h.flux.qw starts (halfShareR D (waterEnvR F P h.S w))⟩,
            List.zipWith (fun i p => ⟨i, p.flag, p.walk.set 0 i⟩) starts h.rows, h.S.ncols⟩) rfl (drawN g P.NpWater s).2
        revert h2
        generalize waterLoopR F D g (waterEnvR F P h.S w) 0 _ (drawN g P.NpWater s).2 = a
        generalize waterLoopR F D g (waterEnvR F P h.S w) 0 _ (drawN g P.NpWater s).2 = b
        intro h2
        cases a <;> cases b <;> simp only [Except.map, Except.error.injEq, Except.ok.injEq, reduceCtorEq] at h2
        · subst h2; rfl
        rename_i a b
        obtain ⟨x2, log, n, s2⟩ := a
        obtain ⟨y2, log', n', s2'⟩ := b
        simp only [Prod.mk.injEq, withoutFlux] at h2
        obtain ⟨⟨h3, h4⟩, rfl, rfl, rfl⟩ := h2
        simp only [Except.map, h3, h4]
      · simp only [if_neg hc]

/-- C130 in rounded arithmetic: the end of an iteration called over and over leaves the surface and the depth of the first call, to the
last digit. -/
theorem C130_rounded_settles (P : Params L W m K) (h : WaterHold L W K) (g : Rng K σ) (i n : ℕ) (s : σ) :
    ∃ h', callPartsR F D g P (List.replicate (n + 1) (.finalize i)) h s = .ok (h', s) ∧
      ∀ c, h'.S.stage c = max (h.S.stage c) (F.fl h.S.HSL) ∧ h'.S.depth c = max (F.fl (h'.S.stage c - h.S.eta c)) 0 := by
  induction n generalizing h with
  | zero => exact ⟨finalizePartR F D P i h, rfl, fun c => ⟨rfl, rfl⟩⟩
  | succ n ih =>
    obtain ⟨h', e, hst⟩ := ih (finalizePartR F D P i h)
    refine ⟨h', ?_, ?_⟩
    · rw [List.replicate_succ]
      exact e
    · intro c
      obtain ⟨a, b⟩ := hst c
      have e1 : (finalizePartR F D P i h).S.stage c = max (h.S.stage c) (F.fl h.S.HSL) := rfl
      have e2 : (finalizePartR F D P i h).S.HSL = h.S.HSL := rfl
      have e3 : (finalizePartR F D P i h).S.eta = h.S.eta := rfl
      rw [e1, e2] at a
      rw [e3] at b
      exact ⟨by rw [a, max_assoc, max_self], b⟩

/-- Without rounding the parts are those of C130. -/
theorem C130_rounded_exact (g : Rng K σ) (P : Params L W m K) (l : List WaterCall) (h : WaterHold L W K) (s : σ) :
    callPartsR (exact K) (exact K) g P l h s = callParts g P l h s := by
  have one : ∀ (a : WaterCall) (h : WaterHold L W K) (s : σ),
      callPartR (exact K) (exact K) g P a h s = callPart g P a h s := by
    intro a h s
    cases a with
    | init => rfl
    | run =>
      simp only [callPartR, callPart, runWaterPartR, runWaterPart, waterWeightArrayR_exact, getStartIndicesR_exact', waterLoopR_exact]
      rfl
    | surface => simp only [callPartR, callPart, surfacePartR, surfacePart, computeFreeSurfaceR_exact]; rfl
    | finalize i => rfl
  induction l generalizing h s with
  | nil => rfl
  | cons a l ih =>
    simp only [callPartsR, callParts, one]
    cases callPart g P a h s with
    | error e => rfl
    | ok x => exact ih x.1 x.2

/-! ## Examples -/

-- the parts in a strange order, in a new model of the example of C71, with 24 and 53 binary digits
example : ∃ h' s', callPartsR (single : Rounding ℚ) double constRng exParams
    [.finalize 3, .run, .run, .surface, .init, .run, .finalize 0, .surface, .surface]
    (newWaterHold exParams exState) () = .ok (h', s') ∧ ReadyWater exParams h' :=
  C130_rounded_safe exPositive exSetup (by simp [RoutedFirst]) (C130_new (by decide) (by decide +kernel)) ()

-- an iteration by hand, whatever was done before
example (h : WaterHold 4 3 ℚ) (hs : Shaped exParams h) (s : Unit) :
    (callPartsR (single : Rounding ℚ) double constRng exParams [.init, .run, .surface, .finalize 0] h s).map
      (fun x => (x.1.S, x.2)) = waterIterationR single double constRng exParams 0 h.S s := C130_rounded_iteration constRng hs 0 s

-- computing the surface too early
example : callPartsR (single : Rounding ℚ) double constRng exParams [.init, .surface, .run] (newWaterHold exParams exState) () =
    .error .index :=
  (C130_rounded_early constRng (by decide) [.run] ()).2 _ (C130_new (by decide) (by decide +kernel)).shaped

end Verif.Props
