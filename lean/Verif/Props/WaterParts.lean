import Verif.Spec.WaterParts
import Verif.Props.RouteWater

/-!
# C130: the parts of a water iteration, called one by one
-/

set_option linter.unusedSectionVars false
set_option linter.unusedSimpArgs false

namespace Verif.Props

open Verif.Model Verif.Lemmas Verif.Spec

variable {K : Type*} [Field K] [LinearOrder K] [IsStrictOrderedRing K] [FloorRing K] {σ : Type*} {L W m : ℕ}
  [NeZero L] [NeZero W]

/-! ## The order of the model -/

lemma startLoop_len (inlet : Fin m → ℤ) (w : Fin m → K) :
    ∀ (rs : List K) (l : List ℤ), startLoop inlet w rs = some l → l.length = rs.length
  | [], l, h => by
    simp only [startLoop, Option.some.injEq] at h
    subst h; rfl
  | r :: rs, l, h => by
    unfold startLoop at h
    split at h
    · rename_i k ks hk hks
      simp only [Option.some.injEq] at h
      subst h
      rw [List.length_cons, List.length_cons, startLoop_len inlet w rs ks hks]
    · cases h

lemma zip_cleared (n : ℕ) : ∀ (starts : List ℤ) (rows : List WParcel), starts.length = rows.length →
    (∀ p ∈ rows, p.walk.length = n) →
    List.zipWith (fun i (p : WParcel) => (⟨i, p.flag, p.walk.set 0 i⟩ : WParcel)) starts
      (rows.map fun p => { p with flag := true, walk := p.walk.map fun _ => 0 }) =
    starts.map fun i => ⟨i, true, (List.replicate n 0).set 0 i⟩
  | [], _, _, _ => by simp
  | i :: is, [], h, _ => by simp at h
  | i :: is, p :: ps, h, hc => by
    have hp : p.walk.map (fun _ => (0 : ℤ)) = List.replicate n 0 := by
      rw [List.map_const', hc p List.mem_cons_self]
    simp only [List.map_cons, List.zipWith_cons_cons, hp]
    rw [zip_cleared n is ps (by simpa using h) (fun q hq => hc q (List.mem_cons_of_mem _ hq))]

/-- After the record has been cleared, the routing starts as in the model. -/
lemma start_cleared (E : WEnv L W K) {P : Params L W m K} {h : WaterHold L W K} (hs : Shaped P h) (starts : List ℤ)
    (hl : starts.length = P.NpWater) :
    startWaterPart E h.S.ncols (initWaterPart h).flux (initWaterPart h).rows starts = waterStart E h.S.ncols starts := by
  unfold startWaterPart waterStart initWaterPart
  simp only [List.length_map, hl, hs.rows, and_true]
  rw [zip_cleared h.S.ncols starts h.rows (by rw [hl, hs.rows]) hs.cols]

/-- C130: the parts in their order are the water iteration of the model, whatever was left from earlier calls: the same fields, the same
random numbers, the same error. -/
theorem C130_iteration (g : Rng K σ) {P : Params L W m K} {h : WaterHold L W K} (hs : Shaped P h) (i : ℕ) (s : σ) :
    (callParts g P [.init, .run, .surface, .finalize i] h s).map (fun x => (x.1.S, x.2)) = waterIteration g P i h.S s := by
  have hS : (initWaterPart h).S = h.S := rfl
  simp only [callParts, callPart, waterIteration, runWaterPart, runWaterIteration, hS]
  cases hw : waterWeightArray P h.S with
  | error e => rfl
  | ok w =>
    simp only
    cases hst : getStartIndices (fun k => ((P.inlet k).val : ℤ)) (getInletWeights fun k => ((P.inlet k).val : ℤ) : Fin m → K)
        (drawN g P.NpWater s).1 with
    | none => rfl
    | some starts =>
      simp only
      have hl : starts.length = P.NpWater := by
        rw [startLoop_len _ _ _ _ hst, drawN_length]
      rw [start_cleared _ hs starts hl]
      cases waterStart (waterEnv P h.S w) h.S.ncols starts with
      | error e => rfl
      | ok st0 =>
        simp only
        cases waterLoop g (waterEnv P h.S w) 0 st0 (drawN g P.NpWater s).2 with
        | error e => rfl
        | ok x =>
          obtain ⟨st, log, n, s2⟩ := x
          simp only [surfacePart]
          have hc : computeFreeSurface P { h.S with ncols := st.ncols } st.parcels = computeFreeSurface P h.S st.parcels := rfl
          rw [hc]
          cases computeFreeSurface P h.S st.parcels with
          | error e => rfl
          | ok stage => rfl

/-! ## What a routing leaves -/

/-- Positions in the record are inside the domain. -/
def Inside (L W : ℕ) (rows : List WParcel) : Prop := ∀ p ∈ rows, ∀ v ∈ p.walk, v < L * W

/-- Each row begins with a cell. -/
def Begun (rows : List WParcel) : Prop := ∀ p ∈ rows, ∃ v, p.walk[0]? = some v ∧ 0 < v

lemma step_inside {g : Rng K σ} {E : WEnv L W K} {step : ℕ} {st st' : WState L W K} {s s' : σ} {recs : List StepRec}
    (hI : Inside L W st.parcels) (h : waterStep g E step st s = .ok (st', recs, s')) :
    Inside L W st'.parcels ∧ st'.parcels.length = st.parcels.length := by
  obtain ⟨-, -, h3, -⟩ := waterStep_ok g E step st st' recs s s' h
  have hpos : (0 : ℤ) < L * W := by
    have h1 : 0 < L := Nat.pos_of_ne_zero (NeZero.ne L)
    have h2 : 0 < W := Nat.pos_of_ne_zero (NeZero.ne W)
    exact_mod_cast Nat.mul_pos h1 h2
  constructor
  · intro p' hp' v hv
    obtain ⟨p, hp, r, -, d, -, hd⟩ := h3.mem₂ p' hp'
    obtain ⟨-, -, -, -, hb, -, -, hw⟩ := parcelStep_fields hd
    have hp2 : ∀ u ∈ p.walk, u < (L * W : ℤ) := by
      intro u hu
      unfold checkSize at hp
      split at hp
      · simp only [List.mem_map] at hp
        obtain ⟨q, hq, rfl⟩ := hp
        rcases List.mem_append.mp hu with hu | hu
        · exact hI q hq u hu
        · rw [List.eq_of_mem_replicate hu]; exact hpos
      · exact hI p hp u hu
    rw [hw] at hv
    rcases List.mem_or_eq_of_mem_set hv with hv | rfl
    · exact hp2 v hv
    · unfold recorded
      split
      · exact hpos
      · unfold isBoundary at hb
        split at hb
        · cases hb
        · rename_i c hc
          exact (flatCell_isSome_iff.mp ⟨c, hc⟩).2
  · rw [← h3.length₁₂]
    unfold checkSize
    split <;> simp

lemma loop_inside {g : Rng K σ} {E : WEnv L W K} {step : ℕ} {st st' : WState L W K} {s s' : σ} {log : List (List StepRec)} {n : ℕ}
    (hI : Inside L W st.parcels) (h : waterLoop g E step st s = .ok (st', log, n, s')) :
    Inside L W st'.parcels ∧ st'.parcels.length = st.parcels.length := by
  have := (waterLoop_induct g E (fun _ x => Inside L W x.parcels ∧ x.parcels.length = st.parcels.length) (fun _ _ => True)
    (fun _ x _ x' _ _ hx _ _ he => ⟨⟨(step_inside hx.1 he).1, (step_inside hx.1 he).2.trans hx.2⟩, trivial⟩)
    step st st' s s' log n ⟨hI, rfl⟩ h).1
  exact this

lemma start_rows {E : WEnv L W K} {nc : ℕ} {f : Flux L W K} {rows : List WParcel} {starts : List ℤ} {st : WState L W K}
    (h : startWaterPart E nc f rows starts = .ok st) (hc : ∀ p ∈ rows, p.walk.length = nc) :
    st.ncols = nc ∧ 0 < nc ∧ st.parcels.length = rows.length ∧ Rect st ∧
      (∀ p ∈ st.parcels, p.ind ∈ starts ∧ p.walk[0]? = some p.ind) ∧
      (Inside L W rows → Inside L W st.parcels) := by
  unfold startWaterPart at h
  split at h
  · rename_i hk
    simp only [Except.ok.injEq] at h
    subst h
    have hmem : ∀ p ∈ List.zipWith (fun i (p : WParcel) => (⟨i, p.flag, p.walk.set 0 i⟩ : WParcel)) starts rows,
        ∃ i ∈ starts, ∃ q ∈ rows, p = ⟨i, q.flag, q.walk.set 0 i⟩ := by
      intro p hp
      rw [List.zipWith_eq_zipWith_take_min, ← List.map_uncurry_zip_eq_zipWith] at hp
      obtain ⟨⟨i, q⟩, hiq, rfl⟩ := List.mem_map.mp hp
      exact ⟨i, List.mem_of_mem_take (List.of_mem_zip hiq).1, q, List.mem_of_mem_take (List.of_mem_zip hiq).2, rfl⟩
    refine ⟨rfl, hk.2.1, by simp [hk.2.2], ?_, ?_, ?_⟩
    · intro p hp
      obtain ⟨i, -, q, hq, rfl⟩ := hmem p hp
      simp [hc q hq]
    · intro p hp
      obtain ⟨i, hi, q, hq, rfl⟩ := hmem p hp
      refine ⟨hi, ?_⟩
      have hlen := hc q hq
      rw [List.getElem?_set_self (by omega)]
    · intro hI p hp v hv
      obtain ⟨i, hi, q, hq, rfl⟩ := hmem p hp
      rcases List.mem_or_eq_of_mem_set hv with hv | rfl
      · exact hI q hq v hv
      · have := List.all_eq_true.mp hk.1 _ hi
        obtain ⟨c, hcc⟩ := Option.isSome_iff_exists.mp this
        exact (flatCell_isSome_iff.mp ⟨c, hcc⟩).2
  · cases h

/-- What a routing was. -/
lemma runPart_ok {g : Rng K σ} {P : Params L W m K} {h h' : WaterHold L W K} {s s' : σ}
    (hr : runWaterPart g P h s = .ok (h', s')) :
    ∃ w starts st0 st log n, getStartIndices (fun k => ((P.inlet k).val : ℤ))
        (getInletWeights fun k => ((P.inlet k).val : ℤ) : Fin m → K) (drawN g P.NpWater s).1 = some starts ∧
      startWaterPart (waterEnv P h.S w) h.S.ncols h.flux h.rows starts = .ok st0 ∧
      waterLoop g (waterEnv P h.S w) 0 st0 (drawN g P.NpWater s).2 = .ok (st, log, n, s') ∧
      h' = ⟨{ h.S with ncols := st.ncols }, st.flux, st.parcels⟩ := by
  unfold runWaterPart at hr
  split at hr
  · cases hr
  · rename_i w hw
    simp only at hr
    split at hr
    · cases hr
    · rename_i starts hst
      split at hr
      · cases hr
      · rename_i st0 h0
        split at hr
        · cases hr
        · rename_i st log n s2 hl
          simp only [Except.ok.injEq, Prod.mk.injEq] at hr
          obtain ⟨rfl, rfl⟩ := hr
          exact ⟨w, starts, st0, st, log, n, hst, h0, hl, rfl⟩

lemma run_shaped {g : Rng K σ} {P : Params L W m K} {h h' : WaterHold L W K} {s s' : σ} (hs : Shaped P h)
    (hr : runWaterPart g P h s = .ok (h', s')) : Shaped P h' := by
  obtain ⟨w, starts, st0, st, log, n, -, h0, hl, rfl⟩ := runPart_ok hr
  obtain ⟨a1, a2, a3, a4, -, -⟩ := start_rows h0 hs.cols
  have hlen : st.parcels.length = st0.parcels.length :=
    (waterLoop_induct g _ (fun _ x => x.parcels.length = st0.parcels.length) (fun _ _ => True)
      (fun _ x _ x' recs _ hx _ _ he => by
        refine ⟨?_, trivial⟩
        obtain ⟨-, -, h3, -⟩ := waterStep_ok g _ _ _ _ _ _ _ he
        rw [← h3.length₁₂, ← hx]
        unfold checkSize
        split <;> simp)
      0 st0 st _ s' log n rfl hl).1
  exact ⟨by rw [hlen, a3, hs.rows], (waterLoop_walk g _ 0 st0 st _ s' log n a4 (by omega) hl).1⟩

lemma part_shaped {g : Rng K σ} {P : Params L W m K} (a : WaterCall) {h h' : WaterHold L W K} {s s' : σ} (hs : Shaped P h)
    (hr : callPart g P a h s = .ok (h', s')) : Shaped P h' := by
  cases a with
  | init =>
    simp only [callPart, Except.ok.injEq, Prod.mk.injEq] at hr
    obtain ⟨rfl, -⟩ := hr
    refine ⟨by simp [initWaterPart, hs.rows], ?_⟩
    intro p hp
    obtain ⟨q, hq, rfl⟩ := List.mem_map.mp hp
    simpa [initWaterPart] using hs.cols q hq
  | run => exact run_shaped hs hr
  | surface =>
    simp only [callPart, surfacePart] at hr
    cases hc : computeFreeSurface P h.S h.rows with
    | error e => rw [hc] at hr; cases hr
    | ok stage =>
      rw [hc] at hr
      simp only [Except.ok.injEq, Prod.mk.injEq] at hr
      obtain ⟨rfl, -⟩ := hr
      exact ⟨hs.rows, hs.cols⟩
  | finalize i =>
    simp only [callPart, Except.ok.injEq, Prod.mk.injEq] at hr
    obtain ⟨rfl, -⟩ := hr
    exact ⟨hs.rows, hs.cols⟩

/-- The shape of the record is kept by all calls. -/
theorem C130_shape {g : Rng K σ} {P : Params L W m K} (l : List WaterCall) {h h' : WaterHold L W K} {s s' : σ} (hs : Shaped P h)
    (hr : callParts g P l h s = .ok (h', s')) : Shaped P h' := by
  induction l generalizing h s with
  | nil =>
    simp only [callParts, Except.ok.injEq, Prod.mk.injEq] at hr
    obtain ⟨rfl, -⟩ := hr
    exact hs
  | cons a l ih =>
    unfold callParts at hr
    split at hr
    · cases hr
    · rename_i h1 s1 h1e
      exact ih (part_shaped a hs h1e) hr

lemma callParts_append (g : Rng K σ) (P : Params L W m K) (l l' : List WaterCall) (h : WaterHold L W K) (s : σ) :
    callParts g P (l ++ l') h s =
      match callParts g P l h s with
      | .error e => .error e
      | .ok (h1, s1) => callParts g P l' h1 s1 := by
  induction l generalizing h s with
  | nil => rfl
  | cons a l ih =>
    simp only [List.cons_append, callParts]
    cases callPart g P a h s with
    | error e => rfl
    | ok x => exact ih x.1 x.2

/-- C130: as many iterations by hand as the model makes are the water routing of a timestep. -/
theorem C130_route (g : Rng K σ) {P : Params L W m K} {h : WaterHold L W K} (hs : Shaped P h) (s : σ) :
    (callParts g P (iterations 0 P.itermax) h s).map (fun x => (x.1.S, x.2)) = routeWater g P h.S s := by
  have key : ∀ (n i : ℕ) (h : WaterHold L W K) (s : σ), Shaped P h →
      (callParts g P (iterations i n) h s).map (fun x => (x.1.S, x.2)) = routeWaterFrom g P i n h.S s := by
    intro n
    induction n with
    | zero => intro i h s _; rfl
    | succ n ih =>
      intro i h s hs
      have e : iterations i (n + 1) = [.init, .run, .surface, .finalize i] ++ iterations (i + 1) n := rfl
      rw [e, callParts_append, routeWaterFrom, ← C130_iteration g hs i s]
      cases hc : callParts g P [.init, .run, .surface, .finalize i] h s with
      | error e => rfl
      | ok x => exact ih (i + 1) x.1 x.2 (C130_shape _ hs hc)
  exact key _ 0 h s hs

/-! ## Any order -/

/-- What the parts rely on. -/
structure ReadyWater (P : Params L W m K) (h : WaterHold L W K) : Prop where
  shaped : Shaped P h
  ncols : 0 < h.S.ncols
  depth : ∀ c, 0 ≤ h.S.depth c
  inside : Inside L W h.rows

lemma inside_cells {rows : List WParcel} (hI : Inside L W rows) (hB : Begun rows) :
    ∃ css : List (List (Cell L W)), Walked (rows.map fun p => (p.walk, p.flag)) css := by
  apply forall_exists₂
  intro a ha
  obtain ⟨p, hp, rfl⟩ := List.mem_map.mp ha
  obtain ⟨cs, hcs⟩ := exists_cells (L := L) (W := W) (p.walk.filter (fun i => decide (0 < i))) (by
    intro i hi
    simp only [List.mem_filter, decide_eq_true_eq] at hi
    obtain ⟨c, -, hc⟩ := flatCell_nonneg hi.2.le (hI p hp i hi.1)
    exact ⟨c, hc⟩)
  refine ⟨cs, hcs, ?_⟩
  rintro rfl
  obtain ⟨v, hv, hpos⟩ := hB p hp
  have : v ∈ p.walk.filter (fun i => decide (0 < i)) := by
    simp only [List.mem_filter, decide_eq_true_eq]
    exact ⟨List.mem_of_getElem? hv, hpos⟩
  rw [hcs] at this
  simp at this

/-- The routing of parcels never fails, whatever is in the record and in the discharge. -/
lemma runPart_total {g : Rng K σ} (hg : PositiveDraws g) {P : Params L W m K} (hP : WaterSetup P) {h : WaterHold L W K}
    (hr : ReadyWater P h) (s : σ) : ∃ h' s', runWaterPart g P h s = .ok (h', s') ∧ ReadyWater P h' ∧ Begun h'.rows := by
  obtain ⟨w, hw, hwc⟩ := weights_total hP hr.depth
  have hA := C10_weights_admissible h.S.depth h.S.stage P.modWater h.S.qx h.S.qy P.s2 P.s05 P.dryDepth
    P.gamma P.pwWater (waterEnv P h.S w) hr.depth hP.mod hP.pw hP.gamma0 hP.gamma1 hwc
  have hS : SafeLayout (waterEnv P h.S w) := by
    refine ⟨by have := hP.hL; have := hP.hL0; omega, by have := hP.hW; omega, hP.hL0, ?_, hA.2, hP.nrm⟩
    intro c hc
    change P.cellType c ≠ -1 at hc
    have hlast : c.1.val + 1 < L := by
      have h1 := c.1.isLt
      by_contra hcon
      exact hc (hP.last c (by omega))
    refine ⟨hlast, fun h2 => ?_⟩
    by_cases hl : P.cellType c = -2
    · exfalso
      exact hP.land c (by have := hP.hL; omega) hl
    · exact (hP.active c hc hl).2.2
  have : Nonempty (Fin m) := ⟨⟨0, hP.hm⟩⟩
  obtain ⟨starts, hst, hlen, hmem⟩ := C05_start_indices hP.hm (fun k => ((P.inlet k).val : ℤ))
    (getInletWeights (fun k => ((P.inlet k).val : ℤ)) : Fin m → K) (fun _ => by simp [getInletWeights])
    (by unfold total; simp only [getInletWeights, Finset.sum_const, Finset.card_univ,
          Fintype.card_fin, nsmul_eq_mul, mul_one]; exact_mod_cast hP.hm)
    (drawN g P.NpWater s).1 (drawN_mem g (fun r => 0 ≤ r ∧ r ≤ 1) (fun s => ⟨(hg s).1.le, (hg s).2⟩) P.NpWater s)
  rw [drawN_length] at hlen
  have hpos : ∀ i ∈ starts, ∃ c : Cell L W, i = posOf c ∧ P.cellType c ≠ -1 ∧ 0 < i := by
    intro i hi
    obtain ⟨k, rfl⟩ := hmem i hi
    refine ⟨(0, P.inlet k), by simp [posOf], (hP.inlet k).1, ?_⟩
    have := (hP.active (0, P.inlet k) (hP.inlet k).1 (hP.inlet k).2).2.1
    exact_mod_cast this
  have hall : starts.all (fun i => (flatCell L W i).isSome) = true := by
    rw [List.all_eq_true]
    intro i hi
    obtain ⟨c, rfl, -⟩ := hpos i hi
    simp [flatCell_posOf]
  obtain ⟨st0, h0⟩ : ∃ st0, startWaterPart (waterEnv P h.S w) h.S.ncols h.flux h.rows starts = .ok st0 := by
    unfold startWaterPart
    rw [if_pos ⟨hall, hr.ncols, by rw [hlen, hr.shaped.rows]⟩]
    exact ⟨_, rfl⟩
  obtain ⟨a1, a2, a3, a4, a5, a6⟩ := start_rows h0 hr.shaped.cols
  obtain ⟨st, log, n, s', hl⟩ := waterLoop_total g (fun s => (hg s).2) hS hP.steps 0 st0 (by omega)
    (fun p hp => by
      obtain ⟨c, hc1, hc2, -⟩ := hpos _ (a5 p hp).1
      exact .inr ⟨c, hc1, hc2⟩) (drawN g P.NpWater s).2
  have hrun : runWaterPart g P h s = .ok (⟨{ h.S with ncols := st.ncols }, st.flux, st.parcels⟩, s') := by
    unfold runWaterPart
    simp only [hw, hst, h0, hl]
  obtain ⟨b1, b2, b3, b4, -⟩ := waterLoop_walk g _ 0 st0 st _ s' log n a4 (by omega) hl
  have hins := loop_inside (a6 hr.inside) hl
  refine ⟨_, s', hrun, ⟨run_shaped hr.shaped hrun, by change 0 < st.ncols; omega, hr.depth, hins.1⟩, ?_⟩
  intro p hp
  obtain ⟨j, hj⟩ := List.mem_iff_getElem?.mp hp
  have hjl : j < st0.parcels.length := by
    rw [← hins.2]
    exact (List.getElem?_eq_some_iff.mp hj).1
  have h00 := b4 j 0 le_rfl
  unfold walkAt at h00
  rw [hj, List.getElem?_eq_getElem hjl] at h00
  simp only [Option.bind_some] at h00
  obtain ⟨hm1, hm2⟩ := a5 _ (List.getElem_mem hjl)
  obtain ⟨c, -, -, hp0⟩ := hpos _ hm1
  exact ⟨_, h00.trans hm2, hp0⟩

lemma surface_total {P : Params L W m K} {h : WaterHold L W K} (hr : ReadyWater P h) (hB : Begun h.rows) :
    ∃ h', surfacePart P h = .ok h' ∧ ReadyWater P h' ∧ Begun h'.rows := by
  obtain ⟨css, hcss⟩ := inside_cells hr.inside hB
  obtain ⟨a, ha, -⟩ := C15_visits (sfcEnv P h.S) hcss
  have hok : ∃ stage, computeFreeSurface P h.S h.rows = .ok stage := by
    unfold computeFreeSurface
    rw [ha]
    exact ⟨_, rfl⟩
  obtain ⟨stage, hstage⟩ := hok
  refine ⟨{ h with S := { h.S with stage := stage } }, ?_, ⟨⟨hr.shaped.rows, hr.shaped.cols⟩, hr.ncols, hr.depth, hr.inside⟩, hB⟩
  unfold surfacePart
  rw [hstage]

/-- C130: the parts can be called in any order and any number of times, also a routing without clearing the record and the discharge
before it: no call fails, as long as the surface is computed only after a routing since the record was last cleared. -/
theorem C130_safe {g : Rng K σ} (hg : PositiveDraws g) {P : Params L W m K} (hP : WaterSetup P) {l : List WaterCall}
    (hl : RoutedFirst false l) {h : WaterHold L W K} (hr : ReadyWater P h) (s : σ) :
    ∃ h' s', callParts g P l h s = .ok (h', s') ∧ ReadyWater P h' := by
  have key : ∀ (l : List WaterCall) (b : Bool), RoutedFirst b l → ∀ (h : WaterHold L W K) (s : σ), ReadyWater P h →
      (b = true → Begun h.rows) → ∃ h' s', callParts g P l h s = .ok (h', s') ∧ ReadyWater P h' := by
    intro l
    induction l with
    | nil => intro b _ h s hr _; exact ⟨h, s, rfl, hr⟩
    | cons a l ih =>
      intro b hl h s hr hB
      cases a with
      | init =>
        have hs : ReadyWater P (initWaterPart h) := by
          refine ⟨part_shaped (g := g) (s := s) (s' := s) .init hr.shaped rfl, hr.ncols, hr.depth, ?_⟩
          intro p hp v hv
          obtain ⟨q, hq, rfl⟩ := List.mem_map.mp hp
          obtain ⟨u, -, rfl⟩ := List.mem_map.mp hv
          have h1 : 0 < L := Nat.pos_of_ne_zero (NeZero.ne L)
          have h2 : 0 < W := Nat.pos_of_ne_zero (NeZero.ne W)
          exact_mod_cast Nat.mul_pos h1 h2
        exact ih false hl (initWaterPart h) s hs (by simp)
      | run =>
        obtain ⟨h1, s1, e, hr1, hB1⟩ := runPart_total hg hP hr s
        obtain ⟨h2, s2, e2, hr2⟩ := ih true hl h1 s1 hr1 (fun _ => hB1)
        exact ⟨h2, s2, by simp only [callParts, callPart, e, e2], hr2⟩
      | surface =>
        obtain ⟨h1, e, hr1, hB1⟩ := surface_total hr (hB hl.1)
        obtain ⟨h2, s2, e2, hr2⟩ := ih b hl.2 h1 s hr1 (fun _ => hB1)
        exact ⟨h2, s2, by simp only [callParts, callPart, e, e2], hr2⟩
      | finalize i =>
        have hs : ReadyWater P (finalizePart P i h) :=
          ⟨⟨hr.shaped.rows, hr.shaped.cols⟩, hr.ncols, fun _ => le_max_right _ _, hr.inside⟩
        exact ih b hl (finalizePart P i h) s hs hB
  exact key l false hl h s hr (by simp)

/-- Rows without a cell. -/
lemma surface_blank {P : Params L W m K} {h : WaterHold L W K} (hne : h.rows ≠ []) (hz : ∀ p ∈ h.rows, ∀ v ∈ p.walk, v = 0) :
    surfacePart P h = .error .index := by
  unfold surfacePart computeFreeSurface accumulateFreeSurface
  cases hrows : h.rows with
  | nil => exact absurd hrows hne
  | cons p ps =>
    have hw : ∀ l : List ℤ, (∀ v ∈ l, v = 0) → walkCells L W l = .ok [] := by
      intro l
      induction l with
      | nil => intro _; rfl
      | cons a l ih =>
        intro hl
        have ha := hl a List.mem_cons_self
        subst ha
        unfold walkCells
        rw [if_neg (lt_irrefl _)]
        exact ih (fun v hv => hl v (List.mem_cons_of_mem _ hv))
    have hp := hw p.walk (hz p (by rw [hrows]; exact List.mem_cons_self))
    simp only [List.map_cons, sfcParcels, sfcParcel, hp, List.reverse_nil]

/-- C130: computed in a new model, or after the record was cleared and before a routing, the surface reads outside of an empty array, in
every model with parcels. -/
theorem C130_early (g : Rng K σ) {P : Params L W m K} (hn : 0 < P.NpWater) (l : List WaterCall) (s : σ) :
    (∀ S, callParts g P (.surface :: l) (newWaterHold P S) s = .error .index) ∧
    ∀ h : WaterHold L W K, Shaped P h → callParts g P (.init :: .surface :: l) h s = .error .index := by
  constructor
  · intro S
    have e : surfacePart P (newWaterHold P S) = .error .index := by
      refine surface_blank ?_ ?_
      · intro h
        have := congrArg List.length h
        simp only [newWaterHold, List.length_replicate, List.length_nil] at this
        omega
      · intro p hp v hv
        rw [List.eq_of_mem_replicate hp] at hv
        exact List.eq_of_mem_replicate hv
    simp only [callParts, callPart, e]
  · intro h hs
    have e : surfacePart P (initWaterPart h) = .error .index := by
      refine surface_blank ?_ ?_
      · intro hh
        have := congrArg List.length hh
        simp only [initWaterPart, List.length_map, List.length_nil, hs.rows] at this
        omega
      · intro p hp v hv
        obtain ⟨q, -, rfl⟩ := List.mem_map.mp hp
        obtain ⟨u, -, rfl⟩ := List.mem_map.mp hv
        rfl
    simp only [callParts, callPart, e]

/-- A new model is ready. -/
theorem C130_new {P : Params L W m K} {S : State L W K} (hn : 0 < S.ncols) (hd : ∀ c, 0 ≤ S.depth c) :
    ReadyWater P (newWaterHold P S) := by
  refine ⟨⟨List.length_replicate, ?_⟩, hn, hd, ?_⟩
  · intro p hp
    rw [List.eq_of_mem_replicate hp]
    exact List.length_replicate
  · intro p hp v hv
    rw [List.eq_of_mem_replicate hp] at hv
    rw [List.eq_of_mem_replicate hv]
    have h1 : 0 < L := Nat.pos_of_ne_zero (NeZero.ne L)
    have h2 : 0 < W := Nat.pos_of_ne_zero (NeZero.ne W)
    exact_mod_cast Nat.mul_pos h1 h2

/-! ## Discharge that adds up -/

/-- More discharge. -/
def plusFlux (f : Flux L W K) (st : WState L W K) : WState L W K := { st with flux := bothFlux f st.flux }

lemma update_plus (f x : Grid L W K) (c : Cell L W) (v : K) :
    Function.update (fun a => f a + x a) c (f c + x c + v) = fun a => f a + Function.update x c (x c + v) a := by
  funext a
  by_cases h : a = c
  · subst h; simp only [Function.update_self]; ring
  · simp only [Function.update_of_ne h]

lemma addFlux_plus (E : WEnv L W K) (f x : Flux L W K) (i : ℤ) (d : Fin 9) :
    addFlux E (bothFlux f x) i d = (addFlux E x i d).map (bothFlux f) := by
  unfold addFlux
  split
  · cases flatCell L W i with
    | none => rfl
    | some c => simp only [bothFlux, update_plus, Except.map]
  · rfl

lemma addFluxes_plus (E : WEnv L W K) (sel : StepRec → ℤ) (p : StepRec → Bool) (f : Flux L W K) :
    ∀ (rs : List StepRec) (x : Flux L W K), addFluxes E sel p rs (bothFlux f x) = (addFluxes E sel p rs x).map (bothFlux f)
  | [], x => rfl
  | r :: rs, x => by
    unfold addFluxes
    split
    · rw [addFlux_plus]
      cases addFlux E x (sel r) r.dir with
      | error e => rfl
      | ok x1 => exact addFluxes_plus E sel p f rs x1
    · exact addFluxes_plus E sel p f rs x

lemma checkSize_plus (a b : ℕ) (f : Flux L W K) (st : WState L W K) :
    checkSize a b (plusFlux f st) = plusFlux f (checkSize a b st) := by
  unfold checkSize plusFlux
  simp only
  split <;> rfl

lemma waterStep_plus (g : Rng K σ) (E : WEnv L W K) (f : Flux L W K) (step : ℕ) (st : WState L W K) (s : σ) :
    waterStep g E step (plusFlux f st) s = (waterStep g E step st s).map (fun x => (plusFlux f x.1, x.2)) := by
  unfold waterStep
  simp only [checkSize_plus]
  generalize checkSize E.stepmax step st = st1
  have e1 : (plusFlux f st1).ncols = st1.ncols := rfl
  have e2 : (plusFlux f st1).parcels = st1.parcels := rfl
  have e3 : (plusFlux f st1).flux = bothFlux f st1.flux := rfl
  simp only [e1, e2, e3, addFluxes_plus]
  split
  · cases chooseDirs g E.weights (st1.parcels.map (·.ind)) s with
    | error e => rfl
    | ok x =>
      simp only
      cases parcelSteps E step st1.parcels x.1 with
      | error e => rfl
      | ok y =>
        simp only
        cases addFluxes E (·.cur) (fun _ => true) y.2 st1.flux with
        | error e => rfl
        | ok f1 =>
          simp only [Except.map, addFluxes_plus]
          cases addFluxes E (·.new1) (fun _ => true) y.2 f1 with
          | error e => rfl
          | ok f2 =>
            simp only [Except.map, addFluxes_plus]
            cases addFluxes E (·.new2) (·.bnd) y.2 f2 with
            | error e => rfl
            | ok f3 => rfl
  · rfl

lemma waterLoop_plus (g : Rng K σ) (E : WEnv L W K) (f : Flux L W K) (step : ℕ) (st : WState L W K) (s : σ) :
    waterLoop g E step (plusFlux f st) s = (waterLoop g E step st s).map (fun x => (plusFlux f x.1, x.2)) := by
  have e2 : (plusFlux f st).parcels = st.parcels := rfl
  induction hfuel : E.stepmax - step generalizing step st s with
  | zero =>
    unfold waterLoop
    rw [if_neg (by omega), if_neg (by omega)]
    rfl
  | succ k ih =>
    unfold waterLoop
    rw [e2]
    split
    · rw [waterStep_plus]
      cases waterStep g E (step + 1) st s with
      | error e => rfl
      | ok x =>
        obtain ⟨st1, recs, s1⟩ := x
        simp only [Except.map]
        rw [ih (step + 1) st1 s1 rfl (by omega)]
        cases waterLoop g E (step + 1) st1 s1 <;> rfl
    · rfl

lemma fancyAdd_plus (f x : Grid L W K) (l : List ℤ) (v : K) :
    fancyAdd (fun a => f a + x a) l v = fun a => f a + fancyAdd x l v a := by
  funext a
  unfold fancyAdd
  split
  · ring
  · rfl

/-- C130: a routing without clearing adds to the discharge: it makes the same walks, uses the same random numbers and gives the same errors
as with other discharge in hand, and what was there before stays on top. -/
theorem C130_adds (g : Rng K σ) (P : Params L W m K) (f : Flux L W K) (h : WaterHold L W K) (s : σ) :
    runWaterPart g P { h with flux := bothFlux f h.flux } s =
      (runWaterPart g P h s).map (fun x => ({ x.1 with flux := bothFlux f x.1.flux }, x.2)) := by
  unfold runWaterPart
  simp only
  cases waterWeightArray P h.S with
  | error e => rfl
  | ok w =>
    simp only
    cases getStartIndices (fun k => ((P.inlet k).val : ℤ)) (getInletWeights fun k => ((P.inlet k).val : ℤ) : Fin m → K)
        (drawN g P.NpWater s).1 with
    | none => rfl
    | some starts =>
      simp only
      have e : startWaterPart (waterEnv P h.S w) h.S.ncols (bothFlux f h.flux) h.rows starts =
          (startWaterPart (waterEnv P h.S w) h.S.ncols h.flux h.rows starts).map (plusFlux f) := by
        unfold startWaterPart
        split
        · simp only [bothFlux, fancyAdd_plus, Except.map, plusFlux]
        · rfl
      rw [e]
      cases startWaterPart (waterEnv P h.S w) h.S.ncols h.flux h.rows starts with
      | error e => rfl
      | ok st0 =>
        simp only [Except.map]
        rw [waterLoop_plus]
        cases waterLoop g (waterEnv P h.S w) 0 st0 (drawN g P.NpWater s).2 <;> rfl

/-- C130: what the record says about a parcel after a routing depends on earlier routings: a parcel that was disqualified stays so until
the record is cleared, however it walks. -/
theorem C130_disqualified {g : Rng K σ} {P : Params L W m K} {h h' : WaterHold L W K} {s s' : σ} (hs : Shaped P h)
    (hr : runWaterPart g P h s = .ok (h', s')) {j : ℕ} {p p' : WParcel} (hp : h.rows[j]? = some p) (hp' : h'.rows[j]? = some p')
    (hf : p.flag = false) : p'.flag = false := by
  obtain ⟨w, starts, st0, st, log, n, -, h0, hl, rfl⟩ := runPart_ok hr
  obtain ⟨a1, a2, a3, a4, -, -⟩ := start_rows h0 hs.cols
  have hflag := (waterLoop_walk g _ 0 st0 st _ s' log n a4 (by omega) hl).2.2.2.2.2.2.2.2 j
  change st.parcels[j]? = some p' at hp'
  have hst : st0.parcels[j]?.map (·.flag) = some false := by
    unfold startWaterPart at h0
    split at h0
    · rename_i hk
      simp only [Except.ok.injEq] at h0
      subst h0
      have hj : j < starts.length := by
        rw [hk.2.2]
        exact (List.getElem?_eq_some_iff.mp hp).1
      simp only [List.getElem?_zipWith, hp, List.getElem?_eq_getElem hj, Option.map_some, hf]
    · cases h0
  rw [hp'] at hflag
  cases hq : st0.parcels[j]? with
  | none => rw [hq] at hst; simp at hst
  | some q =>
    rw [hq] at hst hflag
    simp only [Option.map_some, Option.some.injEq] at hst hflag
    rw [hflag, hst]
    rfl

lemma part_flags {g : Rng K σ} {P : Params L W m K} {a : WaterCall} (ha : a ≠ .init) {h h' : WaterHold L W K} {s s' : σ}
    (hs : Shaped P h) (hr : callPart g P a h s = .ok (h', s')) (hf : ∀ p ∈ h.rows, p.flag = false) : ∀ p ∈ h'.rows, p.flag = false := by
  cases a with
  | init => exact absurd rfl ha
  | run =>
    intro p' hp'
    have hl : h'.rows.length = h.rows.length := by rw [(run_shaped hs hr).rows, hs.rows]
    obtain ⟨j, hj⟩ := List.mem_iff_getElem?.mp hp'
    have hjl : j < h.rows.length := by
      rw [← hl]
      exact (List.getElem?_eq_some_iff.mp hj).1
    exact C130_disqualified hs hr (List.getElem?_eq_getElem hjl) hj (hf _ (List.getElem_mem hjl))
  | surface =>
    simp only [callPart, surfacePart] at hr
    cases hc : computeFreeSurface P h.S h.rows with
    | error e => rw [hc] at hr; cases hr
    | ok stage =>
      rw [hc] at hr
      simp only [Except.ok.injEq, Prod.mk.injEq] at hr
      obtain ⟨rfl, -⟩ := hr
      exact hf
  | finalize i =>
    simp only [callPart, Except.ok.injEq, Prod.mk.injEq] at hr
    obtain ⟨rfl, -⟩ := hr
    exact hf

lemma sfcParcels_disqualified (E : SfcEnv L W K) : ∀ (ps : List (List ℤ × Bool)) (a a' : SfcAcc L W K), (∀ p ∈ ps, p.2 = false) →
    sfcParcels E ps a = .ok a' → a' = a
  | [], a, a', _, h => by
    simp only [sfcParcels, Except.ok.injEq] at h
    exact h.symm
  | p :: ps, a, a', hp, h => by
    obtain ⟨w, b⟩ := p
    have hb : b = false := hp _ List.mem_cons_self
    subst hb
    unfold sfcParcels at h
    split at h
    · cases h
    · rename_i a1 h1
      have e : a1 = a := by
        unfold sfcParcel at h1
        split at h1
        · cases h1
        · split at h1
          · cases h1
          · simp only [Bool.false_eq_true, and_false, if_false, Except.ok.injEq] at h1
            exact h1.symm
      subst e
      exact sfcParcels_disqualified E ps a1 a' (fun q hq => hp q (List.mem_cons_of_mem _ hq)) h

/-- C130: in a new model no parcel shapes the water surface before the first clearing, however many routings are made. -/
theorem C130_uncleared {g : Rng K σ} {P : Params L W m K} {S : State L W K} {l : List WaterCall} (hl : .init ∉ l) {h' : WaterHold L W K}
    {s s' : σ} (hr : callParts g P l (newWaterHold P S) s = .ok (h', s')) {a : SfcAcc L W K}
    (ha : accumulateFreeSurface (sfcEnv P h'.S) (h'.rows.map fun p => (p.walk, p.flag)) = .ok a) (c : Cell L W) :
    a.visit c = 0 ∧ a.sum c = 0 := by
  have key : ∀ (l : List WaterCall) (h : WaterHold L W K) (s : σ), .init ∉ l → Shaped P h → (∀ p ∈ h.rows, p.flag = false) →
      callParts g P l h s = .ok (h', s') → ∀ p ∈ h'.rows, p.flag = false := by
    intro l
    induction l with
    | nil =>
      intro h s _ _ hf hr
      simp only [callParts, Except.ok.injEq, Prod.mk.injEq] at hr
      obtain ⟨rfl, -⟩ := hr
      exact hf
    | cons b l ih =>
      intro h s hl hs hf hr
      rw [List.mem_cons, not_or] at hl
      unfold callParts at hr
      split at hr
      · cases hr
      · rename_i h1 s1 h1e
        exact ih h1 s1 hl.2 (part_shaped b hs h1e) (part_flags (fun e => hl.1 e.symm) hs h1e hf) hr
  have hs : Shaped P (newWaterHold P S) := by
    refine ⟨List.length_replicate, fun p hp => ?_⟩
    rw [List.eq_of_mem_replicate hp]
    exact List.length_replicate
  have hf := key l _ s hl hs (fun p hp => by rw [List.eq_of_mem_replicate hp]) hr
  have e := sfcParcels_disqualified (sfcEnv P h'.S) _ _ a (fun q hq => by
    obtain ⟨p, hp, rfl⟩ := List.mem_map.mp hq
    exact hf p hp) ha
  rw [e]
  exact ⟨rfl, rfl⟩

/-! ## The end of an iteration, more than once -/

/-- The discharge after it has been scaled. -/
def scaledFlux (nrm : K → K → K) (f : Flux L W K) : Flux L W K := ⟨scaledTo nrm f f.qx, scaledTo nrm f f.qy, f.qw⟩

lemma finalize_flux (P : Params L W m K) (i : ℕ) (h : WaterHold L W K) : (finalizePart P i h).flux = scaledFlux P.nrm h.flux := by
  unfold finalizePart scaledFlux scaledTo qwnDiv
  simp only [Flux.mk.injEq, and_true]
  constructor <;>
  · funext c
    split
    · ring
    · ring

lemma scaled_div {nrm : K → K → K} (hN : ∀ k x y, 0 ≤ k → nrm (k * x) (k * y) = k * nrm x y) {f : Flux L W K}
    (hq : ∀ c, 0 ≤ f.qw c) (c : Cell L W) : qwnDiv nrm (scaledFlux nrm f) c = 1 := by
  unfold qwnDiv scaledFlux scaledTo
  simp only
  by_cases hd : 0 < nrm (f.qx c) (f.qy c)
  · simp only [hd, if_true]
    have e : nrm (f.qw c * (f.qx c / nrm (f.qx c) (f.qy c))) (f.qw c * (f.qy c / nrm (f.qx c) (f.qy c))) = f.qw c := by
      rw [show f.qw c * (f.qx c / nrm (f.qx c) (f.qy c)) = f.qw c / nrm (f.qx c) (f.qy c) * f.qx c by ring,
        show f.qw c * (f.qy c / nrm (f.qx c) (f.qy c)) = f.qw c / nrm (f.qx c) (f.qy c) * f.qy c by ring,
        hN _ _ _ (div_nonneg (hq c) hd.le), div_mul_cancel₀ _ hd.ne']
    rw [e]
    split
    · rename_i h; exact div_self h.ne'
    · rfl
  · simp only [hd, if_false]

lemma scaled_again {nrm : K → K → K} (hN : ∀ k x y, 0 ≤ k → nrm (k * x) (k * y) = k * nrm x y) {f : Flux L W K}
    (hq : ∀ c, 0 ≤ f.qw c) : scaledFlux nrm (scaledFlux nrm f) = scaledFlux nrm f := by
  have h := fun c => scaled_div hN hq c
  have e : ∀ v : Grid L W K, scaledTo nrm (scaledFlux nrm f) v = fun c => v c * qwnDiv nrm (scaledFlux nrm f) c := by
    intro v
    funext c
    unfold scaledTo qwnDiv
    simp only [gt_iff_lt]
    split
    · ring
    · ring
  have e2 : ∀ v : Grid L W K, scaledTo nrm (scaledFlux nrm f) v = v := by
    intro v
    rw [e]
    funext c
    rw [h c, mul_one]
  have e3 : scaledFlux nrm (scaledFlux nrm f) = ⟨scaledTo nrm (scaledFlux nrm f) (scaledFlux nrm f).qx,
    scaledTo nrm (scaledFlux nrm f) (scaledFlux nrm f).qy, (scaledFlux nrm f).qw⟩ := rfl
  rw [e3, e2, e2]

/-- C130: the end of an iteration called over and over lets the flow settle: the discharge of the parcels is scaled once, the distance
between the flow and that discharge shrinks by the same factor with each call, and the surface and the depth are those of the first
call. -/
theorem C130_settles {P : Params L W m K} (hN : ∀ k x y, 0 ≤ k → P.nrm (k * x) (k * y) = k * P.nrm x y) {h : WaterHold L W K}
    (hq : ∀ c, 0 ≤ h.flux.qw c) (ht : 0 < h.S.timeIter) (g : Rng K σ) (i n : ℕ) (s : σ) :
    ∃ h', callParts g P (List.replicate (n + 1) (.finalize i)) h s = .ok (h', s) ∧
      (∀ c, ¬InletCell P c →
        h'.S.qx c = scaledTo P.nrm h.flux h.flux.qx c +
          (1 - if i = 0 then P.omegaFlow else P.omegaFlowIter) ^ (n + 1) * (h.S.qx c - scaledTo P.nrm h.flux h.flux.qx c) ∧
        h'.S.qy c = scaledTo P.nrm h.flux h.flux.qy c +
          (1 - if i = 0 then P.omegaFlow else P.omegaFlowIter) ^ (n + 1) * (h.S.qy c - scaledTo P.nrm h.flux h.flux.qy c)) ∧
      (∀ c, h'.S.stage c = max (h.S.stage c) h.S.HSL ∧ h'.S.depth c = max (h'.S.stage c - h.S.eta c) 0) := by
  -- one call
  have one : ∀ d : WaterHold L W K, 0 < d.S.timeIter → ∀ c, ¬InletCell P c →
      (finalizePart P i d).S.qx c = scaledTo P.nrm d.flux d.flux.qx c +
        (1 - if i = 0 then P.omegaFlow else P.omegaFlowIter) * (d.S.qx c - scaledTo P.nrm d.flux d.flux.qx c) ∧
      (finalizePart P i d).S.qy c = scaledTo P.nrm d.flux d.flux.qy c +
        (1 - if i = 0 then P.omegaFlow else P.omegaFlowIter) * (d.S.qy c - scaledTo P.nrm d.flux d.flux.qy c) := by
    intro d hd c hc
    have hi : isInlet P.inlet c = false := by
      rw [Bool.eq_false_iff]; exact fun h => hc ((isInlet_iff P c).mp h)
    have e := finalize_flux P i d
    have ex : d.flux.qx c * qwnDiv P.nrm d.flux c = scaledTo P.nrm d.flux d.flux.qx c := by
      have := congrArg (fun f : Flux L W K => f.qx c) e
      exact this
    have ey : d.flux.qy c * qwnDiv P.nrm d.flux c = scaledTo P.nrm d.flux d.flux.qy c := by
      have := congrArg (fun f : Flux L W K => f.qy c) e
      exact this
    constructor
    · simp only [finalizePart, finalizeWaterIteration, updateFlow, assign, hi, Bool.false_eq_true, if_false, gt_iff_lt, hd, if_true]
      rw [ex]; ring
    · simp only [finalizePart, finalizeWaterIteration, updateFlow, assign, hi, Bool.false_eq_true, if_false, gt_iff_lt, hd, if_true]
      rw [ey]; ring
  induction n generalizing h with
  | zero =>
    refine ⟨finalizePart P i h, rfl, ?_, fun c => ⟨rfl, rfl⟩⟩
    intro c hc
    simp only [zero_add, pow_one]
    exact one h ht c hc
  | succ n ih =>
    have hf := finalize_flux P i h
    obtain ⟨h', e, hx, hst⟩ := ih (h := finalizePart P i h) (by rw [hf]; exact hq) ht
    refine ⟨h', ?_, ?_, ?_⟩
    · rw [List.replicate_succ]
      exact e
    · intro c hc
      obtain ⟨a, b⟩ := hx c hc
      obtain ⟨a1, b1⟩ := one h ht c hc
      have hs := scaled_again hN hq
      have sx : scaledTo P.nrm (finalizePart P i h).flux (finalizePart P i h).flux.qx = scaledTo P.nrm h.flux h.flux.qx := by
        rw [hf]
        exact congrArg Flux.qx hs
      have sy : scaledTo P.nrm (finalizePart P i h).flux (finalizePart P i h).flux.qy = scaledTo P.nrm h.flux h.flux.qy := by
        rw [hf]
        exact congrArg Flux.qy hs
      rw [sx, a1] at a
      rw [sy, b1] at b
      constructor
      · rw [a, pow_succ]; ring
      · rw [b, pow_succ]; ring
    · intro c
      obtain ⟨a, b⟩ := hst c
      have e1 : (finalizePart P i h).S.stage c = max (h.S.stage c) h.S.HSL := rfl
      have e2 : (finalizePart P i h).S.HSL = h.S.HSL := rfl
      have e3 : (finalizePart P i h).S.eta = h.S.eta := rfl
      rw [e1, e2] at a
      rw [e3] at b
      exact ⟨by rw [a, max_assoc, max_self], b⟩

/-! ## Examples -/

-- the parts in a strange order, in a new model of the example of C71
example : ∃ h' s', callParts constRng exParams [.finalize 3, .run, .run, .surface, .init, .run, .finalize 0, .surface, .surface]
    (newWaterHold exParams exState) () = .ok (h', s') ∧ ReadyWater exParams h' :=
  C130_safe exPositive exSetup (by simp [RoutedFirst]) (C130_new (by decide) (by decide +kernel)) ()

-- an iteration by hand, whatever was done before
example (h : WaterHold 4 3 ℚ) (hs : Shaped exParams h) (s : Unit) :
    (callParts constRng exParams [.init, .run, .surface, .finalize 0] h s).map (fun x => (x.1.S, x.2)) =
      waterIteration constRng exParams 0 h.S s := C130_iteration constRng hs 0 s

-- computing the surface too early
example : callParts constRng exParams [.init, .surface, .run] (newWaterHold exParams exState) () = .error .index :=
  (C130_early constRng (by decide) [.run] ()).2 _ (C130_new (by decide) (by decide +kernel)).shaped

-- the end of an iteration over and over, with a discharge of length 3 and direction (1, 2) everywhere
example (n : ℕ) : ∃ h', callParts constRng exParams (List.replicate (n + 1) (.finalize 1))
    { newWaterHold exParams exState with flux := ⟨fun _ => 2, fun _ => 4, fun _ => 3⟩ } () = .ok (h', ()) ∧
      h'.S.qx (2, 1) = 1 + (1 - exParams.omegaFlowIter) ^ (n + 1) * (exState.qx (2, 1) - 1) := by
  obtain ⟨h', e, hx, -⟩ := C130_settles (P := exParams)
    (h := { newWaterHold exParams exState with flux := ⟨fun _ => 2, fun _ => 4, fun _ => 3⟩ })
    (fun k x y hk => by
      change |k * x| + |k * y| = k * (|x| + |y|)
      rw [abs_mul, abs_mul, abs_of_nonneg hk]; ring)
    (fun _ => by norm_num) (by decide) constRng 1 n ()
  refine ⟨h', e, ?_⟩
  have h1 := (hx (2, 1) (fun h => absurd h.1 (by decide))).1
  have h2 : scaledTo exParams.nrm (⟨fun _ => 2, fun _ => 4, fun _ => 3⟩ : Flux 4 3 ℚ) (fun _ => 2) (2, 1) = 1 := by
    decide +kernel
  simpa only [one_ne_zero, if_false, h2, newWaterHold] using h1

end Verif.Props
